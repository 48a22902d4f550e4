import Mathlib.Algebra.BigOperators.Ring.Finset
import Verif.Lemmas.MPC

set_option autoImplicit false

/-!
# C65, C66: the plans of the model predictive control

The optimisation problem of `ModelPredictiveControl` for every horizon, all data and all parameters, with and without a
genset.
-/

namespace Pymgrid.MPC

variable {P : Problem} {x : Point}

/-! ## C65 -/

/-- C65: a point meets the constraints handed to the solver iff it is a physically possible plan: in every step of the
    horizon it balances, follows the dynamics of the battery, and respects the limits and the status of all components. -/
theorem C65_plans : Feasible P x ↔ Admissible P (x.flow P.genset) x.u := feasible_iff P x

/-- C65: no physically possible plan is missed. -/
theorem C65_all_plans {f : Nat → Flow} {on : Nat → ℚ} (h : Admissible P f on) :
    ∃ y, Feasible P y ∧ y.u = on ∧ ∀ j < P.horizon, y.flow P.genset j = f j :=
  ⟨_, (admissible_feasible h).1, rfl, (admissible_feasible h).2⟩

/-- C65: there is always a plan if the state of charge is in its window: all PV is curtailed and no load is served. -/
theorem C65_exists (hp : P.Good) (hs : P.inputs.eMin ≤ P.inputs.soc ∧ P.inputs.soc ≤ P.inputs.eMax) : ∃ y, Feasible P y :=
  exists_feasible hp hs

/-- C65: so the solver always has an answer, and it is such a plan. -/
theorem C65_answer {solve : Solver} (hs : solve.Sound) (hp : P.Good)
    (hw : P.inputs.eMin ≤ P.inputs.soc ∧ P.inputs.soc ≤ P.inputs.eMax) :
    ∃ y, solve P = some y ∧ Admissible P (y.flow P.genset) y.u := by
  obtain ⟨y, hy⟩ := C65_exists hp hw
  obtain ⟨z, hz⟩ := hs.complete P y hy
  exact ⟨z, hz, (feasible_iff P z).mp (hs.feasible P z hz)⟩

/-- C65: the control dict of step `j` requests the energies of step `j` of the plan. -/
theorem C65_control (j : Nat) : let f := x.flow P.genset j
    (control P x j).charge = some f.charge ∧ (control P x j).discharge = some f.discharge ∧
      (control P x j).imp = some f.imp ∧ (control P x j).exp = some f.exp ∧
      (control P x j).genset = if P.genset then some f.genset else none := by
  unfold control Point.flow
  cases P.genset
  · simp [Nat.mul_comm j]
  · simp [Nat.mul_comm j]

/-- A battery of 100 units between 20 and 100, a genset of 5 to 50 and a grid that is down in the second step. -/
def demoProblem : Problem :=
  { genset := true, horizon := 2
    static := { eta := 9/10, capacity := 100, fuel := 2/5, cycle := 1/50, lossLoad := 10, gensetMin := 5, gensetMax := 50
                costCo2 := 1/10, gensetCo2 := 2 }
    inputs := { load := [60, 40], pv := [30, 0], grid := [1, 0], importPrice := [1/5, 3/10], exportPrice := [0, 0], eMax := 1
                eMin := 1/5, pCharge := 25, pDischarge := 25, pImport := 100, pExport := 100, soc := 1/2, costCo2 := 1/10
                gridCo2 := [1/4, 1/4] } }

theorem demoProblem_good : demoProblem.Good := by
  constructor <;> simp only [demoProblem] <;> try norm_num
  · intro j hj; interval_cases j <;> norm_num
  · intro j hj; interval_cases j <;> norm_num
  · intro j hj; interval_cases j <;> norm_num

/-- A plan for it: 30 units are bought, of which none is stored; in the second step battery and genset share the load. -/
def demoPlan : Nat → Flow
  | 0 => { imp := 30, soc := 1/2 }
  | _ => { genset := 22, discharge := 18, soc := 3/10 }

/-- A non-trivial plan meets the hypotheses. -/
theorem demoPlan_ok : Admissible demoProblem demoPlan fun j => if j = 0 then 0 else 1 := by
  intro j hj
  have : j = 0 ∨ j = 1 := by simp only [demoProblem] at hj; omega
  rcases this with rfl | rfl
  · constructor <;> norm_num [demoProblem, demoPlan, socBefore]
  · constructor <;> norm_num [demoProblem, demoPlan, socBefore]

example : ∃ y, Feasible demoProblem y ∧ y.flow true 1 = { genset := 22, discharge := 18, soc := 3/10 } := by
  obtain ⟨y, hy, -, h⟩ := C65_all_plans demoPlan_ok
  exact ⟨y, hy, h 1 (by decide)⟩

/-- There is a sound solver. -/
theorem exists_sound : ∃ solve : Solver, solve.Sound := by
  classical
  refine ⟨fun P => if h : ∃ x, Feasible P x then some h.choose else none, ?_, ?_⟩
  · intro P x hx
    by_cases h : ∃ x, Feasible P x
    · simp only [dif_pos h, Option.some.injEq] at hx
      exact hx ▸ h.choose_spec
    · simp [dif_neg h] at hx
  · intro P x hx
    exact ⟨_, dif_pos ⟨x, hx⟩⟩

/-! ## C66 -/

/-- C66, the objective: it is what the microgrid would charge for the plan, except that exports are counted as a cost
    although they are an income. -/
theorem C66_objective : objective P x = totalBilled P (x.flow P.genset) +
    2 * ∑ j ∈ Finset.range P.horizon, P.inputs.exportPrice.getD j 0 * (x.flow P.genset j).exp := by
  rw [objective_eq, Finset.sum_add_distrib, Finset.mul_sum]
  rfl

/-- C66: if exports are not paid for, a solution has the least cost of all physically possible plans.
    Missing: the case that exports are paid for, in which it has not (`C66_violated`). -/
theorem C66_minimal_partial (h : Optimal P x) (he : ∀ j < P.horizon, P.inputs.exportPrice.getD j 0 = 0) {f : Nat → Flow}
    {on : Nat → ℚ} (hf : Admissible P f on) : totalBilled P (x.flow P.genset) ≤ totalBilled P f := by
  obtain ⟨hy, hq⟩ := admissible_feasible hf
  have hle := h.2 _ hy
  rw [C66_objective, C66_objective] at hle
  have z : ∀ g : Nat → Flow, ∑ j ∈ Finset.range P.horizon, P.inputs.exportPrice.getD j 0 * (g j).exp = 0 := by
    intro g
    apply Finset.sum_eq_zero
    intro j hj
    rw [he j (Finset.mem_range.mp hj), zero_mul]
  rw [z, z] at hle
  have : totalBilled P ((ofFlows P.genset f on).flow P.genset) = totalBilled P f := by
    apply Finset.sum_congr rfl
    intro j hj
    rw [hq j (Finset.mem_range.mp hj)]
  linarith

/-- Replacing one step of a plan by a cheaper one with the same state of charge. -/
theorem exchange (h : Optimal P x) {j : Nat} (hj : j < P.horizon) {s : Flow} (hs : s.soc = (x.flow P.genset j).soc)
    (ok : StepOK P j (socBefore P (x.flow P.genset) j) (x.u j) s) :
    billed P j (x.flow P.genset j) + 2 * (P.inputs.exportPrice.getD j 0 * (x.flow P.genset j).exp) ≤
      billed P j s + 2 * (P.inputs.exportPrice.getD j 0 * s.exp) := by
  by_contra hlt
  have hlt := not_le.mp hlt
  have ha := (feasible_iff P x).mp h.1
  let f : Nat → Flow := fun i => if i = j then s else x.flow P.genset i
  have fj : f j = s := if_pos rfl
  have fi : ∀ i, i ≠ j → f i = x.flow P.genset i := fun i hi => if_neg hi
  have fsoc : ∀ i, (f i).soc = (x.flow P.genset i).soc := by
    intro i
    by_cases hi : i = j
    · rw [hi, fj, hs]
    · rw [fi i hi]
  have fb : ∀ i, socBefore P f i = socBefore P (x.flow P.genset) i := by
    intro i
    cases i with
    | zero => rfl
    | succ i => exact fsoc i
  have hf : Admissible P f x.u := by
    intro i hi
    rw [fb]
    by_cases hij : i = j
    · subst hij; rw [fj]; exact ok
    · rw [fi i hij]; exact ha i hi
  obtain ⟨hy, hq⟩ := admissible_feasible hf
  have hle := h.2 _ hy
  rw [objective_eq, objective_eq] at hle
  refine absurd hle (not_le.mpr (Finset.sum_lt_sum ?_ ⟨j, Finset.mem_range.mpr hj, ?_⟩))
  · intro i hi
    rw [hq i (Finset.mem_range.mp hi)]
    by_cases hij : i = j
    · subst hij; rw [fj]; exact hlt.le
    · rw [fi i hij]
  · rw [hq j hj, fj]
    exact hlt

/-- C66: where exports are paid for, a solution does not sell PV (whatever is sold, all PV is curtailed), and it does not
    sell what it buys. -/
theorem C66_never_sells_pv (h : Optimal P x) {j : Nat} (hj : j < P.horizon) (hpr : 0 < P.inputs.exportPrice.getD j 0)
    (he : 0 < (x.flow P.genset j).exp) :
    (x.flow P.genset j).curtailed = P.inputs.pv.getD j 0 ∧
      (0 ≤ P.inputs.importPrice.getD j 0 + P.inputs.costCo2 * P.inputs.gridCo2.getD j 0 → (x.flow P.genset j).imp = 0) := by
  have ok := ((feasible_iff P x).mp h.1) j hj
  have ex := fun s hs ok => exchange h hj (s := s) hs ok
  generalize x.flow P.genset j = f at ok he ex ⊢
  constructor
  · by_contra hne
    have hlt : f.curtailed < P.inputs.pv.getD j 0 := lt_of_le_of_ne ok.curtailed.2 hne
    obtain ⟨d, hd0, hd1, hd2⟩ : ∃ d : ℚ, 0 < d ∧ d ≤ f.exp ∧ d ≤ P.inputs.pv.getD j 0 - f.curtailed :=
      ⟨min f.exp (P.inputs.pv.getD j 0 - f.curtailed), lt_min he (by linarith), min_le_left _ _, min_le_right _ _⟩
    have := ex { f with exp := f.exp - d, curtailed := f.curtailed + d } rfl
      { ok with
        balance := by have := ok.balance; simp only; linarith
        dynamics := ok.dynamics
        exp := ⟨by simp only; linarith, by have := ok.exp.2; simp only; linarith⟩
        curtailed := ⟨by have := ok.curtailed.1; simp only; linarith, by simp only; linarith⟩ }
    have hpos : 0 < P.inputs.exportPrice.getD j 0 * d := mul_pos hpr hd0
    simp only [billed] at this
    linarith
  · intro hc
    by_contra hne
    have hlt : 0 < f.imp := lt_of_le_of_ne ok.imp.1 (Ne.symm hne)
    obtain ⟨d, hd0, hd1, hd2⟩ : ∃ d : ℚ, 0 < d ∧ d ≤ f.exp ∧ d ≤ f.imp :=
      ⟨min f.exp f.imp, lt_min he hlt, min_le_left _ _, min_le_right _ _⟩
    have := ex { f with exp := f.exp - d, imp := f.imp - d } rfl
      { ok with
        balance := by have := ok.balance; simp only; linarith
        dynamics := ok.dynamics
        exp := ⟨by simp only; linarith, by have := ok.exp.2; simp only; linarith⟩
        imp := ⟨by simp only; linarith, by have := ok.imp.2; simp only; linarith⟩ }
    have hpos : 0 < P.inputs.exportPrice.getD j 0 * d := mul_pos hpr hd0
    have hnn : 0 ≤ (P.inputs.importPrice.getD j 0 + P.inputs.costCo2 * P.inputs.gridCo2.getD j 0) * d := mul_nonneg hc hd0.le
    simp only [billed] at this
    linarith

/-- One step without load, with 10 units of PV and a buyer who pays 1 per unit. -/
def sunnyProblem : Problem :=
  { genset := false, horizon := 1
    static := { eta := 9/10, capacity := 100, fuel := 0, cycle := 1/50, lossLoad := 10, gensetMin := 0, gensetMax := 0
                costCo2 := 1/10, gensetCo2 := 0 }
    inputs := { load := [0], pv := [10], grid := [1], importPrice := [1/5], exportPrice := [1], eMax := 1
                eMin := 1/5, pCharge := 25, pDischarge := 25, pImport := 100, pExport := 100, soc := 1/2, costCo2 := 1/10
                gridCo2 := [1/4] } }

/-- Doing nothing is a solution of it. -/
theorem sunny_optimal : ∃ x, Optimal sunnyProblem x := by
  have h : Admissible sunnyProblem (fun _ => { curtailed := 10, soc := 1/2 }) fun _ => 0 := by
    intro j hj
    have : j = 0 := by simp only [sunnyProblem] at hj; omega
    subst this
    constructor <;> norm_num [sunnyProblem, socBefore]
  obtain ⟨hy, hq⟩ := admissible_feasible h
  refine ⟨_, hy, fun z hz => ?_⟩
  have hk := ((feasible_iff _ z).mp hz) 0 (by decide)
  rw [objective_eq, objective_eq]
  have h0 := hq 0 (by decide)
  have e : sunnyProblem.horizon = 1 := rfl
  rw [e]
  simp only [Finset.sum_range_one]
  rw [h0]
  have := hk.imp.1
  have := hk.exp.1
  have := hk.charge.1
  have := hk.discharge.1
  have := hk.loss.1
  have hn : (z.flow sunnyProblem.genset 0).genset = 0 := by simpa [sunnyProblem] using hk.genset
  simp [billed, sunnyProblem] at *
  linarith

/-- C66 is violated: every solution curtails the 10 units and costs 0, while selling them would earn 10. -/
theorem C66_violated : (∃ x, Optimal sunnyProblem x) ∧
    (∀ x, Optimal sunnyProblem x → totalBilled sunnyProblem (x.flow false) = 0 ∧ (x.flow false 0).curtailed = 10) ∧
    ∃ f on, Admissible sunnyProblem f on ∧ totalBilled sunnyProblem f = -10 := by
  refine ⟨sunny_optimal, fun x h => ?_, ?_⟩
  · have hz : Admissible sunnyProblem (fun _ => { curtailed := 10, soc := 1/2 }) fun _ => 0 := by
      intro j hj
      have : j = 0 := by simp only [sunnyProblem] at hj; omega
      subst this
      constructor <;> norm_num [sunnyProblem, socBefore]
    obtain ⟨hy, hq⟩ := admissible_feasible hz
    have hle := h.2 _ hy
    have hk := ((feasible_iff _ x).mp h.1) 0 (by decide)
    have h0 := hq 0 (by decide)
    rw [objective_eq, objective_eq] at hle
    have e : sunnyProblem.horizon = 1 := rfl
    unfold totalBilled
    rw [e] at hle ⊢
    simp only [Finset.sum_range_one] at hle ⊢
    rw [h0] at hle
    have g0 : sunnyProblem.genset = false := rfl
    rw [g0] at hle hk
    generalize x.flow false 0 = s at hle hk ⊢
    have b := hk.balance
    have i0 := hk.imp.1
    have e0 := hk.exp.1
    have c0 := hk.charge.1
    have d0 := hk.discharge.1
    have l0 := hk.loss.1
    have hn : s.genset = 0 := by simpa [sunnyProblem] using hk.genset
    simp only [billed, sunnyProblem, List.getD_cons_zero] at hle b ⊢
    rw [hn] at hle b ⊢
    have i1 : s.imp = 0 := by linarith
    have e1 : s.exp = 0 := by linarith
    have c1 : s.charge = 0 := by linarith
    have d1 : s.discharge = 0 := by linarith
    have l1 : s.loss = 0 := by linarith
    rw [i1, e1, c1, d1, l1] at b ⊢
    exact ⟨by norm_num, by linarith⟩
  · refine ⟨fun _ => { exp := 10, soc := 1/2 }, fun _ => 0, fun j hj => ?_, ?_⟩
    · have : j = 0 := by simp only [sunnyProblem] at hj; omega
      subst this
      constructor <;> norm_num [sunnyProblem, socBefore]
    · have e : sunnyProblem.horizon = 1 := rfl
      unfold totalBilled
      rw [e]
      simp [billed, sunnyProblem]

end Pymgrid.MPC
