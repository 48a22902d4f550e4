import Verif.Props.MPC

set_option autoImplicit false

/-!
# C71: plans are economical

What a solution of the planning problem does in each step, for every horizon and all data: energy is taken from the cheaper
side first, and nothing is wasted.  All of it follows by exchanging one step of the solution.
-/

namespace Pymgrid.MPC

variable {P : Problem} {x : Point}

/-- C71: load is not shed while the grid could serve it at a lower cost. -/
theorem C71_served (h : Optimal P x) {j : Nat} (hj : j < P.horizon) (hp : importCost P j < P.static.lossLoad) :
    (x.flow P.genset j).loss = 0 ∨ (x.flow P.genset j).imp = P.inputs.pImport * P.inputs.grid.getD j 0 := by
  have ok := ((feasible_iff P x).mp h.1) j hj
  have ex := fun s hs ok => exchange h hj (s := s) hs ok
  generalize x.flow P.genset j = f at ok ex ⊢
  by_contra hne
  push Not at hne
  have ha : 0 < f.loss := lt_of_le_of_ne ok.loss.1 (Ne.symm hne.1)
  have hb : 0 < P.inputs.pImport * P.inputs.grid.getD j 0 - f.imp := sub_pos.mpr (lt_of_le_of_ne ok.imp.2 hne.2)
  obtain ⟨d, hd0, hd1, hd2⟩ : ∃ d : ℚ, 0 < d ∧ d ≤ f.loss ∧ d ≤ P.inputs.pImport * P.inputs.grid.getD j 0 - f.imp :=
    ⟨min (f.loss) (P.inputs.pImport * P.inputs.grid.getD j 0 - f.imp), lt_min ha hb, min_le_left _ _, min_le_right _ _⟩
  have := ex { f with loss := f.loss - d, imp := f.imp + d } rfl
    { ok with
      balance := by have := ok.balance; simp only; linarith
      dynamics := ok.dynamics
      loss := ⟨by simp only; linarith, by have := ok.loss.2; simp only; linarith⟩
      imp := ⟨by have := ok.imp.1; simp only; linarith, by simp only; linarith⟩ }
  have hpos : 0 < (P.static.lossLoad - importCost P j) * d := mul_pos (by linarith) hd0
  simp only [billed, importCost] at this hpos
  linarith


/-- C71: load is not shed while PV is curtailed. -/
theorem C71_no_waste (h : Optimal P x) {j : Nat} (hj : j < P.horizon) (hp : 0 < P.static.lossLoad) :
    (x.flow P.genset j).loss = 0 ∨ (x.flow P.genset j).curtailed = 0 := by
  have ok := ((feasible_iff P x).mp h.1) j hj
  have ex := fun s hs ok => exchange h hj (s := s) hs ok
  generalize x.flow P.genset j = f at ok ex ⊢
  by_contra hne
  push Not at hne
  have ha : 0 < f.loss := lt_of_le_of_ne ok.loss.1 (Ne.symm hne.1)
  have hb : 0 < f.curtailed := lt_of_le_of_ne ok.curtailed.1 (Ne.symm hne.2)
  obtain ⟨d, hd0, hd1, hd2⟩ : ∃ d : ℚ, 0 < d ∧ d ≤ f.loss ∧ d ≤ f.curtailed :=
    ⟨min (f.loss) (f.curtailed), lt_min ha hb, min_le_left _ _, min_le_right _ _⟩
  have := ex { f with loss := f.loss - d, curtailed := f.curtailed - d } rfl
    { ok with
      balance := by have := ok.balance; simp only; linarith
      dynamics := ok.dynamics
      loss := ⟨by simp only; linarith, by have := ok.loss.2; simp only; linarith⟩
      curtailed := ⟨by simp only; linarith, by have := ok.curtailed.2; simp only; linarith⟩ }
  have hpos : 0 < (P.static.lossLoad) * d := mul_pos (by linarith) hd0
  simp only [billed] at this
  linarith


/-- C71: nothing is bought while PV is curtailed. -/
theorem C71_pv_first (h : Optimal P x) {j : Nat} (hj : j < P.horizon) (hp : 0 < importCost P j) :
    (x.flow P.genset j).imp = 0 ∨ (x.flow P.genset j).curtailed = 0 := by
  have ok := ((feasible_iff P x).mp h.1) j hj
  have ex := fun s hs ok => exchange h hj (s := s) hs ok
  generalize x.flow P.genset j = f at ok ex ⊢
  by_contra hne
  push Not at hne
  have ha : 0 < f.imp := lt_of_le_of_ne ok.imp.1 (Ne.symm hne.1)
  have hb : 0 < f.curtailed := lt_of_le_of_ne ok.curtailed.1 (Ne.symm hne.2)
  obtain ⟨d, hd0, hd1, hd2⟩ : ∃ d : ℚ, 0 < d ∧ d ≤ f.imp ∧ d ≤ f.curtailed :=
    ⟨min (f.imp) (f.curtailed), lt_min ha hb, min_le_left _ _, min_le_right _ _⟩
  have := ex { f with imp := f.imp - d, curtailed := f.curtailed - d } rfl
    { ok with
      balance := by have := ok.balance; simp only; linarith
      dynamics := ok.dynamics
      imp := ⟨by simp only; linarith, by have := ok.imp.2; simp only; linarith⟩
      curtailed := ⟨by simp only; linarith, by have := ok.curtailed.2; simp only; linarith⟩ }
  have hpos : 0 < (importCost P j) * d := mul_pos (by linarith) hd0
  simp only [billed, importCost] at this hpos
  linarith


/-- C71: the grid is not used in both directions in one step. -/
theorem C71_one_way (h : Optimal P x) {j : Nat} (hj : j < P.horizon) (hp : 0 < importCost P j + P.inputs.exportPrice.getD j 0) :
    (x.flow P.genset j).imp = 0 ∨ (x.flow P.genset j).exp = 0 := by
  have ok := ((feasible_iff P x).mp h.1) j hj
  have ex := fun s hs ok => exchange h hj (s := s) hs ok
  generalize x.flow P.genset j = f at ok ex ⊢
  by_contra hne
  push Not at hne
  have ha : 0 < f.imp := lt_of_le_of_ne ok.imp.1 (Ne.symm hne.1)
  have hb : 0 < f.exp := lt_of_le_of_ne ok.exp.1 (Ne.symm hne.2)
  obtain ⟨d, hd0, hd1, hd2⟩ : ∃ d : ℚ, 0 < d ∧ d ≤ f.imp ∧ d ≤ f.exp :=
    ⟨min (f.imp) (f.exp), lt_min ha hb, min_le_left _ _, min_le_right _ _⟩
  have := ex { f with imp := f.imp - d, exp := f.exp - d } rfl
    { ok with
      balance := by have := ok.balance; simp only; linarith
      dynamics := ok.dynamics
      imp := ⟨by simp only; linarith, by have := ok.imp.2; simp only; linarith⟩
      exp := ⟨by simp only; linarith, by have := ok.exp.2; simp only; linarith⟩ }
  have hpos : 0 < (importCost P j + P.inputs.exportPrice.getD j 0) * d := mul_pos (by linarith) hd0
  simp only [billed, importCost] at this hpos
  linarith


/-- C71: the genset runs above its minimum only if the grid is used up, when importing is cheaper. -/
theorem C71_grid_first (h : Optimal P x) {j : Nat} (hj : j < P.horizon) (hg : P.genset = true) (hm : 0 ≤ P.static.gensetMin)
    (hp : importCost P j < gensetCost P) :
    (x.flow P.genset j).genset = 0 ∨ (x.flow P.genset j).genset = P.static.gensetMin ∨
      (x.flow P.genset j).imp = P.inputs.pImport * P.inputs.grid.getD j 0 := by
  have ok := ((feasible_iff P x).mp h.1) j hj
  have ex := fun s hs ok => exchange h hj (s := s) hs ok
  have key := ok.genset
  rw [if_pos hg] at key
  generalize x.flow P.genset j = f at ok ex key ⊢
  rcases key with ⟨-, k, -⟩ | ⟨k1, k2, k3, k4⟩
  · exact .inl k
  refine .inr ?_
  by_contra hne
  push Not at hne
  have ha : 0 < f.genset - P.static.gensetMin := sub_pos.mpr (lt_of_le_of_ne k3 (Ne.symm hne.1))
  have hb : 0 < P.inputs.pImport * P.inputs.grid.getD j 0 - f.imp := sub_pos.mpr (lt_of_le_of_ne ok.imp.2 hne.2)
  obtain ⟨d, hd0, hd1, hd2⟩ : ∃ d : ℚ, 0 < d ∧ d ≤ f.genset - P.static.gensetMin ∧ d ≤ P.inputs.pImport * P.inputs.grid.getD j 0 - f.imp :=
    ⟨min (f.genset - P.static.gensetMin) (P.inputs.pImport * P.inputs.grid.getD j 0 - f.imp), lt_min ha hb, min_le_left _ _, min_le_right _ _⟩
  have := ex { f with genset := f.genset - d, imp := f.imp + d } rfl
    { ok with
      balance := by have := ok.balance; simp only; linarith
      dynamics := ok.dynamics
      imp := ⟨by have := ok.imp.1; simp only; linarith, by simp only; linarith⟩
      genset := by rw [if_pos hg]; exact .inr ⟨k1, by simp only; linarith, by simp only; linarith, by simp only; linarith⟩ }
  have hpos : 0 < (gensetCost P - importCost P j) * d := mul_pos (by linarith) hd0
  simp only [billed, importCost, gensetCost] at this hpos
  linarith


/-- C71: the genset runs above its minimum only if no PV is curtailed. -/
theorem C71_pv_before_genset (h : Optimal P x) {j : Nat} (hj : j < P.horizon) (hg : P.genset = true) (hm : 0 ≤ P.static.gensetMin)
    (hp : 0 < gensetCost P) :
    (x.flow P.genset j).genset = 0 ∨ (x.flow P.genset j).genset = P.static.gensetMin ∨
      (x.flow P.genset j).curtailed = 0 := by
  have ok := ((feasible_iff P x).mp h.1) j hj
  have ex := fun s hs ok => exchange h hj (s := s) hs ok
  have key := ok.genset
  rw [if_pos hg] at key
  generalize x.flow P.genset j = f at ok ex key ⊢
  rcases key with ⟨-, k, -⟩ | ⟨k1, k2, k3, k4⟩
  · exact .inl k
  refine .inr ?_
  by_contra hne
  push Not at hne
  have ha : 0 < f.genset - P.static.gensetMin := sub_pos.mpr (lt_of_le_of_ne k3 (Ne.symm hne.1))
  have hb : 0 < f.curtailed := lt_of_le_of_ne ok.curtailed.1 (Ne.symm hne.2)
  obtain ⟨d, hd0, hd1, hd2⟩ : ∃ d : ℚ, 0 < d ∧ d ≤ f.genset - P.static.gensetMin ∧ d ≤ f.curtailed :=
    ⟨min (f.genset - P.static.gensetMin) (f.curtailed), lt_min ha hb, min_le_left _ _, min_le_right _ _⟩
  have := ex { f with genset := f.genset - d, curtailed := f.curtailed - d } rfl
    { ok with
      balance := by have := ok.balance; simp only; linarith
      dynamics := ok.dynamics
      curtailed := ⟨by simp only; linarith, by have := ok.curtailed.2; simp only; linarith⟩
      genset := by rw [if_pos hg]; exact .inr ⟨k1, by simp only; linarith, by simp only; linarith, by simp only; linarith⟩ }
  have hpos : 0 < (gensetCost P) * d := mul_pos (by linarith) hd0
  simp only [billed, gensetCost] at this hpos
  linarith


/-- C71: while the genset is running and cheaper than importing, nothing is bought unless it runs at its maximum. -/
theorem C71_genset_first (h : Optimal P x) {j : Nat} (hj : j < P.horizon) (hg : P.genset = true) (hon : x.u j = 1)
    (hp : gensetCost P < importCost P j) :
    (x.flow P.genset j).imp = 0 ∨ (x.flow P.genset j).genset = P.static.gensetMax := by
  have ok := ((feasible_iff P x).mp h.1) j hj
  have ex := fun s hs ok => exchange h hj (s := s) hs ok
  have key := ok.genset
  rw [if_pos hg] at key
  generalize x.flow P.genset j = f at ok ex key ⊢
  obtain ⟨k2, k3, k4⟩ : 0 ≤ f.genset ∧ P.static.gensetMin ≤ f.genset ∧ f.genset ≤ P.static.gensetMax := by
    rcases key with ⟨k, -⟩ | ⟨-, k⟩
    · rw [hon] at k; exact absurd k (by norm_num)
    · exact k
  by_contra hne
  push Not at hne
  have ha : 0 < P.static.gensetMax - f.genset := sub_pos.mpr (lt_of_le_of_ne k4 hne.2)
  have hb : 0 < f.imp := lt_of_le_of_ne ok.imp.1 (Ne.symm hne.1)
  obtain ⟨d, hd0, hd1, hd2⟩ : ∃ d : ℚ, 0 < d ∧ d ≤ P.static.gensetMax - f.genset ∧ d ≤ f.imp :=
    ⟨min (P.static.gensetMax - f.genset) (f.imp), lt_min ha hb, min_le_left _ _, min_le_right _ _⟩
  have := ex { f with genset := f.genset + d, imp := f.imp - d } rfl
    { ok with
      balance := by have := ok.balance; simp only; linarith
      dynamics := ok.dynamics
      imp := ⟨by simp only; linarith, by have := ok.imp.2; simp only; linarith⟩
      genset := by rw [if_pos hg]; exact .inr ⟨hon, by simp only; linarith, by simp only; linarith, by simp only; linarith⟩ }
  have hpos : 0 < (importCost P j - gensetCost P) * d := mul_pos (by linarith) hd0
  simp only [billed, importCost, gensetCost] at this hpos
  linarith


/-- C71: while the genset is running and cheaper than shedding load, no load is shed unless it runs at its maximum. -/
theorem C71_genset_serves (h : Optimal P x) {j : Nat} (hj : j < P.horizon) (hg : P.genset = true) (hon : x.u j = 1)
    (hp : gensetCost P < P.static.lossLoad) :
    (x.flow P.genset j).loss = 0 ∨ (x.flow P.genset j).genset = P.static.gensetMax := by
  have ok := ((feasible_iff P x).mp h.1) j hj
  have ex := fun s hs ok => exchange h hj (s := s) hs ok
  have key := ok.genset
  rw [if_pos hg] at key
  generalize x.flow P.genset j = f at ok ex key ⊢
  obtain ⟨k2, k3, k4⟩ : 0 ≤ f.genset ∧ P.static.gensetMin ≤ f.genset ∧ f.genset ≤ P.static.gensetMax := by
    rcases key with ⟨k, -⟩ | ⟨-, k⟩
    · rw [hon] at k; exact absurd k (by norm_num)
    · exact k
  by_contra hne
  push Not at hne
  have ha : 0 < P.static.gensetMax - f.genset := sub_pos.mpr (lt_of_le_of_ne k4 hne.2)
  have hb : 0 < f.loss := lt_of_le_of_ne ok.loss.1 (Ne.symm hne.1)
  obtain ⟨d, hd0, hd1, hd2⟩ : ∃ d : ℚ, 0 < d ∧ d ≤ P.static.gensetMax - f.genset ∧ d ≤ f.loss :=
    ⟨min (P.static.gensetMax - f.genset) (f.loss), lt_min ha hb, min_le_left _ _, min_le_right _ _⟩
  have := ex { f with genset := f.genset + d, loss := f.loss - d } rfl
    { ok with
      balance := by have := ok.balance; simp only; linarith
      dynamics := ok.dynamics
      loss := ⟨by simp only; linarith, by have := ok.loss.2; simp only; linarith⟩
      genset := by rw [if_pos hg]; exact .inr ⟨hon, by simp only; linarith, by simp only; linarith, by simp only; linarith⟩ }
  have hpos : 0 < (P.static.lossLoad - gensetCost P) * d := mul_pos (by linarith) hd0
  simp only [billed, gensetCost] at this hpos
  linarith


/-! ### Example -/

/-- One step with a load of 60, PV of 20, a grid that gives up to 30, a battery at its minimum and a genset. -/
def busyProblem : Problem :=
  { genset := true, horizon := 1
    static := { eta := 9/10, capacity := 100, fuel := 2/5, cycle := 1/50, lossLoad := 10, gensetMin := 5, gensetMax := 50
                costCo2 := 1/10, gensetCo2 := 2 }
    inputs := { load := [60], pv := [20], grid := [1], importPrice := [1/5], exportPrice := [1/10], eMax := 1
                eMin := 1/5, pCharge := 25, pDischarge := 25, pImport := 30, pExport := 100, soc := 1/5, costCo2 := 1/10
                gridCo2 := [1/4] } }

/-- It has a solution, which buys 30 and takes 10 from the genset. -/
theorem busy_optimal : ∃ x, Optimal busyProblem x ∧ x.u 0 = 1 ∧ x.flow true 0 = { genset := 10, imp := 30, soc := 1/5 } := by
  have h : Admissible busyProblem (fun _ => { genset := 10, imp := 30, soc := 1/5 }) fun _ => 1 := by
    intro j hj
    have : j = 0 := by simp only [busyProblem] at hj; omega
    subst this
    constructor <;> norm_num [busyProblem, socBefore]
  obtain ⟨hy, hq⟩ := admissible_feasible h
  refine ⟨_, ⟨hy, fun z hz => ?_⟩, rfl, hq 0 (by decide)⟩
  have hk := ((feasible_iff _ z).mp hz) 0 (by decide)
  rw [objective_eq, objective_eq]
  have h0 := hq 0 (by decide)
  have e : busyProblem.horizon = 1 := rfl
  rw [e]
  simp only [Finset.sum_range_one]
  rw [h0]
  generalize z.flow busyProblem.genset 0 = f at *
  have b := hk.balance
  have d := hk.dynamics
  have w := hk.window.1
  have i1 := hk.imp.2
  have e0 := hk.exp.1
  have c0 := hk.charge.1
  have d0 := hk.discharge.1
  have l0 := hk.loss.1
  have u0 := hk.curtailed.1
  simp [billed, busyProblem, socBefore] at b d w i1 e0 c0 d0 l0 u0 ⊢
  rw [d] at w
  linarith

/-- The hypotheses of C71 are met, and so are the second alternatives of the conclusions. -/
example : importCost busyProblem 0 < busyProblem.static.lossLoad ∧ 0 < importCost busyProblem 0 ∧
    importCost busyProblem 0 < gensetCost busyProblem ∧ gensetCost busyProblem < busyProblem.static.lossLoad ∧
    busyProblem.inputs.pImport * busyProblem.inputs.grid.getD 0 0 = 30 := by
  norm_num [importCost, gensetCost, busyProblem]

end Pymgrid.MPC
