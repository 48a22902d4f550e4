import Verif.Lemmas.LegacyMPC
import Verif.Props.MPC
import Verif.Props.LegacyRBC

set_option autoImplicit false

/-!
# C67: model predictive control of a legacy microgrid

`ModelPredictiveControl.run` on a legacy microgrid, for every solver that meets the constraints and every number of steps.
-/

namespace Pymgrid.MPC

open Legacy

variable {solve : Solver} {g : Grid} {b : Baseline} {i : Nat}

/-- C67, one iteration: there is a plan, and its first step is followed, unless that step needs no PV although there is some,
    in which case `run` raises `AssertionError`.
    Missing: the latter case. -/
theorem C67_step_partial (hs : solve.Sound) (h : Usual g) (hi : i + 1 < g.dataLength)
    (hw : g.params.socMin ≤ b.soc ∧ b.soc ≤ g.params.socMax) :
    ∃ x, solve (legacyProblem g i b.soc) = some x ∧ Admissible (legacyProblem g i b.soc) (x.flow g.arch.genset) x.u ∧
      ((legacyStep solve g b i = .error .assertion ∧ NoPvNeeded g i b.soc (x.flow g.arch.genset 0)) ∨
      ∃ b' e load pv row, legacyStep solve g b i = .ok b' ∧ Followed g i b b' e load pv row (x.flow g.arch.genset 0) ∧
        ¬ NoPvNeeded g i b.soc (x.flow g.arch.genset 0)) :=
  legacyStep_followed hs h hi hw

/-- C67: if the battery can do what is planned for it, all is executed as planned: the state of charge afterwards is the
    planned one, there is no overgeneration, and no more load is lost than planned.  So the cost on record is at most the
    planned one. -/
theorem C67_as_planned {b' : Baseline} {e : Entry} {load pv : ℚ} {row : StateRow} {f : Flow} (h : Usual g)
    (hf : Followed g i b b' e load pv row f) (hc : f.charge ≤ g.params.chargeLimit b.soc)
    (hd : f.discharge ≤ g.params.dischargeLimit b.soc) :
    e.charge = f.charge ∧ e.discharge = f.discharge ∧ row.soc = f.soc ∧ e.overgen = 0 ∧ e.lossLoad ≤ f.loss ∧
      (0 ≤ g.params.costLossLoad → ∃ c : CostRow, b'.costs = b.costs ++ [c] ∧
        c.total ≤ billed (legacyProblem g i b.soc) 0 f) := by
  have e1 := hf.charge
  have e2 := hf.discharge
  rw [min_eq_left hc] at e1
  rw [min_eq_left hd] at e2
  obtain ⟨on, ok⟩ := hf.possible
  have hz := h.horizon
  have l1 : (legacyProblem g i b.soc).inputs.load.getD 0 0 = load := by
    show (slice g.loads i g.horizon).getD 0 0 = load
    rw [slice_getD _ _ hz, Nat.add_zero, List.getD_eq_getElem?_getD, hf.turn.demand, Option.getD_some]
  have l2 : (legacyProblem g i b.soc).inputs.pv.getD 0 0 = pv := by
    show (slice g.pvs i g.horizon).getD 0 0 = pv
    rw [slice_getD _ _ hz, Nat.add_zero, List.getD_eq_getElem?_getD, hf.turn.sun, Option.getD_some]
  have hb := ok.balance
  rw [l1, l2] at hb
  have hcu := ok.curtailed
  rw [l2] at hcu
  have hlo := ok.loss.1
  have hB := hf.turn.balanced
  have hen := hf.exact
  rw [e1, e2, hf.imp, hf.exp, hf.genset] at hen
  obtain ⟨n1, n2, n3, n4⟩ := hB.nonneg
  have hpv := hB.pv
  have over : e.overgen = 0 := by
    by_contra hne
    have hpos : 0 < e.overgen := lt_of_le_of_ne n4 (Ne.symm hne)
    have := hB.overgenLast hpos
    have := hen (by linarith)
    rcases hB.oneSided with q | q
    · linarith
    · exact hne q
  have loss : e.lossLoad ≤ f.loss := by
    by_contra hlt
    have hpos : 0 < e.lossLoad := by linarith
    have := hB.lossLast hpos
    have := hen (by linarith)
    linarith
  refine ⟨e1, e2, ?_, over, loss, ?_⟩
  · have hs := hf.turn.soc h.battery
    have hdy := ok.dynamics
    have hcap := h.params.capacity
    have heff := h.params.eff
    have st : (legacyProblem g i b.soc).static.eta = g.params.eff ∧ (legacyProblem g i b.soc).static.capacity = g.params.capacity :=
      ⟨rfl, rfl⟩
    rw [st.1, st.2] at hdy
    rw [hdy]
    have : row.soc = (b.soc * g.params.capacity + e.charge * g.params.eff - e.discharge / g.params.eff) / g.params.capacity := by
      rw [← hs, mul_div_cancel_right₀ _ hcap.ne']
    rw [this, e1, e2]
    field_simp
    ring
  · intro hl
    obtain ⟨c, c1, c2⟩ := hf.cost
    refine ⟨c, c1, ?_⟩
    rw [c2, over]
    unfold billed executed
    simp only
    rw [e1, e2, hf.imp, hf.exp, hf.genset]
    have hm : (legacyProblem g i b.soc).static.lossLoad * e.lossLoad ≤ (legacyProblem g i b.soc).static.lossLoad * f.loss :=
      mul_le_mul_of_nonneg_left loss hl
    linarith

/-- C67: the battery can do what is planned for it if it is not charged and discharged at once and not charged beyond the limit
    of the microgrid, which is the square of the efficiency times that of the plan. -/
theorem C67_possible {soc : ℚ} {on : ℚ} {f : Flow} (h : Usual g) (ok : StepOK (legacyProblem g i soc) 0 soc on f) :
    (f.charge = 0 → f.discharge ≤ g.params.dischargeLimit soc) ∧
    (f.discharge = 0 → f.charge ≤ min g.params.pCharge ((g.params.socMax - soc) * g.params.capacity / g.params.eff)) ∧
    (f.charge ≤ (g.params.socMax - soc) * g.params.capacity * g.params.eff → f.charge ≤ g.params.chargeLimit soc) := by
  have hp := h.params
  have he := hp.eff
  have hC := hp.capacity
  have hdy := ok.dynamics
  have w1 : g.params.socMin ≤ f.soc := ok.window.1
  have w2 : f.soc ≤ g.params.socMax := ok.window.2
  have st : (legacyProblem g i soc).static.eta = g.params.eff ∧ (legacyProblem g i soc).static.capacity = g.params.capacity :=
    ⟨rfl, rfl⟩
  rw [st.1, st.2] at hdy
  have key : (f.soc - soc) * g.params.capacity = g.params.eff * f.charge - f.discharge / g.params.eff := by
    rw [hdy]
    field_simp
    ring
  refine ⟨fun h0 => le_min ok.discharge.2 (le_max_of_le_right ?_), fun h0 => le_min ok.charge.2 ?_,
    fun hc => le_min ok.charge.2 (le_max_of_le_right hc)⟩
  · rw [h0, mul_zero, zero_sub] at key
    have : f.discharge / g.params.eff ≤ (soc - g.params.socMin) * g.params.capacity := by nlinarith
    rwa [div_le_iff₀ he] at this
  · rw [h0, zero_div, sub_zero] at key
    rw [le_div_iff₀ he]
    nlinarith

/-- Usual data stay so. -/
theorem usual_reset (h : Usual g) : Usual g.reset.1 := by
  have fr := g.reset_frame
  constructor
  · rw [fr.params]; exact h.params
  · rw [fr.params]; exact h.socMin
  · exact fr.fullSeries h.series
  · rw [fr.statuses]; exact h.statuses
  · rw [fr.loads]; exact h.loads
  · rw [fr.pvs]; exact h.pvs
  · rw [fr.arch]; exact h.battery
  · rw [fr.horizon]; exact h.horizon

theorem reset_ok (h : g.FullSeries) (hl : 0 < g.dataLength) : g.reset.2 = .ok () ∧ g.reset.1.production = {} ∧
    g.reset.1.costs = [] ∧ g.reset.1.co2 = [] := by
  obtain ⟨g₂, hu, -, -, -⟩ := Grid.updateVariables_ok
    (g := { g with states := g.states.take 1, production := {}, costs := [], co2 := [], t := 0 }) h hl
  have fr := ({ g with states := g.states.take 1, production := {}, costs := [], co2 := [], t := 0 } : Grid).updateVariables_frame.2
  unfold Grid.reset
  simp only
  rw [hu] at fr ⊢
  exact ⟨rfl, fr.production, fr.costs, fr.co2⟩

theorem Iterations.turns {n : Nat} {b' : Baseline} (h : Iterations solve g i n b b') : Turns g i n b b' := by
  induction h with
  | none i b => exact .none i b
  | more s hf t ih => exact .more hf.turn ih

/-- The loop. -/
theorem legacyFrom_iterations (hs : solve.Sound) (h : Usual g) (n : Nat) : ∀ (i : Nat) (b : Baseline), i + n + 1 ≤ g.dataLength →
    b.states ≠ [] → (∀ row ∈ b.states, g.params.socMin ≤ row.soc ∧ row.soc ≤ g.params.socMax) →
    legacyFrom solve g i n b = .error .assertion ∨ ∃ b', legacyFrom solve g i n b = .ok b' ∧ Iterations solve g i n b b' := by
  induction n with
  | zero => intro i b _ _ _; exact .inr ⟨b, rfl, .none i b⟩
  | succ n ih =>
    intro i b hi hne hw
    have hsoc : g.params.socMin ≤ b.soc ∧ b.soc ≤ g.params.socMax := by
      unfold Baseline.soc
      rw [List.getLast?_eq_getLast_of_ne_nil hne]
      exact hw _ (List.getLast_mem hne)
    obtain ⟨x, hx, -, ⟨hq, -⟩ | ⟨b₁, e, load, pv, row, hq, hf, -⟩⟩ := legacyStep_followed hs h (b := b) (i := i) (by omega) hsoc
    · left
      unfold legacyFrom
      rw [hq]
    · have hw₁ := C53_baseline_soc h.params h.battery (.more hf.turn (.none (i + 1) b₁)) hne hw
      have hne₁ : b₁.states ≠ [] := by rw [hf.turn.states]; simp
      rcases ih (i + 1) b₁ (by omega) hne₁ hw₁.2 with h1 | ⟨b₂, h1, h2⟩
      · left
        unfold legacyFrom
        rw [hq]
        exact h1
      · right
        refine ⟨b₂, ?_, .more hx hf h2⟩
        unfold legacyFrom
        rw [hq]
        exact h1

/-- C67, a whole run from any state: the microgrid is reset, and unless `AssertionError` is raised every iteration
    follows the plan made for it, the grid is not used while it is down, and the state of charge stays in its window.
    Missing: the runs that raise `AssertionError` (`C67_violated`). -/
theorem C67_run_partial (hs : solve.Sound) (h : Usual g) {row : StateRow} (hr : g.states.head? = some row)
    (hw : g.params.socMin ≤ row.soc ∧ row.soc ≤ g.params.socMax) {maxSteps : Option Nat}
    (hn : maxSteps.getD (g.dataLength - g.horizon) + g.horizon ≤ g.dataLength) :
    (runLegacy solve g maxSteps).1 = g.reset.1 ∧ ((runLegacy solve g maxSteps).2 = .error .assertion ∨
      ∃ b, (runLegacy solve g maxSteps).2 = .ok b ∧
        Iterations solve g.reset.1 0 (maxSteps.getD (g.dataLength - g.horizon)) ⟨[row], {}, [], []⟩ b ∧
        b.states.length = maxSteps.getD (g.dataLength - g.horizon) + 1 ∧
        ∀ row ∈ b.states, g.params.socMin ≤ row.soc ∧ row.soc ≤ g.params.socMax) := by
  have hz := h.horizon
  have fr := g.reset_frame
  have hdl := fr.dataLength
  have hst : g.reset.1.states = [row] := by
    rw [g.reset_states]
    cases hq : g.states with
    | nil => rw [hq] at hr; simp at hr
    | cons a l => rw [hq] at hr; simpa using hr
  obtain ⟨r1, r2, r3, r4⟩ := reset_ok h.series (by omega)
  generalize hnn : maxSteps.getD (g.dataLength - g.horizon) = n at hn ⊢
  have hrun : runLegacy solve g maxSteps = (g.reset.1, legacyFrom solve g.reset.1 0 n ⟨[row], {}, [], []⟩) := by
    unfold runLegacy
    have hres : g.reset = (g.reset.1, .ok ()) := by rw [← r1]
    rw [hres]
    simp only
    rw [hst, r2, r3, r4, fr.dataLength, fr.horizon]
    cases maxSteps with
    | none => simp only [Option.getD_none] at hnn; rw [hnn]
    | some m =>
      simp only [Option.getD_some] at hnn
      subst hnn
      simp only
      rw [if_pos (by omega)]
  rw [hrun]
  refine ⟨rfl, ?_⟩
  have hw' : ∀ r ∈ (⟨[row], {}, [], []⟩ : Baseline).states, g.reset.1.params.socMin ≤ r.soc ∧ r.soc ≤ g.reset.1.params.socMax := by
    intro r hr
    rw [fr.params]
    simp only [List.mem_singleton] at hr
    subst hr
    exact hw
  rcases legacyFrom_iterations hs (usual_reset h) n 0 ⟨[row], {}, [], []⟩ (by omega) (by simp) hw' with h1 | ⟨b, h1, h2⟩
  · exact .inl h1
  · right
    obtain ⟨q1, q2⟩ := C53_baseline_soc (usual_reset h).params (usual_reset h).battery h2.turns (by simp) hw'
    refine ⟨b, h1, h2, by rw [q1]; simp; omega, ?_⟩
    rw [fr.params] at q2
    exact q2

/-- C67: a request for more steps than there are forecasts is refused. -/
theorem C67_too_long (h : Usual g) {n : Nat} (hl : 0 < g.dataLength) (hn : g.dataLength < n + g.horizon) :
    runLegacy solve g (some n) = (g.reset.1, .error .assertion) := by
  obtain ⟨r1, -⟩ := reset_ok h.series hl
  unfold runLegacy
  have hres : g.reset = (g.reset.1, .ok ()) := by rw [← r1]
  rw [hres]
  simp only
  rw [g.reset_frame.dataLength, g.reset_frame.horizon, if_neg (by omega)]

/-- C67: if there is no plan for an iteration, `TypeError` is raised; the controls of earlier iterations are not used. -/
theorem C67_infeasible (hs : solve.Sound) (h : g.FullSeries) (hi : i + 1 < g.dataLength)
    (hx : ∀ y, ¬ Feasible (legacyProblem g i b.soc) y) : legacyStep solve g b i = .error .type := by
  have hd : g.dataLength = min g.loads.length g.pvs.length := rfl
  have i1 : i < g.loads.length := by omega
  have i2 : i < g.pvs.length := by omega
  have i3 : i + 1 < g.loads.length := by omega
  have i4 : i + 1 < g.pvs.length := by omega
  have hgrid : ∀ k, k < g.dataLength → ∃ now, (if g.arch.grid then g.gridAt k else .ok ⟨0, 0, 0, 0⟩) = .ok now := by
    intro k hk
    cases hg : g.arch.grid with
    | false => exact ⟨⟨0, 0, 0, 0⟩, rfl⟩
    | true =>
      obtain ⟨row, hr⟩ := Grid.gridAt_total h hg (i := k) hk
      exact ⟨row, by simpa using hr⟩
  obtain ⟨now, hnow⟩ := hgrid i (by omega)
  obtain ⟨next, hnext⟩ := hgrid (i + 1) hi
  have hnone : solve (legacyProblem g i b.soc) = none := by
    cases hq : solve (legacyProblem g i b.soc) with
    | none => rfl
    | some y => exact absurd (hs.feasible _ y hq) (hx y)
  unfold legacyStep
  rw [List.getElem?_eq_getElem i1, List.getElem?_eq_getElem i2, List.getElem?_eq_getElem i3, List.getElem?_eq_getElem i4]
  simp only
  rw [hnow, hnext]
  simp only
  have hsoc : (b.states.getLast?.map (·.soc)).getD 0 = b.soc := rfl
  rw [hsoc, hnone]

/-- Microgrids with a battery and PV only. -/
def island (params : Params) (loads pvs : List ℚ) (horizon : Nat) (soc : ℚ) : Grid :=
  { arch := ⟨true, false, false⟩, params, loads, pvs, statuses := [], importPrices := [], exportPrices := [], co2s := [], horizon
    load := loads.getD 0 0, pv := pvs.getD 0 0, nextLoad := loads[1]?, nextPv := pvs[1]?, cur := ⟨0, 0, 0, 0⟩, next := none
    states := [⟨loads[0]?, pvs[0]?, 0, soc, params.capaToCharge soc, params.capaToDischarge soc, none⟩]
    production := {}, costs := [], co2 := [], done := false, batterySoc := soc }

/-- A full battery, no load and sun. -/
def fullIsland : Grid := island demoParams [0, 40, 30, 20] [30, 50, 10, 0] 1 1

/-- It is what the constructor makes. -/
theorem fullIsland_ok : (create ⟨true, false, false⟩ demoParams [0, 40, 30, 20] [30, 50, 10, 0] [] [] [] [] 1 1
    ⟨some 0, some 30, 0, 1, 0, 72, none⟩).toOption = some fullIsland := by decide +kernel

theorem fullIsland_usual : Usual fullIsland := by
  refine ⟨demoParams_good, by decide +kernel, fun h => by simp [fullIsland, island] at h, by decide +kernel, by decide +kernel,
    by decide +kernel, rfl, by decide⟩

/-- The solver returns solutions. -/
structure Solver.Exact (solve : Solver) : Prop where
  optimal : ∀ P x, solve P = some x → Optimal P x
  complete : ∀ P x, Feasible P x → ∃ y, solve P = some y

theorem Solver.Exact.sound (h : solve.Exact) : solve.Sound := ⟨fun P x hx => (h.optimal P x hx).1, h.complete⟩

/-- C67 is violated: with a full battery, no load and sun, every run of every exact solver raises `AssertionError`. -/
theorem C67_violated (hs : solve.Exact) {n : Nat} (hn : 0 < n) :
    (runLegacy solve fullIsland (some n)).2 = .error .assertion := by
  have hres : fullIsland.reset = (fullIsland, .ok ()) := by
    have : (fullIsland.reset.1, fullIsland.reset.2.isOk) = (fullIsland, true) := by decide +kernel
    obtain ⟨h1, h2⟩ := Prod.mk.inj this
    cases hq : fullIsland.reset with
    | mk a c =>
      rw [hq] at h1 h2
      simp only at h1 h2
      subst h1
      cases c with
      | ok u => rfl
      | error e => simp [Except.isOk, Except.toBool] at h2
  unfold runLegacy
  rw [hres]
  simp only
  split
  · obtain ⟨m, rfl⟩ : ∃ m, n = m + 1 := ⟨n - 1, by omega⟩
    simp only
    unfold legacyFrom
    set b : Baseline := ⟨fullIsland.states, fullIsland.production, fullIsland.costs, fullIsland.co2⟩ with hb
    have hsoc : b.soc = 1 := by decide +kernel
    obtain ⟨x, hx, hadm, ⟨hq, -⟩ | ⟨b', e, load, pv, row, hq, hf, hno⟩⟩ :=
      legacyStep_followed hs.sound fullIsland_usual (b := b) (i := 0) (by decide) (by rw [hsoc]; decide +kernel)
    · rw [hq]
    · exfalso
      apply hno
      rw [hsoc] at hx hadm ⊢
      have hP : legacyProblem fullIsland 0 1 =
          { genset := false, horizon := 1
            static := { eta := 9/10, capacity := 100, fuel := 0, cycle := 1/50, lossLoad := 10, gensetMin := 0, gensetMax := 0
                        costCo2 := 1/10, gensetCo2 := 0 }
            inputs := { load := [0], pv := [30], grid := [0], importPrice := [0], exportPrice := [0], eMax := 1
                        eMin := 1/5, pCharge := 25, pDischarge := 25, pImport := 0, pExport := 0, soc := 1, costCo2 := 1/10
                        gridCo2 := [0] } } := by decide +kernel
      have ho := hs.optimal _ _ hx
      rw [hP] at ho hadm
      have ok := hadm 0 (by decide)
      have idle : Admissible (legacyProblem fullIsland 0 1) (fun _ => { curtailed := 30, soc := 1 }) fun _ => 0 := by
        rw [hP]
        intro j hj
        have : j = 0 := by simp only at hj; omega
        subst this
        constructor <;> norm_num [socBefore]
      rw [hP] at idle
      obtain ⟨hy, hyq⟩ := admissible_feasible idle
      have hle := ho.2 _ hy
      have h0 := hyq 0 (by decide)
      rw [objective_eq, objective_eq] at hle
      simp only [Finset.sum_range_one] at hle h0
      rw [h0] at hle
      have hg : fullIsland.arch.genset = false := rfl
      rw [hg] at ok ⊢
      generalize x.flow false 0 = f at ok hle ⊢
      have i0 := ok.imp
      have e0 := ok.exp
      have c0 := ok.charge.1
      have d0 := ok.discharge.1
      have l0 := ok.loss.1
      have hgn : f.genset = 0 := by simpa using ok.genset
      simp only [billed, List.getD_cons_zero] at hle i0 e0
      have i1 : f.imp = 0 := by linarith
      have x1 : f.exp = 0 := by linarith
      have c1 : f.charge = 0 := by linarith
      have d1 : f.discharge = 0 := by linarith
      refine ⟨0, 30, by decide +kernel, by decide +kernel, by norm_num, ?_⟩
      rw [i1, x1, c1, d1, hgn]
      decide +kernel
  · rfl

/-- A battery that is nearly full, 20 units of PV to spare, and a large load to come. -/
def clipIsland : Grid := island { demoParams with pDischarge := 100 } [10, 1000, 1000] [30, 0, 0] 2 (9/10)

theorem clipIsland_usual : Usual clipIsland := by
  refine ⟨by constructor <;> norm_num [clipIsland, island, demoParams], by decide +kernel,
    fun h => by simp [clipIsland, island] at h, by decide +kernel, by decide +kernel, by decide +kernel, rfl, by decide⟩

/-- C67 is violated: plans are made with a larger limit for charging than the microgrid has.  Every exact solver plans to charge
    100/9 units; 9 are charged, and the battery is not full afterwards. -/
theorem C67_clipped (hs : solve.Exact) : ∃ x b, solve (legacyProblem clipIsland 0 (9/10)) = some x ∧
    (x.flow false 0).charge = 100/9 ∧ (x.flow false 0).soc = 1 ∧
    legacyStep solve clipIsland ⟨clipIsland.states, {}, [], []⟩ 0 = .ok b ∧ b.soc = 981/1000 ∧
    ∃ e load pv row, Followed clipIsland 0 ⟨clipIsland.states, {}, [], []⟩ b e load pv row (x.flow false 0) ∧ e.charge = 9 := by
  set b : Baseline := ⟨clipIsland.states, {}, [], []⟩ with hb
  have hsoc : b.soc = 9/10 := by decide +kernel
  obtain ⟨x, hx, hadm, hcase⟩ :=
    legacyStep_followed hs.sound clipIsland_usual (b := b) (i := 0) (by decide) (by rw [hsoc]; decide +kernel)
  rw [hsoc] at hx hadm
  have hP : legacyProblem clipIsland 0 (9/10) =
      { genset := false, horizon := 2
        static := { eta := 9/10, capacity := 100, fuel := 0, cycle := 1/50, lossLoad := 10, gensetMin := 0, gensetMax := 0
                    costCo2 := 1/10, gensetCo2 := 0 }
        inputs := { load := [10, 1000], pv := [30, 0], grid := [0, 0], importPrice := [0, 0], exportPrice := [0, 0], eMax := 1
                    eMin := 1/5, pCharge := 25, pDischarge := 100, pImport := 0, pExport := 0, soc := 9/10, costCo2 := 1/10
                    gridCo2 := [0, 0] } } := by decide +kernel
  have ho := hs.optimal _ _ hx
  have best : Admissible (legacyProblem clipIsland 0 (9/10)) (fun j => if j = 0 then
      { charge := 100/9, curtailed := 80/9, soc := 1 } else { discharge := 72, loss := 928, soc := 1/5 }) fun _ => 0 := by
    rw [hP]
    intro j hj
    have : j = 0 ∨ j = 1 := by simp only at hj; omega
    rcases this with rfl | rfl <;> constructor <;> norm_num [socBefore]
  obtain ⟨hy, hyq⟩ := admissible_feasible best
  have hle := ho.2 _ hy
  have h0 := hyq 0 (by decide)
  have h1 := hyq 1 (by decide)
  rw [objective_eq, objective_eq] at hle
  have hg : clipIsland.arch.genset = false := rfl
  have ok0 := hadm 0 (by decide)
  have ok1 := hadm 1 (by decide)
  have hg' : (legacyProblem clipIsland 0 (9/10)).genset = false := rfl
  have hh : (legacyProblem clipIsland 0 (9/10)).horizon = 2 := rfl
  rw [hh] at hle
  simp only [Finset.sum_range_succ, Finset.sum_range_zero, zero_add] at hle
  rw [h0, h1, hg'] at hle
  rw [hg] at ok0 ok1 hcase
  simp only [socBefore] at ok0 ok1
  have hplan : (x.flow false 0).charge = 100/9 ∧ (x.flow false 0).discharge = 0 ∧ (x.flow false 0).soc = 1 ∧
      (x.flow false 0).imp = 0 ∧ (x.flow false 0).exp = 0 ∧ (x.flow false 0).genset = 0 := by
    generalize x.flow false 0 = f at hle ok0 ok1 ⊢
    generalize x.flow false 1 = k at hle ok1
    rw [hP] at hle ok0 ok1
    have b0 := ok0.balance
    have b1 := ok1.balance
    have y0 := ok0.dynamics
    have y1 := ok1.dynamics
    have w0 := ok0.window
    have w1 := ok1.window
    have i0 := ok0.imp
    have i1 := ok1.imp
    have e0 := ok0.exp
    have e1 := ok1.exp
    have c0 := ok0.charge
    have c1 := ok1.charge
    have d0 := ok0.discharge
    have d1 := ok1.discharge
    have u0 := ok0.curtailed
    have u1 := ok1.curtailed
    have l0 := ok0.loss
    have l1 := ok1.loss
    have g0 : f.genset = 0 := by simpa using ok0.genset
    have g1 : k.genset = 0 := by simpa using ok1.genset
    simp only [billed, List.getD_cons_zero, List.getD_cons_succ, if_true, one_ne_zero, if_false] at *
    have z1 : f.imp = 0 := by linarith
    have z2 : k.imp = 0 := by linarith
    have z3 : f.exp = 0 := by linarith
    have z4 : k.exp = 0 := by linarith
    rw [z1, z3, g0] at *
    rw [z2, z4, g1] at *
    have y0' : f.soc = 9/10 + 9/1000 * f.charge - f.discharge / 90 := by rw [y0]; ring
    have y1' : k.soc = f.soc + 9/1000 * k.charge - k.discharge / 90 := by rw [y1]; ring
    clear y0 y1
    have q1 : f.soc = 1 := le_antisymm w0.2 (by linarith)
    have q2 : f.discharge = 0 := le_antisymm (by linarith) d0.1
    refine ⟨by linarith, q2, q1, rfl, rfl, rfl⟩
  obtain ⟨p1, p2, p3, p4, p5, p6⟩ := hplan
  rcases hcase with ⟨-, load, pv, n1, n2, -, n3⟩ | ⟨b', e, load, pv, row, hq, hf, -⟩
  · exfalso
    have : clipIsland.loads[0]? = some 10 := by decide +kernel
    rw [this] at n1
    obtain rfl := Option.some.inj n1
    rw [hsoc, p1, p2, p4, p5, p6] at n3
    have l1 : min (100/9) (clipIsland.params.chargeLimit (9/10)) = 9 := by decide +kernel
    have l2 : min 0 (clipIsland.params.dischargeLimit (9/10)) = 0 := by decide +kernel
    rw [l1, l2] at n3
    norm_num at n3
  · have hc := hf.charge
    have hd := hf.discharge
    rw [hsoc, p1] at hc
    rw [hsoc, p2] at hd
    have l1 : min (100/9) (clipIsland.params.chargeLimit (9/10)) = 9 := by decide +kernel
    have l2 : min 0 (clipIsland.params.dischargeLimit (9/10)) = 0 := by decide +kernel
    rw [l1] at hc
    rw [l2] at hd
    have hrow := hf.turn.soc rfl
    rw [hsoc, hc, hd] at hrow
    have ce : clipIsland.params.capacity = 100 ∧ clipIsland.params.eff = 9/10 := by decide +kernel
    rw [ce.1, ce.2] at hrow
    refine ⟨x, b', hx, p1, p3, hq, ?_, e, load, pv, row, hf, hc⟩
    unfold Baseline.soc
    rw [hf.turn.states]
    simp only [List.getLast?_append, List.getLast?_singleton, Option.some_or, Option.map_some, Option.getD_some]
    linarith

/-- Non-vacuity of `C67_run_partial`: the microgrid with a grid, a genset and an outage in its second step. -/
example : Usual (demo true) ∧ (demo true).states.head? = some demoStatus ∧ (demo true).statuses[1]? = some 0 ∧
    (demo true).dataLength = 4 ∧ (demo true).horizon = 1 ∧
    ((demo true).params.socMin ≤ demoStatus.soc ∧ demoStatus.soc ≤ (demo true).params.socMax) := by
  have hp : (demo true).params = demoParams := by decide +kernel
  refine ⟨⟨by rw [hp]; exact demoParams_good, by decide +kernel, fun _ => by decide +kernel, by decide +kernel, by decide +kernel,
    by decide +kernel, by decide +kernel, by decide +kernel⟩, by decide +kernel, by decide +kernel, by decide +kernel,
    by decide +kernel, by decide +kernel⟩

/-- Non-vacuity of `C67_as_planned` and `C67_possible`: in the second step of that microgrid 20 units from the battery and 20
    from the genset serve the load. -/
example : ∃ on f, StepOK (legacyProblem (demo true) 1 (1/2)) 0 (1/2) on f ∧ f.discharge = 20 ∧ f.genset = 20 ∧
    f.discharge ≤ (demo true).params.dischargeLimit (1/2) := by
  have hP : legacyProblem (demo true) 1 (1/2) =
      { genset := true, horizon := 1
        static := { eta := 9/10, capacity := 100, fuel := 2/5, cycle := 1/50, lossLoad := 10, gensetMin := 5, gensetMax := 90
                    costCo2 := 1/10, gensetCo2 := 2 }
        inputs := { load := [40], pv := [50], grid := [0], importPrice := [3/10], exportPrice := [0], eMax := 1
                    eMin := 1/5, pCharge := 25, pDischarge := 25, pImport := 200, pExport := 200, soc := 1/2, costCo2 := 1/10
                    gridCo2 := [1/3] } } := by decide +kernel
  rw [hP]
  refine ⟨1, { genset := 20, discharge := 20, curtailed := 50, soc := 5/18 }, ?_, rfl, rfl, by decide +kernel⟩
  constructor <;> norm_num

/-- Non-vacuity of `C67_infeasible`: an empty battery below its window, no sun. -/
example (y : Point) : ¬ Feasible (legacyProblem (island demoParams [10, 10] [0, 0] 1 0) 0 0) y := by
  intro hy
  have hP : legacyProblem (island demoParams [10, 10] [0, 0] 1 0) 0 0 =
      { genset := false, horizon := 1
        static := { eta := 9/10, capacity := 100, fuel := 0, cycle := 1/50, lossLoad := 10, gensetMin := 0, gensetMax := 0
                    costCo2 := 1/10, gensetCo2 := 0 }
        inputs := { load := [10], pv := [0], grid := [0], importPrice := [0], exportPrice := [0], eMax := 1
                    eMin := 1/5, pCharge := 25, pDischarge := 25, pImport := 0, pExport := 0, soc := 0, costCo2 := 1/10
                    gridCo2 := [0] } } := by decide +kernel
  rw [hP] at hy
  have ok := (feasible_iff _ y).mp hy 0 (by decide)
  simp only at ok
  generalize y.flow false 0 = f at ok
  have b0 := ok.balance
  have y0 := ok.dynamics
  have w0 := ok.window.1
  have i0 := ok.imp
  have e0 := ok.exp
  have c0 := ok.charge
  have d0 := ok.discharge
  have u0 := ok.curtailed
  have l0 := ok.loss
  have g0 : f.genset = 0 := by simpa using ok.genset
  simp only [socBefore, List.getD_cons_zero] at *
  have y0' : f.soc = 9/1000 * f.charge - f.discharge / 90 := by rw [y0]; ring
  clear y0
  linarith

end Pymgrid.MPC
