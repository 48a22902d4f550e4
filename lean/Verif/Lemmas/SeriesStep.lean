import Verif.Lemmas.SeriesInit

set_option autoImplicit false
set_option linter.unusedSimpArgs false

/-! What a step of a load, renewable, grid or balancing module does. -/

namespace Pymgrid

namespace Module

/-! ### Load -/

theorem LoadWF.itemAt {m : Module} {t : TS} (h : m.LoadWF t) {c : Nat} {r : List ℚ} (hr : t.rows[c]? = some r) :
    ∃ x, r = [x] ∧ x ≤ 0 ∧ t.itemAt c = .ok x := by
  have hm := List.mem_of_getElem? hr
  have hl := (h.ts.valid.width (h.ts.valid.inBox r hm)).trans h.one
  obtain ⟨x, rfl⟩ := List.length_eq_one_iff.mp hl
  exact ⟨x, rfl, h.sign _ hm x (by simp), by simp [TS.itemAt, hr]⟩

/-- A load module meets its load, whatever non-positive action it gets. -/
theorem LoadWF.unnormalizedStep {m : Module} {t : TS} (h : m.LoadWF t) (q : ℚ) :
    (0 < q → m.unnormalizedStep q = (m, .error .assertion)) ∧
    (q ≤ 0 → m.unnormalizedStep q =
      match t.itemAt m.currentStep with
      | .error e => (m, .error e)
      | .ok x => (m, .ok { reward := 0, done := t.done m.currentStep, info := { absorbed := some (-1 * x) } })) := by
  have hsrc : m.isSource = false := by simp [isSource, h.kind]
  have hsnk : m.isSink = true := by simp [isSink, h.kind]
  have hs : ∀ x, 0 ≤ x → m.asSink x =
      match t.itemAt m.currentStep with
      | .error e => (m, .error e)
      | .ok x => (m, .ok { reward := 0, done := t.done m.currentStep, info := { absorbed := some (-1 * x) } }) := by
    intro x hx
    unfold asSink
    simp only [hx, not_true, if_false, h.ffc, if_true, Module.update, h.kind, loadUpdate]
    cases t.itemAt m.currentStep <;> rfl
  constructor
  · intro hq
    unfold Module.unnormalizedStep asSource
    rw [if_pos hq, if_neg (not_not.mpr hq.le), if_pos hsrc]
  · intro hq
    unfold Module.unnormalizedStep
    rw [if_neg (not_lt.mpr hq)]
    split
    · exact hs _ (by linarith)
    · simp only [hsrc, hsnk, Bool.false_eq_true, if_false, if_true]
      exact hs _ (by linarith)

/-! ### Renewable -/

theorem RenWF.itemAt {m : Module} {t : TS} (h : m.RenWF t) {c : Nat} {r : List ℚ} (hr : t.rows[c]? = some r) :
    ∃ x, r = [x] ∧ 0 ≤ x ∧ t.itemAt c = .ok x := by
  have hm := List.mem_of_getElem? hr
  have hl := (h.ts.valid.width (h.ts.valid.inBox r hm)).trans h.one
  obtain ⟨x, rfl⟩ := List.length_eq_one_iff.mp hl
  exact ⟨x, rfl, h.sign _ hm x (by simp), by simp [TS.itemAt, hr]⟩

theorem itemAt_none {t : TS} {c : Nat} (h : t.rows[c]? = none) : t.itemAt c = .error .index := by
  simp [TS.itemAt, h]

/-- A renewable module delivers the request up to what is available. -/
theorem RenWF.unnormalizedStep {m : Module} {t : TS} (h : m.RenWF t) (q : ℚ) :
    (q < 0 → ∃ e, m.unnormalizedStep q = (m, .error e)) ∧
    (t.rows[m.currentStep]? = none → ∃ e, m.unnormalizedStep q = (m, .error e)) ∧
    (∀ x, t.rows[m.currentStep]? = some [x] → 0 ≤ q →
      if m.raiseErrors = true ∧ x < q then m.unnormalizedStep q = (m, .error .value)
      else m.unnormalizedStep q = (m, .ok { reward := 0, done := t.done m.currentStep, info :=
              { provided := some (min q x), extra := [(.str "curtailment", x - min q x)] } })) := by
  have hsrc : m.isSource = true := by simp [isSource, h.kind]
  have hneg : q < 0 → ∃ e, m.unnormalizedStep q = (m, .error e) := by
    intro hq
    refine ⟨.type, ?_⟩
    unfold Module.unnormalizedStep asSink
    rw [if_neg (not_lt.mpr hq.le), if_pos hq]
    simp [h.ffc, maxConsumption, h.kind, hq.le]
  have hpos : 0 ≤ q → m.unnormalizedStep q = m.asSource q := by
    intro hq
    unfold Module.unnormalizedStep
    by_cases h0 : q > 0
    · simp [h0]
    · simp [h0, not_lt.mpr hq, hsrc]
  refine ⟨hneg, ?_, ?_⟩
  · intro hn
    by_cases hq : q < 0
    · exact hneg hq
    · refine ⟨.index, ?_⟩
      rw [hpos (not_lt.mp hq)]
      unfold asSource
      simp [not_lt.mp hq, hsrc, h.ffc, maxProduction, h.kind, itemAt_none hn]
  · intro x hx hq
    have hitem : t.itemAt m.currentStep = .ok x := by simp [TS.itemAt, hx]
    have hx0 : 0 ≤ x := h.sign _ (List.mem_of_getElem? hx) x (by simp)
    rw [hpos hq]
    have hup : ∀ y, y ≤ x → m.update (some y) .source = (m, .ok { reward := 0, done := t.done m.currentStep, info :=
        { provided := some y, extra := [(.str "curtailment", x - y)] } }) := by
      intro y hy
      simp [Module.update, h.kind, renewableUpdate, hitem, not_lt.mpr hy]
    have hmin : m.minProduction = 0 := by simp [minProduction, h.kind]
    unfold asSource
    simp only [hq, not_true, if_false, hsrc, h.ffc, maxProduction, h.kind, hitem, hmin, Bool.true_eq_false,
      reduceCtorEq, gt_iff_lt]
    by_cases hgt : x < q
    · by_cases hr : m.raiseErrors = true
      · rw [if_pos ⟨hr, hgt⟩]; simp [hgt, hr]
      · rw [if_neg (by simp [hr]), if_pos hgt, if_neg hr, hup x le_rfl, min_eq_right hgt.le]
    · rw [if_neg (fun hh => hgt hh.2), if_neg hgt, if_neg (not_lt.mpr hq), hup q (not_lt.mp hgt),
        min_eq_left (not_lt.mp hgt)]

/-! ### Grid -/

theorem GridWF.row {m : Module} {p : GridParams} {t : TS} (h : m.GridWF p t) {c : Nat} {r : List ℚ}
    (hr : t.rows[c]? = some r) :
    ∃ imp exp co2 st, r = [imp, exp, co2, st] ∧ (st = 0 ∨ st = 1) ∧ 0 ≤ imp ∧ 0 ≤ exp ∧ 0 ≤ co2 := by
  have hm := List.mem_of_getElem? hr
  have hl := (h.ts.valid.width (h.ts.valid.inBox r hm)).trans h.four
  match r, hl with
  | [a, b, c, d], _ =>
    have hs := h.status _ hm
    have hn := h.nonneg _ hm
    simp only [List.mem_cons, List.not_mem_nil, or_false, forall_eq_or_imp, forall_eq] at hn
    refine ⟨a, b, c, d, rfl, by simpa using hs, hn.1, hn.2.1, hn.2.2.1⟩

theorem GridWF.gridStatus {m : Module} {p : GridParams} {t : TS} (h : m.GridWF p t) {a b c d : ℚ}
    (hr : t.rows[m.currentStep]? = some [a, b, c, d]) : m.gridStatus = .ok d := by
  unfold Module.gridStatus
  rw [h.ts.state]
  simp [TS.obsAt, hr]

/-- A grid module imports or exports the request up to the capacity of the line. -/
theorem GridWF.unnormalizedStep {m : Module} {p : GridParams} {t : TS} (h : m.GridWF p t) (q : ℚ) :
    (t.rows[m.currentStep]? = none → ∃ e, m.unnormalizedStep q = (m, .error e)) ∧
    (∀ imp exp co2 st, t.rows[m.currentStep]? = some [imp, exp, co2, st] →
      (0 ≤ q →
        if m.raiseErrors = true ∧ p.maxImport * st < q then m.unnormalizedStep q = (m, .error .value)
        else m.unnormalizedStep q = (m, .ok
          { reward := -1 * imp * min q (p.maxImport * st) + -1 * p.costPerCo2 * (min q (p.maxImport * st) * co2)
            done := t.done m.currentStep
            info := { provided := some (min q (p.maxImport * st))
                      extra := [(.str "co2_production", min q (p.maxImport * st) * co2)] } })) ∧
      (q < 0 →
        if m.raiseErrors = true ∧ p.maxExport * st < -q then m.unnormalizedStep q = (m, .error .value)
        else m.unnormalizedStep q = (m, .ok
          { reward := exp * min (-q) (p.maxExport * st) + -1 * p.costPerCo2 * 0
            done := t.done m.currentStep
            info := { absorbed := some (min (-q) (p.maxExport * st))
                      extra := [(.str "co2_production", 0)] } }))) := by
  have hsrc : m.isSource = true := by simp [isSource, h.kind]
  have hmin : m.minProduction = 0 := by simp [minProduction, h.kind]
  have hpos : 0 ≤ q → m.unnormalizedStep q = m.asSource q := by
    intro hq
    unfold Module.unnormalizedStep
    by_cases h0 : q > 0
    · simp [h0]
    · simp [h0, not_lt.mpr hq, hsrc]
  have hneg : q < 0 → m.unnormalizedStep q = m.asSink (-q) := by
    intro hq
    unfold Module.unnormalizedStep
    rw [if_neg (not_lt.mpr hq.le), if_pos hq, neg_one_mul]
  constructor
  · intro hn
    have hent : ∀ j, t.entryAt m.currentStep j = .error .index := by intro j; simp [TS.entryAt, hn]
    have hu1 : ∀ e, m.update e .source = (m, .error .index) := by
      intro e; simp [Module.update, h.kind, gridUpdate, hent]
    have hu2 : ∀ e, m.update e .sink = (m, .error .index) := by
      intro e; simp [Module.update, h.kind, gridUpdate, hent]
    have h1 : ∀ x, ∃ e, m.asSource x = (m, .error e) := by
      intro x
      unfold asSource
      repeat' split
      all_goals first | exact ⟨_, rfl⟩ | exact ⟨_, hu1 _⟩
    have h2 : ∀ x, ∃ e, m.asSink x = (m, .error e) := by
      intro x
      unfold asSink
      repeat' split
      all_goals first | exact ⟨_, rfl⟩ | exact ⟨_, hu2 _⟩
    by_cases hq : q < 0
    · rw [hneg hq]; exact h2 _
    · rw [hpos (not_lt.mp hq)]; exact h1 _
  · intro imp exp co2 st hr
    have hst := h.gridStatus hr
    have hst0 : 0 ≤ st := by
      obtain ⟨_, _, _, _, e, hs, -⟩ := h.row hr
      simp only [List.cons.injEq, and_true] at e
      obtain ⟨-, -, -, rfl⟩ := e
      rcases hs with rfl | rfl <;> norm_num
    have e0 : t.entryAt m.currentStep 0 = .ok imp := by simp [TS.entryAt, hr]
    have e1 : t.entryAt m.currentStep 1 = .ok exp := by simp [TS.entryAt, hr]
    have e2 : t.entryAt m.currentStep 2 = .ok co2 := by simp [TS.entryAt, hr]
    constructor
    · intro hq
      rw [hpos hq]
      have hup : ∀ y, m.update (some y) .source = (m, .ok
          { reward := -1 * imp * y + -1 * p.costPerCo2 * (y * co2), done := t.done m.currentStep
            info := { provided := some y, extra := [(.str "co2_production", y * co2)] } }) := by
        intro y
        simp [Module.update, h.kind, gridUpdate, e0, e2]
      unfold asSource
      have hmp : m.maxProduction = .ok (.fin (p.maxImport * st)) := by simp [maxProduction, h.kind, hst]
      simp only [hq, not_true, if_false, hsrc, h.ffc, hmp, hmin, Bool.true_eq_false, gt_iff_lt]
      by_cases hgt : p.maxImport * st < q
      · by_cases hre : m.raiseErrors = true
        · rw [if_pos ⟨hre, hgt⟩]; simp [hgt, hre]
        · rw [if_neg (by simp [hre]), if_pos hgt, if_neg hre, hup, min_eq_right hgt.le]
      · rw [if_neg (fun hh => hgt hh.2), if_neg hgt, if_neg (not_lt.mpr hq), hup, min_eq_left (not_lt.mp hgt)]
    · intro hq
      rw [hneg hq]
      have hq' : 0 ≤ -q := by linarith
      have hup : ∀ y, m.update (some y) .sink = (m, .ok
          { reward := exp * y + -1 * p.costPerCo2 * 0, done := t.done m.currentStep
            info := { absorbed := some y, extra := [(.str "co2_production", 0)] } }) := by
        intro y
        simp [Module.update, h.kind, gridUpdate, e1]
      unfold asSink
      have hmc : m.maxConsumption = .ok (.fin (p.maxExport * st)) := by simp [maxConsumption, h.kind, hst]
      have hnn : 0 ≤ p.maxExport * st := mul_nonneg h.exp hst0
      simp only [hq', not_true, if_false, h.ffc, hmc, gt_iff_lt]
      by_cases hgt : p.maxExport * st < -q
      · by_cases hre : m.raiseErrors = true
        · rw [if_pos ⟨hre, hgt⟩]; simp [hgt, hre]
        · rw [if_neg (by simp [hre]), if_pos hgt, if_neg hre, if_neg (not_not.mpr hnn), hup, min_eq_right hgt.le]
      · rw [if_neg (fun hh => hgt hh.2), if_neg hgt, hup, min_eq_left (not_lt.mp hgt)]

/-! ### Balancing -/

/-- A balancing module with non-negative costs. -/
structure BalWF (m : Module) (u : Unbalanced) : Prop where
  kind : m.kind = .balancing u
  ffc : m.ffc = .flex
  prov : m.provName = some (.str "loss_load")
  abs : m.absName = some (.str "overgeneration")
  dim : m.obsSpace.dim = 0
  loss : 0 ≤ u.lossLoadCost
  over : 0 ≤ u.overgenerationCost
  space : m.actSpace = none

/-- The balancing module exchanges whatever it is asked. -/
theorem BalWF.unnormalizedStep {m : Module} {u : Unbalanced} (h : m.BalWF u) (q : ℚ) :
    m.unnormalizedStep q = (m, .ok (if 0 ≤ q
      then { reward := -1 * (u.lossLoadCost * q), done := false, info := { provided := some q } }
      else { reward := -1 * (u.overgenerationCost * (-q)), done := false, info := { absorbed := some (-q) } })) := by
  have hsrc : m.isSource = true := by simp [isSource, h.kind]
  have hmin : m.minProduction = 0 := by simp [minProduction, h.kind]
  have hmp : m.maxProduction = .ok .inf := by simp [maxProduction, h.kind]
  have hmc : m.maxConsumption = .ok .inf := by simp [maxConsumption, h.kind]
  by_cases hq : 0 ≤ q
  · rw [if_pos hq]
    have hpos : m.unnormalizedStep q = m.asSource q := by
      unfold Module.unnormalizedStep
      by_cases h0 : q > 0
      · simp [h0]
      · simp [h0, not_lt.mpr hq, hsrc]
    rw [hpos]
    unfold asSource
    have := mul_nonneg h.loss hq
    simp only [hq, not_true, if_false, hsrc, h.ffc, hmp, hmin, Bool.true_eq_false, reduceCtorEq, not_lt.mpr hq,
      Module.update, h.kind, balancingUpdate]
    rw [if_neg (not_not.mpr (by linarith))]
  · rw [if_neg hq]
    have hq' : q < 0 := not_le.mp hq
    have hpos : m.unnormalizedStep q = m.asSink (-q) := by
      unfold Module.unnormalizedStep
      rw [if_neg (not_lt.mpr hq'.le), if_pos hq', neg_one_mul]
    rw [hpos]
    unfold asSink
    have hn : 0 ≤ -q := by linarith
    have := mul_nonneg h.over hn
    simp only [hn, not_true, if_false, h.ffc, hmc, reduceCtorEq, Module.update, h.kind, balancingUpdate]
    rw [if_neg (not_not.mpr (by linarith))]

theorem BalWF.updateStep {m : Module} {u : Unbalanced} (h : m.BalWF u) (r : Bool) :
    m.updateStep r =
      ({ m with currentStep := if r then m.initialStep else m.currentStep + 1 }, .ok ()) := by
  unfold Module.updateStep refresh
  simp [h.kind]

theorem BalWF.step_eq {m : Module} {u : Unbalanced} (h : m.BalWF u) (a : Act) (n : Bool) :
    m.step a n = match m.request a n with
      | .error e => (m, .error e)
      | .ok q => m.stepEnergy q := by
  rw [step_eq_baseStep m a n (by intro g; simp [h.kind]), baseStep_eq]
  cases m.request a n <;> rfl

theorem BalWF.stepEnergy {m : Module} {u : Unbalanced} (h : m.BalWF u) (q : ℚ) :
    ∃ row, m.logRow [] (if 0 ≤ q
      then { reward := -1 * (u.lossLoadCost * q), done := false, info := { provided := some q } }
      else { reward := -1 * (u.overgenerationCost * (-q)), done := false, info := { absorbed := some (-q) } })
        = .ok row ∧
      m.stepEnergy q = ({ m with logger := m.logger.log row, currentStep := m.currentStep + 1 }, .ok
        { obs := .arr []
          reward := if 0 ≤ q then -1 * (u.lossLoadCost * q) else -1 * (u.overgenerationCost * (-q))
          done := false
          info := if 0 ≤ q then { provided := some q } else { absorbed := some (-q) } }) := by
  have hs : m.stateDict = .ok [] := by simp [stateDict, h.kind]
  obtain ⟨row, hrow⟩ := logRow_ok m [] (if 0 ≤ q
      then { reward := -1 * (u.lossLoadCost * q), done := false, info := { provided := some q } }
      else { reward := -1 * (u.overgenerationCost * (-q)), done := false, info := { absorbed := some (-q) } })
    (by simp [h.prov]) (by simp [h.abs])
  refine ⟨row, hrow, ?_⟩
  have wf₂ : BalWF { m with logger := m.logger.log row } u :=
    ⟨h.kind, h.ffc, h.prov, h.abs, h.dim, h.loss, h.over, h.space⟩
  have hobs : normalizedObs { m with logger := m.logger.log row, currentStep := m.currentStep + 1 } = .ok (.arr []) := by
    unfold normalizedObs state
    simp only [stateDict, h.kind, List.map_nil]
    unfold Space.normalize
    rw [Space.apply_ok _ _ _ (by simp [Act.vals, h.dim])]
    have : m.obsSpace.low = [] := List.length_eq_zero_iff.mp h.dim
    simp [Act.vals, this, mapBounds, Space.item]
  rw [stepEnergy_of m m _ q [] row _ (.arr []) hs (h.unnormalizedStep q) hrow (wf₂.updateStep false) hobs]
  by_cases hq : 0 ≤ q <;> simp [hq]

theorem BalWF.reset {m : Module} {u : Unbalanced} (h : m.BalWF u) :
    m.reset = ({ m with logger := m.logger.flush, currentStep := m.initialStep }, .ok (.arr [])) := by
  unfold Module.reset
  rw [h.updateStep]
  simp only
  refine Prod.ext rfl ?_
  unfold normalizedObs state
  simp only [stateDict, h.kind, List.map_nil]
  unfold Space.normalize
  rw [Space.apply_ok _ _ _ (by simp [Act.vals, h.dim])]
  have : m.obsSpace.low = [] := List.length_eq_zero_iff.mp h.dim
  simp [Act.vals, this, mapBounds, Space.item]

theorem mkBalancing_wf {r : Bool} {i : Nat} {l o : ℚ} (hl : 0 ≤ l) (ho : 0 ≤ o) :
    (mkBalancing r i l o).BalWF ⟨l, o⟩ :=
  ⟨rfl, rfl, rfl, rfl, rfl, hl, ho, rfl⟩

end Module

end Pymgrid
