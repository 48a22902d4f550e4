import Verif.Lemmas.SeriesHist

set_option autoImplicit false

/-!
# Properties of grid, renewable, load and balancing modules (C13–C17, C30–C32, C46, C48)

All theorems quantify over every history `ops` of calls on a module built by its constructor.
-/

namespace Pymgrid

open Module

/-- The grid data a stored row stands for. -/
theorem gridData_rows {ncols : Nat} {rows : List (List ℚ)} (hrect : ∀ r ∈ rows, r.length = ncols)
    (h34 : ncols = 3 ∨ ncols = 4) {c : Nat} {a b d e : ℚ}
    (h : (gridRows ncols rows)[c]? = some [a, b, d, e]) : gridData rows c = some (a, b, d, e) := by
  unfold gridRows at h
  unfold gridData
  split at h
  · rw [h]
  · rename_i h4
    have h3 : ncols = 3 := by omega
    rw [List.getElem?_map] at h
    cases hr : rows[c]? with
    | none => simp [hr] at h
    | some r =>
      have hl := hrect r (List.mem_of_getElem? hr)
      rw [h3] at hl
      match r, hl with
      | [x, y, z], _ =>
        simp only [hr, Option.map_some, List.cons_append, List.nil_append, Option.some.injEq, List.cons.injEq,
          and_true] at h
        obtain ⟨rfl, rfl, rfl, rfl⟩ := h
        rfl

section
variable {mi me cc : ℚ} {ncols : Nat} {rows : List (List ℚ)} {xs : List ℚ} {param : FKind}
  {horizon i : Nat} {fs : Int} {r : Bool} {m : Module}

/-! ### C13, C14: grid -/

/-- What every successful grid step does, in terms of the constructor's arguments. -/
theorem grid_step (hrect : ∀ r ∈ rows, r.length = ncols)
    (hm : mkGrid mi me ncols rows param horizon i fs cc r = .ok m) (ops : List MOp)
    (a : Act) (n : Bool) (m' : Module) (o : StepOut) (he : (runOps m ops).step a n = (m', .ok o)) :
    ∃ imp exp co2 st q, gridData rows (runOps m ops).currentStep = some (imp, exp, co2, st) ∧
      (st = 0 ∨ st = 1) ∧ 0 ≤ mi ∧ 0 ≤ me ∧ (runOps m ops).request a n = .ok q ∧
      (0 ≤ q → o.info.provided = some (min q (mi * st)) ∧ o.info.absorbed = none ∧
        o.reward = -(imp * min q (mi * st) + cc * co2 * min q (mi * st)) ∧
        o.info.extra = [(.str "co2_production", co2 * min q (mi * st))]) ∧
      (q < 0 → o.info.absorbed = some (min (-q) (me * st)) ∧ o.info.provided = none ∧
        o.reward = exp * min (-q) (me * st) ∧ o.info.extra = [(.str "co2_production", 0)]) := by
  obtain ⟨t₀, mn, mx, wf₀, -, -, hs₀, h34, -⟩ := mkGrid_inv hrect hm
  obtain ⟨t, hs, wf⟩ := wf₀.ops ops
  rw [wf.ts.step_eq] at he
  cases hq : (runOps m ops).request a n with
  | error e => rw [hq] at he; simp at he
  | ok q =>
    rw [hq] at he
    simp only at he
    rcases wf.ts.stepEnergy q with ⟨e, he'⟩ | ⟨u, pre, row, hu, -, -, ⟨f, -, -, obs, he'⟩ | ⟨e, -, he'⟩⟩
    · rw [he'] at he; simp at he
    · rw [he'] at he
      simp only [Prod.mk.injEq, Except.ok.injEq] at he
      obtain ⟨-, rfl⟩ := he
      obtain ⟨h1, h2⟩ := wf.unnormalizedStep q
      cases hr : t.rows[(runOps m ops).currentStep]? with
      | none => obtain ⟨e, h⟩ := h1 hr; rw [h] at hu; simp at hu
      | some row =>
        obtain ⟨imp, exp, co2, st, rfl, hst, -⟩ := wf.row hr
        have hgd : gridData rows (runOps m ops).currentStep = some (imp, exp, co2, st) :=
          gridData_rows hrect h34 (by rw [hs.rows, hs₀.rows] at hr; exact hr)
        obtain ⟨k1, k2⟩ := h2 imp exp co2 st hr
        refine ⟨imp, exp, co2, st, q, hgd, hst, wf₀.imp, wf₀.exp, rfl, ?_, ?_⟩
        · intro h0
          have := k1 h0
          split at this
          · rw [this] at hu; simp at hu
          · rw [this] at hu
            simp only [Prod.mk.injEq, Except.ok.injEq, true_and] at hu
            subst hu
            refine ⟨rfl, rfl, by simp only; ring, ?_⟩
            simp only [mul_comm]
        · intro h0
          have := k2 h0
          split at this
          · rw [this] at hu; simp at hu
          · rw [this] at hu
            simp only [Prod.mk.injEq, Except.ok.injEq, true_and] at hu
            subst hu
            exact ⟨rfl, rfl, by simp only; ring, rfl⟩
    · rw [he'] at he; simp at he

/-- C13: in every successful grid step imports are at most `max_import`, exports at most `max_export`,
    both are non-negative, and both are 0 in a step whose status is 0. -/
theorem C13_limits_and_outages (hrect : ∀ r ∈ rows, r.length = ncols)
    (hm : mkGrid mi me ncols rows param horizon i fs cc r = .ok m) (ops : List MOp)
    (a : Act) (n : Bool) (m' : Module) (o : StepOut) (he : (runOps m ops).step a n = (m', .ok o)) :
    ∃ imp exp co2 st, gridData rows (runOps m ops).currentStep = some (imp, exp, co2, st) ∧
      (∀ p, o.info.provided = some p → 0 ≤ p ∧ p ≤ mi ∧ (st = 0 → p = 0)) ∧
      (∀ p, o.info.absorbed = some p → 0 ≤ p ∧ p ≤ me ∧ (st = 0 → p = 0)) ∧
      ((o.info.provided = none) ≠ (o.info.absorbed = none)) := by
  obtain ⟨imp, exp, co2, st, q, hgd, hst, hmi, hme, -, h1, h2⟩ := grid_step hrect hm ops a n m' o he
  have hst0 : 0 ≤ st := by rcases hst with rfl | rfl <;> norm_num
  have hst1 : st ≤ 1 := by rcases hst with rfl | rfl <;> norm_num
  refine ⟨imp, exp, co2, st, hgd, ?_⟩
  rcases le_or_gt 0 q with hq | hq
  · obtain ⟨e1, e2, -⟩ := h1 hq
    rw [e1, e2]
    refine ⟨?_, by simp, by simp⟩
    rintro p ⟨⟩
    refine ⟨le_min hq (mul_nonneg hmi hst0), (min_le_right _ _).trans (by nlinarith), ?_⟩
    rintro rfl
    simp [hq]
  · obtain ⟨e1, e2, -⟩ := h2 hq
    rw [e1, e2]
    refine ⟨by simp, ?_, by simp⟩
    rintro p ⟨⟩
    refine ⟨le_min (by linarith) (mul_nonneg hme hst0), (min_le_right _ _).trans (by nlinarith), ?_⟩
    rintro rfl
    simp [hq.le]

/-- A grid step within the series succeeds unless a request is out of range and `raise_errors` is set. -/
theorem grid_succeeds (hrect : ∀ r ∈ rows, r.length = ncols)
    (hm : mkGrid mi me ncols rows param horizon i fs cc r = .ok m) (hw : param.Works 4 horizon) (ops : List MOp)
    {imp exp co2 st : ℚ} (hgd : gridData rows (runOps m ops).currentStep = some (imp, exp, co2, st)) (q : ℚ)
    (hq : r = true → -(me * st) ≤ q ∧ q ≤ mi * st) :
    ∃ m' o, (runOps m ops).step (.num q) false = (m', .ok o) := by
  obtain ⟨t₀, mn, mx, wf₀, -, -, hs₀, h34, -, -, -, hr₀, -⟩ := mkGrid_inv hrect hm
  obtain ⟨t, hs, wf⟩ := wf₀.ops ops
  have hraise : (runOps m ops).raiseErrors = r := (frame_runOps m ops).raise.trans hr₀
  have hreq : (runOps m ops).request (.num q) false = .ok q := by simp [request, energyOf]
  rw [wf.ts.step_eq, hreq]
  simp only
  obtain ⟨-, h2⟩ := wf.unnormalizedStep q
  have hrow : ∃ row, t.rows[(runOps m ops).currentStep]? = some row := by
    have hlt : (runOps m ops).currentStep < rows.length := by
      by_contra hc
      simp [gridData, List.getElem?_eq_none_iff.mpr (not_lt.mp hc)] at hgd
    refine ⟨_, List.getElem?_eq_getElem ?_⟩
    rw [hs.rows, hs₀.rows]
    unfold TS.blank gridRows
    split <;> simpa using hlt
  obtain ⟨row, hrow⟩ := hrow
  obtain ⟨imp', exp', co2', st', rfl, hst, -⟩ := wf.row hrow
  have hgd' : gridData rows (runOps m ops).currentStep = some (imp', exp', co2', st') :=
    gridData_rows hrect h34 (by rw [hs.rows, hs₀.rows] at hrow; exact hrow)
  rw [hgd] at hgd'
  simp only [Option.some.injEq, Prod.mk.injEq] at hgd'
  obtain ⟨rfl, rfl, rfl, rfl⟩ := hgd'
  obtain ⟨k1, k2⟩ := h2 imp exp co2 st hrow
  have hw' : t.forecaster.kind.Works t.comps.length t.horizon := by
    rw [hs.forecaster, hs.comps, hs.horizon, hs₀.forecaster, hs₀.comps, hs₀.horizon]
    exact TS.blank_works hw
  have hun : ∃ u, (runOps m ops).unnormalizedStep q = (runOps m ops, .ok u) := by
    rcases le_or_gt 0 q with h | h
    · have := k1 h
      rw [if_neg (by rw [hraise]; rintro ⟨hr, hlt⟩; exact absurd (hq hr).2 (not_le.mpr hlt))] at this
      exact ⟨_, this⟩
    · have := k2 h
      rw [if_neg (by rw [hraise]; rintro ⟨hr, hlt⟩; have := (hq hr).1; linarith)] at this
      exact ⟨_, this⟩
  obtain ⟨u, hu⟩ := hun
  obtain ⟨pre, row, f, obs, -, -, -, -, he⟩ := wf.ts.stepEnergy_ok hu (by simp [wf.prov]) (by simp [wf.abs]) hw'
  exact ⟨_, _, he⟩

/-- C13: requests inside the limit are served exactly, whether or not `raise_errors` is set; with
    `raise_errors=False` requests outside are cut to the limit. -/
theorem C13_served_exactly (hrect : ∀ r ∈ rows, r.length = ncols)
    (hm : mkGrid mi me ncols rows param horizon i fs cc r = .ok m) (hw : param.Works 4 horizon) (ops : List MOp)
    {imp exp co2 st : ℚ} (hgd : gridData rows (runOps m ops).currentStep = some (imp, exp, co2, st)) (q : ℚ)
    (hq : r = true → -(me * st) ≤ q ∧ q ≤ mi * st) :
    ∃ m' o, (runOps m ops).step (.num q) false = (m', .ok o) ∧
      (0 ≤ q → o.info.provided = some (min q (mi * st))) ∧
      (q < 0 → o.info.absorbed = some (min (-q) (me * st))) := by
  obtain ⟨m', o, he⟩ := grid_succeeds hrect hm hw ops hgd q hq
  obtain ⟨imp', exp', co2', st', q', hgd', -, -, -, hq', h1, h2⟩ := grid_step hrect hm ops _ _ m' o he
  rw [hgd] at hgd'
  simp only [Option.some.injEq, Prod.mk.injEq] at hgd'
  obtain ⟨rfl, rfl, rfl, rfl⟩ := hgd'
  obtain rfl : q = q' := by simpa [request, energyOf] using hq'
  exact ⟨m', o, he, fun h => (h1 h).1, fun h => (h2 h).1⟩

/-- C14: reward and CO2 of a grid step, from the prices of the current step. -/
theorem C14_reward_and_co2 (hrect : ∀ r ∈ rows, r.length = ncols)
    (hm : mkGrid mi me ncols rows param horizon i fs cc r = .ok m) (ops : List MOp)
    (a : Act) (n : Bool) (m' : Module) (o : StepOut) (he : (runOps m ops).step a n = (m', .ok o)) :
    ∃ imp exp co2 st, gridData rows (runOps m ops).currentStep = some (imp, exp, co2, st) ∧
      (∀ e, o.info.provided = some e →
        o.reward = -(imp * e + cc * co2 * e) ∧ o.info.extra = [(.str "co2_production", co2 * e)]) ∧
      (∀ e, o.info.absorbed = some e →
        o.reward = exp * e ∧ o.info.extra = [(.str "co2_production", 0)]) := by
  obtain ⟨imp, exp, co2, st, q, hgd, hst, hmi, hme, -, h1, h2⟩ := grid_step hrect hm ops a n m' o he
  refine ⟨imp, exp, co2, st, hgd, ?_⟩
  rcases le_or_gt 0 q with hq | hq
  · obtain ⟨e1, e2, e3, e4⟩ := h1 hq
    rw [e1, e2]
    refine ⟨?_, by simp⟩
    rintro p ⟨⟩
    exact ⟨e3, e4⟩
  · obtain ⟨e1, e2, e3, e4⟩ := h2 hq
    rw [e1, e2]
    refine ⟨by simp, ?_⟩
    rintro p ⟨⟩
    exact ⟨e3, e4⟩

/-- A grid with an outage in its second step. -/
def exGrid : Module :=
  okModule (mkGrid 100 50 4 [[1/5, 1/10, 1/2, 1], [3/10, 1/10, 1/2, 0], [2/5, 1/10, 1/2, 1]] .oracle 2 0 (-1) (1/10) false)

example : mkGrid 100 50 4 [[1/5, 1/10, 1/2, 1], [3/10, 1/10, 1/2, 0], [2/5, 1/10, 1/2, 1]] .oracle 2 0 (-1) (1/10) false
    = .ok exGrid := okModule_eq (by decide +kernel)
example : (exGrid.step (.num 150) false).2.toOption.map (fun o => (o.info.provided, o.reward)) =
    some (some 100, -25) := by decide +kernel
example : ((runOps exGrid [.step (.num 150) false]).step (.num 150) false).2.toOption.map (·.info.provided) =
    some (some 0) := by decide +kernel
example : (exGrid.step (.num (-60)) false).2.toOption.map (fun o => (o.info.absorbed, o.reward)) =
    some (some 50, 5) := by decide +kernel

/-! ### C15: renewables -/

/-- C15: in every successful renewable step the energy used and the energy curtailed are non-negative and add
    up to what is available in that step; the reward is 0. -/
theorem C15_used_or_curtailed (hm : mkRenewable xs param horizon i fs r = .ok m) (ops : List MOp)
    (a : Act) (n : Bool) (m' : Module) (o : StepOut) (he : (runOps m ops).step a n = (m', .ok o)) :
    ∃ x p k, xs[(runOps m ops).currentStep]? = some x ∧ o.info.provided = some p ∧
      o.info.extra = [(.str "curtailment", k)] ∧ p + k = |x| ∧ 0 ≤ p ∧ 0 ≤ k ∧
      o.info.absorbed = none ∧ o.reward = 0 ∧
      ∃ q, (runOps m ops).request a n = .ok q ∧ 0 ≤ q ∧ p = min q |x| := by
  obtain ⟨t₀, mn, mx, wf₀, -, -, hs₀, -⟩ := mkRenewable_inv hm
  obtain ⟨t, hs, wf⟩ := wf₀.ops ops
  rw [wf.ts.step_eq] at he
  cases hq : (runOps m ops).request a n with
  | error e => rw [hq] at he; simp at he
  | ok q =>
    rw [hq] at he
    simp only at he
    obtain ⟨h1, h2, h3⟩ := wf.unnormalizedStep q
    rcases wf.ts.stepEnergy q with ⟨e, he'⟩ | ⟨u, pre, row, hu, -, -, ⟨f, -, -, obs, he'⟩ | ⟨e, -, he'⟩⟩
    · rw [he'] at he; simp at he
    · rw [he'] at he
      simp only [Prod.mk.injEq, Except.ok.injEq] at he
      obtain ⟨-, rfl⟩ := he
      have hq0 : 0 ≤ q := by
        by_contra hc
        obtain ⟨e, h⟩ := h1 (not_le.mp hc)
        rw [h] at hu; simp at hu
      cases hr : t.rows[(runOps m ops).currentStep]? with
      | none => obtain ⟨e, h⟩ := h2 hr; rw [h] at hu; simp at hu
      | some row =>
        obtain ⟨y, rfl, hy, -⟩ := wf.itemAt hr
        have hxs : ∃ x, xs[(runOps m ops).currentStep]? = some x ∧ y = |x| := by
          rw [hs.rows, hs₀.rows] at hr
          simp only [TS.blank, List.getElem?_map] at hr
          cases hx : xs[(runOps m ops).currentStep]? with
          | none => simp [hx] at hr
          | some x => exact ⟨x, rfl, by simpa [hx, eq_comm] using hr⟩
        obtain ⟨x, hx, rfl⟩ := hxs
        have := h3 _ hr hq0
        split at this
        · rw [this] at hu; simp at hu
        · rw [this] at hu
          simp only [Prod.mk.injEq, Except.ok.injEq, true_and] at hu
          subst hu
          refine ⟨x, _, _, hx, rfl, rfl, by ring, le_min hq0 hy, sub_nonneg.mpr (min_le_right _ _), rfl, rfl, q,
            rfl, hq0, rfl⟩
    · rw [he'] at he; simp at he

/-- C15: with `raise_errors=False` every non-negative request within the series is served up to what is
    available. -/
theorem C15_serves (hm : mkRenewable xs param horizon i fs r = .ok m) (hw : param.Works 1 horizon) (ops : List MOp)
    (x : ℚ) (hx : xs[(runOps m ops).currentStep]? = some x) (q : ℚ) (hq : 0 ≤ q) (hr : r = true → q ≤ |x|) :
    ∃ m' o, (runOps m ops).step (.num q) false = (m', .ok o) ∧ o.info.provided = some (min q |x|) := by
  obtain ⟨t₀, mn, mx, wf₀, -, -, hs₀, -, -, -, hr₀, -⟩ := mkRenewable_inv hm
  obtain ⟨t, hs, wf⟩ := wf₀.ops ops
  have hraise : (runOps m ops).raiseErrors = r := (frame_runOps m ops).raise.trans hr₀
  have hreq : (runOps m ops).request (.num q) false = .ok q := by simp [request, energyOf]
  rw [wf.ts.step_eq, hreq]
  simp only
  obtain ⟨-, -, h3⟩ := wf.unnormalizedStep q
  have hrow : t.rows[(runOps m ops).currentStep]? = some [|x|] := by
    rw [hs.rows, hs₀.rows]
    simp [TS.blank, hx]
  have hun := h3 _ hrow hq
  rw [if_neg (by rw [hraise]; rintro ⟨h, hlt⟩; exact absurd (hr h) (not_le.mpr hlt))] at hun
  have hw' : t.forecaster.kind.Works t.comps.length t.horizon := by
    rw [hs.forecaster, hs.comps, hs.horizon, hs₀.forecaster, hs₀.comps, hs₀.horizon]
    exact TS.blank_works hw
  obtain ⟨pre, row, f, obs, -, -, -, -, he⟩ := wf.ts.stepEnergy_ok hun (by simp [wf.prov]) (by simp) hw'
  exact ⟨_, _, he, rfl⟩

/-- A renewable module for examples. -/
def exPv : Module := okModule (mkRenewable [30, 50, 0] .oracle 2 0 (-1) false)

example : mkRenewable [30, 50, 0] .oracle 2 0 (-1) false = .ok exPv := okModule_eq (by decide +kernel)
example : ((runOps exPv [.step (.num 10) false]).step (.num 20) false).2.toOption.map (·.info) =
    some { provided := some 20, extra := [(.str "curtailment", 30)] } := by decide +kernel

/-! ### C16: load -/

/-- C16: every successful load step absorbs the magnitude of the series at the current step, whatever the
    action, with reward 0. -/
theorem C16_load_met (hm : mkLoad xs param horizon i fs r = .ok m) (ops : List MOp)
    (a : Act) (n : Bool) (m' : Module) (o : StepOut) (he : (runOps m ops).step a n = (m', .ok o)) :
    ∃ x, xs[(runOps m ops).currentStep]? = some x ∧ o.info.absorbed = some |x| ∧
      o.info.provided = none ∧ o.reward = 0 := by
  obtain ⟨t₀, mn, mx, wf₀, -, -, hs₀, -⟩ := mkLoad_inv hm
  obtain ⟨t, hs, wf⟩ := wf₀.ops ops
  rw [wf.ts.step_eq] at he
  cases hq : (runOps m ops).request a n with
  | error e => rw [hq] at he; simp at he
  | ok q =>
    rw [hq] at he
    simp only at he
    obtain ⟨h1, h2⟩ := wf.unnormalizedStep q
    rcases wf.ts.stepEnergy q with ⟨e, he'⟩ | ⟨u, pre, row, hu, -, -, ⟨f, -, -, obs, he'⟩ | ⟨e, -, he'⟩⟩
    · rw [he'] at he; simp at he
    · rw [he'] at he
      simp only [Prod.mk.injEq, Except.ok.injEq] at he
      obtain ⟨-, rfl⟩ := he
      have hq0 : q ≤ 0 := by
        by_contra hc
        rw [h1 (not_le.mp hc)] at hu; simp at hu
      rw [h2 hq0] at hu
      cases hr : t.rows[(runOps m ops).currentStep]? with
      | none => rw [itemAt_none hr] at hu; simp at hu
      | some row =>
        obtain ⟨y, rfl, hy, hit⟩ := wf.itemAt hr
        rw [hit] at hu
        simp only [Prod.mk.injEq, Except.ok.injEq, true_and] at hu
        subst hu
        rw [hs.rows, hs₀.rows] at hr
        simp only [TS.blank, List.getElem?_map] at hr
        cases hx : xs[(runOps m ops).currentStep]? with
        | none => simp [hx] at hr
        | some x =>
          simp only [hx, Option.map_some, Option.some.injEq, List.cons.injEq, and_true] at hr
          refine ⟨x, rfl, ?_, rfl, rfl⟩
          simp only [← hr]
          congr 1
          ring
    · rw [he'] at he; simp at he

/-- C16: within the series a load step succeeds for every action that does not ask it to produce. -/
theorem C16_succeeds (hm : mkLoad xs param horizon i fs r = .ok m) (hw : param.Works 1 horizon) (ops : List MOp)
    (x : ℚ) (hx : xs[(runOps m ops).currentStep]? = some x) (a : Act) (n : Bool)
    (ha : (runOps m ops).request a n = .ok 0 ∨ ∃ q < 0, (runOps m ops).request a n = .ok q) :
    ∃ m' o, (runOps m ops).step a n = (m', .ok o) := by
  obtain ⟨t₀, mn, mx, wf₀, -, -, hs₀, -, -, -, hr₀, -⟩ := mkLoad_inv hm
  obtain ⟨t, hs, wf⟩ := wf₀.ops ops
  have hreq : ∃ q, q ≤ 0 ∧ (runOps m ops).request a n = .ok q := by
    rcases ha with h | ⟨q, hq, h⟩
    · exact ⟨0, le_refl _, h⟩
    · exact ⟨q, hq.le, h⟩
  obtain ⟨q, hq, hreq⟩ := hreq
  rw [wf.ts.step_eq, hreq]
  simp only
  obtain ⟨-, h2⟩ := wf.unnormalizedStep q
  have hrow : t.rows[(runOps m ops).currentStep]? = some [-|x|] := by
    rw [hs.rows, hs₀.rows]
    simp [TS.blank, hx]
  have hun := h2 hq
  obtain ⟨y, -, -, hit⟩ := wf.itemAt hrow
  rw [hit] at hun
  have hw' : t.forecaster.kind.Works t.comps.length t.horizon := by
    rw [hs.forecaster, hs.comps, hs.horizon, hs₀.forecaster, hs₀.comps, hs₀.horizon]
    exact TS.blank_works hw
  obtain ⟨pre, row, f, obs, -, -, -, -, he⟩ := wf.ts.stepEnergy_ok hun (by simp) (by simp [wf.abs]) hw'
  exact ⟨_, _, he⟩

/-- A load module for examples. -/
def exLoad : Module := okModule (mkLoad [60, 40, 20] .oracle 2 0 (-1) false)

example : mkLoad [60, 40, 20] .oracle 2 0 (-1) false = .ok exLoad := okModule_eq (by decide +kernel)
example : ((runOps exLoad [.step (.arr []) true]).step (.num (-7)) false).2.toOption.map (·.info.absorbed) =
    some (some 40) := by decide +kernel

/-! ### C17: balancing -/

/-- C17: a balancing module with non-negative costs exchanges exactly what it is asked, whatever happened
    before, at the configured penalty. -/
theorem C17_balances_exactly {l g : ℚ} (hl : 0 ≤ l) (hg : 0 ≤ g) (ops : List MOp) (q : ℚ) :
    ∃ m' o, (runOps (mkBalancing r i l g) ops).step (.num q) false = (m', .ok o) ∧
      (0 ≤ q → o.info.provided = some q ∧ o.info.absorbed = none ∧ o.reward = -(l * q)) ∧
      (q < 0 → o.info.absorbed = some (-q) ∧ o.info.provided = none ∧ o.reward = -(g * (-q))) := by
  have wf := (mkBalancing_wf (r := r) (i := i) hl hg).ops ops
  have hreq : (runOps (mkBalancing r i l g) ops).request (.num q) false = .ok q := by simp [request, energyOf]
  rw [wf.step_eq, hreq]
  obtain ⟨row, -, he⟩ := wf.stepEnergy q
  refine ⟨_, _, he, ?_, ?_⟩
  · intro h
    simp [h]
  · intro h
    simp [not_le.mpr h]

example : ((runOps (mkBalancing false 0 10 2) [.step (.num 3) false, .reset]).step (.num (-1000000)) false).2.toOption.map
    (fun o => (o.info.absorbed, o.reward)) = some (some 1000000, -2000000) := by decide +kernel

/-! ### C30–C32: forecasts -/

variable {rows' : List (List ℚ)} {k : Nat}

/-- C30: after any history the state vector of a time-series module is available, lies in the observation
    space (so it also has its length), and the forecast it contains has the configured number of rows. -/
theorem C30_state_in_observation_space (hb : BuiltSeries param horizon i fs r m rows' k) (ops : List MOp) :
    ∃ s t, (runOps m ops).state = .ok s ∧ (runOps m ops).series? = some t ∧
      Within (runOps m ops).obsSpace.low (runOps m ops).obsSpace.high s ∧
      s.length = (1 + if param.isSome then horizon else 0) * k ∧
      (∀ f, t.cur = some f → f.length = (if param.isSome then horizon else 0) ∧
        ∀ row ∈ f, Within t.minRow t.maxRow row) := by
  obtain ⟨t₀, comps, mn, mx, hs₀, wf₀, -, hk, -, -, -, hobs, -⟩ := hb.start
  obtain ⟨t, hs, wf, -⟩ := wf₀.ops ops
  have hsp : t.obsSpace = t₀.obsSpace := by
    simp [TS.obsSpace, TS.minObs, TS.maxObs, hs.minRow, hs.maxRow, hs.horizon]
  have hh : t.horizon = if param.isSome then horizon else 0 := by rw [hs.horizon, hs₀.horizon]; rfl
  refine ⟨_, t, wf.state, wf.series, ?_, ?_, ?_⟩
  · rw [(frame_runOps m ops).obs, hobs, ← hsp]
    exact wf.state_within
  · rw [← hh, List.length_append, wf.shaped.flat_length wf.valid, wf.valid.width (wf.valid.obsAt_within _), hs.comps, hs₀.comps]
    change comps.length + t.horizon * comps.length = _
    rw [hk]
    ring
  · intro f hf
    have := wf.shaped
    rw [hf] at this
    exact ⟨by rw [← hh]; exact this.1, this.2⟩

/-- C30: at every step, also at and past the end of the series, a working forecaster yields exactly
    `forecast_horizon` rows within the bounds of the series. -/
theorem C30_forecast_total (hb : BuiltSeries param horizon i fs r m rows' k) (hsome : param.isSome = true)
    (hw : param.Works k horizon) (ops : List MOp) (c : Nat) :
    ∃ t f, (runOps m ops).series? = some t ∧ t.forecastValue c = .ok (some f) ∧ f.length = horizon ∧
      ∀ row ∈ f, Within t.minRow t.maxRow row := by
  obtain ⟨t₀, comps, mn, mx, hs₀, wf₀, -, hk, -⟩ := hb.start
  obtain ⟨t, hs, wf, -⟩ := wf₀.ops ops
  have hh : t.horizon = horizon := by rw [hs.horizon, hs₀.horizon]; simp [TS.blank, hsome]
  have hw' : t.forecaster.kind.Works t.comps.length t.horizon := by
    rw [hs.forecaster, hs.comps, hs.horizon, hs₀.forecaster, hs₀.comps, hs₀.horizon]
    exact TS.blank_works (by rw [← hk] at hw; exact hw)
  obtain ⟨f, hf⟩ := wf.valid.forecast_ok hw' c
  have hsh := wf.valid.forecast_shaped hf
  have hne : t.forecaster.kind.isSome = true := by
    rw [hs.forecaster, hs₀.forecaster]
    cases param <;> simp_all [TS.blank, Forecaster.get, FKind.isSome]
  cases f with
  | some f => exact ⟨t, f, wf.series, hf, hsh.1.trans hh, hsh.2⟩
  | none =>
    exfalso
    unfold TS.forecastValue at hf
    cases hr : t.rows[c]? with
    | none => rw [hr] at hf; simp only at hf; split at hf <;> simp at hf
    | some row =>
      rw [hr] at hf
      simp only [Forecaster.call] at hf
      split at hf
      · simp at hf
      cases hraw : t.forecaster.raw t.draws row (t.window c) t.horizon with
      | error e => rw [hraw] at hf; simp at hf
      | ok o =>
        cases o with
        | some fc =>
          rw [hraw] at hf
          simp only at hf
          split at hf
          · simp at hf
          · split at hf
            · simp at hf
            · split at hf <;> simp at hf
        | none =>
          revert hraw
          unfold Forecaster.raw
          cases hk' : t.forecaster.kind with
          | none => simp [hk', FKind.isSome] at hne
          | oracle => simp
          | gaussian a b std => cases std <;> simp; split <;> simp
          | user g => simp only; cases g row (t.window c) t.horizon <;> simp
          | userScalar g => simp only; split <;> [simp; (cases Forecaster.mapScalar g row 0 (t.window c) <;> simp)]

/-- C30: outputs of every successful step and reset are normalised observations of that length. -/
theorem C30_observation_length (hb : BuiltSeries param horizon i fs r m rows' k) (ops : List MOp)
    (a : Act) (n : Bool) (m' : Module) (o : StepOut) (he : (runOps m ops).step a n = (m', .ok o)) :
    o.obs.vals.length = (1 + if param.isSome then horizon else 0) * k := by
  obtain ⟨s, t, hst, -, hw, hl, -⟩ := C30_state_in_observation_space hb (ops ++ [.step a n])
  have hm' : runOps m (ops ++ [.step a n]) = m' := by simp [runOps, MOp.apply] at he ⊢; rw [he]
  rw [hm'] at hst hw
  obtain ⟨t₀, comps, mn, mx, hs₀, wf₀, -, hk, -⟩ := hb.start
  obtain ⟨t₁, -, wf, -⟩ := wf₀.ops ops
  rw [wf.step_eq] at he
  cases hq : (runOps m ops).request a n with
  | error e => rw [hq] at he; simp at he
  | ok q =>
    rw [hq] at he
    obtain ⟨-, -, -, -, -, -, -, -, hobs, -⟩ := stepEnergy_inv he
    unfold normalizedObs at hobs
    rw [hst] at hobs
    simp only [Space.normalize] at hobs
    rw [Space.apply_ok _ _ _ (by simpa [Act.vals, Space.dim] using hw.1)] at hobs
    simp only [Except.ok.injEq] at hobs
    rw [← hobs, ← hl]
    rw [Space.item_vals]
    simp only [Act.vals]
    exact mapBounds_length _ _ _ _ hw.1 (hw.1.symm.trans hw.2.1)

example : BuiltSeries .oracle 2 0 (-1) false exGrid
    [[1/5, 1/10, 1/2, 1], [3/10, 1/10, 1/2, 0], [2/5, 1/10, 1/2, 1]] 4 :=
  .grid (by decide +kernel) (okModule_eq (by decide +kernel))
example : (runOps exGrid [.step (.num 150) false, .step (.num 1) false]).state.toOption =
    some [2/5, 1/10, 1/2, 1, 3/10, 1/10, 1/2, 1/2, 3/10, 1/10, 1/2, 1/2] := by decide +kernel
example : (exGrid.series?.bind fun t => (t.forecastValue 57).toOption) =
    some (some [[3/10, 1/10, 1/2, 1/2], [3/10, 1/10, 1/2, 1/2]]) := by decide +kernel

/-- C31: with the oracle the forecast part of the state is the true future, with mid-points of the bounds past
    the end of the series; and the current part is the current row. -/
theorem C31_oracle_is_true_future (hb : BuiltSeries .oracle horizon i fs r m rows' k) (ops : List MOp) :
    ∃ t, (runOps m ops).series? = some t ∧
      t.cur = some (trueFuture rows' (midpoints t.minRow t.maxRow) (runOps m ops).currentStep horizon) ∧
      (runOps m ops).state = .ok ((rows'[(runOps m ops).currentStep]?).getD (midpoints t.minRow t.maxRow) ++
        (trueFuture rows' (midpoints t.minRow t.maxRow) (runOps m ops).currentStep horizon).flatten) := by
  obtain ⟨t₀, comps, mn, mx, hs₀, wf₀, hf₀, hk, hc, -⟩ := hb.start
  have hw : t₀.forecaster.kind.Works t₀.comps.length t₀.horizon := by
    rw [hs₀.forecaster]; trivial
  obtain ⟨t, hs, wf, hf⟩ := wf₀.fresh_ops (by rw [hc]; exact hf₀) hw ops
  have hrows : t.rows = rows' := by rw [hs.rows, hs₀.rows]; rfl
  have hh : t.horizon = horizon := by rw [hs.horizon, hs₀.horizon]; rfl
  have hko : t.forecaster.kind = .oracle := by rw [hs.forecaster, hs₀.forecaster]; rfl
  obtain ⟨d, hd⟩ := hf
  have hcur : t.cur = some (trueFuture rows' (midpoints t.minRow t.maxRow) (runOps m ops).currentStep horizon) := by
    have hv : ({ t with draws := d } : TS).Valid := (TS.Same.mk' t t.cur d).valid wf.valid
    have := hv.oracle hko (runOps m ops).currentStep
    rw [hd] at this
    simp only [Except.ok.injEq] at this
    rw [this, ← hrows, ← hh]
  refine ⟨t, wf.series, hcur, ?_⟩
  rw [wf.state, TS.flatCur, hcur, ← hrows]
  rfl

example : (exLoad.series?.bind (·.cur)) = some [[-40], [-20]] := by decide +kernel
example : ((runOps exLoad [.step (.num 0) false]).series?.bind (·.cur)) = some [[-20], [-30]] := by decide +kernel

/-- C32: no history of steps, resets and forecasts changes the stored series. -/
theorem C32_series_unchanged (hb : BuiltSeries param horizon i fs r m rows' k) (ops : List MOp) :
    ((runOps m ops).series?).map (·.rows) = some rows' := by
  obtain ⟨t₀, comps, mn, mx, hs₀, wf₀, -⟩ := hb.start
  obtain ⟨t, hs, wf, -⟩ := wf₀.ops ops
  rw [wf.series, Option.map_some, hs.rows, hs₀.rows]
  rfl

/-- C32: an explicit call of `forecast()`, at any step, does not change it either. -/
theorem C32_forecast_pure (hb : BuiltSeries param horizon i fs r m rows' k) (ops : List MOp) (c : Nat) :
    ∃ t, (runOps m ops).series? = some t ∧ (t.refresh c).1.rows = rows' := by
  obtain ⟨t₀, comps, mn, mx, hs₀, wf₀, -⟩ := hb.start
  obtain ⟨t, hs, wf, -⟩ := wf₀.ops ops
  refine ⟨t, wf.series, ?_⟩
  rw [(wf.valid.refresh_same c).rows, hs.rows, hs₀.rows]
  rfl

/-! ### C46: signs and bounds -/

/-- C46: a load series is accepted exactly if it is non-empty and of one sign. -/
theorem C46_load_accepted_iff (hw : param.Works 1 horizon) :
    (∃ m, mkLoad xs param horizon i fs r = .ok m) ↔
      xs ≠ [] ∧ ((∀ x ∈ xs, x ≤ 0) ∨ (∀ x ∈ xs, 0 ≤ x)) := by
  constructor
  · rintro ⟨m, hm⟩
    obtain ⟨t, mn, mx, -, -, hb, -, hsg, -⟩ := mkLoad_inv hm
    exact ⟨by simpa using (getBounds_spec hb).1, hsg⟩
  · rintro ⟨hne, hsg⟩
    unfold mkLoad signCheck
    rw [if_neg (not_not.mpr hsg)]
    obtain ⟨mn, mx, hb⟩ := getBounds_ok (xs := xs.map fun x => -|x|) (by simpa using hne)
    obtain ⟨-, h1, h2, h3, -⟩ := getBounds_spec hb
    obtain ⟨t, ht⟩ := TS.create_ok (rows := (xs.map fun x => -|x|).map fun x => [x]) (comps := ["load"])
      (mn := [mn]) (mx := [mx]) (param := param) (horizon := horizon) (i := i) (fs := fs) hw rfl
      (Within.single.mpr ⟨le_refl _, h2.trans h3⟩) (within_column h1)
    simp only [Bool.false_eq_true, if_false, hb, ht]
    exact ⟨_, rfl⟩

/-- C46: a renewable series is accepted exactly if it is non-empty and of one sign. -/
theorem C46_renewable_accepted_iff (hw : param.Works 1 horizon) :
    (∃ m, mkRenewable xs param horizon i fs r = .ok m) ↔
      xs ≠ [] ∧ ((∀ x ∈ xs, x ≤ 0) ∨ (∀ x ∈ xs, 0 ≤ x)) := by
  constructor
  · rintro ⟨m, hm⟩
    obtain ⟨t, mn, mx, -, -, hb, -, hsg, -⟩ := mkRenewable_inv hm
    exact ⟨by simpa using (getBounds_spec hb).1, hsg⟩
  · rintro ⟨hne, hsg⟩
    unfold mkRenewable signCheck
    rw [if_neg (not_not.mpr hsg)]
    obtain ⟨mn, mx, hb⟩ := getBounds_ok (xs := xs.map fun x => |x|) (by simpa using hne)
    obtain ⟨-, h1, h2, h3, -⟩ := getBounds_spec hb
    obtain ⟨t, ht⟩ := TS.create_ok (rows := (xs.map fun x => |x|).map fun x => [x]) (comps := ["renewable"])
      (mn := [mn]) (mx := [mx]) (param := param) (horizon := horizon) (i := i) (fs := fs) hw rfl
      (Within.single.mpr ⟨le_refl _, h2.trans h3⟩) (within_column h1)
    simp only [if_true, hb, ht]
    exact ⟨_, rfl⟩

/-- C46: mixed signs raise `ValueError`, for loads and renewables, whatever the forecaster. -/
theorem C46_mixed_signs_rejected (h : ∃ x ∈ xs, ∃ y ∈ xs, x < 0 ∧ 0 < y) :
    mkLoad xs param horizon i fs r = .error .value ∧ mkRenewable xs param horizon i fs r = .error .value := by
  have hno : ¬ ((∀ x ∈ xs, x ≤ 0) ∨ (∀ x ∈ xs, 0 ≤ x)) := by
    obtain ⟨x, hx, y, hy, h1, h2⟩ := h
    rintro (h | h)
    · exact absurd (h y hy) (not_le.mpr h2)
    · exact absurd (h x hx) (not_le.mpr h1)
  simp [mkLoad, mkRenewable, signCheck, hno]

/-- C46: a load series is stored non-positive with unchanged magnitudes; the reported bounds contain 0 and every
    value and are attained or 0. -/
theorem C46_load_bounds (hm : mkLoad xs param horizon i fs r = .ok m) :
    ∃ t mn mx, m.series? = some t ∧ t.rows = xs.map (fun x => [-|x|]) ∧
      m.obsSpace.low = List.replicate (1 + t.horizon) mn ∧ m.obsSpace.high = List.replicate (1 + t.horizon) mx ∧
      mn ≤ 0 ∧ 0 ≤ mx ∧ (∀ x ∈ xs, mn ≤ -|x| ∧ -|x| ≤ mx) ∧
      (mn = 0 ∨ ∃ x ∈ xs, mn = -|x|) ∧ mx = 0 := by
  obtain ⟨t, mn, mx, wf, -, hb, hs, -, -, -, -, -, -, hobs⟩ := mkLoad_inv hm
  obtain ⟨-, h1, h2, h3, h4, h5⟩ := getBounds_spec hb
  refine ⟨t, mn, mx, wf.ts.series, hs.rows, ?_, ?_, h2, h3, ?_, ?_, ?_⟩
  · rw [hobs]
    simp only [TS.obsSpace, TS.minObs, hs.minRow, TS.blank]
    exact List.flatten_replicate_singleton
  · rw [hobs]
    simp only [TS.obsSpace, TS.maxObs, hs.maxRow, TS.blank]
    exact List.flatten_replicate_singleton
  · exact fun x hx => h1 _ (List.mem_map_of_mem hx)
  · rcases h4 with h | h
    · exact .inl h
    · obtain ⟨x, hx, rfl⟩ := List.mem_map.mp h
      exact .inr ⟨x, hx, rfl⟩
  · rcases h5 with h | h
    · exact h
    · obtain ⟨x, hx, hx'⟩ := List.mem_map.mp h
      have := abs_nonneg x
      linarith

/-- C46: a renewable series is stored non-negative with unchanged magnitudes; its bounds are also those of the
    action space. -/
theorem C46_renewable_bounds (hm : mkRenewable xs param horizon i fs r = .ok m) :
    ∃ t mn mx, m.series? = some t ∧ t.rows = xs.map (fun x => [|x|]) ∧
      m.obsSpace.low = List.replicate (1 + t.horizon) mn ∧ m.obsSpace.high = List.replicate (1 + t.horizon) mx ∧
      m.actSpace = some ⟨[mn], [mx]⟩ ∧
      mn = 0 ∧ 0 ≤ mx ∧ (∀ x ∈ xs, mn ≤ |x| ∧ |x| ≤ mx) ∧
      (mx = 0 ∨ ∃ x ∈ xs, mx = |x|) := by
  obtain ⟨t, mn, mx, wf, -, hb, hs, -, -, -, -, -, hact, hobs⟩ := mkRenewable_inv hm
  obtain ⟨-, h1, h2, h3, h4, h5⟩ := getBounds_spec hb
  refine ⟨t, mn, mx, wf.ts.series, hs.rows, ?_, ?_, hact, ?_, h3, ?_, ?_⟩
  · rw [hobs]
    simp only [TS.obsSpace, TS.minObs, hs.minRow, TS.blank]
    exact List.flatten_replicate_singleton
  · rw [hobs]
    simp only [TS.obsSpace, TS.maxObs, hs.maxRow, TS.blank]
    exact List.flatten_replicate_singleton
  · rcases h4 with h | h
    · exact h
    · obtain ⟨x, hx, hx'⟩ := List.mem_map.mp h
      have := abs_nonneg x
      linarith
  · exact fun x hx => h1 _ (List.mem_map_of_mem hx)
  · rcases h5 with h | h
    · exact .inl h
    · obtain ⟨x, hx, rfl⟩ := List.mem_map.mp h
      exact .inr ⟨x, hx, rfl⟩

example : exLoad.obsSpace = { low := [-60, -60, -60], high := [0, 0, 0] } := by decide +kernel
example : ∃ x ∈ ([3, -1] : List ℚ), ∃ y ∈ ([3, -1] : List ℚ), x < 0 ∧ 0 < y := ⟨-1, by simp, 3, by simp, by norm_num⟩

/-! ### C48: grid parameters -/

/-- C48: what a `GridModule` accepts. -/
theorem C48_accepted_iff (hrect : ∀ r ∈ rows, r.length = ncols) (hne : rows ≠ []) (hw : param.Works 4 horizon) :
    (∃ m, mkGrid mi me ncols rows param horizon i fs cc r = .ok m) ↔
      0 ≤ mi ∧ 0 ≤ me ∧ (ncols = 3 ∨ ncols = 4) ∧ (∀ r ∈ rows, ∀ x ∈ r, 0 ≤ x) ∧
        (ncols = 4 → ∀ r ∈ rows, r[3]? = some 0 ∨ r[3]? = some 1) := by
  constructor
  · rintro ⟨m, hm⟩
    unfold mkGrid at hm
    split at hm
    · simp at hm
    rename_i rows' hc
    obtain ⟨h1, h2, h3, h4, h5, -⟩ := (gridCheckParams_iff hrect).mp hc
    exact ⟨h1, h2, h3, h4, h5⟩
  · rintro ⟨h1, h2, h3, h4, h5⟩
    have hc := (gridCheckParams_iff (mi := mi) (me := me) hrect).mpr ⟨h1, h2, h3, h4, h5, rfl⟩
    exact mkGrid_ok hrect hne hw hc

/-- C48: anything else raises `ValueError`. -/
theorem C48_rejected (hrect : ∀ r ∈ rows, r.length = ncols)
    (h : ¬ (0 ≤ mi ∧ 0 ≤ me ∧ (ncols = 3 ∨ ncols = 4) ∧ (∀ r ∈ rows, ∀ x ∈ r, 0 ≤ x) ∧
        (ncols = 4 → ∀ r ∈ rows, r[3]? = some 0 ∨ r[3]? = some 1))) :
    mkGrid mi me ncols rows param horizon i fs cc r = .error .value := by
  unfold mkGrid
  cases hc : gridCheckParams mi me ncols rows with
  | ok rows' =>
    obtain ⟨h1, h2, h3, h4, h5, -⟩ := (gridCheckParams_iff hrect).mp hc
    exact absurd ⟨h1, h2, h3, h4, h5⟩ h
  | error e =>
    simp only
    revert hc
    unfold gridCheckParams
    split
    · rintro ⟨⟩; rfl
    split
    · rintro ⟨⟩; rfl
    split
    · rintro ⟨⟩; rfl
    split
    · split
      · rintro ⟨⟩; rfl
      split <;> rintro ⟨⟩; rfl
    · simp only
      split <;> rintro ⟨⟩; rfl

/-- C48: a series without status column behaves in every step as one with the constant status 1. -/
theorem C48_missing_status_is_connected (hrect : ∀ r ∈ rows, r.length = 3) :
    mkGrid mi me 3 rows param horizon i fs cc r =
      mkGrid mi me 4 (rows.map fun x => x ++ [1]) param horizon i fs cc r := by
  have hrect' : ∀ r ∈ rows.map (fun x => x ++ [(1 : ℚ)]), r.length = 4 := by
    intro r hr
    obtain ⟨x, hx, rfl⟩ := List.mem_map.mp hr
    simp [hrect x hx]
  by_cases h : 0 ≤ mi ∧ 0 ≤ me ∧ (3 = 3 ∨ 3 = 4) ∧ (∀ r ∈ rows, ∀ x ∈ r, 0 ≤ x) ∧
        (3 = 4 → ∀ r ∈ rows, r[3]? = some 0 ∨ r[3]? = some 1)
  · obtain ⟨h1, h2, -, h4, -⟩ := h
    have hc := (gridCheckParams_iff (mi := mi) (me := me) hrect).mpr ⟨h1, h2, .inl rfl, h4, by simp, rfl⟩
    have hc' := (gridCheckParams_iff (mi := mi) (me := me) hrect').mpr ⟨h1, h2, .inr rfl, by
      intro r hr x hx
      obtain ⟨y, hy, rfl⟩ := List.mem_map.mp hr
      rcases List.mem_append.mp hx with hx | hx
      · exact h4 y hy x hx
      · rw [List.mem_singleton.mp hx]; norm_num, by
      intro _ r hr
      obtain ⟨y, hy, rfl⟩ := List.mem_map.mp hr
      right
      rw [List.getElem?_append_right (by rw [hrect y hy])]
      simp [hrect y hy], rfl⟩
    unfold mkGrid
    rw [hc, hc']
    simp [gridRows]
  · rw [C48_rejected hrect h, C48_rejected hrect']
    rintro ⟨h1, h2, -, h4, -⟩
    exact h ⟨h1, h2, .inl rfl, fun r hr x hx => h4 (r ++ [1]) (List.mem_map_of_mem hr) x (by simp [hx]), by simp⟩

example : (mkGrid 100 50 3 [[1/5, 1/10, 1/2]] .none 23 0 (-1) 0 false).isOk = true := by decide +kernel
example : (mkGrid 100 50 4 [[1/5, 1/10, 1/2, 1/2]] .none 23 0 (-1) 0 false).isOk = false := by decide +kernel

end

end Pymgrid
