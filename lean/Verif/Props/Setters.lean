import Verif.Lemmas.Setters
import Verif.Props.Series

set_option autoImplicit false

/-!
# Changing forecasters, horizons and series of a module in use (C44, C32)

Histories `ops : List SOp` mix the ordinary operations with `set_forecaster` and assignments of
`forecast_horizon` in any order.
-/

namespace Pymgrid

open Module

section
variable {param : FKind} {horizon i : Nat} {fs : Int} {r : Bool} {m : Module} {rows : List (List ℚ)} {k : Nat}

/-- The module after a history with setters. -/
theorem built_sops (hb : BuiltSeries param horizon i fs r m rows k) (ops : List SOp) :
    ∃ t, (runSOps m ops).TSLoose t ∧ t.rows = rows ∧ t.comps.length = k ∧
      t.horizon = SOp.horizonAfter (if param.isSome then horizon else 0) ops := by
  obtain ⟨t₀, comps, mn, mx, hs₀, wf₀, -, hk, -, -, -, hobs, -⟩ := hb.start
  obtain ⟨t, hl, hh, h⟩ := (wf₀.loose hobs).sops ops
  refine ⟨t, h, by rw [hl.rows, hs₀.rows]; rfl, by rw [hl.comps, hs₀.comps]; exact hk, ?_⟩
  rw [hh, hs₀.horizon]
  rfl

/-- A consistent module has a state in its observation space. -/
theorem tswf_reads {m : Module} {t : TS} (h : m.TSWF t) (hs : m.obsSpace = t.obsSpace) :
    ∃ s obs, m.state = .ok s ∧ Within m.obsSpace.low m.obsSpace.high s ∧
      s.length = (1 + t.horizon) * t.comps.length ∧ m.normalizedObs = .ok obs ∧ obs.vals.length = s.length := by
  have hw : Within m.obsSpace.low m.obsSpace.high (t.obsAt m.currentStep ++ t.flatCur) := by
    rw [hs]; exact h.state_within
  refine ⟨_, Space.item (mapBounds norm1 m.obsSpace.low m.obsSpace.high (t.obsAt m.currentStep ++ t.flatCur)),
    h.state, hw, ?_, ?_, ?_⟩
  · rw [List.length_append, h.shaped.flat_length h.valid, h.valid.width (h.valid.obsAt_within _)]; ring
  · unfold normalizedObs
    rw [h.state]
    exact Space.apply_ok _ _ _ (by simpa [Act.vals, Space.dim] using hw.1)
  · rw [Space.item_vals]
    exact mapBounds_length _ _ _ _ hw.1 (hw.1.symm.trans hw.2.1)

/-- C44 (partial; missing: the readings between the setter and the next step or reset, see
    `C44_not_immediately`): whatever forecasters and horizons were set before, the first successful step puts
    the observation back in the observation space: it has the length that belongs to the horizon set last,
    it is what the step returned, and the same holds for the states after all further calls, also
    when these calls fail. -/
theorem C44_after_step_partial (hb : BuiltSeries param horizon i fs r m rows k) (ops : List SOp) (a : Act) (n : Bool)
    (m' : Module) (o : StepOut) (he : (runSOps m ops).step a n = (m', .ok o)) (later : List MOp) :
    o.obs.vals.length = (1 + SOp.horizonAfter (if param.isSome then horizon else 0) ops) * k ∧
    m'.normalizedObs = .ok o.obs ∧
    ∃ s, (runOps m' later).state = .ok s ∧
      Within (runOps m' later).obsSpace.low (runOps m' later).obsSpace.high s ∧
      s.length = (1 + SOp.horizonAfter (if param.isSome then horizon else 0) ops) * k := by
  obtain ⟨t, h, -, hk, hh⟩ := built_sops hb ops
  rw [h.step_eq] at he
  cases hq : (runSOps m ops).request a n with
  | error e => rw [hq] at he; simp at he
  | ok q =>
    rw [hq] at he
    simp only at he
    rcases h.stepEnergy q with ⟨e, he'⟩ | ⟨L, f, o', -, hsh, hobs, he'⟩ | ⟨L, e, -, he'⟩
    · rw [he'] at he; simp at he
    · rw [he'] at he
      simp only [Prod.mk.injEq, Except.ok.injEq] at he
      obtain ⟨rfl, rfl⟩ := he
      have hw := h.moved L ((runSOps m ops).currentStep + 1) hsh
      obtain ⟨s, obs, -, -, hl, ho, hlo⟩ := tswf_reads hw h.space
      rw [hobs] at ho
      simp only [Except.ok.injEq] at ho
      refine ⟨by rw [ho, hlo, hl, ← hh, ← hk], hobs, ?_⟩
      obtain ⟨t', hs', hw', -⟩ := hw.ops later
      have hsp : (runOps ((runSOps m ops).moved t L ((runSOps m ops).currentStep + 1) f) later).obsSpace = t'.obsSpace := by
        rw [(frame_runOps _ later).obs]
        change (runSOps m ops).obsSpace = _
        rw [h.space]
        simp [TS.obsSpace, TS.minObs, TS.maxObs, hs'.minRow, hs'.maxRow, hs'.horizon]
      obtain ⟨s', -, hst, hwi, hl', -⟩ := tswf_reads hw' hsp
      refine ⟨s', hst, hwi, ?_⟩
      rw [hl', hs'.horizon, hs'.comps, ← hh, ← hk]
    · rw [he'] at he; simp at he

/-- C44 (partial, as above): the same after a successful reset. -/
theorem C44_after_reset_partial (hb : BuiltSeries param horizon i fs r m rows k) (ops : List SOp)
    (m' : Module) (o : Act) (he : (runSOps m ops).reset = (m', .ok o)) (later : List MOp) :
    o.vals.length = (1 + SOp.horizonAfter (if param.isSome then horizon else 0) ops) * k ∧
    ∃ s, (runOps m' later).state = .ok s ∧
      Within (runOps m' later).obsSpace.low (runOps m' later).obsSpace.high s ∧
      s.length = (1 + SOp.horizonAfter (if param.isSome then horizon else 0) ops) * k := by
  obtain ⟨t, h, -, hk, hh⟩ := built_sops hb ops
  rcases h.reset with ⟨f, obs, -, hsh, hobs, he'⟩ | ⟨e, -, he'⟩
  · rw [he'] at he
    simp only [Prod.mk.injEq, Except.ok.injEq] at he
    obtain ⟨rfl, rfl⟩ := he
    have hw := h.moved (runSOps m ops).logger.flush (runSOps m ops).initialStep hsh
    obtain ⟨s, obs', -, -, hl, ho, hlo⟩ := tswf_reads hw h.space
    rw [hobs] at ho
    simp only [Except.ok.injEq] at ho
    refine ⟨by rw [ho, hlo, hl, ← hh, ← hk], ?_⟩
    obtain ⟨t', hs', hw', -⟩ := hw.ops later
    have hsp : (runOps ((runSOps m ops).moved t (runSOps m ops).logger.flush (runSOps m ops).initialStep f)
        later).obsSpace = t'.obsSpace := by
      rw [(frame_runOps _ later).obs]
      change (runSOps m ops).obsSpace = _
      rw [h.space]
      simp [TS.obsSpace, TS.minObs, TS.maxObs, hs'.minRow, hs'.maxRow, hs'.horizon]
    obtain ⟨s', -, hst, hwi, hl', -⟩ := tswf_reads hw' hsp
    refine ⟨s', hst, hwi, ?_⟩
    rw [hl', hs'.horizon, hs'.comps, ← hh, ← hk]
  · rw [he'] at he; simp at he

/-- C44: a reset after `set_forecaster(k', h)` succeeds, for every forecaster that works for the horizon, whatever was
    set before. -/
theorem C44_reset_succeeds (hb : BuiltSeries param horizon i fs r m rows k) (ops : List SOp) (k' : FKind) (h : Nat)
    (hw : (Forecaster.get k' [] [] h).kind.Works k h) :
    ∃ m' o, ((runSOps m ops).setForecaster k' h).reset = (m', .ok o) := by
  obtain ⟨t, hl, -, hk, -⟩ := built_sops hb ops
  have hs := (hl.setForecaster k' h).2
  rcases hs.reset with ⟨f, obs, -, -, -, he⟩ | ⟨e, hv, -⟩
  · exact ⟨_, _, he⟩
  · obtain ⟨f, hf⟩ := hs.valid.forecast_ok (by
      change (Forecaster.get k' t.minRow t.maxRow (if k'.isSome then h else 0)).kind.Works t.comps.length
        (if k'.isSome then h else 0)
      rw [hk]
      cases k' <;> trivial)
      ((runSOps m ops).setForecaster k' h).initialStep
    rw [hf] at hv
    simp at hv

/-- C44: after `set_forecaster("oracle", h)` and a successful step, the observation is the current row of the series
    followed by the next `h` rows, with the mid-points of the bounds past the end. -/
theorem C44_new_oracle (hb : BuiltSeries param horizon i fs r m rows k) (ops : List SOp) (h : Nat) (a : Act) (n : Bool)
    (m' : Module) (o : StepOut) (he : ((runSOps m ops).setForecaster .oracle h).step a n = (m', .ok o)) :
    ∃ t, m'.series? = some t ∧ m'.state = .ok ((rows[m'.currentStep]?).getD (midpoints t.minRow t.maxRow) ++
        (trueFuture rows (midpoints t.minRow t.maxRow) m'.currentStep h).flatten) := by
  obtain ⟨t, hl, hr, -, -⟩ := built_sops hb ops
  have hs := (hl.setForecaster .oracle h).2
  rw [hs.step_eq] at he
  cases hq : ((runSOps m ops).setForecaster .oracle h).request a n with
  | error e => rw [hq] at he; simp at he
  | ok q =>
    rw [hq] at he
    simp only at he
    rcases hs.stepEnergy q with ⟨e, he'⟩ | ⟨L, f, o', hv, hsh, hobs, he'⟩ | ⟨L, e, -, he'⟩
    · rw [he'] at he; simp at he
    · rw [he'] at he
      simp only [Prod.mk.injEq, Except.ok.injEq] at he
      obtain ⟨rfl, rfl⟩ := he
      have hw := hs.moved L (((runSOps m ops).setForecaster .oracle h).currentStep + 1) hsh
      rw [hs.valid.oracle rfl] at hv
      simp only [Except.ok.injEq] at hv
      refine ⟨_, hw.series, ?_⟩
      rw [hw.state, TS.flatCur, ← hv, ← hr]
      rfl
    · rw [he'] at he; simp at he

/-- C44: if the new horizon is not longer than the old one, the observation is consistent at once. -/
theorem C44_shrinking (hb : BuiltSeries param horizon i fs r m rows k) (ops : List MOp) (s : SOp) (h : Nat)
    (hs : s.newHorizon = some h) (hle : h ≤ if param.isSome then horizon else 0) :
    ∃ v, (s.apply (runOps m ops)).state = .ok v ∧ v.length = (s.apply (runOps m ops)).obsSpace.dim ∧
      v.length = (1 + h) * k := by
  obtain ⟨t₀, comps, mn, mx, hs₀, wf₀, -, hk, -, -, -, hobs, -⟩ := hb.start
  obtain ⟨t, hst, wf, -⟩ := wf₀.ops ops
  have hl : (runOps m ops).TSLoose t := wf.loose (by
    rw [(frame_runOps m ops).obs, hobs]
    simp [TS.obsSpace, TS.minObs, TS.maxObs, hst.minRow, hst.maxRow, hst.horizon])
  have hh : t.horizon = if param.isSome then horizon else 0 := by rw [hst.horizon, hs₀.horizon]; rfl
  have hkk : t.comps.length = k := by rw [hst.comps, hs₀.comps]; exact hk
  have key : ∀ (m' : Module) (t' : TS), m'.TSLoose t' → t'.horizon = h → t'.cur = t.cur → t'.comps = t.comps →
      ∃ v, m'.state = .ok v ∧ v.length = m'.obsSpace.dim ∧ v.length = (1 + h) * k := by
    intro m' t' hl' e₁ e₂ e₃
    have hlen : ((t'.currentKeys.zip (t'.obsAt m'.currentStep) ++ t'.forecastKeys.zip t'.flatCur).map Prod.snd).length =
        (1 + h) * k := by
      have hc : t'.flatCur.length = t.horizon * t.comps.length := by
        rw [← wf.shaped.flat_length wf.valid]; unfold TS.flatCur; rw [e₂]
      rw [List.length_map, List.length_append, List.length_zip, List.length_zip, hc, TS.forecastKeys_length,
        hl'.valid.width (hl'.valid.obsAt_within _), e₁, e₃, hkk]
      simp only [TS.currentKeys, List.length_map, e₃, hkk, min_self]
      rw [min_eq_left (Nat.mul_le_mul_right _ (by rw [hh]; exact hle))]
      ring
    refine ⟨_, ?_, ?_, hlen⟩
    · unfold Module.state; rw [hl'.stateDict]
    · rw [hlen, hl'.dim, e₁, e₃, hkk]
  cases s with
  | call op => simp [SOp.newHorizon] at hs
  | setForecaster f n =>
    refine key _ _ (hl.setForecaster f n).2 ?_ rfl rfl
    cases f <;> exact Option.some.inj hs
  | setHorizon n => exact key _ _ (hl.setHorizon n).2 (Option.some.inj hs) rfl rfl

/-- C32 (partial; missing: histories that assign `time_series`, see `C32_not_after_assignment`): histories that change forecasters and horizons do not change the stored series either. -/
theorem C32_setters_partial (hb : BuiltSeries param horizon i fs r m rows k) (ops : List SOp) :
    ((runSOps m ops).series?).map (·.rows) = some rows := by
  obtain ⟨t, h, hr, -⟩ := built_sops hb ops
  rw [h.series, Option.map_some, hr]

end

/-- A load without forecaster. -/
def plainLoad : Module := okModule (mkLoad [10, 40, 20, 30] .none 0 0 (-1) false)
/-- A load with an oracle looking two steps ahead. -/
def oracleLoad : Module := okModule (mkLoad [10, 40, 20, 30] .oracle 2 0 (-1) false)

example : BuiltSeries .none 0 0 (-1) false plainLoad [[-10], [-40], [-20], [-30]] 1 := by
  have h : mkLoad [10, 40, 20, 30] .none 0 0 (-1) false = .ok plainLoad := okModule_eq (by decide +kernel)
  have := BuiltSeries.load h
  simpa using this
example : ((runSOps plainLoad [.setForecaster .oracle 2]).step (.num 0) false).2.toOption.map (·.obs.vals) =
    some [0, 1/2, 1/4] := by decide +kernel
example : (runSOps plainLoad [.setForecaster .oracle 2, .call (.step (.num 0) false), .setHorizon 1]).state.toOption =
    some [-40, -20] := by decide +kernel

/-- C44 does not hold right after the setter: when the horizon grows, the state is shorter than the observation space
    and cannot be normalised until the next step or reset. -/
theorem C44_not_immediately : ∃ (m : Module) (h : Nat), BuiltSeries .none 0 0 (-1) false m [[-10], [-40], [-20], [-30]] 1 ∧
    (m.setForecaster .oracle h).obsSpace.dim = 3 ∧
    (m.setForecaster .oracle h).state.toOption = some [-10] ∧
    (m.setForecaster .oracle h).normalizedObs.toOption = none ∧
    (m.setHorizon h).obsSpace.dim = 3 ∧ (m.setHorizon h).state.toOption = some [-10] := by
  have h : mkLoad [10, 40, 20, 30] .none 0 0 (-1) false = .ok plainLoad := okModule_eq (by decide +kernel)
  refine ⟨plainLoad, 2, by simpa using BuiltSeries.load h, ?_⟩
  decide +kernel

/-- C44 does not hold for gaussian forecasters with growing uncertainty either: assigning a longer horizon leaves the
    array of standard deviations at its old size, and steps and resets raise while enough of the series is left. -/
theorem C44_not_for_growing_noise : ∃ (m : Module) (noise : Nat → Nat → Nat → ℚ),
    BuiltSeries (.gaussian noise true none) 2 0 (-1) false m [[-10], [-40], [-20], [-30], [-10]] 1 ∧
    (m.setHorizon 3).reset.2.isOk = false ∧ ((m.setHorizon 3).step (.num 0) false).2.isOk = false := by
  have h : mkLoad [10, 40, 20, 30, 10] (.gaussian (fun _ _ _ => 0) true none) 2 0 (-1) false =
      .ok (okModule (mkLoad [10, 40, 20, 30, 10] (.gaussian (fun _ _ _ => 0) true none) 2 0 (-1) false)) :=
    okModule_eq (by decide +kernel)
  refine ⟨_, fun _ _ _ => 0, by simpa using BuiltSeries.load h, ?_⟩
  decide +kernel

/-- C32 does not hold once a series is assigned: the oracle keeps the bounds of the old series, and the next step
    clips the new data in place. -/
theorem C32_not_after_assignment : ∃ m : Module,
    BuiltSeries .oracle 2 0 (-1) false m [[-10], [-40], [-20], [-30]] 1 ∧
    (m.setTimeSeries [50, 60, 70, 80]).2.isOk = true ∧
    (m.setTimeSeries [50, 60, 70, 80]).1.series?.map (·.rows) = some [[-50], [-60], [-70], [-80]] ∧
    ((m.setTimeSeries [50, 60, 70, 80]).1.step (.num 0) false).2.isOk = true ∧
    ((m.setTimeSeries [50, 60, 70, 80]).1.step (.num 0) false).1.series?.map (·.rows) =
      some [[-50], [-60], [-40], [-40]] := by
  have h : mkLoad [10, 40, 20, 30] .oracle 2 0 (-1) false = .ok oracleLoad := okModule_eq (by decide +kernel)
  refine ⟨oracleLoad, by simpa using BuiltSeries.load h, ?_⟩
  decide +kernel

theorem replicate_row (n : Nat) (x : ℚ) : (List.replicate n [x]).flatten = List.replicate n x := by
  induction n with
  | zero => rfl
  | succ n ih => rw [List.replicate_succ, List.flatten_cons, ih]; rfl

/-- C44: assigning a series of one sign to a renewable module succeeds.  The module then holds the magnitudes of the new
    values, its action space and every entry of its observation space reach from 0 to the largest of them, and its
    counter, limits, horizon and log are as before. -/
theorem C44_new_renewable_series {m : Module} {t : TS} (hk : m.kind = .renewable t) {xs : List ℚ} (hne : xs ≠ [])
    (hs : (∀ x ∈ xs, 0 ≤ x) ∨ ∀ x ∈ xs, x ≤ 0) :
    ∃ m' t' mx, m.setTimeSeries xs = (m', .ok ()) ∧ m'.kind = .renewable t' ∧ t'.rows = xs.map (fun x => [|x|]) ∧
      (∃ x ∈ xs, mx = |x|) ∧ (∀ x ∈ xs, |x| ≤ mx) ∧ m'.actSpace = some ⟨[0], [mx]⟩ ∧
      m'.obsSpace = ⟨List.replicate (1 + t.horizon) 0, List.replicate (1 + t.horizon) mx⟩ ∧
      m'.currentStep = m.currentStep ∧ m'.initialStep = m.initialStep ∧ t'.finalStep = t.finalStep ∧
      t'.horizon = t.horizon ∧ m'.logger = m.logger := by
  have hsc : signCheck true xs = .ok (xs.map fun x => |x|) := by
    unfold signCheck
    rw [if_neg (not_not.mpr hs.symm)]
    rfl
  obtain ⟨mn, mx, hb⟩ := getBounds_ok (xs := xs.map fun x => |x|) (by simpa using hne)
  have h0 := getBounds_zero hb (by simp)
  obtain ⟨-, h1, -, h2, -, h3⟩ := getBounds_spec hb
  subst h0
  have hle : ∀ x ∈ xs, |x| ≤ mx := fun x hx => (h1 _ (List.mem_map_of_mem hx)).2
  refine ⟨{ m with kind := .renewable { t with rows := xs.map (fun x => [|x|]), minRow := [0], maxRow := [mx] },
                   actSpace := some ⟨[0], [mx]⟩,
                   obsSpace := ⟨List.replicate (1 + t.horizon) 0, List.replicate (1 + t.horizon) mx⟩ }, _, mx, ?_, rfl, rfl,
    ?_, hle, rfl, rfl, rfl, rfl, rfl, rfl, rfl⟩
  · unfold setTimeSeries putTS
    simp only [hk, hsc, hb, List.map_map, if_true, TS.obsSpace, TS.minObs, TS.maxObs, replicate_row]
    rfl
  · rcases h3 with h3 | h3
    · obtain ⟨x, hx⟩ := List.exists_mem_of_ne_nil _ hne
      exact ⟨x, hx, le_antisymm (h3 ▸ abs_nonneg x) (hle x hx)⟩
    · obtain ⟨x, hx, e⟩ := List.mem_map.mp h3
      exact ⟨x, hx, e.symm⟩

/-- C44: the same for a load, which holds the negated magnitudes; its observation space reaches from the largest demand
    (as a negative number) to 0, and the action space stays empty. -/
theorem C44_new_load_series {m : Module} {t : TS} (hk : m.kind = .load t) {xs : List ℚ} (hne : xs ≠ [])
    (hs : (∀ x ∈ xs, 0 ≤ x) ∨ ∀ x ∈ xs, x ≤ 0) :
    ∃ m' t' mx, m.setTimeSeries xs = (m', .ok ()) ∧ m'.kind = .load t' ∧ t'.rows = xs.map (fun x => [-|x|]) ∧
      (∃ x ∈ xs, mx = |x|) ∧ (∀ x ∈ xs, |x| ≤ mx) ∧ m'.actSpace = m.actSpace ∧
      m'.obsSpace = ⟨List.replicate (1 + t.horizon) (-mx), List.replicate (1 + t.horizon) 0⟩ ∧
      m'.currentStep = m.currentStep ∧ m'.initialStep = m.initialStep ∧ t'.finalStep = t.finalStep ∧
      t'.horizon = t.horizon ∧ m'.logger = m.logger := by
  have hsc : signCheck false xs = .ok (xs.map fun x => -|x|) := by
    unfold signCheck
    rw [if_neg (not_not.mpr hs.symm)]
    rfl
  obtain ⟨mn, mx, hb⟩ := getBounds_ok (xs := xs.map fun x => -|x|) (by simpa using hne)
  obtain ⟨-, h1, -, h2, h3, h4⟩ := getBounds_spec hb
  have h0 : mx = 0 := by
    rcases h4 with h4 | h4
    · exact h4
    · obtain ⟨x, -, e⟩ := List.mem_map.mp h4
      have := abs_nonneg x
      linarith
  subst h0
  have hle : ∀ x ∈ xs, |x| ≤ -mn := fun x hx => by have := (h1 _ (List.mem_map_of_mem hx)).1; linarith
  refine ⟨{ m with kind := .load { t with rows := xs.map (fun x => [-|x|]), minRow := [mn], maxRow := [0] },
                   obsSpace := ⟨List.replicate (1 + t.horizon) mn, List.replicate (1 + t.horizon) 0⟩ }, _, -mn, ?_, rfl, rfl,
    ?_, hle, rfl, by rw [neg_neg], rfl, rfl, rfl, rfl, rfl⟩
  · unfold setTimeSeries putTS
    simp only [hk, hsc, hb, List.map_map, Bool.false_eq_true, if_false, TS.obsSpace, TS.minObs, TS.maxObs, replicate_row]
    rfl
  · rcases h3 with h3 | h3
    · obtain ⟨x, hx⟩ := List.exists_mem_of_ne_nil _ hne
      refine ⟨x, hx, le_antisymm ?_ (hle x hx)⟩
      rw [h3, neg_zero]
      exact abs_nonneg x
    · obtain ⟨x, hx, e⟩ := List.mem_map.mp h3
      exact ⟨x, hx, by rw [← e, neg_neg]⟩

/-- Non-vacuity of the two theorems on new series: a load given larger demands. -/
example : (∃ t, oracleLoad.kind = .load t) ∧ ([50, 60, 70, 80] : List ℚ) ≠ [] ∧ (∀ x ∈ ([50, 60, 70, 80] : List ℚ), 0 ≤ x) ∧
    (oracleLoad.setTimeSeries [50, 60, 70, 80]).1.obsSpace.low = [-80, -80, -80] := by
  refine ⟨⟨_, rfl⟩, by simp, by decide +kernel, by decide +kernel⟩

end Pymgrid
