import Verif.Lemmas.Restart
import Verif.Props.Battery
import Verif.Props.Genset
import Verif.Props.Series

set_option autoImplicit false

/-!
# C58, C29, C26: observations, normalised actions, reset
-/

namespace Pymgrid

open Module

section
variable {m : Module}

/-! ### C58 -/

/-- C58, steps: the observation returned by a successful step shows the quantities of the module *after* the step, in
    order, each as its relative position in its documented range; if batteries have positive capacity every quantity
    is inside its range and hence every entry of the observation in `[0,1]`. -/
theorem C58_step (h : LibraryModule m) {a : Act} {n : Bool} {m' : Module} {o : StepOut}
    (hs : m.step a n = (m', .ok o)) :
    o.obs.vals = m'.readings.map Reading.pos ∧
      (m'.PositiveCapacity → (∀ r ∈ m'.readings, r.lo ≤ r.val ∧ r.val ≤ r.hi) ∧ ∀ y ∈ o.obs.vals, 0 ≤ y ∧ y ≤ 1) := by
  have hl : LibraryModule m' := by have := h.step a n; rwa [hs] at this
  obtain ⟨⟨obs, ho, hv⟩, hr⟩ := hl.wf.readings hl.spaced
  rw [step_obs hs] at ho
  injection ho with ho
  subst ho
  refine ⟨hv, fun hp => ⟨hr hp, ?_⟩⟩
  intro y hy
  rw [hv, List.mem_map] at hy
  obtain ⟨r, hr', rfl⟩ := hy
  exact Reading.pos_mem (hr hp r hr').1 (hr hp r hr').2

/-- C58, resets: `reset()` always succeeds and returns the observation of the state after it, in the same way. -/
theorem C58_reset (h : LibraryModule m) :
    ∃ m' obs, m.reset = (m', .ok obs) ∧ obs.vals = m'.readings.map Reading.pos ∧
      (m'.PositiveCapacity → (∀ r ∈ m'.readings, r.lo ≤ r.val ∧ r.val ≤ r.hi) ∧ ∀ y ∈ obs.vals, 0 ≤ y ∧ y ≤ 1) := by
  obtain ⟨obs, ho⟩ := h.wf.reset_ok
  have hl : LibraryModule m.reset.1 := h.reset
  obtain ⟨⟨obs', ho', hv⟩, hr⟩ := hl.wf.readings hl.spaced
  have hs : m.reset = (m.reset.1, .ok obs) := Prod.ext rfl ho
  rw [reset_obs hs] at ho'
  injection ho' with ho'
  subst ho'
  refine ⟨_, obs, hs, hv, fun hp => ⟨hr hp, ?_⟩⟩
  intro y hy
  rw [hv, List.mem_map] at hy
  obtain ⟨r, hr', rfl⟩ := hy
  exact Reading.pos_mem (hr hp r hr').1 (hr hp r hr').2

/-! ### C29 -/

/-- C29: the range of a module's actions.  (The limits of batteries are those of C50.) -/
theorem C29_action_range (h : LibraryModule m) :
    match m.kind with
    | .battery b => m.actSpace = some ⟨[-b.maxDischarge / b.efficiency], [b.maxCharge * b.efficiency]⟩
    | .genset g => m.actSpace = some ⟨[0, 0], [1, g.runMax]⟩
    | .grid p _ => m.actSpace = some ⟨[-p.maxExport], [p.maxImport]⟩
    | .load _ => m.actSpace = some ⟨[], []⟩
    | .renewable t => m.actSpace = some ⟨t.minRow, t.maxRow⟩
    | .balancing _ => m.actSpace = none := by
  have hs := h.spaced.act
  cases hk : m.kind <;> rw [hk] at hs <;> simp only [hs, Kind.actBox, Battery.minAct, Battery.maxAct, Genset.minAct,
    Genset.maxAct, neg_one_mul]

/-- C29: a step with a normalised action has exactly the effect (new module and result) of the step with the raw
    action: `a` is the normalised form of `raw` if every entry of `a` is the relative position of the entry of `raw`
    in its range.  Gensets included, whose status request is the same number in both forms. -/
theorem C29_step (h : LibraryModule m) {s : Space} (hs : m.actSpace = some s) (a raw : Act)
    (hl : raw.vals.length = s.low.length) (hn : a.vals = (readRow s.low s.high raw.vals).map Reading.pos) :
    m.step a true = m.step raw false :=
  h.wf.normalized h.spaced hs hl hn

/-- C29: every normalised action of the right length is the normalised form of some raw action. -/
theorem C29_every_action (h : LibraryModule m) {s : Space} (hs : m.actSpace = some s) (a : Act)
    (hl : a.vals.length = s.low.length) :
    ∃ raw : Act, raw.vals.length = s.low.length ∧ a.vals = (readRow s.low s.high raw.vals).map Reading.pos ∧
      m.step a true = m.step raw false := by
  have hb := (h.wf.act_shape h.spaced hs).1
  have h1 : (mapBounds denorm1 s.low s.high a.vals).length = s.low.length := by
    rw [mapBounds_length _ _ _ _ hl hb]; exact hl
  have h2 : a.vals = (readRow s.low s.high (mapBounds denorm1 s.low s.high a.vals)).map Reading.pos := by
    rw [← mapBounds_readRow, mapBounds_comp _ _ norm1_denorm1 _ _ _ hl hb]
  exact ⟨.arr (mapBounds denorm1 s.low s.high a.vals), h1, h2, C29_step h hs _ _ h1 h2⟩

/-- C29: a normalised action of the wrong length is rejected with `TypeError`, and only the status request of a genset
    has an effect. -/
theorem C29_wrong_length {s : Space} (hs : m.actSpace = some s) (a : Act)
    (hl : a.vals.length ≠ s.low.length) :
    (∃ e, (m.step a true).2 = .error e) ∧ ((∀ g, m.kind ≠ .genset g) → m.step a true = (m, .error .type)) := by
  have hr : ∀ k : Kind, ({ m with kind := k } : Module).request a true = .error .type := by
    intro k
    have hd : m.denormalizeAct a = .error .type := by
      unfold denormalizeAct
      rw [hs]
      exact Space.apply_err _ _ _ hl
    unfold request
    rw [show ({ m with kind := k } : Module).denormalizeAct a = m.denormalizeAct a from rfl, hd]
    rfl
  have base : ∀ k : Kind, ({ m with kind := k } : Module).baseStep a true = ({ m with kind := k }, .error .type) := by
    intro k
    rw [baseStep_eq, hr k]
  refine ⟨?_, fun hg => ?_⟩
  · unfold step
    split
    · split
      · exact ⟨_, rfl⟩
      · split
        · exact ⟨_, rfl⟩
        · split
          · exact ⟨_, rfl⟩
          · split
            · exact ⟨_, rfl⟩
            · exact ⟨.type, by rw [base]⟩
    · exact ⟨.type, by rw [show m.baseStep a true = _ from base m.kind]⟩
  · rw [step_eq_baseStep m a true hg]; exact base m.kind

/-! ### C26 -/

/-- C26: `reset()` always succeeds, brings the module to its initial step with an empty log, and leaves its
    configuration (spaces, error handling, log names, role) unchanged. -/
theorem C26_counter_and_log (h : LibraryModule m) :
    ∃ m' obs, m.reset = (m', .ok obs) ∧ m'.currentStep = m.initialStep ∧ m'.initialStep = m.initialStep ∧
      m'.logger.len = 0 ∧ m'.logger.cols = [] ∧ m'.actSpace = m.actSpace ∧ m'.obsSpace = m.obsSpace ∧
      m'.raiseErrors = m.raiseErrors ∧ m'.provName = m.provName ∧ m'.absName = m.absName ∧ m'.ffc = m.ffc := by
  obtain ⟨obs, ho⟩ := h.wf.reset_ok
  have hs : m.reset = (m.reset.1, .ok obs) := Prod.ext rfl ho
  obtain ⟨hf, -, h1, h2⟩ := Module.reset_ok hs
  exact ⟨_, obs, hs, h1, hf.init, by rw [h2], by rw [h2], hf.act, hf.obs, hf.raise, hf.prov, hf.abs, hf.ffc⟩

/-- C26 for load, renewable and grid modules whose forecaster uses no random numbers: after any history, a reset puts
    the module back to where it was when built; every later sequence of calls gives the same outputs (observations,
    rewards, dones, infos) and ends in the same state dictionary as on the freshly built module.
    Missing from C26: random forecasters, where the noise of later draws differs. -/
theorem C26_series_partial {param : FKind} {horizon i : Nat} {fs : Int} {r : Bool} {rows : List (List ℚ)} {k : Nat}
    (hb : BuiltSeries param horizon i fs r m rows k) (hw : param.Works k horizon) (hd : param.Deterministic)
    (history future : List MOp) :
    let m' := (runOps m history).reset.1
    m'.stateDict = m.stateDict ∧ outputs m' future = outputs m future ∧
      (runOps m' future).stateDict = (runOps m future).stateDict := by
  obtain ⟨t, comps, mn, mx, hs, wf, hf, hk, h1, h2, -⟩ := hb.start
  have hwt : t.Works := by
    unfold TS.Works
    rw [hs.forecaster, hs.comps, hs.horizon]
    exact TS.blank_works (by rw [← hk] at hw; exact hw)
  have hdt : t.forecaster.kind.Deterministic := by
    rw [hs.forecaster]
    unfold TS.blank Forecaster.get
    cases param <;> exact hd
  have key := (wf.restart hdt (by rw [h2]; exact hf) hwt (by rw [h1, h2]) history).1
  have hdm : m.Deterministic := by
    intro t' ht'
    rw [wf.series] at ht'
    injection ht' with ht'
    subst ht'
    exact hdt
  have hdm' := deterministic_of_core key.symm hdm
  obtain ⟨k1, k2⟩ := twin_outputs future key hdm'
  refine ⟨?_, k1, ?_⟩
  · rw [← core_stateDict, key, core_stateDict]
  · rw [← core_stateDict, k2, core_stateDict]

/-- C26 for balancing modules: as `C26_series_partial`, without restriction. -/
theorem C26_balancing {b : Bool} {i : Nat} {l o : ℚ} (hl : 0 ≤ l) (ho : 0 ≤ o) (history future : List MOp) :
    let m := mkBalancing b i l o
    let m' := (runOps m history).reset.1
    m' = m ∧ outputs m' future = outputs m future := by
  have wf := (mkBalancing_wf (r := b) (i := i) hl ho).ops history
  have fr := frame_runOps (mkBalancing b i l o) history
  have e : (runOps (mkBalancing b i l o) history).reset.1 = mkBalancing b i l o := by
    rw [wf.reset]
    have hk := wf.kind
    generalize runOps (mkBalancing b i l o) history = m at *
    obtain ⟨r1, r2, r3, r4, r5, r6, r7, r8, r9, r10⟩ := m
    obtain ⟨f1, f2, f3, f4, f5, f6, f7⟩ := fr
    simp only at f1 f2 f3 f4 f5 f6 f7 hk
    subst f1 f2 f3 f4 f5 f6 f7 hk
    rfl
  exact ⟨e, by simp only [e]⟩

/-- C26 is violated by batteries and gensets: `reset()` leaves charge, state of charge, status, goal and counters
    exactly as they are. -/
theorem C26_state_kept (hk : (∃ b, m.kind = .battery b) ∨ ∃ g, m.kind = .genset g) : m.reset.1.kind = m.kind := by
  rw [storage_reset (by rcases hk with ⟨b, hb⟩ | ⟨g, hg⟩ <;> simp_all [Kind.tag])]

/-- C26 for batteries and gensets: after any history and a reset, everything but charge/soc and status/goal/counters
    is as it was when the module was built (counter at the initial step, empty log).
    Missing from C26: these internal quantities, see `C26_state_kept` and `C26_not_restored`. -/
theorem C26_storage_partial (hk : (∃ b, m.kind = .battery b) ∨ ∃ g, m.kind = .genset g)
    (h0 : m.currentStep = m.initialStep) (hlog : m.logger = {}) (history : List MOp) :
    (runOps m history).reset.1 = { m with kind := (runOps m history).kind } := by
  have fr := frame_runOps m history
  have ht : m.kind.tag = 0 ∨ m.kind.tag = 1 := by
    rcases hk with ⟨b, hb⟩ | ⟨g, hg⟩ <;> simp_all [Kind.tag]
  rw [storage_reset (by rw [tag_runOps]; exact ht)]
  generalize runOps m history = m' at *
  obtain ⟨r1, r2, r3, r4, r5, r6, r7, r8, r9, r10⟩ := m'
  obtain ⟨s1, s2, s3, s4, s5, s6, s7, s8, s9, s10⟩ := m
  obtain ⟨f1, f2, f3, f4, f5, f6, f7⟩ := fr
  simp only at f1 f2 f3 f4 f5 f6 f7 h0 hlog
  subst f1 f2 f3 f4 f5 f6 f7 h0 hlog
  rfl

end

/-- A battery holding 60 units and a genset that is on. -/
def resetBattery : Module := okModule (mkBattery 10 100 20 30 (1/2) 3 none (some 60) none 0 false)
@[inherit_doc resetBattery] def resetGenset : Module :=
  okModule (mkGenset 10 50 (.const (2/5)) 2 (1/10) 0 0 true true 0 false)
/-- A load of 2, 5, 3 with an oracle that looks one step ahead. -/
def resetLoad : Module := okModule (mkLoad [2, 5, 3] .oracle 1 0 (-1) false)

theorem resetBattery_ok : LibraryModule resetBattery := by
  have : mkBattery 10 100 20 30 (1/2) 3 none (some 60) none 0 false = .ok resetBattery :=
    okModule_eq (by decide +kernel)
  exact .battery this ⟨by norm_num, by norm_num, 60, by decide +kernel, by norm_num, by norm_num⟩

theorem resetGenset_ok : LibraryModule resetGenset := by
  have : mkGenset 10 50 (.const (2/5)) 2 (1/10) 0 0 true true 0 false = .ok resetGenset :=
    okModule_eq (by decide +kernel)
  exact .genset this (by norm_num)

theorem resetLoad_ok : BuiltSeries .oracle 1 0 (-1) false resetLoad [[-2], [-5], [-3]] 1 := by
  have : mkLoad [2, 5, 3] .oracle 1 0 (-1) false = .ok resetLoad := okModule_eq (by decide +kernel)
  have h := BuiltSeries.load this
  have e : ([2, 5, 3] : List ℚ).map (fun x => [-|x|]) = [[-2], [-5], [-3]] := by norm_num [abs_of_pos]
  rwa [e] at h

/-- C26 is violated: a battery built with `init_charge=60` is at 30 after discharging and resetting; a genset built
    with `init_start_up=True` is off after being stopped and reset. -/
theorem C26_not_restored :
    ((runOps resetBattery [.step (.num 15) false, .reset]).charge? = some 30 ∧ resetBattery.charge? = some 60) ∧
      (runOps resetGenset [.step (.arr [0, 0]) false, .reset]).genset?.map (·.status) = some 0 ∧
      resetGenset.genset?.map (·.status) = some 1 := by
  decide +kernel

/-- Non-vacuity of C58 and C29: discharging 15 units the battery goes from 60 to 30 units, shown as 2/9 of its
    range; the normalised action 3/4 is the raw action -15/2 and charges 15/4 units. -/
example : LibraryModule resetBattery ∧ resetBattery.PositiveCapacity ∧
    (resetBattery.step (.num 15) false).2.toOption.map (·.obs) = some (.arr [2/9, 2/9]) ∧
    resetBattery.actSpace = some ⟨[-60], [10]⟩ ∧
    ((readRow [-60] [10] [-15/2]).map Reading.pos = [3/4]) ∧
    (resetBattery.step (.num (3/4)) true).1.charge? = some (60 + 15/4) := by
  refine ⟨resetBattery_ok, ?_, by decide +kernel, by decide +kernel, by decide +kernel, by decide +kernel⟩
  intro b hb
  have : (match resetBattery.kind with | .battery b => decide (0 < b.maxCapacity) | _ => false) = true := by
    decide +kernel
  rw [hb] at this
  simpa using this

/-- Non-vacuity of C58 and C26 for series: after two steps the load shows -3 (range [-5, 0]) and the padding -5/2; after
    the reset it shows -2 and -5 again. -/
example : BuiltSeries .oracle 1 0 (-1) false resetLoad [[-2], [-5], [-3]] 1 ∧ FKind.Works 1 1 .oracle ∧
    FKind.Deterministic .oracle ∧
    (outputs resetLoad [.step (.arr []) false, .step (.arr []) false]).map (·.obs) =
      [.arr [0, 2/5], .arr [2/5, 1/2]] ∧
    (runOps resetLoad [.step (.arr []) false, .step (.arr []) false]).reset.2.toOption = some (.arr [3/5, 0]) :=
  ⟨resetLoad_ok, trivial, trivial, by decide +kernel, by decide +kernel⟩

end Pymgrid
