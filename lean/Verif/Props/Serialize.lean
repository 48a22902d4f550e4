import Verif.Lemmas.Reload
import Verif.Model.Setters
import Verif.Props.Observe

set_option autoImplicit false

/-!
# C43: dumping and loading modules

`m.reload` is `yaml.safe_load(yaml.safe_dump(m))`.  The full claim - a loaded module has the state and all the future
behaviour of the dumped one - holds for modules with an empty log (`C43_resume_partial`) and for all modules after a
reset of both (`C43_after_reset_partial`), as long as the forecaster uses no random numbers.  With a non-empty log it
fails, see `C43_cannot_continue` and `C43_stale_forecast`.
-/

namespace Pymgrid

open Module

section
variable {m : Module}

/-- C43: exactly the modules that were given a function cannot be dumped; all others can be dumped and loaded. -/
theorem C43_dump_load (h : LibraryModule m) :
    (m.HasCallable → m.dump = .error .type) ∧ (¬ m.HasCallable → ∃ l, m.reload = .ok l) := by
  refine ⟨callable_dump h, fun hc => ?_⟩
  obtain ⟨l, hl, -⟩ := h.reloaded hc
  exact ⟨l, hl⟩

/-- C43, parameters and state: a loaded battery, genset or balancing module is the dumped one in every respect
    (parameters, spaces, counter, internal state, log).  A loaded load, renewable or grid module is the dumped one
    except for its stored forecast, which is the one for the *initial* step (and the count of random draws).  The log
    entries are always the same; if there are any, the log can only be read. -/
theorem C43_reload (h : LibraryModule m) {l : Loaded} (hl : m.reload = .ok l) :
    (m.series? = none → l.mod = m) ∧
    (∀ t, m.series? = some t → ∃ f d d', ({ t with draws := d' } : TS).forecastValue m.initialStep = .ok f ∧
      l.mod = { m with kind := m.kind.withTS { t with cur := f, draws := d } }) ∧
    l.mod.logger = m.logger ∧ (l.frozen = true ↔ 0 < m.logger.len) := by
  obtain ⟨l', hl', hf, h1, h2⟩ := h.reloaded (not_callable h hl)
  rw [hl] at hl'
  injection hl' with hl'
  subst hl'
  refine ⟨h1, ?_, ?_, by rw [hf]; simp⟩
  · intro t ht
    obtain ⟨t₀, s, ⟨d', hd⟩, -, e⟩ := h2 t ht
    refine ⟨t₀.cur, t₀.draws, d', ?_, ?_⟩
    · rw [← hd, s]
      rfl
    · rw [e]
      congr 2
  · cases hs : m.series? with
    | none => rw [h1 hs]
    | some t => obtain ⟨t₀, -, -, -, e⟩ := h2 t hs; rw [e]

/-- C43 for modules with an empty log (new or just reset) and without random numbers: every further sequence of calls
    gives the same outputs (observations, rewards, dones, infos) on the loaded module and ends in the same state.
    Missing: modules with a non-empty log, for which it fails (`C43_cannot_continue`), and random forecasters. -/
theorem C43_resume_partial (h : LibraryModule m) (hd : m.Deterministic) (h0 : m.logger.len = 0) {l : Loaded}
    (hl : m.reload = .ok l) (future : List MOp) :
    l.outputs future = outputs m future ∧ (l.run future).mod.stateDict = (runOps m future).stateDict := by
  have hf := reloaded_frozen h hl
  have key := reloaded_core h hd h0 hl
  obtain ⟨lm, fr⟩ := l
  simp only [h0, lt_irrefl, decide_false] at hf key
  subst hf
  obtain ⟨e1, e2⟩ := loaded_free lm future
  obtain ⟨k1, k2⟩ := twin_outputs future key (deterministic_of_core key.symm hd)
  refine ⟨e1.trans k1, ?_⟩
  rw [e2, ← core_stateDict, k2, core_stateDict]

/-- C43 after a reset: whatever happened before the dump, once both the loaded and the dumped module (without random
    numbers) are reset, which always succeeds with the same observation, every further sequence of calls gives the
    same outputs and ends in the same state.
    Missing: behaviour before the reset, and random forecasters. -/
theorem C43_after_reset_partial (h : LibraryModule m) (hd : m.Deterministic) {l : Loaded}
    (hl : m.reload = .ok l) (future : List MOp) :
    (∃ obs, l.reset.2 = .ok obs ∧ m.reset.2 = .ok obs) ∧
    l.reset.1.outputs future = outputs m.reset.1 future ∧
    (l.reset.1.run future).mod.stateDict = (runOps m.reset.1 future).stateDict := by
  obtain ⟨hcore, obs, ho1, ho2⟩ := reloaded_reset_core h hd hl
  rw [loaded_reset l obs ho1]
  obtain ⟨e1, e2⟩ := loaded_free l.mod.reset.1 future
  have hdr := (twin_reset (rfl : m.core = m.core) hd).2.2
  obtain ⟨k1, k2⟩ := twin_outputs future hcore (deterministic_of_core hcore.symm hdr)
  refine ⟨⟨obs, rfl, ho2⟩, e1.trans k1, ?_⟩
  rw [e2, ← core_stateDict, k2, core_stateDict]

/-- C43 is violated by every module with a non-empty log: no step of the loaded module succeeds, whereas the dumped
    module carries out every documented action (when it has data left and does not raise errors). -/
theorem C43_cannot_continue (h : LibraryModule m) (h0 : 0 < m.logger.len) {l : Loaded} (hl : m.reload = .ok l) :
    (∀ a n, ∃ e, (l.step a n).2 = .error e) ∧
    (m.Live → m.raiseErrors = false → ∀ a n, m.Accepts a n → ∃ m' o, m.step a n = (m', .ok o)) := by
  refine ⟨fun a n => ?_, fun hlv hr a n ha => h.wf.step_accepts hlv hr ha⟩
  have hf := (C43_reload h hl).2.2.2.mpr h0
  unfold Loaded.step
  simp only [hf, if_true]
  exact frozenStep_error _ _ _

end

/-- The battery after a discharge of 15 units. -/
def usedBattery : Module := (resetBattery.step (.num 15) false).1

/-- The load after its first step. -/
def usedLoad : Module := (resetLoad.step (.arr []) false).1

theorem usedBattery_ok : LibraryModule usedBattery := .step resetBattery_ok _ _

theorem resetLoad_library : LibraryModule resetLoad := .series resetLoad_ok trivial

theorem usedLoad_ok : LibraryModule usedLoad := .step resetLoad_library _ _

/-- C43 is violated: the load after one step is at -5 with forecast -3; loaded from its dump it is at -5 with the
    forecast -5, the one made for the first step. -/
theorem C43_stale_forecast :
    usedLoad.stateDict.toOption = some [(.cur "load", -5), (.fc "load" 0, -3)] ∧
      (loadedOf usedLoad).mod.stateDict.toOption = some [(.cur "load", -5), (.fc "load" 0, -5)] := by
  decide +kernel

/-- C43 is violated: a step of the loaded battery raises, yet the charge has gone down from 30 to 20 (a request of 5
    at efficiency 1/2), while the counter stays. -/
theorem C43_failed_step_moves_charge :
    (loadedOf usedBattery).mod.charge? = some 30 ∧
      ((loadedOf usedBattery).step (.num 5) false).2.toOption = none ∧
      ((loadedOf usedBattery).step (.num 5) false).1.mod.charge? = some 20 ∧
      ((loadedOf usedBattery).step (.num 5) false).1.mod.currentStep = 1 ∧
      (usedBattery.step (.num 5) false).2.toOption.isSome = true := by
  decide +kernel

/-- C43 is violated: a forecaster chosen with `set_forecaster` is not dumped.  The load built without forecaster that
    got an oracle has observations of two values; after loading it has one. -/
theorem C43_forecaster_lost :
    let m := (okModule (mkLoad [2, 5, 3] .none 1 0 (-1) false)).setForecaster .oracle 1
    m.logger.len = 0 ∧ m.obsSpace.low.length = 2 ∧ (loadedOf m).mod.obsSpace.low.length = 1 ∧
      m.reload.isOk = true := by
  decide +kernel

/-- A genset with a cost function. -/
def costGenset : Module := okModule (mkGenset 10 50 (.fn fun q => 2 * q) 2 (1/10) 0 0 true true 0 false)

/-- Non-vacuity of `C43_dump_load`: the battery can be dumped, the genset with a cost function cannot. -/
example : LibraryModule usedBattery ∧ ¬ usedBattery.HasCallable ∧
    LibraryModule costGenset ∧ costGenset.HasCallable := by
  refine ⟨usedBattery_ok, ?_, ?_, ?_⟩
  · rw [← representable_iff]; decide +kernel
  · have : mkGenset 10 50 (.fn fun q => 2 * q) 2 (1/10) 0 0 true true 0 false = .ok costGenset :=
      okModule_eq (by decide +kernel)
    exact .genset this (by norm_num)
  · by_contra h
    rw [← representable_iff] at h
    exact absurd h (by decide +kernel)

/-- Non-vacuity of `C43_reload` and `C43_cannot_continue`: a used battery and a used load, both with one log entry. -/
example : LibraryModule usedBattery ∧ usedBattery.reload = .ok (loadedOf usedBattery) ∧ 0 < usedBattery.logger.len ∧
    usedBattery.series?.isNone = true ∧ usedBattery.raiseErrors = false ∧
    LibraryModule usedLoad ∧ usedLoad.reload = .ok (loadedOf usedLoad) ∧ 0 < usedLoad.logger.len ∧
    usedLoad.series?.isSome = true :=
  ⟨usedBattery_ok, loadedOf_eq usedBattery_ok (by rw [← representable_iff]; decide +kernel), by decide +kernel,
    by decide +kernel, by decide +kernel, usedLoad_ok,
    loadedOf_eq usedLoad_ok (by rw [← representable_iff]; decide +kernel), by decide +kernel, by decide +kernel⟩

/-- Non-vacuity of `C43_resume_partial` and `C43_after_reset_partial`: the new load runs through its series after
    loading, and the used one does so after loading and a reset. -/
example : resetLoad.Deterministic ∧ resetLoad.logger.len = 0 ∧ resetLoad.reload = .ok (loadedOf resetLoad) ∧
    ((loadedOf resetLoad).outputs [.step (.arr []) false, .step (.arr []) false]).map (·.obs) =
      [.arr [0, 2/5], .arr [2/5, 1/2]] ∧
    usedLoad.Deterministic ∧ usedLoad.reload = .ok (loadedOf usedLoad) ∧
    ((loadedOf usedLoad).outputs [.step (.arr []) false, .reset, .step (.arr []) false]).map (·.obs) =
      [.arr [0, 2/5]] := by
  refine ⟨?_, by decide +kernel, loadedOf_eq resetLoad_library (by rw [← representable_iff]; decide +kernel),
    by decide +kernel, ?_, loadedOf_eq usedLoad_ok (by rw [← representable_iff]; decide +kernel), by decide +kernel⟩
  · intro t ht
    have : (resetLoad.series?.map (fun t => match t.forecaster.kind with | .oracle => true | _ => false)) = some true := by decide +kernel
    rw [ht] at this
    simp only [Option.map_some] at this
    cases hk : t.forecaster.kind <;> rw [hk] at this <;> simp_all [FKind.Deterministic]
  · intro t ht
    have : (usedLoad.series?.map (fun t => match t.forecaster.kind with | .oracle => true | _ => false)) = some true := by decide +kernel
    rw [ht] at this
    simp only [Option.map_some] at this
    cases hk : t.forecaster.kind <;> rw [hk] at this <;> simp_all [FKind.Deterministic]

end Pymgrid
