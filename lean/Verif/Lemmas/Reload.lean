import Verif.Lemmas.Serialize
import Verif.Lemmas.Total
import Verif.Lemmas.Twin

set_option autoImplicit false

/-! What a loaded module has in common with the dumped one. -/

namespace Pymgrid

open Module

section
variable {m : Module}

theorem callable_dump (h : LibraryModule m) (hc : m.HasCallable) : m.dump = .error .type := by
  obtain ⟨rows, hr⟩ := h.table
  obtain ⟨raw, h1, -⟩ := Logger.Holds.serialize (show m.logger.Holds (.str "reward" :: _) rows from hr)
  unfold dump
  rw [h1]
  simp only
  rw [if_neg]
  rw [m.representable_iff]
  exact not_not.mpr hc

theorem not_callable (h : LibraryModule m) {l : Loaded} (hl : m.reload = .ok l) : ¬ m.HasCallable := by
  intro hc
  rw [reload, callable_dump h hc] at hl
  simp at hl

theorem reloaded_frozen (h : LibraryModule m) {l : Loaded} (hl : m.reload = .ok l) :
    l.frozen = decide (0 < m.logger.len) := by
  obtain ⟨l', hl', hf, -⟩ := h.reloaded (not_callable h hl)
  rw [hl] at hl'
  injection hl' with hl'
  subst hl'
  exact hf

/-- With an empty log the loaded module is a twin of the dumped one. -/
theorem reloaded_core (h : LibraryModule m) (hd : m.Deterministic) (h0 : m.logger.len = 0) {l : Loaded}
    (hl : m.reload = .ok l) : l.mod.core = m.core := by
  obtain ⟨l', hl', -, h1, h2⟩ := h.reloaded (not_callable h hl)
  rw [hl] at hl'
  injection hl' with hl'
  subst hl'
  cases hs : m.series? with
  | none => rw [h1 hs]
  | some t =>
    obtain ⟨t₀, s, ⟨d', hf⟩, -, e⟩ := h2 t hs
    have hc : m.currentStep = m.initialStep := by have := h.counted; omega
    obtain ⟨d, hf'⟩ := h.fresh t hs
    have hdt := hd t hs
    have hd0 : t₀.forecaster.kind.Deterministic := by rw [s.forecaster]; exact hdt
    rw [TS.det_forecast hd0, s.forecast hdt] at hf
    rw [TS.det_forecast hdt, hc, hf] at hf'
    have hcur : t₀.cur = t.cur := by injection hf'
    rw [e]
    unfold core
    simp only [Module.mk.injEq, true_and]
    obtain ⟨t', ht'⟩ := h.wf.ts (by rw [hs]; rfl)
    have : t' = t := by have := ht'.series; rw [hs] at this; injection this with this; exact this.symm
    subst this
    conv_rhs => rw [ht'.kind_eq]
    apply still_withTS
    unfold TS.still
    rw [s, hcur]

/-- After a reset of both the loaded module is a twin of the dumped one. -/
theorem reloaded_reset_core (h : LibraryModule m) (hd : m.Deterministic) {l : Loaded} (hl : m.reload = .ok l) :
    l.mod.reset.1.core = m.reset.1.core ∧ ∃ obs, l.mod.reset.2 = .ok obs ∧ m.reset.2 = .ok obs := by
  obtain ⟨l', hl', -, h1, h2⟩ := h.reloaded (not_callable h hl)
  rw [hl] at hl'
  injection hl' with hl'
  subst hl'
  cases hs : m.series? with
  | none =>
    rw [h1 hs]
    obtain ⟨obs, ho⟩ := h.wf.reset_ok
    exact ⟨rfl, obs, ho, ho⟩
  | some t =>
    obtain ⟨t₀, s, -, hsh, e⟩ := h2 t hs
    obtain ⟨t', ht'⟩ := h.wf.ts (by rw [hs]; rfl)
    have : t' = t := by have := ht'.series; rw [hs] at this; injection this with this; exact this.symm
    subst this
    have hw := h.wf.works ht'
    have hdt := hd _ hs
    have wf' : l.mod.TSWF t₀ := by
      rw [e]
      exact ⟨series_withTS hs t₀ _ _, s.valid ht'.valid, hsh, by rw [s.horizon, s.comps]; exact ht'.dim⟩
    have hobs : l.mod.reset.1.core = m.reset.1.core := by
      obtain ⟨f₂, hf₂⟩ := ht'.valid.forecast_ok hw m.initialStep
      have hf₁ : t₀.forecastValue l.mod.initialStep = .ok f₂ := by
        rw [s.forecast hdt, e]; exact hf₂
      rcases ht'.reset with ⟨f, obs, hv, -, he⟩ | ⟨er, hv, he⟩
      · rcases wf'.reset with ⟨f', obs', hv', -, he'⟩ | ⟨er, hv', he'⟩
        · rw [he, he']
          rw [hf₂] at hv
          rw [hf₁] at hv'
          injection hv with hv
          injection hv' with hv'
          subst hv hv'
          rw [e]
          unfold core moved
          simp only [Module.mk.injEq, true_and, Kind.withTS_withTS]
          apply still_withTS
          unfold TS.still
          rw [s]
        · rw [hf₁] at hv'; simp at hv'
      · rw [hf₂] at hv; simp at hv
    refine ⟨hobs, ?_⟩
    obtain ⟨obs, ho⟩ := h.wf.reset_ok
    have ho1 := reset_obs (show m.reset = (m.reset.1, .ok obs) from Prod.ext rfl ho)
    rcases wf'.reset with ⟨f', obs', hv', -, he'⟩ | ⟨er, hv', he'⟩
    · refine ⟨obs, ?_, ho⟩
      have ho2 := reset_obs (show l.mod.reset = (l.mod.reset.1, .ok obs') from Prod.ext rfl (by rw [he']))
      rw [← core_normalizedObs, hobs, core_normalizedObs, ho1] at ho2
      injection ho2 with ho2
      rw [he', ho2]
    · obtain ⟨f₂, hf₂⟩ := wf'.valid.forecast_ok (s.works hw) l.mod.initialStep
      rw [hf₂] at hv'; simp at hv'

end

/-- What loading a module after its dump returns. -/
def loadedOf (m : Module) : Loaded := (m.reload.toOption).getD ⟨m, false⟩

theorem loadedOf_eq {m : Module} (h : LibraryModule m) (hc : ¬ m.HasCallable) : m.reload = .ok (loadedOf m) := by
  obtain ⟨l, hl, -⟩ := h.reloaded hc
  simp [loadedOf, hl, Except.toOption]

end Pymgrid
