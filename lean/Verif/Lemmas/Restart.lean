import Verif.Lemmas.Twin
import Verif.Lemmas.Observe

set_option autoImplicit false

/-! What `reset` restores. -/

namespace Pymgrid

theorem TS.det_forecast {t : TS} (h : t.forecaster.kind.Deterministic) (d c : Nat) :
    ({ t with draws := d } : TS).forecastValue c = t.forecastValue c := by
  unfold TS.forecastValue
  simp only
  cases t.rows[c]? with
  | none => rfl
  | some row =>
    simp only [Forecaster.call, Forecaster.raw]
    cases hk : t.forecaster.kind with
    | gaussian n i s => rw [hk] at h; exact h.elim
    | _ => rfl

theorem TS.Same.forecast {t t' : TS} (s : TS.Same t t') (h : t.forecaster.kind.Deterministic) (c : Nat) :
    t'.forecastValue c = t.forecastValue c := by
  have h' : t'.forecaster.kind.Deterministic := by rw [s.forecaster]; exact h
  have e : ({ t' with draws := t.draws } : TS).forecastValue c = t.forecastValue c := by
    rw [s]; rfl
  exact (TS.det_forecast h' t.draws c).symm.trans e

namespace Module

theorem still_withTS {k : Kind} {t t' : TS} (h : t'.still = t.still) : (k.withTS t').still = (k.withTS t).still := by
  cases k <;> simp [Kind.withTS, Kind.still, h]

/-- A series module with deterministic forecaster, after any history and a reset, agrees with the module as built. -/
theorem TSWF.restart {m : Module} {t : TS} (h : m.TSWF t) (hd : t.forecaster.kind.Deterministic)
    (hf : t.Fresh m.initialStep) (hw : t.Works) (hc : m.currentStep = m.initialStep) (ops : List MOp) :
    (runOps m ops).reset.1.core = m.core ∧ ∃ obs, (runOps m ops).reset.2 = .ok obs := by
  obtain ⟨t', s, h', k⟩ := h.ops ops
  have fr := frame_runOps m ops
  rcases h'.reset with ⟨f, obs, hv, -, he⟩ | ⟨e, hv, he⟩
  · rw [he]
    refine ⟨?_, obs, rfl⟩
    have hcur : f = t.cur := by
      obtain ⟨d, hd'⟩ := hf
      rw [TS.det_forecast hd] at hd'
      rw [fr.init, s.forecast hd, hd'] at hv
      simpa using hv.symm
    unfold core Module.moved
    simp only [Module.mk.injEq]
    refine ⟨fr.raise, fr.init, by rw [fr.init, hc], fr.act, fr.obs, fr.prov, fr.abs, trivial, fr.ffc, ?_⟩
    rw [k]
    conv_rhs => rw [h.kind_eq]
    simp only [Kind.withTS_withTS]
    apply still_withTS
    unfold TS.still
    rw [hcur, s]
  · exfalso
    obtain ⟨f, hf'⟩ := h'.valid.forecast_ok (s.works hw) (runOps m ops).initialStep
    rw [hv] at hf'
    simp at hf'

end Module

end Pymgrid
