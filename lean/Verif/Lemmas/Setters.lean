import Verif.Spec.Setters
import Verif.Lemmas.SeriesHist

set_option autoImplicit false

/-! Helper lemmas about the setters of time-series modules. -/

namespace Pymgrid

namespace TS

theorem Valid.setHorizon {t : TS} (h : t.Valid) (n : Nat) : (t.setHorizon n).Valid := by
  refine ⟨h.minLen, h.box, h.inBox, rfl, rfl, rfl, rfl, ?_⟩
  intro hk
  by_contra h0
  have hn : n > 0 := by
    have : (t.setHorizon n).horizon = n := rfl
    omega
  simp only [TS.setHorizon, Forecaster.setObservationSpace] at hk
  by_cases hc : n > 0 ∧ t.forecaster.isNone = true
  · rw [if_pos hc] at hk; simp at hk
  · rw [if_neg hc] at hk
    exact hc ⟨hn, by simp [Forecaster.isNone, hk]⟩

theorem Valid.setForecaster {t : TS} (h : t.Valid) (k : FKind) (n : Nat) : (t.setForecaster k n).Valid := by
  refine ⟨h.minLen, h.box, h.inBox, rfl, rfl, rfl, rfl, ?_⟩
  intro hk
  cases k with
  | none => rfl
  | _ => simp [TS.setForecaster, Forecaster.get] at hk

end TS

namespace Module

/-- A time-series module that is consistent except perhaps for its stored forecast. -/
structure TSLoose (m : Module) (t : TS) : Prop where
  series : m.series? = some t
  valid : t.Valid
  space : m.obsSpace = t.obsSpace

theorem TSWF.loose {m : Module} {t : TS} (h : m.TSWF t) (hs : m.obsSpace = t.obsSpace) : m.TSLoose t :=
  ⟨h.series, h.valid, hs⟩

theorem TSLoose.dim {m : Module} {t : TS} (h : m.TSLoose t) :
    m.obsSpace.dim = (1 + t.horizon) * t.comps.length := by
  rw [h.space]
  simp [Space.dim, TS.obsSpace, TS.minObs, h.valid.minLen]

theorem TSLoose.not_genset {m : Module} {t : TS} (h : m.TSLoose t) (g : Genset) : m.kind ≠ .genset g := by
  intro hk
  have := h.series
  simp [series?, hk] at this

theorem TSLoose.kind_eq {m : Module} {t : TS} (h : m.TSLoose t) : m.kind = m.kind.withTS t := by
  have := h.series
  unfold series? at this
  cases hk : m.kind <;> simp_all [Kind.withTS]

theorem TSLoose.stateDict {m : Module} {t : TS} (h : m.TSLoose t) :
    m.stateDict = .ok (t.currentKeys.zip (t.obsAt m.currentStep) ++ t.forecastKeys.zip t.flatCur) := by
  rw [← h.valid.stateDict]
  have := h.series
  unfold series? at this
  unfold Module.stateDict
  cases hk : m.kind <;> simp_all

theorem TSLoose.update {m : Module} {t : TS} (h : m.TSLoose t) (e : Option ℚ) (d : Dir) :
    (m.update e d).1 = m := by
  have := h.series
  unfold series? at this
  unfold Module.update
  cases hk : m.kind <;> simp_all

theorem TSLoose.unnormalizedStep {m : Module} {t : TS} (h : m.TSLoose t) (q : ℚ) :
    (m.unnormalizedStep q).1 = m := by
  have hu := h.update
  have hs : ∀ x, (m.asSource x).1 = m := by
    intro x
    unfold asSource
    repeat' split
    all_goals first | rfl | exact hu _ _
  have hk : ∀ x, (m.asSink x).1 = m := by
    intro x
    unfold asSink
    repeat' split
    all_goals first | rfl | exact hu _ _
  unfold Module.unnormalizedStep
  repeat' split
  all_goals first | rfl | exact hs _ | exact hk _

theorem TSLoose.withLogger {m : Module} {t : TS} (h : m.TSLoose t) (L : Logger) :
    TSLoose { m with logger := L } t := ⟨h.series, h.valid, h.space⟩

theorem TSLoose.moved {m : Module} {t : TS} (h : m.TSLoose t) (L : Logger) (c : Nat)
    {f : Option (List (List ℚ))} (hf : t.Shaped f) :
    (m.moved t L c f).TSWF { t with cur := f, draws := t.draws + 1 } :=
  ⟨series_withTS h.series _ _ _, (TS.Same.mk' t _ _).valid h.valid, hf, h.dim⟩

theorem TSLoose.moved_loose {m : Module} {t : TS} (h : m.TSLoose t) (L : Logger) (c : Nat)
    (f : Option (List (List ℚ))) :
    (m.moved t L c f).TSLoose { t with cur := f, draws := t.draws + 1 } :=
  ⟨series_withTS h.series _ _ _, (TS.Same.mk' t _ _).valid h.valid, h.space⟩

/-- A step either fails before anything happened, or replaces the stored forecast by one of the right
    shape, or fails in the forecaster. -/
theorem TSLoose.stepEnergy {m : Module} {t : TS} (h : m.TSLoose t) (q : ℚ) :
    (∃ e, m.stepEnergy q = (m, .error e)) ∨
    (∃ L f o, t.forecastValue (m.currentStep + 1) = .ok f ∧ t.Shaped f ∧
      (m.moved t L (m.currentStep + 1) f).normalizedObs = .ok o.obs ∧
      m.stepEnergy q = (m.moved t L (m.currentStep + 1) f, .ok o)) ∨
    (∃ L e, t.forecastValue (m.currentStep + 1) = .error e ∧
      m.stepEnergy q = (m.moved t L (m.currentStep + 1) t.cur, .error e)) := by
  have hun := h.unnormalizedStep q
  rcases hu : m.unnormalizedStep q with ⟨m₁, e | u⟩
  · rw [hu] at hun
    simp only at hun
    subst hun
    exact .inl ⟨e, by unfold Module.stepEnergy; simp [h.stateDict, hu]⟩
  rw [hu] at hun
  simp only at hun
  subst hun
  cases hl : m₁.logRow (t.currentKeys.zip (t.obsAt m₁.currentStep) ++ t.forecastKeys.zip t.flatCur) u with
  | error e => exact .inl ⟨e, by unfold Module.stepEnergy; simp [h.stateDict, hu, log, hl]⟩
  | ok row =>
    have hup := updateStep_ts (h.withLogger (m₁.logger.log row)).series false
    simp only [Bool.false_eq_true, if_false] at hup
    rcases h.valid.refresh (m₁.currentStep + 1) with ⟨f, hf, hr⟩ | ⟨e, hf, hr⟩
    · rw [hr] at hup
      have hsh := h.valid.forecast_shaped hf
      obtain ⟨obs, hobs⟩ := (h.moved (m₁.logger.log row) (m₁.currentStep + 1) hsh).normalizedObs
      exact .inr (.inl ⟨_, f, ⟨obs, _, _, _⟩, hf, hsh, hobs,
        stepEnergy_of m₁ m₁ _ q _ row u obs h.stateDict hu hl hup hobs⟩)
    · rw [hr] at hup
      refine .inr (.inr ⟨m₁.logger.log row, e, hf, ?_⟩)
      unfold Module.stepEnergy
      simp only [h.stateDict, hu, log, hl, hup]
      rfl

theorem TSLoose.step_eq {m : Module} {t : TS} (h : m.TSLoose t) (a : Act) (n : Bool) :
    m.step a n = match m.request a n with
      | .error e => (m, .error e)
      | .ok q => m.stepEnergy q := by
  rw [step_eq_baseStep m a n h.not_genset, baseStep_eq]
  cases m.request a n <;> rfl

theorem TSLoose.reset {m : Module} {t : TS} (h : m.TSLoose t) :
    (∃ f obs, t.forecastValue m.initialStep = .ok f ∧ t.Shaped f ∧
      (m.moved t m.logger.flush m.initialStep f).normalizedObs = .ok obs ∧
      m.reset = (m.moved t m.logger.flush m.initialStep f, .ok obs)) ∨
    (∃ e, t.forecastValue m.initialStep = .error e ∧
      m.reset = (m.moved t m.logger m.initialStep t.cur, .error e)) := by
  have hup := updateStep_ts h.series true
  simp only [if_true] at hup
  rcases h.valid.refresh m.initialStep with ⟨f, hf, hr⟩ | ⟨e, hf, hr⟩
  · rw [hr] at hup
    have hsh := h.valid.forecast_shaped hf
    obtain ⟨obs, hobs⟩ := (h.moved m.logger.flush m.initialStep hsh).normalizedObs
    refine .inl ⟨f, obs, hf, hsh, hobs, ?_⟩
    unfold Module.reset
    rw [hup]
    exact Prod.ext rfl hobs
  · rw [hr] at hup
    refine .inr ⟨e, hf, ?_⟩
    unfold Module.reset
    rw [hup]
    rfl

theorem TSLoose.putTS {m : Module} {t t' : TS} (h : m.TSLoose t) (hv : t'.Valid) : (m.putTS t').TSLoose t' := by
  have := h.series
  unfold series? at this
  unfold Module.putTS
  cases hk : m.kind <;> simp_all <;> exact ⟨by simp [series?], hv, rfl⟩

theorem TSLoose.setHorizon {m : Module} {t : TS} (h : m.TSLoose t) (n : Nat) :
    m.setHorizon n = m.putTS (t.setHorizon n) ∧ (m.setHorizon n).TSLoose (t.setHorizon n) := by
  have e : m.setHorizon n = m.putTS (t.setHorizon n) := by
    have := h.series
    unfold series? at this
    unfold Module.setHorizon
    cases hk : m.kind <;> simp_all
  exact ⟨e, e ▸ h.putTS (h.valid.setHorizon n)⟩

theorem TSLoose.setForecaster {m : Module} {t : TS} (h : m.TSLoose t) (k : FKind) (n : Nat) :
    m.setForecaster k n = m.putTS (t.setForecaster k n) ∧ (m.setForecaster k n).TSLoose (t.setForecaster k n) := by
  have e : m.setForecaster k n = m.putTS (t.setForecaster k n) := by
    have := h.series
    unfold series? at this
    unfold Module.setForecaster
    cases hk : m.kind <;> simp_all
  exact ⟨e, e ▸ h.putTS (h.valid.setForecaster k n)⟩

theorem TSLoose.mop {m : Module} {t : TS} (h : m.TSLoose t) (op : MOp) :
    ∃ t', TS.Same t t' ∧ (op.apply m).TSLoose t' := by
  have self : ∃ t', TS.Same t t' ∧ m.TSLoose t' := ⟨t, rfl, h⟩
  have mv : ∀ L c f, ∃ t', TS.Same t t' ∧ (m.moved t L c f).TSLoose t' :=
    fun L c f => ⟨_, TS.Same.mk' t _ _, h.moved_loose L c f⟩
  have asg : ∀ f, m.assign f = m := by
    intro f
    have := h.series
    unfold series? at this
    unfold assign
    cases hk : m.kind <;> simp_all
  cases op with
  | step a n =>
    simp only [MOp.apply, h.step_eq]
    cases m.request a n with
    | error e => exact self
    | ok q =>
      rcases h.stepEnergy q with ⟨e, he⟩ | ⟨L, f, o, -, -, -, he⟩ | ⟨L, e, -, he⟩
      · simp only [he]; exact self
      · simp only [he]; exact mv _ _ _
      · simp only [he]; exact mv _ _ _
  | reset =>
    rcases h.reset with ⟨f, obs, -, hf, -, he⟩ | ⟨e, -, he⟩
    · simp only [MOp.apply, he]; exact mv _ _ _
    · simp only [MOp.apply, he]; exact mv _ _ _
  | setSoc v => simp only [MOp.apply, asg]; exact self
  | setCharge v => simp only [MOp.apply, asg]; exact self

/-- What histories with setters leave unchanged. -/
structure TSLike (t t' : TS) : Prop where
  rows : t'.rows = t.rows
  comps : t'.comps = t.comps
  minRow : t'.minRow = t.minRow
  maxRow : t'.maxRow = t.maxRow
  finalStep : t'.finalStep = t.finalStep

theorem TSLike.refl (t : TS) : TSLike t t := ⟨rfl, rfl, rfl, rfl, rfl⟩

theorem TSLike.trans {a b c : TS} (h : TSLike a b) (h' : TSLike b c) : TSLike a c :=
  ⟨h'.rows.trans h.rows, h'.comps.trans h.comps, h'.minRow.trans h.minRow, h'.maxRow.trans h.maxRow,
    h'.finalStep.trans h.finalStep⟩

theorem TSLoose.sop {m : Module} {t : TS} (h : m.TSLoose t) (op : SOp) :
    ∃ t', TSLike t t' ∧ t'.horizon = op.newHorizon.getD t.horizon ∧ (op.apply m).TSLoose t' := by
  cases op with
  | call op =>
    obtain ⟨t', hs, h'⟩ := h.mop op
    exact ⟨t', ⟨hs.rows, hs.comps, hs.minRow, hs.maxRow, hs.finalStep⟩, hs.horizon, h'⟩
  | setForecaster k n =>
    refine ⟨t.setForecaster k n, ⟨rfl, rfl, rfl, rfl, rfl⟩, ?_, (h.setForecaster k n).2⟩
    cases k <;> rfl
  | setHorizon n => exact ⟨t.setHorizon n, ⟨rfl, rfl, rfl, rfl, rfl⟩, rfl, (h.setHorizon n).2⟩

theorem TSLoose.sops {m : Module} {t : TS} (h : m.TSLoose t) (ops : List SOp) :
    ∃ t', TSLike t t' ∧ t'.horizon = SOp.horizonAfter t.horizon ops ∧ (runSOps m ops).TSLoose t' := by
  induction ops generalizing m t with
  | nil => exact ⟨t, .refl t, rfl, h⟩
  | cons op ops ih =>
    obtain ⟨t₁, s₁, e₁, h₁⟩ := h.sop op
    obtain ⟨t₂, s₂, e₂, h₂⟩ := ih h₁
    refine ⟨t₂, s₁.trans s₂, ?_, h₂⟩
    rw [e₂, e₁]
    unfold SOp.horizonAfter
    cases hn : op.newHorizon with
    | none => simp [hn]
    | some n =>
      simp only [List.filterMap_cons, hn, Option.getD_some, List.getLast?_cons]

end Module

end Pymgrid
