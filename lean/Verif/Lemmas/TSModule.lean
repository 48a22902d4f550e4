import Verif.Lemmas.Series
import Verif.Lemmas.Frame

set_option autoImplicit false

/-! Helper lemmas about load, renewable and grid modules. -/

namespace Pymgrid

/-- Replace the series of a time-series module. -/
def Kind.withTS (k : Kind) (t : TS) : Kind :=
  match k with
  | .grid p _ => .grid p t
  | .load _ => .load t
  | .renewable _ => .renewable t
  | k => k

@[simp] theorem Kind.withTS_withTS (k : Kind) (t t' : TS) : (k.withTS t).withTS t' = k.withTS t' := by
  cases k <;> rfl

namespace Module

/-- A time-series module in a consistent state. -/
structure TSWF (m : Module) (t : TS) : Prop where
  series : m.series? = some t
  valid : t.Valid
  shaped : t.Shaped t.cur
  dim : m.obsSpace.dim = (1 + t.horizon) * t.comps.length

theorem TSWF.kind_eq {m : Module} {t : TS} (h : m.TSWF t) : m.kind = m.kind.withTS t := by
  have := h.series
  unfold series? at this
  cases hk : m.kind <;> simp_all [Kind.withTS]

theorem series_withTS {m : Module} {t : TS} (h : m.series? = some t) (t' : TS) (L : Logger) (c : Nat) :
    series? { m with kind := m.kind.withTS t', logger := L, currentStep := c } = some t' := by
  unfold series? at *
  cases hk : m.kind <;> simp_all [Kind.withTS]

theorem TSWF.not_genset {m : Module} {t : TS} (h : m.TSWF t) (g : Genset) : m.kind ≠ .genset g := by
  intro hk
  have := h.series
  simp [series?, hk] at this

theorem TSWF.stateDict {m : Module} {t : TS} (h : m.TSWF t) :
    m.stateDict = .ok (t.currentKeys.zip (t.obsAt m.currentStep) ++ t.forecastKeys.zip t.flatCur) := by
  rw [← h.valid.stateDict]
  have := h.series
  unfold series? at this
  unfold Module.stateDict
  cases hk : m.kind <;> simp_all

theorem TSWF.state {m : Module} {t : TS} (h : m.TSWF t) :
    m.state = .ok (t.obsAt m.currentStep ++ t.flatCur) := by
  unfold Module.state
  rw [h.stateDict]
  simp only
  rw [h.valid.state_vals h.shaped]

theorem TSWF.normalizedObs {m : Module} {t : TS} (h : m.TSWF t) : ∃ obs, m.normalizedObs = .ok obs := by
  unfold Module.normalizedObs
  rw [h.state]
  refine ⟨_, Space.apply_ok _ _ _ ?_⟩
  simp only [Act.vals, List.length_append]
  rw [h.dim, h.shaped.flat_length h.valid, h.valid.width (h.valid.obsAt_within _)]
  ring

theorem TSWF.update {m : Module} {t : TS} (h : m.TSWF t) (e : Option ℚ) (d : Dir) :
    (m.update e d).1 = m := by
  have := h.series
  unfold series? at this
  unfold Module.update
  cases hk : m.kind <;> simp_all

theorem TSWF.unnormalizedStep {m : Module} {t : TS} (h : m.TSWF t) (q : ℚ) :
    (m.unnormalizedStep q).1 = m := by
  have hu := h.update
  have hs : ∀ x, (m.asSource x).1 = m := by
    intro x
    unfold asSource
    repeat' split
    all_goals first | rfl | exact hu _ _
  have hk : ∀ x, (m.asSink x).1 = m := by
    intro x
    unfold asSink
    repeat' split
    all_goals first | rfl | exact hu _ _
  unfold Module.unnormalizedStep
  repeat' split
  all_goals first | rfl | exact hs _ | exact hk _

theorem updateStep_ts {m : Module} {t : TS} (h : m.series? = some t) (r : Bool) :
    m.updateStep r =
      ({ m with currentStep := if r then m.initialStep else m.currentStep + 1
                kind := m.kind.withTS (t.refresh (if r then m.initialStep else m.currentStep + 1)).1 },
        (t.refresh (if r then m.initialStep else m.currentStep + 1)).2) := by
  unfold series? at h
  unfold Module.updateStep refresh
  cases hk : m.kind <;> simp_all [Kind.withTS]

/-- The module after its step counter moved and its forecast was replaced by `f`. -/
def moved (m : Module) (t : TS) (L : Logger) (c : Nat) (f : Option (List (List ℚ))) : Module :=
  { m with currentStep := c, logger := L, kind := m.kind.withTS { t with cur := f, draws := t.draws + 1 } }

theorem TSWF.moved {m : Module} {t : TS} (h : m.TSWF t) (L : Logger) (c : Nat)
    {f : Option (List (List ℚ))} (hf : t.Shaped f) :
    (m.moved t L c f).TSWF { t with cur := f, draws := t.draws + 1 } :=
  ⟨series_withTS h.series _ _ _, (TS.Same.mk' t _ _).valid h.valid, hf, h.dim⟩

theorem TSWF.withLogger {m : Module} {t : TS} (h : m.TSWF t) (L : Logger) : TSWF { m with logger := L } t :=
  ⟨h.series, h.valid, h.shaped, h.dim⟩

/-- A time-series step either fails before anything happened, or fails in the forecaster after the
    row was logged and the counter advanced, or succeeds. -/
theorem TSWF.stepEnergy {m : Module} {t : TS} (h : m.TSWF t) (q : ℚ) :
    (∃ e, m.stepEnergy q = (m, .error e)) ∨
    (∃ u pre row, m.unnormalizedStep q = (m, .ok u) ∧ m.stateDict = .ok pre ∧ m.logRow pre u = .ok row ∧
      ((∃ f, t.forecastValue (m.currentStep + 1) = .ok f ∧ t.Shaped f ∧
          ∃ obs, m.stepEnergy q = (m.moved t (m.logger.log row) (m.currentStep + 1) f,
            .ok { obs, reward := u.reward, done := u.done, info := u.info })) ∨
       (∃ e, t.forecastValue (m.currentStep + 1) = .error e ∧
          m.stepEnergy q = (m.moved t (m.logger.log row) (m.currentStep + 1) t.cur, .error e)))) := by
  have hun := h.unnormalizedStep q
  rcases hu : m.unnormalizedStep q with ⟨m₁, e | u⟩
  · rw [hu] at hun
    simp only at hun
    subst hun
    exact .inl ⟨e, by unfold Module.stepEnergy; simp [h.stateDict, hu]⟩
  rw [hu] at hun
  simp only at hun
  subst hun
  cases hl : m₁.logRow (t.currentKeys.zip (t.obsAt m₁.currentStep) ++ t.forecastKeys.zip t.flatCur) u with
  | error e => exact .inl ⟨e, by unfold Module.stepEnergy; simp [h.stateDict, hu, log, hl]⟩
  | ok row =>
    refine .inr ⟨u, _, row, rfl, h.stateDict, hl, ?_⟩
    have hup := updateStep_ts (h.withLogger (m₁.logger.log row)).series false
    simp only [Bool.false_eq_true, if_false] at hup
    rcases h.valid.refresh (m₁.currentStep + 1) with ⟨f, hf, hr⟩ | ⟨e, hf, hr⟩
    · rw [hr] at hup
      have hsh := h.valid.forecast_shaped hf
      obtain ⟨obs, hobs⟩ := (h.moved (m₁.logger.log row) (m₁.currentStep + 1) hsh).normalizedObs
      exact .inl ⟨f, hf, hsh, obs,
        stepEnergy_of m₁ m₁ _ q _ row u obs h.stateDict hu hl hup hobs⟩
    · rw [hr] at hup
      refine .inr ⟨e, hf, ?_⟩
      unfold Module.stepEnergy
      simp only [h.stateDict, hu, log, hl, hup]
      rfl

/-- Once the energy exchange succeeds, only a failing forecaster can make the step fail. -/
theorem TSWF.stepEnergy_ok {m : Module} {t : TS} (h : m.TSWF t) {q : ℚ} {u : UpdateOut}
    (hu : m.unnormalizedStep q = (m, .ok u)) (hp : m.provName = none → u.info.provided = none)
    (ha : m.absName = none → u.info.absorbed = none)
    (hw : t.forecaster.kind.Works t.comps.length t.horizon) :
    ∃ pre row f obs, m.stateDict = .ok pre ∧ m.logRow pre u = .ok row ∧
      t.forecastValue (m.currentStep + 1) = .ok f ∧ t.Shaped f ∧
      m.stepEnergy q = (m.moved t (m.logger.log row) (m.currentStep + 1) f,
            .ok { obs, reward := u.reward, done := u.done, info := u.info }) := by
  obtain ⟨row, hl⟩ := logRow_ok m _ u hp ha
  obtain ⟨f, hf⟩ := h.valid.forecast_ok hw (m.currentStep + 1)
  have hsh := h.valid.forecast_shaped hf
  have hup := updateStep_ts (h.withLogger (m.logger.log row)).series false
  simp only [Bool.false_eq_true, if_false] at hup
  rcases h.valid.refresh (m.currentStep + 1) with ⟨f', hf', hrf⟩ | ⟨e', hf', -⟩
  · rw [hrf] at hup
    obtain rfl : f = f' := by rw [hf] at hf'; simpa using hf'
    obtain ⟨obs, hobs⟩ := (h.moved (m.logger.log row) (m.currentStep + 1) hsh).normalizedObs
    exact ⟨_, row, f, obs, h.stateDict, hl, hf, hsh,
      stepEnergy_of m m _ q _ row u obs h.stateDict hu hl hup hobs⟩
  · rw [hf'] at hf; simp at hf

theorem TSWF.step_eq {m : Module} {t : TS} (h : m.TSWF t) (a : Act) (n : Bool) :
    m.step a n = match m.request a n with
      | .error e => (m, .error e)
      | .ok q => m.stepEnergy q := by
  rw [step_eq_baseStep m a n h.not_genset, baseStep_eq]
  cases m.request a n <;> rfl

/-- `reset` on a time-series module. -/
theorem TSWF.reset {m : Module} {t : TS} (h : m.TSWF t) :
    (∃ f obs, t.forecastValue m.initialStep = .ok f ∧ t.Shaped f ∧
      m.reset = (m.moved t m.logger.flush m.initialStep f, .ok obs)) ∨
    (∃ e, t.forecastValue m.initialStep = .error e ∧
      m.reset = (m.moved t m.logger m.initialStep t.cur, .error e)) := by
  have hup := updateStep_ts h.series true
  simp only [if_true] at hup
  rcases h.valid.refresh m.initialStep with ⟨f, hf, hr⟩ | ⟨e, hf, hr⟩
  · rw [hr] at hup
    have hsh := h.valid.forecast_shaped hf
    obtain ⟨obs, hobs⟩ := (h.moved m.logger.flush m.initialStep hsh).normalizedObs
    refine .inl ⟨f, obs, hf, hsh, ?_⟩
    unfold Module.reset
    rw [hup]
    exact Prod.ext rfl hobs
  · rw [hr] at hup
    refine .inr ⟨e, hf, ?_⟩
    unfold Module.reset
    rw [hup]
    rfl

/-- Whatever is done to a time-series module, its series stays the same. -/
theorem TSWF.op {m : Module} {t : TS} (h : m.TSWF t) (op : MOp) :
    ∃ t', TS.Same t t' ∧ (op.apply m).TSWF t' ∧ (op.apply m).kind = m.kind.withTS t' := by
  have self : ∃ t', TS.Same t t' ∧ m.TSWF t' ∧ m.kind = m.kind.withTS t' := ⟨t, rfl, h, h.kind_eq⟩
  have mv : ∀ L c f, t.Shaped f → ∃ t', TS.Same t t' ∧ (m.moved t L c f).TSWF t' ∧
      (m.moved t L c f).kind = m.kind.withTS t' :=
    fun L c f hf => ⟨_, TS.Same.mk' t _ _, h.moved L c hf, rfl⟩
  have asg : ∀ f, m.assign f = m := by
    intro f
    have := h.series
    unfold series? at this
    unfold assign
    cases hk : m.kind <;> simp_all
  cases op with
  | step a n =>
    simp only [MOp.apply, h.step_eq]
    cases m.request a n with
    | error e => exact self
    | ok q =>
      rcases h.stepEnergy q with ⟨e, he⟩ | ⟨u, pre, row, -, -, -, ⟨f, -, hf, obs, he⟩ | ⟨e, -, he⟩⟩
      · simp only [he]; exact self
      · simp only [he]; exact mv _ _ _ hf
      · simp only [he]; exact mv _ _ _ h.shaped
  | reset =>
    rcases h.reset with ⟨f, obs, -, hf, he⟩ | ⟨e, -, he⟩
    · simp only [MOp.apply, he]; exact mv _ _ _ hf
    · simp only [MOp.apply, he]; exact mv _ _ _ h.shaped
  | setSoc v => simp only [MOp.apply, asg]; exact self
  | setCharge v => simp only [MOp.apply, asg]; exact self

theorem TSWF.ops {m : Module} {t : TS} (h : m.TSWF t) (ops : List MOp) :
    ∃ t', TS.Same t t' ∧ (runOps m ops).TSWF t' ∧ (runOps m ops).kind = m.kind.withTS t' := by
  induction ops generalizing m t with
  | nil => exact ⟨t, rfl, h, h.kind_eq⟩
  | cons op ops ih =>
    obtain ⟨t₁, s₁, h₁, k₁⟩ := h.op op
    obtain ⟨t₂, s₂, h₂, k₂⟩ := ih h₁
    exact ⟨t₂, s₁.trans s₂, h₂, by rw [runOps, List.foldl_cons, ← runOps, k₂, k₁]; simp⟩

end Module

end Pymgrid
