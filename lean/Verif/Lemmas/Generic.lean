import Verif.Lemmas.Frame
import Verif.Model.Microgrid

set_option autoImplicit false

/-! What every successful step of any module does. -/

namespace Pymgrid

namespace Module

/-- Equal class-level data: directions and final step. -/
structure Shape (m m' : Module) : Prop where
  source : m'.isSource = m.isSource
  sink : m'.isSink = m.isSink
  final : m'.finalStep? = m.finalStep?

theorem Shape.refl (m : Module) : Shape m m := ⟨rfl, rfl, rfl⟩

theorem Shape.trans {m m' m'' : Module} (h : Shape m m') (h' : Shape m' m'') : Shape m m'' :=
  ⟨h'.source.trans h.source, h'.sink.trans h.sink, h'.final.trans h.final⟩

/-- As `Shape`, and neither the counter nor the log has changed. -/
structure Calm (m m' : Module) : Prop where
  shape : Shape m m'
  step : m'.currentStep = m.currentStep
  log : m'.logger = m.logger

theorem Calm.refl (m : Module) : Calm m m := ⟨Shape.refl m, rfl, rfl⟩

theorem calm_update (m : Module) (e : Option ℚ) (d : Dir) : Calm m (m.update e d).1 := by
  unfold update
  cases hk : m.kind with
  | battery b => exact ⟨⟨by simp [isSource, hk], by simp [isSink, hk], by simp [finalStep?, hk]⟩, rfl, rfl⟩
  | _ => exact Calm.refl m

theorem calm_asSource (m : Module) (x : ℚ) : Calm m (m.asSource x).1 := by
  unfold asSource
  repeat' split
  all_goals first | exact Calm.refl m | exact calm_update _ _ _

theorem calm_asSink (m : Module) (x : ℚ) : Calm m (m.asSink x).1 := by
  unfold asSink
  repeat' split
  all_goals first | exact Calm.refl m | exact calm_update _ _ _

theorem calm_unnormalizedStep (m : Module) (a : ℚ) : Calm m (m.unnormalizedStep a).1 := by
  unfold unnormalizedStep
  repeat' split
  all_goals first | exact Calm.refl m | exact calm_asSource _ _ | exact calm_asSink _ _

theorem refresh_finalStep (t : TS) (c : Nat) : (t.refresh c).1.finalStep = t.finalStep := by
  unfold TS.refresh
  simp only
  split <;> rfl

theorem calm_refresh (m : Module) : Calm m m.refresh.1 := by
  unfold refresh
  cases hk : m.kind with
  | grid p t =>
    exact ⟨⟨by simp [isSource, hk], by simp [isSink, hk], by simp [finalStep?, hk, refresh_finalStep]⟩, rfl, rfl⟩
  | load t =>
    exact ⟨⟨by simp [isSource, hk], by simp [isSink, hk], by simp [finalStep?, hk, refresh_finalStep]⟩, rfl, rfl⟩
  | renewable t =>
    exact ⟨⟨by simp [isSource, hk], by simp [isSink, hk], by simp [finalStep?, hk, refresh_finalStep]⟩, rfl, rfl⟩
  | _ => exact Calm.refl m

theorem updateStep_spec (m : Module) (r : Bool) :
    (m.updateStep r).1.currentStep = (if r then m.initialStep else m.currentStep + 1) ∧
      (m.updateStep r).1.logger = m.logger ∧ Shape m (m.updateStep r).1 := by
  have h := calm_refresh { m with currentStep := if r then m.initialStep else m.currentStep + 1 }
  exact ⟨h.step, h.log, ⟨h.shape.source, h.shape.sink, h.shape.final⟩⟩

/-- What every successful `stepEnergy` does. -/
theorem stepEnergy_ok {m m' : Module} {q : ℚ} {o : StepOut} (h : m.stepEnergy q = (m', .ok o)) :
    Frame m m' ∧ Shape m m' ∧ m'.currentStep = m.currentStep + 1 ∧
      ∃ pre row, m.stateDict = .ok pre ∧ m.logRow pre ⟨o.reward, o.done, o.info⟩ = .ok row ∧
        m'.logger = m.logger.log row := by
  have hf := frame_stepEnergy m q
  rw [h] at hf
  obtain ⟨pre, row, m₁, u, hp, hu, hl, hs, -, h1, h2, h3⟩ := stepEnergy_inv h
  have hc := calm_unnormalizedStep m q
  have hfu := frame_unnormalizedStep m q
  rw [hu] at hc hfu
  simp only at hc hfu
  have hus := updateStep_spec { m₁ with logger := m₁.logger.log row } false
  rw [hs] at hus
  simp only [Bool.false_eq_true, if_false] at hus
  obtain ⟨k1, k2, k3⟩ := hus
  refine ⟨hf, hc.shape.trans ⟨k3.source, k3.sink, k3.final⟩, by rw [k1, hc.step], pre, row, hp, ?_, ?_⟩
  · rw [h1, h2, h3]
    rw [← hl]
    unfold logRow
    rw [hfu.prov, hfu.abs]
  · rw [k2, hc.log]

/-- The module a step actually starts from: gensets have their status updated first. -/
theorem step_split {m m' : Module} {a : Act} {n : Bool} {o : StepOut} (h : m.step a n = (m', .ok o)) :
    ∃ m₀ q, m₀.request a n = .ok q ∧ m₀.stepEnergy q = (m', .ok o) ∧
      (((∀ g, m.kind ≠ .genset g) ∧ m₀ = m) ∨
       ∃ g g' goal rest, m.kind = .genset g ∧ a = .arr (goal :: rest) ∧ 0 ≤ goal ∧ goal ≤ 1 ∧
         g.updateStatus goal = .ok g' ∧ m₀ = { m with kind := .genset g' }) := by
  have base : ∀ m₀ : Module, m₀.baseStep a n = (m', .ok o) →
      ∃ q, m₀.request a n = .ok q ∧ m₀.stepEnergy q = (m', .ok o) := by
    intro m₀ hb
    rw [baseStep_eq] at hb
    cases hq : m₀.request a n with
    | error e => rw [hq] at hb; simp at hb
    | ok q => rw [hq] at hb; exact ⟨q, rfl, hb⟩
  unfold step at h
  split at h
  · rename_i g hk
    split at h
    · simp at h
    · rename_i l
      cases l with
      | nil => simp at h
      | cons goal rest =>
        simp only [List.getElem?_cons_zero] at h
        split at h
        · simp at h
        · rename_i hg
          split at h
          · simp at h
          · rename_i g' hu
            obtain ⟨q, h1, h2⟩ := base _ h
            obtain ⟨a0, a1⟩ := not_not.mp hg
            exact ⟨_, q, h1, h2, .inr ⟨g, g', goal, rest, hk, rfl, a0, a1, hu, rfl⟩⟩
  · rename_i hk
    obtain ⟨q, h1, h2⟩ := base _ h
    exact ⟨m, q, h1, h2, .inl ⟨hk, rfl⟩⟩

/-- What every successful step does. -/
theorem step_ok {m m' : Module} {a : Act} {n : Bool} {o : StepOut} (h : m.step a n = (m', .ok o)) :
    Frame m m' ∧ Shape m m' ∧ m'.currentStep = m.currentStep + 1 ∧
      ∃ pre row, ((∀ g, m.kind ≠ .genset g) → m.stateDict = .ok pre) ∧
        m.logRow pre ⟨o.reward, o.done, o.info⟩ = .ok row ∧ m'.logger = m.logger.log row := by
  obtain ⟨m₀, q, -, he, hm⟩ := step_split h
  obtain ⟨hf, hs, hc, pre, row, hp, hl, hlog⟩ := stepEnergy_ok he
  rcases hm with ⟨-, rfl⟩ | ⟨g, g', goal, rest, hk, -, -, -, -, rfl⟩
  · exact ⟨hf, hs, hc, pre, row, fun _ => hp, hl, hlog⟩
  · refine ⟨(frame_kind m _).trans hf, Shape.trans ⟨?_, ?_, ?_⟩ hs, hc, pre, row, fun hn => absurd hk (hn g), hl, hlog⟩
    · simp [isSource, hk]
    · simp [isSink, hk]
    · simp [finalStep?, hk]

/-- What every successful reset does. -/
theorem reset_ok {m m' : Module} {obs : Act} (h : m.reset = (m', .ok obs)) :
    Frame m m' ∧ Shape m m' ∧ m'.currentStep = m.initialStep ∧ m'.logger = {} := by
  have hf := frame_reset m
  rw [h] at hf
  refine ⟨hf, ?_⟩
  unfold reset at h
  have hus := updateStep_spec m true
  split at h
  · simp at h
  rename_i m₁ he
  rw [he] at hus
  simp only [if_true, Prod.mk.injEq] at hus h
  obtain ⟨rfl, -⟩ := h
  exact ⟨⟨hus.2.2.source, hus.2.2.sink, hus.2.2.final⟩, hus.1, rfl⟩

end Module

end Pymgrid
