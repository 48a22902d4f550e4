import Verif.Model.Module
import Verif.Lemmas.Space
import Verif.Spec.History

/-! Helper lemmas about the generic part of `Module.step`. -/

namespace Pymgrid

namespace Module

theorem baseStep_eq (m : Module) (a : Act) (n : Bool) :
    m.baseStep a n = match m.request a n with
      | .error e => (m, .error e)
      | .ok q => m.stepEnergy q := by
  unfold baseStep request
  simp only
  generalize (if n = true then m.denormalizeAct a else Except.ok a) = r
  cases r <;> rfl

theorem step_eq_baseStep (m : Module) (a : Act) (n : Bool) (h : ∀ g, m.kind ≠ .genset g) :
    m.step a n = m.baseStep a n := by
  unfold step
  split
  · rename_i g hg; exact absurd hg (h g)
  · rfl

/-- `stepEnergy` when everything up to the logging succeeds. -/
theorem stepEnergy_of (m m₁ m₃ : Module) (q : ℚ) (pre row : List (Key × ℚ)) (u : UpdateOut) (obs : Act)
    (h₁ : m.stateDict = .ok pre) (h₂ : m.unnormalizedStep q = (m₁, .ok u))
    (h₃ : m₁.logRow pre u = .ok row)
    (h₄ : ({ m₁ with logger := m₁.logger.log row } : Module).updateStep false = (m₃, .ok ()))
    (h₅ : m₃.normalizedObs = .ok obs) :
    m.stepEnergy q = (m₃, .ok { obs, reward := u.reward, done := u.done, info := u.info }) := by
  unfold stepEnergy
  simp only [h₁, h₂, log, h₃, h₄, h₅]

/-- Everything a successful `stepEnergy` went through. -/
theorem stepEnergy_inv {m m' : Module} {q : ℚ} {o : StepOut} (h : m.stepEnergy q = (m', .ok o)) :
    ∃ pre row m₁ u, m.stateDict = .ok pre ∧ m.unnormalizedStep q = (m₁, .ok u) ∧
      m₁.logRow pre u = .ok row ∧
      ({ m₁ with logger := m₁.logger.log row } : Module).updateStep false = (m', .ok ()) ∧
      m'.normalizedObs = .ok o.obs ∧ o.reward = u.reward ∧ o.done = u.done ∧ o.info = u.info := by
  unfold stepEnergy at h
  split at h
  · simp at h
  rename_i pre hpre
  split at h
  · simp at h
  rename_i m₁ u hu
  unfold log at h
  split at h
  · simp at h
  rename_i m₂ hl
  split at hl
  · simp at hl
  rename_i row hrow
  simp only [Prod.mk.injEq, and_true] at hl
  subst hl
  split at h
  · simp at h
  rename_i m₃ hs
  split at h
  · simp at h
  rename_i obs hobs
  simp only [Prod.mk.injEq, Except.ok.injEq] at h
  obtain ⟨rfl, rfl⟩ := h
  exact ⟨pre, row, m₁, u, hpre, hu, hrow, hs, hobs, rfl, rfl, rfl⟩

theorem normalizedObs_ok (m : Module) (d : List (Key × ℚ)) (h : m.stateDict = .ok d)
    (hl : d.length = m.obsSpace.dim) : ∃ obs, m.normalizedObs = .ok obs := by
  unfold normalizedObs state
  rw [h]
  exact ⟨_, Space.apply_ok _ _ _ (by simpa [Act.vals] using hl)⟩

theorem logRow_ok (m : Module) (pre : List (Key × ℚ)) (u : UpdateOut)
    (hp : m.provName = none → u.info.provided = none)
    (ha : m.absName = none → u.info.absorbed = none) : ∃ row, m.logRow pre u = .ok row := by
  unfold logRow
  cases h₁ : m.provName <;> cases h₂ : m.absName <;> simp_all

end Module

end Pymgrid
