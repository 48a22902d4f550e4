import Verif.Lemmas.Evolve

set_option autoImplicit false

/-! A module keeps the length of its time series. -/

namespace Pymgrid

/-- Number of rows of the time series of a module (`none` without a series). -/
def Kind.size : Kind → Option Nat
  | .grid _ t | .load t | .renewable t => some t.rows.length
  | _ => none

theorem TS.writeBack_length (t : TS) (c : Nat) : (t.writeBack c).length = t.rows.length := by
  unfold TS.writeBack
  cases hr : t.rows[c]? with
  | none => rfl
  | some r =>
    have hc : c < t.rows.length := by
      by_contra h
      rw [List.getElem?_eq_none (by omega)] at hr
      simp at hr
    simp only
    split
    · split
      · rfl
      · split
        · rename_i hw
          simp only [TS.window, List.length_append, List.length_take, List.length_map, List.length_drop] at hw ⊢
          omega
        · rfl
    · rfl

theorem TS.refresh_length (t : TS) (c : Nat) : (t.refresh c).1.rows.length = t.rows.length := by
  unfold TS.refresh
  simp only
  split <;> exact TS.writeBack_length t c

namespace Module

theorem size_update (m : Module) (e : Option ℚ) (d : Dir) : (m.update e d).1.kind.size = m.kind.size := by
  unfold Module.update
  cases hk : m.kind with
  | battery b =>
    simp only
    cases b.update e d
    rfl
  | _ => simp [hk]

theorem size_asSource (m : Module) (x : ℚ) : (m.asSource x).1.kind.size = m.kind.size := by
  unfold Module.asSource
  repeat' split
  all_goals first | rfl | exact size_update m _ _

theorem size_asSink (m : Module) (x : ℚ) : (m.asSink x).1.kind.size = m.kind.size := by
  unfold Module.asSink
  repeat' split
  all_goals first | rfl | exact size_update m _ _

theorem size_unnormalizedStep (m : Module) (q : ℚ) : (m.unnormalizedStep q).1.kind.size = m.kind.size := by
  unfold Module.unnormalizedStep
  repeat' split
  all_goals first | rfl | exact size_asSource m _ | exact size_asSink m _

theorem size_refresh (m : Module) : m.refresh.1.kind.size = m.kind.size := by
  unfold Module.refresh
  cases hk : m.kind with
  | grid p t => simp only [Kind.size]; rw [← TS.refresh_length t m.currentStep]
  | load t => simp only [Kind.size]; rw [← TS.refresh_length t m.currentStep]
  | renewable t => simp only [Kind.size]; rw [← TS.refresh_length t m.currentStep]
  | _ => simp [hk]

theorem size_updateStep (m : Module) (r : Bool) : (m.updateStep r).1.kind.size = m.kind.size := by
  unfold Module.updateStep
  rw [size_refresh]

theorem size_stepEnergy (m : Module) (q : ℚ) : (m.stepEnergy q).1.kind.size = m.kind.size := by
  unfold Module.stepEnergy
  cases m.stateDict with
  | error e => rfl
  | ok pre =>
    have hc := size_unnormalizedStep m q
    simp only
    cases hu : m.unnormalizedStep q with
    | mk m₁ r =>
      rw [hu] at hc
      simp only at hc
      cases r with
      | error e => exact hc
      | ok u =>
        simp only [Module.log]
        cases m₁.logRow pre u with
        | error e => exact hc
        | ok row =>
          have h2 := size_updateStep { m₁ with logger := m₁.logger.log row } false
          simp only
          cases hs : updateStep { m₁ with logger := m₁.logger.log row } false with
          | mk m₃ r₃ =>
            rw [hs] at h2
            simp only at h2
            cases r₃ with
            | error e => exact h2.trans hc
            | ok _ =>
              simp only
              cases m₃.normalizedObs <;> exact h2.trans hc

theorem size_baseStep (m : Module) (a : Act) (n : Bool) : (m.baseStep a n).1.kind.size = m.kind.size := by
  rw [baseStep_eq]
  cases m.request a n with
  | error e => rfl
  | ok q => exact size_stepEnergy m q

theorem size_step (m : Module) (a : Act) (n : Bool) : (m.step a n).1.kind.size = m.kind.size := by
  unfold Module.step
  split
  · rename_i g hk
    repeat' split
    all_goals first
      | rfl
      | rw [size_baseStep, hk]; rfl
  · exact size_baseStep m a n

theorem size_reset (m : Module) : m.reset.1.kind.size = m.kind.size := by
  have h := size_updateStep m true
  unfold Module.reset
  cases hs : m.updateStep true with
  | mk m₁ r =>
    rw [hs] at h
    cases r <;> exact h

end Module

theorem kept_size : Kept fun m m' => m'.kind.size = m.kind.size where
  refl _ := rfl
  trans h h' := h'.trans h
  step := Module.size_step
  reset := Module.size_reset
  initial _ _ := rfl
  final m v := by
    unfold Microgrid.setFinalOne
    cases hk : m.kind with
    | grid p t => simp only; split <;> rename_i h <;> simp only [Kind.size] <;> simp [TS.setFinalStep] at h <;> rw [← h.1]
    | load t => simp only; split <;> rename_i h <;> simp only [Kind.size] <;> simp [TS.setFinalStep] at h <;> rw [← h.1]
    | renewable t => simp only; split <;> rename_i h <;> simp only [Kind.size] <;> simp [TS.setFinalStep] at h <;> rw [← h.1]
    | _ => simp [hk]

end Pymgrid
