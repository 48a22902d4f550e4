import Verif.Lemmas.Evolve
import Verif.Spec.Shaper

set_option autoImplicit false

/-! A module keeps its class. -/

namespace Pymgrid

namespace Module

theorem cls_update (m : Module) (e : Option ℚ) (d : Dir) : (m.update e d).1.kind.cls = m.kind.cls := by
  unfold Module.update
  cases hk : m.kind with
  | battery b =>
    simp only
    cases b.update e d
    rfl
  | _ => simp [hk]

theorem cls_asSource (m : Module) (x : ℚ) : (m.asSource x).1.kind.cls = m.kind.cls := by
  unfold Module.asSource
  repeat' split
  all_goals first | rfl | exact cls_update m _ _

theorem cls_asSink (m : Module) (x : ℚ) : (m.asSink x).1.kind.cls = m.kind.cls := by
  unfold Module.asSink
  repeat' split
  all_goals first | rfl | exact cls_update m _ _

theorem cls_unnormalizedStep (m : Module) (q : ℚ) : (m.unnormalizedStep q).1.kind.cls = m.kind.cls := by
  unfold Module.unnormalizedStep
  repeat' split
  all_goals first | rfl | exact cls_asSource m _ | exact cls_asSink m _

theorem cls_refresh (m : Module) : m.refresh.1.kind.cls = m.kind.cls := by
  unfold Module.refresh
  cases hk : m.kind with
  | grid p t => simp only; cases t.refresh m.currentStep; rfl
  | load t => simp only; cases t.refresh m.currentStep; rfl
  | renewable t => simp only; cases t.refresh m.currentStep; rfl
  | _ => simp [hk]

theorem cls_updateStep (m : Module) (r : Bool) : (m.updateStep r).1.kind.cls = m.kind.cls := by
  unfold Module.updateStep
  rw [cls_refresh]

theorem cls_stepEnergy (m : Module) (q : ℚ) : (m.stepEnergy q).1.kind.cls = m.kind.cls := by
  unfold Module.stepEnergy
  cases m.stateDict with
  | error e => rfl
  | ok pre =>
    have hc := cls_unnormalizedStep m q
    simp only
    cases hu : m.unnormalizedStep q with
    | mk m₁ r =>
      rw [hu] at hc
      simp only at hc
      cases r with
      | error e => exact hc
      | ok u =>
        simp only [Module.log]
        cases m₁.logRow pre u with
        | error e => exact hc
        | ok row =>
          have h2 := cls_updateStep { m₁ with logger := m₁.logger.log row } false
          simp only
          cases hs : updateStep { m₁ with logger := m₁.logger.log row } false with
          | mk m₃ r₃ =>
            rw [hs] at h2
            simp only at h2
            cases r₃ with
            | error e => exact h2.trans hc
            | ok _ =>
              simp only
              cases m₃.normalizedObs <;> exact h2.trans hc

theorem cls_baseStep (m : Module) (a : Act) (n : Bool) : (m.baseStep a n).1.kind.cls = m.kind.cls := by
  rw [baseStep_eq]
  cases m.request a n with
  | error e => rfl
  | ok q => exact cls_stepEnergy m q

theorem cls_step (m : Module) (a : Act) (n : Bool) : (m.step a n).1.kind.cls = m.kind.cls := by
  unfold Module.step
  split
  · rename_i g hk
    repeat' split
    all_goals first
      | rfl
      | rw [cls_baseStep, hk]; rfl
  · exact cls_baseStep m a n

theorem cls_reset (m : Module) : m.reset.1.kind.cls = m.kind.cls := by
  have h := cls_updateStep m true
  unfold Module.reset
  cases hs : m.updateStep true with
  | mk m₁ r =>
    rw [hs] at h
    cases r <;> exact h

end Module

theorem kept_cls : Kept fun m m' => m'.kind.cls = m.kind.cls where
  refl _ := rfl
  trans h h' := h'.trans h
  step := Module.cls_step
  reset := Module.cls_reset
  initial _ _ := rfl
  final m v := by
    unfold Microgrid.setFinalOne
    cases hk : m.kind with
    | grid p t => simp only; split <;> rfl
    | load t => simp only; split <;> rfl
    | renewable t => simp only; split <;> rfl
    | _ => simp [hk]

/-- A relation that steps respect holds across a trace. -/
theorem Respected.exec {P : Module → Module → Prop} (hP : Respected P) {h h' : Heap} {tr : List Event}
    (e : Exec h tr h') (i : Nat) : P (h i) (h' i) := by
  induction e with
  | nil h => exact hP.refl _
  | @cons h h' e tr m' hs ht ih =>
    refine hP.trans ?_ ih
    refine heapSet_rel hP.refl ?_ i
    have := hP.step (h e.id) e.act e.normalized
    rw [hs] at this
    exact this

/-- The step of an event happens in a heap that the earlier steps lead to. -/
theorem Exec.event {h h' : Heap} {tr : List Event} (e : Exec h tr h') {x : Event} (hx : x ∈ tr) :
    ∃ pre h₁ m', Exec h pre h₁ ∧ (h₁ x.id).step x.act x.normalized = (m', .ok x.out) := by
  induction e with
  | nil h => simp at hx
  | @cons h h' e tr m' hs ht ih =>
    rcases List.mem_cons.mp hx with rfl | hx
    · exact ⟨[], h, m', .nil h, hs⟩
    · obtain ⟨pre, h₁, m'', h1, h2⟩ := ih hx
      exact ⟨e :: pre, h₁, m'', .cons hs h1, h2⟩

end Pymgrid
