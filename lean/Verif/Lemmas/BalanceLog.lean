import Verif.Lemmas.Log
import Verif.Spec.Microgrid

set_option autoImplicit false

/-! The columns of the balance log. -/

namespace Pymgrid

/-- The columns of the balance log. -/
def balanceKeys : List Key :=
  [.str "reward", .str "shaped_reward", .str "overall_provided_to_microgrid", .str "overall_absorbed_from_microgrid",
   .str "controllable_provided_to_microgrid", .str "controllable_absorbed_from_microgrid",
   .str "fixed_provided_to_microgrid", .str "fixed_absorbed_from_microgrid"]

theorem balanceKeys_nodup : balanceKeys.Nodup := by decide

theorem holds_run {g : Microgrid} (h : ∃ rows, g.balanceLog.Holds balanceKeys rows)
    (control : List (String × Ctrl)) (n : Bool) : ∃ rows, (g.run control n).1.balanceLog.Holds balanceKeys rows := by
  obtain ⟨rows, h⟩ := h
  unfold Microgrid.run
  split
  · exact ⟨rows, h⟩
  split
  · exact ⟨rows, h⟩
  split
  · exact ⟨rows, h⟩
  split
  · exact ⟨rows, h⟩
  split
  · exact ⟨rows, h⟩
  split
  · exact ⟨rows, h⟩
  unfold Microgrid.finish
  simp only
  split
  · exact ⟨rows, h⟩
  split
  · exact ⟨_, h.log rfl balanceKeys_nodup⟩
  split
  · exact ⟨_, h.log rfl balanceKeys_nodup⟩
  · exact ⟨_, h.log rfl balanceKeys_nodup⟩

theorem setTrajectory_log (g : Microgrid) : g.setTrajectory.1.balanceLog = g.balanceLog := by
  unfold Microgrid.setTrajectory
  split
  · rfl
  simp only
  split <;> rfl

theorem holds_reset {g : Microgrid} (h : ∃ rows, g.balanceLog.Holds balanceKeys rows) :
    ∃ rows, g.reset.1.balanceLog.Holds balanceKeys rows := by
  obtain ⟨rows, h⟩ := h
  rw [← setTrajectory_log] at h
  unfold Microgrid.reset
  split
  · rename_i e; rw [e] at h; exact ⟨rows, h⟩
  rename_i e
  rw [e] at h
  split
  · exact ⟨rows, h⟩
  · exact ⟨[], Logger.Holds.empty _⟩

theorem holds_runG {g : Microgrid} (h : ∃ rows, g.balanceLog.Holds balanceKeys rows) (ops : List GOp) :
    ∃ rows, (runG g ops).balanceLog.Holds balanceKeys rows := by
  induction ops generalizing g with
  | nil => exact h
  | cons op ops ih =>
    cases op with
    | run c n => exact ih (holds_run h c n)
    | reset => exact ih (holds_reset h)

end Pymgrid
