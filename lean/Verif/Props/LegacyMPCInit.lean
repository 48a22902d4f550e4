import Verif.Model.MPC
import Verif.Props.Convert

set_option autoImplicit false

/-! # C67: which legacy microgrids model predictive control accepts -/

namespace Pymgrid.MPC

open Legacy

variable {g : Grid}

/-- C67, the constructor: exactly the legacy microgrids that can be converted (see `C54_accepted_iff`) and have a battery and
    a horizon are accepted, and of those that cannot be converted none is reported with an `AttributeError`. -/
theorem C67_accepted (ha : g.Aligned) :
    (createLegacy g = .ok () ↔ g.Convertible ∧ g.arch.battery = true ∧ g.horizon ≠ 0) ∧
      (g.Convertible → g.arch.battery = false → createLegacy g = .error .key) ∧ createLegacy g ≠ .error .attribute := by
  rw [← C54_accepted_iff (r := false) ha]
  unfold createLegacy
  cases hm : g.toModular false with
  | error e =>
    refine ⟨⟨fun h => ?_, fun h => ?_⟩, fun h => ?_, fun h => ?_⟩
    · cases e <;> simp at h
    · obtain ⟨⟨m, hm'⟩, -⟩ := h
      simp at hm'
    · obtain ⟨m, hm'⟩ := h
      simp at hm'
    · cases e <;> simp at h
  | ok m =>
    by_cases hb : g.arch.battery = false <;> by_cases hz : g.horizon = 0 <;> simp_all

/-- Non-vacuity: the example microgrid is accepted. -/
example : (demo true).Aligned ∧ createLegacy (demo true) = .ok () := by
  refine ⟨fun _ => by decide +kernel, (C67_accepted (g := demo true) fun _ => by decide +kernel).1.mpr
    ⟨(C54_accepted_iff (r := false) fun _ => by decide +kernel).mp ⟨_, demo_converts⟩, by decide +kernel, by decide +kernel⟩⟩

end Pymgrid.MPC
