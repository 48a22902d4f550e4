import Verif.Spec.Currency
import Verif.Spec.Env
import Verif.Spec.Window

set_option autoImplicit false

/-! Specification for C104. -/

namespace Pymgrid

/-- The runs that are left within a window of `N` steps after the calls, when `left` are left before them; `none` if the calls
    leave the window. -/
def stepsLeft (N : Nat) : (left : Nat) → List GOp → Option Nat
  | left, [] => some left
  | 0, .run _ _ :: _ => none
  | left + 1, .run _ _ :: ops => stepsLeft N left ops
  | _, .reset :: ops => stepsLeft N N ops

/-- What the first `n` actions of a rule-based controller did, apart from observations. -/
def RBC.acts (n : Nat) (r : RBC) : List (Except Err (ℚ × Bool × List (String × List Info))) :=
  (RBC.story n r).map (Except.map RunOut.deeds)

/-- At most `N` steps of the environment follow each other without a reset; `left` are left until the first reset. -/
def EOp.fits (N : Nat) : (left : Nat) → List EOp → Prop
  | _, [] => True
  | 0, .step _ :: _ => False
  | left + 1, .step _ :: ops => EOp.fits N left ops
  | left, .remove _ :: ops => EOp.fits N left ops
  | _, .reset :: ops => EOp.fits N N ops

/-- What calls of an environment did, apart from observations: errors and, for steps, rewards, done flags and infos. -/
def DiscreteEnv.doings : DiscreteEnv → List EOp → List (Except Err (Option (ℚ × Bool × List (String × List Info))))
  | _, [] => []
  | e, .step a :: ops => ((e.step a).2.map fun o => some o.deeds) :: DiscreteEnv.doings (e.step a).1 ops
  | e, .remove a :: ops => ((e.removeAction a).2.map fun _ => none) :: DiscreteEnv.doings (e.removeAction a).1 ops
  | e, .reset :: ops => (e.reset.2.map fun _ => none) :: DiscreteEnv.doings e.reset.1 ops

end Pymgrid
