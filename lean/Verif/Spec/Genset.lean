import Verif.Spec.History

set_option autoImplicit false

/-! Vocabulary for the genset properties. -/

namespace Pymgrid

/-- A sequence of `update_status` calls, stopping at the first exception. -/
def requests : Genset → List ℚ → Except Err Genset
  | g, [] => .ok g
  | g, q :: qs =>
    match g.updateStatus q with
    | .ok g' => requests g' qs
    | .error e => .error e

/-- The genset of a genset module. -/
def Module.genset? (m : Module) : Option Genset :=
  match m.kind with
  | .genset g => some g
  | _ => none

/-- The status requests contained in a history of calls: the first entry of every array action, if it
    lies in `[0,1]`. -/
def goalsOf : List MOp → List ℚ
  | [] => []
  | .step (.arr (q :: _)) _ :: ops => if 0 ≤ q ∧ q ≤ 1 then q :: goalsOf ops else goalsOf ops
  | _ :: ops => goalsOf ops

/-- Fuel cost of producing `x`. -/
def fuelPrice (cost : GensetCost) (x : ℚ) : ℚ :=
  match cost with
  | .const c => c * x
  | .fn f => f x

end Pymgrid
