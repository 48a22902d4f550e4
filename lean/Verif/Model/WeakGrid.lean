import Verif.Model.Module

set_option autoImplicit false

/-!
# `GridModule.weak_grid`
-/

namespace Pymgrid

namespace Module

/-- `GridModule.weak_grid` (`grid_module.py:339-349`): the minimum of the last column of the whole series is below 1.  The
    minimum of an empty array raises a `ValueError`; modules of other classes have no such attribute.  Rows of the model's
    series are never empty, since `_check_params` asks for four columns (`grid_module.py:108-118`), so the default for an
    empty row is not reached. -/
def weakGrid (m : Module) : Except Err Bool :=
  match m.kind with
  | .grid _ t =>
    match (t.rows.map fun r => r.getLast?.getD 0).min? with
    | some x => .ok (decide (x < 1))
    | none => .error .value
  | _ => .error .attribute

end Module

end Pymgrid
