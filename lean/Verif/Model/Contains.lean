import Verif.Model.Continuous

set_option autoImplicit false

/-!
# Membership in action spaces (`utils/space.py:15-51,109-128`)

`contains` of the boxes, tuples and dicts is that of `gym`.
-/

namespace Pymgrid

/-- All numbers lie within their bounds. -/
def inBounds : List ℚ → List ℚ → List ℚ → Bool
  | lo :: los, hi :: his, v :: vs => decide (lo ≤ v) && decide (v ≤ hi) && inBounds los his vs
  | _, _, _ => true

/-- Membership of an array in the box of a module, unnormalised or normalised (`utils/space.py:109-128,156-158`); as in
    `boxContains` a Python number is not a member. -/
def Space.contains (s : Space) (normalized : Bool) (a : Act) : Bool :=
  if normalized then boxContains s.dim a
  else match a with
    | .num _ => false
    | .arr l => decide (l.length = s.dim) && inBounds s.low s.high l

/-- Membership in a `Tuple` of boxes. -/
def tupleHas (ss : List Space) (normalized : Bool) : Ctrl → Bool
  | .scalar _ => false
  | .seq l => decide (l.length = ss.length) && (ss.zip l).all fun x => x.1.contains normalized x.2

/-- The spaces in the action space of a microgrid (`utils/space.py:32-39`, `microgrid.py:114-116`). -/
def Microgrid.actionSpaces (g : Microgrid) : List (String × List Space) :=
  (g.cont.fullDict.map fun nl => (nl.1, actSpaces g.heap nl.2)).filter fun ns => !ns.2.isEmpty

/-- `action in microgrid.action_space` or `… .action_space.normalized` (`utils/space.py:109-128`). -/
def Microgrid.inActionSpace (g : Microgrid) (normalized : Bool) (a : List (String × Ctrl)) : Bool :=
  (a.all fun x => decide (x.1 ∈ g.actionSpaces.map Prod.fst)) &&
    g.actionSpaces.all fun s => match dictGet? a s.1 with
      | none => false
      | some c => tupleHas s.2 normalized c

end Pymgrid
