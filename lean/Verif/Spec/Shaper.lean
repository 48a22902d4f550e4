import Verif.Model.Shaper
import Verif.Spec.Microgrid

set_option autoImplicit false

/-! Vocabulary for the properties of the reward shapers. -/

namespace Pymgrid

/-- The classes of modules. -/
inductive Cls
  | battery | genset | grid | load | renewable | balancing
  deriving DecidableEq, Repr

/-- The class of a module. -/
def Kind.cls : Kind → Cls
  | .battery _ => .battery
  | .genset _ => .genset
  | .grid _ _ => .grid
  | .load _ => .load
  | .renewable _ => .renewable
  | .balancing _ => .balancing

/-- Energy that the modules with a name provided in the steps of a trace. -/
def providedBy (tr : List Event) (name : String) : ℚ :=
  ((tr.filter fun e => decide (e.name = name)).map fun e => e.out.info.provided.getD 0).sum

/-- Energy that the modules with a name absorbed in the steps of a trace. -/
def absorbedBy (tr : List Event) (name : String) : ℚ :=
  ((tr.filter fun e => decide (e.name = name)).map fun e => e.out.info.absorbed.getD 0).sum

/-- Number of modules with a name. -/
def countNamed (mods : List (String × Nat)) (name : String) : Nat :=
  (mods.filter fun nm => decide (nm.1 = name)).length

end Pymgrid
