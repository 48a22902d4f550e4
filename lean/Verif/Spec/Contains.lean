import Verif.Model.Contains
import Verif.Spec.Library
import Verif.Spec.Microgrid

set_option autoImplicit false

/-!
# What the members of the action space of a microgrid are
-/

namespace Pymgrid

/-- The bounds of the actions of a module: charge and discharge of a battery (the two limits are swapped in the code, see C50),
    export and import of a grid, and status and production of a genset.  Others are not controlled. -/
def Kind.bounds : Kind → List (ℚ × ℚ)
  | .battery b => [(-(b.maxDischarge / b.efficiency), b.maxCharge * b.efficiency)]
  | .grid p _ => [(-p.maxExport, p.maxImport)]
  | .genset g => [(0, 1), (0, g.runMax)]
  | _ => []

/-- An array with one number for each of the bounds, within them; within [0, 1] if normalised. -/
def Module.Member (m : Module) (normalized : Bool) (a : Act) : Prop :=
  ∃ l, a = .arr l ∧
    List.Forall₂ (fun x b => if normalized then 0 ≤ x ∧ x ≤ 1 else b.1 ≤ x ∧ x ≤ b.2) l m.kind.bounds

/-- A member of the action space: actions for exactly the names of controllable modules, one for each module. -/
def Member (h : Heap) (mods : List (String × Nat)) (normalized : Bool) (control : List (String × Ctrl)) : Prop :=
  (∀ x ∈ control, ∃ nm ∈ mods, nm.1 = x.1 ∧ (h nm.2).ffc = .controllable) ∧
    ∀ nm ∈ mods, (h nm.2).ffc = .controllable → ∃ l, dictGet? control nm.1 = some (.seq l) ∧
      List.Forall₂ (fun i a => (h i).Member normalized a) (modulesNamed h mods .controllable nm.1) l

/-- No range of actions is a single point. -/
def Module.Ranged (m : Module) : Prop := ∀ b ∈ m.kind.bounds, b.1 ≠ b.2

end Pymgrid
