import Verif.Model.EnvObs
import Verif.Spec.Env
import Verif.Spec.Observe

set_option autoImplicit false

/-! Vocabulary for the observations of environments. -/

namespace Pymgrid

/-- The names of the modules, each once, in alphabetical order. -/
def Alphabetic (mods : List (String × Nat)) (names : List String) : Prop :=
  names.Pairwise (· < ·) ∧ ∀ name, name ∈ names ↔ ∃ nm ∈ mods, nm.1 = name

/-- What the modules with these names show: name by name, module by module, the relative positions of the module's
    quantities in their documented ranges. -/
def shown (h : Heap) (mods : List (String × Nat)) (names : List String) : List ℚ :=
  names.flatMap fun name => (allNamed mods name).flatMap fun i => (h i).readings.map Reading.pos

/-- Members of the flattened space: one number in `[0, 1]` for each dimension of each box. -/
def InFlatSpace (space : List (String × List Nat)) (v : List ℚ) : Prop :=
  v.length = (space.map fun nl => nl.2.sum).sum ∧ ∀ x ∈ v, 0 ≤ x ∧ x ≤ 1

/-- Members of a box with `n` dimensions between 0 and 1: arrays, not scalars, of this length. -/
def InBox (n : Nat) : Act → Prop
  | .num _ => False
  | .arr l => l.length = n ∧ ∀ x ∈ l, 0 ≤ x ∧ x ≤ 1

/-- Members of the nested space: dictionaries with exactly the keys of the space, and for each of them a member of each
    box in turn. -/
def InNestedSpace (space : List (String × List Nat)) (d : List (String × ObsEntry)) : Prop :=
  (∀ name, name ∈ d.map Prod.fst ↔ name ∈ space.map Prod.fst) ∧
    ∀ nl ∈ space, ∃ l, dictGet? d nl.1 = some (.obs l) ∧ List.Forall₂ InBox nl.2 l

end Pymgrid
