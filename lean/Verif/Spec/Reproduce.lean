import Verif.Spec.GridSerialize

set_option autoImplicit false

/-! Specification for C83. -/

namespace Pymgrid

/-- The number of resets in a history. -/
def resets (ops : List GOp) : Nat := ops.countP fun op => match op with | .reset => true | .run _ _ => false

/-- The module stores energy or has a status: a battery or a genset. -/
def Module.Stores (m : Module) : Prop := (∃ b, m.kind = .battery b) ∨ ∃ g, m.kind = .genset g

/-- The two microgrids cannot be told apart from now on: every sequence of runs and resets returns the same on both and
    leaves the modules in the same states. -/
def SameFuture (mods : List (String × Nat)) (g g' : Microgrid) : Prop :=
  ∀ future : List GOp, g'.results future = g.results future ∧
    ∀ nm ∈ mods, ((runG g' future).heap nm.2).stateDict = ((runG g future).heap nm.2).stateDict

end Pymgrid
