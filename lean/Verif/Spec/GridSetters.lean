import Verif.Model.GridSetters
import Verif.Spec.Microgrid

set_option autoImplicit false

/-! Vocabulary for histories that change the range of steps of a microgrid. -/

namespace Pymgrid

/-- What a user can do to a microgrid: `run`, `reset`, and assigning `initial_step` and `final_step`. -/
inductive UOp
  | call (op : GOp)
  | setInitial (v : Nat)
  | setFinal (v : Int)

/-- The microgrid after such an operation, whether or not it raised. -/
def UOp.apply (g : Microgrid) : UOp → Microgrid
  | .call op => op.apply g
  | .setInitial v => (g.setInitialStep v).1
  | .setFinal v => (g.setFinalStep v).1

/-- The microgrid after a history. -/
def runU (g : Microgrid) (ops : List UOp) : Microgrid := ops.foldl UOp.apply g

/-- Two modules that differ at most in the range of steps. -/
def Module.SameButRange (m m' : Module) : Prop :=
  m'.currentStep = m.currentStep ∧ m'.logger = m.logger ∧ m'.stateDict = m.stateDict ∧ m'.obsSpace = m.obsSpace ∧
    m'.actSpace = m.actSpace

end Pymgrid
