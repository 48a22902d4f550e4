import Verif.Model.Serialize
import Verif.Spec.Library

set_option autoImplicit false

/-! What a caller can do to a loaded module. -/

namespace Pymgrid

/-- The loaded module after an operation, whether or not the call raised. -/
def Loaded.apply (l : Loaded) : MOp → Loaded
  | .step a n => (l.step a n).1
  | .reset => l.reset.1
  | .setSoc v => { l with mod := l.mod.assign fun b => (b.setSoc v).1 }
  | .setCharge v => { l with mod := l.mod.assign fun b => (b.setCharge v).1 }

/-- The loaded module after a history of operations. -/
def Loaded.run (l : Loaded) (ops : List MOp) : Loaded := ops.foldl Loaded.apply l

/-- The outputs of the successful steps of a history, in order. -/
def Loaded.outputs : Loaded → List MOp → List StepOut
  | _, [] => []
  | l, op :: ops =>
    match op with
    | .step a n =>
      match (l.step a n).2 with
      | .ok o => o :: Loaded.outputs (l.apply op) ops
      | .error _ => Loaded.outputs (l.apply op) ops
    | _ => Loaded.outputs (l.apply op) ops

/-- Loading what was just dumped, with the same role of grid modules. -/
def Module.reload (m : Module) : Except Err Loaded :=
  match m.dump with
  | .error e => .error e
  | .ok d => d.load m.ffc

/-- The module was given a function: a battery transition model, a cost function of a genset or a forecasting
    function. -/
def Module.HasCallable (m : Module) : Prop :=
  match m.kind with
  | .battery b => b.transition ≠ none
  | .genset g => ∃ f, g.cost = .fn f
  | .grid _ t | .load t | .renewable t => (∃ f, t.param = .user f) ∨ ∃ f, t.param = .userScalar f
  | .balancing _ => False

end Pymgrid
