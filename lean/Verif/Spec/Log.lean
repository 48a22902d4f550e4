import Verif.Spec.History

set_option autoImplicit false

/-! What a user reads from a module's state and log, and the steps a history consists of. -/

namespace Pymgrid

/-- A column of the log (`module.log[name]`), empty if there is no such column. -/
def Logger.column (l : Logger) (k : Key) : List (Option ℚ) := (dictGet? l.cols k).getD []

/-- `module.state_dict()[k]`, if there is such an entry. -/
def Module.stateOf (m : Module) (k : Key) : Option ℚ :=
  match m.stateDict with
  | .ok d => dictGet? d k
  | .error _ => none

/-- A successful step: the module before it, what it returned, the module after it. -/
structure Taken where
  before : Module
  out : StepOut
  after : Module

/-- The successful steps of a history, in order. -/
def transcript : Module → List MOp → List Taken
  | _, [] => []
  | m, op :: ops =>
    match op with
    | .step a n =>
      match m.step a n with
      | (m', .ok o) => ⟨m, o, m'⟩ :: transcript m' ops
      | (m', .error _) => transcript m' ops
    | _ => transcript (op.apply m) ops

/-- A history of steps only. -/
def StepsOnly (ops : List MOp) : Prop := ∀ op ∈ ops, ∃ a n, op = .step a n

end Pymgrid
