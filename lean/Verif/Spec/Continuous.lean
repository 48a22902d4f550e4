import Verif.Model.Continuous
import Verif.Spec.Microgrid

set_option autoImplicit false

/-! Histories of continuous environments. -/

namespace Pymgrid

/-- Calls on a continuous environment. -/
inductive COp
  | step (a : List (String × Ctrl))
  | run (a : List (String × Ctrl)) (normalized : Bool)
  | reset

/-- The environment after a call, whether or not it raised. -/
def COp.apply (e : ContinuousEnv) : COp → ContinuousEnv
  | .step a => (e.step a).1
  | .run a n => (e.run a n).1
  | .reset => e.reset.1

/-- The environment after a history of calls. -/
def runC (e : ContinuousEnv) (ops : List COp) : ContinuousEnv := ops.foldl COp.apply e

/-- The action has the names of the space and, for each of them, one array per module, of the right length and with numbers
    from 0 to 1. -/
def InNormalized (space : List (String × List Nat)) (a : List (String × Ctrl)) : Prop :=
  (∀ x ∈ a, ∃ s ∈ space, s.1 = x.1) ∧
    ∀ s ∈ space, ∃ l : List (List ℚ), dictGet? a s.1 = some (.seq (l.map .arr)) ∧ l.map List.length = s.2 ∧
      ∀ xs ∈ l, ∀ x ∈ xs, 0 ≤ x ∧ x ≤ 1

end Pymgrid
