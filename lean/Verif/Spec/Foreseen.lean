import Verif.Model.ModularMPC
import Verif.Spec.NoLookahead

set_option autoImplicit false

/-! Specification for C108. -/

namespace Pymgrid

/-- The two modules forecast equally far, at most `H` steps, and the forecasts, if there are any, are those of the oracle. -/
def SameForesight (H : Nat) (m m' : Module) : Prop :=
  ∀ t t', m.series? = some t → m'.series? = some t' →
    t'.horizon = t.horizon ∧ t.horizon ≤ H ∧
      (t.horizon = 0 ∨ t.forecaster.kind = .oracle ∧ t'.forecaster.kind = .oracle)

namespace MPC

/-- What at most `n` steps of model predictive control do, apart from observations, until the end of the episode or an
    error. -/
def doings (solve : Solver) (pl : Planner) : Nat → Microgrid → List (Except Err (ℚ × Bool × List (String × List Info)))
  | 0, _ => []
  | n + 1, m =>
    match (modularStep solve pl m).2 with
    | .error e => [.error e]
    | .ok o => .ok o.deeds :: if o.done then [] else doings solve pl n (modularStep solve pl m).1

end MPC

end Pymgrid
