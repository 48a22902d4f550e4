import Verif.Model.Setters
import Verif.Spec.Series

set_option autoImplicit false

/-! Vocabulary for histories that change the forecaster of a module. -/

namespace Pymgrid

/-- What a user can do to a time-series module: the ordinary operations, `set_forecaster`, and the
    assignment of `forecast_horizon`. -/
inductive SOp
  | call (op : MOp)
  | setForecaster (k : FKind) (h : Nat)
  | setHorizon (h : Nat)

/-- The module after such an operation, whether or not it raised. -/
def SOp.apply (m : Module) : SOp → Module
  | .call op => op.apply m
  | .setForecaster k h => m.setForecaster k h
  | .setHorizon h => m.setHorizon h

/-- The module after a history. -/
def runSOps (m : Module) (ops : List SOp) : Module := ops.foldl SOp.apply m

/-- The horizon an operation asks for, if it asks for one: `set_forecaster(None, h)` means no forecast. -/
def SOp.newHorizon : SOp → Option Nat
  | .call _ => none
  | .setForecaster .none _ => some 0
  | .setForecaster _ h => some h
  | .setHorizon h => some h

/-- The horizon in force after a history that began with `h₀`. -/
def SOp.horizonAfter (h₀ : Nat) (ops : List SOp) : Nat :=
  (ops.filterMap SOp.newHorizon).getLast?.getD h₀

end Pymgrid
