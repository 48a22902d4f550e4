import Verif.Spec.Series

set_option autoImplicit false

/-! Vocabulary for C07: the energies that can be requested of a module. -/

namespace Pymgrid

/-- The same module with another value of `raise_errors`. -/
def Module.withRaise (m : Module) (r : Bool) : Module := { m with raiseErrors := r }

/-- Smallest and largest energy that can be requested in the current state (positive: production); `none` if there
    is no limit, or if the request is ignored (loads). -/
def Module.window (m : Module) : Option (ℚ × ℚ) :=
  match m.kind with
  | .battery b => some (-(min b.maxCharge (b.maxCapacity - b.charge) / b.efficiency),
      min b.maxDischarge (b.charge - b.minCapacity) * b.efficiency)
  | .genset g => some (if g.status = 1 then (g.runMin, g.runMax) else (0, 0))
  | .grid p t => some (if (t.rows[m.currentStep]?).bind (·[3]?) = some 1 then (-p.maxExport, p.maxImport) else (0, 0))
  | .renewable t => some (0, ((t.rows[m.currentStep]?).bind (·[0]?)).getD 0)
  | .load _ => none
  | .balancing _ => none

/-- The module after the status request contained in a genset action (other modules do not have one). -/
def Module.afterStatus (m : Module) (a : Act) : Module :=
  match m.kind, a with
  | .genset g, .arr (goal :: _) =>
    match g.updateStatus goal with
    | .ok g' => { m with kind := .genset g' }
    | .error _ => m
  | _, _ => m

end Pymgrid
