import Verif.Model.Module

/-!
# Vocabulary of the property statements

What a caller can do to a module and what they can observe.  Nothing here is used by the model.
-/

namespace Pymgrid

/-- The numbers in an action or observation, whether it is a scalar or an array. -/
def Act.vals : Act → List ℚ
  | .num q => [q]
  | .arr l => l

/-- The energy that an action asks a module to exchange: the (denormalised) action itself, or the energy entry of
    an array. -/
def Module.request (m : Module) (a : Act) (normalized : Bool) : Except Err ℚ :=
  match (if normalized then m.denormalizeAct a else .ok a) with
  | .error e => .error e
  | .ok a' => Module.energyOf m.energyPos a'

/-- What a user can do to a single module: step it, reset it, or (batteries) assign `soc` or
    `current_charge`. -/
inductive MOp
  | step (a : Act) (normalized : Bool)
  | reset
  | setSoc (v : ℚ)
  | setCharge (v : ℚ)

/-- Operations other than the assignments. -/
def MOp.isCall : MOp → Bool
  | .step _ _ | .reset => true
  | _ => false

/-- Attribute assignments on a battery module; without effect on the other classes. -/
def Module.assign (m : Module) (f : Battery → Battery) : Module :=
  match m.kind with
  | .battery b => { m with kind := .battery (f b) }
  | _ => m

/-- The module after an operation, whether or not the call raised. -/
def MOp.apply (m : Module) : MOp → Module
  | .step a n => (m.step a n).1
  | .reset => m.reset.1
  | .setSoc v => m.assign fun b => (b.setSoc v).1
  | .setCharge v => m.assign fun b => (b.setCharge v).1

/-- The module after a history of operations. -/
def runOps (m : Module) (ops : List MOp) : Module := ops.foldl MOp.apply m

/-- The outputs of the successful steps of a history, in order. -/
def outputs : Module → List MOp → List StepOut
  | _, [] => []
  | m, op :: ops =>
    match op with
    | .step a n =>
      match (m.step a n).2 with
      | .ok o => o :: outputs (op.apply m) ops
      | .error _ => outputs (op.apply m) ops
    | _ => outputs (op.apply m) ops

/-- Total energy reported provided in a list of step outputs. -/
def totalProvided (l : List StepOut) : ℚ := (l.map fun o => o.info.provided.getD 0).sum

/-- Total energy reported absorbed in a list of step outputs. -/
def totalAbsorbed (l : List StepOut) : ℚ := (l.map fun o => o.info.absorbed.getD 0).sum

/-- `current_charge` and `soc` of a battery module. -/
def Module.charge? (m : Module) : Option ℚ :=
  match m.kind with
  | .battery b => some b.charge
  | _ => none

@[inherit_doc Module.charge?]
def Module.soc? (m : Module) : Option ℚ :=
  match m.kind with
  | .battery b => some b.soc
  | _ => none

/-- The module of a successful constructor call (examples only). -/
def okModule (r : Except Err Module) : Module :=
  match r with
  | .ok m => m
  | .error _ => Module.mkBalancing false 0 0 0

theorem okModule_eq {r : Except Err Module} (h : r.isOk = true) : r = .ok (okModule r) := by
  cases r with
  | ok m => rfl
  | error e => simp [Except.isOk, Except.toBool] at h

end Pymgrid
