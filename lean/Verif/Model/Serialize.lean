import Verif.Model.Module

set_option autoImplicit false

/-!
# Dumping and loading modules (`base_module.py:790-957`, `utils/logger.py:39-51`)

`dump` builds the mapping that is written as YAML, `load` builds a module from it.  The YAML text itself
is not modelled: numbers, lists and arrays are taken to be read back as they were written (floats are
printed with `repr`).  The `name` entry concerns the container only and is left out.
-/

namespace Pymgrid

/-- Constructor arguments by class, the `cls_params` entry (`base_module.py:870-881`). -/
inductive Params
  | battery (minCapacity maxCapacity maxCharge maxDischarge efficiency costCycle : ℚ)
      (transition : Option (ℚ → TransitionArgs → ℚ)) (initCharge initSoc : Option ℚ) (initialStep : Nat)
      (raiseErrors : Bool)
  | genset (runMin runMax : ℚ) (cost : GensetCost) (co2PerUnit costPerCo2 : ℚ)
      (startUpTime windDownTime : Nat) (allowAbortion initStartUp : Bool) (initialStep : Nat)
      (raiseErrors : Bool)
  | load (series : List ℚ) (param : FKind) (horizon initialStep : Nat) (finalStep : Int)
      (raiseErrors : Bool)
  | renewable (series : List ℚ) (param : FKind) (horizon initialStep : Nat) (finalStep : Int)
      (raiseErrors : Bool)
  | grid (maxImport maxExport : ℚ) (ncols : Nat) (rows : List (List ℚ)) (param : FKind)
      (horizon initialStep : Nat) (finalStep : Int) (costPerCo2 : ℚ) (raiseErrors : Bool)
  | balancing (raiseErrors : Bool) (initialStep : Nat) (lossLoadCost overgenerationCost : ℚ)

/-- The `state` entry by class (`base_module.py:851-868`): `_current_step` of every module, `soc` and
    `current_charge` of batteries (`battery_module.py:280-281`), the four attributes of gensets
    (`genset_module.py:426-433`), nothing else of time-series modules
    (`base_timeseries_module.py:345-346`) and balancing modules. -/
inductive StateAttrs
  | battery (step : Nat) (soc charge : ℚ)
  | genset (step : Nat) (status goal untilUp untilDown : Int)
  | other (step : Nat)

/-- The mapping built by `serialize` (`base_module.py:826-849`); `log = none` when there is no such
    entry. -/
structure Dump where
  params : Params
  state : StateAttrs
  log : Option (List (Key × List (Option ℚ)))

/-- The `forecaster` entry (`base_timeseries_module.py:340-343`) together with
    `forecaster_increase_uncertainty` (`275-292`): the constructor argument is dumped, the flag is read
    from the forecaster in use (`False` if it has none). -/
def TS.dumpParam (t : TS) : FKind :=
  match t.param with
  | .gaussian noise _ rows =>
    match t.forecaster.kind with
    | .gaussian _ inc _ => .gaussian noise inc rows
    | _ => .gaussian noise false rows
  | k => k

namespace Module

/-- `_serialize_cls_params` (`base_module.py:870-881`).  `time_series` is the stored series, which for
    loads and renewables has one column and for grids always four. -/
def params (m : Module) : Params :=
  match m.kind with
  | .battery b =>
    .battery b.minCapacity b.maxCapacity b.maxCharge b.maxDischarge b.efficiency b.costCycle b.transition
      b.initCharge b.initSoc m.initialStep m.raiseErrors
  | .genset g =>
    .genset g.runMin g.runMax g.cost g.co2PerUnit g.costPerCo2 g.startUpTime g.windDownTime
      g.allowAbortion g.initStartUp m.initialStep m.raiseErrors
  | .load t => .load t.rows.flatten t.dumpParam t.horizon m.initialStep t.finalStep m.raiseErrors
  | .renewable t =>
    .renewable t.rows.flatten t.dumpParam t.horizon m.initialStep t.finalStep m.raiseErrors
  | .grid p t =>
    .grid p.maxImport p.maxExport t.comps.length t.rows t.dumpParam t.horizon m.initialStep t.finalStep
      p.costPerCo2 m.raiseErrors
  | .balancing u => .balancing m.raiseErrors m.initialStep u.lossLoadCost u.overgenerationCost

/-- `_serialize_state_attributes` (`base_module.py:867-868`). -/
def stateAttrs (m : Module) : StateAttrs :=
  match m.kind with
  | .battery b => .battery m.currentStep b.soc b.charge
  | .genset g => .genset m.currentStep g.status g.goal g.untilUp g.untilDown
  | _ => .other m.currentStep

end Module

/-- Whether the yaml `SafeDumper` can represent the arguments: it has no representer for functions. -/
def Params.representable : Params → Bool
  | .battery _ _ _ _ _ _ transition _ _ _ _ => transition.isNone
  | .genset _ _ cost _ _ _ _ _ _ _ _ => match cost with | .const _ => true | .fn _ => false
  | .load _ param _ _ _ _ | .renewable _ param _ _ _ _ | .grid _ _ _ _ param _ _ _ _ _ =>
    match param with
    | .user _ | .userScalar _ => false
    | _ => true
  | .balancing _ _ _ _ => true

/-- `ModularLogger.serialize` (`utils/logger.py:39-40`): no entry for an empty log; `pd.DataFrame` raises
    `ValueError` when the columns differ in length. -/
def Logger.serialize (l : Logger) : Except Err (Option (List (Key × List (Option ℚ)))) :=
  if l.len = 0 then .ok none
  else
    match l.cols with
    | [] => .ok (some [])
    | c :: cs =>
      if cs.all (fun d => decide (d.2.length = c.2.length)) then .ok (some (c :: cs)) else .error .value

/-- `from_raw` (`utils/logger.py:45-51`) and `__init__` (`8-10`): the columns are those of the data frame,
    the length is that of the longest. -/
def Logger.fromRaw (raw : Option (List (Key × List (Option ℚ)))) : Logger :=
  match raw with
  | none => {}
  | some cols => { cols, len := cols.foldl (fun n c => max n c.2.length) 0 }

namespace Module

/-- `yaml.safe_dump(module)` (`base_module.py:799-849`).  A function among the arguments raises yaml's
    `RepresenterError` (here `.type`). -/
def dump (m : Module) : Except Err Dump :=
  match m.logger.serialize with
  | .error e => .error e
  | .ok log =>
    if m.params.representable then .ok { params := m.params, state := m.stateAttrs, log }
    else .error .type

end Module

/-- `deserialize_instance` (`base_module.py:883-926`): call the constructor.  `gridClass` is
    `GridModule.module_type[1]` at loading time, see `Module.ffc`. -/
def Params.build (gridClass : FFC) : Params → Except Err Module
  | .battery a b c d e f g h i j k => Module.mkBattery a b c d e f g h i j k
  | .genset a b c d e f g h i j k => Module.mkGenset a b c d e f g h i j k
  | .load a b c d e f => Module.mkLoad a b c d e f
  | .renewable a b c d e f => Module.mkRenewable a b c d e f
  | .grid a b c d e f g h i j =>
    match Module.mkGrid a b c d e f g h i j with
    | .ok m => .ok { m with ffc := gridClass }
    | .error e => .error e
  | .balancing a b c d => .ok (Module.mkBalancing a b c d)

/-- `deserialize` (`base_module.py:928-957`): assign the attributes in the order of
    `serializable_state_attributes`.  `soc` and `current_charge` have setters
    (`battery_module.py:356-362`).  A missing attribute raises `KeyError`. -/
def Module.restore (m : Module) : StateAttrs → Except Err Module
  | .battery step soc charge =>
    match m.kind with
    | .battery b =>
      match b.setSoc soc with
      | (_, .error e) => .error e
      | (b₁, .ok ()) =>
        match b₁.setCharge charge with
        | (_, .error e) => .error e
        | (b₂, .ok ()) => .ok { m with currentStep := step, kind := .battery b₂ }
    | _ => .error .key
  | .genset step status goal untilUp untilDown =>
    match m.kind with
    | .genset g =>
      .ok { m with currentStep := step, kind := .genset { g with status, goal, untilUp, untilDown } }
    | _ => .error .key
  | .other step =>
    match m.kind with
    | .battery _ | .genset _ => .error .key
    | _ => .ok { m with currentStep := step }

/-- A loaded module.  `frozen` tells that the columns of its log are pandas `Series` and not lists: a data
    frame is iterated column by column in `ModularLogger(raw)` (`utils/logger.py:45-51`). -/
structure Loaded where
  mod : Module
  frozen : Bool

/-- `yaml.safe_load` of a module (`base_module.py:770-797`). -/
def Dump.load (gridClass : FFC) (d : Dump) : Except Err Loaded :=
  match d.params.build gridClass with
  | .error e => .error e
  | .ok m =>
    match { m with logger := Logger.fromRaw d.log }.restore d.state with
    | .error e => .error e
    | .ok m' => .ok { mod := m', frozen := d.log.isSome }

namespace Module

/-- `step` of a module whose log columns are pandas `Series`, from line 152 on
    (`base_module.py:152-159`): `self[key].append` in `ModularLogger.log` (`utils/logger.py:18-28`) raises
    `AttributeError` with pandas 2 and `TypeError` with pandas 1, for the first key `reward` already, which
    every non-empty log has as a column.  Nothing after it is executed. -/
def frozenEnergy (m : Module) (a : ℚ) : Module × Except Err StepOut :=
  match m.stateDict with
  | .error e => (m, .error e)
  | .ok pre =>
    match m.unnormalizedStep a with
    | (m₁, .error e) => (m₁, .error e)
    | (m₁, .ok u) =>
      match m₁.logRow pre u with
      | .error e => (m₁, .error e)
      | .ok _ => (m₁, .error .attribute)

/-- `BaseMicrogridModule.step` (`base_module.py:95-159`) with such a log. -/
def frozenBase (m : Module) (a : Act) (normalized : Bool) : Module × Except Err StepOut :=
  let a' := if normalized then m.denormalizeAct a else .ok a
  match a' with
  | .error e => (m, .error e)
  | .ok a' =>
    match energyOf m.energyPos a' with
    | .error e => (m, .error e)
    | .ok q => m.frozenEnergy q

/-- `step` with such a log; gensets update their status first (`genset_module.py:100-149`). -/
def frozenStep (m : Module) (a : Act) (normalized : Bool) : Module × Except Err StepOut :=
  match m.kind with
  | .genset g =>
    match a with
    | .num _ => (m, .error .type)
    | .arr l =>
      match l[0]? with
      | none => (m, .error .index)
      | some goal =>
        if ¬ (0 ≤ goal ∧ goal ≤ 1) then (m, .error .assertion)
        else
          match g.updateStatus goal with
          | .error e => (m, .error e)
          | .ok g' => { m with kind := .genset g' }.frozenBase a normalized
  | _ => m.frozenBase a normalized

end Module

namespace Loaded

/-- `step` of a loaded module. -/
def step (l : Loaded) (a : Act) (normalized : Bool) : Loaded × Except Err StepOut :=
  let r := if l.frozen then l.mod.frozenStep a normalized else l.mod.step a normalized
  ({ l with mod := r.1 }, r.2)

/-- `reset` of a loaded module (`base_module.py:65-77`): `flush` clears the columns, later ones are
    lists. -/
def reset (l : Loaded) : Loaded × Except Err Act :=
  match l.mod.updateStep true with
  | (m₁, .error e) => ({ l with mod := m₁ }, .error e)
  | (m₁, .ok ()) =>
    let m₂ := { m₁ with logger := m₁.logger.flush }
    ({ mod := m₂, frozen := false }, m₂.normalizedObs)

end Loaded

end Pymgrid
