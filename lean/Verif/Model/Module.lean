import Verif.Model.Genset
import Verif.Model.Logger
import Verif.Model.TimeSeries

/-!
# `pymgrid/modules/base/base_module.py` and the module classes

`Module` is an instance of one of the library's module classes.  Methods of the base class are
written once and dispatch on `kind` where Python dispatches on the class.
Stateful methods return the updated module next to the result, also when they fail.
-/

namespace Pymgrid

/-- Second entry of `module_type`. -/
inductive FFC
  | fixed | flex | controllable
  deriving DecidableEq, Repr

/-- Class-specific part of a module. -/
inductive Kind
  | battery (b : Battery)
  | genset (g : Genset)
  | grid (p : GridParams) (t : TS)
  | load (t : TS)
  | renewable (t : TS)
  | balancing (u : Unbalanced)

/-- Fields of `BaseMicrogridModule` (`base_module.py:37-51`).
    `actSpace = none` is the space `[-inf, inf]` of the balancing module.
    `ffc` is `module_type[1]`; it is a class attribute that `GridModule.as_flex/as_fixed`
    (`grid_module.py:230-246`) modify, here it is stored per module. -/
structure Module where
  raiseErrors : Bool
  initialStep : Nat
  currentStep : Nat
  actSpace : Option Space
  obsSpace : Space
  provName : Option Key
  absName : Option Key
  logger : Logger := {}
  ffc : FFC
  kind : Kind

/-- What `step` returns (`base_module.py:157-159`). -/
structure StepOut where
  obs : Act
  reward : ℚ
  done : Bool
  info : Info
  deriving DecidableEq, Repr

namespace Module

/-- `is_source` (`base_module.py:700-710` and overrides). -/
def isSource (m : Module) : Bool :=
  match m.kind with
  | .load _ => false
  | _ => true

/-- `is_sink` (`base_module.py:712-722` and overrides). -/
def isSink (m : Module) : Bool :=
  match m.kind with
  | .genset _ | .renewable _ => false
  | _ => true

/-- `_energy_pos` (`base_module.py:35`, `genset_module.py:59`). -/
def energyPos (m : Module) : Nat :=
  match m.kind with
  | .genset _ => 1
  | _ => 0

/-- `state_dict()` (`base_module.py:473-490` with the `_state_dict` of the classes;
    `unbalanced_energy_module.py:72-73`). -/
def stateDict (m : Module) : Except Err (List (Key × ℚ)) :=
  match m.kind with
  | .battery b => .ok b.stateDict
  | .genset g => .ok g.stateDict
  | .grid _ t | .load t | .renewable t => t.stateDict m.currentStep
  | .balancing _ => .ok []

/-- `state` (`base_module.py:505-517`). -/
def state (m : Module) : Except Err (List ℚ) :=
  match m.stateDict with
  | .ok d => .ok (d.map Prod.snd)
  | .error e => .error e

/-- `GridModule.current_status` (`grid_module.py:301-312`): `self.state[3::4][0]`. -/
def gridStatus (m : Module) : Except Err ℚ :=
  match m.state with
  | .error e => .error e
  | .ok s =>
    match s[3]? with
    | some q => .ok q
    | none => .error .index

/-- `max_production` of the classes (`battery_module.py:283`, `genset_module.py:465`,
    `grid_module.py:314`, `renewable_module.py:96`, `unbalanced_energy_module.py:95`).
    `LoadModule` inherits `NotImplemented` (`base_module.py:621-634`), whose comparison with a number
    raises `TypeError`. -/
def maxProduction (m : Module) : Except Err ERat :=
  match m.kind with
  | .battery b => .ok (.fin b.maxProduction)
  | .genset g => .ok (.fin g.maxProduction)
  | .grid p _ =>
    match m.gridStatus with
    | .ok s => .ok (.fin (p.maxImport * s))
    | .error e => .error e
  | .renewable t =>
    match t.itemAt m.currentStep with
    | .ok q => .ok (.fin q)
    | .error e => .error e
  | .balancing _ => .ok .inf
  | .load _ => .error .type

/-- `max_consumption` of the classes (`battery_module.py:288`, `grid_module.py:318`,
    `load_module.py:96`, `unbalanced_energy_module.py:99`); `NotImplemented` for the others. -/
def maxConsumption (m : Module) : Except Err ERat :=
  match m.kind with
  | .battery b => .ok (.fin b.maxConsumption)
  | .grid p _ =>
    match m.gridStatus with
    | .ok s => .ok (.fin (p.maxExport * s))
    | .error e => .error e
  | .load t =>
    match t.itemAt m.currentStep with
    | .ok q => .ok (.fin (-1 * q))
    | .error e => .error e
  | .balancing _ => .ok .inf
  | .genset _ | .renewable _ => .error .type

/-- `min_production` (`base_module.py:603-619`, `genset_module.py:484-501`). -/
def minProduction (m : Module) : ℚ :=
  match m.kind with
  | .genset g => g.minProduction
  | _ => 0

/-- `GridModule.update` with its cost and CO2 formulas (`grid_module.py:134-228`). -/
def gridUpdate (p : GridParams) (t : TS) (c : Nat) (e : Option ℚ) (d : Dir) :
    Except Err UpdateOut :=
  match d with
  | .source =>
    match t.entryAt c 0, t.entryAt c 2 with
    | .ok price, .ok co2 =>
      match e with
      | none => .error .type
      | some x =>
        .ok { reward := -1 * price * x + -1 * p.costPerCo2 * (x * co2), done := t.done c,
              info := { provided := some x, extra := [(.str "co2_production", x * co2)] } }
    | .error er, _ => .error er
    | _, .error er => .error er
  | .sink =>
    match t.entryAt c 1 with
    | .ok price =>
      match e with
      | none => .error .type
      | some x =>
        .ok { reward := price * x + -1 * p.costPerCo2 * 0, done := t.done c,
              info := { absorbed := some x, extra := [(.str "co2_production", 0)] } }
    | .error er => .error er

/-- `LoadModule.update` (`load_module.py:86-91,100-111`). -/
def loadUpdate (t : TS) (c : Nat) (d : Dir) : Except Err UpdateOut :=
  match d with
  | .source => .error .assertion
  | .sink =>
    match t.itemAt c with
    | .error er => .error er
    | .ok q => .ok { reward := 0, done := t.done c, info := { absorbed := some (-1 * q) } }

/-- `RenewableModule.update` (`renewable_module.py:86-93,99-110`). -/
def renewableUpdate (t : TS) (c : Nat) (e : Option ℚ) (d : Dir) : Except Err UpdateOut :=
  match d with
  | .sink => .error .assertion
  | .source =>
    match t.itemAt c with
    | .error er => .error er
    | .ok q =>
      match e with
      | none => .error .type
      | some x =>
        if ¬ x ≤ q then .error .assertion
        else .ok { reward := 0, done := t.done c,
                   info := { provided := some x, extra := [(.str "curtailment", q - x)] } }

/-- `UnbalancedEnergyModule.update` and `get_cost` (`unbalanced_energy_module.py:28-70`). -/
def balancingUpdate (u : Unbalanced) (e : Option ℚ) (d : Dir) : Except Err UpdateOut :=
  match e with
  | none => .error .type
  | some x =>
    match d with
    | .source =>
      let r := -1 * (u.lossLoadCost * x)
      if ¬ r ≤ 0 then .error .assertion
      else .ok { reward := r, done := false, info := { provided := some x } }
    | .sink =>
      let r := -1 * (u.overgenerationCost * x)
      if ¬ r ≤ 0 then .error .assertion
      else .ok { reward := r, done := false, info := { absorbed := some x } }

/-- `update` of the classes. Only the battery has state of its own to update. -/
def update (m : Module) (e : Option ℚ) (d : Dir) : Module × Except Err UpdateOut :=
  match m.kind with
  | .battery b =>
    match b.update e d with
    | (b', r) => ({ m with kind := .battery b' }, r)
  | .genset g => (m, g.update e d)
  | .grid p t => (m, gridUpdate p t m.currentStep e d)
  | .load t => (m, loadUpdate t m.currentStep d)
  | .renewable t => (m, renewableUpdate t m.currentStep e d)
  | .balancing u => (m, balancingUpdate u e d)

/-- `as_source` (`base_module.py:173-226`).  `_raise_error` (`79-93`, `genset_module.py:351-358`)
    raises `ValueError` in every branch. -/
def asSource (m : Module) (x : ℚ) : Module × Except Err UpdateOut :=
  if ¬ 0 ≤ x then (m, .error .assertion)
  else if m.isSource = false then (m, .error .assertion)
  else if m.ffc = .fixed then m.update none .source
  else
    match m.maxProduction with
    | .error e => (m, .error e)
    | .ok .inf =>
      if x < m.minProduction then
        if m.raiseErrors then (m, .error .value) else m.update (some m.minProduction) .source
      else m.update (some x) .source
    | .ok (.fin mx) =>
      if x > mx then
        if m.raiseErrors then (m, .error .value) else m.update (some mx) .source
      else if x < m.minProduction then
        if m.raiseErrors then (m, .error .value) else m.update (some m.minProduction) .source
      else m.update (some x) .source

/-- `as_sink` (`base_module.py:228-274`).  Note that there is no `is_sink` assertion. -/
def asSink (m : Module) (x : ℚ) : Module × Except Err UpdateOut :=
  if ¬ 0 ≤ x then (m, .error .assertion)
  else if m.ffc = .fixed then m.update none .sink
  else
    match m.maxConsumption with
    | .error e => (m, .error e)
    | .ok .inf => m.update (some x) .sink
    | .ok (.fin mx) =>
      if x > mx then
        if m.raiseErrors then (m, .error .value)
        else if ¬ 0 ≤ mx then (m, .error .assertion)
        else m.update (some mx) .sink
      else m.update (some x) .sink

/-- `_unnormalized_step` (`base_module.py:161-171`). -/
def unnormalizedStep (m : Module) (a : ℚ) : Module × Except Err UpdateOut :=
  if a > 0 then m.asSource a
  else if a < 0 then m.asSink (-1 * a)
  else if m.isSource then m.asSource a
  else if m.isSink then m.asSink (-1 * a)
  else (m, .error .assertion)

/-- Row passed to the logger (`base_module.py:276-290`): keyword `reward` and the other infos, the
    two energies under their log names, then the state before the step. -/
def logRow (m : Module) (pre : List (Key × ℚ)) (u : UpdateOut) : Except Err (List (Key × ℚ)) :=
  let row₀ := dictUpdate [(.str "reward", u.reward)] u.info.extra
  let row₁ : Except Err (List (Key × ℚ)) :=
    match m.provName with
    | some k => .ok (dictSet row₀ k (u.info.provided.getD 0))
    | none => if u.info.provided = none then .ok row₀ else .error .assertion
  match row₁ with
  | .error e => .error e
  | .ok row₁ =>
    let row₂ : Except Err (List (Key × ℚ)) :=
      match m.absName with
      | some k => .ok (dictSet row₁ k (u.info.absorbed.getD 0))
      | none => if u.info.absorbed = none then .ok row₁ else .error .assertion
    match row₂ with
    | .error e => .error e
    | .ok row₂ => .ok (dictUpdate row₂ pre)

/-- `_log` (`base_module.py:276-290`). -/
def log (m : Module) (pre : List (Key × ℚ)) (u : UpdateOut) : Module × Except Err Unit :=
  match m.logRow pre u with
  | .error e => (m, .error e)
  | .ok row => ({ m with logger := m.logger.log row }, .ok ())

/-- Recompute the forecast of a time-series module (`base_timeseries_module.py:99-101`). -/
def refresh (m : Module) : Module × Except Err Unit :=
  match m.kind with
  | .grid p t =>
    match t.refresh m.currentStep with
    | (t', r) => ({ m with kind := .grid p t' }, r)
  | .load t =>
    match t.refresh m.currentStep with
    | (t', r) => ({ m with kind := .load t' }, r)
  | .renewable t =>
    match t.refresh m.currentStep with
    | (t', r) => ({ m with kind := .renewable t' }, r)
  | _ => (m, .ok ())

/-- `_update_step` (`base_module.py:292-296`, `base_timeseries_module.py:99-101`). -/
def updateStep (m : Module) (reset : Bool) : Module × Except Err Unit :=
  { m with currentStep := if reset then m.initialStep else m.currentStep + 1 }.refresh

/-- `to_normalized(self.state, obs=True)` (`base_module.py:77,157`). -/
def normalizedObs (m : Module) : Except Err Act :=
  match m.state with
  | .error e => .error e
  | .ok s => m.obsSpace.normalize (.arr s)

/-- Denormalisation at the start of `step` (`base_module.py:138`).  With the infinite space of the
    balancing module the result is `nan`, on which `as_source` fails its first assertion
    (`base_module.py:205`). -/
def denormalizeAct (m : Module) (a : Act) : Except Err Act :=
  match m.actSpace with
  | some s => s.denormalize a
  | none => .error .assertion

/-- Selection of the energy entry (`base_module.py:140-150`).  Arrays are numpy arrays; Python lists
    differ only in that an empty list is rejected. -/
def energyOf (pos : Nat) : Act → Except Err ℚ
  | .num q => .ok q
  | .arr l =>
    match l[pos]? with
    | some q => .ok q
    | none => if l = [] then .ok 0 else .error .value

/-- `step` of the base class from line 152 on (`base_module.py:152-159`). -/
def stepEnergy (m : Module) (a : ℚ) : Module × Except Err StepOut :=
  match m.stateDict with
  | .error e => (m, .error e)
  | .ok pre =>
    match m.unnormalizedStep a with
    | (m₁, .error e) => (m₁, .error e)
    | (m₁, .ok u) =>
      match m₁.log pre u with
      | (m₂, .error e) => (m₂, .error e)
      | (m₂, .ok ()) =>
        match m₂.updateStep false with
        | (m₃, .error e) => (m₃, .error e)
        | (m₃, .ok ()) =>
          match m₃.normalizedObs with
          | .error e => (m₃, .error e)
          | .ok obs => (m₃, .ok { obs, reward := u.reward, done := u.done, info := u.info })

/-- `BaseMicrogridModule.step` (`base_module.py:95-159`). -/
def baseStep (m : Module) (a : Act) (normalized : Bool) : Module × Except Err StepOut :=
  let a' := if normalized then m.denormalizeAct a else .ok a
  match a' with
  | .error e => (m, .error e)
  | .ok a' =>
    match energyOf m.energyPos a' with
    | .error e => (m, .error e)
    | .ok q => m.stepEnergy q

/-- `step`: the genset first updates its status (`genset_module.py:100-149`). -/
def step (m : Module) (a : Act) (normalized : Bool) : Module × Except Err StepOut :=
  match m.kind with
  | .genset g =>
    match a with
    | .num _ => (m, .error .type)
    | .arr l =>
      match l[0]? with
      | none => (m, .error .index)
      | some goal =>
        if ¬ (0 ≤ goal ∧ goal ≤ 1) then (m, .error .assertion)
        else
          match g.updateStatus goal with
          | .error e => (m, .error e)
          | .ok g' => { m with kind := .genset g' }.baseStep a normalized
  | _ => m.baseStep a normalized

/-- `reset` (`base_module.py:65-77`). -/
def reset (m : Module) : Module × Except Err Act :=
  match m.updateStep true with
  | (m₁, .error e) => (m₁, .error e)
  | (m₁, .ok ()) =>
    let m₂ := { m₁ with logger := m₁.logger.flush }
    (m₂, m₂.normalizedObs)

/-- `marginal_cost`/`production_marginal_cost` (`base_module.py:651-666`, `battery_module.py:340`,
    `genset_module.py:519`, `grid_module.py:322`, `unbalanced_energy_module.py:111`). -/
def marginalCost (m : Module) : Except Err ℚ :=
  match m.kind with
  | .battery b => .ok b.costCycle
  | .genset g => .ok (g.getCost 1)
  | .grid _ _ =>
    match m.state with
    | .error e => .error e
    | .ok s =>
      match s[0]? with
      | some q => .ok q
      | none => .error .index
  | .balancing u => .ok u.lossLoadCost
  | _ => .ok 0

/-! ### Constructors -/

/-- `BatteryModule(...)` (`battery_module.py:66-94`, `base_module.py:37-51`). -/
def mkBattery (minCapacity maxCapacity maxCharge maxDischarge efficiency costCycle : ℚ)
    (transition : Option (ℚ → TransitionArgs → ℚ)) (initCharge initSoc : Option ℚ)
    (initialStep : Nat) (raiseErrors : Bool) : Except Err Module :=
  match Battery.init minCapacity maxCapacity maxCharge maxDischarge efficiency costCycle transition
      initCharge initSoc with
  | .error e => .error e
  | .ok b =>
    .ok { raiseErrors, initialStep, currentStep := initialStep
          actSpace := some { low := [b.minAct], high := [b.maxAct] }
          obsSpace := { low := b.minObs, high := b.maxObs }
          provName := some (.str "discharge_amount"), absName := some (.str "charge_amount")
          ffc := .controllable, kind := .battery b }

/-- `GensetModule(...)` (`genset_module.py:61-98`). -/
def mkGenset (runMin runMax : ℚ) (cost : GensetCost) (co2PerUnit costPerCo2 : ℚ)
    (startUpTime windDownTime : Nat) (allowAbortion initStartUp : Bool)
    (initialStep : Nat) (raiseErrors : Bool) : Except Err Module :=
  match Genset.init runMin runMax cost co2PerUnit costPerCo2 startUpTime windDownTime
      allowAbortion initStartUp with
  | .error e => .error e
  | .ok g =>
    .ok { raiseErrors, initialStep, currentStep := initialStep
          actSpace := some { low := g.minAct, high := g.maxAct }
          obsSpace := { low := g.minObs, high := g.maxObs }
          provName := some (.str "genset_production"), absName := none
          ffc := .controllable, kind := .genset g }

/-- `LoadModule(...)` (`load_module.py:58-84`) from a one-column series. -/
def mkLoad (series : List ℚ) (param : FKind) (horizon initialStep : Nat) (finalStep : Int)
    (raiseErrors : Bool) : Except Err Module :=
  match signCheck false series with
  | .error e => .error e
  | .ok xs =>
    match getBounds xs with
    | .error e => .error e
    | .ok (mn, mx) =>
      match TS.create (xs.map fun x => [x]) ["load"] [mn] [mx] param horizon initialStep finalStep with
      | .error e => .error e
      | .ok t =>
        .ok { raiseErrors, initialStep, currentStep := initialStep
              actSpace := some { low := [], high := [] }, obsSpace := t.obsSpace
              provName := none, absName := some (.str "load_met")
              ffc := .fixed, kind := .load t }

/-- `RenewableModule(...)` (`renewable_module.py:61-84`) from a one-column series, with the default
    `provided_energy_name`. -/
def mkRenewable (series : List ℚ) (param : FKind) (horizon initialStep : Nat) (finalStep : Int)
    (raiseErrors : Bool) : Except Err Module :=
  match signCheck true series with
  | .error e => .error e
  | .ok xs =>
    match getBounds xs with
    | .error e => .error e
    | .ok (mn, mx) =>
      match TS.create (xs.map fun x => [x]) ["renewable"] [mn] [mx] param horizon initialStep
          finalStep with
      | .error e => .error e
      | .ok t =>
        .ok { raiseErrors, initialStep, currentStep := initialStep
              actSpace := some { low := [mn], high := [mx] }, obsSpace := t.obsSpace
              provName := some (.str "renewable_used"), absName := none
              ffc := .flex, kind := .renewable t }

/-- `GridModule(...)` (`grid_module.py:73-101`). -/
def mkGrid (maxImport maxExport : ℚ) (ncols : Nat) (rows : List (List ℚ)) (param : FKind)
    (horizon initialStep : Nat) (finalStep : Int) (costPerCo2 : ℚ) (raiseErrors : Bool) :
    Except Err Module :=
  match gridCheckParams maxImport maxExport ncols rows with
  | .error e => .error e
  | .ok rows' =>
    match colFold min rows', colFold max rows' with
    | .ok mn, .ok mx =>
      match TS.create rows' gridComps mn mx param horizon initialStep finalStep with
      | .error e => .error e
      | .ok t =>
        .ok { raiseErrors, initialStep, currentStep := initialStep
              actSpace := some { low := [-1 * maxExport], high := [maxImport] }
              obsSpace := t.obsSpace
              provName := some (.str "grid_import"), absName := some (.str "grid_export")
              ffc := .controllable
              kind := .grid { maxImport, maxExport, costPerCo2 } t }
    | _, _ => .error .value

/-- `UnbalancedEnergyModule(...)` (`unbalanced_energy_module.py:13-26`). -/
def mkBalancing (raiseErrors : Bool) (initialStep : Nat) (lossLoadCost overgenerationCost : ℚ) :
    Module :=
  { raiseErrors, initialStep, currentStep := initialStep
    actSpace := none, obsSpace := { low := [], high := [] }
    provName := some (.str "loss_load"), absName := some (.str "overgeneration")
    ffc := .flex, kind := .balancing { lossLoadCost, overgenerationCost } }

end Module

end Pymgrid
