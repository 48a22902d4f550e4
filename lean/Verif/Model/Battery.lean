import Verif.Model.Num

/-!
# `pymgrid/modules/battery_module.py`
-/

namespace Pymgrid

/-- Whether a module is asked to act as a source or as a sink.  The library passes two booleans
    `as_source`, `as_sink` and asserts that exactly one is set; `as_source`/`as_sink` of the base
    class are the only callers (`base_module.py:226,274`) and always satisfy this. -/
inductive Dir
  | source | sink
  deriving DecidableEq, Repr

/-- The info dict returned by `update`: `provided_energy`, `absorbed_energy` and other entries. -/
structure Info where
  provided : Option ℚ := none
  absorbed : Option ℚ := none
  extra : List (Key × ℚ) := []
  deriving DecidableEq, Repr

/-- What `update` returns: reward, done, info. -/
structure UpdateOut where
  reward : ℚ
  done : Bool
  info : Info
  deriving DecidableEq, Repr

/-- Keyword arguments handed to a user transition model (`battery_module.py:191-242`). -/
structure TransitionArgs where
  minCapacity : ℚ
  maxCapacity : ℚ
  maxCharge : ℚ
  maxDischarge : ℚ
  efficiency : ℚ
  costCycle : ℚ
  maxProduction : ℚ
  maxConsumption : ℚ
  soc : ℚ
  currentCharge : ℚ

/-- Fields of `BatteryModule` (`battery_module.py:66-94`).  `transition = none` is
    `battery_transition_model=None`. -/
structure Battery where
  minCapacity : ℚ
  maxCapacity : ℚ
  maxCharge : ℚ
  maxDischarge : ℚ
  efficiency : ℚ
  costCycle : ℚ := 0
  transition : Option (ℚ → TransitionArgs → ℚ) := none
  initCharge : Option ℚ := none
  initSoc : Option ℚ := none
  minSoc : ℚ
  charge : ℚ
  soc : ℚ

namespace Battery

/-- `_init_battery` (`battery_module.py:96-106`): charge and soc from either argument. -/
def initBattery (maxCapacity : ℚ) (initCharge initSoc : Option ℚ) : Except Err (ℚ × ℚ) :=
  match initCharge with
  | some c => if maxCapacity = 0 then .error .zeroDiv else .ok (c, c / maxCapacity)
  | none =>
    match initSoc with
    | some s => .ok (s * maxCapacity, s)
    | none => .error .value

/-- `BatteryModule.__init__` (`battery_module.py:66-94`), without the base-class part. -/
def init (minCapacity maxCapacity maxCharge maxDischarge efficiency costCycle : ℚ)
    (transition : Option (ℚ → TransitionArgs → ℚ)) (initCharge initSoc : Option ℚ) :
    Except Err Battery :=
  if ¬ (0 < efficiency ∧ efficiency ≤ 1) then .error .assertion
  else if maxCapacity = 0 then .error .zeroDiv
  else
    match initBattery maxCapacity initCharge initSoc with
    | .error e => .error e
    | .ok (c, s) =>
      .ok { minCapacity, maxCapacity, maxCharge, maxDischarge, efficiency, costCycle, transition,
            initCharge, initSoc, minSoc := minCapacity / maxCapacity, charge := c, soc := s }

/-- `max_production` (`battery_module.py:283-286`). -/
def maxProduction (b : Battery) : ℚ :=
  min b.maxDischarge (b.charge - b.minCapacity) * b.efficiency

/-- `max_consumption` (`battery_module.py:288-291`). -/
def maxConsumption (b : Battery) : ℚ :=
  min b.maxCharge (b.maxCapacity - b.charge) / b.efficiency

/-- `transition_kwargs` (`battery_module.py:191-242`). -/
def transitionArgs (b : Battery) : TransitionArgs :=
  { minCapacity := b.minCapacity, maxCapacity := b.maxCapacity, maxCharge := b.maxCharge,
    maxDischarge := b.maxDischarge, efficiency := b.efficiency, costCycle := b.costCycle,
    maxProduction := b.maxProduction, maxConsumption := b.maxConsumption,
    soc := b.soc, currentCharge := b.charge }

/-- `default_transition_model` (`battery_module.py:244-278`). -/
def defaultTransition (x efficiency : ℚ) : ℚ :=
  if x < 0 then x / efficiency else x * efficiency

/-- `model_transition` (`battery_module.py:149-189`). -/
def modelTransition (b : Battery) (x : ℚ) : ℚ :=
  match b.transition with
  | none => defaultTransition x b.efficiency
  | some f => f x b.transitionArgs

/-- `_update_state` (`battery_module.py:125-130`).  On the assertion failure the charge has already
    been modified, the soc has not. -/
def updateState (b : Battery) (de : ℚ) : Battery × Except Err Unit :=
  let c := b.charge + de
  if c < b.minCapacity then
    if isclose c b.minCapacity then
      ({ b with charge := b.minCapacity, soc := b.minCapacity / b.maxCapacity }, .ok ())
    else ({ b with charge := c }, .error .assertion)
  else ({ b with charge := c, soc := c / b.maxCapacity }, .ok ())

/-- `get_cost` (`battery_module.py:132-147`). -/
def getCost (b : Battery) (de : ℚ) : ℚ := |de| * b.costCycle

/-- `update` (`battery_module.py:108-123`).  `none` is the `None` passed by the base class to
    modules of type `fixed`; multiplying it raises `TypeError`. -/
def update (b : Battery) (e : Option ℚ) (d : Dir) : Battery × Except Err UpdateOut :=
  match e with
  | none => (b, .error .type)
  | some x =>
    match d with
    | .source =>
      let de := b.modelTransition (-1 * x)
      if ¬ de ≤ 0 then (b, .error .assertion)
      else
        match b.updateState de with
        | (b', .error err) => (b', .error err)
        | (b', .ok ()) =>
          (b', .ok { reward := -1 * b.getCost de, done := false, info := { provided := some x } })
    | .sink =>
      let de := b.modelTransition x
      if ¬ 0 ≤ de then (b, .error .assertion)
      else
        match b.updateState de with
        | (b', .error err) => (b', .error err)
        | (b', .ok ()) =>
          (b', .ok { reward := -1 * b.getCost de, done := false, info := { absorbed := some x } })

/-- The `soc` setter (`battery_module.py:356-358`). -/
def setSoc (b : Battery) (v : ℚ) : Battery × Except Err Unit :=
  match initBattery b.maxCapacity none (some v) with
  | .ok (c, s) => ({ b with charge := c, soc := s }, .ok ())
  | .error e => (b, .error e)

/-- The `current_charge` setter (`battery_module.py:360-362`). -/
def setCharge (b : Battery) (v : ℚ) : Battery × Except Err Unit :=
  match initBattery b.maxCapacity (some v) none with
  | .ok (c, s) => ({ b with charge := c, soc := s }, .ok ())
  | .error e => (b, .error e)

/-- `_state_dict` (`battery_module.py:280-281`). -/
def stateDict (b : Battery) : List (Key × ℚ) :=
  [(.str "soc", b.soc), (.str "current_charge", b.charge)]

/-- `min_obs`, `max_obs` (`battery_module.py:323-330`); `max_soc = 1` (line 87). -/
def minObs (b : Battery) : List ℚ := [b.minSoc, b.minCapacity]
@[inherit_doc minObs] def maxObs (b : Battery) : List ℚ := [1, b.maxCapacity]

/-- `min_act`, `max_act` (`battery_module.py:332-338`). -/
def minAct (b : Battery) : ℚ := -b.maxDischarge / b.efficiency
@[inherit_doc minAct] def maxAct (b : Battery) : ℚ := b.maxCharge * b.efficiency

end Battery

end Pymgrid
