import Verif.Model.Microgrid

set_option autoImplicit false

/-!
# `==` of modules and microgrids

Numbers that modules hold besides their arrays are Python numbers and are compared exactly.
-/

namespace Pymgrid

/-- Comparisons that depend on objects outside the model.  Python functions are equal if they are the same object; a forecaster
    argument that is a standard deviation is a number; trajectory functions of the library are compared by what they print
    (`trajectory/base.py:20-23`).
    `param` compares two arguments `forecaster` of the same sort, `inner` two forecasters of the same class by their remaining
    attributes (the function, which for scalar functions is a new wrapper per forecaster, `forecaster.py:200-203,362-373`; or
    `input_noise_std`, `increase_uncertainty`, `relative_noise`). -/
structure Ident where
  transition : (ℚ → TransitionArgs → ℚ) → (ℚ → TransitionArgs → ℚ) → Bool
  cost : (ℚ → ℚ) → (ℚ → ℚ) → Bool
  param : FKind → FKind → Bool
  inner : FKind → FKind → Bool
  trajectory : (Nat → Nat → Option Nat → Except Err (Nat × Nat)) → (Nat → Nat → Option Nat → Except Err (Nat × Nat)) → Bool

/-- All comparisons of the list are made; the first exception wins. -/
def allEager : List (Except Err Bool) → Except Err Bool
  | [] => .ok true
  | .error e :: _ => .error e
  | .ok x :: rest =>
    match allEager rest with
    | .ok y => .ok (x && y)
    | .error e => .error e

/-- Comparisons are made until one fails, like `==` of lists and dicts and `all` of a generator do. -/
def allLazy : List (Except Err Bool) → Except Err Bool
  | [] => .ok true
  | .error e :: _ => .error e
  | .ok false :: _ => .ok false
  | .ok true :: rest => allLazy rest

/-- numpy's broadcasting of one dimension: equal lengths are paired, a length of one is repeated, anything else is a
    `ValueError`. -/
def pairUp {α : Type} (f : α → α → Except Err Bool) (a b : List α) : Except Err Bool :=
  if a.length = b.length then allEager (List.zipWith f a b)
  else
    match a, b with
    | [x], b => allEager (b.map fun y => f x y)
    | a, [y] => allEager (a.map fun x => f x y)
    | _, _ => .error .value

/-- `np.allclose` of two one-dimensional arrays. -/
def allcloseRow (a b : List ℚ) : Except Err Bool := pairUp (fun x y => .ok (isclose x y)) a b

/-- `np.allclose` of two two-dimensional arrays. -/
def allcloseRows (a b : List (List ℚ)) : Except Err Bool := pairUp allcloseRow a b

/-- `gym.spaces.Box.__eq__`: equal shapes and close bounds; this is what `_PymgridSpace.__eq__` (`utils/space.py:176-180`)
    compares. -/
def Space.eq (a b : Space) : Bool :=
  decide (a.low.length = b.low.length ∧ a.high.length = b.high.length) &&
    (List.zipWith isclose a.low b.low).all id && (List.zipWith isclose a.high b.high).all id

/-- Equality of dicts: the same keys with the same values, in any order (the keys of a dict are distinct). -/
def dictEq {α β : Type} [DecidableEq α] [DecidableEq β] (d e : List (α × β)) : Bool :=
  decide (d.length = e.length) && d.all fun kv => decide (dictGet? e kv.1 = some kv.2)

/-- `==` of two loggers, which are `UserDict`s (`utils/logger.py:7`): the columns are compared, not `_log_length`.  `np.nan` is one
    object and lists compare elements by identity first, so entries `none` are equal. -/
def Logger.eq (a b : Logger) : Bool := dictEq a.cols b.cols

/-- `!=` of two arguments `forecaster`, negated (`base_timeseries_module.py:41`). -/
def FKind.eq (i : Ident) : FKind → FKind → Bool
  | .none, .none => true
  | .oracle, .oracle => true
  | .gaussian n s r, .gaussian n' s' r' => i.param (.gaussian n s r) (.gaussian n' s' r')
  | .user f, .user f' => i.param (.user f) (.user f')
  | .userScalar f, .userScalar f' => i.param (.userScalar f) (.userScalar f')
  | _, _ => false

namespace Forecaster

/-- Comparison of the remaining attributes of two forecasters of the same class, in order (`forecaster.py:195-203,232-238`):
    `_noise_std` is an array if `increase_uncertainty` is set, and the truth value of its comparison is a `ValueError` unless it
    has one entry (then the entries are taken to agree with `input_noise_std`).  The truth value of an empty array depends on the
    version of numpy; it is taken to be an error here.  `none` if the classes differ. -/
def attrs (i : Ident) (a b : Forecaster) : Option (List (Except Err Bool)) :=
  match a.kind, b.kind with
  | .none, .none => some []
  | .oracle, .oracle => some []
  | .gaussian n s r, .gaussian n' s' r' => some
    [.ok (i.inner (.gaussian n s r) (.gaussian n' s' r')), .ok (decide (a.fcRows = b.fcRows)),
     match r with
     | none => .ok true
     | some k => if k * a.minRow.length = 1 then .ok true else .error .value]
  | .user f, .user f' => some [.ok (i.inner (.user f) (.user f'))]
  | .userScalar f, .userScalar f' => some [.ok (i.inner (.userScalar f) (.userScalar f'))]
  | .user _, .userScalar _ => some [.ok false]
  | .userScalar _, .user _ => some [.ok false]
  | _, _ => none

/-- `_fill_arr` as a flat array (`forecaster.py:95`). -/
def fill (f : Forecaster) : List ℚ := (List.replicate f.obsRows f.fillRow).flatten

/-- The forecast-shaped space (`forecaster.py:97-114`); its shape is its number of rows and their width. -/
def shapedSpace (f : Forecaster) : Space :=
  { low := (List.replicate f.fcRows f.minRow).flatten, high := (List.replicate f.fcRows f.maxRow).flatten }

@[inherit_doc shapedSpace]
def wholeSpace (f : Forecaster) : Space :=
  { low := (List.replicate f.obsRows f.minRow).flatten, high := (List.replicate f.obsRows f.maxRow).flatten }

/-- `Forecaster.__eq__` (`forecaster.py:165-170`).  The padding is compared exactly, entry by entry; paddings of different
    lengths are an exception (a `ValueError` of numpy, in older versions an `AttributeError` of the `False` it returns).
    Different classes are not equal. -/
def eq (i : Ident) (a b : Forecaster) : Except Err Bool :=
  match attrs i a b with
  | none => .ok false
  | some l =>
    allLazy (pairUp (fun x y => .ok (decide (x = y))) a.fill b.fill :: .ok (a.wholeSpace.eq b.wholeSpace) ::
      .ok (a.shapedSpace.eq b.shapedSpace) :: l)

end Forecaster

/-- `_current_forecast` (`base_timeseries_module.py:56`).  `None != array` is an array, whose truth value is a `ValueError` unless
    it has one entry; `np.allclose(array, None)` is a `TypeError`. -/
def forecastEq (a b : Option (List (List ℚ))) : Except Err Bool :=
  match a, b with
  | none, none => .ok true
  | none, some f => if f.flatten.length = 1 then .ok false else .error .value
  | some _, none => .error .type
  | some f, some f' => allcloseRows f f'

namespace TS

/-- Attributes of `BaseTimeSeriesMicrogridModule` before the base class sets its own (`base_timeseries_module.py:35-49`);
    `_min_act` and `_max_act` are copies of other attributes. -/
def attrs (i : Ident) (a b : TS) : List (Except Err Bool) :=
  [allcloseRows a.rows b.rows, allcloseRow a.minRow b.minRow, allcloseRow a.maxRow b.maxRow,
   .ok (decide (a.finalStep = b.finalStep)), .ok (a.param.eq i b.param), .ok (decide (a.horizon = b.horizon)),
   a.forecaster.eq i b.forecaster, .ok (decide (a.currentKeys = b.currentKeys ∧ a.forecastKeys = b.forecastKeys))]

end TS

/-- Attributes of `BatteryModule` (`battery_module.py:75-89`). -/
def Battery.attrs (i : Ident) (a b : Battery) : List (Except Err Bool) :=
  [.ok (decide (a.minCapacity = b.minCapacity)), .ok (decide (a.maxCapacity = b.maxCapacity)),
   .ok (decide (a.maxCharge = b.maxCharge)), .ok (decide (a.maxDischarge = b.maxDischarge)),
   .ok (decide (a.efficiency = b.efficiency)),
   .ok (match a.transition, b.transition with
     | none, none => true
     | some f, some f' => i.transition f f'
     | _, _ => false),
   .ok (decide (a.costCycle = b.costCycle)), .ok (decide (a.minSoc = b.minSoc)),
   .ok (decide (a.initCharge = b.initCharge)), .ok (decide (a.initSoc = b.initSoc)),
   .ok (decide (a.charge = b.charge)), .ok (decide (a.soc = b.soc))]

/-- Attributes of `GensetModule` (`genset_module.py:82-92`). -/
def Genset.attrs (i : Ident) (a b : Genset) : List (Except Err Bool) :=
  [.ok (decide (a.runMin = b.runMin)), .ok (decide (a.runMax = b.runMax)),
   .ok (decide (a.co2PerUnit = b.co2PerUnit)), .ok (decide (a.costPerCo2 = b.costPerCo2)),
   .ok (match a.cost, b.cost with
     | .const c, .const c' => decide (c = c')
     | .fn f, .fn f' => i.cost f f'
     | _, _ => false),
   .ok (decide (a.startUpTime = b.startUpTime)), .ok (decide (a.windDownTime = b.windDownTime)),
   .ok (decide (a.allowAbortion = b.allowAbortion)), .ok (decide (a.initStartUp = b.initStartUp)),
   .ok (decide (a.status = b.status)), .ok (decide (a.goal = b.goal)),
   .ok (decide (a.untilUp = b.untilUp)), .ok (decide (a.untilDown = b.untilDown))]

namespace Module

/-- Attributes of the base class (`base_module.py:44-51`).  The attribute `name` is left out: modules of two microgrids are
    compared at the same name and position, modules on their own have the name of their class. -/
def baseAttrs (a b : Module) : List (Except Err Bool) :=
  [.ok (decide (a.raiseErrors = b.raiseErrors)), .ok (decide (a.initialStep = b.initialStep)),
   .ok (decide (a.currentStep = b.currentStep)),
   .ok (match a.actSpace, b.actSpace with
     | none, none => true
     | some s, some s' => s.eq s'
     | _, _ => false),
   .ok (a.obsSpace.eq b.obsSpace), .ok (decide (a.provName = b.provName)), .ok (decide (a.absName = b.absName)),
   .ok (a.logger.eq b.logger)]

/-- `BaseMicrogridModule.__eq__` (`base_module.py:959-966`).  Modules of one class have the same attributes in the same order, so
    that `zip` pairs equal names; all of them are compared, arrays by `np.allclose`, the others by `!=`.  The module type is an
    attribute of the class and is not compared.  Two modules of different classes are not equal. -/
def eq (i : Ident) (a b : Module) : Except Err Bool :=
  match a.kind, b.kind with
  | .battery x, .battery y => allEager (x.attrs i y ++ baseAttrs a b)
  | .genset x, .genset y => allEager (x.attrs i y ++ baseAttrs a b)
  | .grid p x, .grid q y => allEager
    ([.ok (decide (p.maxImport = q.maxImport)), .ok (decide (p.maxExport = q.maxExport)),
      .ok (decide (p.costPerCo2 = q.costPerCo2))] ++ x.attrs i y ++ baseAttrs a b ++ [forecastEq x.cur y.cur])
  | .load x, .load y => allEager (x.attrs i y ++ baseAttrs a b ++ [forecastEq x.cur y.cur])
  | .renewable x, .renewable y => allEager (x.attrs i y ++ baseAttrs a b ++ [forecastEq x.cur y.cur])
  | .balancing x, .balancing y => allEager (baseAttrs a b ++
      [.ok (decide (x.lossLoadCost = y.lossLoadCost)), .ok (decide (x.overgenerationCost = y.overgenerationCost))])
  | _, _ => .ok false

end Module

/-- `==` of two module lists (`module_container.py:325`): lengths first, then the modules in order. -/
def listEq (cmp : Nat → Nat → Except Err Bool) (l l' : List Nat) : Except Err Bool :=
  if l.length = l'.length then allLazy (List.zipWith cmp l l') else .ok false

/-- `==` of two dicts of module lists: sizes first, then the lists name by name. -/
def ModDict.eq (cmp : Nat → Nat → Except Err Bool) (d e : ModDict) : Except Err Bool :=
  if d.length = e.length then
    allLazy (d.map fun nl =>
      match dictGet? e nl.1 with
      | none => .ok false
      | some l => listEq cmp nl.2 l)
  else .ok false

/-- `Microgrid.__eq__` (`microgrid.py:1009-1016`): the containers, which are dicts of dicts (`module_container.py:300-315`; the
    nine lowest ones are compared, each twice in the code), the balance logs and the trajectory functions.  All three
    comparisons are made.  Neither the reward shaping function nor the steps of the microgrid are compared.  The two
    microgrids are different objects (a microgrid copies its modules, `microgrid.py:163`), hence the two heaps. -/
def Microgrid.eq (i : Ident) (g g' : Microgrid) : Except Err Bool :=
  allEager [
    allLazy (List.zipWith (ModDict.eq fun x y => (g.heap x).eq i (g'.heap y)) g.cont.all g'.cont.all),
    .ok (g.balanceLog.eq g'.balanceLog),
    .ok (match g.trajectory, g'.trajectory with
      | none, none => true
      | some f, some f' => i.trajectory f f'
      | _, _ => false)]

end Pymgrid
