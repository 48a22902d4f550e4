import Verif.Model.Benchmarks
import Verif.Model.ForecastArgs

set_option autoImplicit false

/-!
# Comparing results: `ControlOutput` (`pymgrid/algos/Control.py`) and `ForecastArgSet` (`pymgrid/utils/DataGenerator.py`)

Both are subclasses of `dict` that define `__eq__`, `__lt__` and `__gt__`; `__ne__` is the one of `dict`.
-/

namespace Pymgrid.Rank

open Bench (Columns Cell Output outputOf)

/-- `a == b` of two dicts whose values are compared by `eqv`. -/
def dictEq {β : Type} (eqv : β → β → Bool) (a b : List (String × β)) : Bool :=
  a.length == b.length && a.all fun kv =>
    match dictGet? b kv.1 with
    | some w => eqv kv.2 w
    | none => false

/-- `a == b` of two dicts of lists; all nan are the object `np.nan` (`Control.py:213`), which lists take to be equal to itself. -/
def columnsEq (a b : Columns) : Bool := dictEq (fun (l l' : List Cell) => decide (l = l')) a b

/-- What is stored in an output (`Control.py:112,127`): the dict of records that the algorithms store, or a list of numbers.
    Simplified: data frames, which the caller can store too, are left out. -/
inductive Value
  | columns (c : Columns)
  | numbers (l : List ℚ)

/-- `a == b` of what is stored. -/
def Value.eq : Value → Value → Bool
  | .columns c, .columns c' => columnsEq c c'
  | .numbers l, .numbers l' => decide (l = l')
  | _, _ => false

/-- A `ControlOutput` as a dict (`Control.py:75-129`). -/
abbrev Stored := List (String × Value)

/-- The output of an algorithm (`mpc.py:713`, `_nonmodular_rbc.py:287`, `Control.py:118-129`). -/
def stored (o : Output) : Stored := o.map fun x => (x.1, .columns x.2)

/-- What `np.sum` returns. -/
inductive Summed
  | columns (c : Columns)
  | number (q : ℚ)

/-- `np.sum(self['cost'])` (`Control.py:220,225,230`): a dict is not a sequence, it becomes an array of one object without dimensions,
    whose sum is that object. -/
def npSum (o : Stored) : Except Err Summed :=
  match dictGet? o "cost" with
  | none => .error .key
  | some (.columns c) => .ok (.columns c)
  | some (.numbers l) => .ok (.number l.sum)

/-- `ControlOutput.__eq__` (`Control.py:217-220`). -/
def Stored.eq (a b : Stored) : Except Err Bool := do
  match ← npSum a, ← npSum b with
  | .columns c, .columns c' => .ok (columnsEq c c')
  | .number x, .number y => .ok (decide (x = y))
  | _, _ => .ok false

/-- `ControlOutput.__lt__` (`Control.py:222-225`): dicts have no order. -/
def Stored.lt (a b : Stored) : Except Err Bool := do
  match ← npSum a, ← npSum b with
  | .number x, .number y => .ok (decide (x < y))
  | _, _ => .error .type

/-- `ControlOutput.__gt__` (`Control.py:227-230`). -/
def Stored.gt (a b : Stored) : Except Err Bool := do
  match ← npSum a, ← npSum b with
  | .number x, .number y => .ok (decide (x > y))
  | _, _ => .error .type

/-- `a != b` of two outputs, which is `dict.__ne__` (`Control.py:75`). -/
def Stored.ne (a b : Stored) : Bool := !dictEq Value.eq a b

/-- `ForecastArgSet` (`DataGenerator.py:993-1008`): the parameters and `mape_vals`.  `mape_std`, which nothing reads, is left out, and
    all errors are finite. -/
structure ArgSet where
  params : Validation.PvArgs × ℚ
  vals : List ℚ := []

/-- `mape_mean` (`DataGenerator.py:1007,1010-1014`), kept up to date with `mape_vals`; `none` is `None`. -/
def ArgSet.mean (a : ArgSet) : Option ℚ := if a.vals = [] then none else some (a.vals.sum / a.vals.length)

/-- `update_with_mape` (`DataGenerator.py:1010-1014`). -/
def ArgSet.update (a : ArgSet) (m : ℚ) : ArgSet := { a with vals := a.vals ++ [m] }

/-- `ForecastArgSet.__eq__` (`DataGenerator.py:1050-1054`). -/
def ArgSet.eq (a b : ArgSet) : Bool := decide (a.mean = b.mean)

/-- `ForecastArgSet.__lt__` (`DataGenerator.py:1056-1060`): `None` has no order. -/
def ArgSet.lt (a b : ArgSet) : Except Err Bool :=
  match a.mean, b.mean with
  | some x, some y => .ok (decide (x < y))
  | _, _ => .error .type

/-- `ForecastArgSet.__gt__` (`DataGenerator.py:1062-1066`). -/
def ArgSet.gt (a b : ArgSet) : Except Err Bool :=
  match a.mean, b.mean with
  | some x, some y => .ok (decide (x > y))
  | _, _ => .error .type

/-- `a != b` of two sets, which is `dict.__ne__` (`DataGenerator.py:993`): it compares the parameters. -/
def ArgSet.ne (a b : ArgSet) : Bool := !decide (a.params = b.params)

/-- The loop of `min(items)` with the `<` of the class (`Control.py:222-225`, `DataGenerator.py:1056-1060`). -/
def minFrom {α : Type} (lt : α → α → Except Err Bool) (cur : α) : List α → Except Err α
  | [] => .ok cur
  | x :: l => do if ← lt x cur then minFrom lt x l else minFrom lt cur l

/-- `min(items)` with the `<` of the class (`Control.py:222-225`, `DataGenerator.py:1056-1060`). -/
def pyMin {α : Type} (lt : α → α → Except Err Bool) : List α → Except Err α
  | [] => .error .value
  | x :: l => minFrom lt x l

end Pymgrid.Rank
