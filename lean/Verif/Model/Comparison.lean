import Verif.Model.PriorityList

set_option autoImplicit false

/-!
# Comparing elements of priority lists: `pymgrid/algos/priority_list/priority_list_element.py`

`Element` of `Model/PriorityList.lean` always has a marginal cost; `PLElement` is the class as it is, with an optional one.
-/

namespace Pymgrid

/-- `PriorityListElement` (`priority_list_element.py:7-60`). -/
structure PLElement where
  module : String × Nat
  actions : Nat
  action : Nat
  cost : Option ℚ
  deriving DecidableEq, Repr

/-- An element of the lists of the library, which have marginal costs (`priority_list.py:26-32`). -/
def Element.entry (e : Element) : PLElement :=
  { module := e.module, actions := e.actions, action := e.action, cost := some e.cost }

namespace PLElement

/-- `PriorityListElement.__eq__` (`priority_list_element.py:62-71`). -/
def eq (a b : PLElement) : Bool :=
  a.module == b.module && a.actions == b.actions && a.action == b.action && a.cost == b.cost

/-- `PriorityListElement.__lt__` (`priority_list_element.py:73-80`); `none` is `NotImplemented`. -/
def lt? (a b : PLElement) : Option Bool :=
  match a.cost, b.cost with
  | some p, some q => some (decide (p < q) || (decide (p = q) && decide (a.action > b.action)))
  | _, _ => none

/-- `__le__` of `functools.total_ordering` (`priority_list_element.py:6`): less, or equal. -/
def le? (a b : PLElement) : Option Bool := (a.lt? b).map fun r => r || a.eq b

/-- `__gt__` of `functools.total_ordering` (`priority_list_element.py:6`): not less, and different. -/
def gt? (a b : PLElement) : Option Bool := (a.lt? b).map fun r => !r && !a.eq b

/-- `__ge__` of `functools.total_ordering` (`priority_list_element.py:6`): not less. -/
def ge? (a b : PLElement) : Option Bool := (a.lt? b).map fun r => !r

/-- A comparison in python: the method of the left operand, the reflected method of the right one, then a `TypeError`. -/
def compare (method reflected : Option Bool) : Except Err Bool :=
  match method, reflected with
  | some r, _ => .ok r
  | none, some r => .ok r
  | none, none => .error .type

/-- `a < b` (`priority_list_element.py:73-80`). -/
def less (a b : PLElement) : Except Err Bool := compare (a.lt? b) (b.gt? a)

/-- `a <= b` (`priority_list_element.py:6`). -/
def lessEq (a b : PLElement) : Except Err Bool := compare (a.le? b) (b.ge? a)

/-- `a > b` (`priority_list_element.py:6`). -/
def greater (a b : PLElement) : Except Err Bool := compare (a.gt? b) (b.lt? a)

/-- `a >= b` (`priority_list_element.py:6`). -/
def greaterEq (a b : PLElement) : Except Err Bool := compare (a.ge? b) (b.le? a)

end PLElement

end Pymgrid
