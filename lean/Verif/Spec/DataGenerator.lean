import Mathlib.Data.Rat.Defs
import Mathlib.Algebra.Order.Field.Rat
import Mathlib.Algebra.BigOperators.Group.List.Basic

set_option autoImplicit false

/-! What noisy data should be like. -/

namespace Pymgrid.Noisy

/-- How often `b` directly follows `a`. -/
def transitions (data : List ℚ) (a b : ℚ) : Nat := ((data.zip data.tail).filter fun p => decide (p = (a, b))).length

/-- How often `a` has a successor. -/
def leaves (data : List ℚ) (a : ℚ) : Nat := (data.dropLast.filter fun x => decide (x = a)).length

/-- How often, relatively, `a` is followed by `b`; a value that has no successor stays. -/
def freq (data : List ℚ) (a b : ℚ) : ℚ :=
  if leaves data a = 0 then if a = b then 1 else 0 else transitions data a b / leaves data a

/-- A series of 0 and 1 drawn with the frequencies of the data: first how often 0 has a successor, then how often 0 follows the value
    before. -/
structure DrawnLike (data : List ℚ) (u : Nat → ℚ) (s : List ℚ) : Prop where
  length : s.length = data.length
  first : s[0]? = some (if u 0 < leaves data 0 / ((data.length : ℚ) - 1) then 0 else 1)
  next : ∀ i, i + 1 < s.length → s[i + 1]? = some (if u (i + 1) < freq data (s.getD i 0) 0 then 0 else 1)

/-- A series of hourly light: whole days, dark at midnight and at 11 pm, some light each day. -/
structure Daylight (data : List ℚ) : Prop where
  whole : 24 ∣ data.length
  midnight : ∀ d, 24 * d < data.length → data[24 * d]? = some 0 ∧ data[24 * d + 23]? = some 0
  light : ∀ d, 24 * d < data.length → ∃ h, h < 24 ∧ data[24 * d + h]? ≠ some 0

/-- The values of an hourly series a whole number of weeks before or after a position. -/
def weekly (data : List ℚ) (i : Nat) : List ℚ :=
  ((List.range data.length).filter fun j => decide (j % 168 = i % 168)).map fun j => data.getD j 0

/-- The mean of some values. -/
def mean (l : List ℚ) : ℚ := l.sum / l.length

end Pymgrid.Noisy
