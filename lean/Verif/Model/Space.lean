import Verif.Model.Num

/-!
# `pymgrid/utils/space.py`: `ModuleSpace`

A module space is a box `[low, high]`, one entry per dimension.
-/

namespace Pymgrid

/-- Actions and observations: a Python scalar or a one-dimensional array. -/
inductive Act
  | num (q : ℚ)
  | arr (l : List ℚ)
  deriving DecidableEq, Repr

/-- `ModuleSpace` (`utils/space.py:183-239`): the unnormalised bounds.  The normalised box is
    `[0,1]` in every dimension and carries no information. Two-dimensional forecast spaces are
    represented separately, see `Forecaster`. -/
structure Space where
  low : List ℚ
  high : List ℚ
  deriving DecidableEq, Repr

/-- `_spread` of one dimension (`utils/space.py:204-205`): `high - low`, with 0 replaced by 1. -/
def spread1 (lo hi : ℚ) : ℚ := if hi - lo = 0 then 1 else hi - lo

/-- One dimension of `normalize` (`utils/space.py:213`). -/
def norm1 (lo hi v : ℚ) : ℚ := (v - lo) / spread1 lo hi

/-- One dimension of `denormalize` (`utils/space.py:226`). -/
def denorm1 (lo hi v : ℚ) : ℚ := lo + spread1 lo hi * v

/-- Elementwise operation against the bounds. -/
def mapBounds (f : ℚ → ℚ → ℚ → ℚ) : List ℚ → List ℚ → List ℚ → List ℚ
  | lo :: los, hi :: his, v :: vs => f lo hi v :: mapBounds f los his vs
  | _, _, _ => []

namespace Space

/-- Number of dimensions, `len(low)`. -/
def dim (s : Space) : Nat := s.low.length

/-- Result of the final `.item()` attempt (`utils/space.py:215-218`, `228-231`): arrays of one
    element become Python scalars. -/
def item : List ℚ → Act
  | [q] => .num q
  | l => .arr l

/-- Shared body of `normalize`/`denormalize`: `_shape_check` (`utils/space.py:142-147`) followed by
    the elementwise formula and `.item()`.  `_bounds_check` (`233-239`) only warns. -/
def apply (f : ℚ → ℚ → ℚ → ℚ) (s : Space) : Act → Except Err Act
  | .arr l =>
      if l.length ≠ s.dim then .error .type
      else .ok (item (mapBounds f s.low s.high l))
  | .num q =>
      if s.dim ≠ 1 then .error .type
      else .ok (item (mapBounds f s.low s.high [q]))

/-- `ModuleSpace.normalize` (`utils/space.py:207-218`). -/
def normalize (s : Space) (v : Act) : Except Err Act := s.apply norm1 v

/-- `ModuleSpace.denormalize` (`utils/space.py:220-231`). -/
def denormalize (s : Space) (v : Act) : Except Err Act := s.apply denorm1 v

end Space

end Pymgrid
