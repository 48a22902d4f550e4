import Verif.Model.Space

/-!
# `pymgrid/forecast/forecaster.py`

The observation space of a time-series module is one row of per-component bounds repeated
`1 + forecast_horizon` times (`base_timeseries_module.py:162-170`), so a forecaster's view of it is
represented by that row and by the number of repetitions.  Forecasts are lists of rows.
-/

namespace Pymgrid

/-- The value of the `forecaster` argument (`forecaster.py:72-88`).
    * `gaussian`: arbitrary noise, indexed by the number of the draw, the row and the column;
      `stdRows = some r` when `increase_uncertainty` made `_noise_std` an array of `r` rows
      (`forecaster.py:244-250`).
    * `user`: a vectorised callable; `userScalar`: a callable accepting only scalars
      (`forecaster.py:193-212,362-373`).  Callables may raise.  Forecaster instances passed by the
      user (line 74) are not modelled; the validation of callables (`forecaster.py:283-359`) is in
      `Model/Callable.lean`. -/
inductive FKind
  | none
  | oracle
  | gaussian (noise : Nat → Nat → Nat → ℚ) (increase : Bool) (stdRows : Option Nat)
  | user (f : List ℚ → List (List ℚ) → Nat → Except Err (List (List ℚ)))
  | userScalar (f : List ℚ → List ℚ → Nat → Except Err (List ℚ))

/-- `Forecaster` (`forecaster.py:91-95`): bounds row, number of rows in the observation space and
    number of rows in the forecast-shaped space. -/
structure Forecaster where
  kind : FKind
  minRow : List ℚ
  maxRow : List ℚ
  obsRows : Nat
  fcRows : Nat

namespace Forecaster

/-- One row of `_fill_arr` (`forecaster.py:95`): the mid-point of the bounds. -/
def fillRow (f : Forecaster) : List ℚ := List.zipWith (fun l h => (h + l) / 2) f.minRow f.maxRow

/-- `_pad` (`forecaster.py:120-131`).  A forecast longer than `n` ends in an exception raised by the
    broadcasting in `_clip` or the final assertion of `__call__`; it is reported here. -/
def pad (f : Forecaster) (fc : List (List ℚ)) (n : Nat) : Except Err (List (List ℚ)) :=
  if fc.length = n then .ok fc
  else if fc.length > n then .error .assertion
  else if f.obsRows < n - fc.length then .error .runtime
  else .ok (fc ++ List.replicate (n - fc.length) f.fillRow)

/-- `full_pad` (`forecaster.py:133-137`); the horizon is never `None` here. -/
def fullPad (f : Forecaster) (n : Nat) : Except Err (List (List ℚ)) := f.pad [] n

/-- One entry of `_clip` (`forecaster.py:143-147`). -/
def clip1 (lo hi v : ℚ) : ℚ := if v < lo then (if v > hi then hi else lo) else if v > hi then hi else v

/-- One row of `_clip`. -/
def clipRow (lo hi row : List ℚ) : List ℚ := mapBounds clip1 lo hi row

/-- `_clip` (`forecaster.py:139-149`).  The bounds are the last `len(forecast)` rows of the
    forecast-shaped space; if it has fewer rows, or rows of another width, numpy raises. -/
def clip (f : Forecaster) (fc : List (List ℚ)) : Except Err (List (List ℚ)) :=
  if f.fcRows < fc.length then .error .index
  else if fc.all (fun r => decide (r.length = f.minRow.length)) = false then .error .value
  else .ok (fc.map (clipRow f.minRow f.maxRow))

/-- Add noise entry by entry (`forecaster.py:262-263`). -/
def addNoise (noise : Nat → Nat → ℚ) (rows : List (List ℚ)) : List (List ℚ) :=
  rows.mapIdx (fun i row => row.mapIdx (fun j v => v + noise i j))

/-- Scalar forecasts over the window (`forecaster.py:366`): `n_i` enumerates from 0. -/
def mapScalar (f : List ℚ → List ℚ → Nat → Except Err (List ℚ)) (c : List ℚ) :
    Nat → List (List ℚ) → Except Err (List (List ℚ))
  | _, [] => .ok []
  | i, r :: rs =>
    match f c r i with
    | .error e => .error e
    | .ok v =>
      match mapScalar f c (i + 1) rs with
      | .error e => .error e
      | .ok vs => .ok (v :: vs)

/-- `_forecast` of the subclasses (`forecaster.py:210-217, 252-263, 278-280, 362-373`).
    The outer `none` is the `None` of `NoForecaster`. -/
def raw (f : Forecaster) (draw : Nat) (c : List ℚ) (win : List (List ℚ)) (n : Nat) :
    Except Err (Option (List (List ℚ))) :=
  match f.kind with
  | .none => .ok none
  | .oracle => .ok (some win)
  | .gaussian noise _ stdRows =>
    match stdRows with
    | none => .ok (some (addNoise (noise draw) win))
    | some r =>
      if r ≠ 1 ∧ r < win.length then .error .runtime
      else .ok (some (addNoise (noise draw) win))
  | .user g =>
    match g c win n with
    | .error e => .error e
    | .ok r => .ok (some r)
  | .userScalar g =>
    if n ≠ win.length then .error .value
    else
      match mapScalar g c 0 win with
      | .error e => .error e
      | .ok r => .ok (some r)

/-- `Forecaster.__call__` (`forecaster.py:172-187`).  The final shape assertion (line 186) is checked
    row by row. -/
def call (f : Forecaster) (draw : Nat) (c : List ℚ) (win : List (List ℚ)) (n : Nat) :
    Except Err (Option (List (List ℚ))) :=
  if win.length > f.fcRows then .error .runtime
  else
    match f.raw draw c win n with
    | .error e => .error e
    | .ok none => .ok none
    | .ok (some fc) =>
      match f.pad fc n with
      | .error e => .error e
      | .ok padded =>
        match f.clip padded with
        | .error e => .error e
        | .ok out =>
          if out.length = n ∧ out.all (fun r => decide (r.length = f.minRow.length)) = true
          then .ok (some out) else .error .assertion

/-- The `observation_space` setter (`forecaster.py:155-163`): with the space of a module whose
    horizon is `h`, the new forecast shape has `((1+h)*k - k)/k = h` rows. -/
def setObservationSpace (f : Forecaster) (minRow maxRow : List ℚ) (h : Nat) : Forecaster :=
  { f with minRow := minRow, maxRow := maxRow, obsRows := 1 + h, fcRows := h }

/-- `get_forecaster` (`forecaster.py:10-88`) for a module with the given bounds and horizon; the
    `_noise_std` array of a gaussian forecaster gets one row per forecast step (line 234-250). -/
def get (k : FKind) (minRow maxRow : List ℚ) (h : Nat) : Forecaster :=
  { kind := match k with
      | .gaussian noise inc _ => .gaussian noise inc (if inc then some h else none)
      | k => k
    minRow, maxRow, obsRows := 1 + h, fcRows := h }

/-- Whether the forecaster is `NoForecaster`. -/
def isNone (f : Forecaster) : Bool := match f.kind with | .none => true | _ => false

end Forecaster

/-- Whether the `forecaster` argument is not `None`. -/
def FKind.isSome : FKind → Bool
  | .none => false
  | _ => true

end Pymgrid
