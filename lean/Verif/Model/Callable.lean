import Verif.Model.Setters
import Verif.Model.Trajectory

set_option autoImplicit false

/-!
# User-defined forecasters: `UserDefinedForecaster` and its validation (`forecaster.py:193-212, 283-373`)

A callable given as `forecaster` is tried on a sample of the series before it is used.  Here callables are functions from
what they are given to what they return, including results that do not fit.
-/

namespace Pymgrid

/-- The second argument of a callable: an array with one row per step, or one row of it. -/
inductive FArg
  | vec (rows : List (List ℚ))
  | row (r : List ℚ)
  deriving DecidableEq

/-- What a callable returns: a Python number, a list (or tuple) of numbers or of lists with the given entries in reading
    order, a numpy array with one or two dimensions, or an array of another type with the given number of entries. -/
inductive FRet
  | num (q : ℚ)
  | list (entries : List ℚ)
  | arr1 (l : List ℚ)
  | arr2 (rows : List (List ℚ))
  | text (size : Nat)
  deriving DecidableEq

/-- A callable: current row, true values, number of steps.  It may raise. -/
abbrev Callable := List ℚ → FArg → Nat → Except Err FRet

namespace FRet

/-- `not hasattr(out, 'size')` (`forecaster.py:308`): neither numbers nor lists have it. -/
def castNeeded : FRet → Bool
  | .num _ | .list _ => true
  | _ => false

/-- The numbers in the result, in reading order. -/
def entries : FRet → List ℚ
  | .num q => [q]
  | .list l | .arr1 l => l
  | .arr2 rows => rows.flatten
  | .text _ => []

end FRet

namespace Callable

/-- `reshape((n, k))` of `n * k` entries. -/
def reshape (n k : Nat) (l : List ℚ) : List (List ℚ) := (List.range n).map fun i => (l.drop (i * k)).take k

/-- `_validate_forecasted_value` (`forecaster.py:350-359`) for numbers: `not (out * true >= 0)` is an error; for rows with
    several components the truth value of an array is asked for, which is a `ValueError` as well. -/
def validateValue : List ℚ → List ℚ → Except Err Unit
  | [q], [x] => if q * x ≥ 0 then .ok () else .error .value
  | _, _ => .error .value

/-- The loop over the positions (`forecaster.py:319-323`). -/
def validateRows : List (List ℚ) → List (List ℚ) → Except Err Unit
  | o :: os, t :: ts =>
    match validateValue o t with
    | .error e => .error e
    | .ok () => validateRows os ts
  | _, _ => .ok ()

/-- `_validate_vectorized_forecaster` (`forecaster.py:299-325`); returns whether the output has to be cast.  The type of
    the entries is checked after the number of entries. -/
def validateVector (f : Callable) (c : List ℚ) (rows : List (List ℚ)) (n : Nat) : Except Err Bool :=
  match f c (.vec rows) n with
  | .error _ => .error .notImplemented
  | .ok (.text size) => if size = rows.length * c.length then .error .type else .error .value
  | .ok r =>
    if r.entries.length ≠ rows.length * c.length then .error .value
    else
      match validateRows (reshape rows.length c.length r.entries) rows with
      | .error e => .error e
      | .ok () => .ok r.castNeeded

/-- `_validate_scalar_forecaster` (`forecaster.py:328-347`): arrays need exactly one entry, lists have no `item`. -/
def validateScalar (f : Callable) (c row : List ℚ) (n : Nat) : Except Err Unit :=
  match f c (.row row) n with
  | .error _ => .error .value
  | .ok (.num q) => validateValue [q] row
  | .ok (.list _) => .error .value
  | .ok (.text size) => if size = 1 then .error .type else .error .value
  | .ok r =>
    match r.entries with
    | [q] => validateValue [q] row
    | _ => .error .value

/-- `_validate_callable_forecaster` (`forecaster.py:283-296`): whether the callable is vectorised and whether its output
    has to be cast.  `u` is the random number behind `np.random.randint(2, len(time_series))`. -/
def validate (f : Callable) (rows : List (List ℚ)) (u : Nat) : Except Err (Bool × Bool) :=
  match rows with
  | [] => .error .index
  | c :: _ =>
    match randint u 2 rows.length with
    | .error e => .error e
    | .ok n =>
      let sample := rows.take n.toNat
      match validateVector f c sample n.toNat with
      | .ok cast => .ok (true, cast)
      | .error .notImplemented =>
        match validateScalar f c (sample.getLastD []) n.toNat with
        | .error e => .error e
        | .ok () => .ok (false, false)
      | .error e => .error e

/-- The forecaster made of a validated callable (`forecaster.py:193-212, 362-373`).
    * Vectorised: `_cast_to_arr` calls `reshape` on the output if the sample was a list, and nothing otherwise; lists and
      numbers have neither `reshape` nor `shape`; arrays with one dimension have too few for the masks of `_clip`; arrays of
      another type cannot be compared with the bounds.
    * Scalar: the results for the rows are put into one array.  Simplified: callables whose results are numbers for some rows
      and arrays for others count as if all were arrays. -/
def kind (f : Callable) (vectorized cast : Bool) : FKind :=
  if vectorized then
    .user fun c win n =>
      match f c (.vec win) n with
      | .error e => .error e
      | .ok (.num _) => .error .attribute
      | .ok (.list _) => .error .attribute
      | .ok (.text _) => .error .type
      | .ok (.arr1 l) =>
        if cast then
          if l.length = win.length * c.length then .ok (reshape win.length c.length l) else .error .value
        else .error .index
      | .ok (.arr2 rows) =>
        if cast then
          if rows.flatten.length = win.length * c.length then .ok (reshape win.length c.length rows.flatten)
          else .error .value
        else .ok rows
  else
    .userScalar fun c r i =>
      match f c (.row r) i with
      | .error e => .error e
      | .ok (.text _) => .error .type
      | .ok ret => .ok ret.entries

/-- The part of the series the callable is tried on (`base_timeseries_module.py:45`): `time_series[initial_step:final_step]`,
    where a final step that is not positive stands for the length (`base_timeseries_module.py:322-325`). -/
def sample (rows : List (List ℚ)) (initialStep : Nat) (finalStep : Int) : List (List ℚ) :=
  (rows.take (if finalStep ≤ 0 then rows.length else finalStep.toNat)).drop initialStep

end Callable

namespace Module

/-- `LoadModule(series, forecaster=f, …)` with a callable (`base_timeseries_module.py:35-56`): sign check, bounds, validation
    of the callable, and the rest of the constructor. -/
def mkLoadWith (series : List ℚ) (f : Callable) (u : Nat) (horizon initialStep : Nat) (finalStep : Int)
    (raiseErrors : Bool) : Except Err Module :=
  match signCheck false series with
  | .error e => .error e
  | .ok xs =>
    match getBounds xs with
    | .error e => .error e
    | .ok _ =>
      match Callable.validate f (Callable.sample (xs.map fun x => [x]) initialStep finalStep) u with
      | .error e => .error e
      | .ok (v, cast) => mkLoad series (Callable.kind f v cast) horizon initialStep finalStep raiseErrors

/-- `RenewableModule(series, forecaster=f, …)` with a callable (`base_timeseries_module.py:35-56`). -/
def mkRenewableWith (series : List ℚ) (f : Callable) (u : Nat) (horizon initialStep : Nat) (finalStep : Int)
    (raiseErrors : Bool) : Except Err Module :=
  match signCheck true series with
  | .error e => .error e
  | .ok xs =>
    match getBounds xs with
    | .error e => .error e
    | .ok _ =>
      match Callable.validate f (Callable.sample (xs.map fun x => [x]) initialStep finalStep) u with
      | .error e => .error e
      | .ok (v, cast) => mkRenewable series (Callable.kind f v cast) horizon initialStep finalStep raiseErrors

/-- `GridModule(…, forecaster=f)` with a callable (`grid_module.py:73-101`, `base_timeseries_module.py:35-56`). -/
def mkGridWith (maxImport maxExport : ℚ) (ncols : Nat) (rows : List (List ℚ)) (f : Callable) (u : Nat)
    (horizon initialStep : Nat) (finalStep : Int) (costPerCo2 : ℚ) (raiseErrors : Bool) : Except Err Module :=
  match gridCheckParams maxImport maxExport ncols rows with
  | .error e => .error e
  | .ok rows' =>
    match Callable.validate f (Callable.sample rows' initialStep finalStep) u with
    | .error e => .error e
    | .ok (v, cast) =>
      mkGrid maxImport maxExport ncols rows (Callable.kind f v cast) horizon initialStep finalStep costPerCo2 raiseErrors

/-- `set_forecaster(f, horizon)` with a callable (`base_timeseries_module.py:193-245`): the horizon is assigned before the
    callable is tried on the series. -/
def setForecasterWith (m : Module) (f : Callable) (u : Nat) (h : Nat) : Module × Except Err Unit :=
  match m.kind with
  | .grid _ t | .load t | .renewable t =>
    match Callable.validate f (Callable.sample t.rows m.initialStep t.finalStep) u with
    | .error e => (m.setHorizon h, .error e)
    | .ok (v, cast) => (m.setForecaster (Callable.kind f v cast) h, .ok ())
  | _ => (m, .error .attribute)

end Module

end Pymgrid
