import Mathlib.Algebra.Order.Field.Rat
import Mathlib.Tactic.Linarith
import Mathlib.Tactic.Ring
import Mathlib.Tactic.FieldSimp
import Mathlib.Tactic.NormNum
import Mathlib.Tactic.Positivity

/-!
# Numbers, errors and dictionaries

Shared vocabulary of the model.  Nothing in this file is pymgrid code; it models the
Python/numpy primitives that pymgrid relies on.
-/

namespace Pymgrid

/-- Python exception classes raised by the modelled code. -/
inductive Err
  | assertion | value | type | key | index | runtime | attribute | zeroDiv | name | notImplemented
  deriving DecidableEq, Repr

/-- `np.isclose(a, b)` with numpy's default tolerances (`rtol=1e-5`, `atol=1e-8`),
    on finite numbers, in exact arithmetic. -/
def isclose (a b : ℚ) : Bool := decide (|a - b| ≤ 1/100000000 + 1/100000 * |b|)

/-- `np.isclose(a, b, atol=t)`. -/
def iscloseAtol (a b t : ℚ) : Bool := decide (|a - b| ≤ t + 1/100000 * |b|)

/-- Python's built-in `round(x)` (half to even). -/
def pyRound (x : ℚ) : Int :=
  let f := x.floor
  let d := x - f
  if d < 1/2 then f
  else if 1/2 < d then f + 1
  else if f % 2 = 0 then f else f + 1

/-- A rational or `+inf`; used for the unlimited capacity of the balancing module. -/
inductive ERat
  | fin (q : ℚ)
  | inf
  deriving DecidableEq, Repr

/-- `q > e` for a finite left-hand side. -/
def ERat.ltFin (e : ERat) (q : ℚ) : Bool :=
  match e with
  | .fin r => decide (r < q)
  | .inf => false

/-- Python dictionaries as insertion-ordered association lists: assignment `d[k] = v` keeps the
    position of an existing key. -/
def dictSet {α β} [DecidableEq α] : List (α × β) → α → β → List (α × β)
  | [], k, v => [(k, v)]
  | (k', v') :: d, k, v => if k' = k then (k, v) :: d else (k', v') :: dictSet d k v

/-- `d.update(e)`. -/
def dictUpdate {α β} [DecidableEq α] (d e : List (α × β)) : List (α × β) :=
  e.foldl (fun acc kv => dictSet acc kv.1 kv.2) d

/-- `d[k]` (none = `KeyError`). -/
def dictGet? {α β} [DecidableEq α] : List (α × β) → α → Option β
  | [], _ => none
  | (k', v') :: d, k => if k' = k then some v' else dictGet? d k

/-- Keys of module states and logs.  The library formats them as strings
    (`base_timeseries_module.py:90-97`: `f"{component}_current"`, `f"{component}_forecast_{j}"`);
    the formatting is injective on the component names in use, so constructors stand for it. -/
inductive Key
  | str (s : String)
  | cur (component : String)
  | fc (component : String) (j : Nat)
  deriving DecidableEq, Repr

end Pymgrid
