import Verif.Model.Microgrid

set_option autoImplicit false

/-!
# `pymgrid/microgrid/trajectory/`

The trajectory functions of the library.  A draw of `np.random.randint(lo, hi)` is an arbitrary natural
number reduced to the interval `[lo, hi)`, so quantifying over the number covers exactly the values the
generator can return.
-/

namespace Pymgrid

/-- `np.random.randint(lo, hi)` with the draw `u`; an empty interval raises `ValueError`. -/
def randint (u : Nat) (lo hi : Int) : Except Err Int :=
  if hi ≤ lo then .error .value else .ok (lo + (u : Int) % (hi - lo))

namespace Trajectory

/-- `DeterministicTrajectory.__call__` (`trajectory/deterministic.py:11-12`). -/
def deterministic (i f : Int) (_ _ : Int) : Except Err (Int × Int) := .ok (i, f)

/-- `StochasticTrajectory.__call__` (`trajectory/stochastic.py:9-14`) with the draws `u`, `v`. -/
def stochastic (u v : Nat) (a b : Int) : Except Err (Int × Int) :=
  match randint u a (b - 2) with
  | .error e => .error e
  | .ok i =>
    match randint v i b with
    | .error e => .error e
    | .ok f => .ok (i, f)

/-- `FixedLengthStochasticTrajectory.__call__` (`trajectory/stochastic.py:23-30`) with the draw `u`. -/
def fixedLength (length : Int) (u : Nat) (a b : Int) : Except Err (Int × Int) :=
  if b - a < length then .error .value
  else
    match randint u a (b - length) with
    | .error e => .error e
    | .ok i => .ok (i, i + length)

/-- A trajectory as `trajectory_func` of a microgrid, for a sequence of draws indexed by the call.  The
    steps are non-negative (`Microgrid.trajectory`); an unbounded final step (`np.inf`), which the
    constructor never produces, is rejected by `randint`. -/
def ofCall (t : Nat → Int → Int → Except Err (Int × Int)) : Nat → Nat → Option Nat → Except Err (Nat × Nat) :=
  fun k a b =>
    match b with
    | none => .error .value
    | some b =>
      match t k a b with
      | .error e => .error e
      | .ok (i, f) => .ok (i.toNat, f.toNat)

end Trajectory

end Pymgrid
