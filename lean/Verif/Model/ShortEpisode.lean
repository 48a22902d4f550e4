import Verif.Model.Legacy

/-!
# Episodes of the deprecated environments: `pymgrid/_deprecated/Environments/pymgrid_csca.py`
-/

namespace Pymgrid.Legacy

/-- What decides when an episode of `MicrogridEnv` ends and which data it is on (`pymgrid_csca.py:60-125`).
    Simplified: of the microgrid only the clock is kept; instead of the values that `update_variables` reads
    (`load`, `pv`, status, prices) there is the row of the series they were read from. -/
structure Episode where
  /-- the number of rows of the series, `min(load.shape[0], pv.shape[0])` -/
  full : Nat
  /-- `_data_length` -/
  len : Nat
  horizon : Nat
  /-- `_tracking_timestep` -/
  t : Nat := 0
  /-- the row that `load`, `pv`, … of the microgrid were read from -/
  row : Nat := 0
  done : Bool := false
  deriving DecidableEq, Repr

namespace Episode

/-- `NonModularMicrogrid.reset` (`non_modular_microgrid.py:831-844`) for the data set `'all'`; line 843 reads the values
    of the first row. -/
def clear (e : Episode) : Episode := { e with t := 0, len := e.full, row := 0, done := false }

/-- `_short_trajectory_set` (`pymgrid_csca.py:101-110`); `draw` is what `randint` gives, a number from `0` to
    `high_range - 1`; there is none if `high_range` is not positive and `randint` raises ValueError. -/
def shortSet (e : Episode) (trajectory : Option Nat) (draw : Nat) : Option Episode :=
  match trajectory with
  | none => some e
  | some n =>
    if (draw : Int) < (e.len : Int) - e.horizon - n then some { e with t := draw, len := draw + n + e.horizon } else none

/-- The horizon set by the constructor (`pymgrid_csca.py:92-95`); `max_episode_len` is at most the number of rows (a negative
    horizon is not modelled). -/
def horizonFor (full : Nat) : Option Nat → Nat
  | none => 0
  | some m => full - m

/-- `MicrogridEnv.__init__` (`pymgrid_csca.py:79-98`) on a microgrid just created.  The number of rows, 8760 in the code,
    is left open; the observation space (line 85, which needs a NumPy that still has `np.float`) is left out. -/
def init (full : Nat) (maxLen trajectory : Option Nat) (draw : Nat) : Option Episode :=
  shortSet { full, len := full, horizon := horizonFor full maxLen } trajectory draw

/-- `MicrogridEnv.reset` (`pymgrid_csca.py:112-121`). -/
def reset (e : Episode) (trajectory : Option Nat) (draw : Nat) : Option Episode := e.clear.shortSet trajectory draw

/-- The clock in `run` (`non_modular_microgrid.py:661-668`), which `step` calls (`pymgrid_csca.py:142-146`). -/
def run (e : Episode) : Episode :=
  if (e.t : Int) = (e.len : Int) - e.horizon ∨ (e.t : Int) = (e.len : Int) - 1 then { e with done := true }
  else { e with t := e.t + 1, row := e.t + 1 }

/-- The episode after some steps. -/
def runs (e : Episode) : Nat → Episode
  | 0 => e
  | k + 1 => (e.runs k).run

end Episode

end Pymgrid.Legacy
