import Verif.Model.Num

/-!
# `pymgrid/utils/logger.py`: `ModularLogger`
-/

namespace Pymgrid

/-- `ModularLogger` (`utils/logger.py:7-51`): columns in insertion order plus `_log_length`.
    An entry `none` is `np.nan`.  `value.item()` (line 21) only unwraps numpy scalars and is the
    identity here. -/
structure Logger where
  cols : List (Key × List (Option ℚ)) := []
  len : Nat := 0
  deriving DecidableEq, Repr

namespace Logger

/-- `ModularLogger.flush` (`utils/logger.py:12-16`); the returned copy is `l.cols`. -/
def flush (_ : Logger) : Logger := {}

/-- Body of the loop of `log` (`utils/logger.py:19-26`): append to an existing column, or create
    one padded with nan up to `_log_length`. -/
def logOne (n : Nat) (cols : List (Key × List (Option ℚ))) (k : Key) (v : ℚ) :
    List (Key × List (Option ℚ)) :=
  match dictGet? cols k with
  | some c => dictSet cols k (c ++ [some v])
  | none => dictSet cols k (List.replicate n none ++ [some v])

/-- `ModularLogger.log` (`utils/logger.py:18-28`). -/
def log (l : Logger) (row : List (Key × ℚ)) : Logger :=
  { cols := row.foldl (fun cols kv => logOne l.len cols kv.1 kv.2) l.cols
    len := l.len + 1 }

end Logger

end Pymgrid
