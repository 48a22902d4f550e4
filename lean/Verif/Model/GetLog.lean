import Verif.Model.Microgrid

set_option autoImplicit false

/-!
# `Microgrid.get_log` (`microgrid/microgrid.py:434-475`)
-/

namespace Pymgrid

/-- The data frame that `get_log` returns: its index and its columns, labelled by module name, module number and field. -/
structure Frame where
  index : List Nat
  cols : List ((String × Nat × Key) × List (Option ℚ))
  deriving DecidableEq, Repr

/-- A key of the microgrid's own logger as a module name; its keys are plain strings. -/
def Key.label : Key → String
  | .str s => s
  | .cur c => c
  | .fc c _ => c

namespace Microgrid

/-- Columns of all modules (`microgrid.py:453-456`). -/
def moduleColumns (g : Microgrid) : List ((String × Nat × Key) × List (Option ℚ)) :=
  g.cont.fullDict.flatMap fun nl => nl.2.zipIdx.flatMap fun ij =>
    (g.heap ij.1).logger.cols.map fun kc => ((nl.1, ij.2, kc.1), kc.2)

/-- `_log_dict` (`microgrid.py:452-462`). -/
def logColumns (g : Microgrid) : List ((String × Nat × Key) × List (Option ℚ)) :=
  dictUpdate
    (dictUpdate (dictUpdate [] g.moduleColumns) (g.balanceLog.cols.map fun kc => (("balance", 0, kc.1), kc.2)))
    (g.otherLog.cols.map fun kc => ((kc.1.label, 0, .str ""), kc.2))

/-- `get_log()` (`microgrid.py:434-475`).  pandas raises `ValueError` if a column does not have the length of the index.
    (Old versions repeat columns of length one instead; no theorem relies on the error in that case.)  The options only
    change the shape of the result. -/
def getLog (g : Microgrid) : Except Err Frame :=
  match g.currentStep with
  | .error e => .error e
  | .ok c =>
    let index := List.range' g.initialStep (c - g.initialStep)
    if g.logColumns.all (fun kc => decide (kc.2.length = index.length)) then
      .ok { index := index, cols := g.logColumns }
    else .error .value

end Microgrid

end Pymgrid
