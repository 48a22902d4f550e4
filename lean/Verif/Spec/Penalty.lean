import Verif.Model.Penalty
import Verif.Spec.Legacy

set_option autoImplicit false

/-! What the penalty of a legacy microgrid is meant to measure. -/

namespace Pymgrid.Legacy

/-- The calls of a user who hands in control dicts. -/
inductive KOp
  | run (d : Dict)
  | reset

/-- The microgrid after a call, whether or not it raised. -/
def KOp.apply (b : Kept) : KOp → Kept
  | .run d => (b.run d).1
  | .reset => b.reset

/-- The microgrid after a history of calls. -/
def Kept.after (b : Kept) (ops : List KOp) : Kept := ops.foldl KOp.apply b

/-- What happened, by the name of the column. -/
def Entry.named (e : Entry) : List (String × ℚ) :=
  [("battery_charge", e.charge), ("battery_discharge", e.discharge), ("grid_import", e.imp), ("grid_export", e.exp),
   ("genset", e.genset), ("pv_consummed", e.consumed), ("pv_curtailed", e.curtailed), ("loss_load", e.lossLoad),
   ("overgeneration", e.overgen)]

/-- What happened in a column. -/
def Entry.at (e : Entry) (k : String) : ℚ := (e.named.lookup k).getD 0

/-- The total deviation of what happened from what was asked for, over some columns. -/
def deviation (d : Dict) (e : Entry) (columns : List String) : ℚ := (columns.map fun k => |(d.lookup k).getD 0 - e.at k|).sum

/-- The columns of production of a microgrid. -/
def productionColumns (a : Arch) : List String :=
  ["loss_load", "overgeneration", "pv_consummed", "pv_curtailed"] ++ (if a.battery then ["battery_charge", "battery_discharge"] else []) ++
    (if a.grid then ["grid_import", "grid_export"] else []) ++ (if a.genset then ["genset"] else [])

end Pymgrid.Legacy
