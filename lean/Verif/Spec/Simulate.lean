import Verif.Spec.Convert
import Verif.Spec.PlanCarried

set_option autoImplicit false

/-! What it means that a converted microgrid does what the legacy microgrid did. -/

namespace Pymgrid.Legacy

/-- A legacy microgrid at the start of its data whose conversion can be compared to it: sensible parameters, no negative
    penalties, loads and PV production, and a state of charge in its window that the battery object knows. -/
structure Grid.Comparable (g : Grid) : Prop where
  aligned : g.Aligned
  start : g.t = 0
  params : g.params.Good
  socMax : g.params.socMax ≤ 1
  soc : g.arch.battery = true → g.batterySoc = g.soc ∧ g.params.socMin ≤ g.soc ∧ g.soc ≤ g.params.socMax
  loss : 0 ≤ g.params.costLossLoad
  over : 0 ≤ g.params.costOvergen
  loads : ∀ x ∈ g.loads, 0 ≤ x
  pvs : ∀ x ∈ g.pvs, 0 ≤ x

/-- The control that asks the modules of a converted microgrid for the production of a record. -/
def Entry.control (e : Entry) (a : Arch) : List (String × Ctrl) :=
  (if a.battery then [("battery", .scalar (e.discharge - e.charge))] else []) ++
  (if a.genset then [("genset", .seq [.arr [if e.genset = 0 then 0 else 1, e.genset]])] else []) ++
  (if a.grid then [("grid", .scalar (e.imp - e.exp))] else [])

/-- Production that modules can repeat: the battery and the grid are used in one direction, the battery loses energy on the
    way out, so that less than its rate of discharge arrives, the grid is used only when it is up, and the genset is off or
    produces at least its minimum. -/
structure Entry.Repeatable (e : Entry) (g : Grid) : Prop where
  battery : (e.charge = 0 ∨ e.discharge = 0) ∧ e.discharge ≤ g.params.pDischarge * g.params.eff
  grid : (e.imp = 0 ∨ e.exp = 0) ∧ (g.cur.status = 1 ∨ e.imp = 0 ∧ e.exp = 0)
  genset : e.genset = 0 ∨ g.params.rated * g.params.pmin ≤ e.genset

/-- All runs of the legacy microgrid succeed within the data, and their production can be repeated.  Without a grid the
    battery request is recorded as the state of charge whether or not it was possible, so that it has to be possible. -/
def Proceeds (g : Grid) : List Control → Prop
  | [] => True
  | c :: cs => g.done = false ∧ ∃ (g' : Grid) (row : StateRow) (e : Entry), g.run c = (g', .ok row) ∧
      e.Recorded g.arch g.production g'.production ∧ e.Repeatable g ∧
      (g.arch.battery = true → g.arch.grid = false → c.charge = some e.charge ∧ c.discharge = some e.discharge) ∧
      Proceeds g' cs

/-- The cost of battery wear that the module charges in addition: it counts what enters and leaves the cells, the legacy
    microgrid what passes the terminals. -/
def Entry.extraWear (e : Entry) (p : Params) : ℚ :=
  p.costCycle * ((1 / p.eff - 1) * e.discharge - (1 - p.eff) * e.charge)

/-- A run of the modules did what a legacy run recorded: the flows of all components, the new state of charge and the costs
    are the same.  The legacy microgrid neglects imbalances below 1/1000 while the modules never do; if it recorded a loss,
    curtailment or excess then nothing was neglected. -/
structure Entry.RepeatedBy (e : Entry) (g g' : Grid) (o : RunOut) (m' : Microgrid) : Prop where
  load : MPC.delivered o "load" = -g.load
  battery : MPC.delivered o "battery" = e.discharge - e.charge
  grid : MPC.delivered o "grid" = e.imp - e.exp
  genset : MPC.delivered o "genset" = e.genset
  pv : |MPC.delivered o "PV" - e.consumed| < 1/1000
  balancing : |MPC.delivered o "unbalanced_energy" - (e.lossLoad - e.overgen)| < 1/1000
  soc : g.arch.battery = true → ∃ x, m'.modulesOf "battery" = [x] ∧ x.soc? = some g'.soc
  cost : ∃ cost, g'.costs = g.costs ++ [cost] ∧
    |-o.reward - (cost.total + e.extraWear g.params)| ≤ max g.params.costLossLoad g.params.costOvergen * (1/1000)
  exact : 0 < e.lossLoad ∨ 0 < e.curtailed ∨ 0 < e.overgen →
    MPC.delivered o "PV" = e.consumed ∧ MPC.delivered o "unbalanced_energy" = e.lossLoad - e.overgen ∧
      ∃ cost, g'.costs = g.costs ++ [cost] ∧ -o.reward = cost.total + e.extraWear g.params

/-- Consecutive runs of a legacy microgrid on controls, and of a modular one on what the former recorded, with the records
    and the results; each step of the latter does what the one of the former did. -/
inductive Repeats : Grid → Microgrid → List Control → List Entry → List RunOut → Grid → Microgrid → Prop
  | nil (g : Grid) (m : Microgrid) : Repeats g m [] [] [] g m
  | cons {g g' g'' : Grid} {m m' m'' : Microgrid} {c : Control} {cs : List Control} {e : Entry} {es : List Entry}
      {o : RunOut} {os : List RunOut} {row : StateRow} (run : g.run c = (g', .ok row))
      (recorded : e.Recorded g.arch g.production g'.production) (again : m.run (e.control g.arch) false = (m', .ok o))
      (same : e.RepeatedBy g g' o m') (rest : Repeats g' m' cs es os g'' m'') :
      Repeats g m (c :: cs) (e :: es) (o :: os) g'' m''

end Pymgrid.Legacy
