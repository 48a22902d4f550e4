import Verif.Model.Convert
import Verif.Spec.Legacy
import Verif.Spec.Microgrid

set_option autoImplicit false

/-! What the user of a converted microgrid sees. -/

namespace Pymgrid

/-- The modules that a microgrid has under a name. -/
def Microgrid.modulesOf (m : Microgrid) (name : String) : List Module :=
  ((Container.toTuples m.cont.fullDict).filter fun ni => decide (ni.1 = name)).map fun ni => m.heap ni.2

namespace Legacy

/-- All numbers are of the same sign. -/
def OneSign (l : List ℚ) : Prop := (∀ x ∈ l, x ≤ 0) ∨ (∀ x ∈ l, 0 ≤ x)

/-- The data of a legacy microgrid that modules can be made of. -/
structure Grid.Convertible (g : Grid) : Prop where
  data : g.loads ≠ []
  load : OneSign g.loads
  pv : OneSign g.pvs
  pv_length : g.pvs.length = g.loads.length
  battery : g.arch.battery = true → 0 < g.params.eff ∧ g.params.eff ≤ 1 ∧ g.params.capacity ≠ 0
  genset : g.arch.genset = true → g.params.pmin * g.params.rated ≤ g.params.pmax * g.params.rated
  powers : g.arch.grid = true → 0 ≤ g.params.pImport ∧ 0 ≤ g.params.pExport
  grid_length : g.arch.grid = true → g.statuses.length = g.loads.length
  prices : g.arch.grid = true → (∀ x ∈ g.importPrices, 0 ≤ x) ∧ (∀ x ∈ g.exportPrices, 0 ≤ x) ∧ (∀ x ∈ g.co2s, 0 ≤ x)
  status : g.arch.grid = true → ∀ x ∈ g.statuses, x = 0 ∨ x = 1

/-- The four grid series are equally long. -/
def Grid.Aligned (g : Grid) : Prop :=
  g.arch.grid = true → g.importPrices.length = g.statuses.length ∧ g.exportPrices.length = g.statuses.length ∧
    g.co2s.length = g.statuses.length

/-- A series module without history: it is at step 0, its episode is the whole series, and it forecasts
    `horizon - 1` steps with the true values. -/
structure NewSeries (g : Grid) (r : Bool) (x : Module) (t : TS) : Prop where
  start : x.initialStep = 0 ∧ x.currentStep = 0
  finish : t.finalStep = t.rows.length
  horizon : t.horizon = g.horizon - 1
  oracle : t.param = .oracle
  raises : x.raiseErrors = r
  log : x.logger = {}

/-- The converted microgrid has one module for the load, one for unbalanced energy and one for each component of the
    architecture, no others, and they have the parameters and series of the legacy microgrid. -/
structure Converted (g : Grid) (r : Bool) (m : Microgrid) : Prop where
  others : ∀ name ∉ ["load", "unbalanced_energy", "PV", "battery", "genset", "grid"], m.modulesOf name = []
  load : ∃ x t, m.modulesOf "load" = [x] ∧ x.kind = .load t ∧ t.rows = (g.loads.map fun l => [-|l|]) ∧ NewSeries g r x t
  balancing : ∃ x u, m.modulesOf "unbalanced_energy" = [x] ∧ x.kind = .balancing u ∧
    u.lossLoadCost = g.params.costLossLoad ∧ u.overgenerationCost = g.params.costOvergen ∧ x.raiseErrors = r
  pv : ∃ x t, m.modulesOf "PV" = [x] ∧ x.kind = .renewable t ∧ t.rows = (g.pvs.map fun l => [|l|]) ∧ NewSeries g r x t
  battery : g.arch.battery = true → ∃ x b, m.modulesOf "battery" = [x] ∧ x.kind = .battery b ∧ x.raiseErrors = r ∧
    b.maxCapacity = g.params.capacity ∧ b.minCapacity = g.params.socMin * g.params.capacity ∧
    b.maxCharge = g.params.pCharge ∧ b.maxDischarge = g.params.pDischarge ∧ b.efficiency = g.params.eff ∧
    b.costCycle = g.params.costCycle ∧ b.transition = none ∧
    b.soc = g.batterySoc ∧ b.charge = g.batterySoc * g.params.capacity
  noBattery : g.arch.battery = false → m.modulesOf "battery" = []
  genset : g.arch.genset = true → ∃ x n, m.modulesOf "genset" = [x] ∧ x.kind = .genset n ∧ x.raiseErrors = r ∧
    n.runMin = g.params.rated * g.params.pmin ∧ n.runMax = g.params.rated * g.params.pmax ∧
    n.cost = .const g.params.fuelCost ∧ n.co2PerUnit = g.params.gensetCo2 ∧ n.costPerCo2 = g.params.costCo2 ∧
    n.startUpTime = 0 ∧ n.windDownTime = 0 ∧ n.status = 1
  noGenset : g.arch.genset = false → m.modulesOf "genset" = []
  grid : g.arch.grid = true → ∃ x p t, m.modulesOf "grid" = [x] ∧ x.kind = .grid p t ∧ NewSeries g r x t ∧
    p.maxImport = g.params.pImport ∧ p.maxExport = g.params.pExport ∧ p.costPerCo2 = g.params.costCo2 ∧
    t.rows.length = g.statuses.length ∧
    ∀ i row, g.GridData i row → t.rows[i]? = some [row.priceImport, row.priceExport, row.co2, row.status]
  noGrid : g.arch.grid = false → m.modulesOf "grid" = []

end Legacy

end Pymgrid
