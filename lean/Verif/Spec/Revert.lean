import Verif.Model.Revert
import Verif.Spec.Convert

set_option autoImplicit false

/-! What the user of a microgrid that was converted to the legacy class sees. -/

namespace Pymgrid

/-- A microgrid has a module of the given kind. -/
def Microgrid.Has (m : Microgrid) (k : Kind) : Prop :=
  ∃ ni ∈ Container.toTuples m.cont.fullDict, (m.heap ni.2).kind = k

namespace Legacy

/-- Two legacy microgrids agree in everything but the demand: architecture, PV, grid series, forecast horizon, state of
    charge, limits and costs.  Rated power and relative limits of the genset may differ as long as the absolute limits
    agree; parameters of components that do not exist do not matter. -/
structure Agree (g g' : Grid) : Prop where
  arch : g'.arch = g.arch
  pv : g'.pvs = g.pvs
  horizon : g'.horizon = g.horizon
  lossLoad : g'.params.costLossLoad = g.params.costLossLoad
  overgen : g'.params.costOvergen = g.params.costOvergen
  battery : g.arch.battery = true → g'.batterySoc = g.batterySoc ∧ g'.soc = g.batterySoc ∧
    g'.params.capacity = g.params.capacity ∧ g'.params.socMin = g.params.socMin ∧ g'.params.eff = g.params.eff ∧
    g'.params.pCharge = g.params.pCharge ∧ g'.params.pDischarge = g.params.pDischarge ∧
    g'.params.costCycle = g.params.costCycle
  genset : g.arch.genset = true → g'.params.rated * g'.params.pmin = g.params.rated * g.params.pmin ∧
    g'.params.rated * g'.params.pmax = g.params.rated * g.params.pmax ∧ g'.params.fuelCost = g.params.fuelCost ∧
    g'.params.gensetCo2 = g.params.gensetCo2 ∧ g'.params.costCo2 = g.params.costCo2
  grid : g.arch.grid = true → g'.statuses = g.statuses ∧ g'.importPrices = g.importPrices ∧
    g'.exportPrices = g.exportPrices ∧ g'.co2s = g.co2s ∧ g'.params.pImport = g.params.pImport ∧
    g'.params.pExport = g.params.pExport ∧ g'.params.costCo2 = g.params.costCo2

/-- What a legacy microgrid made of a modular one has for each module. -/
structure Reverted (m : Microgrid) (g : Grid) : Prop where
  start : g.t = 0 ∧ g.done = false
  pv : ∃ t, m.Has (.renewable t) ∧ ∀ t', m.Has (.renewable t') → g.pvs = t'.rows.flatten
  battery : ∀ b, m.Has (.battery b) → g.arch.battery = true ∧ g.params.capacity = b.maxCapacity ∧
    g.params.socMin = b.minSoc ∧ g.params.socMax = 1 ∧ g.params.eff = b.efficiency ∧ g.params.pCharge = b.maxCharge ∧
    g.params.pDischarge = b.maxDischarge ∧ g.params.costCycle = b.costCycle ∧ g.batterySoc = b.soc ∧ g.soc = b.soc
  hasBattery : g.arch.battery = true → ∃ b, m.Has (.battery b)
  genset : ∀ n, m.Has (.genset n) → g.arch.genset = true ∧ g.params.rated * g.params.pmin = n.runMin ∧
    g.params.rated * g.params.pmax = n.runMax ∧ .const g.params.fuelCost = n.cost ∧ g.params.gensetCo2 = n.co2PerUnit
  hasGenset : g.arch.genset = true → ∃ n, m.Has (.genset n)
  grid : ∀ p t, m.Has (.grid p t) → g.arch.grid = true ∧ g.params.pImport = p.maxImport ∧ g.params.pExport = p.maxExport ∧
    ∀ i row, g.GridData i row → t.rows[i]? = some [row.priceImport, row.priceExport, row.co2, row.status]
  hasGrid : g.arch.grid = true → ∃ p t, m.Has (.grid p t)
  balancing : ∀ u, m.Has (.balancing u) → g.params.costLossLoad = u.lossLoadCost ∧ g.params.costOvergen = u.overgenerationCost
  co2 : ∀ p t, m.Has (.grid p t) → (∀ n, ¬ m.Has (.genset n)) → g.params.costCo2 = p.costPerCo2
  co2' : ∀ n, m.Has (.genset n) → (∀ p t, ¬ m.Has (.grid p t)) → g.params.costCo2 = n.costPerCo2
  co2'' : ∀ n p t, m.Has (.genset n) → m.Has (.grid p t) → g.params.costCo2 = (n.costPerCo2 + p.costPerCo2) / 2

end Legacy

end Pymgrid
