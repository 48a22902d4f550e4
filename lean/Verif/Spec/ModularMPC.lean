import Verif.Model.ModularMPC
import Verif.Spec.MPC
import Verif.Spec.Microgrid

set_option autoImplicit false

/-! What model predictive control of a modular microgrid has to do, in terms of its modules. -/

namespace Pymgrid

/-- The values of a component that a series module knows: that of the current step, then those of its forecast. -/
def Module.outlook (m : Module) (t : TS) (k : Nat) : List ℚ :=
  (t.rows.getD m.currentStep [] :: t.cur.getD []).map fun row => row.getD k 0

namespace MPC

/-- The mean of the prices of emissions of the modules that have one. -/
def meanCo2 (h : Heap) (mods : List (String × Nat)) : ℚ :=
  let prices := mods.filterMap fun nm =>
    match (h nm.2).kind with
    | .grid p _ => some p.costPerCo2
    | .genset n => some n.costPerCo2
    | _ => none
  prices.sum / prices.length

/-- The problem `P` is the planning problem of the microgrid in its current state: demand and renewable production are those
    of the current step and the forecast, prices those of the grid, and all limits and costs those of the modules.  The grid
    counts as connected throughout, and the price of emissions of the grid is the mean of all prices of emissions. -/
structure Poses (h : Heap) (mods : List (String × Nat)) (P : Problem) : Prop where
  load : ∀ nm ∈ mods, ∀ t, (h nm.2).kind = .load t →
    P.horizon = t.horizon + 1 ∧ P.inputs.load = ((h nm.2).outlook t 0).map fun q => -q
  pv : ∀ nm ∈ mods, ∀ t, (h nm.2).kind = .renewable t → P.inputs.pv = (h nm.2).outlook t 0
  battery : ∀ nm ∈ mods, ∀ b, (h nm.2).kind = .battery b →
    P.static.eta = b.efficiency ∧ P.static.capacity = b.maxCapacity ∧ P.static.cycle = b.costCycle ∧ P.inputs.soc = b.soc ∧
      P.inputs.eMin = b.minSoc ∧ P.inputs.eMax = 1 ∧ P.inputs.pCharge = b.maxCharge ∧ P.inputs.pDischarge = b.maxDischarge
  genset : ∀ nm ∈ mods, ∀ n, (h nm.2).kind = .genset n →
    P.genset = true ∧ n.cost = .const P.static.fuel ∧ P.static.gensetMin = n.runMin ∧ P.static.gensetMax = n.runMax ∧
      P.static.costCo2 = n.costPerCo2 ∧ P.static.gensetCo2 = n.co2PerUnit
  noGenset : (∀ nm ∈ mods, ∀ n, (h nm.2).kind ≠ .genset n) → P.genset = false
  grid : ∀ nm ∈ mods, ∀ p t, (h nm.2).kind = .grid p t →
    P.inputs.grid = List.replicate P.horizon 1 ∧ P.inputs.pImport = p.maxImport ∧ P.inputs.pExport = p.maxExport ∧
      P.inputs.importPrice = (h nm.2).outlook t 0 ∧ P.inputs.exportPrice = (h nm.2).outlook t 1 ∧
      P.inputs.gridCo2 = (h nm.2).outlook t 2
  noGrid : (∀ nm ∈ mods, ∀ p t, (h nm.2).kind ≠ .grid p t) →
    P.inputs.grid = List.replicate P.horizon 0 ∧ P.inputs.pImport = 0 ∧ P.inputs.pExport = 0
  co2 : P.inputs.costCo2 = meanCo2 h mods
  balancing : ∀ nm ∈ mods, ∀ u, (h nm.2).kind = .balancing u → P.static.lossLoad = u.lossLoadCost

/-- The control asks the modules for the first step of the plan. -/
structure Carries (h : Heap) (mods : List (String × Nat)) (P : Problem) (x : Point) (c : List (String × Ctrl)) : Prop where
  battery : ∀ nm ∈ mods, ∀ b, (h nm.2).kind = .battery b →
    dictGet? c nm.1 = some (.scalar ((x.flow P.genset 0).discharge - (x.flow P.genset 0).charge))
  grid : ∀ nm ∈ mods, ∀ p t, (h nm.2).kind = .grid p t →
    dictGet? c nm.1 = some (.scalar ((x.flow P.genset 0).imp - (x.flow P.genset 0).exp))
  genset : ∀ nm ∈ mods, ∀ n, (h nm.2).kind = .genset n →
    dictGet? c nm.1 = some (.seq [.arr [x.u 0, (x.flow P.genset 0).genset]])

/-- Consecutive runs, each on the first step of a plan for the problem of that step. -/
inductive PlanRuns (solve : Solver) (mods : List (String × Nat)) : Microgrid → List RunOut → Microgrid → Prop
  | nil (g : Microgrid) : PlanRuns solve mods g [] g
  | cons {g g₁ g' : Microgrid} {P : Problem} {x : Point} {c : List (String × Ctrl)} {o : RunOut} {os : List RunOut}
      (poses : Poses g.heap mods P) (solved : solve P = some x) (carries : Carries g.heap mods P x c)
      (run : g.run c false = (g₁, .ok o)) (rest : PlanRuns solve mods g₁ os g') : PlanRuns solve mods g (o :: os) g'

/-- The microgrid has a battery named `battery` and a balancing module. -/
structure Suited (h : Heap) (mods : List (String × Nat)) : Prop where
  battery : ∃ nm ∈ mods, nm.1 = "battery" ∧ ∃ b, (h nm.2).kind = .battery b
  balancing : ∃ nm ∈ mods, ∃ u, (h nm.2).kind = .balancing u

/-- Prices of emissions are known: there is a grid or a genset. -/
def HasSource (h : Heap) (mods : List (String × Nat)) : Prop :=
  ∃ nm ∈ mods, (∃ p t, (h nm.2).kind = .grid p t) ∨ ∃ n, (h nm.2).kind = .genset n

end MPC

end Pymgrid
