import Verif.Model.Convert
import Verif.Model.Generator

set_option autoImplicit false

/-!
# Conversion to legacy microgrids

`convert/convert.py` and `convert/to_nonmodular_ops.py`.  The random coefficients of the fuel polynomial and the parameters
`load`, `PV_rated_power` and `grid_weak` are not read by the modelled code and left out.
-/

namespace Pymgrid

namespace Module

/-- The series and the step of a `LoadModule`. -/
def loadPart (m : Module) : Option (TS × Nat) :=
  match m.kind with
  | .load t => some (t, m.currentStep)
  | _ => none

/-- The series and the step of a `RenewableModule`. -/
def pvPart (m : Module) : Option (TS × Nat) :=
  match m.kind with
  | .renewable t => some (t, m.currentStep)
  | _ => none

/-- The fields of a `BatteryModule`. -/
def batteryPart (m : Module) : Option Battery :=
  match m.kind with
  | .battery b => some b
  | _ => none

/-- The fields of a `GensetModule`. -/
def gensetPart (m : Module) : Option Genset :=
  match m.kind with
  | .genset n => some n
  | _ => none

/-- The fields of a `GridModule`. -/
def gridPart (m : Module) : Option (GridParams × TS) :=
  match m.kind with
  | .grid p t => some (p, t)
  | _ => none

/-- The fields of an `UnbalancedEnergyModule`. -/
def balancingPart (m : Module) : Option Unbalanced :=
  match m.kind with
  | .balancing u => some u
  | _ => none

/-- `forecast_horizon`, which series modules have (`base_timeseries_module.py:247-257`). -/
def horizon? (m : Module) : Option Nat :=
  match m.kind with
  | .grid _ t | .load t | .renewable t => some t.horizon
  | _ => none

end Module

/-- A legacy microgrid made from a modular one.  `costs` tells whether it has the parameters `cost_loss_load`,
    `cost_overgeneration` and `cost_co2` and the column `co2` of costs. -/
structure Nonmodular where
  grid : Legacy.Grid
  costs : Bool
  deriving DecidableEq, Repr

namespace Microgrid

/-- The modules of a class, in the order of `iterdict`. -/
def parts {α : Type} (m : Microgrid) (f : Module → Option α) : List α :=
  (Container.toTuples m.cont.fullDict).filterMap fun ni => f (m.heap ni.2)

/-- `check_viability` (`to_nonmodular_ops.py:28-55`).  All classes of the library are admissible. -/
def checkViability (m : Microgrid) : Except Err Unit :=
  if m.cont.fullDict.any (fun nl => decide (1 < nl.2.length)) then .error .value
  else if 1 < (m.parts Module.loadPart).length ∨ 1 < (m.parts Module.pvPart).length ∨
      1 < (m.parts Module.batteryPart).length ∨ 1 < (m.parts Module.gridPart).length ∨
      1 < (m.parts Module.gensetPart).length ∨ 1 < (m.parts Module.balancingPart).length then .error .value
  else if (m.parts Module.loadPart).length ≠ 1 then .error .value
  else .ok ()

/-- `get_forecast_horizon` (`microgrid.py:553-581`).  There is always a load module here, so the default horizon is not
    used. -/
def forecastHorizon (m : Microgrid) : Except Err Nat := uniqueVal (m.parts Module.horizon?)

end Microgrid

namespace Legacy

/-- The first entry of the current row. -/
def currentOf (x : TS × Nat) : Except Err ℚ :=
  match x.1.rows[x.2]? with
  | some (q :: _) => .ok q
  | _ => .error .index

/-- The rated power (`to_nonmodular_ops.py:151-157`). -/
def ratedOf (n : Genset) : ℚ := n.runMax / (9/10)

/-- `_add_cost_co2` for grid and genset (`to_nonmodular_ops.py:217-226`): the mean if they differ. -/
def costCo2Of (grid : Option (GridParams × TS)) (genset : Option Genset) : Option ℚ :=
  match grid, genset with
  | some p, some n => some (if p.1.costPerCo2 = n.costPerCo2 then p.1.costPerCo2 else (p.1.costPerCo2 + n.costPerCo2) / 2)
  | some p, none => some p.1.costPerCo2
  | none, some n => some n.costPerCo2
  | none, none => none

/-- A constant fuel price.  A callable one would be stored as a parameter and fail when costs are recorded. -/
def fuelOf (genset : Option Genset) : Except Err ℚ :=
  match genset with
  | none => .ok 0
  | some n =>
    match n.cost with
    | .const c => .ok c
    | .fn _ => .error .notImplemented

/-- The parameters (`to_nonmodular_ops.py:99-178`).  Missing ones are 0 here: those of absent components are never read;
    for the costs see `Nonmodular.costs`. -/
def paramsOf (battery : Option Battery) (genset : Option Genset) (fuel : ℚ) (grid : Option (GridParams × TS))
    (balancing : Option Unbalanced) : Params :=
  { socMin := (battery.map fun b => b.minSoc).getD 0
    socMax := 1
    capacity := (battery.map fun b => b.maxCapacity).getD 0
    eff := (battery.map fun b => b.efficiency).getD 0
    pCharge := (battery.map fun b => b.maxCharge).getD 0
    pDischarge := (battery.map fun b => b.maxDischarge).getD 0
    costCycle := (battery.map fun b => b.costCycle).getD 0
    rated := (genset.map ratedOf).getD 0
    pmin := (genset.map fun n => n.runMin / ratedOf n).getD 0
    pmax := 9/10
    fuelCost := fuel
    gensetCo2 := (genset.map fun n => n.co2PerUnit).getD 0
    pImport := (grid.map fun p => p.1.maxImport).getD 0
    pExport := (grid.map fun p => p.1.maxExport).getD 0
    costLossLoad := (balancing.map fun u => u.lossLoadCost).getD 0
    costOvergen := (balancing.map fun u => u.overgenerationCost).getD 0
    costCo2 := (costCo2Of grid genset).getD 0 }

/-- Column `k` of the series of a grid (`to_nonmodular_ops.py:124-129`). -/
def columnOf (grid : Option (GridParams × TS)) (k : Nat) : List ℚ :=
  match grid with
  | none => []
  | some p => p.2.rows.map fun row => row.getD k 0

/-- `df_status` (`to_nonmodular_ops.py:79-141`). -/
def statusOf (load pv : ℚ) (battery : Option Battery) (grid : Option (GridParams × TS)) : StateRow :=
  { load := some (Generator.around load), pv := some pv, hour := 0
    soc := (battery.map fun b => b.soc).getD 0
    capaToCharge := (battery.map fun b => Generator.around ((1 - b.soc) * b.maxCapacity / b.efficiency)).getD 0
    capaToDischarge := (battery.map fun b => Generator.around ((b.soc - b.minSoc) * b.maxCapacity / b.efficiency)).getD 0
    grid := grid.map fun _ => ⟨(columnOf grid 3).headD 0, (columnOf grid 0).headD 0, (columnOf grid 1).headD 0,
      (columnOf grid 2).headD 0⟩ }

end Legacy

open Legacy in
/-- `to_nonmodular` (`convert.py:17-43`, `to_nonmodular_ops.py:28-226`).  The modules are visited by class instead of in the
    order of `iterdict`; this only matters for which of several errors is raised.  A transition model of the battery is
    ignored, as in the code.  Without a PV module there is no PV series (`AttributeError`). -/
def Microgrid.toNonmodular (m : Microgrid) : Except Err Nonmodular :=
  match m.checkViability with
  | .error e => .error e
  | .ok () =>
    let battery := (m.parts Module.batteryPart).head?
    let genset := (m.parts Module.gensetPart).head?
    let grid := (m.parts Module.gridPart).head?
    let balancing := (m.parts Module.balancingPart).head?
    match (m.parts Module.loadPart).head? with
    | none => .error .value
    | some load =>
      match currentOf load, fuelOf genset, m.forecastHorizon with
      | .ok l, .ok fuel, .ok horizon =>
        if genset.any (fun n => decide (ratedOf n = 0)) then .error .runtime
        else
          match (m.parts Module.pvPart).head? with
          | none => .error .attribute
          | some pv =>
            match currentOf pv with
            | .error e => .error e
            | .ok p =>
              match Legacy.create ⟨battery.isSome, genset.isSome, grid.isSome⟩ (paramsOf battery genset fuel grid balancing)
                  load.1.rows.flatten pv.1.rows.flatten (columnOf grid 3) (columnOf grid 0) (columnOf grid 1)
                  (columnOf grid 2) (horizon + 1) ((battery.map fun b => b.soc).getD 0)
                  (statusOf (-1 * l) p battery grid) with
              | .error e => .error e
              | .ok g => .ok { grid := g, costs := balancing.isSome && (costCo2Of grid genset).isSome }
      | .error e, _, _ => .error e
      | _, .error e, _ => .error e
      | _, _, .error e => .error e

/-- `run` of such a microgrid (`non_modular_microgrid.py:607-668`).  Without the cost parameters `_record_cost`
    (`non_modular_microgrid.py:1098-1134`) raises `KeyError` after production and emissions are recorded; the cost columns
    filled before are not tracked. -/
def Nonmodular.run (x : Nonmodular) (c : Legacy.Control) : Nonmodular × Except Err Legacy.StateRow :=
  if x.costs then ({ x with grid := (x.grid.run c).1 }, (x.grid.run c).2)
  else
    let g := x.grid
    match Legacy.record g.arch g.params g.load g.pv g.soc c g.production with
    | (r, .error e) => ({ x with grid := { g with production := r } }, .error e)
    | (r, .ok ()) =>
      match r.last g.arch with
      | .error e => ({ x with grid := { g with production := r } }, .error e)
      | .ok l =>
        ({ x with grid := { g with production := r, co2 := g.co2 ++ [Legacy.co2Of g.arch g.params l (if g.arch.grid then g.cur.co2 else 0)] } },
          .error .key)

end Pymgrid
