import Verif.Model.MPC
import Verif.Model.Revert

set_option autoImplicit false

/-!
# Model predictive control of modular microgrids

The modular branches of `algos/mpc/mpc.py`.
-/

namespace Pymgrid.MPC

open Module

/-- `microgrid_module_names` (`mpc.py:130-136`): the names of the modules by class. -/
structure Names where
  load : Option String
  pv : Option String
  battery : Option String
  grid : Option String
  genset : Option String
  balancing : Option String
  deriving DecidableEq, Repr

/-- An entry of `microgrid_module_names`: in a dict comprehension the last module of a class wins. -/
def nameOf {α : Type} (m : Microgrid) (f : Module → Option α) : Option String :=
  ((Container.toTuples m.cont.fullDict).filter fun ni => (f (m.heap ni.2)).isSome).getLast?.map Prod.fst

/-- `_get_modules` (`mpc.py:130-136`).  The conversion that precedes it has checked that there is one module per name, so
    `item()` succeeds. -/
def getModules (m : Microgrid) : Names :=
  { load := nameOf m loadPart, pv := nameOf m pvPart, battery := nameOf m batteryPart, grid := nameOf m gridPart
    genset := nameOf m gensetPart, balancing := nameOf m balancingPart }

/-- `microgrid.modules[name].item()` (`module_container.py:209-218`, `326-345`). -/
def itemOf (m : Microgrid) (name : String) : Except Err Nat :=
  match dictGet? m.cont.fullDict name with
  | none => .error .key
  | some [i] => .ok i
  | some _ => .error .value

/-- The fields of the module under a name; another class does not have them (`AttributeError`). -/
def fieldsOf {α : Type} (m : Microgrid) (f : Module → Option α) (name : String) : Except Err α :=
  match itemOf m name with
  | .error e => .error e
  | .ok i =>
    match f (m.heap i) with
    | none => .error .attribute
    | some a => .ok a

/-- `microgrid.battery.item()` (`mpc.py:200`, `925`, `microgrid.py:1023-1030`): the battery has to have this name. -/
def batteryOf (m : Microgrid) : Except Err Battery :=
  match dictGet? m.cont.fullDict "battery" with
  | none => .error .attribute
  | some _ => fieldsOf m batteryPart "battery"

/-- A `ModelPredictiveControl` for a modular microgrid: what `__init__` (`mpc.py:80-104`) stores. -/
structure Planner where
  names : Names
  horizon : Nat
  static : Static
  deriving DecidableEq, Repr

/-- `_parse_modular_microgrid` (`mpc.py:199-229`). -/
def parseModular (m : Microgrid) (names : Names) : Except Err Static :=
  match batteryOf m with
  | .error e => .error e
  | .ok b =>
    match names.balancing with
    | none => .error .key
    | some name =>
      match fieldsOf m balancingPart name with
      | .error e => .error e
      | .ok u =>
        match names.genset with
        | none =>
          .ok { eta := b.efficiency, capacity := b.maxCapacity, fuel := 0, cycle := b.costCycle, lossLoad := u.lossLoadCost
                gensetMin := 0, gensetMax := 0, costCo2 := 0, gensetCo2 := 0 }
        | some name =>
          match fieldsOf m gensetPart name with
          | .error e => .error e
          | .ok n =>
            match n.cost with
            | .fn _ => .error .type
            | .const fuel =>
              .ok { eta := b.efficiency, capacity := b.maxCapacity, fuel, cycle := b.costCycle, lossLoad := u.lossLoadCost
                    gensetMin := n.runMin, gensetMax := n.runMax, costCo2 := n.costPerCo2, gensetCo2 := n.co2PerUnit }

/-- `ModelPredictiveControl(microgrid)` for a modular microgrid (`mpc.py:80-104`, `115-145`): whatever error the conversion to
    a legacy microgrid raises becomes a `ValueError`.  (A genset with a callable cost fails here already, see `fuelOf`; in the
    code `_create_problem` adds it to a number, `TypeError`.) -/
def createModular (m : Microgrid) : Except Err Planner :=
  match m.toNonmodular with
  | .error _ => .error .value
  | .ok _ =>
    match m.forecastHorizon with
    | .error e => .error e
    | .ok h =>
      match parseModular m (getModules m) with
      | .error e => .error e
      | .ok static => .ok { names := getModules m, horizon := h + 1, static }

/-- `state[k::4]` (`grid_module.py:248-299`). -/
def strided (k : Nat) (l : List ℚ) : List ℚ := (List.range ((l.length + 3 - k) / 4)).map fun j => l.getD (4 * j + k) 0

/-- `module.state` under a name (`mpc.py:900-901`); the name is that of a class which the conversion requires. -/
def stateOf (m : Microgrid) (name : Option String) : Except Err (List ℚ) :=
  match name with
  | none => .error .key
  | some name =>
    match itemOf m name with
    | .error e => .error e
    | .ok i => (m.heap i).state

/-- The inputs that come from the grid (`mpc.py:903-922`): status, limits, prices, emissions and price of emissions.  The
    status is 1 throughout if there is a grid. -/
structure GridInputs where
  status : List ℚ
  pImport : ℚ
  pExport : ℚ
  importPrice : List ℚ
  exportPrice : List ℚ
  co2 : List ℚ
  costCo2 : List ℚ

@[inherit_doc GridInputs]
def gridInputs (pl : Planner) (m : Microgrid) : Except Err GridInputs :=
  match pl.names.grid with
  | none =>
    let zeros := List.replicate pl.horizon 0
    .ok { status := zeros, pImport := 0, pExport := 0, importPrice := zeros, exportPrice := zeros, co2 := zeros, costCo2 := [] }
  | some name =>
    match fieldsOf m gridPart name, stateOf m (some name) with
    | .ok p, .ok s =>
      .ok { status := List.replicate pl.horizon 1, pImport := p.1.maxImport, pExport := p.1.maxExport
            importPrice := strided 0 s, exportPrice := strided 1 s, co2 := strided 2 s, costCo2 := [p.1.costPerCo2] }
    | .error e, _ => .error e
    | _, .error e => .error e

/-- The price of emissions of the genset, if there is one (`mpc.py:937-944`). -/
def gensetCo2Cost (pl : Planner) (m : Microgrid) : Except Err (List ℚ) :=
  match pl.names.genset with
  | none => .ok []
  | some name =>
    match fieldsOf m gensetPart name with
    | .error e => .error e
    | .ok n => .ok [n.costPerCo2]

/-- The problem of a step (`_get_modular_state_values`, `mpc.py:898-963`, and `_set_parameters`, `mpc.py:447-493`).
    `np.mean` of no prices of emissions is `nan`, which `_set_parameters` rejects with `RuntimeError`.  `max_soc` is 1. -/
def modularProblem (pl : Planner) (m : Microgrid) : Except Err Problem :=
  match stateOf m pl.names.load, stateOf m pl.names.pv, gridInputs pl m, batteryOf m, gensetCo2Cost pl m with
  | .ok load, .ok pv, .ok g, .ok b, .ok c =>
    if g.costCo2 ++ c = [] then .error .runtime
    else
      .ok { genset := pl.names.genset.isSome, horizon := pl.horizon, static := pl.static
            inputs :=
              { load := load.map fun q => -1 * q, pv, grid := g.status, importPrice := g.importPrice
                exportPrice := g.exportPrice, eMax := 1, eMin := b.minSoc, pCharge := b.maxCharge
                pDischarge := b.maxDischarge, pImport := g.pImport, pExport := g.pExport, soc := b.soc
                costCo2 := (g.costCo2 ++ c).sum / (g.costCo2 ++ c).length, gridCo2 := g.co2 } }
  | .error e, _, _, _, _ => .error e
  | _, .error e, _, _, _ => .error e
  | _, _, .error e, _, _ => .error e
  | _, _, _, .error e, _ => .error e
  | _, _, _, _, .error e => .error e

/-- `_extract_modular_control` (`mpc.py:866-896`).  There is an entry for the battery even if its class has no name here,
    which the constructor excludes. -/
def modularControl (names : Names) (x : Point) : List (String × Ctrl) :=
  let k := if names.genset.isSome then 1 else 0
  let c₀ : List (String × Ctrl) :=
    match names.genset with
    | none => []
    | some name => dictSet [] name (.seq [.arr [x.u 0, x.p 0]])
  let c₁ :=
    match names.grid with
    | none => c₀
    | some name => dictSet c₀ name (.scalar (x.p k - x.p (k + 1)))
  dictSet c₁ (names.battery.getD "") (.scalar (x.p (k + 3) - x.p (k + 2)))

/-- One turn of the loop of `_run_mpc_on_modular` (`mpc.py:539-547`).  Without a solution `list(self.p_vars.value)` raises
    `TypeError`. -/
def modularStep (solve : Solver) (pl : Planner) (m : Microgrid) : Microgrid × Except Err RunOut :=
  match modularProblem pl m with
  | .error e => (m, .error e)
  | .ok P =>
    match solve P with
    | none => (m, .error .type)
    | some x => m.run (modularControl pl.names x) false

/-- The loop of `_run_mpc_on_modular` (`mpc.py:539-548`). -/
def modularLoop (solve : Solver) (pl : Planner) : Nat → Microgrid → Microgrid × Except Err Unit
  | 0, m => (m, .ok ())
  | n + 1, m =>
    match modularStep solve pl m with
    | (m', .error e) => (m', .error e)
    | (m', .ok o) => if o.done then (m', .ok ()) else modularLoop solve pl n m'

/-- `len(microgrid)` (`microgrid.py:996-1007`), the smallest length of a series. -/
def lengthOf (m : Microgrid) : Except Err Nat :=
  match (m.cont.fullList.filterMap fun i =>
    match (m.heap i).kind with
    | .grid _ t | .load t | .renewable t => some t.rows.length
    | _ => none) with
  | [] => .error .value
  | n :: ns => .ok (ns.foldl min n)

/-- `_get_num_iter` (`mpc.py:553-561`). -/
def iterations (m : Microgrid) (maxSteps : Option Nat) : Except Err Nat :=
  match maxSteps with
  | some n =>
    match lengthOf m with
    | .error e => .error e
    | .ok l => if n ≤ l then .ok n else .error .assertion
  | none =>
    match m.finalStep with
    | none => .error .type
    | some f => .ok (f - m.initialStep)

/-- `ModelPredictiveControl.run` for a modular microgrid (`mpc.py:495-516`, `534-550`).  The log that it returns is that of the
    microgrid (see `getLog`). -/
def runModular (solve : Solver) (pl : Planner) (m : Microgrid) (maxSteps : Option Nat) : Microgrid × Except Err Unit :=
  match iterations m maxSteps with
  | .error e => (m, .error e)
  | .ok n =>
    match m.reset with
    | (m₁, .error e) => (m₁, .error e)
    | (m₁, .ok ()) => modularLoop solve pl n m₁

end Pymgrid.MPC
