import Verif.Model.Legacy
import Verif.Model.Microgrid

set_option autoImplicit false

/-!
# Conversion of legacy microgrids

`convert/convert.py` and `convert/get_module.py`.  `forecast_horizon` is `horizon - 1`, which the model truncates at 0;
a legacy horizon of 0 is not modelled.  The four grid series are joined with `pd.concat(axis=1)`; series of different
lengths would be filled with `nan`, which the model cannot represent, so it cuts them to the shortest and the theorems
assume equal lengths.
-/

namespace Pymgrid.Legacy

namespace Grid

/-- `get_load_module` (`get_module.py:22-27`). -/
def loadModule (g : Grid) (r : Bool) : Except Err Module := Module.mkLoad g.loads .oracle (g.horizon - 1) 0 (-1) r

/-- `get_pv_module` (`get_module.py:30-36`). -/
def pvModule (g : Grid) (r : Bool) : Except Err Module := Module.mkRenewable g.pvs .oracle (g.horizon - 1) 0 (-1) r

/-- `get_battery_module` (`get_module.py:39-55`). -/
def batteryModule (g : Grid) (r : Bool) : Except Err Module :=
  Module.mkBattery (g.params.capacity * g.params.socMin) g.params.capacity g.params.pCharge g.params.pDischarge
    g.params.eff g.params.costCycle none none (some g.batterySoc) 0 r

/-- `get_genset_module` (`get_module.py:58-72`); `allow_abortion` and `init_start_up` keep their defaults. -/
def gensetModule (g : Grid) (r : Bool) : Except Err Module :=
  Module.mkGenset (g.params.pmin * g.params.rated) (g.params.pmax * g.params.rated) (.const g.params.fuelCost)
    g.params.gensetCo2 g.params.costCo2 0 0 true true 0 r

/-- The data frame joined in `get_grid_module` (`get_module.py:80-88`). -/
def gridSeries (g : Grid) : List (List ℚ) :=
  (((g.importPrices.zip g.exportPrices).zip g.co2s).zip g.statuses).map fun x => [x.1.1.1, x.1.1.2, x.1.2, x.2]

/-- `get_grid_module` (`get_module.py:75-96`). -/
def gridModule (g : Grid) (r : Bool) : Except Err Module :=
  Module.mkGrid g.params.pImport g.params.pExport 4 g.gridSeries .oracle (g.horizon - 1) 0 (-1) g.params.costCo2 r

/-- `get_unbalanced_energy_module` (`get_module.py:99-103`). -/
def balancingModule (g : Grid) (r : Bool) : Module := Module.mkBalancing r 0 g.params.costLossLoad g.params.costOvergen

/-- The components in the order of `to_modular` (`convert.py:8-13`).  The order of the architecture is the one of
    `MicrogridGenerator.py:456`; every legacy microgrid has PV. -/
def components (g : Grid) (r : Bool) : List (String × Except Err Module) :=
  [("load", g.loadModule r), ("unbalanced_energy", .ok (g.balancingModule r)), ("PV", g.pvModule r)]
    ++ (if g.arch.battery then [("battery", g.batteryModule r)] else [])
    ++ (if g.arch.genset then [("genset", g.gensetModule r)] else [])
    ++ (if g.arch.grid then [("grid", g.gridModule r)] else [])

end Grid

/-- The modules one after the other; the first error is raised. -/
def buildAll : List (String × Except Err Module) → Except Err (List (String × Module))
  | [] => .ok []
  | (n, .ok m) :: l =>
    match buildAll l with
    | .ok ms => .ok ((n, m) :: ms)
    | .error e => .error e
  | (_, .error e) :: _ => .error e

/-- The module objects, numbered in the order of creation. -/
def place (ms : List (String × Module)) : Heap := fun i =>
  match ms[i]? with
  | some nm => nm.2
  | none => Module.mkBalancing false 0 0 0

/-- The list of names and module objects passed to `Microgrid`. -/
def references (ms : List (String × Module)) : List (String × Nat) := ms.zipIdx.map fun x => (x.1.1, x.2)

/-- `to_modular` (`convert.py:7-14`). -/
def Grid.toModular (g : Grid) (r : Bool) : Except Err Microgrid :=
  match buildAll (g.components r) with
  | .error e => .error e
  | .ok ms => Microgrid.create (place ms) (references ms) none none

end Pymgrid.Legacy
