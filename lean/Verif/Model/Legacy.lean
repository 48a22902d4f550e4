import Verif.Model.Num

set_option autoImplicit false

/-!
# The legacy microgrid

`_deprecated/non_modular_microgrid.py`.  The parameters live in a one-line data frame; here they are a record, and
parameters of components that are not in the architecture are never read.  Only the data set `'all'` is modelled here,
that is microgrids on which `train_test_split` was not called; the others are in `Model/LegacySplit.lean`.  The record of requested actions (`_record_action`) is a
write-only log and left out.
-/

namespace Pymgrid.Legacy

/-- The `architecture` dict.  Every microgrid that can be constructed has PV (`non_modular_microgrid.py:353-358`). -/
structure Arch where
  battery : Bool
  genset : Bool
  grid : Bool
  deriving DecidableEq, Repr

/-- The columns of the `parameters` data frame that are read by the code modelled here
    (`MicrogridGenerator.py:474-573`). -/
structure Params where
  socMin : ℚ
  socMax : ℚ
  capacity : ℚ
  eff : ℚ
  pCharge : ℚ
  pDischarge : ℚ
  costCycle : ℚ
  rated : ℚ
  pmin : ℚ
  pmax : ℚ
  fuelCost : ℚ
  gensetCo2 : ℚ
  pImport : ℚ
  pExport : ℚ
  costLossLoad : ℚ
  costOvergen : ℚ
  costCo2 : ℚ
  deriving DecidableEq, Repr

/-- A control dict given by the user; `none` is a missing key. -/
structure Control where
  charge : Option ℚ := none
  discharge : Option ℚ := none
  imp : Option ℚ := none
  exp : Option ℚ := none
  genset : Option ℚ := none
  deriving DecidableEq, Repr

/-- `control_dict[key]`. -/
def key (o : Option ℚ) : Except Err ℚ :=
  match o with
  | none => .error .key
  | some x => .ok x

/-- `capa_to_charge` (`non_modular_microgrid.py:887-891` and `968-972`). -/
def Params.capaToCharge (p : Params) (soc : ℚ) : ℚ :=
  max ((p.socMax * p.capacity - soc * p.capacity) * p.eff) 0

/-- `capa_to_discharge` (`non_modular_microgrid.py:893-897` and `974-978`). -/
def Params.capaToDischarge (p : Params) (soc : ℚ) : ℚ :=
  max ((soc * p.capacity - p.socMin * p.capacity) * p.eff) 0

/-- `_check_constraints_genset` (`non_modular_microgrid.py:921-933`). -/
def Params.checkGenset (p : Params) (x : ℚ) : ℚ :=
  let x := if x < 0 then 0 else x
  let x := if x < p.rated * p.pmin ∧ x > 1 then p.rated * p.pmin else x
  if x > p.rated * p.pmax then p.rated * p.pmax else x

/-- `_check_constraints_grid` (`non_modular_microgrid.py:935-954`). -/
def Params.checkGrid (p : Params) (i e : ℚ) : ℚ × ℚ :=
  let i := if i < 0 then 0 else i
  let e := if e < 0 then 0 else e
  (if i > p.pImport then p.pImport else i, if e > p.pExport then p.pExport else e)

/-- `_check_constraints_battery` (`non_modular_microgrid.py:956-987`), `soc` being the latest recorded one. -/
def Params.checkBattery (p : Params) (c d soc : ℚ) : ℚ × ℚ :=
  let c := if c < 0 then 0 else c
  let d := if d < 0 then 0 else d
  (if c > p.capaToCharge soc ∨ c > p.pCharge then min (p.capaToCharge soc) p.pCharge else c,
   if d > p.capaToDischarge soc ∨ d > p.pDischarge then min (p.capaToDischarge soc) p.pDischarge else d)

/-- The PV, loss-of-load, curtailment and overgeneration entries of a production record. -/
structure PvRow where
  consumed : ℚ
  lossLoad : ℚ
  curtailed : ℚ
  overgen : ℚ
  deriving DecidableEq, Repr

/-- The case distinction at the end of `_record_production` (`non_modular_microgrid.py:1047-1073`). -/
def settle (required available : ℚ) : Except Err PvRow :=
  if |required - available| < 1/1000 then .ok ⟨available, 0, 0, 0⟩
  else if required > available then .ok ⟨available, required - available, 0, 0⟩
  else if 0 < required ∧ required < available then .ok ⟨required, 0, available - required, 0⟩
  else if required < 0 then .ok ⟨0, 0, if available > 0 then available else 0, -required⟩
  else .error .assertion

/-- The columns of `_df_record_actual_production`, oldest entry first.  Columns that are always appended to
    together are kept as one list; the order of the groups is the one in which `_record_production` fills them. -/
structure Production where
  battery : List (ℚ × ℚ) := []
  grid : List (ℚ × ℚ) := []
  genset : List ℚ := []
  pv : List PvRow := []
  deriving DecidableEq, Repr

/-- `_record_production` (`non_modular_microgrid.py:989-1080`).  A missing key or the failing assertion leave the
    columns filled before it. -/
def record (a : Arch) (p : Params) (load pv soc : ℚ) (c : Control) (r : Production) : Production × Except Err Unit :=
  -- battery
  let r₁ : Production × Except Err (ℚ × ℚ) :=
    if a.battery then
      match key c.charge with
      | .error e => (r, .error e)
      | .ok x =>
        match key c.discharge with
        | .error e => (r, .error e)
        | .ok y =>
          let b := p.checkBattery x y soc
          ({ r with battery := r.battery ++ [b] }, .ok (0 + b.2, load + b.1))
    else (r, .ok (0, load))
  match r₁ with
  | (r, .error e) => (r, .error e)
  | (r, .ok (sources, sinks)) =>
    -- grid
    let r₂ : Production × Except Err (ℚ × ℚ) :=
      if a.grid then
        match key c.imp with
        | .error e => (r, .error e)
        | .ok x =>
          match key c.exp with
          | .error e => (r, .error e)
          | .ok y =>
            let g := p.checkGrid x y
            ({ r with grid := r.grid ++ [g] }, .ok (sources + g.1, sinks + g.2))
      else (r, .ok (sources, sinks))
    match r₂ with
    | (r, .error e) => (r, .error e)
    | (r, .ok (sources, sinks)) =>
      -- genset
      let r₃ : Production × Except Err ℚ :=
        if a.genset then
          match key c.genset with
          | .error e => (r, .error e)
          | .ok x => ({ r with genset := r.genset ++ [p.checkGenset x] }, .ok (sources + p.checkGenset x))
        else (r, .ok sources)
      match r₃ with
      | (r, .error e) => (r, .error e)
      | (r, .ok sources) =>
        match settle (sinks - sources) pv with
        | .error e => (r, .error e)
        | .ok v => ({ r with pv := r.pv ++ [v] }, .ok ())

/-- `{key: value[-1]}` of the production columns (`non_modular_microgrid.py:641-646`); columns of absent components
    do not exist and give 0, which is never read. -/
structure Last where
  charge : ℚ
  discharge : ℚ
  imp : ℚ
  exp : ℚ
  genset : ℚ
  pv : PvRow
  deriving DecidableEq, Repr

/-- The last entries of all columns (`non_modular_microgrid.py:641-646`). -/
def Production.last (a : Arch) (r : Production) : Except Err Last :=
  let b : Option (ℚ × ℚ) := if a.battery then r.battery.getLast? else some (0, 0)
  let g : Option (ℚ × ℚ) := if a.grid then r.grid.getLast? else some (0, 0)
  let n : Option ℚ := if a.genset then r.genset.getLast? else some 0
  match b, g, n, r.pv.getLast? with
  | some b, some g, some n, some v => .ok ⟨b.1, b.2, g.1, g.2, n, v⟩
  | _, _, _, _ => .error .index

/-- `_record_co2` (`non_modular_microgrid.py:1082-1096`). -/
def co2Of (a : Arch) (p : Params) (l : Last) (gridCo2 : ℚ) : ℚ :=
  (0 + if a.genset then l.genset * p.gensetCo2 else 0) + if a.grid then gridCo2 * l.imp else 0

/-- The new entries of `_df_record_cost` except `total_cost` (`non_modular_microgrid.py:1104-1129`). -/
def costsOf (a : Arch) (p : Params) (l : Last) (co2 priceImport priceExport : ℚ) : List (String × ℚ) :=
  [("loss_load", l.pv.lossLoad * p.costLossLoad), ("overgeneration", l.pv.overgen * p.costOvergen)]
    ++ (if a.genset then [("genset", l.genset * p.fuelCost)] else [])
    ++ (if a.grid then [("grid_import", priceImport * l.imp), ("grid_export", - priceExport * l.exp)] else [])
    ++ (if a.battery then [("battery", (l.charge + l.discharge) * p.costCycle)] else [])
    ++ [("co2", p.costCo2 * co2)]

/-- One entry of every column of `_df_record_cost`; `total` is the sum (`non_modular_microgrid.py:1131-1132`). -/
structure CostRow where
  parts : List (String × ℚ)
  total : ℚ
  deriving DecidableEq, Repr

/-- `_record_cost` (`non_modular_microgrid.py:1098-1134`). -/
def costRow (a : Arch) (p : Params) (l : Last) (co2 priceImport priceExport : ℚ) : CostRow :=
  let parts := costsOf a p l co2 priceImport priceExport
  { parts, total := (parts.map (·.2)).sum }

/-- The four grid quantities that change with time. -/
structure GridRow where
  status : ℚ
  priceImport : ℚ
  priceExport : ℚ
  co2 : ℚ
  deriving DecidableEq, Repr

/-- One entry of every column of `_df_record_state`.  `soc`, `capaToCharge` and `capaToDischarge` exist if there is
    a battery, `grid` if there is a grid; missing future values are Python's `None`. -/
structure StateRow where
  load : Option ℚ
  pv : Option ℚ
  hour : Nat
  soc : ℚ
  capaToCharge : ℚ
  capaToDischarge : ℚ
  grid : Option GridRow
  deriving DecidableEq, Repr

/-- The new entry written by `_update_status` (`non_modular_microgrid.py:870-918`), from the latest state of charge
    and the given charge and discharge. -/
def nextRow (a : Arch) (p : Params) (soc charge discharge : ℚ) (load pv : Option ℚ) (t : Nat) (grid : Option GridRow) :
    StateRow :=
  let soc' := soc + (charge * p.eff - discharge / p.eff) / p.capacity
  { load, pv, hour := t % 24
    soc := if a.battery then soc' else 0
    capaToCharge := if a.battery then p.capaToCharge soc' else 0
    capaToDischarge := if a.battery then p.capaToDischarge soc' else 0
    grid := if a.grid then grid else none }

/-- A legacy microgrid (`non_modular_microgrid.py:343-401`): the fixed data (architecture, parameters, series,
    horizon), the values of the current step and the records. -/
structure Grid where
  arch : Arch
  params : Params
  loads : List ℚ
  pvs : List ℚ
  /-- status, import price, export price and CO2 intensity of the grid -/
  statuses : List ℚ
  importPrices : List ℚ
  exportPrices : List ℚ
  co2s : List ℚ
  horizon : Nat
  /-- `_tracking_timestep` -/
  t : Nat := 0
  load : ℚ
  pv : ℚ
  nextLoad : Option ℚ
  nextPv : Option ℚ
  /-- `self.grid.status` etc. -/
  cur : GridRow
  next : Option GridRow
  /-- `_df_record_state`, oldest entry first -/
  states : List StateRow
  production : Production := {}
  costs : List CostRow := []
  co2 : List ℚ := []
  done : Bool := false
  /-- `self.battery.soc` -/
  batterySoc : ℚ
  deriving DecidableEq, Repr

namespace Grid

/-- `_data_length` (`non_modular_microgrid.py:380`). -/
def dataLength (g : Grid) : Nat := min g.loads.length g.pvs.length

/-- `iloc[i, 0]` of the four grid series. -/
def gridAt (g : Grid) (i : Nat) : Except Err GridRow :=
  match g.statuses[i]?, g.importPrices[i]?, g.exportPrices[i]?, g.co2s[i]? with
  | some s, some p, some e, some c => .ok ⟨s, p, e, c⟩
  | _, _, _, _ => .error .index

/-- The latest recorded state of charge, `df['battery_soc'][-1]`. -/
def soc (g : Grid) : ℚ := (g.states.getLast?.map (·.soc)).getD 0

/-- `update_variables` for the data set `'all'` (`non_modular_microgrid.py:744-816`).  An index error of a grid series
    leaves the load and PV of the new step behind; the four series are read in one go. -/
def updateVariables (g : Grid) : Grid × Except Err Unit :=
  match g.pvs[g.t]?, g.loads[g.t]? with
  | some pv, some load =>
    let inner := g.t + 1 < g.dataLength
    let g := { g with pv, load, nextPv := if inner then g.pvs[g.t + 1]? else none
                      nextLoad := if inner then g.loads[g.t + 1]? else none }
    if g.arch.grid then
      match g.gridAt g.t with
      | .error e => (g, .error e)
      | .ok cur =>
        if inner then
          match g.gridAt (g.t + 1) with
          | .error e => ({ g with cur }, .error e)
          | .ok next => ({ g with cur, next := some next, batterySoc := g.soc }, .ok ())
        else ({ g with cur, next := none, batterySoc := g.soc }, .ok ())
    else ({ g with batterySoc := g.soc }, .ok ())
  | _, _ => (g, .error .index)

/-- `run` (`non_modular_microgrid.py:607-668`).  Without a grid the state of charge is updated from the control dict
    and not from the production (line 658). -/
def run (g : Grid) (c : Control) : Grid × Except Err StateRow :=
  match record g.arch g.params g.load g.pv g.soc c g.production with
  | (r, .error e) => ({ g with production := r }, .error e)
  | (r, .ok ()) =>
    let g := { g with production := r }
    match r.last g.arch with
    | .error e => (g, .error e)
    | .ok l =>
      let co2 := co2Of g.arch g.params l (if g.arch.grid then g.cur.co2 else 0)
      let cost := costRow g.arch g.params l co2 (if g.arch.grid then g.cur.priceImport else 0)
        (if g.arch.grid then g.cur.priceExport else 0)
      let row :=
        if g.arch.grid then nextRow g.arch g.params g.soc l.charge l.discharge g.nextLoad g.nextPv g.t g.next
        else nextRow g.arch g.params g.soc (c.charge.getD 0) (c.discharge.getD 0) g.nextLoad g.nextPv g.t none
      let g := { g with co2 := g.co2 ++ [co2], costs := g.costs ++ [cost], states := g.states ++ [row] }
      if (g.t : Int) = (g.dataLength : Int) - g.horizon ∨ (g.t : Int) = (g.dataLength : Int) - 1 then
        ({ g with done := true }, .ok row)
      else
        match { g with t := g.t + 1 }.updateVariables with
        | (g, .error e) => (g, .error e)
        | (g, .ok ()) => (g, .ok row)

/-- `reset` for the data set `'all'` (`non_modular_microgrid.py:818-849`). -/
def reset (g : Grid) : Grid × Except Err Unit :=
  let g := { g with states := g.states.take 1, production := {}, costs := [], co2 := [], t := 0 }
  match g.updateVariables with
  | (g, .error e) => (g, .error e)
  | (g, .ok ()) => ({ g with done := false }, .ok ())

end Grid

/-- `NonModularMicrogrid.__init__` (`non_modular_microgrid.py:343-401`): both series need two entries, the grid
    series one.  `states` is the one entry of `df_status`; `socStart` the parameter `battery_soc_0`. -/
def create (arch : Arch) (params : Params) (loads pvs statuses importPrices exportPrices co2s : List ℚ) (horizon : Nat)
    (socStart : ℚ) (status : StateRow) : Except Err Grid :=
  match loads[0]?, pvs[0]?, loads[1]?, pvs[1]? with
  | some load, some pv, some nextLoad, some nextPv =>
    let g : Grid := { arch, params, loads, pvs, statuses, importPrices, exportPrices, co2s, horizon, load, pv
                      nextLoad := some nextLoad, nextPv := some nextPv, cur := ⟨0, 0, 0, 0⟩, next := none
                      states := [status], batterySoc := socStart }
    if arch.grid then
      match g.gridAt 0 with
      | .error e => .error e
      | .ok row => .ok { g with cur := row, next := some row }
    else .ok g
  | _, _, _, _ => .error .index

end Pymgrid.Legacy
