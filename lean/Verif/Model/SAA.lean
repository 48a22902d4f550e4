import Verif.Model.MPC
import Mathlib.Data.Rat.Floor

set_option autoImplicit false

/-!
# Sample average approximation (`algos/saa/saa.py`, `algos/Control.py:26-75,131-201`, `mpc.py:965-1032`)

The noisy forecasts and samples of `utils/DataGenerator.py` are random; here samples are arbitrary data frames
(`Model/DataGenerator.lean` models how they are drawn).
-/

namespace Pymgrid.MPC

open Legacy

/-- A row of a sample: a data frame with the columns `pv`, `load` and `grid`. -/
structure DataRow where
  load : ℚ
  pv : ℚ
  grid : ℚ
  deriving DecidableEq, Repr

/-- A sample.  Its index is `0, 1, ...`, so that `loc` and `iloc` select the same rows; all values are numbers. -/
abbrev Frame := List DataRow

/-- A row of `underlying_data` (`DataGenerator.py:30-59`).  Where some of the series have ended pandas fills in `nan`; here
    such rows do not exist. -/
def actualRow (g : Grid) (j : Nat) : Option DataRow :=
  match g.loads[j]?, g.pvs[j]?, (if g.arch.grid then g.statuses[j]? else some 0) with
  | some load, some pv, some grid => some ⟨load, pv, grid⟩
  | _, _, _ => none

/-- The problem of `mpc_single_step` (`mpc.py:983-1024`): load, PV and status of the grid are those of the sample, prices and
    emissions those of the microgrid. -/
def sampleProblem (g : Grid) (s : Frame) (j : Nat) (soc : ℚ) : Problem :=
  let zeros := List.replicate g.horizon 0
  { genset := g.arch.genset, horizon := g.horizon, static := parseLegacy g.arch g.params
    inputs :=
      { load := slice (s.map (·.load)) j g.horizon, pv := slice (s.map (·.pv)) j g.horizon
        grid := if g.arch.grid then slice (s.map (·.grid)) j g.horizon else zeros
        importPrice := if g.arch.grid then slice g.importPrices j g.horizon else zeros
        exportPrice := if g.arch.grid then slice g.exportPrices j g.horizon else zeros
        eMax := g.params.socMax, eMin := g.params.socMin, pCharge := g.params.pCharge
        pDischarge := g.params.pDischarge, pImport := if g.arch.grid then g.params.pImport else 0
        pExport := if g.arch.grid then g.params.pExport else 0, soc, costCo2 := g.params.costCo2
        gridCo2 := if g.arch.grid then slice g.co2s j g.horizon else zeros } }

/-- `compute_cost_over_horizon` (`Control.py:37-57`).  The columns of the data frame are the entries of the control dicts
    (`mpc.py:820-864`). -/
def horizonCost (g : Grid) (x : Point) (j : Nat) : ℚ :=
  let col (withGenset without : Nat) : List ℚ :=
    (List.range g.horizon).map fun k => if g.arch.genset then x.p (k * 8 + withGenset) else x.p (k * 7 + without)
  0 + (col 6 5).sum * g.params.costLossLoad
    + (if g.arch.genset then ((List.range g.horizon).map fun k => x.p (k * 8)).sum * g.params.fuelCost else 0)
    + (if g.arch.grid then
        (List.zipWith (· * ·) (slice g.importPrices j g.horizon) (col 1 0)).sum
          - (List.zipWith (· * ·) (slice g.exportPrices j g.horizon) (col 2 1)).sum
      else 0)

/-- `HorizonOutput` (`Control.py:28-35`): the plan, its cost, and of the control dict of its first step the requests and the
    entries for load and PV. -/
structure HorizonOutput where
  plan : Point
  cost : ℚ
  first : Control
  load : ℚ
  pv : ℚ
  step : Nat

/-- `mpc_single_step` (`mpc.py:965-1032`).  Prices or emissions that end within the horizon do not fit the costs vector
    (`mpc.py:478-483`; numpy would broadcast a single value).  Without a solution `p_vars.value` is `None`. -/
def singleStep (solve : Solver) (g : Grid) (s : Frame) (soc : ℚ) (j : Nat) : Except Err HorizonOutput :=
  let P := sampleProblem g s j soc
  if P.inputs.load.length ≠ g.horizon ∨ P.inputs.importPrice.length ≠ g.horizon ∨ P.inputs.exportPrice.length ≠ g.horizon ∨
      P.inputs.gridCo2.length ≠ g.horizon then .error .value
  else
    match solve P with
    | none => .error .type
    | some x => .ok { plan := x, cost := horizonCost g x j, first := control P x 0, load := P.inputs.load.getD 0 0
                      pv := P.inputs.pv.getD 0 0, step := j }

/-- `np.partition`: for the costs of the outputs and `k`, the position of the output that ends up at position `k`.  Outputs are
    compared by cost (`Control.py:59-75`); what numpy does with equal costs is left open. -/
abbrev Selector := List ℚ → Nat → Nat

/-- `determine_optimal_actions` (`saa.py:82-111`).  `np.partition` raises `ValueError` unless `k` is a position. -/
def determine (select : Selector) (os : List HorizonOutput) (p : ℚ) : Except Err HorizonOutput :=
  if p < 0 ∨ 1 < p then .error .value
  else
    let k := ⌊(os.length : ℚ) * p⌋.toNat
    if os.length ≤ k then .error .value
    else
      match os[select (os.map (·.cost)) k]? with
      | some o => .ok o
      | none => .error .index

/-- `ControlOutput.append` of a `HorizonOutput` (`Control.py:140-201`); `row` holds the actual load, PV and grid status passed.
    The columns of the action are not modelled. -/
def appendOutput (g : Grid) (b : Baseline) (o : HorizonOutput) (row : DataRow) : Except Err Baseline :=
  let soc := (b.states.getLast?.map (·.soc)).getD 0
  match record g.arch g.params o.load o.pv soc o.first b.production with
  | (_, .error e) => .error e
  | (r, .ok ()) =>
    match r.last g.arch with
    | .error e => .error e
    | .ok l =>
      if g.arch.grid then
        match g.co2s[o.step]?, g.importPrices[o.step + 1]?, g.exportPrices[o.step + 1]?, g.co2s[o.step + 1]?,
          g.importPrices[o.step]?, g.exportPrices[o.step]? with
        | some co2, some nextImport, some nextExport, some nextCo2, some imp, some exp =>
          let c := co2Of g.arch g.params l co2
          let next := nextRow g.arch g.params soc l.charge l.discharge (some row.load) (some row.pv) g.t
            (some ⟨row.grid, nextImport, nextExport, nextCo2⟩)
          .ok { states := b.states ++ [next], production := r, costs := b.costs ++ [costRow g.arch g.params l c imp exp]
                co2 := b.co2 ++ [c] }
        | _, _, _, _, _, _ => .error .index
      else
        let c := co2Of g.arch g.params l 0
        let next := nextRow g.arch g.params soc l.charge l.discharge (some row.load) (some row.pv) g.t none
        .ok { states := b.states ++ [next], production := r, costs := b.costs ++ [costRow g.arch g.params l c 0 0]
              co2 := b.co2 ++ [c] }

/-- The loop over the samples (`saa.py:130-142`): the row of the current step is overwritten with the actual data, in the
    samples of the caller. -/
def solveAll (solve : Solver) (g : Grid) (soc : ℚ) (j : Nat) (row : DataRow) :
    List Frame → List Frame × Except Err (List HorizonOutput)
  | [] => ([], .ok [])
  | s :: rest =>
    let s := s.set j row
    match singleStep solve g s soc j with
    | .error e => (s :: rest, .error e)
    | .ok o =>
      match solveAll solve g soc j row rest with
      | (rest, .error e) => (s :: rest, .error e)
      | (rest, .ok os) => (s :: rest, .ok (o :: os))

/-- One turn of the loop of `run_mpc_on_group` (`saa.py:124-150`). -/
def groupStep (solve : Solver) (select : Selector) (g : Grid) (p : ℚ) (frames : List Frame) (b : Baseline) (j : Nat) :
    List Frame × Except Err Baseline :=
  match actualRow g j with
  | none => (frames, .error .index)
  | some row =>
    match solveAll solve g ((b.states.getLast?.map (·.soc)).getD 0) j row frames with
    | (frames, .error e) => (frames, .error e)
    | (frames, .ok os) =>
      match determine select os p with
      | .error e => (frames, .error e)
      | .ok o => (frames, appendOutput g b o row)

/-- The loop of `run_mpc_on_group` from step `j` on. -/
def groupFrom (solve : Solver) (select : Selector) (g : Grid) (p : ℚ) :
    Nat → Nat → List Frame → Baseline → List Frame × Except Err Baseline
  | _, 0, frames, b => (frames, .ok b)
  | j, n + 1, frames, b =>
    match groupStep solve select g p frames b j with
    | (frames, .error e) => (frames, .error e)
    | (frames, .ok b) => groupFrom solve select g p (j + 1) n frames b

/-- `run_mpc_on_group` (`saa.py:113-152`).  The records start as copies of those of the microgrid (`Control.py:118-129`), which is
    not reset.  `min` of no samples raises `ValueError`. -/
def runGroup (solve : Solver) (select : Selector) (g : Grid) (frames : List Frame) (steps : Option Nat) (p : ℚ) :
    List Frame × Except Err Baseline :=
  match (frames.map List.length).min? with
  | none => (frames, .error .value)
  | some T =>
    let b : Baseline := ⟨g.states, g.production, g.costs, g.co2⟩
    match steps with
    | none => groupFrom solve select g p 0 ((T : Int) - g.horizon).toNat frames b
    | some n => if (n : Int) > (T : Int) - g.horizon then (frames, .error .value) else groupFrom solve select g p 0 n frames b

/-- `SampleAverageApproximation` (`saa.py:42-51`): the microgrid and the samples made so far. -/
structure SAA where
  grid : Grid
  samples : Option (List Frame) := none

/-- `run` (`saa.py:53-80`); `fresh` is what `sample_from_forecasts` returns if it is called. -/
def SAA.run (solve : Solver) (select : Selector) (a : SAA) (fresh : List Frame) (usePrevious : Bool) (steps : Option Nat) (p : ℚ) :
    SAA × Except Err Baseline :=
  let frames := match a.samples with
    | none => fresh
    | some old => if usePrevious then old else fresh
  match runGroup solve select a.grid frames steps p with
  | (frames, r) => ({ a with samples := some frames }, r)

end Pymgrid.MPC
