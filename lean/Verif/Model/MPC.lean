import Mathlib.Algebra.BigOperators.Group.Finset.Basic
import Verif.Model.LegacyRBC
import Verif.Model.Convert

set_option autoImplicit false

/-!
# Model predictive control

`algos/mpc/mpc.py`: the optimisation problem as it is handed to the solver, the extraction of controls from its solution,
and the run on a legacy microgrid.  Matrices are functions of row and column.  Numbers are exact, so the tolerances of
solvers are not modelled.
-/

namespace Pymgrid.MPC

/-- The arguments of `_create_problem` (`mpc.py:231-232`). -/
structure Static where
  eta : ℚ
  capacity : ℚ
  fuel : ℚ
  cycle : ℚ
  lossLoad : ℚ
  gensetMin : ℚ
  gensetMax : ℚ
  costCo2 : ℚ
  gensetCo2 : ℚ
  deriving DecidableEq, Repr

/-- The arguments of `_set_parameters` (`mpc.py:401-403`).  `p_genset_max` is always the value that `_create_problem` got
    and taken from there. -/
structure Inputs where
  load : List ℚ
  pv : List ℚ
  grid : List ℚ
  importPrice : List ℚ
  exportPrice : List ℚ
  eMax : ℚ
  eMin : ℚ
  pCharge : ℚ
  pDischarge : ℚ
  pImport : ℚ
  pExport : ℚ
  soc : ℚ
  costCo2 : ℚ
  gridCo2 : List ℚ
  deriving DecidableEq, Repr

/-- The problem that is solved at a step (`self.problem` with its parameters set). -/
structure Problem where
  genset : Bool
  horizon : Nat
  static : Static
  inputs : Inputs
  deriving DecidableEq, Repr

namespace Problem
variable (P : Problem)

/-- Variables per step (`mpc.py:84-95`). -/
def width : Nat := if P.genset then 8 else 7

/-- Inequalities per step (`mpc.py:88,94`). -/
def height : Nat := if P.genset then 9 else 8

/-- `alpha` (`mpc.py:303-307`, `317-321`). -/
def alpha (k : Nat) : ℚ :=
  if P.genset then (if k = 2 then -1 else if k = 3 then -1 else if k = 5 then -1 else if k = 7 then 0 else 1)
  else (if k = 1 then -1 else if k = 2 then -1 else if k = 4 then -1 else if k = 6 then 0 else 1)

/-- `X` (`mpc.py:300-325`). -/
def X (j k : Nat) : ℚ :=
  let start := j * P.width
  if start ≤ k ∧ k < start + P.width then P.alpha (k - start) else 0

/-- `gamma` (`mpc.py:272-276`, `288-292`); `delta_t` is 1. -/
def gamma (k : Nat) : ℚ :=
  if P.genset then
    (if k = 7 then -1 else if k = 11 then -1 * P.static.eta * 1 / P.static.capacity
      else if k = 12 then 1 / (P.static.eta * P.static.capacity) else if k = 15 then 1 else 0)
  else
    (if k = 6 then -1 else if k = 9 then -1 * P.static.eta * 1 / P.static.capacity
      else if k = 10 then 1 / (P.static.eta * P.static.capacity) else if k = 13 then 1 else 0)

/-- `Y` (`mpc.py:265-297`). -/
def Y (j k : Nat) : ℚ :=
  if j = 0 then
    if P.genset then
      (if k = 3 then -1 * P.static.eta * 1 / P.static.capacity
        else if k = 4 then 1 / (P.static.eta * P.static.capacity) else if k = 7 then 1 else 0)
    else
      (if k = 2 then -1 * P.static.eta * 1 / P.static.capacity
        else if k = 3 then 1 / (P.static.eta * P.static.capacity) else if k = 6 then 1 else 0)
  else
    let start := (j - 1) * P.width
    if start ≤ k ∧ k < start + 2 * P.width then P.gamma (k - start) else 0

/-- `A = np.concatenate((X, Y))` (`mpc.py:327`). -/
def A (r k : Nat) : ℚ := if r < P.horizon then P.X r k else P.Y (r - P.horizon) k

/-- `C_block` with a genset (`mpc.py:335-344`). -/
def fullBlock (i k : Nat) : ℚ :=
  if i = 0 ∧ k = 0 then 1 else if i = 1 ∧ k = 7 then 1 else if i = 2 ∧ k = 7 then -1 else if i = 3 ∧ k = 3 then 1
  else if i = 4 ∧ k = 4 then 1 else if i = 5 ∧ k = 1 then 1 else if i = 6 ∧ k = 2 then 1
  else if i = 7 ∧ k = 5 then 1 else if i = 8 ∧ k = 6 then 1 else 0

/-- `C_block` (`mpc.py:335-347`): without a genset the first row and column are dropped. -/
def block (i k : Nat) : ℚ := if P.genset then fullBlock i k else fullBlock (i + 1) (k + 1)

/-- `C` (`mpc.py:349-353`), the block matrix with `C_block` on the diagonal. -/
def C (r k : Nat) : ℚ := if r / P.height = k / P.width then P.block (r % P.height) (k % P.width) else 0

/-- `equality_rhs` (`mpc.py:449-452`). -/
def equalityRhs (r : Nat) : ℚ :=
  if r < P.horizon then P.inputs.load.getD r 0 - P.inputs.pv.getD r 0
  else if r = P.horizon then P.inputs.soc else 0

/-- `inequality_rhs` (`mpc.py:454-483`). -/
def inequalityRhs (r : Nat) : ℚ :=
  let j := r / P.height
  let i := if P.genset then r % P.height else r % P.height + 1
  if i = 0 then P.static.gensetMax
  else if i = 1 then P.inputs.eMax
  else if i = 2 then -P.inputs.eMin
  else if i = 3 then P.inputs.pCharge
  else if i = 4 then P.inputs.pDischarge
  else if i = 5 then P.inputs.pImport * P.inputs.grid.getD j 0
  else if i = 6 then P.inputs.pExport * P.inputs.grid.getD j 0
  else if i = 7 then P.inputs.pv.getD j 0
  else P.inputs.load.getD j 0

/-- `costs` (`mpc.py:363-374`, `486-491`). -/
def costs (k : Nat) : ℚ :=
  let j := k / P.width
  let i := if P.genset then k % P.width else k % P.width + 1
  if i = 0 then P.static.fuel + P.static.costCo2 * P.static.gensetCo2
  else if i = 1 then P.inputs.importPrice.getD j 0 + P.inputs.gridCo2.getD j 0 * P.inputs.costCo2
  else if i = 2 then P.inputs.exportPrice.getD j 0
  else if i = 3 then P.static.cycle
  else if i = 4 then P.static.cycle
  else if i = 6 then P.static.lossLoad
  else 0

end Problem

/-- Values of `p_vars` and `u_genset`. -/
structure Point where
  p : Nat → ℚ
  u : Nat → ℚ

/-- The constraints (`mpc.py:84-92`, `357-361`): `p_vars` is declared non-negative, `u_genset` boolean. -/
structure Feasible (P : Problem) (x : Point) : Prop where
  pos : ∀ k < P.width * P.horizon, 0 ≤ x.p k
  eq : ∀ r < 2 * P.horizon, ∑ k ∈ Finset.range (P.width * P.horizon), P.A r k * x.p k = P.equalityRhs r
  le : ∀ r < P.height * P.horizon, ∑ k ∈ Finset.range (P.width * P.horizon), P.C r k * x.p k ≤ P.inequalityRhs r
  bool : P.genset = true → ∀ j < P.horizon, x.u j = 0 ∨ x.u j = 1
  min : P.genset = true → ∀ j < P.horizon, P.static.gensetMin * x.u j ≤ x.p (8 * j)
  max : P.genset = true → ∀ j < P.horizon, x.p (8 * j) ≤ P.static.gensetMax * x.u j

/-- The objective (`mpc.py:376`). -/
def objective (P : Problem) (x : Point) : ℚ := ∑ k ∈ Finset.range (P.width * P.horizon), P.costs k * x.p k

/-- The solver: a solution, or none if the problem is infeasible. -/
abbrev Solver := Problem → Option Point

/-- The requests in the control dict of step `j` (`_extract_control_dict`, `mpc.py:799-864`).  Its entries for load and PV are
    those of the sample, the others are not read. -/
def control (P : Problem) (x : Point) (j : Nat) : Legacy.Control :=
  if P.genset then
    { charge := some (x.p (j * 8 + 3)), discharge := some (x.p (j * 8 + 4)), imp := some (x.p (j * 8 + 1))
      exp := some (x.p (j * 8 + 2)), genset := some (x.p (j * 8)) }
  else
    { charge := some (x.p (j * 7 + 2)), discharge := some (x.p (j * 7 + 3)), imp := some (x.p (j * 7))
      exp := some (x.p (j * 7 + 1)) }

/-! ### On a legacy microgrid -/

/-- `_parse_nonmodular_microgrid` (`mpc.py:172-197`). -/
def parseLegacy (a : Legacy.Arch) (p : Legacy.Params) : Static :=
  { eta := p.eff, capacity := p.capacity, fuel := if a.genset then p.fuelCost else 0, cycle := p.costCycle
    lossLoad := p.costLossLoad, gensetMin := if a.genset then p.pmin * p.rated else 0
    gensetMax := if a.genset then p.pmax * p.rated else 0, costCo2 := p.costCo2
    gensetCo2 := if a.genset then p.gensetCo2 else 0 }

/-- The slice `[i : i + h]`. -/
def slice (l : List ℚ) (i h : Nat) : List ℚ := (l.drop i).take h

/-- The problem of iteration `i` (`mpc.py:607-651`), `soc` being the latest recorded state of charge. -/
def legacyProblem (g : Legacy.Grid) (i : Nat) (soc : ℚ) : Problem :=
  let zeros := List.replicate g.horizon 0
  { genset := g.arch.genset, horizon := g.horizon, static := parseLegacy g.arch g.params
    inputs :=
      { load := slice g.loads i g.horizon, pv := slice g.pvs i g.horizon
        grid := if g.arch.grid then slice g.statuses i g.horizon else zeros
        importPrice := if g.arch.grid then slice g.importPrices i g.horizon else zeros
        exportPrice := if g.arch.grid then slice g.exportPrices i g.horizon else zeros
        eMax := g.params.socMax, eMin := g.params.socMin, pCharge := g.params.pCharge
        pDischarge := g.params.pDischarge, pImport := if g.arch.grid then g.params.pImport else 0
        pExport := if g.arch.grid then g.params.pExport else 0, soc, costCo2 := g.params.costCo2
        gridCo2 := if g.arch.grid then slice g.co2s i g.horizon else zeros } }

open Legacy in
/-- One turn of the loop of `_run_mpc_on_sample` (`mpc.py:605-700`).  Without a solution `p_vars.value` is `None`, and
    indexing it in `_extract_control_dict` raises `TypeError`: the branches that fall back to earlier controls
    (`mpc.py:662-669`) are never reached. -/
def legacyStep (solve : Solver) (g : Grid) (b : Baseline) (i : Nat) : Except Err Baseline :=
  match g.loads[i]?, g.pvs[i]?, g.loads[i + 1]?, g.pvs[i + 1]? with
  | some load, some pv, some nextLoad, some nextPv =>
    match (if g.arch.grid then g.gridAt i else .ok ⟨0, 0, 0, 0⟩), (if g.arch.grid then g.gridAt (i + 1) else .ok ⟨0, 0, 0, 0⟩) with
    | .ok now, .ok next =>
      let soc := (b.states.getLast?.map (·.soc)).getD 0
      match solve (legacyProblem g i soc) with
      | none => .error .type
      | some x =>
        match record g.arch g.params load pv soc (control (legacyProblem g i soc) x 0) b.production with
        | (_, .error e) => .error e
        | (r, .ok ()) =>
          match r.last g.arch with
          | .error e => .error e
          | .ok l =>
            let co2 := co2Of g.arch g.params l now.co2
            let cost := costRow g.arch g.params l co2 now.priceImport now.priceExport
            let row := nextRow g.arch g.params soc l.charge l.discharge (some nextLoad) (some nextPv) g.t
              (if g.arch.grid then some next else none)
            .ok { states := b.states ++ [row], production := r, costs := b.costs ++ [cost], co2 := b.co2 ++ [co2] }
    | .error e, _ => .error e
    | .ok _, .error e => .error e
  | _, _, _, _ => .error .index

/-- The loop of `_run_mpc_on_sample` (`mpc.py:605-700`) from iteration `i` on. -/
def legacyFrom (solve : Solver) (g : Legacy.Grid) : Nat → Nat → Legacy.Baseline → Except Err Legacy.Baseline
  | _, 0, b => .ok b
  | i, n + 1, b =>
    match legacyStep solve g b i with
    | .error e => .error e
    | .ok b => legacyFrom solve g (i + 1) n b

/-- `ModelPredictiveControl(microgrid)` for a legacy microgrid (`mpc.py:80-104`, `116-129`).  The microgrid has to be
    convertible; `AttributeError`s of the conversion lead to a `TypeError`.  Without a battery the parameters are incomplete
    (`KeyError`); a horizon of 0 fails at `Y[0, 3]` (`mpc.py:268`). -/
def createLegacy (g : Legacy.Grid) : Except Err Unit :=
  match g.toModular false with
  | .error .attribute => .error .type
  | .error e => .error e
  | .ok _ =>
    if g.arch.battery = false then .error .key
    else if g.horizon = 0 then .error .index
    else .ok ()

/-- `ModelPredictiveControl.run` for a legacy microgrid (`mpc.py:494-534`, `563-713`).  The first result is the microgrid,
    which is reset. -/
def runLegacy (solve : Solver) (g : Legacy.Grid) (maxSteps : Option Nat) : Legacy.Grid × Except Err Legacy.Baseline :=
  match g.reset with
  | (g, .error e) => (g, .error e)
  | (g, .ok ()) =>
    match maxSteps with
    | none => (g, legacyFrom solve g 0 (g.dataLength - g.horizon) ⟨g.states, g.production, g.costs, g.co2⟩)
    | some n =>
      if (n : Int) ≤ (g.dataLength : Int) - g.horizon then
        (g, legacyFrom solve g 0 n ⟨g.states, g.production, g.costs, g.co2⟩)
      else (g, .error .assertion)

end Pymgrid.MPC
