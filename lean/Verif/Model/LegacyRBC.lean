import Verif.Model.Legacy
import Mathlib.Data.List.Sort

set_option autoImplicit false

/-!
# Rule-based control of the legacy microgrid

`algos/rbc/_nonmodular_rbc.py`.
-/

namespace Pymgrid.Legacy

/-- The keys of a priority dict, in insertion order (`_nonmodular_rbc.py:29-44`). -/
inductive Gen
  | pv | battery | grid | genset
  deriving DecidableEq, Repr

/-- A priority dict; 0 means that the component is not used. -/
structure Priorities where
  pv : Nat
  battery : Nat
  grid : Nat
  genset : Nat
  deriving DecidableEq, Repr

/-- `priority_dict.items()`. -/
def Priorities.items (q : Priorities) : List (Gen × Nat) :=
  [(.pv, q.pv), (.battery, q.battery), (.grid, q.grid), (.genset, q.genset)]

/-- Python's `n * b` for a flag. -/
def times (n : Nat) (b : Bool) : Nat := if b then n else 0

/-- `_generate_priority_list` (`_nonmodular_rbc.py:15-46`); PV is always part of the architecture.  The grid status is
    0 or 1, `int(3 * status)` is a truncation towards zero.  With a grid the battery efficiency is read (line 25), see
    `baselineStep`. -/
def generatePriorities (a : Arch) (p : Params) (status priceImport priceExport : ℚ) : Priorities :=
  if a.grid then
    if priceExport / (p.eff ^ 2) < priceImport then
      ⟨1, times 2 a.battery, (3 * status).floor.toNat, times 4 a.genset⟩
    else ⟨1, times 3 a.battery, (2 * status).floor.toNat, times 4 a.genset⟩
  else ⟨1, times 2 a.battery, 0, times 4 a.genset⟩

/-- The local variables of `_run_priority_based` (`_nonmodular_rbc.py:68-82`). -/
structure Dispatch where
  load : ℚ
  excess : ℚ := 0
  charge : ℚ := 0
  discharge : ℚ := 0
  imp : ℚ := 0
  exp : ℚ := 0
  genset : ℚ := 0
  kept : ℚ := 0
  minLoad : ℚ := 0
  deriving DecidableEq, Repr

/-- `capa_to_charge` (`_nonmodular_rbc.py:124-128`); the room is divided by the efficiency here. -/
def Params.room (p : Params) (soc : ℚ) : ℚ := max ((p.socMax * p.capacity - soc * p.capacity) / p.eff) 0

/-- The body of the loop over the sorted priorities (`_nonmodular_rbc.py:112-163`). -/
def Dispatch.serve (p : Params) (pv soc : ℚ) (d : Dispatch) : Gen → Dispatch
  | .pv =>
    let own := min d.load pv
    { d with load := max 0 (d.load - own), excess := pv - own, kept := d.kept + pv - (pv - own) }
  | .battery =>
    if d.load > 0 then
      let x := max 0 (min (min (p.capaToDischarge soc) p.pDischarge) d.load)
      { d with discharge := x, load := d.load - x }
    else if d.excess > 0 then
      let x := max 0 (min (min (p.room soc) p.pCharge) d.excess)
      { d with charge := x, excess := d.excess - x, kept := d.kept + x }
    else d
  | .grid =>
    if d.load > 0 then { d with imp := d.load, load := 0 }
    else if d.excess > 0 then { d with exp := d.excess, excess := 0, kept := d.kept + d.excess }
    else d
  | .genset =>
    if d.load > 0 then { d with genset := d.load + d.minLoad, load := 0, minLoad := 0 } else d

/-- The preparation (`_nonmodular_rbc.py:81-105`): if PV and battery cannot serve the load and the grid does not come
    first, the minimum production of the genset is set aside, or, if it exceeds the load, only the genset runs. -/
def prepare (a : Arch) (p : Params) (load pv soc : ℚ) (q : Priorities) : Dispatch × Priorities :=
  if a.genset then
    let capa := max (min ((soc * p.capacity - p.socMin * p.capacity) * p.eff) p.pDischarge) 0
    let gridFirst := a.grid ∧ q.grid < q.genset ∧ q.grid > 0
    if load > pv + capa ∧ ¬ gridFirst then
      let m := p.rated * p.pmin
      if m ≤ load then ({ load := load - m, minLoad := m }, q)
      else ({ load := m, minLoad := m }, ⟨0, 0, 0, 1⟩)
    else ({ load }, q)
  else ({ load }, q)

/-- The components with a positive priority, in the order of the priorities (`sorted` is stable,
    `_nonmodular_rbc.py:107-114`). -/
def Priorities.order (q : Priorities) : List Gen :=
  ((q.items.insertionSort (fun x y => x.2 ≤ y.2)).filter (fun x => 0 < x.2)).map (·.1)

/-- The result of `_run_priority_based` (`_nonmodular_rbc.py:165-179`). -/
structure Plan where
  charge : ℚ
  discharge : ℚ
  genset : ℚ
  imp : ℚ
  exp : ℚ
  lossLoad : Bool
  pvKept : ℚ
  pvCurtailed : ℚ
  deriving DecidableEq, Repr

/-- `_run_priority_based` (`_nonmodular_rbc.py:48-179`).  Microgrids with a genset but without a battery have no column
    `battery_soc` (line 86). -/
def runPriorities (a : Arch) (p : Params) (load pv soc : ℚ) (q : Priorities) : Except Err Plan :=
  if a.genset ∧ ¬ a.battery then .error .key
  else
    let s := prepare a p load pv soc q
    let d := s.2.order.foldl (fun d x => d.serve p pv soc x) s.1
    .ok { charge := d.charge, discharge := d.discharge, genset := d.genset, imp := d.imp, exp := d.exp
          lossLoad := decide (d.load > 0), pvKept := d.kept, pvCurtailed := pv - d.kept }

/-- The control dict that is handed to `_record_production`. -/
def Plan.control (x : Plan) : Control :=
  { charge := some x.charge, discharge := some x.discharge, imp := some x.imp, exp := some x.exp, genset := some x.genset }

/-- The microgrid records that `run_rule_based` works on (copies of those of the microgrid). -/
structure Baseline where
  states : List StateRow
  production : Production := {}
  costs : List CostRow := []
  co2 : List ℚ := []
  deriving DecidableEq, Repr

/-- One turn of the loop of `run_rule_based` (`_nonmodular_rbc.py:217-287`).  Other than in `run`, the state of charge
    always follows the production. -/
def baselineStep (g : Grid) (b : Baseline) (i : Nat) : Except Err Baseline :=
  match g.loads[i]?, g.pvs[i]?, g.loads[i + 1]?, g.pvs[i + 1]? with
  | some load, some pv, some nextLoad, some nextPv =>
    match (if g.arch.grid then g.gridAt i else .ok ⟨0, 0, 0, 0⟩), (if g.arch.grid then g.gridAt (i + 1) else .ok ⟨0, 0, 0, 0⟩) with
    | .ok now, .ok next =>
      if g.arch.grid ∧ ¬ g.arch.battery then .error .key
      else
      let soc := (b.states.getLast?.map (·.soc)).getD 0
      let q := generatePriorities g.arch g.params now.status now.priceImport now.priceExport
      match runPriorities g.arch g.params load pv soc q with
      | .error e => .error e
      | .ok plan =>
        match record g.arch g.params load pv soc plan.control b.production with
        | (_, .error e) => .error e
        | (r, .ok ()) =>
          match r.last g.arch with
          | .error e => .error e
          | .ok l =>
            let co2 := co2Of g.arch g.params l now.co2
            let cost := costRow g.arch g.params l co2 now.priceImport now.priceExport
            let row := nextRow g.arch g.params soc l.charge l.discharge (some nextLoad) (some nextPv) g.t
              (if g.arch.grid then some next else none)
            .ok { states := b.states ++ [row], production := r, costs := b.costs ++ [cost], co2 := b.co2 ++ [co2] }
    | .error e, _ => .error e
    | .ok _, .error e => .error e
  | _, _, _, _ => .error .index

/-- The loop of `run_rule_based` from step `i` on. -/
def baselineFrom (g : Grid) : Nat → Nat → Baseline → Except Err Baseline
  | _, 0, b => .ok b
  | i, n + 1, b =>
    match baselineStep g b i with
    | .error e => .error e
    | .ok b => baselineFrom g (i + 1) n b

/-- `run_rule_based` (`_nonmodular_rbc.py:181-287`): the records are deep copies, so earlier entries stay.  `range` of a
    negative number is empty, as is truncated subtraction; `_data_length` is at least 2. -/
def runRuleBased (g : Grid) (length : Option Nat) : Except Err Baseline :=
  let n : Nat := match length with
    | none => g.dataLength - 1
    | some n => if n ≥ g.dataLength then g.dataLength - 1 else n
  baselineFrom g 0 (n - g.horizon) ⟨g.states, g.production, g.costs, g.co2⟩

end Pymgrid.Legacy
