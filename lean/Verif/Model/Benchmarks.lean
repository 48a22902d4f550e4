import Verif.Model.SAA

set_option autoImplicit false

/-!
# Benchmarks and their reports (`algos/Control.py:75-129,202-411`)
-/

namespace Pymgrid.Bench

open Legacy

/-- A number in a record; `none` is `nan`. -/
abbrev Cell := Option ℚ

/-- `np.sum` of a list of floats: `nan` if one of them is (`Control.py:376,381,386,392-409`). -/
def sumCells : List Cell → Cell
  | [] => some 0
  | x :: l =>
    match x, sumCells l with
    | some a, some b => some (a + b)
    | _, _ => none

/-- A dict of records, `{column: list}`. -/
abbrev Columns := List (String × List Cell)

/-- `ControlOutput` (`Control.py:75-129`): the records under `'action'`, `'status'`, `'production'`, `'cost'` and `'co2'`. -/
abbrev Output := List (String × Columns)

/-- The output that the algorithms make of their records (`mpc.py:707-713`, `_nonmodular_rbc.py:282-287`, `Control.py:118-129`).
    Simplified: of the state only load and PV, of production only the PV columns; the actions, which have as many entries as
    the production, are left out. -/
def outputOf (b : Baseline) : Output :=
  [("status", [("load", b.states.map (·.load)), ("pv", b.states.map (·.pv))]),
   ("production", [("loss_load", b.production.pv.map fun r => some r.lossLoad),
     ("overgeneration", b.production.pv.map fun r => some r.overgen)]),
   ("cost", [("total_cost", b.costs.map fun r => some r.total)]),
   ("co2", [("co2", b.co2.map some)])]

/-- `output['cost']['total_cost']` (`Control.py:355`). -/
def totalCosts (o : Output) : Except Err (List Cell) :=
  match dictGet? o "cost" with
  | none => .error .key
  | some c =>
    match dictGet? c "total_cost" with
    | none => .error .key
    | some l => .ok l

/-- The length of the longest column (`Control.py:204-208`). -/
def maxLen (o : Output) : Nat := ((o.flatMap (·.2)).map fun c => c.2.length).foldr max 0

/-- `v.extend([np.nan]*(max_len-len(v)))` (`Control.py:211-213`). -/
def padTo (n : Nat) (l : List Cell) : List Cell := l ++ List.replicate (n - l.length) none

/-- `ControlOutput.to_frame` (`Control.py:202-215`).  The lists of the output itself are extended, so there is a new output
    beside the columns of the frame. -/
def toFrame (o : Output) : Output × List ((String × String) × List Cell) :=
  let o' := o.map fun x => (x.1, x.2.map fun c => (c.1, padTo (maxLen o) c.2))
  (o', o'.flatMap fun x => x.2.map fun c => ((x.1, c.1), c.2))

/-- `Benchmarks` (`Control.py:258-270`).  `mpc_output` and `has_mpc_benchmark` are the entry `'mpc'` of `outputs_dict`, which
    is set together with them (`Control.py:280-282`); likewise for the others. -/
structure Benchmarks where
  grid : Grid
  outputs : List (String × Output) := []

/-- `run_mpc_benchmark` (`Control.py:272-282`). -/
def Benchmarks.runMpc (solve : MPC.Solver) (b : Benchmarks) (steps : Option Nat) : Benchmarks × Except Err Unit :=
  match MPC.createLegacy b.grid with
  | .error e => (b, .error e)
  | .ok () =>
    match MPC.runLegacy solve b.grid steps with
    | (g, .error e) => ({ b with grid := g }, .error e)
    | (g, .ok r) => ({ grid := g, outputs := dictSet b.outputs "mpc" (outputOf r) }, .ok ())

/-- `run_rule_based_benchmark` (`Control.py:284-294`). -/
def Benchmarks.runRuleBased (b : Benchmarks) : Benchmarks × Except Err Unit :=
  match Legacy.runRuleBased b.grid none with
  | .error e => (b, .error e)
  | .ok r => ({ b with outputs := dictSet b.outputs "rbc" (outputOf r) }, .ok ())

/-- `run_saa_benchmark` (`Control.py:296-301`): a new object each time, so there are no previous samples. -/
def Benchmarks.runSaa (solve : MPC.Solver) (select : MPC.Selector) (b : Benchmarks) (fresh : List MPC.Frame)
    (steps : Option Nat) (p : ℚ) : Benchmarks × Except Err Unit :=
  match MPC.SAA.run solve select { grid := b.grid } fresh true steps p with
  | (_, .error e) => (b, .error e)
  | (_, .ok r) => ({ b with outputs := dictSet b.outputs "saa" (outputOf r) }, .ok ())

/-- The list index that a slice bound means: negative ones count from the end. -/
def sliceAt (len : Nat) (i : Int) : Nat := if i < 0 then ((len : Int) + i).toNat else i.toNat

/-- `round(x, n)` with `10 ^ n = k`, in exact arithmetic. -/
def roundTo (k : ℚ) (x : ℚ) : ℚ := pyRound (k * x) / k

/-- What is printed for one algorithm (`Control.py:374-411`). -/
inductive Line
  /-- cost of the last steps -/
  | last (alg : String) (steps : Int) (percent : ℚ) (cost : Cell)
  /-- costs of the test set and of the training set -/
  | split (alg : String) (test train : Cell)
  deriving DecidableEq, Repr

/-- The algorithms in the order of the report (`Control.py:375,380,385`). -/
def reported : List String := ["mpc", "rbc", "saa"]

/-- `if self.has_…_benchmark and … in algorithms` for the algorithms in turn (`Control.py:375-411`). -/
def linesOf (outs : List (String × Output)) (asked : List String) (f : String → List Cell → Line) :
    List String → Except Err (List Line)
  | [] => .ok []
  | a :: as =>
    match dictGet? outs a with
    | none => linesOf outs asked f as
    | some o =>
      if asked.contains a then
        match totalCosts o, linesOf outs asked f as with
        | .ok l, .ok r => .ok (f a l :: r)
        | .error e, _ => .error e
        | _, .error e => .error e
      else linesOf outs asked f as

/-- `t_vals` (`Control.py:353-355`). -/
def lengthsOf : List (String × Output) → Except Err (List Nat)
  | [] => .ok []
  | x :: outs =>
    match totalCosts x.2, lengthsOf outs with
    | .ok l, .ok r => .ok (l.length :: r)
    | .error e, _ => .error e
    | _, .error e => .error e

/-- The checks of the arguments for a split (`Control.py:362-370`). -/
def checkSplit (T : Nat) (ratio : Option ℚ) (index : Option Int) : Except Err Unit :=
  if ratio.isNone ∧ index.isNone then .error .value
  else if ratio.isSome ∧ index.isSome then .error .value
  else if ∃ r ∈ ratio, ¬ (0 ≤ r ∧ r ≤ 1) then .error .value
  else if ∃ i ∈ index, i > (T : Int) then .error .value
  else .ok ()

/-- The report itself (`Control.py:374-411`); the warning for lengths other than 8736 is omitted. -/
def report (outs : List (String × Output)) (asked : List String) (T : Nat) (split : Bool) (ratio : Option ℚ)
    (index : Option Int) : Except Err (List Line) :=
  if split = false ∨ ratio.isSome then
    let r := if split then ratio.getD 1 else 1
    let start : Int := ⌈(T : ℚ) * (1 - r)⌉
    linesOf outs asked (fun a l =>
      .last a (T - start) (roundTo 10 (r * 100)) ((sumCells (l.drop (sliceAt l.length start))).map (roundTo 100))) reported
  else
    linesOf outs asked (fun a l =>
      .split a ((sumCells (l.drop (match index with | none => 0 | some i => sliceAt l.length i))).map (roundTo 100))
        ((sumCells (l.take (match index with | none => l.length | some i => sliceAt l.length i))).map (roundTo 100))) reported

/-- `describe_benchmarks` (`Control.py:326-411`). -/
def describe (outs : List (String × Output)) (split : Bool) (ratio : Option ℚ) (index : Option Int)
    (algorithms : Option (List String)) : Except Err (List Line) :=
  if (algorithms.getD []).any (fun a => !reported.contains a) then .error .value
  else
    match lengthsOf outs with
    | .error e => .error e
    | .ok ts =>
      match ts with
      | [] => .error .index
      | T :: ts =>
        if ts.all (fun t => decide (t = T)) = false then .error .value
        else if split then
          match checkSplit T ratio index with
          | .error e => .error e
          | .ok () => report outs (algorithms.getD reported) T split ratio index
        else report outs (algorithms.getD reported) T split ratio index

/-- `run_benchmarks` with `algo=None` (`Control.py:303-324`); `kwargs` are the number of steps for MPC. -/
def Benchmarks.runAll (solve : MPC.Solver) (select : MPC.Selector) (b : Benchmarks) (fresh : List MPC.Frame) (p : ℚ)
    (verbose : Bool) : Benchmarks × Except Err (List Line) :=
  match b.runMpc solve none with
  | (b, .error e) => (b, .error e)
  | (b, .ok ()) =>
    match b.runRuleBased with
    | (b, .error e) => (b, .error e)
    | (b, .ok ()) =>
      match b.runSaa solve select fresh none p with
      | (b, .error e) => (b, .error e)
      | (b, .ok ()) => if verbose then (b, describe b.outputs false none none none) else (b, .ok [])

/-- `NonModularMicrogrid.print_benchmark_cost` (`non_modular_microgrid.py:1189-1205`): the benchmarks described are new
    ones, of which none has been run.  `limit` is `_limit_index` if there is a training set. -/
def printBenchmarkCost (g : Grid) (limit : Option Int) : Except Err (List Line) :=
  let b : Benchmarks := { grid := g }
  match limit with
  | some i => describe b.outputs true none (some i) none
  | none => describe b.outputs false none none none

end Pymgrid.Bench
