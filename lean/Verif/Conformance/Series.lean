import Verif.Model.Normalize
import Verif.Conformance.Genset

set_option autoImplicit false

/-!
# The repository's unit tests of loads and renewables, replayed on the model

`tests/microgrid/modules/module_tests/{timeseries_modules,test_load_module,test_renewable_module}.py`.  Tests of the model,
not proofs about it (see `Conformance/Genset.lean`).
-/

namespace Pymgrid.Conformance

open Pymgrid Module

/-- `_get_time_series`: `2 - cos(π k / 2)` for `k < 100`, without its rounding errors. -/
def wave : List ℚ := (List.range 100).map fun k => [1, 2, 3, 2].getD (k % 4) 0

/-- The module of the test (`get_module`), from the series or from its negative (the `NegativeVals` classes). -/
def waveModule (load neg oracle : Bool) : Module :=
  let xs := if neg then wave.map (fun x => -x) else wave
  let k := if oracle then FKind.oracle else FKind.none
  let h := if oracle then 24 else 0
  okModule (if load then mkLoad xs k h 0 (-1) false else mkRenewable xs k h 0 (-1) false)

/-- The series the test expects to see: negative for a load. -/
def waveSeen (load : Bool) : List ℚ := if load then wave.map (fun x => -x) else wave

/-- `test_init`: the state and the forecast. -/
def initOk (load neg oracle : Bool) : Bool :=
  let m := waveModule load neg oracle
  let n := if oracle then 25 else 1
  let fc := match m.kind with
    | .load t | .renewable t => (t.forecastValue 0).toOption
    | _ => none
  decide (m.state.toOption = some ((waveSeen load).take n)) &&
    decide (fc = some (if oracle then some ((((waveSeen load).drop 1).take 24).map fun x => [x]) else none))

example : ∀ load neg oracle : Bool, initOk load neg oracle = true := by decide +kernel

/-- `test_action_space`, `test_observation_space`. -/
def spacesOk (load neg oracle : Bool) : Bool :=
  let m := waveModule load neg oracle
  let n := if oracle then 25 else 1
  let lo : ℚ := if load then -3 else 0
  let hi : ℚ := if load then 0 else 3
  decide (m.actSpace.map (·.low) = some (if load then [] else [lo])) &&
    decide (m.actSpace.map (·.high) = some (if load then [] else [hi])) &&
    decide (m.obsSpace.low = List.replicate n lo) && decide (m.obsSpace.high = List.replicate n hi)

example : ∀ load neg oracle : Bool, spacesOk load neg oracle = true := by decide +kernel

/-- `test_step`: a load is met, a renewable provides what is asked for. -/
def stepOk (load neg oracle : Bool) : Bool :=
  let m := waveModule load neg oracle
  let n := if oracle then 25 else 1
  let a : Option Act := if load then some (.arr []) else (m.toNormalized true (.num 1)).toOption
  match a with
  | none => false
  | some a =>
    match m.step a true with
    | (m', .ok o) =>
      (match m'.fromNormalized false o.obs with
        | .ok (.arr l) => decide (l = ((waveSeen load).drop 1).take n)
        | .ok (.num q) => decide ([q] = ((waveSeen load).drop 1).take n)
        | .error _ => false) &&
      decide (o.reward = 0) && !o.done &&
      (if load then decide (o.info.absorbed = some 1)
       else decide (o.info.provided = some 1) && decide (o.info.extra = [(.str "curtailment", 0)]))
    | _ => false

example : ∀ load neg oracle : Bool, stepOk load neg oracle = true := by decide +kernel

/-- `test_observations_in_observation_space`: step until done, with actions drawn from the action space (here always its
    middle); every observation lies in the unit box and every state within the bounds.  Returns the number of steps. -/
def wander (load : Bool) : Nat → Module → Option Nat
  | 0, _ => none
  | k + 1, m =>
    match m.step (if load then .arr [] else .num (1/2)) false with
    | (m', .ok o) =>
      let inBox := match o.obs with
        | .num q => decide (0 ≤ q ∧ q ≤ 1)
        | .arr l => l.all fun q => decide (0 ≤ q ∧ q ≤ 1)
      let lo : ℚ := if load then -3 else 0
      let hi : ℚ := if load then 0 else 3
      let inBounds := match m'.state with
        | .ok l => l.all fun q => decide (lo ≤ q ∧ q ≤ hi)
        | .error _ => false
      if !(inBox && inBounds) then none
      else if o.done then some 1
      else (wander load k m').map (· + 1)
    | _ => none

example : ∀ load neg : Bool, wander load 200 (waveModule load neg false) = some 100 := by decide +kernel

end Pymgrid.Conformance
