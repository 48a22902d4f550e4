import Verif.Spec.Microgrid
import Verif.Model.GetLog
import Verif.Model.Sample
import Verif.Model.Env
import Verif.Conformance.Series

set_option autoImplicit false

/-!
# The repository's unit tests of the microgrid, replayed on the model

`tests/microgrid/test_microgrid.py`, `tests/envs/test_discrete.py`.  Tests of the model, not proofs about it (see
`Conformance/Genset.lean`).  Where the tests draw random series, fixed ones stand for them.
-/

namespace Pymgrid.Conformance

open Pymgrid Module

/-! ### `TestMicrogridLoadPV` and its subclasses -/

/-- `Microgrid([load, …, pv, …])` with one module per series and the balancing module that `__init__` adds
    (`add_unbalanced_module=True`, `loss_load_cost=10`, `overgeneration_cost=2`). -/
def loadPv (loads pvs : List (List ℚ)) : Microgrid :=
  let ms := loads.map (fun s => ("load", okModule (mkLoad s .none 23 0 (-1) true))) ++
    pvs.map (fun s => ("renewable", okModule (mkRenewable s .none 23 0 (-1) true))) ++
    [("balancing", mkBalancing false 0 10 2)]
  let h : Heap := fun i => ((ms[i]?).map Prod.snd).getD (mkBalancing false 0 0 0)
  okGrid (Microgrid.create h (ms.zipIdx.map fun p => (p.1.1, p.2)) none none)

/-- Sum of the series at a step. -/
def sumAt (ss : List (List ℚ)) (t : Nat) : ℚ := (ss.map fun s => s.getD t 0).sum

/-- `log_entry(module, entry)`: the sum of the entries of that kind in the row. -/
def logEntry (g : Microgrid) (t : Nat) (module entry : String) : Option ℚ :=
  match g.getLog with
  | .error _ => none
  | .ok f =>
    let cs := f.cols.filter fun c => decide (c.1.1 = module) &&
      (match c.1.2.2 with
        | .str s => decide (s = entry)
        | .cur s => decide (s ++ "_current" = entry)
        | .fc _ _ => false)
    if cs.isEmpty then none else some ((cs.map fun c => ((c.2[t]?).getD none).getD 0).sum)

/-- `check_step` (`test_microgrid.py`), for all steps of the series. -/
def checkSteps (loads pvs : List (List ℚ)) : Nat → Nat → Microgrid → Bool
  | 0, _, _ => true
  | k + 1, t, g =>
    match g.run [] true with
    | (_, .error _) => false
    | (g', .ok o) =>
      let l := sumAt loads t
      let p := sumAt pvs t
      let lossLoadCost := 10 * max (l - p) 0
      let met := min l p
      let entry := logEntry g' t
      (PriorityList.emptyAction g).isEmpty && decide (lossLoadCost = -1 * o.reward) &&
      (match g'.getLog with | .ok f => decide (f.index.length = t + 1) | .error _ => false) &&
      decide (entry "load" "load_current" = some (-1 * l)) && decide (entry "load" "load_met" = some l) &&
      decide (entry "renewable" "renewable_current" = some p) && decide (entry "renewable" "renewable_used" = some met) &&
      decide (entry "renewable" "curtailment" = some (max (p - met) 0)) &&
      decide (entry "balancing" "loss_load" = some (max (l - met) 0)) &&
      decide (entry "balance" "reward" = some (-1 * lossLoadCost)) &&
      decide (entry "balance" "overall_provided_to_microgrid" = some l) &&
      decide (entry "balance" "overall_absorbed_from_microgrid" = some l) &&
      decide (entry "balance" "fixed_provided_to_microgrid" = some 0) &&
      decide (entry "balance" "fixed_absorbed_from_microgrid" = some l) &&
      decide (entry "balance" "controllable_absorbed_from_microgrid" = some 0) &&
      decide (entry "balance" "controllable_provided_to_microgrid" = some 0) &&
      checkSteps loads pvs k (t + 1) g'

/-- `TestMicrogridLoadPV`: equal series. -/
example : checkSteps [[3, 7/2, 9, 1/3]] [[3, 7/2, 9, 1/3]] 4 0 (loadPv [[3, 7/2, 9, 1/3]] [[3, 7/2, 9, 1/3]]) = true := by
  decide +kernel

/-- `TestMicrogridLoadExcessPV`. -/
example : checkSteps [[3, 7/2, 9, 1/3]] [[5, 7/2, 13, 4]] 4 0 (loadPv [[3, 7/2, 9, 1/3]] [[5, 7/2, 13, 4]]) = true := by
  decide +kernel

/-- `TestMicrogridPVExcessLoad`. -/
example : checkSteps [[5, 7/2, 13, 4]] [[3, 7/2, 9, 1/3]] 4 0 (loadPv [[5, 7/2, 13, 4]] [[3, 7/2, 9, 1/3]]) = true := by
  decide +kernel

/-- `TestMicrogridTwoLoads`, `TestMicrogridTwoPV`, `TestMicrogridTwoEach`. -/
example : checkSteps [[1, 2, 4], [2, 3/2, 5]] [[3, 7/2, 9]] 3 0 (loadPv [[1, 2, 4], [2, 3/2, 5]] [[3, 7/2, 9]]) = true := by
  decide +kernel
example : checkSteps [[3, 7/2, 9]] [[1, 2, 4], [2, 3/2, 5]] 3 0 (loadPv [[3, 7/2, 9]] [[1, 2, 4], [2, 3/2, 5]]) = true := by
  decide +kernel
example : checkSteps [[1, 2, 4], [5, 3/2, 1]] [[2, 1, 8], [1, 6, 2]] 3 0
    (loadPv [[1, 2, 4], [5, 3/2, 1]] [[2, 1, 8], [1, 6, 2]]) = true := by decide +kernel

/-- `TestMicrogridManyEach`. -/
example : checkSteps [[1, 2], [5, 3/2], [7, 1/8], [1, 1]] [[2, 1], [1, 6], [3, 1]] 2 0
    (loadPv [[1, 2], [5, 3/2], [7, 1/8], [1, 1]] [[2, 1], [1, 6], [3, 1]]) = true := by decide +kernel

/-- `test_sample_action`, `test_sample_action_with_flex`, `test_current_load_correct`, `test_populated_correctly`. -/
example : ((loadPv [[1, 2]] [[2, 1], [1, 6]]).sampleAction false false (fun _ _ => (1/3, 1/2))).toOption = some [] := by
  decide +kernel
example : (((loadPv [[1, 2]] [[2, 1], [1, 6]]).sampleAction false true (fun _ _ => (1/3, 1/2))).toOption.map
    fun d => d.map fun kv => (kv.1, kv.2.length)) = some [("renewable", 2), ("balancing", 1)] := by decide +kernel
example : (loadPv [[1, 2], [3, 4]] [[2, 1], [1, 6]]).cont.fullDict.map (fun nl => (nl.1, nl.2.length))
    = [("load", 2), ("renewable", 2), ("balancing", 1)] := by decide +kernel

/-! ### `TestMicrogrid` -/

/-- The modules of `tests/helpers/modular_microgrid.py`, with shorter series. -/
def modularMods : List (String × Module) :=
  [("genset", okModule (mkGenset 10 50 (.const (1/2)) 0 0 0 0 true true 0 false)),
   ("battery", okModule (mkBattery 0 100 50 50 1 0 none none (some (1/2)) 0 true)),
   ("renewable", okModule (mkRenewable (List.replicate 10 50) .none 23 0 (-1) false)),
   ("load", okModule (mkLoad (List.replicate 10 60) .none 23 0 (-1) false)),
   ("grid", okModule (mkGrid 100 0 3 (List.replicate 10 [1, 1, 1]) .none 23 0 (-1) 0 true)),
   ("balancing", mkBalancing false 0 10 2)]

/-- `get_modular_microgrid(remove_modules=…)`. -/
def modular (remove : List String) : Microgrid :=
  let ms := modularMods.filter fun m => decide (m.1 ∉ remove)
  let h : Heap := fun i => ((ms[i]?).map Prod.snd).getD (mkBalancing false 0 0 0)
  okGrid (Microgrid.create h (ms.zipIdx.map fun p => (p.1.1, p.2)) none none)

/-- `test_empty_action_without_load`, `test_empty_action_with_load`. -/
example : PriorityList.emptyAction (modular ["load"]) = [("genset", [none]), ("battery", [none]), ("grid", [none])] := by decide +kernel
example : PriorityList.emptyAction (modular []) = [("genset", [none]), ("battery", [none]), ("grid", [none])] := by decide +kernel

/-- Any sampled action: the draws vary with the step. -/
def sampled (g : Microgrid) (k : Nat) : Data :=
  ((g.sampleAction false false fun _ _ => ((k + 1 : ℚ) / (k + 3), 1 / (k + 1))).toOption).getD []

/-- `test_current_step`, `test_current_step_after_reset`. -/
def stepsSeen : Nat → Nat → Microgrid → List (Option Nat)
  | 0, _, g => [g.currentStep.toOption, g.reset.1.currentStep.toOption]
  | k + 1, t, g =>
    g.currentStep.toOption :: stepsSeen k (t + 1) (g.run ((sampled g t).map fun nl => (nl.1, Ctrl.seq nl.2)) true).1

example : stepsSeen 4 0 (modular []) = [some 0, some 1, some 2, some 3, some 4, some 0] := by decide +kernel

/-- `test_get_cost_info`: one pair per module. -/
example : ∀ name ∈ ["genset", "battery", "renewable", "load", "grid", "balancing"],
    ((costInfo (modular []).heap (modular []).cont.fullDict).toOption.bind fun c => (c.lookup name).map List.length) = some 1 := by
  decide +kernel

/-- `TestDiscreteEnv.test_action_space`: `factorial(n_action_modules) * 2 ** genset_modules` actions, here `3! * 2`, and
    `2!` without the genset. -/
example : ((DiscreteEnv.create (modular []) false false).toOption.map (·.n)) = some 12 := by decide +kernel
example : ((DiscreteEnv.create (modular ["genset"]) false false).toOption.map (·.n)) = some 2 := by decide +kernel

end Pymgrid.Conformance
