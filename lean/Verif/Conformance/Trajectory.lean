import Verif.Model.Generator
import Verif.Conformance.Microgrid

set_option autoImplicit false

/-!
# The repository's unit tests of trajectories and of the generator, replayed on the model

`tests/envs/test_trajectory.py`, `tests/test_microgridgenerator.py`.  Tests of the model, not proofs about it (see
`Conformance/Genset.lean`).
-/

namespace Pymgrid.Conformance

open Pymgrid Module

/-- `get_modular_microgrid(timeseries_length=n)` with a trajectory function. -/
def tracked (n : Nat) (tr : Option (Nat → Nat → Option Nat → Except Err (Nat × Nat))) : Except Err Microgrid :=
  let ms : List (String × Module) :=
    [("genset", okModule (mkGenset 10 50 (.const (1/2)) 0 0 0 0 true true 0 false)),
     ("battery", okModule (mkBattery 0 100 50 50 1 0 none none (some (1/2)) 0 true)),
     ("renewable", okModule (mkRenewable (List.replicate n 50) .none 23 0 (-1) false)),
     ("load", okModule (mkLoad (List.replicate n 60) .none 23 0 (-1) false)),
     ("grid", okModule (mkGrid 100 0 3 (List.replicate n [1, 1, 1]) .none 23 0 (-1) 0 true)),
     ("balancing", mkBalancing false 0 10 2)]
  let h : Heap := fun i => ((ms[i]?).map Prod.snd).getD (mkBalancing false 0 0 0)
  Microgrid.create h (ms.zipIdx.map fun p => (p.1.1, p.2)) none tr

/-- `check_initial_final_steps`: the steps of the microgrid before and after a reset, and those of the modules after it. -/
def stepsOf (r : Except Err Microgrid) : Option (List (Nat × Option Nat) × List Nat × List Nat) :=
  match r with
  | .error _ => none
  | .ok g =>
    match g.reset with
    | (g', .ok ()) =>
      let ids := (Container.toTuples g'.cont.fullDict).map Prod.snd
      some ([(g.initialStep, g.finalStep), (g'.initialStep, g'.finalStep)],
        (ids.map fun i => (g'.heap i).initialStep).dedup, (ids.filterMap fun i => (g'.heap i).finalStep?).dedup)
    | _ => none

/-- `test_none_trajectory`, `test_deterministic_trajectory`. -/
example : stepsOf (tracked 100 none) = some ([(0, some 100), (0, some 100)], [0], [100]) := by decide +kernel
example : stepsOf (tracked 100 (some fun _ _ _ => .ok (10, 20)))
    = some ([(0, some 100), (0, some 100)], [10], [20]) := by decide +kernel

/-- `test_bad_trajectory_out_of_range`, `test_bad_trajectory_initial_gt_final`. -/
example : (tracked 100 (some fun _ _ _ => .ok (10, 110))) matches .error .value := by decide +kernel
example : (tracked 100 (some fun _ _ _ => .ok (20, 10))) matches .error .value := by decide +kernel

/-- Number of steps of a discrete environment until it is done; the sampled action varies. -/
def episodeLength : Nat → DiscreteEnv → Nat → Option Nat
  | 0, _, _ => none
  | k + 1, e, a =>
    match e.step ((a % 12 : Nat) : Int) with
    | (_, .error _) => none
    | (e', .ok o) => if o.done then some 1 else (episodeLength k e' (a + 5)).map (· + 1)

/-- Several episodes, each after a reset. -/
def episodes : Nat → DiscreteEnv → List (Option Nat)
  | 0, _ => []
  | k + 1, e =>
    match e.reset with
    | (_, .error _) => []
    | (e', .ok ()) =>
      episodeLength 20 e' k :: episodes k
        ((List.range 20).foldl (fun (s : DiscreteEnv × Bool × Nat) _ =>
          if s.2.1 then s else
            match s.1.step ((s.2.2 % 12 : Nat) : Int) with
            | (e₂, .ok o) => (e₂, o.done, s.2.2 + 5)
            | (e₂, .error _) => (e₂, true, s.2.2)) (e', false, k)).1

/-- `test_correct_trajectory_length`: the function counts its calls, the first of which the constructor makes, and the
    episodes have 3, 4, 5 and 6 steps. -/
example : (((tracked 25 (some fun k _ _ => .ok (10, 11 + (k + 1)))).toOption.bind
    fun g => (DiscreteEnv.create g false false).toOption).map (episodes 4)) = some [some 3, some 4, some 5, some 6] := by
  decide +kernel

/-! ### `tests/test_microgridgenerator.py` -/

/-- `test_size_mg`, `test_size_genset`, `test_size_battery` (3, 4 or 5 hours). -/
example : Legacy.Generator.sizeGrid [0, 1, 2, 3, 4, 5, 6, 7, 8, 9] = 18 := by decide +kernel
example : Legacy.Generator.sizeGenset [10, 10, 10] = 12 := by decide +kernel
example : ∀ hours ∈ [3, 4, 5], 30 ≤ Legacy.Generator.sizeBattery [10, 10, 10] hours ∧
    Legacy.Generator.sizeBattery [10, 10, 10] hours ≤ 50 := by decide +kernel

end Pymgrid.Conformance
