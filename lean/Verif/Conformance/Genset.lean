import Verif.Spec.History

set_option autoImplicit false

/-!
# The repository's unit tests of the genset, replayed on the model

These are tests of the model, not proofs about it: each `example` below transcribes an assertion of the test suite in
`/repo/tests` (the file and test are named in the comment) and lets the kernel evaluate the model on the literal inputs.
A model that disagreed with what the maintainers' tests say the code does would not build.
-/

namespace Pymgrid.Conformance

open Pymgrid Module

/-- `get_genset(**new_params)` with the default parameters of `tests/helpers/genset_module_testing_utils.py`. -/
def genset (startUp windDown : Nat) (initStartUp raise : Bool) : Module :=
  okModule (mkGenset 10 100 (.const 1) 0 0 startUp windDown true initStartUp 0 raise)

/-- The five things the tests look at after a step: state, observation, reward, done, provided energy. -/
structure Seen where
  state : Option (List ℚ)
  obs : Act
  reward : ℚ
  done : Bool
  provided : Option ℚ
  deriving DecidableEq

/-- Take the actions one after another and report the last step. -/
def last (m : Module) (normalized : Bool) : List (List ℚ) → Module × Except Err Seen
  | [] => (m, .error .notImplemented)
  | [a] =>
    match m.step (.arr a) normalized with
    | (m', .ok o) => (m', .ok ⟨m'.state.toOption, o.obs, o.reward, o.done, o.info.provided⟩)
    | (m', .error e) => (m', .error e)
  | a :: rest =>
    match m.step (.arr a) normalized with
    | (m', .ok _) => last m' normalized rest
    | (m', .error e) => (m', .error e)

/-- The outcome of the last step, to be compared. -/
def seen (m : Module) (as : List (List ℚ)) (normalized : Bool := true) : Option Seen :=
  (last m normalized as).2.toOption

/-- The exception of the last step. -/
def raised (m : Module) (as : List (List ℚ)) (normalized : Bool := true) : Option Err :=
  match (last m normalized as).2 with
  | .error e => some e
  | .ok _ => none

/-- `test_init_start_up`, `test_on_at_start_up`, `test_off_at_start_up`. -/
example : ((genset 0 0 true true).state.toOption, (genset 0 0 false true).state.toOption)
    = (some [1, 1, 0, 0], some [0, 0, 0, 0]) := by decide +kernel
example : ((genset 2 3 true true).state.toOption, (genset 1 0 false true).state.toOption,
    (genset 1 0 true true).state.toOption)
    = (some [1, 1, 0, 3], some [0, 0, 1, 0], some [1, 1, 0, 0]) := by decide +kernel

/-- `test_step_out_of_range_goal_status`, `test_step_out_of_normalized_range_production`. -/
example : raised (genset 0 0 true true) [[-1/2, 1/2]] = some .assertion := by decide +kernel
example : raised (genset 0 0 true true) [[-1/2, 2]] = some .assertion := by decide +kernel

/-- `test_step_incorrect_action_shape`. -/
example : ((genset 0 0 true true).step (.num (1/2)) true).2 matches .error .type := by decide +kernel
example : raised (genset 0 0 true true) [[1, 1, 1]] = some .type := by decide +kernel

/-- `test_step_unnormalized_production`, `test_step_normalized_production`. -/
example : seen (genset 0 0 true true) [[1, 50]] false
    = some ⟨some [1, 1, 0, 0], .arr [1, 1, 0, 0], -50, false, some 50⟩ := by decide +kernel
example : seen (genset 0 0 true true) [[1, 1/2]]
    = some ⟨some [1, 1, 0, 0], .arr [1, 1, 0, 0], -50, false, some 50⟩ := by decide +kernel

/-- `test_step_immediate_status_change`. -/
example : seen (genset 0 0 true true) [[0, 0]]
    = some ⟨some [0, 0, 0, 0], .arr [0, 0, 0, 0], 0, false, some 0⟩ := by decide +kernel

/-- `test_step_genset_off_production_request_error_raise`, `..._no_error_raise`. -/
example : raised (genset 0 0 true true) [[0, 1/2]] = some .value := by decide +kernel
example : seen (genset 0 0 true false) [[0, 1/2]]
    = some ⟨some [0, 0, 0, 0], .arr [0, 0, 0, 0], 0, false, some 0⟩ := by decide +kernel

/-- `test_step_genset_production_request_out_of_range_no_error_raise`: 4 is below the minimum, 130 above the maximum. -/
example : seen (genset 0 0 true false) [[1, 4/100]]
    = some ⟨some [1, 1, 0, 0], .arr [1, 1, 0, 0], -10, false, some 10⟩ := by decide +kernel
example : seen (genset 0 0 true false) [[1, 130/100]]
    = some ⟨some [1, 1, 0, 0], .arr [1, 1, 0, 0], -100, false, some 100⟩ := by decide +kernel

/-- `TestGensetStartUp1WindDown0OffAtStartUp.test_warm_up`, `test_step_start_up_1_exception`,
    `test_step_start_up_1_no_exception`. -/
example : seen (genset 1 0 false true) [[1, 0]]
    = some ⟨some [0, 1, 0, 0], .arr [0, 1, 0, 0], 0, false, some 0⟩ := by decide +kernel
example : raised (genset 1 0 false true) [[1, 1/2]] = some .value := by decide +kernel
example : seen (genset 1 0 false true) [[1, 0], [1, 1/2]]
    = some ⟨some [1, 1, 0, 0], .arr [1, 1, 0, 0], -50, false, some 50⟩ := by decide +kernel

/-- `test_start_up_1_request_below_min_exception_raise`, `..._no_exception`. -/
example : raised (genset 1 0 false true) [[1, 0], [1, 4/100]] = some .value := by decide +kernel
example : seen (genset 1 0 false false) [[1, 0], [1, 4/100]]
    = some ⟨some [1, 1, 0, 0], .arr [1, 1, 0, 0], -10, false, some 10⟩ := by decide +kernel

/-- `test_start_up_1_then_shut_down_exception_raise`, `..._no_exception`. -/
example : raised (genset 1 0 false true) [[1, 0], [1/10, 1/2]] = some .value := by decide +kernel
example : seen (genset 1 0 false false) [[1, 0], [1/10, 1/2]]
    = some ⟨some [0, 0, 1, 0], .arr [0, 0, 1, 0], 0, false, some 0⟩ := by decide +kernel

/-- `TestGensetStartUp1WindDown0OnAtStartUp.test_warm_up`, `test_shut_down`. -/
example : seen (genset 1 0 true true) [[1, 10/100]]
    = some ⟨some [1, 1, 0, 0], .arr [1, 1, 0, 0], -10, false, some 10⟩ := by decide +kernel
example : seen (genset 1 0 true true) [[1, 10/100], [0, 0]]
    = some ⟨some [0, 0, 1, 0], .arr [0, 0, 1, 0], 0, false, some 0⟩ := by decide +kernel

/-- State, reward and provided energy after the last step (the tests of long status changes do not look at the
    observation). -/
def brief (m : Module) (as : List (List ℚ)) : Option (Option (List ℚ) × ℚ × Bool × Option ℚ) :=
  (seen m as).map fun s => (s.state, s.reward, s.done, s.provided)

/-- A request to turn off while producing 50, and one while producing nothing. -/
def off50 : List ℚ := [0, 1/2]
def off0 : List ℚ := [0, 0]
def on0 : List ℚ := [1, 0]
def on50 : List ℚ := [1, 1/2]

/-- `TestGensetStartUp2WindDown3OnAtStartUp.test_turn_off_step_1` … `test_turn_off_step_4_final`. -/
example : brief (genset 2 3 true true) [off50] = some (some [1, 0, 0, 2], -50, false, some 50) := by decide +kernel
example : brief (genset 2 3 true true) [off50, off50] = some (some [1, 0, 0, 1], -50, false, some 50) := by
  decide +kernel
example : brief (genset 2 3 true true) [off50, off50, off50] = some (some [1, 0, 0, 0], -50, false, some 50) := by
  decide +kernel
example : brief (genset 2 3 true true) [off50, off50, off50, off0] = some (some [0, 0, 2, 0], 0, false, some 0) := by
  decide +kernel

/-- `test_turn_on_after_turn_off_step_1`, `_step_2`, `_final`. -/
example : brief (genset 2 3 true true) [off50, off50, off50, off0, on0]
    = some (some [0, 1, 1, 0], 0, false, some 0) := by decide +kernel
example : brief (genset 2 3 true true) [off50, off50, off50, off0, on0, on0]
    = some (some [0, 1, 0, 0], 0, false, some 0) := by decide +kernel
example : brief (genset 2 3 true true) [off50, off50, off50, off0, on0, on0, on50]
    = some (some [1, 1, 0, 3], -50, false, some 50) := by decide +kernel

/-- Aborting the wind-down after two steps, and the start-up after one. -/
example : brief (genset 2 3 true true) [off50, off50, on50] = some (some [1, 1, 0, 3], -50, false, some 50) := by
  decide +kernel
example : brief (genset 2 3 false true) [on0] = some (some [0, 1, 1, 0], 0, false, some 0) := by decide +kernel
example : brief (genset 2 3 false true) [on0, off0] = some (some [0, 0, 2, 0], 0, false, some 0) := by decide +kernel

end Pymgrid.Conformance
