import Verif.Model.Microgrid

set_option autoImplicit false

/-!
# `pymgrid/microgrid/reward_shaping/`
-/

namespace Pymgrid

namespace Shaper

/-- `BaseRewardShaper.sum_module_val` (`reward_shaping/base.py:10-16`): the sum of an attribute over the infos of a
    name.  A `KeyError`, for the name or for the attribute in any one of the infos, makes the result `0.0`.
    The attribute is given by the function that reads it from an info (`none` is a missing key). -/
def sumModuleVal (infos : List (String × List Info)) (name : String) (attr : Info → Option ℚ) : ℚ :=
  match dictGet? infos name with
  | none => 0
  | some l =>
    match l.mapM attr with
    | none => 0
    | some qs => qs.sum

/-- `BatteryDischargeShaper.__call__` (`reward_shaping/battery_discharge_shaper.py:23-35`).  A load of zero is a
    `ZeroDivisionError`, which is caught; this is what Python numbers do (numpy numbers would give `nan` or `inf`
    with a warning instead). -/
def batteryDischarge : Shaper := fun infos _ =>
  let discharge := sumModuleVal infos "battery" Info.provided
  let load := sumModuleVal infos "load" Info.absorbed
  let loss := sumModuleVal infos "unbalanced_energy" Info.provided
  if load = 0 then .ok 0
  else
    let p := (discharge - loss) / load
    if (-1 ≤ p ∧ p ≤ 1) ∨ isclose p 1 = true ∨ isclose p 0 = true then .ok p
    else .error .assertion

/-- `PVCurtailmentShaper.__call__` (`reward_shaping/pv_curtailment_shaper.py:15-17`). -/
def pvCurtailment : Shaper := fun infos _ =>
  .ok (-1 * sumModuleVal infos "pv" (fun i => dictGet? i.extra (.str "curtailment")))

end Shaper

end Pymgrid
