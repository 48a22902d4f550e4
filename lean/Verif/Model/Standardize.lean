import Verif.Model.Legacy

/-!
# Standardised actions: `ContinuousMicrogridEnv` of `pymgrid/_deprecated/Environments/pymgrid_csca.py`

Only the actions are modelled; observations are standardised by the same function.
-/

namespace Pymgrid.Legacy

/-- One entry in `standardize` (`pymgrid_csca.py:388-391`). -/
def scale1 (forward : Bool) (x : ℚ) (ms : ℚ × ℚ) : ℚ := if forward then (x - ms.1) / ms.2 else x * ms.2 + ms.1

/-- `standardize` (`pymgrid_csca.py:354-391`) on arrays of one dimension, with means and standard deviations given; `none` is the
    ValueError for different shapes. -/
def standardize (forward : Bool) (data mean std : List ℚ) : Option (List ℚ) :=
  if data.length = mean.length ∧ mean.length = std.length then some (List.zipWith (scale1 forward) data (mean.zip std)) else none

/-- `action_keys` (`pymgrid_csca.py:413` and `:426`).  With a generator it is a pair of two names: the quotes of line 413 enclose
    the five last names together. -/
def actionKeys (genset : Bool) : List String :=
  if genset then ["genset", "grid_import, grid_export, battery_charge, battery_discharge, pv_consummed"]
  else ["grid_import", "grid_export", "battery_charge", "battery_discharge", "pv_consummed"]

/-- The means and standard deviations of `pre_compute_standardizations` for actions (`pymgrid_csca.py:393-457`); `none` is the
    KeyError of a missing column.  Simplified: `columns` gives mean and standard deviation of each column of the actions
    of the run of model predictive control, as rational numbers. -/
def actionScales (genset : Bool) (columns : String → Option (ℚ × ℚ)) : Option (List ℚ × List ℚ) :=
  match (actionKeys genset).mapM columns with
  | none => none
  | some l => some (l.map (·.1), l.map fun ms => if ms.2 < 1 then 1 else ms.2)

/-- `_get_action_ub_lb` (`pymgrid_csca.py:205-233`), upper bounds first; `pvMax` is `PV_rated_power`. -/
def actionBounds (genset : Bool) (p : Params) (pvMax : ℚ) : List ℚ × List ℚ :=
  let up := [p.pImport, p.pExport, p.pCharge, p.pDischarge, pvMax]
  let low := [0, 0, 0, 0, 0]
  if genset then ((p.rated * p.pmax) :: up, (p.rated * p.pmin) :: low) else (up, low)

/-- The action space of the standardised environment (`pymgrid_csca.py:189-201`), lower bounds first, with the scales it is
    made with.  Line 200 sets the upper bound at position 1 to 0.1. -/
def actionBox (genset : Bool) (p : Params) (pvMax : ℚ) (columns : String → Option (ℚ × ℚ)) :
    Option ((List ℚ × List ℚ) × (List ℚ × List ℚ)) :=
  match actionScales genset columns with
  | none => none
  | some (mean, std) =>
    match standardize true (actionBounds genset p pvMax).2 mean std, standardize true (actionBounds genset p pvMax).1 mean std with
    | some low, some high => some ((low, high.set 1 (1 / 10)), (mean, std))
    | _, _ => none

/-- `get_control_dict` (`pymgrid_csca.py:459-484`); `none` is an IndexError.  The PV consumed, which `run` does not read, is
    left out. -/
def envControl (genset : Bool) (a : List ℚ) : Option Control :=
  match genset, a with
  | true, g :: imp :: exp :: c :: d :: _ :: _ => some { charge := some c, discharge := some d, imp := some imp, exp := some exp, genset := some g }
  | false, imp :: exp :: c :: d :: _ :: _ => some { charge := some c, discharge := some d, imp := some imp, exp := some exp }
  | _, _ => none

/-- The control of an action given to `step` of the standardised environment (`pymgrid_csca.py:331-341`, `:143`). -/
def stepControl (genset : Bool) (scales : List ℚ × List ℚ) (a : List ℚ) : Option Control :=
  match standardize false a scales.1 scales.2 with
  | none => none
  | some b => envControl genset b

end Pymgrid.Legacy
