import Verif.Model.AgentActions
import Mathlib.Data.Rat.Floor

set_option autoImplicit false

/-!
# Continuous and discrete action vectors of the deprecated environments: `pymgrid/_deprecated/Environments/Environment.py`

An action is a function of the position; it is as long as it needs to be.
-/

namespace Pymgrid.Legacy

namespace AgentView

/-- `get_action_continuous` (`Environment.py:224-275`); without a battery there is no `mg.battery`.  In an outage nothing is asked of
    the grid. -/
def continuous (v : AgentView) (a : Nat → ℚ) : Except Err Control :=
  if v.arch.battery then
    .ok
      { charge := some (max 0 (a 0 * min (min (a 1 * v.params.capacity) v.capaCharge) v.params.pCharge))
        discharge := some (max 0 ((1 - a 0) * min (min (a 1 * v.params.capacity) v.capaDischarge) v.params.pDischarge))
        imp := if v.arch.grid then
            some (if v.status = 1 then max 0 (a 2 * min (a 3 * v.params.pImport) v.params.pImport) else 0) else none
        exp := if v.arch.grid then
            some (if v.status = 1 then max 0 ((1 - a 2) * min (a 3 * v.params.pExport) v.params.pExport) else 0) else none
        genset := if v.arch.genset then some (max 0 (a 4 * min (a 5 * v.params.rated) v.params.rated)) else none }
  else .error .attribute

/-- `get_action_discrete` (`Environment.py:277-312`); the entry for PV, under a key that nothing reads, is left out. -/
def discrete (v : AgentView) (a : Nat → ℚ) : Control :=
  let c : Control :=
    if v.arch.battery then { charge := some (a 1 * a 3), discharge := some (a 2 * (1 - a 3)) } else {}
  if v.arch.genset then
    let c := { c with genset := some (a 4) }
    if v.arch.grid then { c with imp := some (a 5 * a 7), exp := some (a 6 * (1 - a 7)) } else c
  else if v.arch.grid then { c with imp := some (a 4 * a 6), exp := some (a 5 * (1 - a 6)) }
  else c

/-- The number of values of every entry of a discrete action (`pymgrid_csda.py:24-37`, `pymgrid_csca_old.py:24-37`), from the largest PV value of the data. -/
def limits (v : AgentView) (maxPv : ℚ) : List Int :=
  [⌊maxPv⌋, ⌊v.params.pCharge⌋, ⌊v.params.pDischarge⌋, 2] ++ (if v.arch.genset then [⌊v.params.rated * v.params.pmax⌋] else []) ++
    (if v.arch.grid then [⌊v.params.pImport⌋, ⌊v.params.pExport⌋, 2] else [])

end AgentView

end Pymgrid.Legacy
