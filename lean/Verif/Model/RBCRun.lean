import Verif.Model.ModularMPC
import Verif.Model.PriorityList

set_option autoImplicit false

/-!
# Rule-based control without a number of steps
-/

namespace Pymgrid

/-- `run` (`rbc.py:64-93`) with `max_steps=None`: as many steps as the microgrid has data (`len(self.microgrid)`), or fewer
    if it is done before.  The length is computed before the reset. -/
def RBC.runAll (r : RBC) : RBC × Except Err Unit :=
  match MPC.lengthOf r.g with
  | .error e => (r, .error e)
  | .ok n => r.run n

end Pymgrid
