import Verif.Model.Microgrid

set_option autoImplicit false

/-!
# Environments from microgrids (`envs/base/base.py:252-285`)
-/

namespace Pymgrid

/-- `BaseMicrogridEnv.from_microgrid` without keyword arguments (`envs/base/base.py:252-285`), for a modular microgrid:
    the constructor on copies of the modules (`microgrid.py:165`), without a further balancing module.  The trajectory function is the same
    object, so that its calls continue those of the microgrid.  The spaces, which `__init__` sets up after that
    (`envs/base/base.py:102-107`), are `obsSpaceOf` (`Model/EnvObs.lean`) and `DiscreteEnv.create` (`Model/Env.lean`) on the
    result. -/
def Microgrid.wrap (g : Microgrid) : Except Err Microgrid :=
  Microgrid.create g.heap (Container.toTuples g.cont.fullDict) g.shaper (g.trajectory.map fun f k => f (g.calls + k))

end Pymgrid
