import Verif.Model.Convert
import Verif.Model.Generator

set_option autoImplicit false

/-!
# `MicrogridGenerator.generate_microgrid`
-/

namespace Pymgrid.Legacy.Generator

/-- `MicrogridGenerator.generate_microgrid` with its default `modular=True` (`MicrogridGenerator.py:393-405`): as many
    microgrids as there are sets of draws are created, converted and appended to `self.microgrids`.  An error of a later
    microgrid leaves the earlier ones in the list, which is returned as well.  `raise_errors` of `to_modular` is left at its
    default `False` (line 396).  Simplified: printing (lines 402-403) is left out; it does not happen for modular
    microgrids. -/
def generate : List Draws → List Microgrid → List Microgrid × Except Err Unit
  | [], made => (made, .ok ())
  | d :: ds, made =>
    match d.create with
    | .error e => (made, .error e)
    | .ok g =>
      match g.toModular false with
      | .error e => (made, .error e)
      | .ok m => generate ds (made ++ [m])

end Pymgrid.Legacy.Generator
