import Verif.Model.Legacy

/-!
# Constraints of the deprecated safe environment: `SafeExpMicrogridEnv` of `pymgrid/_deprecated/Environments/pymgrid_csca.py`
-/

namespace Pymgrid.Legacy

/-- The last action and the last observation, not standardised, as `get_values` gives them (`pymgrid_csca.py:237-292`): the
    observation is the one that the step with this action returned.  `status` is missing without a grid. -/
structure EnvValues where
  imp : ℚ
  exp : ℚ
  charge : ℚ
  discharge : ℚ
  genset : ℚ
  pvConsumed : ℚ
  load : ℚ
  pv : ℚ
  soc : ℚ
  capaCharge : ℚ
  capaDischarge : ℚ
  status : Option ℚ
  deriving DecidableEq, Repr

/-- Division by a factor if constraints are scaled (`pymgrid_csca.py:587-638`).  The factors are taken to be different from 0: NumPy
    divides by 0 without an error. -/
def scaledBy (scale : Bool) (factor x : ℚ) : ℚ := if scale then x / factor else x

/-- The two constraints of the generator (`pymgrid_csca.py:616-638`). -/
def gensetConstraints (p : Params) (scale : Bool) (tolerance : ℚ) (v : EnvValues) : List ℚ :=
  if v.genset < 1 then
    [scaledBy scale (p.rated * p.pmax) (v.genset - 1), scaledBy scale (p.rated * p.pmax) (-v.genset - tolerance)]
  else
    [scaledBy scale (p.rated * p.pmax) (v.genset - p.rated * p.pmax),
     scaledBy scale (p.rated * p.pmin) (p.rated * p.pmin - v.genset)]

/-- `_get_inequality_constraints` (`pymgrid_csca.py:581-642`); `none` is the ValueError of `get_values` for the status of a grid
    that is not there. -/
def inequalities (a : Arch) (p : Params) (scale : Bool) (tolerance : ℚ) (v : EnvValues) : Option (List ℚ) :=
  match v.status with
  | none => none
  | some status =>
    some ([scaledBy scale p.capacity (v.charge - v.capaCharge), scaledBy scale p.capacity (v.discharge - v.capaDischarge),
      scaledBy scale p.pImport (v.imp - p.pImport * status), scaledBy scale p.pExport (v.exp - p.pExport * status),
      scaledBy scale p.socMax (v.soc - p.socMax), scaledBy scale p.socMin (p.socMin - v.soc)] ++
      (if a.genset then gensetConstraints p scale tolerance v else []))

/-- `_get_energy_balance` (`pymgrid_csca.py:560-579`). -/
def envBalance (a : Arch) (p : Params) (scale : Bool) (v : EnvValues) : ℚ :=
  scaledBy scale p.capacity
    (v.imp - v.exp - v.charge + v.discharge + (if a.genset then v.genset else 0) - (v.pv - v.pvConsumed) - v.load + v.pv)

/-- `get_constraint_values` (`pymgrid_csca.py:546-558`). -/
def constraintValues (a : Arch) (p : Params) (scale onlyInequality : Bool) (tolerance : ℚ) (v : EnvValues) : Option (List ℚ) :=
  match inequalities a p scale tolerance v with
  | none => none
  | some l => some (if onlyInequality then l else l ++ [envBalance a p scale v])

/-- `get_num_constraints` (`pymgrid_csca.py:532-544`). -/
def numConstraints (a : Arch) (onlyInequality : Bool) : Nat :=
  (if a.genset then 9 else 7) - (if onlyInequality then 1 else 0)

end Pymgrid.Legacy
