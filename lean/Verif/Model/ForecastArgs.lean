import Verif.Model.Num

set_option autoImplicit false

/-!
# Validation of forecasts: `SampleGenerator.mape` and `ForecastArgs` of `pymgrid/utils/DataGenerator.py`
-/

namespace Pymgrid.Validation

/-- What a quotient or mean of floats can be here. -/
inductive Quot
  | fin (q : ℚ)
  | inf
  | nan
  deriving DecidableEq, Repr

/-- `np.abs((actual - forecast) / actual)` of one entry (`DataGenerator.py:914`). -/
def ratio (a f : ℚ) : Quot := if a = 0 then (if a - f = 0 then .nan else .inf) else .fin |(a - f) / a|

/-- The finite entries. -/
def finite : List Quot → List ℚ
  | [] => []
  | .fin q :: l => q :: finite l
  | _ :: l => finite l

/-- `np.mean(ratios[~np.isnan(ratios)])` (`DataGenerator.py:915`): of nothing it is nan. -/
def mean (l : List Quot) : Quot :=
  let l := l.filter (· != .nan)
  if l = [] then .nan else if l.contains .inf then .inf else .fin ((finite l).sum / l.length)

/-- `SampleGenerator.mape` of two series (`DataGenerator.py:900-917`).  A series of one entry is squeezed to a number, which is
    refused; series of different lengths cannot be subtracted. -/
def mape (actual forecast : List ℚ) : Except Err Quot :=
  if actual.length = 1 then .error .type
  else if forecast.length = 1 then .error .type
  else if actual.length ≠ forecast.length then .error .value
  else .ok (mean (actual.zipWith ratio forecast))

/-- `np.linspace(lo, hi, n)`. -/
def linspace (lo hi : ℚ) (n : Nat) : List ℚ :=
  (List.range n).map fun (i : Nat) => if n = 1 then lo else lo + (i : ℚ) * ((hi - lo) / ((n : ℚ) - 1))

/-- One dict of `ForecastArgs.pv_parameters` (`DataGenerator.py:1089-1091`). -/
structure PvArgs where
  individual : ℚ
  peak : ℚ
  std : ℚ
  lower : ℚ
  upper : ℚ
  deriving DecidableEq, Repr

/-- `ForecastArgs.pv_parameters` (`DataGenerator.py:1078-1094`). -/
def pvParameters (noise std peak individual : Nat) (maxStd : ℚ) : List PvArgs :=
  (linspace 0 1 individual).flatMap fun i => (linspace 0 1 peak).flatMap fun p => (linspace 0 maxStd std).flatMap fun s =>
    (linspace 0 1 noise).flatMap fun l => (linspace 1 l noise).filterMap fun u => if u ≥ l then some ⟨i, p, s, l, u⟩ else none

/-- `ForecastArgs.load_parameters` (`DataGenerator.py:1096-1101`). -/
def loadParameters (n : Nat) (maxScale : ℚ) : List ℚ := linspace 0 maxScale n

/-- `ForecastArgs.__init__` and `combine_sets` (`DataGenerator.py:1069-1076,1103-1111`): `param_sets`. -/
def paramSets (noise std load peak individual : Nat) (maxScale maxStd : ℚ) : List (PvArgs × ℚ) :=
  (pvParameters noise std peak individual maxStd).flatMap fun p => (loadParameters load maxScale).map fun l => (p, l)

end Pymgrid.Validation
