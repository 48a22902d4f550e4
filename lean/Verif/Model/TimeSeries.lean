import Verif.Model.Forecast
import Verif.Model.Battery

/-!
# `pymgrid/modules/base/timeseries/base_timeseries_module.py`, grid, load, renewable, balancing

Data part of the time-series modules.  Functions that need the current step take it as argument;
the step counter itself belongs to the base class (`Verif.Model.Module`).
-/

namespace Pymgrid

/-- Fields of `BaseTimeSeriesMicrogridModule` (`base_timeseries_module.py:22-56`).
    `minRow`/`maxRow` are `_min_obs`/`_max_obs` (scalars are rows of length one), `param` is
    `_forecast_param`, `cur` is `_current_forecast`, `draws` counts the calls of the random
    generator. -/
structure TS where
  rows : List (List ℚ)
  comps : List String
  minRow : List ℚ
  maxRow : List ℚ
  finalStep : Nat
  horizon : Nat
  param : FKind
  forecaster : Forecaster
  cur : Option (List (List ℚ))
  draws : Nat := 0

namespace TS

/-- The slice `time_series[1+c : 1+c+h]` (`base_timeseries_module.py:112`). -/
def window (t : TS) (c : Nat) : List (List ℚ) := (t.rows.drop (1 + c)).take t.horizon

/-- In-place effect of `_clip` on the series (`forecaster.py:146-147`): the oracle forecaster
    returns the numpy *view* of the window, and `_pad` returns it unchanged when it is complete, so
    clipping writes into the module's time series.  Incomplete windows are copied by
    `np.concatenate`.  User callables are assumed to return fresh arrays. -/
def writeBack (t : TS) (c : Nat) : List (List ℚ) :=
  match t.rows[c]? with
  | none => t.rows
  | some _ =>
    match t.forecaster.kind with
    | .oracle =>
      if (t.window c).length > t.forecaster.fcRows then t.rows
      else if (t.window c).length = t.horizon then
        t.rows.take (1 + c) ++
          (t.window c).map (Forecaster.clipRow t.forecaster.minRow t.forecaster.maxRow) ++
          t.rows.drop (1 + c + t.horizon)
      else t.rows
    | _ => t.rows

/-- `forecast` (`base_timeseries_module.py:103-122`): result only. -/
def forecastValue (t : TS) (c : Nat) : Except Err (Option (List (List ℚ))) :=
  match t.rows[c]? with
  | none =>
    match t.forecaster.fullPad t.horizon with
    | .ok f => .ok (some f)
    | .error e => .error e
  | some row => t.forecaster.call t.draws row (t.window c) t.horizon

/-- `_current_forecast = self.forecast()` (`base_timeseries_module.py:56,101`), with its effect on
    the series. -/
def refresh (t : TS) (c : Nat) : TS × Except Err Unit :=
  let t' := { t with rows := t.writeBack c, draws := t.draws + 1 }
  match t.forecastValue c with
  | .ok f => ({ t' with cur := f }, .ok ())
  | .error e => (t', .error e)

/-- `current_obs` (`base_timeseries_module.py:127-140`). -/
def currentObs (t : TS) (c : Nat) : Except Err (List ℚ) :=
  match t.rows[c]? with
  | some row => .ok row
  | none =>
    match t.forecaster.fullPad 1 with
    | .ok rs => .ok rs.flatten
    | .error e => .error e

/-- `_state_dict_keys["current"]` (`base_timeseries_module.py:90-97`). -/
def currentKeys (t : TS) : List Key := t.comps.map .cur

/-- `_state_dict_keys["forecast"]` (`base_timeseries_module.py:90-97`). -/
def forecastKeys (t : TS) : List Key :=
  (List.range t.horizon).flatMap (fun j => t.comps.map (fun c => .fc c j))

/-- `_state_dict` (`base_timeseries_module.py:332-338`).  The two key lists are disjoint, so the
    update of the dict is an append; `zip` truncates. -/
def stateDict (t : TS) (c : Nat) : Except Err (List (Key × ℚ)) :=
  match t.currentObs c with
  | .error e => .error e
  | .ok obs =>
    match t.cur with
    | none => .ok (t.currentKeys.zip obs)
    | some f => .ok (t.currentKeys.zip obs ++ t.forecastKeys.zip f.flatten)

/-- `_done` (`base_timeseries_module.py:124-125`), `current_step >= final_step - 1` over the
    integers. -/
def done (t : TS) (c : Nat) : Bool := decide (t.finalStep ≤ c + 1)

/-- `min_obs`, `max_obs` (`base_timeseries_module.py:162-170`): the bounds row repeated. -/
def minObs (t : TS) : List ℚ := (List.replicate (1 + t.horizon) t.minRow).flatten
@[inherit_doc minObs] def maxObs (t : TS) : List ℚ := (List.replicate (1 + t.horizon) t.maxRow).flatten

/-- The observation space built from them (`base_module.py:59-63`). -/
def obsSpace (t : TS) : Space := { low := t.minObs, high := t.maxObs }

/-- `self._time_series[c].item()` (`load_module.py:111`, `renewable_module.py:110`). -/
def itemAt (t : TS) (c : Nat) : Except Err ℚ :=
  match t.rows[c]? with
  | none => .error .index
  | some [q] => .ok q
  | some _ => .error .value

/-- `self._time_series[c, j]` (`grid_module.py:168,171,222`). -/
def entryAt (t : TS) (c j : Nat) : Except Err ℚ :=
  match t.rows[c]? with
  | none => .error .index
  | some row =>
    match row[j]? with
    | some q => .ok q
    | none => .error .index

/-- The `final_step` setter (`base_timeseries_module.py:317-330`) once `initial_step` exists.
    The attribute is assigned before the check, so it changes even when `ValueError` is raised. -/
def setFinalStep (t : TS) (initialStep : Nat) (v : Int) : TS × Except Err Unit :=
  let f : Nat := if v ≤ 0 then t.rows.length else v.toNat
  ({ t with finalStep := f }, if f ≤ initialStep then .error .value else .ok ())

end TS

/-- `_sign_check` for one-directional modules (`base_timeseries_module.py:68-79`): mixed signs are
    rejected; a source stores absolute values, a sink their negatives. -/
def signCheck (source : Bool) (xs : List ℚ) : Except Err (List ℚ) :=
  if ¬ ((∀ x ∈ xs, x ≤ 0) ∨ (∀ x ∈ xs, 0 ≤ x)) then .error .value
  else if source then .ok (xs.map (fun x => |x|)) else .ok (xs.map (fun x => -|x|))

/-- Minimum of a non-empty list (numpy raises `ValueError` on the empty one). -/
def listMin : List ℚ → Except Err ℚ
  | [] => .error .value
  | x :: xs => .ok (xs.foldl min x)

@[inherit_doc listMin]
def listMax : List ℚ → Except Err ℚ
  | [] => .error .value
  | x :: xs => .ok (xs.foldl max x)

/-- `_get_bounds` (`base_timeseries_module.py:81-88`). -/
def getBounds (xs : List ℚ) : Except Err (ℚ × ℚ) :=
  match listMin xs, listMax xs with
  | .ok mn, .ok mx =>
    if mn > 0 then .ok (0, mx) else if mx < 0 then .ok (mn, 0) else .ok (mn, mx)
  | _, _ => .error .value

namespace TS

/-- `BaseTimeSeriesMicrogridModule.__init__` (`base_timeseries_module.py:35-56`) after the series and
    bounds are known.  The setter of `final_step` runs before `initial_step` exists, so its check is
    skipped (line 326-330). -/
def create (rows : List (List ℚ)) (comps : List String) (minRow maxRow : List ℚ)
    (param : FKind) (horizon : Nat) (initialStep : Nat) (finalStep : Int) : Except Err TS :=
  let h := if param.isSome then horizon else 0
  let t : TS :=
    { rows, comps, minRow, maxRow
      finalStep := if finalStep ≤ 0 then rows.length else finalStep.toNat
      horizon := h, param := param
      forecaster := Forecaster.get param minRow maxRow h
      cur := none }
  match t.refresh initialStep with
  | (t', .ok ()) => .ok t'
  | (_, .error e) => .error e

end TS

/-- Columns of the grid series (`grid_module.py:71`). -/
def gridComps : List String := ["import_price", "export_price", "co2_per_kwh", "grid_status"]

/-- Parameters of `GridModule` besides the series (`grid_module.py:86-88`). -/
structure GridParams where
  maxImport : ℚ
  maxExport : ℚ
  costPerCo2 : ℚ := 0
  deriving DecidableEq, Repr

/-- `GridModule._check_params` (`grid_module.py:103-123`).  `ncols` is `time_series.shape[1]` and
    every row has that length (numpy arrays are rectangular). -/
def gridCheckParams (maxImport maxExport : ℚ) (ncols : Nat) (rows : List (List ℚ)) :
    Except Err (List (List ℚ)) :=
  if maxImport < 0 then .error .value
  else if maxExport < 0 then .error .value
  else if ncols ≠ 3 ∧ ncols ≠ 4 then .error .value
  else if ncols = 4 then
    if ¬ (∀ r ∈ rows, r.getLast? = some 0 ∨ r.getLast? = some 1) then .error .value
    else if ∃ r ∈ rows, ∃ x ∈ r, x < 0 then .error .value
    else .ok rows
  else
    let rows' := rows.map (fun r => r ++ [1])
    if ∃ r ∈ rows', ∃ x ∈ r, x < 0 then .error .value else .ok rows'

/-- Column-wise minimum/maximum (`grid_module.py:126-127`), by folding over the rows. -/
def colFold (op : ℚ → ℚ → ℚ) : List (List ℚ) → Except Err (List ℚ)
  | [] => .error .value
  | r :: rs => .ok (rs.foldl (List.zipWith op) r)

/-- Parameters of `UnbalancedEnergyModule` (`unbalanced_energy_module.py:13-26`). -/
structure Unbalanced where
  lossLoadCost : ℚ := 10
  overgenerationCost : ℚ := 2
  deriving DecidableEq, Repr

end Pymgrid
