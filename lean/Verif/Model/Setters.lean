import Verif.Model.Module

set_option autoImplicit false

/-!
# Setters of time-series modules (`base_timeseries_module.py:155-160, 193-245, 259-273`)

The setters change the series, the horizon or the forecaster of a module that is already in use.  They
exist on load, renewable and grid modules only; on other modules the functions below do nothing
(in the code `set_forecaster` raises `AttributeError` there, and the other two assignments create an
unused attribute).
-/

namespace Pymgrid

namespace TS

/-- The `forecast_horizon` setter (`base_timeseries_module.py:259-273`).  Horizons are non-negative.
    A `NoForecaster` becomes an oracle when the horizon is positive; the stored forecast `cur` and, for
    gaussian forecasters, the noise array keep their old shape. -/
def setHorizon (t : TS) (h : Nat) : TS :=
  let f := if h > 0 ∧ t.forecaster.isNone = true
    then { t.forecaster with kind := .oracle, obsRows := 1 + h, fcRows := h } else t.forecaster
  { t with horizon := h, forecaster := f.setObservationSpace t.minRow t.maxRow h }

/-- `set_forecaster` (`base_timeseries_module.py:193-245`).  `_forecast_param` is not updated, nor is
    the stored forecast.  For callables see also `Model/Callable.lean`. -/
def setForecaster (t : TS) (k : FKind) (h : Nat) : TS :=
  let t' := t.setHorizon (if k.isSome then h else 0)
  { t' with forecaster := Forecaster.get k t'.minRow t'.maxRow t'.horizon }

end TS

namespace Module

/-- Replace the series data and recompute the observation space
    (`base_timeseries_module.py:160,264`). -/
def putTS (m : Module) (t : TS) : Module :=
  match m.kind with
  | .grid p _ => { m with kind := .grid p t, obsSpace := t.obsSpace }
  | .load _ => { m with kind := .load t, obsSpace := t.obsSpace }
  | .renewable _ => { m with kind := .renewable t, obsSpace := t.obsSpace }
  | _ => m

/-- Assignment of `forecast_horizon` (`base_timeseries_module.py:259-273`). -/
def setHorizon (m : Module) (h : Nat) : Module :=
  match m.kind with
  | .grid _ t | .load t | .renewable t => m.putTS (t.setHorizon h)
  | _ => m

/-- `set_forecaster` (`base_timeseries_module.py:193-245`). -/
def setForecaster (m : Module) (k : FKind) (h : Nat) : Module :=
  match m.kind with
  | .grid _ t | .load t | .renewable t => m.putTS (t.setForecaster k h)
  | _ => m

/-- Assignment of `time_series` (`base_timeseries_module.py:155-160`) for modules with one column
    (load and renewable): sign check, bounds, both spaces.  The forecaster's bounds, the stored forecast
    and `final_step` keep their old values.  An empty series is stored before `np.min` raises. -/
def setTimeSeries (m : Module) (series : List ℚ) : Module × Except Err Unit :=
  let go (source : Bool) (t : TS) : Module × Except Err Unit :=
    match signCheck source series with
    | .error e => (m, .error e)
    | .ok xs =>
      match getBounds xs with
      | .error e => ({ m with kind := if source then .renewable { t with rows := xs.map fun x => [x] }
                                      else .load { t with rows := xs.map fun x => [x] } }, .error e)
      | .ok (mn, mx) =>
        let m' := m.putTS { t with rows := xs.map fun x => [x], minRow := [mn], maxRow := [mx] }
        (if source then { m' with actSpace := some { low := [mn], high := [mx] } } else m', .ok ())
  match m.kind with
  | .load t => go false t
  | .renewable t => go true t
  | _ => (m, .ok ())

end Module

end Pymgrid
