import Verif.Model.LegacySplit

set_option autoImplicit false

/-!
# Forecasts of the legacy microgrid: `forecast_all` of `pymgrid/_deprecated/non_modular_microgrid.py`
-/

namespace Pymgrid.Legacy

/-- The values of `forecast_all` that exist with a grid (`non_modular_microgrid.py:508-511`). -/
structure GridForecast where
  status : List ℚ
  imp : List ℚ
  exp : List ℚ
  co2 : List ℚ
  deriving DecidableEq, Repr

/-- The dict of `forecast_all` (`non_modular_microgrid.py:502-513`). -/
structure LegacyForecast where
  pv : List ℚ
  load : List ℚ
  grid : Option GridForecast
  deriving DecidableEq, Repr

/-- `forecast_pv`, `forecast_load`, `forecast_grid_status`, `forecast_grid_co2` and `forecast_grid_prices`
    (`non_modular_microgrid.py:516-602`): `iloc[t:t + horizon]` of the series in use. -/
def SplitGrid.forecastOf (s : SplitGrid) (series : List ℚ) : List ℚ := ((s.part series).drop s.grid.t).take s.grid.horizon

/-- `forecast_all` (`non_modular_microgrid.py:502-513`). -/
def SplitGrid.forecastAll (s : SplitGrid) : LegacyForecast :=
  { pv := s.forecastOf s.grid.pvs
    load := s.forecastOf s.grid.loads
    grid := if s.grid.arch.grid then some ⟨s.forecastOf s.grid.statuses, s.forecastOf s.grid.importPrices, s.forecastOf s.grid.exportPrices,
      s.forecastOf s.grid.co2s⟩ else none }

/-- `forecast_all` of a microgrid whose data are not split (`non_modular_microgrid.py:502-513`). -/
def Grid.forecastAll (g : Grid) : LegacyForecast := (SplitGrid.ofGrid g).forecastAll

end Pymgrid.Legacy
