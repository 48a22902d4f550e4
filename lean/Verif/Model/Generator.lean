import Verif.Model.Legacy

set_option autoImplicit false

/-!
# The microgrid generator

`MicrogridGenerator.py`.  Every random draw and every data file that is chosen is a field of `Draws`.  The coefficients of
the fuel polynomial and `PV_rated_power` are not read by any of the modelled code and left out.
-/

namespace Pymgrid.Legacy.Generator

/-- The maximum of a column (`df.max()`); 0 for an empty one, which no caller reaches. -/
def maxOf : List ℚ → ℚ
  | [] => 0
  | x :: l => l.foldl max x

/-- `np.mean` of a column. -/
def mean (l : List ℚ) : ℚ := l.sum / l.length

/-- `np.around(x, 1)`. -/
def around (x : ℚ) : ℚ := pyRound (10 * x) / 10

/-- `_scale_ts` with `scaling_method='max'` (`MicrogridGenerator.py:137-148`).  A column whose maximum is 0 gives `nan`
    in numpy; here it stays 0. -/
def scaleMax (l : List ℚ) (size : ℚ) : List ℚ := l.map (· * (size / maxOf l))

/-- `_size_genset` (`MicrogridGenerator.py:372-379`). -/
def sizeGenset (load : List ℚ) : ℚ := (maxOf load / (9/10)).ceil

/-- `_size_battery` (`MicrogridGenerator.py:382-386`). -/
def sizeBattery (load : List ℚ) (hours : Nat) : ℚ := ((hours : ℚ) * mean load).ceil

/-- The entry `grid` of `_size_mg` (`MicrogridGenerator.py:367`); `int` truncates. -/
def sizeGrid (load : List ℚ) : ℚ := (maxOf load * 2).floor

/-- The entry `pv` of `_size_mg` (`MicrogridGenerator.py:357`). -/
def sizePv (load : List ℚ) (percent : Nat) : ℚ := maxOf load * ((percent : ℚ) / 100)

/-- The power of the battery in `_get_battery` (`MicrogridGenerator.py:234-235`); the duration is always 4. -/
def batteryPower (capa duration : ℚ) : ℚ := (capa / duration).ceil

/-- The initial state of charge in `_get_battery` (`MicrogridGenerator.py:239`). -/
def initialSoc (draw socMin socMax : ℚ) : ℚ := min (max draw socMin) socMax

/-- `_bin_genset_grid` (`MicrogridGenerator.py:417-435`). -/
def binGensetGrid (rand : ℚ) : Bool × Bool :=
  if rand < 33/100 then (true, false)
  else if rand ≥ 33/100 ∧ rand < 66/100 then (false, true)
  else (true, true)

/-- The import price of `_get_electricity_tariff` at hour `i` (`MicrogridGenerator.py:264-281`). -/
def tariff (scenario i : Nat) : ℚ :=
  if scenario = 1 then
    if i % 24 ≥ 12 ∧ i % 24 < 18 then 59/100
    else if i % 24 < 8 ∨ i % 24 ≥ 21 then 22/100
    else 29/100
  else if (i % 24 ≥ 0 ∧ i % 24 < 5) ∨ (i % 24 ≥ 14 ∧ i % 24 < 17) then 8/100
  else 11/100

/-- `_get_electricity_tariff` (`MicrogridGenerator.py:253-285`): import prices are only filled in scenarios 1 and 2. -/
def electricityTariff (scenario : Nat) : List ℚ × List ℚ :=
  (if scenario = 1 ∨ scenario = 2 then (List.range 8760).map (tariff scenario) else [], List.replicate 8760 0)

/-- The inner loop of `_generate_weak_grid_profile` for an outage at `i` (`MicrogridGenerator.py:335-337`):
    `for j in range(1, n)`. -/
def extendBack (n i : Nat) (l : List ℚ) : List ℚ :=
  (List.range (n - 1)).foldl (fun l k => let j := k + 1; if i > j then l.set (i - j) 0 else l) l

/-- The outer loop (`MicrogridGenerator.py:333-337`), reading the list that it modifies. -/
def extendOutages (n : Nat) (l : List ℚ) : List ℚ :=
  (List.range l.length).foldl (fun l i => if l[i]? = some 0 then extendBack n i l else l) l

/-- `_generate_weak_grid_profile` (`MicrogridGenerator.py:321-340`) from its draws; `nb` is the number of time steps per
    year, so there are `int(nb + 1)` draws. -/
def weakGridProfile (draws : List ℚ) (outagePerDay : ℚ) (duration : Nat) (nb : ℚ) : List ℚ :=
  extendOutages ((duration : ℚ) / (8760 / nb)).floor.toNat (draws.map (fun x => if x < outagePerDay / 24 then 0 else 1))

/-- The draws and files of one `_create_microgrid`. -/
structure Draws where
  rand : ℚ
  sizeLoad : Nat
  load : List ℚ
  pvPercent : Nat
  batteryHours : Nat
  pv : List ℚ
  soc : ℚ
  weak : Bool
  scenario : Nat
  outages : ℚ
  duration : Nat
  hours : List ℚ
  co2 : List ℚ

namespace Draws

/-- The architecture (`MicrogridGenerator.py:454-456`, changed in line 538). -/
def arch (d : Draws) : Arch :=
  let (genset, grid) := binGensetGrid d.rand
  { battery := true, genset := genset || (grid && d.weak), grid }

/-- The load series (`MicrogridGenerator.py:458`). -/
def loads (d : Draws) : List ℚ := scaleMax d.load d.sizeLoad

/-- The PV series (`MicrogridGenerator.py:493`). -/
def pvs (d : Draws) : List ℚ := scaleMax d.pv (sizePv d.loads d.pvPercent)

/-- The grid status series (`_get_grid`, `MicrogridGenerator.py:288-303`). -/
def statuses (d : Draws) : List ℚ :=
  (if d.weak then weakGridProfile d.hours d.outages d.duration 8760 else List.replicate 8760 1).take 8760

/-- The parameters (`MicrogridGenerator.py:472-573` with the defaults of `_get_battery` and `_get_genset`). -/
def params (d : Draws) : Params :=
  let capa := sizeBattery d.loads d.batteryHours
  { socMin := 1/5, socMax := 1, capacity := capa, eff := 9/10, pCharge := batteryPower capa 4
    pDischarge := batteryPower capa 4, costCycle := 2/100, rated := sizeGenset d.loads, pmin := 5/100, pmax := 9/10
    fuelCost := 4/10, gensetCo2 := 2, pImport := sizeGrid d.loads, pExport := sizeGrid d.loads, costLossLoad := 10
    costOvergen := 1, costCo2 := 1/10 }

/-- The parameter `battery_soc_0`. -/
def soc₀ (d : Draws) : ℚ := initialSoc d.soc (1/5) 1

/-- `_create_microgrid` (`MicrogridGenerator.py:443-603`).  The first state is rounded to one decimal; the horizon is the
    default 24.  Series that are too short raise `IndexError`. -/
def create (d : Draws) : Except Err Grid :=
  let p := d.params
  let prices := electricityTariff d.scenario
  match d.loads[0]?, d.pvs[0]? with
  | some load, some pv =>
    let status (grid : Option GridRow) : StateRow :=
      { load := some (around load), pv := some (around pv), hour := 0, soc := d.soc₀
        capaToCharge := around (max ((p.socMax * p.capacity - d.soc₀ * p.capacity) / p.eff) 0)
        capaToDischarge := around (max ((d.soc₀ * p.capacity - p.socMin * p.capacity) * p.eff) 0), grid }
    if d.arch.grid then
      match d.statuses[0]?, prices.1[0]?, prices.2[0]?, d.co2[0]? with
      | some s, some i, some e, some c =>
        Legacy.create d.arch p d.loads d.pvs d.statuses prices.1 prices.2 d.co2 24 d.soc₀ (status (some ⟨s, i, e, c⟩))
      | _, _, _, _ => .error .index
    else Legacy.create d.arch p d.loads d.pvs [] [] [] [] 24 d.soc₀ (status none)
  | _, _ => .error .index

end Draws

end Pymgrid.Legacy.Generator
