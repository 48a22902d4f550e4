import Verif.Model.Legacy

set_option autoImplicit false

/-! What the user of a legacy microgrid sees. -/

namespace Pymgrid.Legacy

/-- A call of the user. -/
inductive Op
  | run (c : Control)
  | reset

/-- The microgrid after a call, whether or not it raised. -/
def Op.apply (g : Grid) : Op → Grid
  | .run c => (g.run c).1
  | .reset => g.reset.1

/-- The microgrid after a history of calls. -/
def after (g : Grid) (ops : List Op) : Grid := ops.foldl Op.apply g

/-- Sensible parameters: a battery with positive capacity, an efficiency in (0, 1], an ordered state-of-charge window
    and non-negative powers; a genset and grid with non-negative powers. -/
structure Params.Good (p : Params) : Prop where
  capacity : 0 < p.capacity
  eff : 0 < p.eff
  eff_le : p.eff ≤ 1
  soc : p.socMin ≤ p.socMax
  charge : 0 ≤ p.pCharge
  discharge : 0 ≤ p.pDischarge
  genset_min : 0 ≤ p.rated * p.pmin
  genset_max : p.rated * p.pmin ≤ p.rated * p.pmax
  imp : 0 ≤ p.pImport
  exp : 0 ≤ p.pExport

/-- One production record; components that are absent contribute 0. -/
structure Entry where
  charge : ℚ
  discharge : ℚ
  imp : ℚ
  exp : ℚ
  genset : ℚ
  consumed : ℚ
  lossLoad : ℚ
  curtailed : ℚ
  overgen : ℚ

/-- The production columns grew by the entry (and by nothing else). -/
structure Entry.Recorded (e : Entry) (a : Arch) (before now : Production) : Prop where
  battery : now.battery = if a.battery then before.battery ++ [(e.charge, e.discharge)] else before.battery
  noBattery : a.battery = false → e.charge = 0 ∧ e.discharge = 0
  grid : now.grid = if a.grid then before.grid ++ [(e.imp, e.exp)] else before.grid
  noGrid : a.grid = false → e.imp = 0 ∧ e.exp = 0
  genset : now.genset = if a.genset then before.genset ++ [e.genset] else before.genset
  noGenset : a.genset = false → e.genset = 0
  pv : now.pv = before.pv ++ [⟨e.consumed, e.lossLoad, e.curtailed, e.overgen⟩]

/-- The entry respects the limits of the components, at the given state of charge.  The battery cannot be charged
    above its maximum nor discharged below its minimum, taking the losses into account. -/
structure Entry.Within (e : Entry) (p : Params) (soc : ℚ) : Prop where
  charge : 0 ≤ e.charge ∧ e.charge ≤ p.pCharge
  full : soc ≤ p.socMax → soc * p.capacity + e.charge * p.eff ≤ p.socMax * p.capacity
  discharge : 0 ≤ e.discharge ∧ e.discharge ≤ p.pDischarge
  empty : p.socMin ≤ soc → p.socMin * p.capacity ≤ soc * p.capacity - e.discharge / p.eff
  imp : 0 ≤ e.imp ∧ e.imp ≤ p.pImport
  exp : 0 ≤ e.exp ∧ e.exp ≤ p.pExport
  genset : 0 ≤ e.genset ∧ e.genset ≤ p.rated * p.pmax

/-- Energy balance of an entry: what is produced, bought, taken from the battery and lost equals what is consumed,
    sold, stored and produced in excess.  Used and curtailed PV make up the available PV. -/
structure Entry.Balanced (e : Entry) (load pv : ℚ) : Prop where
  energy : |(e.discharge + e.imp + e.genset + e.consumed + e.lossLoad) - (load + e.charge + e.exp + e.overgen)| < 1/1000
  pv : e.consumed + e.curtailed = pv
  nonneg : 0 ≤ e.consumed ∧ 0 ≤ e.curtailed ∧ 0 ≤ e.lossLoad ∧ 0 ≤ e.overgen
  oneSided : e.lossLoad = 0 ∨ e.overgen = 0
  lossLast : 0 < e.lossLoad → e.curtailed = 0
  overgenLast : 0 < e.overgen → e.consumed = 0

/-- `x` limited to the range from `lo` to `hi`. -/
def clamp (lo hi x : ℚ) : ℚ := max lo (min x hi)

/-- How much can be charged and discharged at a state of charge: the power limit and the energy limit, with the
    efficiency applied on the outside in both cases. -/
def Params.chargeLimit (p : Params) (soc : ℚ) : ℚ := min p.pCharge (max 0 ((p.socMax - soc) * p.capacity * p.eff))
@[inherit_doc Params.chargeLimit]
def Params.dischargeLimit (p : Params) (soc : ℚ) : ℚ := min p.pDischarge (max 0 ((soc - p.socMin) * p.capacity * p.eff))

/-- The production that the documented limits make of the requests: battery and grid requests are limited to what is
    possible, genset requests above 1 are raised to the minimum production, and all are limited by the maximum. -/
structure Entry.Executes (e : Entry) (a : Arch) (p : Params) (soc : ℚ) (c : Control) : Prop where
  charge : a.battery = true → c.charge.map (clamp 0 (p.chargeLimit soc)) = some e.charge
  discharge : a.battery = true → c.discharge.map (clamp 0 (p.dischargeLimit soc)) = some e.discharge
  imp : a.grid = true → c.imp.map (clamp 0 p.pImport) = some e.imp
  exp : a.grid = true → c.exp.map (clamp 0 p.pExport) = some e.exp
  genset : a.genset = true →
    c.genset.map (fun x => if 1 < x then clamp (p.rated * p.pmin) (p.rated * p.pmax) x else clamp 0 (p.rated * p.pmax) x) =
      some e.genset
  noBattery : a.battery = false → e.charge = 0 ∧ e.discharge = 0
  noGrid : a.grid = false → e.imp = 0 ∧ e.exp = 0
  noGenset : a.genset = false → e.genset = 0

/-- All keys of the components of the architecture are given. -/
def Control.Complete (c : Control) (a : Arch) : Prop :=
  (a.battery = true → c.charge.isSome ∧ c.discharge.isSome) ∧
  (a.grid = true → c.imp.isSome ∧ c.exp.isSome) ∧ (a.genset = true → c.genset.isSome)

/-- Every request for the battery in a history of calls is possible at the time it is made. -/
def FeasibleBattery (g : Grid) : List Op → Prop
  | [] => True
  | op :: ops =>
    (match op with
      | .run c => ∀ x y, c.charge = some x → c.discharge = some y →
          (0 ≤ x ∧ x ≤ g.params.chargeLimit g.soc) ∧ (0 ≤ y ∧ y ≤ g.params.dischargeLimit g.soc)
      | .reset => True) ∧ FeasibleBattery (op.apply g) ops

/-- A microgrid with data: the series of the grid are as long as those of load and PV. -/
def Grid.FullSeries (g : Grid) : Prop :=
  g.arch.grid = true → g.dataLength ≤ g.statuses.length ∧ g.dataLength ≤ g.importPrices.length ∧
    g.dataLength ≤ g.exportPrices.length ∧ g.dataLength ≤ g.co2s.length

/-- The data of the grid at a step. -/
def Grid.GridData (g : Grid) (i : Nat) (row : GridRow) : Prop :=
  g.statuses[i]? = some row.status ∧ g.importPrices[i]? = some row.priceImport ∧
    g.exportPrices[i]? = some row.priceExport ∧ g.co2s[i]? = some row.co2

end Pymgrid.Legacy
