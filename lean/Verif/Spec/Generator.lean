import Verif.Model.Generator
import Verif.Spec.Legacy

set_option autoImplicit false

/-! What the user of the generator sees. -/

namespace Pymgrid.Legacy.Generator

/-- Hour `k` of a weak grid is an outage: it drew one, or one of the `n - 1` hours after it did.  The first hour is only
    an outage by its own draw. -/
def Outage (draws : List ℚ) (threshold : ℚ) (n k : Nat) : Prop :=
  (∃ x, draws[k]? = some x ∧ x < threshold) ∨
    (0 < k ∧ ∃ i x, k < i ∧ i < k + n ∧ draws[i]? = some x ∧ x < threshold)

/-- The ranges of the random draws, and data files as they are shipped: load, PV and emission files of the same length,
    at least two and at most 8760 rows, positive loads, non-negative PV that is positive at some time. -/
structure Draws.Valid (d : Draws) : Prop where
  sizeLoad : 100 ≤ d.sizeLoad ∧ d.sizeLoad ≤ 100000
  pvPercent : 30 ≤ d.pvPercent ∧ d.pvPercent ≤ 150
  batteryHours : 3 ≤ d.batteryHours ∧ d.batteryHours ≤ 5
  scenario : d.scenario = 1 ∨ d.scenario = 2
  duration : 1 ≤ d.duration ∧ d.duration ≤ 7
  hours : d.hours.length = 8761
  rows : 2 ≤ d.load.length ∧ d.load.length ≤ 8760
  pv_rows : d.pv.length = d.load.length
  co2_rows : d.co2.length = d.load.length
  load : ∀ x ∈ d.load, 0 < x
  pv : ∀ x ∈ d.pv, 0 ≤ x
  sun : ∃ x ∈ d.pv, 0 < x

/-- `m` is the largest entry of a series. -/
def IsPeak (l : List ℚ) (m : ℚ) : Prop := m ∈ l ∧ ∀ x ∈ l, x ≤ m

end Pymgrid.Legacy.Generator
