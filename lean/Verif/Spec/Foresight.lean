import Verif.Spec.PlanCarried
import Verif.Spec.Series
import Verif.Spec.Ledger

set_option autoImplicit false

/-! Conditions under which planning ahead with perfect forecasts cannot be improved on. -/

namespace Pymgrid

/-- What a perfect forecast shows for step `c` of component `k` of a time series: the value in the data, and beyond their end the
    middle of the bounds of the series. -/
def TS.ahead (t : TS) (c k : Nat) : ℚ := ((t.rows[c]?).getD (midpoints t.minRow t.maxRow)).getD k 0

/-- The `n` steps from step `c` on are foreseen: every series has a perfect forecast over the same `H` steps, which reaches the end
    of them (or there is no forecast, and no need for one).  There is no genset, the battery loses no energy, the grid can be
    controlled and is never out, pays nothing for exports and takes nothing less than nothing for imports, and no cost is
    negative. -/
structure Foreseen (h : Heap) (mods : List (String × Nat)) (c n H : Nat) : Prop where
  forecast : ∀ nm ∈ mods, ∀ t, (h nm.2).series? = some t →
    c + n ≤ t.rows.length ∧ t.horizon = H ∧ (H = 0 ∨ t.forecaster.kind = .oracle)
  reach : n ≤ H + 1
  genset : ∀ nm ∈ mods, ∀ x, (h nm.2).kind ≠ .genset x
  battery : ∀ nm ∈ mods, ∀ b, (h nm.2).kind = .battery b → b.efficiency = 1 ∧ 0 ≤ b.costCycle
  grid : ∃ nm ∈ mods, ∃ p t, (h nm.2).kind = .grid p t
  tariff : ∀ nm ∈ mods, ∀ p t, (h nm.2).kind = .grid p t → (h nm.2).ffc = .controllable ∧
    (∀ j, c ≤ j → j < c + n → t.cell j 3 = 1) ∧
    ∀ j, c ≤ j → j < c + n + H → t.ahead j 1 = 0 ∧ 0 ≤ t.ahead j 0 + p.costPerCo2 * t.ahead j 2
  balancing : ∀ nm ∈ mods, ∀ u, (h nm.2).kind = .balancing u → 0 ≤ u.lossLoadCost ∧ 0 ≤ u.overgenerationCost

/-- What the forecasts show of the time after the `n` steps from step `c` on is that renewable production covers the demand. -/
def CoveredAfter (h : Heap) (mods : List (String × Nat)) (c n H : Nat) : Prop :=
  ∀ nm ∈ mods, ∀ t, (h nm.2).kind = .load t → ∀ nm' ∈ mods, ∀ t', (h nm'.2).kind = .renewable t' →
    ∀ j, c + n ≤ j → j < c + n + H → -t.ahead j 0 ≤ t'.ahead j 0

end Pymgrid
