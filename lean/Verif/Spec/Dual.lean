import Verif.Spec.Ledger

set_option autoImplicit false

/-! Specification for C97: what a module can earn if energy is traded inside the microgrid at given prices. -/

namespace Pymgrid

/-- Prices that exist only in the accounts: of energy in each step, of energy in the store of a module in each step, and a price
    per unit at or below what the fuel of a module costs. -/
structure Quotes where
  energy : Nat → ℚ
  store : String → Nat → ℚ
  fuel : String → ℚ

/-- The most that a module can earn in a step in which energy has the price `x`, energy in the store the price `y`, and fuel
    costs at least `f` per unit.  The demand of a load has to be bought; the price of energy lies between the prices of a
    balancing module, so that it does not earn anything. -/
def Kind.margin (x y f : ℚ) : Kind → Nat → ℚ
  | .load t, c => -(x * |t.cell c 0|)
  | .renewable t, c => max 0 x * t.cell c 0
  | .grid g t, c => max (max 0 (x - t.cell c 0 - g.costPerCo2 * t.cell c 2) * (g.maxImport * t.cell c 3))
      (max 0 (t.cell c 1 - x) * (g.maxExport * t.cell c 3))
  | .genset g, _ => max 0 (x - f - g.costPerCo2 * g.co2PerUnit) * g.runMax
  | .battery b, _ => max (max 0 (x - (y + b.costCycle) / b.efficiency) * (b.maxDischarge * b.efficiency))
      (max 0 ((y - b.costCycle) * b.efficiency - x) * (b.maxCharge / b.efficiency))
  | .balancing _, _ => 0

/-- The room of the store of a module. -/
def Kind.room : Kind → ℚ
  | .battery b => b.maxCapacity - b.minCapacity
  | _ => 0

/-- The energy in the store of a module that can be used. -/
def Kind.usable : Kind → ℚ
  | .battery b => b.charge - b.minCapacity
  | _ => 0

/-- What holding energy in the store can earn over `n` steps from `c`: what the price rises by, and what a negative price at the
    end is worth. -/
def Kind.holding (y : Nat → ℚ) (k : Kind) (c n : Nat) : ℚ :=
  (overSteps c n (fun j => max 0 (y (j + 1) - y j)) + max 0 (-(y (c + n)))) * k.room

/-- The most that a module can earn over `n` steps from `c` at these prices: what is in its store now, what it earns in each
    step, and what it earns by holding. -/
def Quotes.ceiling (q : Quotes) (name : String) (now k : Kind) (c n : Nat) : ℚ :=
  q.store name c * now.usable + overSteps c n (fun j => k.margin (q.energy j) (q.store name j) (q.fuel name) j) +
    k.holding (q.store name) c n

/-- The prices of energy in `n` steps from `c` lie between those that the balancing modules charge for overgeneration and for loss of
    load, and the fuel of no genset costs less than its price. -/
structure Quotes.Fair (q : Quotes) (h : Heap) (mods : List (String × Nat)) (c n : Nat) : Prop where
  balancing : ∀ nm ∈ mods, ∀ u, (h nm.2).kind = .balancing u → ∀ j, c ≤ j → j < c + n →
    -u.overgenerationCost ≤ q.energy j ∧ q.energy j ≤ u.lossLoadCost
  genset : ∀ nm ∈ mods, ∀ s, (h nm.2).kind = .genset s → ∀ p, p = 0 ∨ s.runMin ≤ p ∧ p ≤ s.runMax →
    q.fuel nm.1 * p ≤ fuelPrice s.cost p

/-- The energy that a renewable module has available in a step. -/
def Kind.harvest : Kind → Nat → ℚ
  | .renewable t, c => t.cell c 0
  | _, _ => 0

/-- In `n` steps from `c` nobody buys energy from the microgrid for more than `x` per unit, or gives it for less (including
    the price of emissions), loss of load costs no less, and overgeneration and wear cost something. -/
structure OnePrice (h : Heap) (mods : List (String × Nat)) (x : ℚ) (c n : Nat) : Prop where
  nonneg : 0 ≤ x
  grid : ∀ nm ∈ mods, ∀ p t, (h nm.2).kind = .grid p t → ∀ j, c ≤ j → j < c + n →
    t.cell j 1 ≤ x ∧ x ≤ t.cell j 0 + p.costPerCo2 * t.cell j 2
  genset : ∀ nm ∈ mods, ∀ s, (h nm.2).kind = .genset s → ∀ p, p = 0 ∨ s.runMin ≤ p ∧ p ≤ s.runMax →
    x * p ≤ fuelPrice s.cost p + s.costPerCo2 * (s.co2PerUnit * p)
  battery : ∀ nm ∈ mods, ∀ b, (h nm.2).kind = .battery b → 0 ≤ b.costCycle
  balancing : ∀ nm ∈ mods, ∀ u, (h nm.2).kind = .balancing u → 0 ≤ u.overgenerationCost ∧ x ≤ u.lossLoadCost

end Pymgrid
