import Verif.Spec.Dual
import Verif.Spec.PriorityList

set_option autoImplicit false

/-! Specification for C98: where there is nothing to plan ahead, and when a priority list is ordered by price. -/

namespace Pymgrid

/-- What a unit of energy from a module costs in step `c`, including its emissions. -/
def Kind.unitPrice : Kind → Nat → ℚ
  | .grid g t, c => t.cell c 0 + g.costPerCo2 * t.cell c 2
  | .genset g, _ => fuelPrice g.cost 1 + g.costPerCo2 * g.co2PerUnit
  | _, _ => 0

/-- What the module pays for a unit of energy in step `c`. -/
def Kind.resale : Kind → Nat → ℚ
  | .grid _ t, c => t.cell c 1
  | _, _ => 0

/-- The module is a grid. -/
def Kind.isGrid : Kind → Bool
  | .grid _ _ => true
  | _ => false

/-- Nothing that a module does now matters later: there are no batteries, and the gensets start at once, have no minimum
    production and burn fuel in proportion to their production.  Grids are controllable, and all balancing modules charge
    `L` for loss of load. -/
structure NothingToPlan (h : Heap) (mods : List (String × Nat)) (L : ℚ) : Prop where
  battery : ∀ nm ∈ mods, ∀ b, (h nm.2).kind ≠ .battery b
  genset : ∀ nm ∈ mods, ∀ s, (h nm.2).kind = .genset s → s.runMin = 0 ∧ s.startUpTime = 0 ∧
    ∀ p, 0 ≤ p → p ≤ s.runMax → fuelPrice s.cost p = fuelPrice s.cost 1 * p
  grid : ∀ nm ∈ mods, ∀ p t, (h nm.2).kind = .grid p t → (h nm.2).ffc = .controllable
  balancing : ∀ nm ∈ mods, ∀ u, (h nm.2).kind = .balancing u → u.lossLoadCost = L ∧ 0 ≤ u.overgenerationCost

/-- In the `n` steps from `c` the list asks every genset to run; it names cheaper modules before dearer ones, and grids that pay
    more before those that pay less; nothing costs more than loss of load; and there is a price between what the grids pay
    and what energy costs. -/
structure OrderedByPrice (h : Heap) (mods : List (String × Nat)) (pl : List Element) (L : ℚ) (c n : Nat) : Prop where
  running : ∀ e ∈ pl, ∀ i s, Denotes h mods e.module i → (h i).kind = .genset s → e.action = 1
  cheap : ∀ j, c ≤ j → j < c + n → pl.Pairwise fun e e' => ∀ i i', Denotes h mods e.module i → Denotes h mods e'.module i' →
    (h i).kind.unitPrice j ≤ (h i').kind.unitPrice j
  resale : ∀ j, c ≤ j → j < c + n → pl.Pairwise fun e e' => ∀ i i', Denotes h mods e.module i → Denotes h mods e'.module i' →
    (h i).kind.isGrid = true → (h i').kind.isGrid = true → (h i').kind.resale j ≤ (h i).kind.resale j
  worth : ∀ j, c ≤ j → j < c + n → ∀ key i, Denotes h mods key i → (h i).kind.unitPrice j ≤ L
  between : ∀ j, c ≤ j → j < c + n → ∃ b, 0 ≤ b ∧ b ≤ L ∧ ∀ key i, Denotes h mods key i →
    (h i).kind.resale j ≤ b ∧ b ≤ (h i).kind.unitPrice j

/-- The price of energy never changes: there is at most one grid, its import price is the same in all steps and nothing is charged
    for its emissions; it never pays more than `b`, energy never costs less than `b`, and nothing costs more than loss of load. -/
structure FlatTariff (h : Heap) (mods : List (String × Nat)) (L b : ℚ) : Prop where
  bounds : 0 ≤ b ∧ b ≤ L
  one : ∀ nm ∈ mods, ∀ nm' ∈ mods, (h nm.2).kind.isGrid = true → (h nm'.2).kind.isGrid = true → nm = nm'
  grid : ∀ nm ∈ mods, ∀ p t, (h nm.2).kind = .grid p t → ∃ imp, b ≤ imp ∧ imp ≤ L ∧
    ∀ j, j < t.rows.length → t.cell j 0 = imp ∧ t.cell j 1 ≤ b ∧ p.costPerCo2 * t.cell j 2 = 0
  genset : ∀ nm ∈ mods, ∀ s, (h nm.2).kind = .genset s →
    b ≤ fuelPrice s.cost 1 + s.costPerCo2 * s.co2PerUnit ∧ fuelPrice s.cost 1 + s.costPerCo2 * s.co2PerUnit ≤ L

end Pymgrid
