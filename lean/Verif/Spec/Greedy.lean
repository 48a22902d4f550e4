import Verif.Spec.Ledger

set_option autoImplicit false

/-! Specification for C99: microgrids whose only controllable module is a battery. -/

namespace Pymgrid

/-- The battery is the only controllable module, and there is no connection to a grid. -/
structure OneStore (h : Heap) (mods : List (String × Nat)) (bat : String × Nat) : Prop where
  mem : bat ∈ mods
  battery : ∃ b, (h bat.2).kind = .battery b
  only : ∀ nm ∈ mods, (h nm.2).ffc = .controllable → nm = bat
  off : ∀ nm ∈ mods, ∀ p t, (h nm.2).kind ≠ .grid p t

/-- Prices under which only the loss of load and overgeneration cost something: wear of the battery is free and all balancing
    modules ask the same price `L` for a unit of lost load. -/
structure OnlyLossCosts (h : Heap) (mods : List (String × Nat)) (bat : String × Nat) (L : ℚ) : Prop where
  wear : ∀ b, (h bat.2).kind = .battery b → b.costCycle = 0
  nonneg : 0 ≤ L
  price : ∀ nm ∈ mods, ∀ u, (h nm.2).kind = .balancing u → u.lossLoadCost = L ∧ 0 ≤ u.overgenerationCost

end Pymgrid
