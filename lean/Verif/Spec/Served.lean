import Verif.Spec.Simulate
import Verif.Spec.Ledger

set_option autoImplicit false

/-!
# Carrying the load alone

The control of a converted microgrid that leaves the battery alone and lets one component carry the whole load: the genset,
if there is one, at its minimal production or above, and otherwise the grid.  It looks at nothing but the present load.
-/

namespace Pymgrid.Legacy

/-- What is asked of the components for a load of `L`. -/
def Grid.carry (g : Grid) (L : ℚ) : List (String × Ctrl) :=
  (if g.arch.battery then [("battery", .scalar 0)] else []) ++
  (if g.arch.genset then [("genset", .seq [.arr [1, max L (g.params.rated * g.params.pmin)]])] else []) ++
  (if g.arch.grid then [("grid", .scalar (if g.arch.genset then 0 else L))] else [])

/-- One component is large enough for every load of the series: the genset, or a grid that never fails. -/
structure Grid.Adequate (g : Grid) : Prop where
  genset : g.arch.genset = true → ∀ x ∈ g.loads, x ≤ g.params.rated * g.params.pmax
  grid : g.arch.genset = false → g.arch.grid = true ∧ (∀ x ∈ g.loads, x ≤ g.params.pImport) ∧ ∀ s ∈ g.statuses, s = 1

/-- Consecutive runs, one for each load of the list: each meets that load, and nothing is lost. -/
inductive Serves (g : Grid) : Microgrid → List ℚ → Microgrid → Prop
  | nil (m : Microgrid) : Serves g m [] m
  | cons {m m' m'' : Microgrid} {o : RunOut} {L : ℚ} {ls : List ℚ} (run : m.run (g.carry L) false = (m', .ok o))
      (load : o.absBy "load" = L) (lost : o.provBy "unbalanced_energy" = 0) (rest : Serves g m' ls m'') :
      Serves g m (L :: ls) m''

end Pymgrid.Legacy
