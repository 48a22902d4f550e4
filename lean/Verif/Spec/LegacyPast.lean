import Verif.Model.LegacyRBC
import Verif.Model.SAA

set_option autoImplicit false

/-! Legacy microgrids with the same data up to some row and anything after it. -/

namespace Pymgrid.Legacy

/-- Two series with the same first `N` entries, both of which go on after these. -/
structure SameStart (N : Nat) (l l' : List ℚ) : Prop where
  same : l'.take N = l.take N
  more : N < l.length
  more' : N < l'.length

/-- The six series of a legacy microgrid. -/
structure Series where
  loads : List ℚ
  pvs : List ℚ
  statuses : List ℚ
  importPrices : List ℚ
  exportPrices : List ℚ
  co2s : List ℚ

/-- Series that may differ from row `N` on.  Those of the grid matter if there is one. -/
structure Series.SameStart (N : Nat) (grid : Bool) (s s' : Series) : Prop where
  loads : Legacy.SameStart N s.loads s'.loads
  pvs : Legacy.SameStart N s.pvs s'.pvs
  statuses : grid = true → Legacy.SameStart N s.statuses s'.statuses
  importPrices : grid = true → Legacy.SameStart N s.importPrices s'.importPrices
  exportPrices : grid = true → Legacy.SameStart N s.exportPrices s'.exportPrices
  co2s : grid = true → Legacy.SameStart N s.co2s s'.co2s

/-- The series of the grid are as long as those of load and PV. -/
def Series.Full (grid : Bool) (s : Series) : Prop :=
  grid = true → min s.loads.length s.pvs.length ≤ s.statuses.length ∧ min s.loads.length s.pvs.length ≤ s.importPrices.length ∧
    min s.loads.length s.pvs.length ≤ s.exportPrices.length ∧ min s.loads.length s.pvs.length ≤ s.co2s.length

/-- The microgrid made from some series. -/
def Series.create (s : Series) (arch : Arch) (params : Params) (horizon : Nat) (socStart : ℚ) (status : StateRow) :
    Except Err Grid :=
  Legacy.create arch params s.loads s.pvs s.statuses s.importPrices s.exportPrices s.co2s horizon socStart status

/-- What was done: what was produced, what it cost and emitted, and the states of charge. -/
structure Deeds where
  production : Production
  costs : List CostRow
  co2 : List ℚ
  socs : List ℚ
  deriving DecidableEq

/-- The deeds in the records of a benchmark. -/
def Baseline.deeds (b : Baseline) : Deeds := ⟨b.production, b.costs, b.co2, b.states.map (·.soc)⟩

/-- The deeds in the records of a microgrid. -/
def Grid.deeds (g : Grid) : Deeds := ⟨g.production, g.costs, g.co2, g.states.map (·.soc)⟩

/-- A sequence of calls of `run`, until one of them fails. -/
def Grid.runAll (g : Grid) : List Control → Grid × Except Err Unit
  | [] => (g, .ok ())
  | c :: cs =>
    match g.run c with
    | (g, .error e) => (g, .error e)
    | (g, .ok _) => g.runAll cs

end Pymgrid.Legacy
