import Verif.Model.LegacySplit
import Verif.Spec.Legacy

set_option autoImplicit false

/-! Specification for C85. -/

namespace Pymgrid.Legacy

/-- A call of the user of a legacy microgrid with data sets. -/
inductive SOp
  | run (c : Control)
  | reset (testing : Bool)
  | split (trainSize : ℚ) (cancel : Bool)

/-- The microgrid after a call, whether or not it raised. -/
def SOp.apply (s : SplitGrid) : SOp → SplitGrid
  | .run c => (s.run c).1
  | .reset b => (s.reset b).1
  | .split p c => (s.trainTestSplit p c).1

/-- The microgrid after a history of calls. -/
def afterS (s : SplitGrid) (ops : List SOp) : SplitGrid := ops.foldl SOp.apply s

/-- Number of rows that belong to the training data. -/
def trainRows (n : Nat) (trainSize : ℚ) : Nat := ⌈(n : ℚ) * trainSize⌉.toNat

/-- The training size in force after a call: a split lasts until it is cancelled. -/
def SOp.inForce : Option ℚ → SOp → Option ℚ
  | none, .split p _ => some p
  | some _, .split _ true => none
  | o, _ => o

/-- The training size in force after a history of calls, if there is one. -/
def inForce (ops : List SOp) : Option ℚ := ops.foldl SOp.inForce none

/-- The rows that a reset chooses from `n` rows: all of them, or the first `trainRows n p`, or the others. -/
def chosen (n : Nat) : Option ℚ → Bool → List ℚ → List ℚ
  | none, _ => id
  | some p, false => List.take (trainRows n p)
  | some p, true => List.drop (trainRows n p)

/-- What the user can read off a microgrid. -/
structure View where
  t : Nat
  load : ℚ
  pv : ℚ
  nextLoad : Option ℚ
  nextPv : Option ℚ
  grid : Option (GridRow × Option GridRow)
  states : List StateRow
  production : Production
  costs : List CostRow
  co2 : List ℚ
  done : Bool
  batterySoc : ℚ
  deriving DecidableEq, Repr

/-- The view of a microgrid; the grid's values exist if there is a grid. -/
def Grid.view (g : Grid) : View :=
  ⟨g.t, g.load, g.pv, g.nextLoad, g.nextPv, if g.arch.grid then some (g.cur, g.next) else none, g.states, g.production,
    g.costs, g.co2, g.done, g.batterySoc⟩

/-- Running a list of controls: what every run returned and what could be read off afterwards. -/
def Grid.story : Grid → List Control → List (Except Err StateRow × View)
  | _, [] => []
  | g, c :: cs => ((g.run c).2, (g.run c).1.view) :: (g.run c).1.story cs

@[inherit_doc Grid.story]
def SplitGrid.story : SplitGrid → List Control → List (Except Err StateRow × View)
  | _, [] => []
  | s, c :: cs => ((s.run c).2, (s.run c).1.grid.view) :: (s.run c).1.story cs

end Pymgrid.Legacy
