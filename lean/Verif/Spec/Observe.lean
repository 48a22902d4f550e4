import Verif.Spec.Library

set_option autoImplicit false

/-! What a module should show the user. -/

namespace Pymgrid

/-- A quantity together with its documented range. -/
structure Reading where
  lo : ℚ
  val : ℚ
  hi : ℚ

/-- Relative position of a quantity in its range: 0 at the lower end, 1 at the upper end; the distance from the
    range if that is a single point. -/
def Reading.pos (r : Reading) : ℚ := if r.lo = r.hi then r.val - r.lo else (r.val - r.lo) / (r.hi - r.lo)

/-- Pair a row of values with the bounds of its columns. -/
def readRow : List ℚ → List ℚ → List ℚ → List Reading
  | l :: lo, h :: hi, v :: row => ⟨l, v, h⟩ :: readRow lo hi row
  | _, _, _ => []

/-- The quantities a module shows, in order: state of charge and charge of a battery; status, goal and the two
    counters of a genset; current row (mid-points of the bounds when the data has ended) and forecast rows of a
    time series; nothing for the balancing module. -/
def Module.readings (m : Module) : List Reading :=
  match m.kind with
  | .battery b => [⟨b.minCapacity / b.maxCapacity, b.charge / b.maxCapacity, 1⟩, ⟨b.minCapacity, b.charge, b.maxCapacity⟩]
  | .genset g => [⟨0, g.status, 1⟩, ⟨0, g.goal, 1⟩, ⟨0, g.untilUp, g.startUpTime⟩, ⟨0, g.untilDown, g.windDownTime⟩]
  | .grid _ t | .load t | .renewable t =>
    ((t.rows[m.currentStep]?).getD (midpoints t.minRow t.maxRow) :: t.cur.getD []).flatMap (readRow t.minRow t.maxRow)
  | .balancing _ => []

/-- Batteries have positive capacity; nothing is required of other modules. -/
def Module.PositiveCapacity (m : Module) : Prop := ∀ b, m.kind = .battery b → 0 < b.maxCapacity

end Pymgrid
