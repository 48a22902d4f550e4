import Mathlib.Algebra.Order.Floor.Ring
import Mathlib.Data.Rat.Floor
import Verif.Model.Legacy

set_option autoImplicit false

/-!
# Training and testing data of the legacy microgrid

`_deprecated/non_modular_microgrid.py:671-853`: `train_test_split`, and `update_variables`, `run` and `reset` with the data
set in use.  The costs per epoch that `reset` collects (lines 820-823) are a write-only log and left out, and so is the
epoch counter.
-/

namespace Pymgrid.Legacy

/-- `_data_set_to_use` (`non_modular_microgrid.py:388-389`). -/
inductive DataSet
  | all
  | training
  | testing
  deriving DecidableEq, Repr

/-- A legacy microgrid with its data sets (`non_modular_microgrid.py:378-389`); the series of `grid` are the whole ones. -/
structure SplitGrid where
  grid : Grid
  /-- `_data_length` -/
  dataLength : Nat
  /-- `_data_set_to_use` -/
  inUse : DataSet := .all
  /-- `_data_set_to_use_default` -/
  default : DataSet := .all
  /-- `_has_train_test_split` -/
  hasSplit : Bool := false
  /-- `_limit_index` -/
  limit : Nat := 0
  deriving DecidableEq, Repr

namespace SplitGrid

/-- The microgrid as constructed (`non_modular_microgrid.py:343-401`). -/
def ofGrid (g : Grid) : SplitGrid := { grid := g, dataLength := g.dataLength }

/-- The part of a series that is read: `_load_ts`, `_load_train` or `_load_test`, and so on
    (`non_modular_microgrid.py:712-731`). -/
def part (s : SplitGrid) (l : List ℚ) : List ℚ :=
  match s.inUse with
  | .all => l
  | .training => l.take s.limit
  | .testing => l.drop s.limit

/-- `iloc[i, 0]` of the four grid series in use. -/
def gridAt (s : SplitGrid) (i : Nat) : Except Err GridRow :=
  match (s.part s.grid.statuses)[i]?, (s.part s.grid.importPrices)[i]?, (s.part s.grid.exportPrices)[i]?,
    (s.part s.grid.co2s)[i]? with
  | some a, some p, some e, some c => .ok ⟨a, p, e, c⟩
  | _, _, _, _ => .error .index

/-- `update_variables` (`non_modular_microgrid.py:744-816`).  With training and testing data the next values are read
    without asking whether there are any.  As in `Grid.updateVariables`, an index error leaves behind what was read
    before, where values that are read together count as one. -/
def updateVariables (s : SplitGrid) : SplitGrid × Except Err Unit :=
  let g := s.grid
  match (s.part g.pvs)[g.t]?, (s.part g.loads)[g.t]? with
  | some pv, some load =>
    let inner := s.inUse ≠ .all ∨ g.t + 1 < s.dataLength
    let g₁ := { g with pv, load }
    let next : Except Err (Option ℚ × Option ℚ) :=
      if inner then
        match (s.part g.pvs)[g.t + 1]?, (s.part g.loads)[g.t + 1]? with
        | some p, some l => .ok (some p, some l)
        | _, _ => .error .index
      else .ok (none, none)
    match next with
    | .error e => ({ s with grid := g₁ }, .error e)
    | .ok (nextPv, nextLoad) =>
      let g₂ := { g₁ with nextPv, nextLoad }
      if g.arch.grid then
        match s.gridAt g.t with
        | .error e => ({ s with grid := g₂ }, .error e)
        | .ok cur =>
          if inner then
            match s.gridAt (g.t + 1) with
            | .error e => ({ s with grid := { g₂ with cur } }, .error e)
            | .ok next => ({ s with grid := { g₂ with cur, next := some next, batterySoc := g.soc } }, .ok ())
          else ({ s with grid := { g₂ with cur, next := none, batterySoc := g.soc } }, .ok ())
      else ({ s with grid := { g₂ with batterySoc := g.soc } }, .ok ())
  | _, _ => (s, .error .index)

/-- `run` (`non_modular_microgrid.py:607-668`). -/
def run (s : SplitGrid) (c : Control) : SplitGrid × Except Err StateRow :=
  let g := s.grid
  match record g.arch g.params g.load g.pv g.soc c g.production with
  | (r, .error e) => ({ s with grid := { g with production := r } }, .error e)
  | (r, .ok ()) =>
    match r.last g.arch with
    | .error e => ({ s with grid := { g with production := r } }, .error e)
    | .ok l =>
      let co2 := co2Of g.arch g.params l (if g.arch.grid then g.cur.co2 else 0)
      let cost := costRow g.arch g.params l co2 (if g.arch.grid then g.cur.priceImport else 0)
        (if g.arch.grid then g.cur.priceExport else 0)
      let row :=
        if g.arch.grid then nextRow g.arch g.params g.soc l.charge l.discharge g.nextLoad g.nextPv g.t g.next
        else nextRow g.arch g.params g.soc (c.charge.getD 0) (c.discharge.getD 0) g.nextLoad g.nextPv g.t none
      let g := { g with production := r, co2 := g.co2 ++ [co2], costs := g.costs ++ [cost], states := g.states ++ [row] }
      if (g.t : Int) = (s.dataLength : Int) - g.horizon ∨ (g.t : Int) = (s.dataLength : Int) - 1 then
        ({ s with grid := { g with done := true } }, .ok row)
      else
        match { s with grid := { g with t := g.t + 1 } }.updateVariables with
        | (s, .error e) => (s, .error e)
        | (s, .ok ()) => (s, .ok row)

/-- `reset(testing)` (`non_modular_microgrid.py:818-849`). -/
def reset (s : SplitGrid) (testing : Bool) : SplitGrid × Except Err Unit :=
  let g := { s.grid with states := s.grid.states.take 1, production := {}, costs := [], co2 := [], t := 0 }
  let s₁ := { s with grid := g, inUse := if testing = true ∧ s.default = DataSet.training then .testing else s.default }
  let s₂ := { s₁ with dataLength := min (s₁.part g.loads).length (s₁.part g.pvs).length }
  match s₂.updateVariables with
  | (s, .error e) => (s, .error e)
  | (s, .ok ()) => ({ s with grid := { s.grid with done := false } }, .ok ())

/-- `train_test_split(train_size, cancel)` (`non_modular_microgrid.py:671-742`); `shuffle` is never read.  Simplified: sizes
    are exact and not negative. -/
def trainTestSplit (s : SplitGrid) (trainSize : ℚ) (cancel : Bool) : SplitGrid × Except Err Unit :=
  let s₁ : SplitGrid :=
    if s.hasSplit = false then
      { s with limit := ⌈(s.dataLength : ℚ) * trainSize⌉.toNat, hasSplit := true, default := .training, inUse := .training }
    else if cancel then { s with hasSplit := false, default := .all, inUse := .all }
    else s
  s₁.reset false

end SplitGrid

end Pymgrid.Legacy
