import Verif.Model.SAA
import Verif.Spec.LegacyMPC

set_option autoImplicit false

/-! What the user of the sample average approximation sees. -/

namespace Pymgrid.MPC

open Legacy

/-- The actual data of a step. -/
def Actual (g : Grid) (j : Nat) (row : DataRow) : Prop :=
  g.loads[j]? = some row.load ∧ g.pvs[j]? = some row.pv ∧
    if g.arch.grid then g.statuses[j]? = some row.grid else row.grid = 0

/-- A microgrid with the data of a sample in place of the actual ones. -/
def _root_.Pymgrid.Legacy.Grid.withData (g : Grid) (s : Frame) : Grid :=
  { g with loads := s.map (·.load), pvs := s.map (·.pv), statuses := s.map (·.grid) }

/-- A sample for a microgrid: not longer than its data, no negative values, and a grid that is up or down. -/
structure GoodFrame (g : Grid) (s : Frame) : Prop where
  length : s.length ≤ g.dataLength
  load : ∀ r ∈ s, 0 ≤ r.load
  pv : ∀ r ∈ s, 0 ≤ r.pv
  grid : ∀ r ∈ s, r.grid = 0 ∨ r.grid = 1

/-- What plans are compared by: loss of load, fuel, and import minus export, over the horizon from step `j` on. -/
def planCost (g : Grid) (j : Nat) (f : Nat → Flow) : ℚ :=
  ∑ k ∈ Finset.range g.horizon, (g.params.costLossLoad * (f k).loss + (if g.arch.genset then g.params.fuelCost * (f k).genset else 0)
    + if g.arch.grid then g.importPrices.getD (j + k) 0 * (f k).imp - g.exportPrices.getD (j + k) 0 * (f k).exp else 0)

/-- `c` is the value of rank `k`, counting from 0: at most `k` values are less, and more than `k` are not greater. -/
def Rank (l : List ℚ) (k : Nat) (c : ℚ) : Prop :=
  (l.filter fun x => decide (x < c)).length ≤ k ∧ k < (l.filter fun x => decide (x ≤ c)).length

/-- What is required of `np.partition`. -/
def Selector.Sound (select : Selector) : Prop :=
  ∀ (l : List ℚ) (k : Nat), k < l.length → ∃ c, l[select l k]? = some c ∧ Rank l k c

/-- The plan `x`, made for the sample `s`, is the one of rank `k` among the plans made for all samples. -/
structure Chosen (solve : Solver) (g : Grid) (frames : List Frame) (j : Nat) (soc : ℚ) (k : Nat) (s : Frame) (x : Point) : Prop where
  sample : s ∈ frames
  plan : solve (sampleProblem g s j soc) = some x
  rank : ∃ costs : List ℚ, List.Forall₂ (fun t c => ∃ y, solve (sampleProblem g t j soc) = some y ∧
    c = planCost g j (y.flow g.arch.genset)) frames costs ∧ Rank costs k (planCost g j (x.flow g.arch.genset))

/-- Step `j` enacts the first step `f` of a plan for the sample `s`, with the actual load and PV: grid and genset produce what was
    planned, the battery as much of it as it can, lost load and overgeneration are exact, and the cost on record is that of what
    was done, at the prices of step `j`.  The new state shows load, PV and grid status of step `j` itself. -/
structure Enacted (g : Grid) (j : Nat) (s : Frame) (b b' : Baseline) (e : Entry) (now : DataRow) (row : StateRow) (f : Flow) :
    Prop where
  actual : Actual g j now
  recorded : e.Recorded g.arch b.production b'.production
  within : e.Within g.params b.soc
  balanced : e.Balanced now.load now.pv
  states : b'.states = b.states ++ [row]
  shows : row.load = some now.load ∧ row.pv = some now.pv ∧ row.grid.map (·.status) = if g.arch.grid then some now.grid else none
  hour : row.hour = g.t % 24
  soc : row.soc * g.params.capacity = b.soc * g.params.capacity + e.charge * g.params.eff - e.discharge / g.params.eff
  possible : ∃ on, StepOK (sampleProblem g s j b.soc) 0 b.soc on f
  genset : e.genset = f.genset
  imp : e.imp = f.imp
  exp : e.exp = f.exp
  charge : e.charge = min f.charge (g.params.chargeLimit b.soc)
  discharge : e.discharge = min f.discharge (g.params.dischargeLimit b.soc)
  exact : 0 < e.lossLoad + e.overgen →
    e.discharge + e.imp + e.genset + e.consumed + e.lossLoad = now.load + e.charge + e.exp + e.overgen
  outage : g.arch.grid = true → now.grid = 0 → e.imp = 0 ∧ e.exp = 0
  cost : ∃ c : CostRow, b'.costs = b.costs ++ [c] ∧
    c.total = billed (sampleProblem g s j b.soc) 0 (executed e row.soc) + g.params.costOvergen * e.overgen

/-- `n` steps from step `j` on.  In each the actual data are put into all samples, the plan of rank `k` is chosen, and its first
    step is enacted. -/
inductive GroupRun (solve : Solver) (g : Grid) (k : Nat) : Nat → Nat → List Frame → List Frame → Baseline → Baseline → Prop
  | none (j : Nat) (frames : List Frame) (b : Baseline) : GroupRun solve g k j 0 frames frames b b
  | more {j n : Nat} {frames frames' : List Frame} {b b₁ b₂ : Baseline} {s : Frame} {x : Point} {e : Entry} {now : DataRow}
      {row : StateRow} (c : Chosen solve g (frames.map fun t => t.set j now) j b.soc k s x)
      (h : Enacted g j s b b₁ e now row (x.flow g.arch.genset 0))
      (t : GroupRun solve g k (j + 1) n (frames.map fun t => t.set j now) frames' b₁ b₂) :
      GroupRun solve g k j (n + 1) frames frames' b b₂

end Pymgrid.MPC
