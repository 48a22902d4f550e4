import Verif.Spec.LegacyRBC
import Verif.Spec.MPC

set_option autoImplicit false

/-! What the user of the model predictive control of a legacy microgrid sees. -/

namespace Pymgrid.MPC

open Legacy

/-- What a production entry and the state of charge after it mean as energies. -/
def executed (e : Entry) (soc : ℚ) : Flow :=
  { genset := e.genset, imp := e.imp, exp := e.exp, charge := e.charge, discharge := e.discharge, curtailed := e.curtailed
    loss := e.lossLoad, soc }

/-- Iteration `i` follows the first step `f` of a plan: grid and genset produce what was planned, the battery as much of it as
    it can, lost load and overgeneration are exact, and the cost on record is that of what was done, at the prices of step `i`. -/
structure Followed (g : Grid) (i : Nat) (b b' : Baseline) (e : Entry) (load pv : ℚ) (row : StateRow) (f : Flow) : Prop where
  turn : Turn g i b b' e load pv row
  possible : ∃ on, StepOK (legacyProblem g i b.soc) 0 b.soc on f
  genset : e.genset = f.genset
  imp : e.imp = f.imp
  exp : e.exp = f.exp
  charge : e.charge = min f.charge (g.params.chargeLimit b.soc)
  discharge : e.discharge = min f.discharge (g.params.dischargeLimit b.soc)
  exact : 0 < e.lossLoad + e.overgen →
    e.discharge + e.imp + e.genset + e.consumed + e.lossLoad = load + e.charge + e.exp + e.overgen
  outage : g.arch.grid = true → g.statuses[i]? = some 0 → e.imp = 0 ∧ e.exp = 0
  cost : ∃ c : CostRow, b'.costs = b.costs ++ [c] ∧
    c.total = billed (legacyProblem g i b.soc) 0 (executed e row.soc) + g.params.costOvergen * e.overgen

/-- The first step of a plan needs no PV although there is some: what the grid, the genset and the battery, as far as it can,
    supply is just what load, charge and export take. -/
def NoPvNeeded (g : Grid) (i : Nat) (soc : ℚ) (f : Flow) : Prop :=
  ∃ load pv, g.loads[i]? = some load ∧ g.pvs[i]? = some pv ∧ 1/1000 ≤ pv ∧
    load + min f.charge (g.params.chargeLimit soc) + f.exp = min f.discharge (g.params.dischargeLimit soc) + f.imp + f.genset

/-- `n` iterations, starting with iteration `i`, that follow plans of the solver. -/
inductive Iterations (solve : Solver) (g : Grid) : Nat → Nat → Baseline → Baseline → Prop
  | none (i : Nat) (b : Baseline) : Iterations solve g i 0 b b
  | more {i n : Nat} {b b₁ b₂ : Baseline} {e : Entry} {load pv : ℚ} {row : StateRow} {x : Point}
      (s : solve (legacyProblem g i b.soc) = some x) (h : Followed g i b b₁ e load pv row (x.flow g.arch.genset 0))
      (t : Iterations solve g (i + 1) n b₁ b₂) : Iterations solve g i (n + 1) b b₂

/-- Data a legacy microgrid is usually generated with. -/
structure Usual (g : Grid) : Prop where
  params : g.params.Good
  socMin : 0 ≤ g.params.socMin
  series : g.FullSeries
  statuses : ∀ s ∈ g.statuses, s = 0 ∨ s = 1
  loads : ∀ x ∈ g.loads, 0 ≤ x
  pvs : ∀ x ∈ g.pvs, 0 ≤ x
  battery : g.arch.battery = true
  horizon : 0 < g.horizon

end Pymgrid.MPC
