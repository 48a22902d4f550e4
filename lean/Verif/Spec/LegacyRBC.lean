import Verif.Model.LegacyRBC
import Verif.Spec.Legacy

set_option autoImplicit false

/-! What the user of the legacy rule-based control sees. -/

namespace Pymgrid.Legacy

/-- The genset is forced to run: PV and battery cannot serve the load and the grid is not asked first. -/
def Forced (a : Arch) (p : Params) (load pv soc : ℚ) (q : Priorities) : Prop :=
  a.genset = true ∧ pv + p.dischargeLimit soc < load ∧ ¬ (a.grid = true ∧ 0 < q.grid ∧ q.grid < q.genset)

/-- The part of the load that a plan leaves unserved: PV in use, discharge, import and genset against load, charge and
    export. -/
def Plan.unserved (x : Plan) (load : ℚ) : ℚ := load + x.charge + x.exp - (x.pvKept + x.discharge + x.imp + x.genset)

/-- The latest state of charge in the records. -/
def Baseline.soc (b : Baseline) : ℚ := (b.states.getLast?.map (·.soc)).getD 0

/-- What one turn of the baseline adds to the records: a production entry within the limits that balances load and PV of
    step `i`, and the state of step `i + 1`. -/
structure Turn (g : Grid) (i : Nat) (b b' : Baseline) (e : Entry) (load pv : ℚ) (row : StateRow) : Prop where
  demand : g.loads[i]? = some load
  sun : g.pvs[i]? = some pv
  recorded : e.Recorded g.arch b.production b'.production
  within : e.Within g.params b.soc
  balanced : e.Balanced load pv
  states : b'.states = b.states ++ [row]
  nextLoad : row.load = g.loads[i + 1]?
  nextPv : row.pv = g.pvs[i + 1]?
  soc : g.arch.battery = true →
    row.soc * g.params.capacity = b.soc * g.params.capacity + e.charge * g.params.eff - e.discharge / g.params.eff
  costs : b'.costs.length = b.costs.length + 1
  co2 : b'.co2.length = b.co2.length + 1

/-- `n` turns, starting with step `i`. -/
inductive Turns (g : Grid) : Nat → Nat → Baseline → Baseline → Prop
  | none (i : Nat) (b : Baseline) : Turns g i 0 b b
  | more {i n : Nat} {b b₁ b₂ : Baseline} {e : Entry} {load pv : ℚ} {row : StateRow} (h : Turn g i b b₁ e load pv row)
      (t : Turns g (i + 1) n b₁ b₂) : Turns g i (n + 1) b b₂

/-- Number of steps of a baseline: the requested length, at most all but the last step, minus the horizon. -/
def Grid.baselineLength (g : Grid) (length : Option Nat) : Nat := min (length.getD g.dataLength) (g.dataLength - 1) - g.horizon

end Pymgrid.Legacy
