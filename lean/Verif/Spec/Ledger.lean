import Verif.Spec.Microgrid
import Verif.Spec.Genset

set_option autoImplicit false

/-! The books of an episode: what the results of consecutive runs report about each module, and what the data of the
    modules say about it. -/

namespace Pymgrid

/-- Entry `j` of row `c` of a time series. -/
def TS.cell (t : TS) (c j : Nat) : ℚ := (t.rows.getD c []).getD j 0

/-- What the result of a run reports that the modules of a name provided. -/
def RunOut.provBy (o : RunOut) (name : String) : ℚ :=
  (((dictGet? o.infos name).getD []).map fun i => i.provided.getD 0).sum

/-- What the result of a run reports that the modules of a name absorbed. -/
def RunOut.absBy (o : RunOut) (name : String) : ℚ :=
  (((dictGet? o.infos name).getD []).map fun i => i.absorbed.getD 0).sum

/-- The same over several runs. -/
def provTotal (os : List RunOut) (name : String) : ℚ := (os.map fun o => o.provBy name).sum

def absTotal (os : List RunOut) (name : String) : ℚ := (os.map fun o => o.absBy name).sum

/-- What a module with these data can have provided (`p`) and absorbed (`a`) in step `c`. -/
def Kind.Possible : Kind → Nat → ℚ → ℚ → Prop
  | .load t, c, p, a => p = 0 ∧ a = |t.cell c 0|
  | .renewable t, c, p, a => 0 ≤ p ∧ p ≤ t.cell c 0 ∧ a = 0
  | .grid g t, c, p, a => 0 ≤ p ∧ p ≤ g.maxImport * t.cell c 3 ∧ 0 ≤ a ∧ a ≤ g.maxExport * t.cell c 3 ∧ (p = 0 ∨ a = 0)
  | .genset g, _, p, a => (p = 0 ∨ g.runMin ≤ p ∧ p ≤ g.runMax) ∧ a = 0
  | .battery b, _, p, a => 0 ≤ p ∧ p ≤ b.maxDischarge * b.efficiency ∧ 0 ≤ a ∧ a ≤ b.maxCharge / b.efficiency ∧ (p = 0 ∨ a = 0)
  | .balancing _, _, p, a => 0 ≤ p ∧ 0 ≤ a ∧ (p = 0 ∨ a = 0)

/-- What a module with these data charges for that. -/
def Kind.dues : Kind → Nat → ℚ → ℚ → ℚ
  | .load _, _, _, _ => 0
  | .renewable _, _, _, _ => 0
  | .grid g t, c, p, a => t.cell c 0 * p - t.cell c 1 * a + g.costPerCo2 * (t.cell c 2 * p)
  | .genset g, _, p, _ => fuelPrice g.cost p + g.costPerCo2 * (g.co2PerUnit * p)
  | .battery b, _, p, a => b.costCycle * (b.efficiency * a + p / b.efficiency)
  | .balancing u, _, p, a => u.lossLoadCost * p + u.overgenerationCost * a

/-- What a module charges over consecutive runs from step `c`. -/
def bill (k : Kind) (c : Nat) (os : List RunOut) (name : String) : ℚ :=
  ((os.zipIdx c).map fun x => k.dues x.2 (x.1.provBy name) (x.1.absBy name)).sum

/-- The energy that a module stores. -/
def Kind.stock : Kind → ℚ
  | .battery b => b.charge
  | _ => 0

/-- What of the energy that passes a module gets lost on its way into and out of the store. -/
def Kind.lost : Kind → ℚ → ℚ → ℚ
  | .battery b, p, a => (1 - b.efficiency) * a + (1 / b.efficiency - 1) * p
  | _, _, _ => 0

/-- What a module must get in step `c`. -/
def Kind.demand : Kind → Nat → ℚ
  | .load t, c => |t.cell c 0|
  | _, _ => 0

/-- The most that a module can produce or import in step `c`. -/
def Kind.supply : Kind → Nat → ℚ
  | .renewable t, c => t.cell c 0
  | .grid g t, c => g.maxImport * t.cell c 3
  | .genset g, _ => g.runMax
  | _, _ => 0

/-- The most that the energy which a module stores is worth outside. -/
def Kind.reserve : Kind → ℚ
  | .battery b => b.efficiency * (b.charge - b.minCapacity)
  | _ => 0

/-- The module balances the microgrid. -/
def Kind.isBalancing : Kind → Bool
  | .balancing _ => true
  | _ => false

/-- The loss of load that the results of runs report: what the balancing modules provided. -/
def lossTotal (h : Heap) (mods : List (String × Nat)) (os : List RunOut) : ℚ :=
  ((mods.filter fun nm => (h nm.2).kind.isBalancing).map fun nm => provTotal os nm.1).sum

/-- Sum over `n` consecutive steps from `c`. -/
def overSteps (c n : Nat) (f : Nat → ℚ) : ℚ := ((List.range n).map fun k => f (c + k)).sum

end Pymgrid
