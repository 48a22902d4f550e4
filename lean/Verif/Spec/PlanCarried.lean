import Verif.Spec.ModularMPC

set_option autoImplicit false

/-! What it means that a run of a modular microgrid carries out a step of a plan. -/

namespace Pymgrid.MPC

/-- What the modules of a name delivered to the microgrid in a run, minus what they took from it, as the result of the run
    reports it. -/
def delivered (o : RunOut) (name : String) : ℚ :=
  (((dictGet? o.infos name).getD []).map fun i => i.provided.getD 0 - i.absorbed.getD 0).sum

/-- The first step of a plan has been carried out: every module delivered what the plan assigns to it, and the battery has
    the planned state of charge.  Loss of load and curtailed production are those of the plan after they have been set off
    against each other. -/
structure AsPlanned (h : Heap) (mods : List (String × Nat)) (P : Problem) (f : Flow) (o : RunOut) (h' : Heap) : Prop where
  load : ∀ nm ∈ mods, ∀ t, (h nm.2).kind = .load t → delivered o nm.1 = -P.inputs.load.getD 0 0
  battery : ∀ nm ∈ mods, ∀ b, (h nm.2).kind = .battery b →
    delivered o nm.1 = f.discharge - f.charge ∧ ∃ b', (h' nm.2).kind = .battery b' ∧ b'.soc = f.soc
  grid : ∀ nm ∈ mods, ∀ p t, (h nm.2).kind = .grid p t → delivered o nm.1 = f.imp - f.exp
  genset : ∀ nm ∈ mods, ∀ n, (h nm.2).kind = .genset n → delivered o nm.1 = f.genset
  pv : ∀ nm ∈ mods, ∀ t, (h nm.2).kind = .renewable t →
    delivered o nm.1 = P.inputs.pv.getD 0 0 - max 0 (f.curtailed - f.loss)
  balancing : ∀ nm ∈ mods, ∀ u, (h nm.2).kind = .balancing u → delivered o nm.1 = max 0 (f.loss - f.curtailed)

/-- Conditions on the state and the step that planning does not take into account: the grid is controllable and, if it is to
    be used, connected; the battery does not charge and discharge at the same time, and it loses energy on the way out, so
    that less than its rate of discharge arrives; the genset can be switched as planned at once. -/
structure Executable (h : Heap) (mods : List (String × Nat)) (on : ℚ) (f : Flow) : Prop where
  grid : ∀ nm ∈ mods, ∀ p t, (h nm.2).kind = .grid p t →
    (h nm.2).ffc = .controllable ∧ ((t.rows.getD (h nm.2).currentStep []).getD 3 0 = 1 ∨ f.imp = f.exp)
  battery : ∀ nm ∈ mods, ∀ b, (h nm.2).kind = .battery b →
    f.discharge ≤ b.maxDischarge * b.efficiency ∧ (f.charge = 0 ∨ f.discharge = 0)
  genset : ∀ nm ∈ mods, ∀ n, (h nm.2).kind = .genset n →
    (on = 1 → n.status = 1 ∨ n.untilUp = 0) ∧ (on = 0 → n.status = 0 ∨ n.untilDown = 0)

/-- What the modules charge for the first step of a plan that is carried out.  The prices are those of the problem, except
    for the price `c` of the emissions of the grid; the battery charges for what enters and leaves the store rather than what
    enters and leaves the battery, and the grid and the balancing module charge for the balance of the step. -/
def charged (P : Problem) (c : ℚ) (f : Flow) : ℚ :=
  P.static.fuel * f.genset + P.inputs.importPrice.getD 0 0 * max 0 (f.imp - f.exp) -
    P.inputs.exportPrice.getD 0 0 * max 0 (f.exp - f.imp) +
    P.static.cycle * (P.static.eta * f.charge + f.discharge / P.static.eta) +
    P.static.lossLoad * max 0 (f.loss - f.curtailed) +
    (P.static.costCo2 * (P.static.gensetCo2 * f.genset) + c * (P.inputs.gridCo2.getD 0 0 * max 0 (f.imp - f.exp)))

end Pymgrid.MPC
