import Verif.Model.MPC

set_option autoImplicit false

/-! What a plan for the coming steps is, in terms of the energies of the components. -/

namespace Pymgrid.MPC

/-- The energies of one step of a plan, and the state of charge after it. -/
structure Flow where
  genset : ℚ := 0
  imp : ℚ := 0
  exp : ℚ := 0
  charge : ℚ := 0
  discharge : ℚ := 0
  curtailed : ℚ := 0
  loss : ℚ := 0
  soc : ℚ := 0
  deriving DecidableEq, Repr

/-- The meaning of the solver's variables (`P` in the paper): eight per step, the first of which is missing if there is no
    genset. -/
def Point.flow (x : Point) (genset : Bool) (j : Nat) : Flow :=
  if genset then ⟨x.p (8 * j), x.p (8 * j + 1), x.p (8 * j + 2), x.p (8 * j + 3), x.p (8 * j + 4), x.p (8 * j + 5),
    x.p (8 * j + 6), x.p (8 * j + 7)⟩
  else ⟨0, x.p (7 * j), x.p (7 * j + 1), x.p (7 * j + 2), x.p (7 * j + 3), x.p (7 * j + 4), x.p (7 * j + 5), x.p (7 * j + 6)⟩

/-- Step `j` of a plan, with state of charge `before` at its start, is physically possible: it balances, the battery follows
    its dynamics and stays in its window, and all components respect their limits.  The limits of the grid are multiplied
    by its status; `on` tells whether the genset is running. -/
structure StepOK (P : Problem) (j : Nat) (before : ℚ) (on : ℚ) (f : Flow) : Prop where
  balance : f.genset + f.imp + f.discharge + (P.inputs.pv.getD j 0 - f.curtailed) + f.loss =
    P.inputs.load.getD j 0 + f.exp + f.charge
  dynamics : f.soc = before + (P.static.eta * f.charge - f.discharge / P.static.eta) / P.static.capacity
  window : P.inputs.eMin ≤ f.soc ∧ f.soc ≤ P.inputs.eMax
  charge : 0 ≤ f.charge ∧ f.charge ≤ P.inputs.pCharge
  discharge : 0 ≤ f.discharge ∧ f.discharge ≤ P.inputs.pDischarge
  imp : 0 ≤ f.imp ∧ f.imp ≤ P.inputs.pImport * P.inputs.grid.getD j 0
  exp : 0 ≤ f.exp ∧ f.exp ≤ P.inputs.pExport * P.inputs.grid.getD j 0
  curtailed : 0 ≤ f.curtailed ∧ f.curtailed ≤ P.inputs.pv.getD j 0
  loss : 0 ≤ f.loss ∧ f.loss ≤ P.inputs.load.getD j 0
  soc : 0 ≤ f.soc
  genset : if P.genset then
      (on = 0 ∧ f.genset = 0 ∧ 0 ≤ P.static.gensetMax) ∨
        (on = 1 ∧ 0 ≤ f.genset ∧ P.static.gensetMin ≤ f.genset ∧ f.genset ≤ P.static.gensetMax)
    else f.genset = 0

/-- The state of charge at the start of step `j` of a plan. -/
def socBefore (P : Problem) (f : Nat → Flow) : Nat → ℚ
  | 0 => P.inputs.soc
  | j + 1 => (f j).soc

/-- A physically possible plan for the whole horizon. -/
def Admissible (P : Problem) (f : Nat → Flow) (on : Nat → ℚ) : Prop :=
  ∀ j < P.horizon, StepOK P j (socBefore P f j) (on j) (f j)

/-- What a microgrid charges for the energies of a step, at the prices the problem was made with: fuel, import minus export,
    wear of the battery, loss of load, and emissions of genset and grid. -/
def billed (P : Problem) (j : Nat) (f : Flow) : ℚ :=
  P.static.fuel * f.genset + P.inputs.importPrice.getD j 0 * f.imp - P.inputs.exportPrice.getD j 0 * f.exp +
    P.static.cycle * (f.charge + f.discharge) + P.static.lossLoad * f.loss +
    (P.static.costCo2 * (P.static.gensetCo2 * f.genset) + P.inputs.costCo2 * (P.inputs.gridCo2.getD j 0 * f.imp))

/-- What is charged for the whole plan. -/
def totalBilled (P : Problem) (f : Nat → Flow) : ℚ := ∑ j ∈ Finset.range P.horizon, billed P j (f j)

/-- What a unit of imported energy costs in a step, with its emissions. -/
def importCost (P : Problem) (j : Nat) : ℚ := P.inputs.importPrice.getD j 0 + P.inputs.costCo2 * P.inputs.gridCo2.getD j 0

/-- What a unit of energy from the genset costs, with its emissions. -/
def gensetCost (P : Problem) : ℚ := P.static.fuel + P.static.costCo2 * P.static.gensetCo2

/-- A solution of the problem. -/
def Optimal (P : Problem) (x : Point) : Prop := Feasible P x ∧ ∀ y, Feasible P y → objective P x ≤ objective P y

/-- What is required of a solver: points it returns meet the constraints, and it returns one if there is one. -/
structure Solver.Sound (solve : Solver) : Prop where
  feasible : ∀ P x, solve P = some x → Feasible P x
  complete : ∀ P x, Feasible P x → ∃ y, solve P = some y

/-- Data with which a problem can be posed. -/
structure Problem.Good (P : Problem) : Prop where
  eta : 0 < P.static.eta ∧ P.static.eta ≤ 1
  capacity : 0 < P.static.capacity
  window : 0 ≤ P.inputs.eMin
  pCharge : 0 ≤ P.inputs.pCharge
  pDischarge : 0 ≤ P.inputs.pDischarge
  pImport : 0 ≤ P.inputs.pImport
  pExport : 0 ≤ P.inputs.pExport
  gensetMin : 0 ≤ P.static.gensetMin
  gensetMax : P.static.gensetMin ≤ P.static.gensetMax
  load : ∀ j < P.horizon, 0 ≤ P.inputs.load.getD j 0
  pv : ∀ j < P.horizon, 0 ≤ P.inputs.pv.getD j 0
  grid : ∀ j < P.horizon, P.inputs.grid.getD j 0 = 0 ∨ P.inputs.grid.getD j 0 = 1

end Pymgrid.MPC
