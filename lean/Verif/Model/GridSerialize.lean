import Verif.Model.Serialize
import Verif.Model.Convert

set_option autoImplicit false

/-!
# Dumping and loading microgrids (`microgrid.py:829-908`)

As for modules (`Model/Serialize.lean`), `dump` builds the mapping that is written as YAML and `load` a microgrid from it.
Trajectory functions are taken to be objects of the classes of `microgrid/trajectory`, which are read back as they were
written; yaml cannot write other ones.  The `scenario` entry (`microgrid.py:881-886`), which refers to another file, is
left out.
-/

namespace Pymgrid

/-- The mapping built by `_serialization_data` (`microgrid.py:901-908`).  The reward shaping function and the log of
    additional information are not part of it.  `calls` stands for the state of the global random number generator, see
    `Microgrid.trajectory`. -/
structure GridDump where
  modules : List (String × Dump)
  trajectory : Option (Nat → Nat → Option Nat → Except Err (Nat × Nat))
  calls : Nat
  initialStep : Nat
  finalStep : Option Nat
  balanceLog : Option (List (Key × List (Option ℚ)))

/-- Dump the modules one after the other. -/
def dumpAll (h : Heap) : List (String × Nat) → Except Err (List (String × Dump))
  | [] => .ok []
  | (n, i) :: l =>
    match (h i).dump with
    | .error e => .error e
    | .ok d =>
      match dumpAll h l with
      | .error e => .error e
      | .ok ds => .ok ((n, d) :: ds)

/-- `dump` (`microgrid.py:829-845,866-870,895-908`). -/
def Microgrid.dump (g : Microgrid) : Except Err GridDump :=
  match g.balanceLog.serialize with
  | .error e => .error e
  | .ok log =>
    match dumpAll g.heap (Container.toTuples g.cont.fullDict) with
    | .error e => .error e
    | .ok modules =>
      .ok { modules, trajectory := g.trajectory, calls := g.calls, initialStep := g.initialStep, finalStep := g.finalStep
            balanceLog := log }

/-- Load the modules one after the other. -/
def loadAll (gridClass : FFC) : List (String × Dump) → Except Err (List (String × Loaded))
  | [] => .ok []
  | (n, d) :: l =>
    match d.load gridClass with
    | .error e => .error e
    | .ok x =>
      match loadAll gridClass l with
      | .error e => .error e
      | .ok xs => .ok ((n, x) :: xs)

/-- A loaded microgrid.  `frozen` tells which modules, `frozenBalance` whether the balance log, have log columns that are
    pandas `Series`, see `Loaded`. -/
structure LoadedGrid where
  grid : Microgrid
  frozen : Nat → Bool
  frozenBalance : Bool

/-- `load` (`microgrid.py:847-864,873-893`). -/
def GridDump.load (gridClass : FFC) (d : GridDump) : Except Err LoadedGrid :=
  match loadAll gridClass d.modules with
  | .error e => .error e
  | .ok ls =>
    let ms := ls.map fun nl => (nl.1, nl.2.mod)
    match Microgrid.create (Legacy.place ms) (Legacy.references ms) none none with
    | .error e => .error e
    | .ok g =>
      .ok { grid := { g with balanceLog := Logger.fromRaw d.balanceLog, trajectory := d.trajectory, calls := d.calls
                             initialStep := d.initialStep, finalStep := d.finalStep }
            frozen := fun i => ((ls[i]?).map fun nl => nl.2.frozen).getD false
            frozenBalance := d.balanceLog.isSome }

/-! ### Running a loaded microgrid

The functions of `Model/Microgrid.lean` with another `step` of the modules. -/

/-- How the module object with a given identity is stepped. -/
abbrev Stepper := Nat → Module → Act → Bool → Module × Except Err StepOut

namespace RunSt

@[inherit_doc RunSt.stepOne]
def stepOneWith (st : Stepper) (s : RunSt) (name : String) (i : Nat) (a : Act) (normalized : Bool) :
    RunSt × Except Err Unit :=
  match st i (s.heap i) a normalized with
  | (m', .error e) => ({ s with heap := s.heap.set i m' }, .error e)
  | (m', .ok o) => ({ heap := s.heap.set i m', acc := s.acc.append name o }, .ok ())

@[inherit_doc RunSt.stepMany]
def stepManyWith (st : Stepper) : List (String × Nat × Act) → Bool → RunSt → RunSt × Except Err Unit
  | [], _, s => (s, .ok ())
  | (name, i, a) :: rest, nrm, s =>
    match s.stepOneWith st name i a nrm with
    | (s', .error e) => (s', .error e)
    | (s', .ok ()) => stepManyWith st rest nrm s'

@[inherit_doc RunSt.stepControls]
def stepControlsWith (st : Stepper) (control : List (String × Ctrl)) (nrm : Bool) :
    ModDict → RunSt → RunSt × Except Err Unit
  | [], s => (s, .ok ())
  | (name, ids) :: rest, s =>
    match dictGet? control name with
    | none => (s, .error .value)
    | some c =>
      match RunSt.stepManyWith st ((ids.zip c.acts).map (fun ia => (name, ia.1, ia.2))) nrm s with
      | (s', .error e) => (s', .error e)
      | (s', .ok ()) => stepControlsWith st control nrm rest s'

@[inherit_doc RunSt.absorbExcess]
def absorbExcessWith (st : Stepper) : List (String × Nat) → ℚ → RunSt → RunSt × Except Err Unit
  | [], _, s => (s, .ok ())
  | (name, i) :: rest, excess, s =>
    match sinkAmount (s.heap i) excess with
    | .error e => (s, .error e)
    | .ok amt =>
      match s.stepOneWith st name i (.num (-1 * amt)) false with
      | (s', .error e) => (s', .error e)
      | (s', .ok ()) => absorbExcessWith st rest (excess + -1 * amt) s'

@[inherit_doc RunSt.coverNeed]
def coverNeedWith (st : Stepper) : List (String × Nat) → ℚ → RunSt → RunSt × Except Err Unit
  | [], _, s => (s, .ok ())
  | (name, i) :: rest, needed, s =>
    match sourceAmount (s.heap i) needed with
    | .error e => (s, .error e)
    | .ok amt =>
      match s.stepOneWith st name i (.num amt) false with
      | (s', .error e) => (s', .error e)
      | (s', .ok ()) => coverNeedWith st rest (needed - amt) s'

end RunSt

namespace Microgrid

@[inherit_doc Microgrid.dispatch]
def dispatchWith (st : Stepper) (g : Microgrid) (difference : ℚ) (s : RunSt) : RunSt × Except Err Unit :=
  if difference > 0 then s.absorbExcessWith st g.flexList difference
  else s.coverNeedWith st g.flexList (-difference)

/-- `Microgrid.finish` with a balance log that may be unable to append (`microgrid.py:317-321`). -/
def finishWith (stuck : Bool) (g : Microgrid) (ci : CostInfo) (s : RunSt) (fp fc p c : ℚ) :
    Microgrid × Except Err RunOut :=
  if stuck then
    match s.acc.balance g.shaper ci with
    | .error e => ({ g with heap := s.heap }, .error e)
    | .ok _ => ({ g with heap := s.heap }, .error .attribute)
  else g.finish ci s fp fc p c

/-- `Microgrid.run` (`microgrid.py:227-325`) with these steps and this balance log. -/
def runWith (st : Stepper) (stuck : Bool) (g : Microgrid) (control : List (String × Ctrl)) (normalized : Bool) :
    Microgrid × Except Err RunOut :=
  match costInfo g.heap g.cont.fullDict with
  | .error e => (g, .error e)
  | .ok ci =>
    match RunSt.stepManyWith st g.fixedSteps false { heap := g.heap, acc := {} } with
    | (s₁, .error e) => ({ g with heap := s₁.heap }, .error e)
    | (s₁, .ok ()) =>
      match s₁.acc.balance g.shaper ci with
      | .error e => ({ g with heap := s₁.heap }, .error e)
      | .ok (fp, fc, _, _) =>
        match s₁.stepControlsWith st control normalized (g.cont.levelDict .controllable) with
        | (s₂, .error e) => ({ g with heap := s₂.heap }, .error e)
        | (s₂, .ok ()) =>
          match s₂.acc.balance g.shaper ci with
          | .error e => ({ g with heap := s₂.heap }, .error e)
          | .ok (p, c, _, _) =>
            match g.dispatchWith st (p - c) s₂ with
            | (s₃, .error e) => ({ g with heap := s₃.heap }, .error e)
            | (s₃, .ok ()) => g.finishWith stuck ci s₃ fp fc p c

end Microgrid

namespace LoadedGrid

/-- How the modules of a loaded microgrid are stepped. -/
def stepper (l : LoadedGrid) : Stepper := fun i m a n => if l.frozen i then m.frozenStep a n else m.step a n

/-- `run` of a loaded microgrid. -/
def run (l : LoadedGrid) (control : List (String × Ctrl)) (normalized : Bool) : LoadedGrid × Except Err RunOut :=
  ({ l with grid := (l.grid.runWith l.stepper l.frozenBalance control normalized).1 },
    (l.grid.runWith l.stepper l.frozenBalance control normalized).2)

/-- The modules whose log is flushed by `Microgrid.resetMany`: those before the first one that raises (`reset` flushes
    after the update of the step, `base_module.py:65-77`; a module that raises later is not listed). -/
def thawed (h : Heap) : List Nat → List Nat
  | [] => []
  | i :: is =>
    match (h i).reset with
    | (_, .error _) => []
    | (m', .ok _) => i :: thawed (h.set i m') is

/-- `reset` of a loaded microgrid (`microgrid.py:205-219`): flushing clears the columns, later ones are lists. -/
def reset (l : LoadedGrid) : LoadedGrid × Except Err Unit :=
  match l.grid.setTrajectory with
  | (g₁, .error e) => ({ l with grid := g₁ }, .error e)
  | (g₁, .ok ()) =>
    let ids := (Container.toTuples l.grid.cont.fullDict).map Prod.snd
    ({ grid := l.grid.reset.1
       frozen := fun i => l.frozen i && !(thawed g₁.heap ids).contains i
       frozenBalance := l.frozenBalance && !l.grid.reset.2.isOk }, l.grid.reset.2)

end LoadedGrid

end Pymgrid
