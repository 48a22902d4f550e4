import Verif.Model.Microgrid
import Verif.Spec.Library

set_option autoImplicit false

/-! Vocabulary for the properties of the microgrid loop. -/

namespace Pymgrid

/-- One `step` call that the microgrid makes on the module object `id`, and what it returned. -/
structure Event where
  name : String
  id : Nat
  act : Act
  normalized : Bool
  out : StepOut

/-- `h'` is the state of all module objects after exactly the successful `step` calls `tr`, in that order, from
    state `h`. -/
inductive Exec : Heap → List Event → Heap → Prop
  | nil (h : Heap) : Exec h [] h
  | cons {h h' : Heap} {e : Event} {tr : List Event} {m' : Module}
      (hs : (h e.id).step e.act e.normalized = (m', .ok e.out)) (ht : Exec (h.set e.id m') tr h') :
      Exec h (e :: tr) h'

/-- Energy provided in the steps of a trace. -/
def provSum (tr : List Event) : ℚ := (tr.map fun e => e.out.info.provided.getD 0).sum

/-- Energy absorbed in the steps of a trace. -/
def absSum (tr : List Event) : ℚ := (tr.map fun e => e.out.info.absorbed.getD 0).sum

/-- Total energy that the infos of a run report as provided to the microgrid. -/
def RunOut.provided (o : RunOut) : ℚ :=
  (o.infos.map fun ni => (ni.2.map fun inf => inf.provided.getD 0).sum).sum

/-- Total energy that the infos of a run report as absorbed from the microgrid. -/
def RunOut.absorbed (o : RunOut) : ℚ :=
  (o.infos.map fun ni => (ni.2.map fun inf => inf.absorbed.getD 0).sum).sum

/-- What a user does with a microgrid. -/
inductive GOp
  | run (control : List (String × Ctrl)) (normalized : Bool)
  | reset

/-- The microgrid after an operation, whether or not it raised. -/
def GOp.apply (g : Microgrid) : GOp → Microgrid
  | .run c n => (g.run c n).1
  | .reset => g.reset.1

/-- The microgrid after a history of operations. -/
def runG (g : Microgrid) (ops : List GOp) : Microgrid := ops.foldl GOp.apply g

/-- What a flexible module can provide during its current step, read off its own data: all of the renewable
    production, the import limit of a grid that is connected; `none` is unlimited. -/
def Module.canProvide (m : Module) : Option ℚ :=
  match m.kind with
  | .renewable t => some (((t.rows[m.currentStep]?).bind (·[0]?)).getD 0)
  | .grid p t => some (if (t.rows[m.currentStep]?).bind (·[3]?) = some 1 then p.maxImport else 0)
  | .balancing _ => none
  | _ => some 0

/-- What a flexible module can absorb during its current step: the export limit of a grid that is connected;
    `none` is unlimited. -/
def Module.canAbsorb (m : Module) : Option ℚ :=
  match m.kind with
  | .grid p t => some (if (t.rows[m.currentStep]?).bind (·[3]?) = some 1 then p.maxExport else 0)
  | .balancing _ => none
  | _ => some 0

/-- The smaller of a capacity and an amount. -/
def capMin : Option ℚ → ℚ → ℚ
  | none, x => x
  | some c, x => min c x

/-- Greedy allocation of an amount to capacities, in order. -/
def greedy : List (Option ℚ) → ℚ → List ℚ
  | [], _ => []
  | c :: cs, x => capMin c x :: greedy cs (x - capMin c x)

/-- The modules with a given name and a given place in the dispatch (fixed, flexible, controllable), in the order in
    which they were passed to the microgrid. -/
def modulesNamed (h : Heap) (mods : List (String × Nat)) (f : FFC) (name : String) : List Nat :=
  (mods.filter fun nm => decide (nm.1 = name ∧ (h nm.2).ffc = f)).map Prod.snd

/-- Modules with the same name and the same place in the dispatch are of the same direction (source, sink, both). -/
def ClearNames (h : Heap) (mods : List (String × Nat)) : Prop :=
  ∀ x ∈ mods, ∀ y ∈ mods, x.1 = y.1 → (h x.2).ffc = (h y.2).ffc → (h x.2).ss = (h y.2).ss

/-- Modules with the same name have the same place in the dispatch and the same direction. -/
def DistinctNames (h : Heap) (mods : List (String × Nat)) : Prop :=
  ∀ x ∈ mods, ∀ y ∈ mods, x.1 = y.1 → (h x.2).ffc = (h y.2).ffc ∧ (h x.2).ss = (h y.2).ss

/-- The control has one action for each controllable module. -/
def Supplies (h : Heap) (mods : List (String × Nat)) (control : List (String × Ctrl)) : Prop :=
  ∀ nm ∈ mods, (h nm.2).ffc = .controllable → ∃ c, dictGet? control nm.1 = some c ∧
    (modulesNamed h mods .controllable nm.1).length ≤ c.acts.length

/-- Every module is at step `c`. -/
def LockStep (mods : List (String × Nat)) (g : Microgrid) (c : Nat) : Prop :=
  ∀ nm ∈ mods, (g.heap nm.2).currentStep = c

/-- Consecutive successful calls of `run`, with their controls and results. -/
inductive Runs : Microgrid → List (List (String × Ctrl) × Bool) → List RunOut → Microgrid → Prop
  | nil (g : Microgrid) : Runs g [] [] g
  | cons {g g₁ g' : Microgrid} {c : List (String × Ctrl)} {n : Bool} {o : RunOut}
      {cs : List (List (String × Ctrl) × Bool)} {os : List RunOut}
      (h : g.run c n = (g₁, .ok o)) (t : Runs g₁ cs os g') : Runs g ((c, n) :: cs) (o :: os) g'

/-- Successful calls of `run` and `reset` in any order. -/
inductive Calls : Microgrid → List GOp → Microgrid → Prop
  | nil (g : Microgrid) : Calls g [] g
  | run {g g₁ g' : Microgrid} {c : List (String × Ctrl)} {n : Bool} {o : RunOut} {ops : List GOp}
      (h : g.run c n = (g₁, .ok o)) (t : Calls g₁ ops g') : Calls g (.run c n :: ops) g'
  | reset {g g₁ g' : Microgrid} {ops : List GOp}
      (h : g.reset = (g₁, .ok ())) (t : Calls g₁ ops g') : Calls g (.reset :: ops) g'

/-- The steps of a trace are reported by the run's result, in order, under the names of their modules. -/
def Reported (tr : List Event) (o : RunOut) : Prop :=
  ∀ name, (dictGet? o.infos name).getD [] = (tr.filter fun e => decide (e.name = name)).map (·.out.info) ∧
    (dictGet? o.obs name).getD [] = (tr.filter fun e => decide (e.name = name)).map (·.out.obs)

/-- The microgrid of a successful constructor call (examples only). -/
def okGrid (r : Except Err Microgrid) : Microgrid :=
  match r with
  | .ok g => g
  | .error _ => { heap := fun _ => Module.mkBalancing false 0 0 0, cont := .empty, initialStep := 0, finalStep := none }

theorem okGrid_eq {r : Except Err Microgrid} (h : r.isOk = true) : r = .ok (okGrid r) := by
  cases r with
  | ok m => rfl
  | error e => simp [Except.isOk, Except.toBool] at h

end Pymgrid
