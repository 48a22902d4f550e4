import Verif.Spec.Microgrid

set_option autoImplicit false

/-! Specification for C84. -/

namespace Pymgrid

/-- The same modules in another order, except that modules sharing a name keep their order, and so do the flexible
    sources, the flexible sinks, and the flexible modules that are both. -/
structure Reordered (h : Heap) (mods mods' : List (String × Nat)) : Prop where
  named : ∀ n, mods'.filter (fun x => decide (x.1 = n)) = mods.filter (fun x => decide (x.1 = n))
  flex : ∀ s, mods'.filter (fun x => decide ((h x.2).ffc = .flex ∧ (h x.2).ss = s)) =
    mods.filter (fun x => decide ((h x.2).ffc = .flex ∧ (h x.2).ss = s))

/-- Dictionaries with the same entries, in whatever order. -/
def SameDict {β : Type} (d d' : List (String × β)) : Prop := ∀ k, dictGet? d' k = dictGet? d k

/-- The shaper, if any, looks modules up by name: it does not depend on the order of its dictionaries. -/
def Orderless (sh : Option Shaper) : Prop :=
  ∀ f, sh = some f → ∀ i i' c c', SameDict i i' → SameDict c c' → f i' c' = f i c

/-- Results of `run` that differ at most in the order of the dictionaries. -/
structure SameOut (o o' : RunOut) : Prop where
  obs : SameDict o.obs o'.obs
  infos : SameDict o.infos o'.infos
  reward : o'.reward = o.reward
  done : o'.done = o.done

/-- Successful calls of `run` and `reset` with what they returned. -/
inductive Transcript : Microgrid → List GOp → List (Option RunOut) → Microgrid → Prop
  | nil (g : Microgrid) : Transcript g [] [] g
  | run {g g₁ g' : Microgrid} {c : List (String × Ctrl)} {n : Bool} {o : RunOut} {ops : List GOp}
      {os : List (Option RunOut)} (h : g.run c n = (g₁, .ok o)) (t : Transcript g₁ ops os g') :
      Transcript g (.run c n :: ops) (some o :: os) g'
  | reset {g g₁ g' : Microgrid} {ops : List GOp} {os : List (Option RunOut)}
      (h : g.reset = (g₁, .ok ())) (t : Transcript g₁ ops os g') : Transcript g (.reset :: ops) (none :: os) g'

/-- The same modules in the same states, the same logs and the same settings. -/
structure SameParts (g g' : Microgrid) : Prop where
  heap : g'.heap = g.heap
  initialStep : g'.initialStep = g.initialStep
  finalStep : g'.finalStep = g.finalStep
  shaper : g'.shaper = g.shaper
  trajectory : g'.trajectory = g.trajectory
  calls : g'.calls = g.calls
  balanceLog : g'.balanceLog = g.balanceLog
  otherLog : g'.otherLog = g.otherLog

end Pymgrid
