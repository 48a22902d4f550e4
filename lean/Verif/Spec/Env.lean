import Verif.Model.Env
import Verif.Spec.PriorityList
import Verif.Spec.Log

set_option autoImplicit false

/-! Vocabulary for the microgrid's log and the discrete environment. -/

namespace Pymgrid

/-- All modules with a given name, in the order in which they were passed to the microgrid. -/
def allNamed (mods : List (String × Nat)) (name : String) : List Nat :=
  (mods.filter fun nm => decide (nm.1 = name)).map Prod.snd

/-- A column of a data frame. -/
def Frame.column (f : Frame) (name : String) (number : Nat) (field : Key) : Option (List (Option ℚ)) :=
  dictGet? f.cols (name, number, field)

/-- What a user does with a discrete environment. -/
inductive EOp
  | step (a : Int)
  | remove (a : Int)
  | reset

/-- The environment after an operation, whether or not it raised. -/
def EOp.apply (e : DiscreteEnv) : EOp → DiscreteEnv
  | .step a => (e.step a).1
  | .remove a => (e.removeAction a).1
  | .reset => e.reset.1

/-- The environment after a history of operations. -/
def runE (e : DiscreteEnv) (ops : List EOp) : DiscreteEnv := ops.foldl EOp.apply e

/-- Successful steps of the environment, each a run of its microgrid on a control that is planned, in the state of that
    step, from the priority list at the index given by the action. -/
inductive Driven (mods : List (String × Nat)) : DiscreteEnv → List Int → List RunOut → DiscreteEnv → Prop
  | nil (e : DiscreteEnv) : Driven mods e [] [] e
  | cons {e e₁ e' : DiscreteEnv} {k : Nat} {acts : List Int} {pl : List Element} {c : List (String × Ctrl)} {rem : ℚ}
      {xs : List ℚ} {o : RunOut} {os : List RunOut} (list : e.lists[k]? = some pl)
      (plan : Planned e.g.heap mods pl c (netLoad e.g.heap mods) rem xs)
      (run : e.g.run c false = ({ e₁.g with otherLog := e.g.otherLog }, .ok o))
      (step : e.step k = (e₁, .ok o)) (rest : Driven mods e₁ acts os e') : Driven mods e (k :: acts) (o :: os) e'

end Pymgrid
