import Verif.Model.GetLog
import Verif.Model.PriorityList

set_option autoImplicit false

/-!
# `pymgrid/envs/discrete/discrete.py`
-/

namespace Pymgrid

/-- `DiscreteMicrogridEnv` (`discrete.py:38-58`): the microgrid, `actions_list` and `action_space.n`.
    `emptySpace` tells whether the installed version of gym accepts `Discrete(0)`. -/
structure DiscreteEnv where
  g : Microgrid
  lists : List (List Element)
  n : Nat
  emptySpace : Bool

namespace DiscreteEnv

/-- `Discrete(n)`: an assertion of gym, that `n` is positive (not negative in old versions). -/
def discrete (emptySpace : Bool) (n : Nat) : Except Err Nat :=
  if n = 0 ∧ emptySpace = false then .error .assertion else .ok n

/-- `action in self.action_space` for integers. -/
def contains (e : DiscreteEnv) (a : Int) : Bool := decide (0 ≤ a ∧ a < e.n)

/-- `DiscreteMicrogridEnv.__init__` (`discrete.py:38-58`, `_get_action_space` 60-80) on a microgrid that the base class
    has set up.  The base class calls `_get_action_space` too, without removal of gensets
    (`envs/base/base.py:106`); observation spaces are not part of this model. -/
def create (g : Microgrid) (removeGensets emptySpace : Bool) : Except Err DiscreteEnv :=
  match PriorityList.getPriorityLists g false with
  | .error e => .error e
  | .ok pls₀ =>
    match discrete emptySpace pls₀.length with
    | .error e => .error e
    | .ok _ =>
      match PriorityList.getPriorityLists g removeGensets with
      | .error e => .error e
      | .ok pls =>
        match discrete emptySpace pls.length with
        | .error e => .error e
        | .ok n => .ok { g := g, lists := pls, n := n, emptySpace := emptySpace }

/-- `_get_action` (`discrete.py:82-88`). -/
def getAction (e : DiscreteEnv) (a : Int) : Except Err (List (String × List (Option Act))) :=
  if e.contains a = false then .error .value
  else
    match e.lists[a.toNat]? with
    | none => .error .index
    | some pl =>
      match PriorityList.populateAction e.g pl with
      | .error er => .error er
      | .ok (act, _) => .ok act

/-- `remove_action` (`discrete.py:90-107`). -/
def removeAction (e : DiscreteEnv) (a : Int) : DiscreteEnv × Except Err Unit :=
  if e.contains a = false then (e, .error .value)
  else
    if a.toNat < e.lists.length then
      let e₁ := { e with lists := e.lists.eraseIdx a.toNat }
      match discrete e.emptySpace (e.n - 1) with
      | .error er => (e₁, .error er)
      | .ok n => ({ e₁ with n := n }, .ok ())
    else (e, .error .index)

/-- `step` (`discrete.py:109-143`, `envs/base/base.py:169-209`): the action is logged before it is validated.  The
    observation is the one of `run`; its flattening is not modelled.  An entry `None` in the action makes the module's
    step raise `TypeError`; the steps that the microgrid makes before that are not tracked. -/
def step (e : DiscreteEnv) (a : Int) : DiscreteEnv × Except Err RunOut :=
  let g₁ := { e.g with otherLog := e.g.otherLog.log [(.str "action", (a : ℚ))] }
  match e.getAction a with
  | .error er => ({ e with g := g₁ }, .error er)
  | .ok act =>
    match PriorityList.toControl act with
    | none => ({ e with g := g₁ }, .error .type)
    | some c =>
      match g₁.run c false with
      | (g', r) => ({ e with g := g' }, r)

/-- `reset` (`envs/base/base.py:165-167`). -/
def reset (e : DiscreteEnv) : DiscreteEnv × Except Err Unit :=
  match e.g.reset with
  | (g', r) => ({ e with g := g' }, r)

end DiscreteEnv

end Pymgrid
