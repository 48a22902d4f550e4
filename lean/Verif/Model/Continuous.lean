import Verif.Model.Normalize
import Verif.Model.Access

set_option autoImplicit false

/-!
# `pymgrid/envs/continuous/continuous.py`
-/

namespace Pymgrid

/-- Membership in the normalised box of `n` dimensions: `gym`'s `Box.contains`; a Python number is not an array of shape
    `(n,)`. -/
def boxContains (n : Nat) : Act → Bool
  | .num _ => false
  | .arr l => decide (l.length = n) && l.all fun x => decide (0 ≤ x) && decide (x ≤ 1)

/-- Membership in a `Tuple` of boxes (`gym`'s `Tuple.contains`). -/
def tupleContains (dims : List Nat) : Ctrl → Bool
  | .scalar _ => false
  | .seq l => decide (l.length = dims.length) && (dims.zip l).all fun x => boxContains x.1 x.2

/-- Membership in a `Dict` of tuples (`gym`'s `Dict.contains`): the same keys, and a member for each. -/
def dictContains (space : List (String × List Nat)) (a : List (String × Ctrl)) : Bool :=
  (a.all fun x => decide (x.1 ∈ space.map Prod.fst)) &&
    space.all fun s => match dictGet? a s.1 with
      | none => false
      | some c => tupleContains s.2 c

/-- `ContinuousMicrogridEnv`: the microgrid and `_nested_action_space`, as the dimensions of its boxes. -/
structure ContinuousEnv where
  g : Microgrid
  space : List (String × List Nat)

namespace ContinuousEnv

/-- Dimension of the action space of a module (`action_space['normalized']`); one for the balancing module. -/
def actDim (m : Module) : Nat :=
  match m.actSpace with
  | some s => s.dim
  | none => 1

/-- `_get_nested_action_space` (`continuous.py:56-58`): the fixed modules, if the first of the name is a source. -/
def nestedSpace (g : Microgrid) : List (String × List Nat) :=
  ((g.cont.levelDict .fixed).filter fun nl => match nl.2 with
    | [] => false
    | i :: _ => (g.heap i).isSource).map fun nl => (nl.1, nl.2.map fun i => actDim (g.heap i))

/-- The constructor on a microgrid that the base class has set up, as far as actions go (`continuous.py:60-62`,
    `envs/base/base.py:105`).  `flatten_space` concatenates the bounds of the boxes, and `np.concatenate` of an empty list
    raises `ValueError`. -/
def create (g : Microgrid) (flat : Bool) : Except Err ContinuousEnv :=
  let space := nestedSpace g
  if flat ∧ space = [] then .error .value else .ok { g := g, space := space }

/-- Actions for the modules with one name (`continuous.py:69`). -/
def sinkActions (h : Heap) : List Nat → Except Err (List Act)
  | [] => .ok []
  | i :: is =>
    match (h i).maxConsumption with
    | .error e => .error e
    | .ok .inf => .error .notImplemented
    | .ok (.fin q) =>
      match (h i).toNormalized true (.num (-1 * q)) with
      | .error e => .error e
      | .ok a =>
        match sinkActions h is with
        | .error e => .error e
        | .ok as => .ok (a :: as)

/-- Adding the fixed sinks to the action (`continuous.py:68-69`). -/
def addSinks (h : Heap) : ModDict → List (String × Ctrl) → Except Err (List (String × Ctrl))
  | [], a => .ok a
  | (name, ids) :: rest, a =>
    match sinkActions h ids with
    | .error e => .error e
    | .ok as => addSinks h rest (dictSet a name (.seq as))

/-- `_get_action` (`continuous.py:64-70`).  `iterdict` of a lowest-level container raises if there are modules in it. -/
def getAction (e : ContinuousEnv) (a : List (String × Ctrl)) : Except Err (List (String × Ctrl)) :=
  if dictContains e.space a = false then .error .assertion
  else
    match e.g.cont.dict (.lowest .fixed .sinks) with
    | .error er => .error er
    | .ok d => addSinks e.g.heap d a

/-- `step` (`continuous.py:72-74`): the result is the one of `Microgrid.run`. -/
def step (e : ContinuousEnv) (a : List (String × Ctrl)) : ContinuousEnv × Except Err RunOut :=
  match e.getAction a with
  | .error er => (e, .error er)
  | .ok c =>
    match e.g.run c true with
    | (g', r) => ({ e with g := g' }, r)

/-- `run` (`continuous.py:76-78`). -/
def run (e : ContinuousEnv) (a : List (String × Ctrl)) (normalized : Bool) : ContinuousEnv × Except Err RunOut :=
  match e.g.run a normalized with
  | (g', r) => ({ e with g := g' }, r)

/-- `reset` (`envs/base/base.py:165-167`). -/
def reset (e : ContinuousEnv) : ContinuousEnv × Except Err Unit :=
  match e.g.reset with
  | (g', r) => ({ e with g := g' }, r)

end ContinuousEnv

end Pymgrid
