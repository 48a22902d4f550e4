import Mathlib.Data.List.Sort
import Verif.Model.Microgrid

set_option autoImplicit false

/-!
# `pymgrid/algos/priority_list/` and `pymgrid/algos/rbc/rbc.py`
-/

namespace Pymgrid

/-- `PriorityListElement` (`priority_list_element.py:7-60`).  `marginal_cost` is optional in the class (`None` cannot be
    ordered); the lists of the library always have it. -/
structure Element where
  module : String × Nat
  actions : Nat
  action : Nat
  cost : ℚ
  deriving DecidableEq, Repr

/-- `PriorityListElement.__lt__` (`priority_list_element.py:73-80`). -/
def Element.lt (a b : Element) : Bool :=
  decide (a.cost < b.cost ∨ (a.cost = b.cost ∧ a.action > b.action))

/-- `action_space.shape[0]`: the number of dimensions of the action space (1 for the infinite space of the balancing
    module). -/
def Module.actionDim (m : Module) : Nat :=
  match m.actSpace with
  | some s => s.dim
  | none => 1

namespace PriorityList

/-- The elements of one module (`priority_list.py:26-28,30-32`).  The marginal cost is only read if there is an
    action. -/
def moduleElements (m : Module) (key : String × Nat) : Except Err (List Element) :=
  if m.actionDim = 0 then .ok []
  else
    match m.marginalCost with
    | .error e => .error e
    | .ok c => .ok ((List.range m.actionDim).map fun a => { module := key, actions := m.actionDim, action := a, cost := c })

/-- Modules of a lowest-level container with their `name` attribute, which is the name and the index in the list of
    that name (`module_container.py:403`), in `iterlist` order. -/
def named (d : ModDict) : List ((String × Nat) × Nat) :=
  d.flatMap fun nl => nl.2.zipIdx.map fun ij => ((nl.1, ij.2), ij.1)

/-- The list comprehension over modules (`priority_list.py:26-32`). -/
def collect (h : Heap) : List ((String × Nat) × Nat) → Except Err (List Element)
  | [] => .ok []
  | (key, i) :: rest =>
    match moduleElements (h i) key with
    | .error e => .error e
    | .ok es =>
      match collect h rest with
      | .error e => .error e
      | .ok r => .ok (es ++ r)

/-- Each way of taking one element out of a list, in order. -/
def picks {α : Type} : List α → List (α × List α)
  | [] => []
  | x :: l => (x, l) :: (picks l).map fun yr => (yr.1, x :: yr.2)

/-- Arrangements of `n` elements of a list, in the order of `itertools.permutations`. -/
def arrangements {α : Type} : Nat → List α → List (List α)
  | 0, _ => [[]]
  | n + 1, l => (picks l).flatMap fun xr => (arrangements n xr.2).map (xr.1 :: ·)

/-- `itertools.permutations(l)` (`priority_list.py:34`). -/
def permutations {α : Type} (l : List α) : List (List α) := arrangements l.length l

/-- Keep the first element of each module (`priority_list.py:42-44`): `duplicated()` marks the others. -/
def firstOfModule : List Element → List Element
  | [] => []
  | e :: l => e :: (firstOfModule l).filter fun e' => decide (e'.module ≠ e.module)

/-- `list(dict.fromkeys(l))` (`priority_list.py:46`): distinct values in the order of first occurrence. -/
def fromKeys {α : Type} [DecidableEq α] : List α → List α
  | [] => []
  | x :: l => x :: (fromKeys l).filter fun y => decide (y ≠ x)

/-- The removable elements of a module (`priority_list.py:55-65`). -/
def redundantElement (m : Module) (key : String × Nat) : Except Err (List Element) :=
  match m.kind with
  | .genset g =>
    if g.runMin = 0 then
      match m.marginalCost with
      | .error e => .error e
      | .ok c => .ok [{ module := key, actions := 2, action := 0, cost := c }]
    else .ok []
  | _ => .ok []

/-- All removable elements (`priority_list.py:54-65`). -/
def redundant (h : Heap) : List ((String × Nat) × Nat) → Except Err (List Element)
  | [] => .ok []
  | (key, i) :: rest =>
    match redundantElement (h i) key with
    | .error e => .error e
    | .ok es =>
      match redundant h rest with
      | .error e => .error e
      | .ok r => .ok (es ++ r)

/-- The elements of all controllable sources (`priority_list.py:26-32`). -/
def elements (g : Microgrid) : Except Err (List Element) :=
  collect g.heap (named (g.cont.cat .controllable .sources) ++ named (g.cont.cat .controllable .both))

/-- `_remove_redundant_actions` without its last step (`priority_list.py:40-46`). -/
def removeActions (pls : List (List Element)) : List (List Element) := fromKeys (pls.map firstOfModule)

/-- `get_priority_lists` with `_remove_redundant_actions` and `_remove_redundant_gensets`
    (`priority_list.py:15-67`). -/
def getPriorityLists (g : Microgrid) (removeGensets : Bool) : Except Err (List (List Element)) :=
  match elements g with
  | .error e => .error e
  | .ok base =>
    let unique := removeActions (permutations base)
    if removeGensets then
      match redundant g.heap (named g.cont.fullDict) with
      | .error e => .error e
      | .ok red => .ok (unique.filter fun pl => !(red.any fun r => pl.contains r))
    else .ok unique

/-! ### Actions from a list -/

/-- `get_empty_action` (`microgrid.py:384-386`): one `None` per controllable module. -/
def emptyAction (g : Microgrid) : List (String × List (Option Act)) :=
  ((g.cont.levelDict .controllable).filter fun nl =>
    match nl.2 with
    | i :: _ => decide ((g.heap i).actionDim ≠ 0)
    | [] => false).map fun nl => (nl.1, nl.2.map fun _ => none)

/-- Sum of numbers that may be missing. -/
def sumE (h : Heap) (f : Module → Except Err ERat) : List Nat → Except Err ERat
  | [] => .ok (.fin 0)
  | i :: is =>
    match f (h i), sumE h f is with
    | .ok (.fin a), .ok (.fin b) => .ok (.fin (a + b))
    | .ok _, .ok _ => .ok .inf
    | .error e, _ => .error e
    | _, .error e => .error e

/-- `_get_load` (`priority_list.py:157-164`). -/
def totalLoad (g : Microgrid) : Except Err ERat :=
  sumE g.heap Module.maxConsumption ((g.cont.cat .fixed .sinks).flatMap Prod.snd)

/-- `_get_renewable` (`priority_list.py:166-167`). -/
def totalRenewable (g : Microgrid) : Except Err ERat :=
  sumE g.heap Module.maxProduction ((g.cont.cat .flex .sources).flatMap Prod.snd)

/-- `_produce_from_module` (`priority_list.py:138-155`). -/
def produce (m : Module) (action : Nat) (remaining : ℚ) : Except Err ℚ :=
  let bounds : Except Err (ERat × ℚ) :=
    match m.kind with
    | .genset g => .ok (.fin (g.nextMaxProduction action), g.nextMinProduction action)
    | _ =>
      match m.maxProduction with
      | .error e => .error e
      | .ok mx => .ok (mx, m.minProduction)
  match bounds with
  | .error e => .error e
  | .ok (mx, mn) =>
    let p : ℚ :=
      match mx with
      | .inf => if mn ≤ remaining then remaining else mn
      | .fin mx =>
        if mn ≤ remaining ∧ remaining ≤ mx then remaining
        else if remaining < mn then mn
        else mx
    if 0 ≤ p then .ok p else .error .assertion

/-- `_consume_in_module` (`priority_list.py:118-136`), for a negative remaining load.  The consumption limit of a module
    that is not a sink is `NotImplemented` and is not used. -/
def consume (m : Module) (remaining : ℚ) : Except Err ℚ :=
  if ¬ remaining ≤ 0 then .error .assertion
  else if m.isSink = true then
    match m.maxConsumption with
    | .error e => .error e
    | .ok .inf => .ok remaining
    | .ok (.fin mx) =>
      if ¬ 0 ≤ mx then .error .assertion
      else
        let c := if -1 * remaining > mx then -1 * mx else remaining
        if c ≤ 0 then .ok c else .error .assertion
  else .ok 0

/-- The energy for one element (`priority_list.py:87-95`). -/
def energyFor (m : Module) (action : Nat) (remaining : ℚ) : Except Err ℚ :=
  if iscloseAtol remaining 0 (1/10000) = true then .ok 0
  else if remaining > 0 then produce m action remaining
  else consume m remaining

/-- The entry of an action dict. -/
def entry (act : List (String × List (Option Act))) (name : String) (j : Nat) : Except Err (Option Act) :=
  match dictGet? act name with
  | none => .error .key
  | some l =>
    match l[j]? with
    | none => .error .index
    | some a => .ok a

/-- Assignment to an entry of an action dict. -/
def setEntry (act : List (String × List (Option Act))) (name : String) (j : Nat) (a : Act) :
    List (String × List (Option Act)) :=
  match dictGet? act name with
  | none => act
  | some l => dictSet act name (l.set j (some a))

/-- `self.modules[name][j]` (`priority_list.py:83`), for names other than those of the views of a container (`fixed`,
    `sources`, ...). -/
def lookup (g : Microgrid) (name : String) (j : Nat) : Except Err Module :=
  match dictGet? g.cont.fullDict name with
  | none => .error .key
  | some l =>
    match l[j]? with
    | none => .error .index
    | some i => .ok (g.heap i)

/-- The loop of `_populate_action` (`priority_list.py:78-109`): the action and the load that remains.  An element of a
    module with one action whose entry is already set to a number overwrites it (`append` fails with `AttributeError`
    on a float); an element of a module with several actions is skipped if its entry is set. -/
def populate (g : Microgrid) : List Element → List (String × List (Option Act)) → ℚ →
    Except Err (List (String × List (Option Act)) × ℚ)
  | [], act, remaining => .ok (act, remaining)
  | el :: rest, act, remaining =>
    match lookup g el.module.1 el.module.2 with
    | .error e => .error e
    | .ok m =>
      match entry act el.module.1 el.module.2 with
      | .error e => .error e
      | .ok old =>
        if el.actions > 1 ∧ old.isSome = true then populate g rest act remaining
        else
          match energyFor m el.action remaining with
          | .error e => .error e
          | .ok x =>
            let a : Act := if el.actions > 1 then .arr [el.action, x] else .num x
            populate g rest (setEntry act el.module.1 el.module.2 a) (remaining - x)

/-- `_populate_action` (`priority_list.py:69-116`).  The check for `None` at the end looks at the lists of entries, which
    are never `None`, so it never raises.  A sum over flexible sources that is infinite cannot occur (the balancing
    module is also a sink). -/
def populateAction (g : Microgrid) (pl : List Element) : Except Err (List (String × List (Option Act)) × ℚ) :=
  match totalLoad g, totalRenewable g with
  | .error e, _ => .error e
  | _, .error e => .error e
  | .ok (.fin l), .ok (.fin r) =>
    if 0 ≤ l ∧ 0 ≤ r then populate g pl (emptyAction g) (l - r)
    else .error .assertion
  | _, _ => .error .assertion

/-- The control that is passed to `run`; `none` if there is an entry `None`. -/
def toControl (act : List (String × List (Option Act))) : Option (List (String × Ctrl)) :=
  act.mapM fun nl => (nl.2.mapM id).map fun l => (nl.1, Ctrl.seq l)

end PriorityList

/-! ### Rule-based control -/

/-- `RuleBasedControl` (`rbc.py:27-29`). -/
structure RBC where
  g : Microgrid
  list : List Element

namespace RBC

/-- `sorted(l)` with `Element.__lt__` (`rbc.py:38`): a stable sort.  Insertion sort stands for Python's merge sort; stable
    sorts agree. -/
def sorted (l : List Element) : List Element := l.insertionSort fun a b => b.lt a = false

/-- `_get_priority_list` (`rbc.py:31-44`).  A list given by the user is a tuple, as in the generated lists (a Python
    list never equals one of them). -/
def choose (pls : List (List Element)) (user : Option (List Element)) : Except Err (List Element) :=
  match user with
  | none =>
    match pls with
    | [] => .error .index
    | pl :: _ => .ok (sorted pl)
  | some pl => if pl ∈ pls then .ok pl else .error .value

/-- `RuleBasedControl.__init__` (`rbc.py:27-29`); the microgrid is copied. -/
def create (g : Microgrid) (user : Option (List Element)) (removeGensets : Bool) : Except Err RBC :=
  match PriorityList.getPriorityLists g removeGensets with
  | .error e => .error e
  | .ok pls =>
    match choose pls user with
    | .error e => .error e
    | .ok pl => .ok { g := g, list := pl }

/-- One iteration of the loop of `run` (`rbc.py:89-91`).  An entry `None` in the action makes the module's step raise
    `TypeError`; the steps that the microgrid makes before that are not tracked. -/
def step (r : RBC) : RBC × Except Err RunOut :=
  match PriorityList.populateAction r.g r.list with
  | .error e => (r, .error e)
  | .ok (act, _) =>
    match PriorityList.toControl act with
    | none => (r, .error .type)
    | some c =>
      match r.g.run c false with
      | (g', res) => ({ r with g := g' }, res)

/-- The loop of `run` (`rbc.py:88-92`). -/
def loop : Nat → RBC → RBC × Except Err Unit
  | 0, r => (r, .ok ())
  | n + 1, r =>
    match r.step with
    | (r', .error e) => (r', .error e)
    | (r', .ok o) => if o.done then (r', .ok ()) else loop n r'

/-- `run` (`rbc.py:64-93`) with a number of steps (for `None` see `RBC.runAll`); the log that it returns is that of the
    microgrid. -/
def run (r : RBC) (maxSteps : Nat) : RBC × Except Err Unit :=
  match r.g.reset with
  | (g', .error e) => ({ r with g := g' }, .error e)
  | (g', .ok ()) => loop maxSteps { r with g := g' }

end RBC

end Pymgrid
