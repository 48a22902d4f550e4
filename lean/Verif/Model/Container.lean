import Verif.Model.Module

/-!
# `pymgrid/modules/module_container.py`

Module objects live in a heap (`Nat → Module`); containers hold references (`Nat`).
-/

namespace Pymgrid

/-- Heap of module objects, addressed by object identity. -/
abbrev Heap := Nat → Module

/-- Keys `sources`, `sinks`, `source_and_sinks` (`module_container.py:359`). -/
inductive SS
  | sources | sinks | both
  deriving DecidableEq, Repr

/-- A dict `name -> ModuleList`, in insertion order. -/
abbrev ModDict := List (String × List Nat)

/-- The nine lowest-level containers (`module_container.py:409-411`). -/
structure Container where
  cat : FFC → SS → ModDict

/-- `source_sink_both` (`module_container.py:380-381`). -/
def Module.ss (m : Module) : SS :=
  if m.isSink ∧ m.isSource then .both else if m.isSource then .sources else .sinks

/-- `d[name].append(module)`, creating the list if needed (`module_container.py:399-402`). -/
def ModDict.append (d : ModDict) (name : String) (i : Nat) : ModDict :=
  match dictGet? d name with
  | some l => dictSet d name (l ++ [i])
  | none => dictSet d name [i]

namespace Container

/-- The container before any module is added. -/
def empty : Container := { cat := fun _ _ => [] }

/-- Body of the loop of `get_subcontainers` (`module_container.py:366-403`) for a module with a known
    name.  The `NameError` branch (392-397) can never be taken, because assigning a dict key does
    not raise `KeyError`; every class of the library is a source or a sink, so the assertion of
    line 378 holds. -/
def add (h : Heap) (c : Container) (nm : String × Nat) : Container :=
  let m := h nm.2
  { cat := fun f s =>
      if f = m.ffc ∧ s = m.ss then ModDict.append (c.cat f s) nm.1 nm.2 else c.cat f s }

/-- `get_subcontainers` (`module_container.py:355-413`). -/
def build (h : Heap) (mods : List (String × Nat)) : Container := mods.foldl (add h) empty

/-- The three containers of one mid-level view such as `container.fixed`
    (`module_container.py:300-315`). -/
def level (c : Container) (f : FFC) : List ModDict := [c.cat f .sources, c.cat f .sinks, c.cat f .both]

/-- All nine containers in order (`module_container.py:409-411`). -/
def all (c : Container) : List ModDict := c.level .fixed ++ c.level .flex ++ c.level .controllable

/-- `to_dict` (`module_container.py:40-53`): later containers override equal names. -/
def toDict (ds : List ModDict) : ModDict := ds.foldl dictUpdate []

/-- `iterdict` of `fixed`, `flex` or `controllable` (`module_container.py:84-95`). -/
def levelDict (c : Container) (f : FFC) : ModDict := toDict (c.level f)

/-- `to_dict` of the whole container. -/
def fullDict (c : Container) : ModDict := toDict c.all

/-- `to_list` of a list of dicts of module lists (`module_container.py:25-38`). -/
def toList (ds : List ModDict) : List Nat := ds.flatMap (fun d => d.flatMap Prod.snd)

/-- `to_list` of the whole container. -/
def fullList (c : Container) : List Nat := toList c.all

/-- `to_tuples` (`module_container.py:55-69`). -/
def toTuples (d : ModDict) : List (String × Nat) := d.flatMap (fun nl => nl.2.map (fun i => (nl.1, i)))

end Container

end Pymgrid
