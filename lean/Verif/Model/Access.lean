import Verif.Model.Container

set_option autoImplicit false

/-!
# Looking up modules (`pymgrid/modules/module_container.py`)

A `ModuleContainer` holds nine lowest-level containers (name -> `ModuleList`), which are reached through six mid-level
containers: by the place in the dispatch (`fixed`, `flex`, `controllable`) and by the direction (`sources`, `sinks`,
`source_and_sinks`).
-/

namespace Pymgrid

/-- Keys of the mid-level containers (`module_container.py:405-407`). -/
def FFC.key : FFC → String
  | .fixed => "fixed"
  | .flex => "flex"
  | .controllable => "controllable"

/-- Keys of the mid-level containers (`module_container.py:359`). -/
def SS.key : SS → String
  | .sources => "sources"
  | .sinks => "sinks"
  | .both => "source_and_sinks"

namespace Container

/-- One of the containers that can be reached from a `ModuleContainer`: itself, a mid-level container of either kind, or a
    lowest-level container. -/
inductive View
  | top
  | place (f : FFC)
  | dir (s : SS)
  | lowest (f : FFC) (s : SS)
  deriving DecidableEq, Repr

/-- What a key leads to: a container or a `ModuleList`. -/
inductive Entry
  | view (v : View)
  | list (l : List Nat)
  deriving DecidableEq, Repr

/-- The dict `data` of a container (`UserDict`): the mid-level containers in the order in which they are created
    (`module_container.py:300-314`), the lowest-level ones, or the lists of modules. -/
def data (c : Container) : View → List (String × Entry)
  | .top => [(FFC.fixed.key, .view (.place .fixed)), (SS.sources.key, .view (.dir .sources)),
      (SS.sinks.key, .view (.dir .sinks)), (SS.both.key, .view (.dir .both)),
      (FFC.flex.key, .view (.place .flex)), (FFC.controllable.key, .view (.place .controllable))]
  | .place f => [.sources, .sinks, .both].map fun s => (SS.key s, .view (.lowest f s))
  | .dir s => [.fixed, .flex, .controllable].map fun f => (FFC.key f, .view (.lowest f s))
  | .lowest f s => (c.cat f s).map fun nl => (nl.1, .list nl.2)

/-- The lowest-level containers below a container that is not one itself: `containers` (`module_container.py:13-23`,
    `module_container.py:320-322`). -/
def below (c : Container) : View → List ModDict
  | .top => c.all
  | .place f => c.level f
  | .dir s => [c.cat .fixed s, c.cat .flex s, c.cat .controllable s]
  | .lowest f s => [c.cat f s]

/-- `to_list` (`module_container.py:25-38`, `module_container.py:345-352`), of which `iterlist`
    (`module_container.py:71-82`) is the iterator. -/
def list (c : Container) (v : View) : List Nat := toList (c.below v)

/-- `to_dict` (`module_container.py:40-53`).  In a lowest-level container `d.update` gets a list of modules, takes them for
    pairs of key and value, and raises `TypeError`, because modules are not iterable. -/
def dict (c : Container) (v : View) : Except Err ModDict :=
  match v with
  | .lowest f s => if (c.cat f s).all fun nl => nl.2.isEmpty then .ok [] else .error .type
  | v => .ok (toDict (c.below v))

/-- `to_tuples` (`module_container.py:55-69`). -/
def tuples (c : Container) (v : View) : Except Err (List (String × Nat)) :=
  match c.dict v with
  | .error e => .error e
  | .ok d => .ok (toTuples d)

/-- `__len__` (`module_container.py:228-229`): the sum over the containers, down to the lengths of the lists. -/
def len (c : Container) (v : View) : Nat :=
  ((c.below v).map fun d => (d.map fun nl => nl.2.length).sum).sum

/-- `__getitem__` (`module_container.py:209-218`). -/
def getItem (c : Container) (v : View) (item : String) : Except Err Entry :=
  if item = "data" ∨ item = "module_dict" then .error .key
  else
    match dictGet? (c.data v) item with
    | some e => .ok e
    | none =>
      match c.dict v with
      | .error e => .error e
      | .ok d =>
        match dictGet? d item with
        | some l => .ok (.list l)
        | none => .error .key

/-- `dir_additions` (`module_container.py:197-207`), as a list: the keys of the container and of the containers in it. -/
def dirAdditions (c : Container) (v : View) : List String :=
  match v with
  | .lowest f s => (c.cat f s).map Prod.fst
  | .place f => (c.data (.place f)).map Prod.fst ++ (c.level f).flatMap fun d => d.map Prod.fst
  | .dir s => (c.data (.dir s)).map Prod.fst ++ (c.below (.dir s)).flatMap fun d => d.map Prod.fst
  | .top => (c.data .top).map Prod.fst ++
      ([.fixed, .flex, .controllable].flatMap fun f => (c.data (.place f)).map Prod.fst) ++
      ([.sources, .sinks, .both].flatMap fun s => (c.data (.dir s)).map Prod.fst) ++
      c.all.flatMap fun d => d.map Prod.fst

/-- `__contains__` (`module_container.py:242-243`). -/
def contains (c : Container) (v : View) (item : String) : Bool :=
  decide (item ∈ (c.data v).map Prod.fst) || decide (item ∈ c.dirAdditions v)

/-- `names` (`module_container.py:317-318`): the keys of `_types_by_name` (`module_container.py:297-298`), a dict comprehension
    over the nine containers. -/
def nameList (c : Container) : List String :=
  (dictUpdate ([] : List (String × Unit)) (c.all.flatMap fun d => d.map fun nl => (nl.1, ()))).map Prod.fst

/-- Public attributes of `Container` (`module_container.py:8-243`) and of `UserDict`, which are found before `__getattr__` is
    asked; `names` only exists in `ModuleContainer`.  Attributes that begin with an underscore are not modelled. -/
def attributes : View → List String
  | .top => "names" :: common
  | _ => common
where
  common := ["containers", "to_list", "to_dict", "to_tuples", "iterlist", "iterdict", "get_attrs", "dir_additions", "data",
    "clear", "copy", "fromkeys", "get", "items", "keys", "pop", "popitem", "setdefault", "update", "values"]

/-- `getattr(container, item)`, where `none` stands for an attribute of the class or instance: otherwise `__getattr__`
    (`module_container.py:220-226`), for which `dir` lists these attributes and the additions. -/
def getAttr (c : Container) (v : View) (item : String) : Except Err (Option Entry) :=
  if item ∈ attributes v then .ok none
  else if item = "data" ∨ "__".isPrefixOf item ∨ item ∉ c.dirAdditions v then .error .attribute
  else
    match c.getItem v item with
    | .ok e => .ok (some e)
    | .error .key => .error .attribute
    | .error e => .error e

/-- `ModuleList.item` (`module_container.py:326-343`). -/
def item (l : List Nat) : Except Err Nat :=
  match l with
  | [i] => .ok i
  | _ => .error .value

/-- `ModuleContainer(modules)` (`module_container.py:285-295`).  The lowest-level containers iterate over their values to find
    `dir_additions` (`module_container.py:9-11`, `module_container.py:201-203`), which looks up every name with
    `__getitem__`: the names `data` and `module_dict` raise `KeyError`.  `Microgrid.create` leaves this check out. -/
def create (h : Heap) (mods : List (String × Nat)) : Except Err Container :=
  let c := build h mods
  if (c.all.flatMap fun d => d.map Prod.fst).any fun n => decide (n = "data" ∨ n = "module_dict") then .error .key else .ok c

end Container

end Pymgrid
