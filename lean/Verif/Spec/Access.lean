import Verif.Model.Access

set_option autoImplicit false

/-! Which modules a container is to show. -/

namespace Pymgrid

namespace Container

/-- The modules that belong to a container: all of them, those with the place in the dispatch, those with the direction. -/
def View.shows (h : Heap) : View → Nat → Bool
  | .top, _ => true
  | .place f, i => decide ((h i).ffc = f)
  | .dir s, i => decide ((h i).ss = s)
  | .lowest f s, i => decide ((h i).ffc = f) && decide ((h i).ss = s)

/-- The modules of a container with a name, in the order in which they were given. -/
def View.named (h : Heap) (mods : List (String × Nat)) (v : View) (name : String) : List Nat :=
  (mods.filter fun nm => v.shows h nm.2 && decide (nm.1 = name)).map Prod.snd

/-- Keys of a container for other containers. -/
def View.keys : View → List String
  | .top => ["fixed", "flex", "controllable", "sources", "sinks", "source_and_sinks"]
  | .place _ => ["sources", "sinks", "source_and_sinks"]
  | .dir _ => ["fixed", "flex", "controllable"]
  | .lowest _ _ => []

/-- Names that cannot be looked up at all. -/
def Forbidden (name : String) : Prop := name = "data" ∨ name = "module_dict"

end Container

end Pymgrid
