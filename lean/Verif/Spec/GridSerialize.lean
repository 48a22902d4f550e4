import Verif.Model.GridSerialize
import Verif.Spec.Microgrid
import Verif.Spec.Serialize

set_option autoImplicit false

/-! What a caller can do to a microgrid and to a loaded one, and what they see. -/

namespace Pymgrid

/-- What each call returns: the result of a run, nothing for a reset, or the error. -/
def Microgrid.results : Microgrid → List GOp → List (Except Err (Option RunOut))
  | _, [] => []
  | g, .run c n :: ops => ((g.run c n).2.map some) :: (g.run c n).1.results ops
  | g, .reset :: ops => (g.reset.2.map fun _ => none) :: g.reset.1.results ops

namespace LoadedGrid

@[inherit_doc Microgrid.results]
def results : LoadedGrid → List GOp → List (Except Err (Option RunOut))
  | _, [] => []
  | l, .run c n :: ops => ((l.run c n).2.map some) :: (l.run c n).1.results ops
  | l, .reset :: ops => (l.reset.2.map fun _ => none) :: l.reset.1.results ops

/-- The loaded microgrid after an operation, whether or not it raised. -/
def apply (l : LoadedGrid) : GOp → LoadedGrid
  | .run c n => (l.run c n).1
  | .reset => l.reset.1

/-- The loaded microgrid after a history of operations. -/
def after (l : LoadedGrid) (ops : List GOp) : LoadedGrid := ops.foldl apply l

end LoadedGrid

/-- `Microgrid.load(microgrid.dump())`. -/
def Microgrid.reload (gridClass : FFC) (g : Microgrid) : Except Err LoadedGrid :=
  match g.dump with
  | .error e => .error e
  | .ok d => d.load gridClass

end Pymgrid
