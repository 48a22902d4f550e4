import Verif.Model.PriorityList
import Verif.Model.Normalize

set_option autoImplicit false

/-!
# Random actions: `sample_action` of modules and microgrids

The results of `np.random.rand()` are arguments.
-/

namespace Pymgrid

namespace Module

/-- `self._action_space.normalize(limit)` with `nan` replaced by 0 (`base_module.py:348-350`, `353-355`); `sign` is the
    factor of the limit.  The infinite space of the balancing module gives `nan`; no module has infinite limits and a finite
    space.  A scalar is rejected by spaces of other dimensions, for Python numbers with `TypeError`
    (`utils/space.py:142-147`); for numpy integers the code fails one line later. -/
def normBound (m : Module) (sign : ℚ) (limit : Except Err ERat) : Except Err ℚ :=
  match limit with
  | .error e => .error e
  | .ok x =>
    match m.actSpace, x with
    | none, _ => .ok 0
    | some _, .inf => .error .notImplemented
    | some s, .fin q =>
      match s.normalize (.num (sign * q)) with
      | .error e => .error e
      | .ok (.num v) => .ok v
      | .ok (.arr _) => .error .value

/-- `BaseMicrogridModule.sample_action` (`base_module.py:326-356`). -/
def sampleBase (m : Module) (strict : Bool) (u : ℚ) : Except Err ℚ :=
  match if strict ∧ m.isSink then m.normBound (-1) m.maxConsumption else .ok 0 with
  | .error e => .error e
  | .ok lo =>
    match if strict ∧ m.isSource then m.normBound 1 m.maxProduction else .ok 1 with
    | .error e => .error e
    | .ok hi => .ok (u * (hi - lo) + lo)

/-- `sample_action` of the classes (`genset_module.py:348-349`, `load_module.py:93-94`).  `v` is the draw for the status
    request of a genset. -/
def sampleAction (m : Module) (strict : Bool) (u v : ℚ) : Except Err Act :=
  match m.kind with
  | .load _ => .ok (.arr [])
  | .genset _ =>
    match m.sampleBase strict u with
    | .error e => .error e
    | .ok q => .ok (.arr [v, q])
  | _ =>
    match m.sampleBase strict u with
    | .error e => .error e
    | .ok q => .ok (.num q)

end Module

namespace Microgrid

/-- The list comprehension over the modules with one name (`microgrid.py:360`), with the draws for each position. -/
def sampleList (h : Heap) (strict : Bool) (draw : Nat → ℚ × ℚ) : List Nat → Except Err (List Act)
  | [] => .ok []
  | i :: is =>
    match (h i).sampleAction strict (draw 0).1 (draw 0).2 with
    | .error e => .error e
    | .ok a =>
      match sampleList h strict (fun j => draw (j + 1)) is with
      | .error e => .error e
      | .ok as => .ok (a :: as)

/-- The dict comprehension (`microgrid.py:360-362`): names whose first module has no actions are left out. -/
def sampleDict (h : Heap) (strict : Bool) (draw : String → Nat → ℚ × ℚ) : ModDict → Except Err Data
  | [] => .ok []
  | (_, []) :: _ => .error .index
  | (name, i :: is) :: rest =>
    if (h i).actionDim = 0 then sampleDict h strict draw rest
    else
      match sampleList h strict (draw name) (i :: is) with
      | .error e => .error e
      | .ok as =>
        match sampleDict h strict draw rest with
        | .error e => .error e
        | .ok d => .ok ((name, as) :: d)

/-- `Microgrid.sample_action` (`microgrid.py:337-362`). -/
def sampleAction (g : Microgrid) (strict flex : Bool) (draw : String → Nat → ℚ × ℚ) : Except Err Data :=
  sampleDict g.heap strict draw (if flex then g.cont.fullDict else g.cont.levelDict .controllable)

end Microgrid

end Pymgrid
