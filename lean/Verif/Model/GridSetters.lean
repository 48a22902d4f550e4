import Verif.Model.Revert
import Verif.Model.Setters

set_option autoImplicit false

/-!
# Setters of microgrids (`microgrid/microgrid.py:477-612,626-684`)
-/

namespace Pymgrid

/-- `names()` of the container (`module_container.py:293-294,317-318`), as a list that may repeat names. -/
def Container.names (c : Container) : List String := c.all.flatMap fun d => d.map Prod.fst

namespace Microgrid

/-- The loop over all modules of `set_forecaster` (`microgrid.py:541-551`).  `k i` is the forecaster made for the module `i`
    (for noise: the generator of that module); modules without `set_forecaster` are skipped. -/
def setForecasterMany (h : Heap) (k : Nat → FKind) (n : Nat) : List Nat → Heap
  | [] => h
  | i :: is => setForecasterMany (h.set i ((h i).setForecaster (k i) n)) k n is

/-- `set_forecaster` with a forecaster for all modules (`microgrid.py:477-551`).  Exceptions other than `AttributeError` come
    from callables that fail the sampling validation, which is not modelled. -/
def setForecaster (g : Microgrid) (k : Nat → FKind) (n : Nat) : Microgrid :=
  { g with heap := setForecasterMany g.heap k n g.cont.fullList }

/-- `set_forecaster` with a dict (`microgrid.py:527-539`).  `self._modules[name]` (`module_container.py:209-219`) raises
    `KeyError` for two names and otherwise is a list of modules or a view; neither has the attribute `set_forecaster`, and the
    `AttributeError` is caught.  (A view has it if it contains a module of that name; this is not modelled.) -/
def setForecasterNamed (g : Microgrid) : List (String × FKind) → Nat → Microgrid × Except Err Unit
  | [], _ => (g, .ok ())
  | (name, _) :: rest, n =>
    if decide (name ∈ g.cont.names) = false then (g, .error .name)
    else if name = "data" ∨ name = "module_dict" then (g, .error .key)
    else setForecasterNamed g rest n

/-- `get_forecast_horizon` (`microgrid.py:553-581`), `DEFAULT_HORIZON` from `microgrid/__init__.py:1`. -/
def getForecastHorizon (g : Microgrid) : Except Err Nat :=
  match g.cont.fullList.filterMap fun i => (g.heap i).horizon? with
  | [] => .ok 23
  | x :: xs => if xs.all (fun y => decide (y = x)) then .ok x else .error .value

/-- Assignment of `initial_step` (`microgrid.py:583-612,640-655`).  Steps are natural numbers. -/
def setInitialStep (g : Microgrid) (v : Nat) : Microgrid × Except Err Unit :=
  if g.cont.fullList.isEmpty then (g, .error .attribute) else
  let h := setInitialMany g.heap v g.cont.fullList
  match uniqueVal ((Container.toTuples g.cont.fullDict).map fun ni => (h ni.2).initialStep) with
  | .error e => ({ g with heap := h }, .error e)
  | .ok i => ({ g with heap := h, initialStep := i }, .ok ())

/-- Assignment of `final_step` (`microgrid.py:583-612,669-684`). -/
def setFinalStep (g : Microgrid) (v : Int) : Microgrid × Except Err Unit :=
  match setFinalMany g.heap v false g.cont.fullList with
  | (h, .error e) => ({ g with heap := h }, .error e)
  | (h, .ok ()) =>
    match uniqueVal (((Container.toTuples g.cont.fullDict).map Prod.snd).filterMap fun i => (h i).finalStep?) with
    | .error e => ({ g with heap := h }, .error e)
    | .ok f => ({ g with heap := h, finalStep := some f }, .ok ())

end Microgrid

end Pymgrid
