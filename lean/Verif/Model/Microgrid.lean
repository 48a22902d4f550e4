import Verif.Model.Container

/-!
# `pymgrid/microgrid/microgrid.py` and `pymgrid/microgrid/utils/step.py`
-/

namespace Pymgrid

/-! ### `MicrogridStep` -/

/-- `MicrogridStep` (`microgrid/utils/step.py:4-11`).  The two lists kept in `_info` under
    `provided_energy` and `absorbed_energy` are separate fields; module names are assumed to differ
    from the keys of the info dicts (`provided_energy`, `absorbed_energy`, `co2_production`,
    `curtailment`). -/
structure StepAcc where
  obs : List (String × List Act) := []
  reward : ℚ := 0
  done : Bool := false
  infos : List (String × List Info) := []
  provided : List ℚ := []
  absorbed : List ℚ := []

/-- `d[k].append(v)` with creation on `KeyError` (`step.py:14-17,22-25`). -/
def dictAppend {β} (d : List (String × List β)) (k : String) (v : β) : List (String × List β) :=
  match dictGet? d k with
  | some l => dictSet d k (l ++ [v])
  | none => dictSet d k [v]

namespace StepAcc

/-- `MicrogridStep.append` (`step.py:13-31`). -/
def append (a : StepAcc) (name : String) (o : StepOut) : StepAcc :=
  { obs := dictAppend a.obs name o.obs
    reward := a.reward + o.reward
    done := if o.done then true else a.done
    infos := dictAppend a.infos name o.info
    provided := match o.info.provided with | some x => a.provided ++ [x] | none => a.provided
    absorbed := match o.info.absorbed with | some x => a.absorbed ++ [x] | none => a.absorbed }

end StepAcc

/-- Marginal costs per module (`microgrid.py:334-335`): production and absorption. -/
abbrev CostInfo := List (String × List (ℚ × ℚ))

/-- A reward shaping function (`step.py:41-46`); it may raise. -/
abbrev Shaper := List (String × List Info) → CostInfo → Except Err ℚ

/-- `shaped_reward` (`step.py:41-46`). -/
def StepAcc.shapedReward (a : StepAcc) (sh : Option Shaper) (ci : CostInfo) : Except Err ℚ :=
  match sh with
  | some f => f a.infos ci
  | none => .ok a.reward

/-- `balance` (`step.py:33-36`). -/
def StepAcc.balance (a : StepAcc) (sh : Option Shaper) (ci : CostInfo) :
    Except Err (ℚ × ℚ × ℚ × ℚ) :=
  match a.shapedReward sh ci with
  | .error e => .error e
  | .ok r => .ok (a.provided.sum, a.absorbed.sum, a.reward, r)

/-! ### `Microgrid` -/

/-- `absorption_marginal_cost` (`base_module.py:668-670`, `battery_module.py:344`,
    `grid_module.py:326`, `unbalanced_energy_module.py:115`). -/
def Module.absorptionCost (m : Module) : Except Err ℚ :=
  match m.kind with
  | .battery b => .ok b.costCycle
  | .grid _ _ =>
    match m.state with
    | .error e => .error e
    | .ok s =>
      match s[1]? with
      | some q => .ok q
      | none => .error .index
  | .balancing u => .ok u.overgenerationCost
  | _ => .ok 0

/-- Fields of `Microgrid` (`microgrid.py:100-128`).  `finalStep = none` is `np.inf`
    (`microgrid.py:669-675`). `trajectory` receives the number of earlier calls, so that stateful or
    random functions are covered; it returns natural numbers. -/
structure Microgrid where
  heap : Heap
  cont : Container
  initialStep : Nat
  finalStep : Option Nat
  shaper : Option Shaper := none
  trajectory : Option (Nat → Nat → Option Nat → Except Err (Nat × Nat)) := none
  calls : Nat := 0
  balanceLog : Logger := {}
  otherLog : Logger := {}

/-- What the loops of `run` work on. -/
structure RunSt where
  heap : Heap
  acc : StepAcc

/-- Heap assignment. -/
def Heap.set (h : Heap) (i : Nat) (m : Module) : Heap := fun j => if j = i then m else h j

/-- `microgrid_step.append(name, *module.step(a, normalized))` (`microgrid.py:257,274-275,297-298`). -/
def RunSt.stepOne (s : RunSt) (name : String) (i : Nat) (a : Act) (normalized : Bool) :
    RunSt × Except Err Unit :=
  match (s.heap i).step a normalized with
  | (m', .error e) => ({ s with heap := s.heap.set i m' }, .error e)
  | (m', .ok o) => ({ heap := s.heap.set i m', acc := s.acc.append name o }, .ok ())

/-- Step a list of modules in order, stopping at the first exception. -/
def RunSt.stepMany : List (String × Nat × Act) → Bool → RunSt → RunSt × Except Err Unit
  | [], _, s => (s, .ok ())
  | (name, i, a) :: rest, nrm, s =>
    match s.stepOne name i a nrm with
    | (s', .error e) => (s', .error e)
    | (s', .ok ()) => stepMany rest nrm s'

/-- A control value: something that cannot be iterated (a number), or a sequence of actions
    (`microgrid.py:268-271`). -/
inductive Ctrl
  | scalar (q : ℚ)
  | seq (l : List Act)
  deriving Repr

/-- The actions that get zipped with the modules (`microgrid.py:268-271`). -/
def Ctrl.acts : Ctrl → List Act
  | .scalar q => [.num q]
  | .seq l => l

/-- Second loop of `run` (`microgrid.py:262-275`): a missing name raises `ValueError`, `zip`
    truncates to the shorter of modules and actions. -/
def RunSt.stepControls (control : List (String × Ctrl)) (nrm : Bool) :
    ModDict → RunSt → RunSt × Except Err Unit
  | [], s => (s, .ok ())
  | (name, ids) :: rest, s =>
    match dictGet? control name with
    | none => (s, .error .value)
    | some c =>
      match RunSt.stepMany ((ids.zip c.acts).map (fun ia => (name, ia.1, ia.2))) nrm s with
      | (s', .error e) => (s', .error e)
      | (s', .ok ()) => stepControls control nrm rest s'

/-- Amount offered to a flexible module on a surplus (`microgrid.py:290-295`), as the positive
    energy to absorb. -/
def sinkAmount (m : Module) (excess : ℚ) : Except Err ℚ :=
  if m.isSink = false then .ok 0
  else
    match m.maxConsumption with
    | .error e => .error e
    | .ok .inf => .ok excess
    | .ok (.fin mx) => .ok (if mx < excess then mx else excess)

/-- Amount requested from a flexible module on a deficit (`microgrid.py:305-310`). -/
def sourceAmount (m : Module) (needed : ℚ) : Except Err ℚ :=
  if m.isSource = false then .ok 0
  else
    match m.maxProduction with
    | .error e => .error e
    | .ok .inf => .ok needed
    | .ok (.fin mx) => .ok (if mx < needed then mx else needed)

/-- Surplus loop (`microgrid.py:286-299`). -/
def RunSt.absorbExcess : List (String × Nat) → ℚ → RunSt → RunSt × Except Err Unit
  | [], _, s => (s, .ok ())
  | (name, i) :: rest, excess, s =>
    match sinkAmount (s.heap i) excess with
    | .error e => (s, .error e)
    | .ok amt =>
      match s.stepOne name i (.num (-1 * amt)) false with
      | (s', .error e) => (s', .error e)
      | (s', .ok ()) => absorbExcess rest (excess + -1 * amt) s'

/-- Deficit loop (`microgrid.py:301-314`). -/
def RunSt.coverNeed : List (String × Nat) → ℚ → RunSt → RunSt × Except Err Unit
  | [], _, s => (s, .ok ())
  | (name, i) :: rest, needed, s =>
    match sourceAmount (s.heap i) needed with
    | .error e => (s, .error e)
    | .ok amt =>
      match s.stepOne name i (.num amt) false with
      | (s', .error e) => (s', .error e)
      | (s', .ok ()) => coverNeed rest (needed - amt) s'

/-- `get_cost_info` (`microgrid.py:334-335`). -/
def costInfoOf (h : Heap) : List Nat → Except Err (List (ℚ × ℚ))
  | [] => .ok []
  | i :: is =>
    match (h i).marginalCost, (h i).absorptionCost, costInfoOf h is with
    | .ok p, .ok a, .ok r => .ok ((p, a) :: r)
    | .error e, _, _ => .error e
    | _, .error e, _ => .error e
    | _, _, .error e => .error e

@[inherit_doc costInfoOf]
def costInfo (h : Heap) : ModDict → Except Err CostInfo
  | [] => .ok []
  | (n, is) :: rest =>
    match costInfoOf h is, costInfo h rest with
    | .ok l, .ok r => .ok ((n, l) :: r)
    | .error e, _ => .error e
    | _, .error e => .error e

/-- What `run` returns (`step.py:38-39`). -/
structure RunOut where
  obs : List (String × List Act)
  reward : ℚ
  done : Bool
  infos : List (String × List Info)

namespace Microgrid

/-- Flexible modules in iteration order. -/
def flexList (g : Microgrid) : List (String × Nat) := Container.toTuples (g.cont.levelDict .flex)

/-- Row of the balance log (`microgrid.py:260,281,317-319,327-332`). -/
def balanceRow (reward shaped provided consumed ctrlProvided ctrlConsumed fixedProvided fixedConsumed : ℚ) :
    List (Key × ℚ) :=
  [(.str "reward", reward), (.str "shaped_reward", shaped),
   (.str "overall_provided_to_microgrid", provided),
   (.str "overall_absorbed_from_microgrid", consumed),
   (.str "controllable_provided_to_microgrid", ctrlProvided),
   (.str "controllable_absorbed_from_microgrid", ctrlConsumed),
   (.str "fixed_provided_to_microgrid", fixedProvided),
   (.str "fixed_absorbed_from_microgrid", fixedConsumed)]

/-- The fixed modules with their action `0.0` (`microgrid.py:255-257`). -/
def fixedSteps (g : Microgrid) : List (String × Nat × Act) :=
  (Container.toTuples (g.cont.levelDict .fixed)).map (fun ni => (ni.1, ni.2, .num 0))

/-- End of `run` (`microgrid.py:316-325`): final balance, log, self-check and output. -/
def finish (g : Microgrid) (ci : CostInfo) (s : RunSt) (fp fc p c : ℚ) :
    Microgrid × Except Err RunOut :=
  let g₁ := { g with heap := s.heap }
  match s.acc.balance g.shaper ci with
  | .error e => (g₁, .error e)
  | .ok (provided, consumed, reward, shaped) =>
    let row := balanceRow reward shaped provided consumed (p - fp) (c - fc) fp fc
    let g₂ := { g₁ with balanceLog := g.balanceLog.log row }
    if isclose provided consumed = false then (g₂, .error .runtime)
    else
      match s.acc.shapedReward g.shaper ci with
      | .error e => (g₂, .error e)
      | .ok r => (g₂, .ok { obs := s.acc.obs, reward := r, done := s.acc.done, infos := s.acc.infos })

/-- Third loop of `run` (`microgrid.py:286-314`): dispatch of the flexible modules. -/
def dispatch (g : Microgrid) (difference : ℚ) (s : RunSt) : RunSt × Except Err Unit :=
  if difference > 0 then s.absorbExcess g.flexList difference
  else s.coverNeed g.flexList (-difference)

/-- `Microgrid.run` (`microgrid.py:227-325`). -/
def run (g : Microgrid) (control : List (String × Ctrl)) (normalized : Bool) :
    Microgrid × Except Err RunOut :=
  match costInfo g.heap g.cont.fullDict with
  | .error e => (g, .error e)
  | .ok ci =>
    match RunSt.stepMany g.fixedSteps false { heap := g.heap, acc := {} } with
    | (s₁, .error e) => ({ g with heap := s₁.heap }, .error e)
    | (s₁, .ok ()) =>
      match s₁.acc.balance g.shaper ci with
      | .error e => ({ g with heap := s₁.heap }, .error e)
      | .ok (fp, fc, _, _) =>
        match s₁.stepControls control normalized (g.cont.levelDict .controllable) with
        | (s₂, .error e) => ({ g with heap := s₂.heap }, .error e)
        | (s₂, .ok ()) =>
          match s₂.acc.balance g.shaper ci with
          | .error e => ({ g with heap := s₂.heap }, .error e)
          | .ok (p, c, _, _) =>
            match g.dispatch (p - c) s₂ with
            | (s₃, .error e) => ({ g with heap := s₃.heap }, .error e)
            | (s₃, .ok ()) => g.finish ci s₃ fp fc p c

/-- Reset the listed modules in order (`microgrid.py:216`). -/
def resetMany (h : Heap) : List Nat → Heap × Except Err Unit
  | [] => (h, .ok ())
  | i :: is =>
    match (h i).reset with
    | (m', .error e) => (h.set i m', .error e)
    | (m', .ok _) => resetMany (h.set i m') is

/-- `set_module_attr('initial_step', v)` (`microgrid.py:602-612`): every module has the attribute. -/
def setInitialMany (h : Heap) (v : Nat) : List Nat → Heap
  | [] => h
  | i :: is => setInitialMany (h.set i { (h i) with initialStep := v }) v is

/-- Assigning `final_step` to one module if it has that attribute; the flag tells whether it has. -/
def setFinalOne (m : Module) (v : Int) : Module × Except Err Bool :=
  match m.kind with
  | .grid p t =>
    match t.setFinalStep m.initialStep v with
    | (t', .ok ()) => ({ m with kind := .grid p t' }, .ok true)
    | (t', .error e) => ({ m with kind := .grid p t' }, .error e)
  | .load t =>
    match t.setFinalStep m.initialStep v with
    | (t', .ok ()) => ({ m with kind := .load t' }, .ok true)
    | (t', .error e) => ({ m with kind := .load t' }, .error e)
  | .renewable t =>
    match t.setFinalStep m.initialStep v with
    | (t', .ok ()) => ({ m with kind := .renewable t' }, .ok true)
    | (t', .error e) => ({ m with kind := .renewable t' }, .error e)
  | _ => (m, .ok false)

/-- `set_module_attr('final_step', v)` (`microgrid.py:602-612`); `any` is `set_at_least_one`. -/
def setFinalMany (h : Heap) (v : Int) (any : Bool) : List Nat → Heap × Except Err Unit
  | [] => (h, if any then .ok () else .error .attribute)
  | i :: is =>
    match setFinalOne (h i) v with
    | (m', .error e) => (h.set i m', .error e)
    | (m', .ok b) => setFinalMany (h.set i m') v (any || b) is

/-- `_set_trajectory` (`microgrid.py:221-225`). -/
def setTrajectory (g : Microgrid) : Microgrid × Except Err Unit :=
  match g.trajectory with
  | none => (g, .ok ())
  | some f =>
    let g₀ := { g with calls := g.calls + 1 }
    match f g.calls g.initialStep g.finalStep with
    | .error e => (g₀, .error e)
    | .ok (i, fin) =>
      let h₁ := setInitialMany g.heap i g.cont.fullList
      match setFinalMany h₁ fin false g.cont.fullList with
      | (h₂, r) => ({ g₀ with heap := h₂ }, r)

/-- `reset` (`microgrid.py:205-219`); the returned observations and flushed logs are omitted. -/
def reset (g : Microgrid) : Microgrid × Except Err Unit :=
  match g.setTrajectory with
  | (g₁, .error e) => (g₁, .error e)
  | (g₁, .ok ()) =>
    match resetMany g₁.heap ((Container.toTuples g.cont.fullDict).map Prod.snd) with
    | (h, .error e) => ({ g₁ with heap := h }, .error e)
    | (h, .ok ()) =>
      ({ g₁ with heap := h, balanceLog := g₁.balanceLog.flush, otherLog := g₁.otherLog.flush }, .ok ())

end Microgrid

/-- `get_attrs(attr, unique=True)` on a list of values (`module_container.py:162-190`): the common
    value, `AttributeError` if there is none, `ValueError` if they differ. -/
def uniqueVal {α} [DecidableEq α] : List α → Except Err α
  | [] => .error .attribute
  | x :: xs => if xs.all (fun y => decide (y = x)) then .ok x else .error .value

namespace Microgrid

/-- `current_step` (`microgrid.py:614-624`).  Without modules `item()` of the empty series raises `ValueError`. -/
def currentStep (g : Microgrid) : Except Err Nat :=
  match (Container.toTuples g.cont.fullDict).map (fun ni => (g.heap ni.2).currentStep) with
  | [] => .error .value
  | c :: cs => uniqueVal (c :: cs)

/-- `final_step` of a module, if it has one. -/
def _root_.Pymgrid.Module.finalStep? (m : Module) : Option Nat :=
  match m.kind with
  | .grid _ t | .load t | .renewable t => some t.finalStep
  | _ => none

/-- `final_step > self._final_step` (`microgrid.py:195`), where `none` is `np.inf`. -/
def exceeds (fin : Nat) : Option Nat → Bool
  | some F => decide (fin > F)
  | none => false

/-- `_check_trajectory_func` (`microgrid.py:175-203`): the function is called once, for validation.  That the answer
    is a pair of integers is part of the type. -/
def checkTrajectory (g : Microgrid) (trajectory : Option (Nat → Nat → Option Nat → Except Err (Nat × Nat))) :
    Except Err Microgrid :=
  match trajectory with
  | none => .ok g
  | some f =>
    match f 0 g.initialStep g.finalStep with
    | .error e => .error e
    | .ok (i, fin) =>
      if i < g.initialStep then .error .value
      else if exceeds fin g.finalStep then .error .value
      else if i ≥ fin then .error .value
      else .ok { g with trajectory := some f, calls := 1 }

/-- `Microgrid.__init__` (`microgrid.py:100-173`) from named references; the balancing module, when
    requested, is the object `bal` appended last under the name of its type.
    Without any module `get_attrs` returns an empty series, and the steps are 0 and `np.inf`
    (`microgrid.py:641-647,669-675`).  With modules but without a time-series module it raises
    `AttributeError` (`module_container.py:180-181`). -/
def create (h : Heap) (mods : List (String × Nat)) (shaper : Option Shaper)
    (trajectory : Option (Nat → Nat → Option Nat → Except Err (Nat × Nat))) : Except Err Microgrid :=
  let cont := Container.build h mods
  let ids := (Container.toTuples cont.fullDict).map Prod.snd
  if mods.isEmpty then
    checkTrajectory { heap := h, cont, initialStep := 0, finalStep := none, shaper } trajectory
  else
    match uniqueVal (ids.map (fun i => (h i).initialStep)) with
    | .error e => .error e
    | .ok i0 =>
      match uniqueVal (ids.filterMap (fun i => (h i).finalStep?)) with
      | .error e => .error e
      | .ok f0 => checkTrajectory { heap := h, cont, initialStep := i0, finalStep := some f0, shaper } trajectory

end Microgrid

end Pymgrid
