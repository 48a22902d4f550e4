import Verif.Model.Battery

/-!
# `pymgrid/modules/genset_module.py`
-/

namespace Pymgrid

/-- `genset_cost`: a constant or a callable (`genset_module.py:183-186`). -/
inductive GensetCost
  | const (c : ℚ)
  | fn (f : ℚ → ℚ)

/-- Fields of `GensetModule` (`genset_module.py:61-98`).  Statuses are the integers 0/1; the two
    counters are Python integers, hence `Int` (a decrement below zero would be representable). -/
structure Genset where
  runMin : ℚ
  runMax : ℚ
  cost : GensetCost
  co2PerUnit : ℚ := 0
  costPerCo2 : ℚ := 0
  startUpTime : Nat := 0
  windDownTime : Nat := 0
  allowAbortion : Bool := true
  initStartUp : Bool := true
  status : Int
  goal : Int
  untilUp : Int
  untilDown : Int

namespace Genset

/-- `_reset_up_down_times` (`genset_module.py:216-227`). -/
def resetTimes (g : Genset) : Except Err Genset :=
  if g.goal ≠ g.status then .error .runtime
  else if g.status ≠ 0 then .ok { g with untilUp := 0, untilDown := g.windDownTime }
  else .ok { g with untilDown := 0, untilUp := g.startUpTime }

/-- `GensetModule.__init__` (`genset_module.py:61-98`), without the base-class part. -/
def init (runMin runMax : ℚ) (cost : GensetCost) (co2PerUnit costPerCo2 : ℚ)
    (startUpTime windDownTime : Nat) (allowAbortion initStartUp : Bool) : Except Err Genset :=
  if runMin > runMax then .error .value
  else
    let s : Int := if initStartUp then 1 else 0
    resetTimes { runMin, runMax, cost, co2PerUnit, costPerCo2, startUpTime, windDownTime,
                 allowAbortion, initStartUp, status := s, goal := s, untilUp := 0, untilDown := 0 }

/-- `next_status` (`genset_module.py:360-390`). -/
def nextStatus (g : Genset) (goal : Int) : Int :=
  if goal ≠ 0 then
    if g.status ≠ 0 then 1 else if g.untilUp = 0 then 1 else 0
  else
    if g.status = 0 then 0 else if g.untilDown = 0 then 0 else 1

/-- `_finish_in_progress_change` (`genset_module.py:302-311`): the flag tells whether a change was
    finished. -/
def finishInProgress (g : Genset) : Except Err (Genset × Bool) :=
  if g.untilUp = 0 ∧ g.goal = 1 then
    match resetTimes { g with status := 1 } with
    | .ok g' => .ok (g', true)
    | .error e => .error e
  else if g.untilDown = 0 ∧ g.goal = 0 then
    match resetTimes { g with status := 0 } with
    | .ok g' => .ok (g', true)
    | .error e => .error e
  else .ok (g, false)

/-- `_update_up_down_times` (`genset_module.py:229-233`). -/
def updateTimes (g : Genset) : Genset :=
  if g.goal = 0 then { g with untilDown := g.untilDown - 1 }
  else { g with untilUp := g.untilUp - 1 }

/-- First part of `_non_instantaneous_update` (`genset_module.py:328-335`): abort a change or
    accept a new request. -/
def redirect (g : Genset) (goal : Int) : Except Err Genset :=
  if (goal = g.status ∧ g.status ≠ g.goal) ∧ g.allowAbortion = true then
    resetTimes { g with goal := goal }
  else if g.status = g.goal ∧ g.goal ≠ goal then
    match resetTimes g with
    | .ok g' => .ok { g' with goal := goal }
    | .error e => .error e
  else .ok g

/-- Second part of `_non_instantaneous_update` (`genset_module.py:337-346`): count down. -/
def countDown (g : Genset) : Except Err Genset :=
  if g.goal ≠ g.status then
    if g.goal ≠ 0 then
      if g.untilUp > 0 then .ok (updateTimes g) else .error .assertion
    else
      if g.untilDown > 0 then .ok (updateTimes g) else .error .assertion
  else .ok g

/-- `_non_instantaneous_update` (`genset_module.py:327-346`). -/
def nonInstantaneous (g : Genset) (goal : Int) : Except Err Genset :=
  match redirect g goal with
  | .ok g' => countDown g'
  | .error e => .error e

/-- `update_status` (`genset_module.py:235-300`) after rounding the request. Partial effects of a
    failing call are not tracked (the error branches are shown unreachable in `Props.Genset`). -/
def updateStatusRounded (g : Genset) (goal : Int) : Except Err Genset :=
  let prediction := g.nextStatus goal
  if goal = g.status ∧ g.status = g.goal then
    if g.untilDown = 0 ∨ g.untilUp = 0 then .ok g else .error .assertion
  else
    let instantUp : Bool := decide (g.startUpTime = 0 ∧ goal = 1)
    let instantDown : Bool := decide (g.windDownTime = 0 ∧ goal = 0)
    let g₁ := if goal ≠ g.goal ∧ (g.allowAbortion || instantUp || instantDown) = true
              then { g with goal := goal } else g
    match g₁.finishInProgress with
    | .error e => .error e
    | .ok (g₂, finished) =>
      let r := if finished then .ok g₂ else g₂.nonInstantaneous goal
      match r with
      | .error e => .error e
      | .ok g₃ => if g₃.status = prediction then .ok g₃ else .error .value

/-- `update_status` (`genset_module.py:235-300`). -/
def updateStatus (g : Genset) (goal : ℚ) : Except Err Genset :=
  if ¬ (g.untilDown ≥ 0 ∧ g.untilUp ≥ 0) then .error .assertion
  else if ¬ (0 ≤ goal ∧ goal ≤ 1) then .error .value
  else g.updateStatusRounded (pyRound goal)

/-- `max_production`, `min_production` (`genset_module.py:465-501`). -/
def maxProduction (g : Genset) : ℚ := g.status * g.runMax
@[inherit_doc maxProduction] def minProduction (g : Genset) : ℚ := g.status * g.runMin

/-- `next_max_production`, `next_min_production` (`genset_module.py:392-424`). -/
def nextMaxProduction (g : Genset) (goal : Int) : ℚ := g.nextStatus goal * g.runMax
@[inherit_doc nextMaxProduction]
def nextMinProduction (g : Genset) (goal : Int) : ℚ := g.nextStatus goal * g.runMin

/-- `get_co2` (`genset_module.py:151-165`). -/
def getCo2 (g : Genset) (p : ℚ) : ℚ := g.co2PerUnit * p

/-- `get_co2_cost` (`genset_module.py:167-181`). -/
def getCo2Cost (g : Genset) (p : ℚ) : ℚ := g.costPerCo2 * g.getCo2 p

/-- `_get_fuel_cost` (`genset_module.py:183-186`). -/
def fuelCost (g : Genset) (p : ℚ) : ℚ :=
  match g.cost with
  | .const c => c * p
  | .fn f => f p

/-- `get_cost` (`genset_module.py:188-205`). -/
def getCost (g : Genset) (p : ℚ) : ℚ := g.fuelCost p + g.getCo2Cost p

/-- `update` (`genset_module.py:207-214`).  Acting as a sink fails the assertion; `None` raises
    `TypeError` in the cost formula. -/
def update (g : Genset) (e : Option ℚ) (d : Dir) : Except Err UpdateOut :=
  match d with
  | .sink => .error .assertion
  | .source =>
    match e with
    | none => .error .type
    | some x => .ok { reward := -1 * g.getCost x, done := false,
                      info := { provided := some x, extra := [(.str "co2_production", g.getCo2 x)] } }

/-- `_state_dict` (`genset_module.py:429-433`). -/
def stateDict (g : Genset) : List (Key × ℚ) :=
  [(.str "current_status", g.status), (.str "goal_status", g.goal),
   (.str "steps_until_up", g.untilUp), (.str "steps_until_down", g.untilDown)]

/-- Observation and action bounds (`genset_module.py:503-517`). -/
def minObs (_ : Genset) : List ℚ := [0, 0, 0, 0]
@[inherit_doc minObs] def maxObs (g : Genset) : List ℚ := [1, 1, g.startUpTime, g.windDownTime]
@[inherit_doc minObs] def minAct (_ : Genset) : List ℚ := [0, 0]
@[inherit_doc minObs] def maxAct (g : Genset) : List ℚ := [1, g.runMax]

end Genset

end Pymgrid
