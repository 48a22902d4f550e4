import Verif.Model.Legacy

set_option autoImplicit false

/-!
# Discrete actions of the deprecated environments: `pymgrid/_deprecated/Environments/Environment.py`
-/

namespace Pymgrid.Legacy

/-- What the actions read of a microgrid: its architecture and parameters, `mg.load`, `mg.pv`, `mg.grid.status`,
    `mg.battery.capa_to_charge` and `mg.battery.capa_to_discharge` (`Environment.py:364-376,437-452,533-545`). -/
structure AgentView where
  arch : Arch
  params : Params
  load : ℚ
  pv : ℚ
  status : ℚ
  capaCharge : ℚ
  capaDischarge : ℚ
  deriving DecidableEq, Repr

/-- The attributes of a microgrid; those of the battery are set from the last recorded state (`non_modular_microgrid.py:813-816`).
    Simplified: the run of the last step of the data does not set them, here they are always those of the last state. -/
def Grid.agentView (g : Grid) : AgentView :=
  { arch := g.arch, params := g.params, load := g.load, pv := g.pv, status := g.cur.status
    capaCharge := (g.states.getLast?.map (·.capaToCharge)).getD 0
    capaDischarge := (g.states.getLast?.map (·.capaToDischarge)).getD 0 }

/-- The control dict of an action. -/
structure AgentControl where
  pvConsumed : ℚ
  charge : ℚ := 0
  discharge : ℚ := 0
  imp : ℚ := 0
  exp : ℚ := 0
  genset : ℚ := 0
  deriving DecidableEq, Repr

namespace AgentView

/-- `p_charge_pv` (`Environment.py:371,445,540`). -/
def chargePv (v : AgentView) : ℚ := max 0 (min (min (-(v.load - v.pv)) v.capaCharge) v.params.pCharge)

/-- `p_charge_grid` (`Environment.py:372,446`). -/
def chargeGrid (v : AgentView) : ℚ := max 0 (min v.capaCharge v.params.pCharge)

/-- `p_discharge` (`Environment.py:376,450,544`). -/
def dischargeNet (v : AgentView) : ℚ := max 0 (min (min (v.load - v.pv) v.capaDischarge) v.params.pDischarge)

/-- `action_grid` (`Environment.py:361-432`); for another action `control_dict` is not bound. -/
def actionGrid (v : AgentView) (action : Nat) : Except Err AgentControl :=
  let used := min v.pv v.load
  match action with
  | 0 => .ok { pvConsumed := used, charge := v.chargePv, exp := max 0 (v.pv - used - v.chargePv) }
  | 4 =>
    let load := v.load + v.chargeGrid
    .ok { pvConsumed := min v.pv load, charge := v.chargeGrid, imp := max 0 (load - min v.pv load)
          exp := max 0 (v.pv - min v.pv load - v.chargeGrid) }
  | 1 => .ok { pvConsumed := used, discharge := v.dischargeNet, imp := max 0 (v.load - used - v.dischargeNet) }
  | 2 => .ok { pvConsumed := used, imp := max 0 (v.load - v.pv) }
  | 3 => .ok { pvConsumed := used, exp := |min (v.load - v.pv) 0| }
  | _ => .error .name

/-- `action_grid_genset` (`Environment.py:434-528`); for another action `control_dict` is not bound. -/
def actionGridGenset (v : AgentView) (action : Nat) : Except Err AgentControl :=
  let used := min v.pv v.load
  match action with
  | 0 => .ok { pvConsumed := used, charge := v.chargePv, exp := max 0 (v.pv - used - v.chargePv) * v.status }
  | 5 =>
    let load := v.load + v.chargeGrid
    .ok { pvConsumed := min v.pv load, charge := v.chargeGrid, imp := max 0 (load - min v.pv load) * v.status
          exp := max 0 (v.pv - min v.pv load - v.chargeGrid) * v.status }
  | 1 => .ok { pvConsumed := used, discharge := v.dischargeNet, imp := max 0 (v.load - used - v.dischargeNet) * v.status }
  | 2 => .ok { pvConsumed := used, imp := max 0 (v.load - v.pv) * v.status }
  | 3 => .ok { pvConsumed := used, exp := |min (v.load - v.pv) 0| * v.status }
  | 4 => .ok { pvConsumed := used, genset := max (v.load - v.pv) 0 }
  | 6 => .ok { pvConsumed := used, discharge := v.dischargeNet, genset := max 0 (v.load - used - v.dischargeNet) }
  | _ => .error .name

/-- `action_genset` (`Environment.py:530-583`); for another action `control_dict` is not bound. -/
def actionGenset (v : AgentView) (action : Nat) : Except Err AgentControl :=
  let used := min v.pv v.load
  match action with
  | 0 => .ok { pvConsumed := used, charge := v.chargePv }
  | 1 => .ok { pvConsumed := used, discharge := v.dischargeNet, genset := max 0 (v.load - used - v.dischargeNet) }
  | 2 => .ok { pvConsumed := used, genset := max 0 (v.load - used) }
  | _ => .error .name

/-- `get_action_priority_list` and `actions_agent_discret` (`Environment.py:315-359`); without a battery there is no `mg.battery`. -/
def action (v : AgentView) (a : Nat) : Except Err AgentControl :=
  if v.arch.battery then
    if v.arch.genset && v.arch.grid then v.actionGridGenset a
    else if v.arch.genset then v.actionGenset a
    else v.actionGrid a
  else .error .attribute

/-- The number of actions of the environment (`pymgrid_cspla.py:44-47`). -/
def actionCount (v : AgentView) : Nat :=
  2 + (if v.arch.grid then 3 else 0) + (if v.arch.genset then 1 else 0) + (if v.arch.grid && v.arch.genset then 1 else 0)

end AgentView

end Pymgrid.Legacy
