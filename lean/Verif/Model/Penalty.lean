import Verif.Model.Legacy

set_option autoImplicit false

/-!
# `NonModularMicrogrid.penalty` and the record of the controls: `pymgrid/_deprecated/non_modular_microgrid.py`

`Grid.run` of `Model/Legacy.lean` is handed the values of the control dict; here the dict itself is modelled, together with the
columns of `_df_record_control_dict`.
-/

namespace Pymgrid.Legacy

/-- A control dict: keys and values, each key once. -/
abbrev Dict := List (String × ℚ)

/-- `d[k] = x`. -/
def Dict.set (d : Dict) (k : String) (x : ℚ) : Dict := (k, x) :: d.filter fun e => e.1 != k

/-- `d.pop(k)`, where a missing key is ignored (`non_modular_microgrid.py:1009-1012`). -/
def Dict.drop (d : Dict) (k : String) : Dict := d.filter fun e => e.1 != k

/-- The values that `run` reads from the control dict. -/
def Dict.control (d : Dict) : Control :=
  { charge := d.lookup "battery_charge", discharge := d.lookup "battery_discharge", imp := d.lookup "grid_import"
    exp := d.lookup "grid_export", genset := d.lookup "genset" }

/-- An entry of the record of controls: a number or, if the control dict has no value for a column, a dict. -/
inductive Cell
  | num (x : ℚ)
  | dict
  deriving DecidableEq, Repr

/-- `_record_action` (`non_modular_microgrid.py:856-867`). -/
def recordAction (d : Dict) (df : List (String × List Cell)) : List (String × List Cell) :=
  df.map fun c => (c.1, c.2 ++ [match d.lookup c.1 with | some x => Cell.num x | none => Cell.dict])

/-- A legacy microgrid with its record of controls. -/
structure Kept where
  grid : Grid
  actions : List (String × List Cell)

namespace Kept

/-- `run` with the dict that it is given (`non_modular_microgrid.py:627-668`); the dict is changed in place and returned here.
    `run` puts in the load and the PV, `_record_production` removes `pv_consummed` (`non_modular_microgrid.py:1009-1012`). -/
def run (b : Kept) (d : Dict) : Kept × Dict × Except Err StateRow :=
  let d := (d.set "load" b.grid.load).set "pv" b.grid.pv
  let actions := recordAction d b.actions
  let d := d.drop "pv_consummed"
  let r := b.grid.run d.control
  (⟨r.1, actions⟩, d, r.2)

/-- `reset` (`non_modular_microgrid.py:818-849`): the record of controls is emptied first. -/
def reset (b : Kept) : Kept := ⟨b.grid.reset.1, b.actions.map fun c => (c.1, [])⟩

end Kept

/-- `_df_record_actual_production[k]` (columns of `MicrogridGenerator.py:479-575`, `to_nonmodular_ops.py:84-160`). -/
def Production.column (r : Production) (a : Arch) (k : String) : Except Err (List ℚ) :=
  if k = "loss_load" then .ok (r.pv.map (·.lossLoad))
  else if k = "overgeneration" then .ok (r.pv.map (·.overgen))
  else if k = "pv_consummed" then .ok (r.pv.map (·.consumed))
  else if k = "pv_curtailed" then .ok (r.pv.map (·.curtailed))
  else if k = "battery_charge" ∧ a.battery = true then .ok (r.battery.map (·.1))
  else if k = "battery_discharge" ∧ a.battery = true then .ok (r.battery.map (·.2))
  else if k = "grid_import" ∧ a.grid = true then .ok (r.grid.map (·.1))
  else if k = "grid_export" ∧ a.grid = true then .ok (r.grid.map (·.2))
  else if k = "genset" ∧ a.genset = true then .ok r.genset
  else .error .key

/-- The loop of `penalty` (`non_modular_microgrid.py:1253-1255`). -/
def penaltyOf (a : Arch) (r : Production) : List (String × List Cell) → Except Err ℚ
  | [] => .ok 0
  | (k, l) :: rest =>
    match l.getLast? with
    | none => .error .index
    | some c =>
      match r.column a k with
      | .error e => .error e
      | .ok p =>
        match p.getLast? with
        | none => .error .index
        | some y =>
          match c with
          | .dict => .error .type
          | .num x =>
            match penaltyOf a r rest with
            | .error e => .error e
            | .ok s => .ok (|x - y| + s)

/-- `penalty` (`non_modular_microgrid.py:1251-1257`). -/
def Kept.penalty (b : Kept) (coef : ℚ) : Except Err ℚ :=
  match penaltyOf b.grid.arch b.grid.production b.actions with
  | .error e => .error e
  | .ok s => .ok (s * coef)

/-- The columns of `df_actions` of generated microgrids (`MicrogridGenerator.py:481-579`). -/
def actionColumns (a : Arch) : List String :=
  ["load", "pv_consummed", "pv_curtailed", "pv"] ++ (if a.battery then ["battery_charge", "battery_discharge"] else []) ++
    (if a.grid then ["grid_import", "grid_export"] else []) ++ (if a.genset then ["genset"] else [])

end Pymgrid.Legacy
