import Verif.Model.Microgrid

/-!
# Normalisation of whole actions and observations

`to_normalized`/`from_normalized` of modules and microgrids, and `MicrogridSpace`
(`pymgrid/utils/space.py:242-299`).
-/

set_option autoImplicit false

namespace Pymgrid

/-- The space selected by the flags of `to_normalized`/`from_normalized`
    (`base_module.py:377-381`, `402-406`): `act` is `true` for actions, `false` for observations;
    the assertion that exactly one flag is set is not modelled.
    For the infinite action space of the balancing module the results are `nan`; no rational number
    stands for that, so the model has no result (`notImplemented`) there. -/
def Module.spaceOf (m : Module) (act : Bool) : Except Err Space :=
  if act then
    match m.actSpace with
    | some s => .ok s
    | none => .error .notImplemented
  else .ok m.obsSpace

/-- `BaseMicrogridModule.to_normalized` (`base_module.py:358-381`). -/
def Module.toNormalized (m : Module) (act : Bool) (v : Act) : Except Err Act :=
  match m.spaceOf act with
  | .error e => .error e
  | .ok s => s.normalize v

/-- `BaseMicrogridModule.from_normalized` (`base_module.py:383-406`). -/
def Module.fromNormalized (m : Module) (act : Bool) (v : Act) : Except Err Act :=
  match m.spaceOf act with
  | .error e => .error e
  | .ok s => s.denormalize v

/-- An action or observation of a microgrid: module name to list of values. -/
abbrev Data := List (String × List Act)

namespace Microgrid

/-- `[module.f(value) for module, value in zip(module_list, values)]` (`microgrid.py:407,431`). -/
def mapEntries (f : Module → Act → Except Err Act) (h : Heap) : List Nat → List Act → Except Err (List Act)
  | i :: is, v :: vs =>
    match f (h i) v with
    | .error e => .error e
    | .ok w =>
      match mapEntries f h is vs with
      | .error e => .error e
      | .ok ws => .ok (w :: ws)
  | _, _ => .ok []

/-- The dict comprehension over `self._modules.iterdict()` (`microgrid.py:407-408,431-432`): names
    that are not in the data are left out, data under other names is ignored. -/
def mapData (f : Module → Act → Except Err Act) (h : Heap) (data : Data) : ModDict → Except Err Data
  | [] => .ok []
  | (n, is) :: rest =>
    match dictGet? data n with
    | none => mapData f h data rest
    | some vs =>
      match mapEntries f h is vs with
      | .error e => .error e
      | .ok ws =>
        match mapData f h data rest with
        | .error e => .error e
        | .ok r => .ok ((n, ws) :: r)

/-- `Microgrid.to_normalized` (`microgrid.py:388-408`). -/
def toNormalized (g : Microgrid) (act : Bool) (data : Data) : Except Err Data :=
  mapData (fun m v => m.toNormalized act v) g.heap data g.cont.fullDict

/-- `Microgrid.from_normalized` (`microgrid.py:410-432`). -/
def fromNormalized (g : Microgrid) (act : Bool) (data : Data) : Except Err Data :=
  mapData (fun m v => m.fromNormalized act v) g.heap data g.cont.fullDict

end Microgrid

/-! ### `MicrogridSpace` -/

/-- One numpy operand pair under broadcasting: equal lengths, or one side a scalar or of length one;
    otherwise `ValueError`.  The result is an array because the second operand always is one. -/
def broadcast (op : ℚ → ℚ → ℚ) (x : Act) (s : List ℚ) : Except Err Act :=
  match x with
  | .num q => .ok (.arr (s.map (op q)))
  | .arr l =>
    if l.length = s.length then .ok (.arr (l.zipWith op s))
    else
      match l, s with
      | [q], _ => .ok (.arr (s.map (op q)))
      | _, [q] => .ok (.arr (l.map (fun v => op v q)))
      | _, _ => .error .value

/-- `MicrogridSpace` (`utils/space.py:242-257`): per name the lower bounds and the spreads of the
    spaces, with zero spreads replaced by one (`_get_spread`, `utils/space.py:259-270`). -/
structure GridSpace where
  low : List (String × List (List ℚ))
  spread : List (String × List (List ℚ))

/-- One list comprehension of `dict_op` (`utils/space.py:298`). -/
def listOp (op : ℚ → ℚ → ℚ) : List Act → List (List ℚ) → Except Err (List Act)
  | x :: xs, s :: ss =>
    match broadcast op x s with
    | .error e => .error e
    | .ok y =>
      match listOp op xs ss with
      | .error e => .error e
      | .ok ys => .ok (y :: ys)
  | _, _ => .ok []

/-- `dict_op` (`utils/space.py:293-299`). -/
def dictOp (op : ℚ → ℚ → ℚ) : Data → List (String × List (List ℚ)) → Except Err Data
  | [], _ => .ok []
  | (k, xs) :: rest, second =>
    match dictGet? second k with
    | none => .error .key
    | some ss =>
      match listOp op xs ss with
      | .error e => .error e
      | .ok ys =>
        match dictOp op rest second with
        | .error e => .error e
        | .ok r => .ok ((k, ys) :: r)

namespace GridSpace

/-- `MicrogridSpace.__init__` from the spaces per name (`utils/space.py:243-270`); names without any
    space are dropped (`utils/space.py:32-48`). -/
def ofSpaces (d : List (String × List Space)) : GridSpace :=
  let d' := d.filter (fun ns => !ns.2.isEmpty)
  { low := d'.map (fun ns => (ns.1, ns.2.map Space.low))
    spread := d'.map (fun ns => (ns.1, ns.2.map (fun s => s.low.zipWith spread1 s.high))) }

/-- `normalize` (`utils/space.py:272-281`); division by the spread is never by zero. -/
def normalize (s : GridSpace) (v : Data) : Except Err Data :=
  if v.length ≠ s.low.length then .error .type
  else
    match dictOp (· - ·) v s.low with
    | .error e => .error e
    | .ok w => dictOp (· / ·) w s.spread

/-- `denormalize` (`utils/space.py:283-291`). -/
def denormalize (s : GridSpace) (v : Data) : Except Err Data :=
  if v.length ≠ s.low.length then .error .type
  else
    match dictOp (· * ·) v s.spread with
    | .error e => .error e
    | .ok w => dictOp (· + ·) w s.low

end GridSpace

/-- The action spaces of the controllable modules under one name (`utils/space.py:32-39`).
    Controllable modules have finite spaces. -/
def actSpaces (h : Heap) (ids : List Nat) : List Space :=
  ids.filterMap (fun i => if (h i).ffc = .controllable then (h i).actSpace else none)

/-- `microgrid_action_space` (`microgrid.py:114-116`). -/
def Microgrid.actionSpace (g : Microgrid) : GridSpace :=
  .ofSpaces (g.cont.fullDict.map (fun nl => (nl.1, actSpaces g.heap nl.2)))

/-- `microgrid_observation_space` (`microgrid.py:117-119`), recomputed from the modules; the library
    keeps the one computed at construction. -/
def Microgrid.observationSpace (g : Microgrid) : GridSpace :=
  .ofSpaces (g.cont.fullDict.map (fun nl => (nl.1, nl.2.map (fun i => (g.heap i).obsSpace))))

end Pymgrid
