import Verif.Model.Env
import Verif.Model.Setters

set_option autoImplicit false

/-!
# Observations of environments (`pymgrid/envs/base/base.py`) and state series (`microgrid/microgrid.py:699-760`)
-/

namespace Pymgrid

/-- `state_dict(normalized=True)` (`base_module.py:473-490`).  `normalize` turns arrays of one element into Python
    scalars (`utils/space.py:215-218`), and `zip` over a scalar raises `TypeError`. -/
def Module.normStateDict (m : Module) : Except Err (List (Key × ℚ)) :=
  match m.stateDict with
  | .error e => .error e
  | .ok d =>
    match m.obsSpace.normalize (.arr (d.map Prod.snd)) with
    | .error e => .error e
    | .ok (.num _) => .error .type
    | .ok (.arr l) => .ok ((d.map Prod.fst).zip l)

/-- `state_dict(normalized)` (`base_module.py:473-490`). -/
def Module.stateDictAs (m : Module) (normalized : Bool) : Except Err (List (Key × ℚ)) :=
  if normalized then m.normStateDict else m.stateDict

/-- Entries of `state_series` (`microgrid.py:735-760`) for the modules with one name; `j` numbers them. -/
def seriesOf (h : Heap) (nrm : Bool) (name : String) : Nat → List Nat → Except Err (List ((String × Nat × Key) × ℚ))
  | _, [] => .ok []
  | j, i :: is =>
    match (h i).stateDictAs nrm with
    | .error e => .error e
    | .ok d =>
      match seriesOf h nrm name (j + 1) is with
      | .error e => .error e
      | .ok r => .ok (d.map (fun kv => ((name, j, kv.1), kv.2)) ++ r)

@[inherit_doc seriesOf]
def stateSeriesOf (h : Heap) (nrm : Bool) : ModDict → Except Err (List ((String × Nat × Key) × ℚ))
  | [] => .ok []
  | (name, ids) :: rest =>
    match seriesOf h nrm name 0 ids with
    | .error e => .error e
    | .ok s =>
      match stateSeriesOf h nrm rest with
      | .error e => .error e
      | .ok r => .ok (s ++ r)

/-- `state_series` (`microgrid.py:735-760`, over `state_dict`, 699-718). -/
def Microgrid.stateSeries (g : Microgrid) (normalized : Bool) : Except Err (List ((String × Nat × Key) × ℚ)) :=
  stateSeriesOf g.heap normalized g.cont.fullDict

/-- Insertion into a dict that is sorted by key. -/
def insertKey {β : Type} (x : String × β) : List (String × β) → List (String × β)
  | [] => [x]
  | y :: ys => if x.1 ≤ y.1 then x :: y :: ys else y :: insertKey x ys

/-- `gym.spaces.Dict` sorts the keys of the dict that it is given. -/
def sortKeys {β : Type} (d : List (String × β)) : List (String × β) := d.foldr insertKey []

/-- What the environment shows: `flat_spaces` without `observation_keys`, `flat_spaces=False` without
    `observation_keys`, and `flat_spaces` with `observation_keys` (`envs/base/base.py:91-107,211-223`).
    `observation_keys` with `flat_spaces=False` is not modelled. -/
inductive ObsMode
  | flat
  | nested
  | keyed (keys : List Key)

/-- Boxes of the modules with one name for `observation_keys` (`envs/base/base.py:139-158`): the number of keys that the
    module has; modules without any are skipped.  The keys are distinct. -/
def keyedDims (h : Heap) (keys : List Key) : List Nat → Except Err (List Nat)
  | [] => .ok []
  | i :: is =>
    match (h i).stateDict with
    | .error e => .error e
    | .ok d =>
      match keyedDims h keys is with
      | .error e => .error e
      | .ok r =>
        let n := (keys.filter fun k => decide (k ∈ d.map Prod.fst)).length
        .ok (if n = 0 then r else n :: r)

/-- The spaces of all names for `observation_keys`; names without boxes are left out (`envs/base/base.py:158-159`). -/
def keyedSpace (h : Heap) (keys : List Key) : ModDict → Except Err (List (String × List Nat))
  | [] => .ok []
  | (name, ids) :: rest =>
    match keyedDims h keys ids with
    | .error e => .error e
    | .ok dims =>
      match keyedSpace h keys rest with
      | .error e => .error e
      | .ok r => .ok (if dims = [] then r else (name, dims) :: r)

/-- `_validate_observation_keys` (`envs/base/base.py:109-122`) and `_get_observation_space`
    (`envs/base/base.py:128-163`): the nested space, as the dimensions of its boxes.  All boxes are `[0, 1]` in each
    dimension (`utils/space.py:193`). -/
def obsSpaceOf (g : Microgrid) (mode : ObsMode) : Except Err (List (String × List Nat)) :=
  match g.stateSeries false with
  | .error e => .error e
  | .ok ss =>
    match mode with
    | .flat | .nested =>
      .ok (sortKeys (g.cont.fullDict.map fun nl => (nl.1, nl.2.map fun i => (g.heap i).obsSpace.dim)))
    | .keyed keys =>
      if keys.all (fun k => decide (k ∈ ss.map fun e => e.1.2.2)) = false then .error .name
      else
        match keyedSpace g.heap keys g.cont.fullDict with
        | .error e => .error e
        | .ok s => .ok (sortKeys s)

/-- An entry of what `Microgrid.reset` returns (`microgrid.py:215-219`): observations of the modules with one name, or a
    flushed log. -/
inductive ObsEntry
  | obs (l : List Act)
  | log

/-- Reset the modules with one name, collecting the observations (`microgrid.py:216`). -/
def resetIds (h : Heap) : List Nat → Heap × Except Err (List Act)
  | [] => (h, .ok [])
  | i :: is =>
    match (h i).reset with
    | (m', .error e) => (h.set i m', .error e)
    | (m', .ok o) =>
      match resetIds (h.set i m') is with
      | (h', .error e) => (h', .error e)
      | (h', .ok os) => (h', .ok (o :: os))

@[inherit_doc resetIds]
def resetDict (h : Heap) : ModDict → Heap × Except Err (List (String × List Act))
  | [] => (h, .ok [])
  | (name, ids) :: rest =>
    match resetIds h ids with
    | (h', .error e) => (h', .error e)
    | (h', .ok os) =>
      match resetDict h' rest with
      | (h'', .error e) => (h'', .error e)
      | (h'', .ok r) => (h'', .ok ((name, os) :: r))

/-- `Microgrid.reset` with what it returns (`microgrid.py:205-219`). -/
def Microgrid.resetObs (g : Microgrid) : Microgrid × Except Err (List (String × ObsEntry)) :=
  match g.setTrajectory with
  | (g₁, .error e) => (g₁, .error e)
  | (g₁, .ok ()) =>
    match resetDict g₁.heap g.cont.fullDict with
    | (h, .error e) => ({ g₁ with heap := h }, .error e)
    | (h, .ok d) =>
      ({ g₁ with heap := h, balanceLog := g₁.balanceLog.flush, otherLog := g₁.otherLog.flush },
        .ok (dictUpdate (d.map fun nl => (nl.1, .obs nl.2)) [("balance", .log), ("other", .log)]))

/-- `np.asarray(x).flatten()` (`gym.spaces.flatten` of a box). -/
def Act.entries : Act → List ℚ
  | .num q => [q]
  | .arr l => l

/-- `gym.spaces.flatten` of a nested observation: the entries in the order of the space; `zip` stops at the shorter
    list; a missing name raises `KeyError`, a log in the place of observations `ValueError`. -/
def flattenObs (d : List (String × ObsEntry)) : List (String × List Nat) → Except Err (List ℚ)
  | [] => .ok []
  | (name, dims) :: rest =>
    match dictGet? d name with
    | none => .error .key
    | some .log => .error .value
    | some (.obs l) =>
      match flattenObs d rest with
      | .error e => .error e
      | .ok r => .ok ((l.zip dims).flatMap (fun x => x.1.entries) ++ r)

/-- An observation as the user sees it. -/
inductive EnvObs
  | flat (l : List ℚ)
  | nested (d : List (String × ObsEntry))

/-- `_get_obs` (`envs/base/base.py:211-223`).  With `observation_keys` the values are those of the normalised state
    series at these keys, here in the order of the series; pandas may order them by the keys. -/
def getObs (mode : ObsMode) (space : List (String × List Nat)) (g : Microgrid) (d : List (String × ObsEntry)) :
    Except Err EnvObs :=
  match mode with
  | .nested => .ok (.nested d)
  | .flat =>
    match flattenObs d space with
    | .error e => .error e
    | .ok l => .ok (.flat l)
  | .keyed keys =>
    match g.stateSeries true with
    | .error e => .error e
    | .ok ss => .ok (.flat ((ss.filter fun e => decide (e.1.2.2 ∈ keys)).map Prod.snd))

/-- What an environment's step returns (`envs/base/base.py:205-209`). -/
structure EnvOut where
  obs : EnvObs
  reward : ℚ
  done : Bool
  infos : List (String × List Info)

/-- `BaseMicrogridEnv.step` (`envs/base/base.py:169-209`). -/
def envStep (mode : ObsMode) (space : List (String × List Nat)) (g : Microgrid) (control : List (String × Ctrl))
    (normalized : Bool) : Microgrid × Except Err EnvOut :=
  match g.run control normalized with
  | (g', .error e) => (g', .error e)
  | (g', .ok o) =>
    match getObs mode space g' (o.obs.map fun nl => (nl.1, .obs nl.2)) with
    | .error e => (g', .error e)
    | .ok ob => (g', .ok { obs := ob, reward := o.reward, done := o.done, infos := o.infos })

/-- `BaseMicrogridEnv.reset` (`envs/base/base.py:165-167`). -/
def envReset (mode : ObsMode) (space : List (String × List Nat)) (g : Microgrid) : Microgrid × Except Err EnvObs :=
  match g.resetObs with
  | (g', .error e) => (g', .error e)
  | (g', .ok d) => (g', getObs mode space g' d)

/-- `DiscreteMicrogridEnv.step` with what it returns (`discrete.py:109-143`, which ends in `super().step`,
    `envs/base/base.py:169-209`). -/
def DiscreteEnv.stepObs (mode : ObsMode) (space : List (String × List Nat)) (e : DiscreteEnv) (a : Int) :
    DiscreteEnv × Except Err EnvOut :=
  match e.step a with
  | (e', .error er) => (e', .error er)
  | (e', .ok o) =>
    match getObs mode space e'.g (o.obs.map fun nl => (nl.1, .obs nl.2)) with
    | .error er => (e', .error er)
    | .ok ob => (e', .ok { obs := ob, reward := o.reward, done := o.done, infos := o.infos })

end Pymgrid
