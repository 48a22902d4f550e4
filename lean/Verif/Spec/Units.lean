import Verif.Model.PriorityList
import Verif.Spec.GridSerialize
import Verif.Spec.Library

set_option autoImplicit false

/-! Specification for C92: the same microgrid with energies in another unit. -/

namespace Pymgrid

/-- A row of data with its entries in other units: entry `j` is multiplied by `w j`. -/
def rowIn (w : Nat → ℚ) (row : List ℚ) : List ℚ := row.mapIdx fun j x => w j * x

/-- The factors for the data of a grid, if energies are multiplied by `u`: the two prices and the CO2 intensity are per
    unit of energy, the status is no quantity. -/
def gridUnit (u : ℚ) (j : Nat) : ℚ := if j < 3 then 1 / u else 1

/-- The same fuel cost as a function of energies multiplied by `u`. -/
def GensetCost.inUnit (u : ℚ) : GensetCost → GensetCost
  | .const c => .const (c / u)
  | .fn f => .fn fun x => f (x / u)

/-- Two forecasters for the same data in two units.  No forecaster and the oracle need no change; noise has to be
    converted, and a forecast function has to convert its arguments and results. -/
inductive UnitForecast (w : Nat → ℚ) : FKind → FKind → Prop
  | none : UnitForecast w .none .none
  | oracle : UnitForecast w .oracle .oracle
  | gaussian {noise noise' : Nat → Nat → Nat → ℚ} (inc : Bool) (std : Option Nat)
      (h : ∀ d i j, noise' d i j = w j * noise d i j) :
      UnitForecast w (.gaussian noise inc std) (.gaussian noise' inc std)
  | user {f f' : List ℚ → List (List ℚ) → Nat → Except Err (List (List ℚ))}
      (h : ∀ c x n, f' (rowIn w c) (x.map (rowIn w)) n = (f c x n).map (List.map (rowIn w))) :
      UnitForecast w (.user f) (.user f')
  | userScalar {f f' : List ℚ → List ℚ → Nat → Except Err (List ℚ)}
      (h : ∀ c r n, f' (rowIn w c) (rowIn w r) n = (f c r n).map (rowIn w)) :
      UnitForecast w (.userScalar f) (.userScalar f')

/-- Two modules built by the same call of a constructor, except that in the second call all energies are multiplied by
    `u` and all prices and emissions per unit of energy divided by `u`.  The arguments are sensible in the sense of
    `LibraryModule`, and batteries, gensets and grids can move some energy. -/
inductive Rescaled (u : ℚ) : Module → Module → Prop
  | battery {minC maxC maxCh maxDis eff cost : ℚ} {c s : Option ℚ} {i : Nat} {r : Bool} {m m' : Module}
      (good : GoodBattery minC maxC maxCh maxDis m) (hp : 0 < maxCh + maxDis)
      (h : Module.mkBattery minC maxC maxCh maxDis eff cost none c s i r = .ok m)
      (h' : Module.mkBattery (u * minC) (u * maxC) (u * maxCh) (u * maxDis) eff (cost / u) none (c.map (u * ·)) s i r =
        .ok m') : Rescaled u m m'
  | genset {rmin rmax : ℚ} {cost : GensetCost} {c1 c2 : ℚ} {S W : Nat} {ab iu : Bool} {i : Nat} {r : Bool}
      {m m' : Module} (h0 : 0 ≤ rmin) (hp : 0 < rmax)
      (h : Module.mkGenset rmin rmax cost c1 c2 S W ab iu i r = .ok m)
      (h' : Module.mkGenset (u * rmin) (u * rmax) (cost.inUnit u) (c1 / u) c2 S W ab iu i r = .ok m') : Rescaled u m m'
  | grid {mi me cc : ℚ} {ncols : Nat} {rows : List (List ℚ)} {param param' : FKind} {horizon i : Nat} {fs : Int}
      {r : Bool} {m m' : Module} (hp : 0 < mi + me) (hrect : ∀ r ∈ rows, r.length = ncols)
      (hf : UnitForecast (gridUnit u) param param') (hw : param.Works 4 horizon) (hw' : param'.Works 4 horizon)
      (h : Module.mkGrid mi me ncols rows param horizon i fs cc r = .ok m)
      (h' : Module.mkGrid (u * mi) (u * me) ncols (rows.map (rowIn (gridUnit u))) param' horizon i fs cc r = .ok m') :
      Rescaled u m m'
  | load {xs : List ℚ} {param param' : FKind} {horizon i : Nat} {fs : Int} {r : Bool} {m m' : Module}
      (hf : UnitForecast (fun _ => u) param param') (hw : param.Works 1 horizon) (hw' : param'.Works 1 horizon)
      (h : Module.mkLoad xs param horizon i fs r = .ok m)
      (h' : Module.mkLoad (xs.map (u * ·)) param' horizon i fs r = .ok m') : Rescaled u m m'
  | renewable {xs : List ℚ} {param param' : FKind} {horizon i : Nat} {fs : Int} {r : Bool} {m m' : Module}
      (hf : UnitForecast (fun _ => u) param param') (hw : param.Works 1 horizon) (hw' : param'.Works 1 horizon)
      (h : Module.mkRenewable xs param horizon i fs r = .ok m)
      (h' : Module.mkRenewable (xs.map (u * ·)) param' horizon i fs r = .ok m') : Rescaled u m m'
  | balancing (r : Bool) (i : Nat) {l o : ℚ} (hl : 0 ≤ l) (ho : 0 ≤ o) :
      Rescaled u (Module.mkBalancing r i l o) (Module.mkBalancing r i (l / u) (o / u))
  | flexGrid {m m' : Module} {p : GridParams} {t : TS} (h : Rescaled u m m') (hk : m.kind = .grid p t) :
      Rescaled u { m with ffc := .flex } { m' with ffc := .flex }

/-- An info with its energies multiplied by `u`; emissions are no energies. -/
def Info.inUnit (u : ℚ) (i : Info) : Info :=
  { provided := i.provided.map (u * ·), absorbed := i.absorbed.map (u * ·)
    extra := i.extra.map fun x => if x.1 = .str "curtailment" then (x.1, u * x.2) else x }

/-- The infos of all modules. -/
def infosIn (u : ℚ) (l : List (String × List Info)) : List (String × List Info) :=
  l.map fun x => (x.1, x.2.map (Info.inUnit u))

/-- The result of `run` with the energies in its infos multiplied by `u`. -/
def RunOut.inUnit (u : ℚ) (o : RunOut) : RunOut := { o with infos := infosIn u o.infos }

/-- No reward shaping, or a function that does not look at marginal costs and whose values do not depend on the unit. -/
inductive UnitShaper (u : ℚ) : Option Shaper → Option Shaper → Prop
  | none : UnitShaper u none none
  | some {f f' : Shaper} (h : ∀ infos ci ci', f' (infosIn u infos) ci' = f infos ci)
      (hn : ∀ infos ci, f infos ci ≠ .error .runtime) (hn' : ∀ infos ci, f' infos ci ≠ .error .runtime) :
      UnitShaper u (some f) (some f')

/-- An action with its energy multiplied by `u`.  Actions of gensets start with the requested status. -/
def Act.inUnit (u : ℚ) (genset : Bool) : Act → Act
  | .num q => .num (u * q)
  | .arr l => .arr (l.mapIdx fun j x => if genset = true ∧ j = 0 then x else u * x)

/-- The value of one name of a control. -/
def Ctrl.inUnit (u : ℚ) (genset : Bool) : Ctrl → Ctrl
  | .scalar q => .scalar (u * q)
  | .seq l => .seq (l.map (Act.inUnit u genset))

/-- A control with its energies multiplied by `u`; `genset` tells which names belong to gensets. -/
def controlIn (u : ℚ) (genset : String → Bool) (c : List (String × Ctrl)) : List (String × Ctrl) :=
  c.map fun x => (x.1, x.2.inUnit u (genset x.1))

/-- The operation on the rescaled microgrid: normalised controls are the same, energies in others are multiplied. -/
def GOp.inUnit (u : ℚ) (genset : String → Bool) : GOp → GOp
  | .run c true => .run c true
  | .run c false => .run (controlIn u genset c) false
  | .reset => .reset

/-- The module is a genset. -/
def Module.isGenset (m : Module) : Bool :=
  match m.kind with
  | .genset _ => true
  | _ => false

end Pymgrid
