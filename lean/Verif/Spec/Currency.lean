import Verif.Model.PriorityList
import Verif.Spec.GridSerialize
import Verif.Spec.Library

set_option autoImplicit false

/-! Specification for C86: the same microgrid with all prices in another currency. -/

namespace Pymgrid

/-- A row of a grid's data with its two prices multiplied by `k`. -/
def priceRow (k : ℚ) (row : List ℚ) : List ℚ := row.mapIdx fun j x => if j < 2 then k * x else x

/-- The fuel cost multiplied by `k`. -/
def GensetCost.priced (k : ℚ) : GensetCost → GensetCost
  | .const c => .const (k * c)
  | .fn f => .fn fun x => k * f x

/-- Two forecasters for grid data in the two currencies.  No forecaster and the oracle need no change; noise has to be
    converted where it is added to prices, and a forecast function has to convert its arguments and results. -/
inductive SameForecast (k : ℚ) : FKind → FKind → Prop
  | none : SameForecast k .none .none
  | oracle : SameForecast k .oracle .oracle
  | gaussian {noise noise' : Nat → Nat → Nat → ℚ} (inc : Bool) (std : Option Nat)
      (h : ∀ d i j, noise' d i j = if j < 2 then k * noise d i j else noise d i j) :
      SameForecast k (.gaussian noise inc std) (.gaussian noise' inc std)
  | user {f f' : List ℚ → List (List ℚ) → Nat → Except Err (List (List ℚ))}
      (h : ∀ c w n, f' (priceRow k c) (w.map (priceRow k)) n = (f c w n).map (List.map (priceRow k))) :
      SameForecast k (.user f) (.user f')
  | userScalar {f f' : List ℚ → List ℚ → Nat → Except Err (List ℚ)}
      (h : ∀ c r n, f' (priceRow k c) (priceRow k r) n = (f c r n).map (priceRow k)) :
      SameForecast k (.userScalar f) (.userScalar f')

/-- Two modules built by the same call of a constructor, except that the second call has all prices multiplied by `k`. -/
inductive Repriced (k : ℚ) : Module → Module → Prop
  | battery {minC maxC maxCh maxDis eff cost : ℚ} {c s : Option ℚ} {i : Nat} {r : Bool} {m m' : Module}
      (h : Module.mkBattery minC maxC maxCh maxDis eff cost none c s i r = .ok m)
      (h' : Module.mkBattery minC maxC maxCh maxDis eff (k * cost) none c s i r = .ok m') : Repriced k m m'
  | genset {rmin rmax : ℚ} {cost : GensetCost} {c1 c2 : ℚ} {S W : Nat} {ab iu : Bool} {i : Nat} {r : Bool}
      {m m' : Module} (h : Module.mkGenset rmin rmax cost c1 c2 S W ab iu i r = .ok m)
      (h' : Module.mkGenset rmin rmax (cost.priced k) c1 (k * c2) S W ab iu i r = .ok m') : Repriced k m m'
  | grid {mi me cc : ℚ} {ncols : Nat} {rows : List (List ℚ)} {param param' : FKind} {horizon i : Nat} {fs : Int}
      {r : Bool} {m m' : Module} (hrect : ∀ r ∈ rows, r.length = ncols) (hf : SameForecast k param param')
      (h : Module.mkGrid mi me ncols rows param horizon i fs cc r = .ok m)
      (h' : Module.mkGrid mi me ncols (rows.map (priceRow k)) param' horizon i fs (k * cc) r = .ok m') : Repriced k m m'
  | load {xs : List ℚ} {param : FKind} {horizon i : Nat} {fs : Int} {r : Bool} {m : Module}
      (h : Module.mkLoad xs param horizon i fs r = .ok m) : Repriced k m m
  | renewable {xs : List ℚ} {param : FKind} {horizon i : Nat} {fs : Int} {r : Bool} {m : Module}
      (h : Module.mkRenewable xs param horizon i fs r = .ok m) : Repriced k m m
  | balancing (r : Bool) (i : Nat) (l o : ℚ) :
      Repriced k (Module.mkBalancing r i l o) (Module.mkBalancing r i (k * l) (k * o))
  | flexGrid {m m' : Module} {p : GridParams} {t : TS} (h : Repriced k m m') (hk : m.kind = .grid p t) :
      Repriced k { m with ffc := .flex } { m' with ffc := .flex }

/-- Two reward shaping functions in the two currencies, or none at all. -/
inductive SameShaper (k : ℚ) : Option Shaper → Option Shaper → Prop
  | none : SameShaper k none none
  | some {f f' : Shaper}
      (h : ∀ infos ci, f' infos (ci.map fun x => (x.1, x.2.map fun c => (k * c.1, k * c.2))) = (f infos ci).map (k * ·)) :
      SameShaper k (some f) (some f')

/-- The result of `run` with the reward multiplied by `k`. -/
def RunOut.priced (k : ℚ) (o : RunOut) : RunOut := { o with reward := k * o.reward }

/-- The element of a priority list with its marginal cost multiplied by `k`. -/
def Element.priced (k : ℚ) (e : Element) : Element := { e with cost := k * e.cost }

/-- The results of the first `n` actions of a rule-based controller; no more after an exception. -/
def RBC.story : Nat → RBC → List (Except Err RunOut)
  | 0, _ => []
  | n + 1, r =>
    match r.step with
    | (_, .error e) => [.error e]
    | (r', .ok o) => .ok o :: RBC.story n r'

end Pymgrid
