import Verif.Spec.Battery
import Verif.Spec.Series

set_option autoImplicit false

/-! Modules a user can obtain from the library. -/

namespace Pymgrid

/-- A module obtained from one of the constructors with sensible arguments, possibly turned into a flexible module
    (`GridModule.as_flex`), stepped and reset any number of times (whether or not the calls raised).
    Sensible arguments: a battery as in C01 with the default transition model, a genset with non-negative minimum
    production, a forecaster that works, and non-negative penalties. -/
inductive LibraryModule : Module → Prop
  | battery {minC maxC maxCh maxDis eff cost : ℚ} {c s : Option ℚ} {i : Nat} {r : Bool} {m : Module}
      (hm : Module.mkBattery minC maxC maxCh maxDis eff cost none c s i r = .ok m)
      (good : GoodBattery minC maxC maxCh maxDis m) : LibraryModule m
  | genset {rmin rmax : ℚ} {cost : GensetCost} {c1 c2 : ℚ} {S W : Nat} {ab iu : Bool} {i : Nat} {r : Bool}
      {m : Module} (hm : Module.mkGenset rmin rmax cost c1 c2 S W ab iu i r = .ok m) (h : 0 ≤ rmin) :
      LibraryModule m
  | series {param : FKind} {horizon i : Nat} {fs : Int} {r : Bool} {m : Module} {rows : List (List ℚ)} {k : Nat}
      (hb : BuiltSeries param horizon i fs r m rows k) (hw : param.Works k horizon) : LibraryModule m
  | balancing {r : Bool} {i : Nat} {l o : ℚ} (hl : 0 ≤ l) (ho : 0 ≤ o) :
      LibraryModule (Module.mkBalancing r i l o)
  | flexGrid {m : Module} {p : GridParams} {t : TS} (h : LibraryModule m) (hk : m.kind = .grid p t) :
      LibraryModule { m with ffc := .flex }
  | step {m : Module} (h : LibraryModule m) (a : Act) (n : Bool) : LibraryModule (m.step a n).1
  | reset {m : Module} (h : LibraryModule m) : LibraryModule m.reset.1

/-- The module still has data for its current step. -/
def Module.Live (m : Module) : Prop := ∀ t, m.series? = some t → m.currentStep < t.rows.length

/-- An action that the module documents: it denotes an amount of energy (a number or an array of the right
    length); for gensets a status request in `[0,1]` and a non-negative energy, for renewables a non-negative
    energy, for loads no production. -/
def Module.Accepts (m : Module) (a : Act) (normalized : Bool) : Prop :=
  match m.kind with
  | .genset _ => ∃ goal e, a = .arr [goal, e] ∧ 0 ≤ goal ∧ goal ≤ 1 ∧ ∃ q, m.request a normalized = .ok q ∧ 0 ≤ q
  | .load _ => ∃ q, m.request a normalized = .ok q ∧ q ≤ 0
  | .renewable _ => ∃ q, m.request a normalized = .ok q ∧ 0 ≤ q
  | _ => ∃ q, m.request a normalized = .ok q

end Pymgrid
