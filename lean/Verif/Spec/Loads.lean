import Verif.Spec.GridSerialize
import Verif.Spec.Ledger

set_option autoImplicit false

/-! Specification for C96: the same demand, divided differently among the loads. -/

namespace Pymgrid

/-- Two load modules at the same step of episodes of the same length.  Everything else - the series, the forecaster, the
    horizon, the log - may differ. -/
inductive OtherLoad (m m' : Module) : Prop
  | mk {t t' : TS} (kind : m.kind = .load t) (kind' : m'.kind = .load t') (initialStep : m'.initialStep = m.initialStep)
      (currentStep : m'.currentStep = m.currentStep) (finalStep : t'.finalStep = t.finalStep)
      (length : t'.rows.length = t.rows.length)

/-- The energy that a module demands in step `c`; the series of a load is stored with negative sign. -/
def Module.demandAt (m : Module) (c : Nat) : ℚ :=
  match m.kind with
  | .load t => -(t.cell c 0)
  | _ => 0

/-- The energy that all modules demand in step `c`. -/
def totalDemand (h : Heap) (mods : List (String × Nat)) (c : Nat) : ℚ := (mods.map fun nm => (h nm.2).demandAt c).sum

/-- The name of a load. -/
def LoadName (h : Heap) (mods : List (String × Nat)) (s : String) : Prop := ∃ nm ∈ mods, nm.1 = s ∧ ∃ t, (h nm.2).kind = .load t

/-- Two dictionaries with the same names in the same order and the same entries but for those with the names in `S`. -/
def SameOff {β : Type} (S : String → Prop) (d d' : List (String × β)) : Prop :=
  List.Forall₂ (fun x x' => x'.1 = x.1 ∧ (¬ S x.1 → x'.2 = x.2)) d d'

/-- The same result: both calls raise, or reward and done flag are the same, and so are the observations and infos of all
    modules that are not loads. -/
inductive SameElse (S : String → Prop) : Except Err (Option RunOut) → Except Err (Option RunOut) → Prop
  | error (e e' : Err) : SameElse S (.error e) (.error e')
  | reset : SameElse S (.ok none) (.ok none)
  | run {o o' : RunOut} (reward : o'.reward = o.reward) (done : o'.done = o.done) (obs : SameOff S o.obs o'.obs)
      (infos : SameOff S o.infos o'.infos) : SameElse S (.ok (some o)) (.ok (some o'))

/-- The reward shaping function, if there is one, does not look at the names in `S`. -/
def LooksAway (S : String → Prop) (sh : Option Shaper) : Prop :=
  ∀ f, sh = some f → ∀ i i' c, SameOff S i i' → f i' c = f i c

end Pymgrid
