import Verif.Spec.History

/-!
# Vocabulary of C100

What the documentation of `BatteryModule.model_transition` and `transition_kwargs` promises to the author of a
`battery_transition_model`.
-/

namespace Pymgrid

/-- The documented keyword arguments for a battery of the given parameters with charge `ch` and state of charge `soc`. -/
def documentedArgs (minC maxC maxCh maxDis eff cost ch soc : ℚ) : TransitionArgs where
  minCapacity := minC
  maxCapacity := maxC
  maxCharge := maxCh
  maxDischarge := maxDis
  efficiency := eff
  costCycle := cost
  maxProduction := eff * min maxDis (ch - minC)
  maxConsumption := min maxCh (maxC - ch) / eff
  soc := soc
  currentCharge := ch

/-- The charge after an internal change `de` of a charge `ch`: the sum, or `min_capacity` if the sum is below it by no more than
    a rounding error. -/
inductive Landed (minC ch de : ℚ) : ℚ → Prop
  | inside (h : minC ≤ ch + de) : Landed minC ch de (ch + de)
  | snapped (h : ch + de < minC) (near : minC - (ch + de) ≤ 1/100000000 + 1/100000 * |minC|) : Landed minC ch de minC

/-- A transition model that, for a battery with these parameters, discharges for negative requests and charges for others, and
    keeps the charge in the window as long as requests are within the limits which it is told. -/
structure SoundModel (minC maxC maxCh maxDis eff cost : ℚ) (f : ℚ → TransitionArgs → ℚ) : Prop where
  discharge : ∀ ch x : ℚ, minC ≤ ch → ch ≤ maxC → 0 ≤ x → x ≤ eff * min maxDis (ch - minC) →
    f (-x) (documentedArgs minC maxC maxCh maxDis eff cost ch (ch / maxC)) ≤ 0 ∧
    minC ≤ ch + f (-x) (documentedArgs minC maxC maxCh maxDis eff cost ch (ch / maxC))
  charge : ∀ ch x : ℚ, minC ≤ ch → ch ≤ maxC → 0 ≤ x → x ≤ min maxCh (maxC - ch) / eff →
    0 ≤ f x (documentedArgs minC maxC maxCh maxDis eff cost ch (ch / maxC)) ∧
    ch + f x (documentedArgs minC maxC maxCh maxDis eff cost ch (ch / maxC)) ≤ maxC

end Pymgrid
