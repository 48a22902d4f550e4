import Verif.Spec.GridSerialize
import Verif.Spec.Ledger

set_option autoImplicit false

/-! Specification for C87. -/

namespace Pymgrid

/-- Two renewable modules at the same step of episodes of the same length, the second with at least as much energy in
    every step.  Everything else - forecaster, horizon, log - may differ. -/
inductive Sunnier (m m' : Module) : Prop
  | mk {t t' : TS} (kind : m.kind = .renewable t) (kind' : m'.kind = .renewable t')
      (initialStep : m'.initialStep = m.initialStep) (currentStep : m'.currentStep = m.currentStep)
      (finalStep : t'.finalStep = t.finalStep) (length : t'.rows.length = t.rows.length)
      (more : ∀ c, t.cell c 0 ≤ t'.cell c 0)

/-- A flexible grid charges for its emissions, if at all, rather than paying for them. -/
def Module.FairFlex (m : Module) : Prop := m.ffc = .flex → ∀ p t, m.kind = .grid p t → 0 ≤ p.costPerCo2

/-- If the first call succeeded, so did the second, with at least the reward and the same done flag. -/
def NoWorse (a b : Except Err (Option RunOut)) : Prop :=
  (a = .ok none → b = .ok none) ∧
    ∀ o, a = .ok (some o) → ∃ o', b = .ok (some o') ∧ o.reward ≤ o'.reward ∧ o'.done = o.done

/-- What the calls earned altogether. -/
def earned (l : List (Except Err (Option RunOut))) : ℚ :=
  (l.map fun x => match x with
    | .ok (some o) => o.reward
    | _ => 0).sum

end Pymgrid
