import Verif.Spec.GridSerialize
import Verif.Spec.Library

set_option autoImplicit false

/-! Specification for C88. -/

namespace Pymgrid

/-- From their initial steps on, the two series have the same `N` rows, and within them they end at the same step or not at
    all.  Nothing is said about other rows. -/
structure SameRows (N : Nat) (i i' : Nat) (t t' : TS) : Prop where
  rows : ∀ c < N, t'.rows[i' + c]? = t.rows[i + c]?
  there : ∀ c < N, i + c < t.rows.length
  done : ∀ c < N, t'.finalStep ≤ i' + c + 1 ↔ t.finalStep ≤ i + c + 1

/-- Two modules that a user has just built: they are the same but for the initial step and for rows that lie outside the
    window.  Forecasters and horizons may differ, too. -/
inductive SameWindow (N : Nat) (m m' : Module) : Prop
  | grid {p : GridParams} {t t' : TS} (kind : m.kind = .grid p t) (kind' : m'.kind = .grid p t')
      (ffc : m'.ffc = m.ffc) (raises : m'.raiseErrors = m.raiseErrors) (act : m'.actSpace = m.actSpace)
      (start : m.currentStep = m.initialStep) (start' : m'.currentStep = m'.initialStep)
      (rows : SameRows N m.initialStep m'.initialStep t t')
  | load {t t' : TS} (kind : m.kind = .load t) (kind' : m'.kind = .load t') (raises : m'.raiseErrors = m.raiseErrors)
      (start : m.currentStep = m.initialStep) (start' : m'.currentStep = m'.initialStep)
      (rows : SameRows N m.initialStep m'.initialStep t t')
  | renewable {t t' : TS} (kind : m.kind = .renewable t) (kind' : m'.kind = .renewable t')
      (raises : m'.raiseErrors = m.raiseErrors)
      (start : m.currentStep = m.initialStep) (start' : m'.currentStep = m'.initialStep)
      (rows : SameRows N m.initialStep m'.initialStep t t')
  | other (series : m.series? = none) (i : Nat) (same : m' = { m with initialStep := i, currentStep := i })

/-- The final step that a module takes for the argument `final_step` when its series has `len` rows. -/
def lastStep (fs : Int) (len : Nat) : Nat := if fs ≤ 0 then len else fs.toNat

/-- The two series have the same `N` items from the two initial steps on, and final steps that fall on the same item of the
    window or lie after it. -/
structure Overlap {α : Type} (N i i' : Nat) (fs fs' : Int) (xs xs' : List α) : Prop where
  items : ∀ c < N, xs'[i' + c]? = xs[i + c]?
  there : i + N ≤ xs.length
  done : ∀ c < N, lastStep fs' xs'.length ≤ i' + c + 1 ↔ lastStep fs xs.length ≤ i + c + 1

/-- At most `n` runs follow each other without a reset; `left` runs are left until the first reset. -/
def fits (n : Nat) : (left : Nat) → List GOp → Prop
  | _, [] => True
  | 0, .run _ _ :: _ => False
  | left + 1, .run _ _ :: ops => fits n left ops
  | _, .reset :: ops => fits n n ops

/-- What a run did, apart from the observation. -/
def RunOut.deeds (o : RunOut) : ℚ × Bool × List (String × List Info) := (o.reward, o.done, o.infos)

/-- What calls did, apart from observations. -/
def deeds (l : List (Except Err (Option RunOut))) : List (Except Err (Option (ℚ × Bool × List (String × List Info)))) :=
  l.map (Except.map (Option.map RunOut.deeds))

end Pymgrid
