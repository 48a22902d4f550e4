import Verif.Model.Equality
import Verif.Spec.History
import Verif.Spec.Library

set_option autoImplicit false

/-! Specification for C101: what equality has to mean. -/

namespace Pymgrid

/-- Functions that compare equal do the same; this holds for Python functions, which are equal only to themselves. -/
structure Ident.Sound (i : Ident) : Prop where
  transition : ∀ f f', i.transition f f' = true → f = f'
  cost : ∀ f f', i.cost f f' = true → f = f'
  trajectory : ∀ f f', i.trajectory f f' = true → f = f'

/-- Every object is equal to itself. -/
structure Ident.Refl (i : Ident) : Prop where
  transition : ∀ f, i.transition f f = true
  cost : ∀ f, i.cost f f = true
  param : ∀ k, i.param k k = true
  inner : ∀ k, i.inner k k = true
  trajectory : ∀ f, i.trajectory f f = true

/-- The two modules have identical arrays, not only close ones, and their forecasters do the same.  Says nothing about modules
    without data. -/
def SameData (a b : Module) : Prop :=
  ∀ t t', a.series? = some t → b.series? = some t' →
    t'.rows = t.rows ∧ t'.minRow = t.minRow ∧ t'.maxRow = t.maxRow ∧ t'.cur = t.cur ∧ t'.param = t.param ∧
      t'.forecaster.kind = t.forecaster.kind

/-- What calls of a module return, exceptions included. -/
def replies : Module → List MOp → List (Except Err (Option StepOut))
  | _, [] => []
  | m, .step a n :: ops => ((m.step a n).2.map some) :: replies (m.step a n).1 ops
  | m, .reset :: ops => (m.reset.2.map fun _ => none) :: replies m.reset.1 ops
  | m, op :: ops => .ok none :: replies (op.apply m) ops

/-- Two numbers no further apart than `numpy` tolerates. -/
def Near (x y : ℚ) : Prop := |x - y| ≤ 1 / 100000000 + 1 / 100000 * |y|

end Pymgrid
