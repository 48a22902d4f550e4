import Verif.Model.Callable
import Verif.Spec.Series

set_option autoImplicit false

/-! Vocabulary for user-defined forecasters. -/

namespace Pymgrid

/-- One number per row. -/
def column (ys : List ℚ) : List (List ℚ) := ys.map fun y => [y]

/-- The module that a load or renewable constructor returns for the callable `f`; `ys` is the series it stores. -/
inductive BuiltWith (f : Callable) (u horizon i : Nat) (fs : Int) (r : Bool) : Module → List ℚ → Prop
  | load {xs : List ℚ} {m : Module} (h : Module.mkLoadWith xs f u horizon i fs r = .ok m) :
      BuiltWith f u horizon i fs r m (xs.map fun x => -|x|)
  | renewable {xs : List ℚ} {m : Module} (h : Module.mkRenewableWith xs f u horizon i fs r = .ok m) :
      BuiltWith f u horizon i fs r m (xs.map fun x => |x|)

/-- The values at the steps from `i` up to the final step `fs`, which stands for the end if it is not positive. -/
def inRange (ys : List ℚ) (i : Nat) (fs : Int) : List ℚ :=
  (if fs ≤ 0 then ys else ys.take fs.toNat).drop i

/-- The part of the values in range on which a callable is tried, for the random number `u`: at least the first two, and
    never all of them. -/
def trial (u : Nat) (zs : List ℚ) : List ℚ := zs.take (2 + u % (zs.length - 2))

/-- The smallest interval that holds 0 and all values. -/
def Spans (ys : List ℚ) (lo hi : ℚ) : Prop :=
  lo ≤ 0 ∧ 0 ≤ hi ∧ (∀ y ∈ ys, lo ≤ y ∧ y ≤ hi) ∧ (lo = 0 ∨ lo ∈ ys) ∧ (hi = 0 ∨ hi ∈ ys)

/-- The numbers a result consists of. -/
inductive Carries : FRet → List ℚ → Prop
  | num (q : ℚ) : Carries (.num q) [q]
  | list (l : List ℚ) : Carries (.list l) l
  | arr1 (l : List ℚ) : Carries (.arr1 l) l
  | arr2 (rows : List (List ℚ)) : Carries (.arr2 rows) rows.flatten

/-- A single number: a Python number or an array with one entry. -/
def Single (r : FRet) (q : ℚ) : Prop := Carries r [q] ∧ r ≠ .list [q]

/-- What the documentation asks of a callable, for one sample `zs` of consecutive values: given all of them it returns one
    number per value, of the same sign or zero; or it does not accept them, and returns such a number for the last one. -/
def Tried (f : Callable) (zs : List ℚ) : Prop :=
  ∃ y x, zs.head? = some y ∧ zs.getLast? = some x ∧
    ((∃ r l, f [y] (.vec (column zs)) zs.length = .ok r ∧ Carries r l ∧ l.length = zs.length ∧
        ∀ (j : Nat) (q z : ℚ), l[j]? = some q → zs[j]? = some z → 0 ≤ q * z) ∨
      ((∃ e, f [y] (.vec (column zs)) zs.length = .error e) ∧
        ∃ r q, f [y] (.row [x]) zs.length = .ok r ∧ Single r q ∧ 0 ≤ q * x))

/-- A callable that does what the documentation asks for all inputs: given any number of values it returns an array with
    one row per value, holding a number of the same sign or zero. -/
def Honest (f : Callable) : Prop :=
  ∀ (y : ℚ) (zs : List ℚ) (n : Nat), ∃ out : List ℚ, f [y] (.vec (column zs)) n = .ok (.arr2 (column out)) ∧
    out.length = zs.length ∧ ∀ (j : Nat) (q z : ℚ), out[j]? = some q → zs[j]? = some z → 0 ≤ q * z

/-- `v` moved into the interval. -/
def clampTo (lo hi v : ℚ) : ℚ := max lo (min hi v)

/-- The predictions `out` as they have to appear in a forecast with `h` rows: moved into the bounds, and followed by the
    middle of the bounds. -/
def presented (lo hi : ℚ) (h : Nat) (out : List ℚ) : List ℚ :=
  out.map (clampTo lo hi) ++ List.replicate (h - out.length) ((lo + hi) / 2)

/-- The next `h` values after step `c`, or as many as there are. -/
def ahead (ys : List ℚ) (c h : Nat) : List ℚ := (ys.drop (c + 1)).take h

end Pymgrid
