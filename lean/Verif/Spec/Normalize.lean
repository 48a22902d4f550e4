import Verif.Model.Normalize
import Verif.Spec.History

/-!
# What it means to normalise a whole action or observation

The element-by-element reading of C28: `Data.Entrywise R h mods d d'` says that `d'` has the shape of
`d` and that every entry of `d'` is related by `R` to the entry of `d` at the same name and index,
where `R` may look at the module that the microgrid holds there.
-/

set_option autoImplicit false

namespace Pymgrid

/-- A value that a space can normalise. -/
structure Space.Fits (s : Space) (v : Act) : Prop where
  box : s.low.length = s.high.length
  len : v.vals.length = s.low.length

/-- Every entry of the data belongs to a module of the dict, and fits its space. -/
def Data.Covered (act : Bool) (h : Heap) (mods : ModDict) (d : Data) : Prop :=
  ∀ n vs, dictGet? d n = some vs → ∃ is, dictGet? mods n = some is ∧ vs.length ≤ is.length ∧
    ∀ (j : Nat) v i, vs[j]? = some v → is[j]? = some i →
      ∃ s, (h i).spaceOf act = .ok s ∧ s.Fits v

/-- Entry-by-entry relation between two data dicts, relative to the modules. -/
def Data.Entrywise (R : Module → Act → Act → Prop) (h : Heap) (mods : ModDict) (d d' : Data) : Prop :=
  (∀ n, (dictGet? d' n).map List.length = (dictGet? d n).map List.length) ∧
  ∀ n vs ws is (j : Nat) v w i, dictGet? d n = some vs → dictGet? d' n = some ws → dictGet? mods n = some is →
    vs[j]? = some v → ws[j]? = some w → is[j]? = some i → R (h i) v w

/-- Two data dicts holding the same numbers under the same names and indices; key order and the
    difference between a number and an array of one number do not matter. -/
def Data.Same (d d' : Data) : Prop :=
  ∀ n, (dictGet? d' n).map (List.map Act.vals) = (dictGet? d n).map (List.map Act.vals)

/-- Data that covers a dict of spaces: as many names as there are names with spaces, every name
    known, every entry fitting the space at its index. -/
def Spaces.Covered (d : List (String × List Space)) (v : Data) : Prop :=
  (v.map Prod.fst).Nodup ∧ v.length = (d.filter (fun ns => !ns.2.isEmpty)).length ∧
  ∀ n xs, dictGet? v n = some xs → ∃ ss, dictGet? d n = some ss ∧ ss ≠ [] ∧ xs.length ≤ ss.length ∧
    ∀ (j : Nat) x s, xs[j]? = some x → ss[j]? = some s → s.Fits x

/-- Entry-by-entry relation between two data dicts, relative to a dict of spaces. -/
def Spaces.Entrywise (R : Space → Act → Act → Prop) (d : List (String × List Space)) (v w : Data) : Prop :=
  w.map Prod.fst = v.map Prod.fst ∧
  ∀ n xs ss, dictGet? v n = some xs → dictGet? d n = some ss → ∃ ys, dictGet? w n = some ys ∧
    ys.length = xs.length ∧
    ∀ (j : Nat) x s y, xs[j]? = some x → ss[j]? = some s → ys[j]? = some y → R s x y

end Pymgrid
