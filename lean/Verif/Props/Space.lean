import Verif.Lemmas.Space

/-!
# C27: normalisation round trips

`Act.vals` lists the numbers of a scalar or array value.
-/

namespace Pymgrid

/-- C27, first round trip: normalising any value of the right length and denormalising the result
    gives the value back. -/
theorem C27_denormalize_normalize (s : Space) (hs : s.low.length = s.high.length) (v : Act)
    (hv : v.vals.length = s.low.length) :
    ∃ a b, s.normalize v = .ok a ∧ s.denormalize a = .ok b ∧ b.vals = v.vals := by
  refine ⟨_, _, Space.apply_ok _ s v hv, Space.apply_ok _ s _ ?_, ?_⟩
  · rw [Space.item_vals, mapBounds_length _ _ _ _ hv hs]; exact hv
  · rw [Space.item_vals, Space.item_vals, mapBounds_comp _ _ denorm1_norm1 _ _ _ hv hs]

/-- C27, second round trip: denormalising any value of the right length and normalising the result
    gives the value back. -/
theorem C27_normalize_denormalize (s : Space) (hs : s.low.length = s.high.length) (v : Act)
    (hv : v.vals.length = s.low.length) :
    ∃ a b, s.denormalize v = .ok a ∧ s.normalize a = .ok b ∧ b.vals = v.vals := by
  refine ⟨_, _, Space.apply_ok _ s v hv, Space.apply_ok _ s _ ?_, ?_⟩
  · rw [Space.item_vals, mapBounds_length _ _ _ _ hv hs]; exact hv
  · rw [Space.item_vals, Space.item_vals, mapBounds_comp _ _ norm1_denorm1 _ _ _ hv hs]

/-- C27, wrong length: both directions raise `TypeError`. -/
theorem C27_wrong_length (s : Space) (v : Act) (hv : v.vals.length ≠ s.low.length) :
    s.normalize v = .error .type ∧ s.denormalize v = .error .type :=
  ⟨Space.apply_err _ s v hv, Space.apply_err _ s v hv⟩

/-- C27, range: a component lies within its (non-degenerate) bounds iff its normalised value lies in
    `[0,1]`; the lower bound maps to 0, the upper bound to 1. -/
theorem C27_range (s : Space) (v a : Act)
    (hv : v.vals.length = s.low.length) (ha : s.normalize v = .ok a)
    (i : Nat) (x l u : ℚ) (hx : v.vals[i]? = some x) (hl : s.low[i]? = some l)
    (hu : s.high[i]? = some u) (hlu : l < u) :
    ∃ y, a.vals[i]? = some y ∧ ((l ≤ x ∧ x ≤ u) ↔ (0 ≤ y ∧ y ≤ 1)) ∧ (x = l ↔ y = 0) ∧
      (x = u ↔ y = 1) := by
  have h := Space.apply_ok norm1 s v hv
  rw [Space.normalize, h] at ha
  injection ha with ha
  refine ⟨norm1 l u x, ?_, ?_, ?_, ?_⟩
  · rw [← ha, Space.item_vals]; exact mapBounds_getElem _ _ _ _ i x l u hx hl hu
  all_goals
    have hp : 0 < u - l := by linarith
    rw [norm1, spread1_pos_of_lt hlu]
  · rw [le_div_iff₀ hp, div_le_iff₀ hp]; constructor <;> rintro ⟨h1, h2⟩ <;> constructor <;> linarith
  · rw [div_eq_iff hp.ne']; constructor <;> intro h <;> linarith
  · rw [div_eq_iff hp.ne']; constructor <;> intro h <;> linarith

/-- Non-vacuity: a two-dimensional space with a degenerate component. -/
example : (⟨[0, 5], [10, 5]⟩ : Space).normalize (.arr [5, 7]) = .ok (.arr [1/2, 2]) ∧
    (⟨[0, 5], [10, 5]⟩ : Space).denormalize (.arr [1/2, 2]) = .ok (.arr [5, 7]) := by
  decide +kernel

end Pymgrid
