import Verif.Spec.History

/-! Helper lemmas about `Space`. -/

namespace Pymgrid

theorem spread1_ne_zero (lo hi : ℚ) : spread1 lo hi ≠ 0 := by
  unfold spread1; split <;> simp_all

theorem spread1_pos_of_lt {lo hi : ℚ} (h : lo < hi) : spread1 lo hi = hi - lo := by
  unfold spread1; rw [if_neg]; linarith

theorem norm1_denorm1 (lo hi v : ℚ) : norm1 lo hi (denorm1 lo hi v) = v := by
  unfold norm1 denorm1
  have := spread1_ne_zero lo hi
  field_simp
  ring

theorem denorm1_norm1 (lo hi v : ℚ) : denorm1 lo hi (norm1 lo hi v) = v := by
  unfold norm1 denorm1
  have := spread1_ne_zero lo hi
  field_simp
  ring

theorem Space.item_vals (l : List ℚ) : (Space.item l).vals = l := by
  match l with
  | [] => rfl
  | [_] => rfl
  | _ :: _ :: _ => rfl

theorem mapBounds_length (f : ℚ → ℚ → ℚ → ℚ) :
    ∀ (lo hi v : List ℚ), v.length = lo.length → lo.length = hi.length →
      (mapBounds f lo hi v).length = v.length
  | [], [], [], _, _ => rfl
  | [], [], _ :: _, h, _ => by simp at h
  | _ :: _, [], _, _, h => by simp at h
  | [], _ :: _, _, _, h => by simp at h
  | _ :: _, _ :: _, [], h, _ => by simp at h
  | _ :: lo, _ :: hi, _ :: v, h₁, h₂ => by
    simp only [mapBounds, List.length_cons, Nat.add_right_cancel_iff] at *
    exact mapBounds_length f lo hi v h₁ h₂

theorem mapBounds_comp (f g : ℚ → ℚ → ℚ → ℚ) (h : ∀ lo hi v, f lo hi (g lo hi v) = v) :
    ∀ (lo hi v : List ℚ), v.length = lo.length → lo.length = hi.length →
      mapBounds f lo hi (mapBounds g lo hi v) = v
  | [], [], [], _, _ => rfl
  | [], [], _ :: _, h, _ => by simp at h
  | _ :: _, [], _, _, h => by simp at h
  | [], _ :: _, _, _, h => by simp at h
  | _ :: _, _ :: _, [], h, _ => by simp at h
  | _ :: lo, _ :: hi, _ :: v, h₁, h₂ => by
    simp only [mapBounds, List.length_cons, Nat.add_right_cancel_iff] at *
    rw [mapBounds_comp f g h lo hi v h₁ h₂, h]

theorem mapBounds_getElem (f : ℚ → ℚ → ℚ → ℚ) :
    ∀ (lo hi v : List ℚ) (i : Nat) (x l u : ℚ), v[i]? = some x → lo[i]? = some l → hi[i]? = some u →
      (mapBounds f lo hi v)[i]? = some (f l u x)
  | [], _, _, _, _, _, _, _, h, _ => by simp at h
  | _ :: _, [], _, _, _, _, _, _, _, h => by simp at h
  | _ :: _, _ :: _, [], _, _, _, _, h, _, _ => by simp at h
  | _ :: lo, _ :: hi, _ :: v, 0, x, l, u, h₁, h₂, h₃ => by
    simp only [List.getElem?_cons_zero, Option.some.injEq] at h₁ h₂ h₃
    subst h₁ h₂ h₃; rfl
  | _ :: lo, _ :: hi, _ :: v, i + 1, x, l, u, h₁, h₂, h₃ => by
    simp only [List.getElem?_cons_succ] at h₁ h₂ h₃
    simpa [mapBounds] using mapBounds_getElem f lo hi v i x l u h₁ h₂ h₃

theorem Space.apply_ok (f : ℚ → ℚ → ℚ → ℚ) (s : Space) (a : Act) (h : a.vals.length = s.dim) :
    s.apply f a = .ok (Space.item (mapBounds f s.low s.high a.vals)) := by
  cases a with
  | num q => simp only [Act.vals, List.length_singleton] at h; simp [Space.apply, ← h, Act.vals]
  | arr l => simp only [Act.vals] at h; simp [Space.apply, h, Act.vals]

theorem Space.apply_err (f : ℚ → ℚ → ℚ → ℚ) (s : Space) (a : Act) (h : a.vals.length ≠ s.dim) :
    s.apply f a = .error .type := by
  cases a with
  | num q => simp only [Act.vals, List.length_singleton] at h; simp [Space.apply, Ne.symm h]
  | arr l => simp only [Act.vals] at h; simp [Space.apply, h]

end Pymgrid
