import Verif.Model.Num
import Mathlib.Data.List.Nodup
import Mathlib.Algebra.BigOperators.Group.List.Basic
import Mathlib.Tactic.Ring

set_option autoImplicit false

/-! Insertion-ordered dictionaries. -/

namespace Pymgrid

variable {α β : Type} [DecidableEq α]

theorem dictGet?_none {d : List (α × β)} {k : α} : dictGet? d k = none ↔ k ∉ d.map Prod.fst := by
  induction d with
  | nil => simp [dictGet?]
  | cons x d ih =>
    obtain ⟨k', v'⟩ := x
    by_cases h : k' = k
    · simp [dictGet?, h]
    · simp [dictGet?, h, ih, Ne.symm h]

theorem dictGet?_mem {d : List (α × β)} {k : α} {v : β} (h : dictGet? d k = some v) : (k, v) ∈ d := by
  induction d with
  | nil => simp [dictGet?] at h
  | cons x d ih =>
    obtain ⟨k', v'⟩ := x
    by_cases hk : k' = k
    · subst hk
      simp only [dictGet?, if_true, Option.some.injEq] at h
      subst h
      simp
    · simp only [dictGet?, hk, if_false] at h
      exact List.mem_cons_of_mem _ (ih h)

theorem dictGet?_of_mem {d : List (α × β)} {k : α} {v : β} (hn : (d.map Prod.fst).Nodup) (h : (k, v) ∈ d) :
    dictGet? d k = some v := by
  induction d with
  | nil => simp at h
  | cons x d ih =>
    obtain ⟨k', v'⟩ := x
    simp only [List.map_cons, List.nodup_cons] at hn
    rcases List.mem_cons.mp h with h | h
    · simp only [Prod.mk.injEq] at h
      simp [dictGet?, h]
    · have : k' ≠ k := by
        rintro rfl
        exact hn.1 (List.mem_map.mpr ⟨_, h, rfl⟩)
      simp [dictGet?, this, ih hn.2 h]

theorem dictSet_new {d : List (α × β)} {k : α} (v : β) (h : k ∉ d.map Prod.fst) : dictSet d k v = d ++ [(k, v)] := by
  induction d with
  | nil => rfl
  | cons x d ih =>
    obtain ⟨k', v'⟩ := x
    simp only [List.map_cons, List.mem_cons, not_or] at h
    simp [dictSet, Ne.symm h.1, ih h.2]

theorem dictGet?_dictSet (d : List (α × β)) (k k' : α) (v : β) :
    dictGet? (dictSet d k v) k' = if k = k' then some v else dictGet? d k' := by
  induction d with
  | nil => rfl
  | cons x d ih =>
    obtain ⟨k₀, v₀⟩ := x
    by_cases h : k₀ = k
    · subst h
      by_cases h' : k₀ = k' <;> simp [dictSet, dictGet?, h']
    · by_cases h' : k₀ = k'
      · subst h'
        simp [dictSet, dictGet?, h, Ne.symm h]
      · simp [dictSet, dictGet?, h, h', ih]

theorem dictSet_keys {d : List (α × β)} {k : α} (v : β) :
    (dictSet d k v).map Prod.fst = if k ∈ d.map Prod.fst then d.map Prod.fst else d.map Prod.fst ++ [k] := by
  induction d with
  | nil => simp [dictSet]
  | cons x d ih =>
    obtain ⟨k', v'⟩ := x
    by_cases h : k' = k
    · simp [dictSet, h]
    · simp only [dictSet, h, if_false, List.map_cons, ih, List.mem_cons, Ne.symm h, false_or]
      split <;> rfl

theorem dictSet_nodup {d : List (α × β)} {k : α} (v : β) (h : (d.map Prod.fst).Nodup) :
    ((dictSet d k v).map Prod.fst).Nodup := by
  rw [dictSet_keys]
  split
  · exact h
  · rename_i hk
    rw [List.nodup_append]
    refine ⟨h, by simp, ?_⟩
    intro a ha b hb e
    simp only [List.mem_singleton] at hb
    exact hk (hb ▸ e ▸ ha)

theorem mem_dictSet {d : List (α × β)} {k : α} {v : β} {x : α × β} (h : x ∈ dictSet d k v) : x ∈ d ∨ x = (k, v) := by
  induction d with
  | nil => right; simpa [dictSet] using h
  | cons y d ih =>
    obtain ⟨k', v'⟩ := y
    by_cases hk : k' = k
    · simp only [dictSet, hk, if_true, List.mem_cons] at h
      rcases h with h | h
      · exact .inr h
      · exact .inl (List.mem_cons_of_mem _ h)
    · simp only [dictSet, hk, if_false, List.mem_cons] at h
      rcases h with h | h
      · exact .inl (by simp [h])
      · rcases ih h with h | h
        · exact .inl (List.mem_cons_of_mem _ h)
        · exact .inr h

theorem dictUpdate_nodup {d e : List (α × β)} (h : (d.map Prod.fst).Nodup) :
    ((dictUpdate d e).map Prod.fst).Nodup := by
  unfold dictUpdate
  induction e generalizing d with
  | nil => exact h
  | cons x e ih => exact ih (dictSet_nodup _ h)

theorem mem_dictUpdate {d e : List (α × β)} {x : α × β} (h : x ∈ dictUpdate d e) : x ∈ d ∨ x ∈ e := by
  unfold dictUpdate at h
  induction e generalizing d with
  | nil => exact .inl h
  | cons y e ih =>
    rcases ih h with h | h
    · rcases mem_dictSet h with h | h
      · exact .inl h
      · exact .inr (by simp [h])
    · exact .inr (List.mem_cons_of_mem _ h)

theorem dictUpdate_append {d e : List (α × β)} (he : (e.map Prod.fst).Nodup)
    (h : ∀ k ∈ e.map Prod.fst, k ∉ d.map Prod.fst) : dictUpdate d e = d ++ e := by
  unfold dictUpdate
  induction e generalizing d with
  | nil => simp
  | cons y e ih =>
    simp only [List.map_cons, List.nodup_cons] at he
    simp only [List.foldl_cons]
    rw [dictSet_new _ (h _ (by simp)), ih he.2]
    · simp
    · intro k hk
      simp only [List.map_append, List.map_cons, List.map_nil, List.mem_append, List.mem_singleton, not_or]
      exact ⟨h k (by simp [hk]), fun e' => he.1 (e' ▸ hk)⟩

/-- The last dictionary that has a key decides its value. -/
theorem dictGet?_dictUpdate (d e : List (α × β)) (he : (e.map Prod.fst).Nodup) (k : α) :
    dictGet? (dictUpdate d e) k = (dictGet? e k).or (dictGet? d k) := by
  unfold dictUpdate
  induction e generalizing d with
  | nil => rfl
  | cons y e ih =>
    obtain ⟨k', v'⟩ := y
    simp only [List.map_cons, List.nodup_cons] at he
    simp only [List.foldl_cons]
    rw [ih _ he.2, dictGet?_dictSet]
    by_cases h : k' = k
    · subst h
      simp [dictGet?, dictGet?_none.mpr he.1]
    · simp [dictGet?, h]

end Pymgrid
