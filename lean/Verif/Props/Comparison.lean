import Mathlib.Tactic.Linarith
import Verif.Model.Comparison
import Verif.Spec.History

set_option autoImplicit false

/-!
# C111: elements of priority lists are totally ordered

The claim in full: of two elements with marginal costs exactly one of `a < b`, `a == b` and `a > b` holds, and `<=`, `>=` are
their unions.  The class gets `<=`, `>` and `>=` from `functools.total_ordering`, which combines `<` (costs and action numbers)
with `==` (all fields), so that the claim fails for different elements that tie.
-/

namespace Pymgrid

open PLElement

/-- The specification: what a total order makes of the six comparisons of two elements. -/
structure PLElement.Ordered (a b : PLElement) : Prop where
  /-- exactly one of the three -/
  one : (a.less b = .ok true ∧ a ≠ b ∧ a.greater b = .ok false) ∨ (a.less b = .ok false ∧ a = b ∧ a.greater b = .ok false) ∨
    (a.less b = .ok false ∧ a ≠ b ∧ a.greater b = .ok true)
  /-- `>` is `<` the other way round -/
  mirror : a.greater b = b.less a
  /-- `<=` is the contrary of `>` -/
  le : a.lessEq b = .ok true ↔ a.greater b = .ok false
  /-- `>=` is the contrary of `<` -/
  ge : a.greaterEq b = .ok true ↔ a.less b = .ok false

private theorem eq_iff (a b : PLElement) : a.eq b = true ↔ a = b := by
  cases a; cases b
  simp [PLElement.eq, and_assoc]

/-- C111: `==` compares everything. -/
theorem C111_equal (a b : PLElement) : a.eq b = true ↔ a = b := eq_iff a b

/-- C111: elements can be compared if and only if both have a marginal cost; otherwise there is a `TypeError`. -/
theorem C111_comparable (a b : PLElement) (op : PLElement → PLElement → Except Err Bool) (hop : op ∈ [less, lessEq, greater, greaterEq]) :
    (a.cost ≠ none ∧ b.cost ≠ none → ∃ r, op a b = .ok r) ∧ (a.cost = none ∨ b.cost = none → op a b = .error .type) := by
  simp only [List.mem_cons, List.not_mem_nil, or_false] at hop
  cases ha : a.cost <;> cases hb : b.cost <;> rcases hop with rfl | rfl | rfl | rfl <;>
    simp [less, lessEq, greater, greaterEq, lt?, le?, gt?, ge?, PLElement.compare, ha, hb]

private theorem less_iff {a b : PLElement} {p q : ℚ} (ha : a.cost = some p) (hb : b.cost = some q) :
    a.less b = .ok true ↔ p < q ∨ (p = q ∧ b.action < a.action) := by
  simp [less, lt?, PLElement.compare, ha, hb]

private theorem less_false {a b : PLElement} {p q : ℚ} (ha : a.cost = some p) (hb : b.cost = some q) :
    a.less b = .ok false ↔ q < p ∨ (p = q ∧ a.action ≤ b.action) := by
  simp only [less, lt?, PLElement.compare, ha, hb, Except.ok.injEq, Bool.or_eq_false_iff, decide_eq_false_iff_not, not_lt,
    Bool.and_eq_false_iff]
  rcases lt_trichotomy p q with h | h | h
  · simp [not_lt.mpr h.le, h.ne, not_le.mpr h]
  · subst h; simp
  · simp [h, h.le, h.ne']

/-- C111: `<` is a strict weak order on elements with marginal costs: it is irreflexive and transitive, and of two comparable
    elements every third one is beyond the one or the other.  Hence sorting is well defined. -/
theorem C111_weak_order (a b c : PLElement) (ha : a.cost ≠ none) (hb : b.cost ≠ none) (hc : c.cost ≠ none) :
    a.less a = .ok false ∧
    (a.less b = .ok true → b.less c = .ok true → a.less c = .ok true) ∧
    (a.less b = .ok true → a.less c = .ok true ∨ c.less b = .ok true) := by
  obtain ⟨p, hp⟩ := Option.ne_none_iff_exists'.mp ha
  obtain ⟨q, hq⟩ := Option.ne_none_iff_exists'.mp hb
  obtain ⟨s, hs⟩ := Option.ne_none_iff_exists'.mp hc
  refine ⟨(less_false hp hp).mpr (.inr ⟨rfl, le_refl _⟩), fun h1 h2 => ?_, fun h => ?_⟩
  · rw [less_iff hp hq] at h1
    rw [less_iff hq hs] at h2
    rw [less_iff hp hs]
    rcases h1 with h1 | ⟨rfl, h1⟩
    · rcases h2 with h2 | ⟨rfl, h2⟩
      · exact .inl (h1.trans h2)
      · exact .inl h1
    · rcases h2 with h2 | ⟨rfl, h2⟩
      · exact .inl h2
      · exact .inr ⟨rfl, h2.trans h1⟩
  · rw [less_iff hp hq] at h
    rw [less_iff hp hs, less_iff hs hq]
    rcases lt_trichotomy p s with h' | rfl | h'
    · exact .inl (.inl h')
    · rcases h with h | ⟨rfl, h⟩
      · exact .inr (.inl h)
      · rcases Nat.lt_or_ge c.action a.action with h'' | h''
        · exact .inl (.inr ⟨rfl, h''⟩)
        · exact .inr (.inr ⟨rfl, by omega⟩)
    · rcases h with h | ⟨rfl, -⟩
      · exact .inr (.inl (h'.trans h))
      · exact .inr (.inl h')

/-- C111, in part: elements that are the same or differ in cost or action number are ordered as the claim says.  Missing are
    different elements of the same cost and action number. -/
theorem C111_ordered_partial (a b : PLElement) (ha : a.cost ≠ none) (hb : b.cost ≠ none)
    (h : a = b ∨ a.cost ≠ b.cost ∨ a.action ≠ b.action) : a.Ordered b := by
  obtain ⟨p, hp⟩ := Option.ne_none_iff_exists'.mp ha
  obtain ⟨q, hq⟩ := Option.ne_none_iff_exists'.mp hb
  have hgt : a.greater b = .ok (!(decide (p < q) || (decide (p = q) && decide (a.action > b.action))) && !a.eq b) := by
    simp [greater, gt?, lt?, PLElement.compare, hp, hq]
  have hle : a.lessEq b = .ok ((decide (p < q) || (decide (p = q) && decide (a.action > b.action))) || a.eq b) := by
    simp [lessEq, le?, lt?, PLElement.compare, hp, hq]
  have hge : a.greaterEq b = .ok (!(decide (p < q) || (decide (p = q) && decide (a.action > b.action)))) := by
    simp [greaterEq, ge?, lt?, PLElement.compare, hp, hq]
  have hlt : a.less b = .ok (decide (p < q) || (decide (p = q) && decide (a.action > b.action))) := by
    simp [less, lt?, PLElement.compare, hp, hq]
  have hlt' : b.less a = .ok (decide (q < p) || (decide (q = p) && decide (b.action > a.action))) := by
    simp [less, lt?, PLElement.compare, hp, hq]
  by_cases he : a = b
  · subst he
    have hpq : p = q := Option.some.inj (hp.symm.trans hq)
    subst hpq
    have e : a.eq a = true := (eq_iff a a).mpr rfl
    constructor
    · simp [hlt, hgt, e]
    · simp [hlt', hgt, e]
    · simp [hle, hgt, e]
    · simp [hge, hlt]
  · have e : a.eq b = false := by
      rw [Bool.eq_false_iff]; exact fun h' => he ((eq_iff a b).mp h')
    have hd : p ≠ q ∨ a.action ≠ b.action := by
      rcases h with h | h | h
      · exact absurd h he
      · exact .inl (by rw [hp, hq] at h; simpa using h)
      · exact .inr h
    have key : (decide (q < p) || (decide (q = p) && decide (b.action > a.action))) =
        !(decide (p < q) || (decide (p = q) && decide (a.action > b.action))) := by
      rcases lt_trichotomy p q with h' | rfl | h'
      · simp [h', not_lt.mpr h'.le, h'.ne']
      · have : a.action ≠ b.action := by
          rcases hd with hd | hd
          · exact absurd rfl hd
          · exact hd
        rcases Nat.lt_or_gt_of_ne this with h'' | h''
        · simp [h'', Nat.lt_asymm h'']
        · simp [h'', Nat.lt_asymm h'']
      · simp [h', not_lt.mpr h'.le, h'.ne']
    constructor
    · rw [hlt, hgt, e]
      cases (decide (p < q) || (decide (p = q) && decide (a.action > b.action))) <;> simp [he]
    · rw [hgt, hlt', key, e]; simp
    · rw [hle, hgt, e]
      cases (decide (p < q) || (decide (p = q) && decide (a.action > b.action))) <;> simp
    · rw [hge, hlt]
      cases (decide (p < q) || (decide (p = q) && decide (a.action > b.action))) <;> simp

/-- C111 fails for different elements of the same cost and action number: each is greater than the other, neither is less than or
    equal to the other, and yet each is greater than or equal to the other. -/
theorem C111_tie (a b : PLElement) (ha : a.cost ≠ none) (hc : a.cost = b.cost) (hn : a.action = b.action) (he : a ≠ b) :
    a.greater b = .ok true ∧ b.greater a = .ok true ∧ a.less b = .ok false ∧ b.less a = .ok false ∧
    a.lessEq b = .ok false ∧ b.lessEq a = .ok false ∧ a.greaterEq b = .ok true ∧ b.greaterEq a = .ok true ∧ ¬ a.Ordered b := by
  obtain ⟨p, hp⟩ := Option.ne_none_iff_exists'.mp ha
  have hq : b.cost = some p := hc ▸ hp
  have e : a.eq b = false := by rw [Bool.eq_false_iff]; exact fun h' => he ((eq_iff a b).mp h')
  have e' : b.eq a = false := by rw [Bool.eq_false_iff]; exact fun h' => he ((eq_iff b a).mp h').symm
  have h1 : a.greater b = .ok true := by simp [greater, gt?, lt?, PLElement.compare, hp, hq, hn, e]
  have h2 : b.less a = .ok false := by simp [less, lt?, PLElement.compare, hp, hq, hn]
  refine ⟨h1, ?_, ?_, h2, ?_, ?_, ?_, ?_, fun h => ?_⟩
  · simp [greater, gt?, lt?, PLElement.compare, hp, hq, hn, e']
  · simp [less, lt?, PLElement.compare, hp, hq, hn]
  · simp [lessEq, le?, lt?, PLElement.compare, hp, hq, hn, e]
  · simp [lessEq, le?, lt?, PLElement.compare, hp, hq, hn, e']
  · simp [greaterEq, ge?, lt?, PLElement.compare, hp, hq, hn]
  · simp [greaterEq, ge?, lt?, PLElement.compare, hp, hq, hn]
  · have := h.mirror
    rw [h1, h2] at this
    simp at this

/-- C111: the order in which the lists of the library are sorted (`Element.lt`) is `<`. -/
theorem C111_library (a b : Element) : a.entry.less b.entry = .ok (a.lt b) := by
  simp [less, lt?, PLElement.compare, Element.entry, Element.lt, Bool.decide_or, Bool.decide_and]

/-- C111 fails for the lists of a microgrid: two batteries of the same cost have elements that tie. -/
theorem C111_tie_reached : ∃ (m n : Module) (a b : Element),
    Module.mkBattery 0 100 50 50 1 2 none (some 60) none 0 true = .ok m ∧
    Module.mkBattery 0 80 20 20 1 2 none (some 10) none 0 true = .ok n ∧
    PriorityList.moduleElements m ("battery", 0) = .ok [a] ∧ PriorityList.moduleElements n ("battery", 1) = .ok [b] ∧
    a.entry.greater b.entry = .ok true ∧ b.entry.greater a.entry = .ok true ∧ ¬ a.entry.Ordered b.entry := by
  let a : Element := ⟨("battery", 0), 1, 0, 2⟩
  let b : Element := ⟨("battery", 1), 1, 0, 2⟩
  obtain ⟨h1, h2, -, -, -, -, -, -, h3⟩ := C111_tie a.entry b.entry (by simp [Element.entry]) rfl rfl (by decide +kernel)
  exact ⟨_, _, a, b, okModule_eq (by decide +kernel), okModule_eq (by decide +kernel), by decide +kernel, by decide +kernel,
    h1, h2, h3⟩

/-- Non-vacuity of `C111_ordered_partial` and `C111_weak_order`: a cheap battery, a genset that is switched on and one that is
    not; the third has no cost. -/
example :
    let a : PLElement := ⟨("battery", 0), 1, 0, some 1⟩
    let b : PLElement := ⟨("genset", 0), 2, 1, some 3⟩
    let c : PLElement := ⟨("genset", 0), 2, 0, some 3⟩
    a.less b = .ok true ∧ b.less c = .ok true ∧ a.Ordered b ∧ b.Ordered c ∧ a.less { c with cost := none } = .error .type :=
  ⟨by decide +kernel, by decide +kernel, C111_ordered_partial _ _ (by simp) (by simp) (.inr (.inl (by decide +kernel))),
    C111_ordered_partial _ _ (by simp) (by simp) (.inr (.inr (by decide +kernel))), by decide +kernel⟩

end Pymgrid
