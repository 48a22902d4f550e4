import Verif.Model.DataGenerator
import Verif.Spec.DataGenerator
import Mathlib.Tactic.Linarith
import Mathlib.Tactic.Ring
import Mathlib.Tactic.FieldSimp
import Mathlib.Tactic.Positivity

set_option autoImplicit false

/-! Lemmas about noisy data. -/

namespace Pymgrid.Noisy

variable {data : List ℚ}

/-! ### Status of the grid -/

theorem transitions_cons (a b : ℚ) (l : List ℚ) (x y : ℚ) :
    transitions (a :: b :: l) x y = (if a = x ∧ b = y then 1 else 0) + transitions (b :: l) x y := by
  unfold transitions
  simp only [List.tail_cons, List.zip_cons_cons, List.filter_cons, Prod.mk.injEq]
  by_cases h : a = x ∧ b = y
  · simp [h]; omega
  · simp [h]

theorem leaves_cons (a b : ℚ) (l : List ℚ) (x : ℚ) :
    leaves (a :: b :: l) x = (if a = x then 1 else 0) + leaves (b :: l) x := by
  unfold leaves
  simp only [List.dropLast_cons_cons, List.filter_cons]
  by_cases h : a = x
  · simp [h]; omega
  · simp [h]

theorem tally_eq (hb : ∀ x ∈ data, x = 1 ∨ x = 0) (t : Tally) :
    tally data t = ⟨t.n00 + transitions data 0 0, t.n01 + transitions data 0 1, t.n10 + transitions data 1 0,
      t.n11 + transitions data 1 1, t.occ0 + leaves data 0, t.occ1 + leaves data 1⟩ := by
  induction data generalizing t with
  | nil => simp [tally, transitions, leaves]
  | cons a l ih =>
    cases l with
    | nil => simp [tally, transitions, leaves]
    | cons b l =>
      rw [tally, ih (fun x hx => hb x (by simp [hx]))]
      simp only [transitions_cons, leaves_cons]
      rcases hb a (by simp) with rfl | rfl <;> rcases hb b (by simp) with rfl | rfl <;> simp [Tally.add] <;> ring_nf <;> simp

theorem leaves_eq (hb : ∀ x ∈ data, x = 1 ∨ x = 0) (a : ℚ) :
    leaves data a = transitions data a 0 + transitions data a 1 := by
  induction data with
  | nil => simp [transitions, leaves]
  | cons x l ih =>
    cases l with
    | nil => simp [transitions, leaves]
    | cons b l =>
      rw [leaves_cons, transitions_cons, transitions_cons, ih (fun x hx => hb x (by simp [hx]))]
      rcases hb b (by simp) with rfl | rfl <;> by_cases h : x = a <;> simp [h] <;> omega

theorem leaves_total (hb : ∀ x ∈ data, x = 1 ∨ x = 0) : leaves data 0 + leaves data 1 = data.length - 1 := by
  induction data with
  | nil => simp [leaves]
  | cons x l ih =>
    cases l with
    | nil => simp [leaves]
    | cons b l =>
      have := ih (fun x hx => hb x (by simp [hx]))
      rw [leaves_cons, leaves_cons]
      simp only [List.length_cons] at this ⊢
      rcases hb x (by simp) with rfl | rfl <;> simp <;> omega

theorem freq_nonneg (data : List ℚ) (a b : ℚ) : 0 ≤ freq data a b := by
  unfold freq
  split
  · split <;> simp
  · positivity

theorem freq_sum (hb : ∀ x ∈ data, x = 1 ∨ x = 0) {a : ℚ} (ha : a = 1 ∨ a = 0) : freq data a 0 + freq data a 1 = 1 := by
  unfold freq
  by_cases h : leaves data a = 0
  · simp only [h, if_true]
    rcases ha with rfl | rfl <;> simp
  · simp only [h, if_false]
    rw [← add_div, div_eq_one_iff_eq (by exact_mod_cast h), leaves_eq hb]
    push_cast
    rfl

theorem learnMarkov_ok (hb : ∀ x ∈ data, x = 1 ∨ x = 0) :
    learnMarkov data = .ok ⟨freq data 0 0, freq data 0 1, freq data 1 0, freq data 1 1, leaves data 0, leaves data 1⟩ := by
  have h0 := freq_sum hb (a := 0) (by simp)
  have h1 := freq_sum hb (a := 1) (by simp)
  have key : ∀ a, leaves data a = 0 → transitions data a 0 = 0 ∧ transitions data a 1 = 0 := by
    intro a ha
    have := leaves_eq hb a
    omega
  unfold learnMarkov
  rw [tally_eq hb]
  simp only [zero_add]
  have e0 : (if 0 < (leaves data 0 : ℚ) then ((transitions data 0 0 : ℚ) / leaves data 0, (transitions data 0 1 : ℚ) / leaves data 0)
      else (1, (transitions data 0 1 : ℚ))) = (freq data 0 0, freq data 0 1) := by
    unfold freq
    by_cases h : leaves data 0 = 0
    · simp [h, (key 0 h).2]
    · have : 0 < (leaves data 0 : ℚ) := by positivity
      simp [h, this]
  have e1 : (if 0 < (leaves data 1 : ℚ) then ((transitions data 1 0 : ℚ) / leaves data 1, (transitions data 1 1 : ℚ) / leaves data 1)
      else ((transitions data 1 0 : ℚ), 1)) = (freq data 1 0, freq data 1 1) := by
    unfold freq
    by_cases h : leaves data 1 = 0
    · simp [h, (key 1 h).1]
    · have : 0 < (leaves data 1 : ℚ) := by positivity
      simp [h, this]
  rw [e0, e1]
  simp [h0, h1]

theorem choice_ok {p0 p1 u : ℚ} (h0 : 0 ≤ p0) (h1 : 0 ≤ p1) (hs : p0 + p1 = 1) :
    choice p0 p1 u = .ok (if u < p0 then 0 else 1) := by
  unfold choice
  rw [if_neg]
  rintro (h | h | h)
  · linarith
  · linarith
  · exact h hs

/-- The values that `chain` draws. -/
theorem chain_ok (hb : ∀ x ∈ data, x = 1 ∨ x = 0) (u : Nat → ℚ) {a b : ℚ} (n j : Nat) {s : ℚ} (hs : s = 1 ∨ s = 0) :
    ∃ l, chain ⟨freq data 0 0, freq data 0 1, freq data 1 0, freq data 1 1, a, b⟩ u n j s = .ok l ∧ l.length = n ∧
      ∀ i, i < n → l[i]? = some (if u (j + i) < freq data ((s :: l).getD i 0) 0 then 0 else 1) := by
  induction n generalizing j s with
  | zero => exact ⟨[], rfl, rfl, by simp⟩
  | succ n ih =>
    have hch : (if s = 0 then choice (freq data 0 0) (freq data 0 1) (u j) else choice (freq data 1 0) (freq data 1 1) (u j)) =
        .ok (if u j < freq data s 0 then 0 else 1) := by
      rcases hs with rfl | rfl
      · rw [if_neg (by norm_num), choice_ok (freq_nonneg _ _ _) (freq_nonneg _ _ _) (freq_sum hb (by simp))]
      · rw [if_pos rfl, choice_ok (freq_nonneg _ _ _) (freq_nonneg _ _ _) (freq_sum hb (by simp))]
    obtain ⟨l, e, hl, hi⟩ := ih (j + 1) (s := if u j < freq data s 0 then 0 else 1) (by split <;> simp)
    refine ⟨(if u j < freq data s 0 then 0 else 1) :: l, ?_, by simp [hl], ?_⟩
    · simp only [chain, hch, e]
    · intro i hin
      cases i with
      | zero => simp
      | succ i =>
        rw [List.getElem?_cons_succ, hi i (by omega), List.getD_cons_succ]
        congr 3
        ring_nf

theorem sampleGrid_markov (hb : ∀ x ∈ data, x = 1 ∨ x = 0) (hn : 2 ≤ data.length) (u : Nat → ℚ) :
    ∃ s, sampleGrid .markov data u = .ok s ∧ DrawnLike data u s := by
  have ht := leaves_total hb
  have hq : (leaves data 0 : ℚ) + leaves data 1 = (data.length : ℚ) - 1 := by
    rw [← Nat.cast_add, ht, Nat.cast_sub (by omega)]; simp
  have hpos : 0 < (leaves data 0 : ℚ) + leaves data 1 := by
    rw [hq]
    have : (2 : ℚ) ≤ data.length := by exact_mod_cast hn
    linarith
  have hc : choice ((leaves data 0 : ℚ) / (leaves data 0 + leaves data 1)) ((leaves data 1 : ℚ) / (leaves data 0 + leaves data 1))
      (u 0) = .ok (if u 0 < leaves data 0 / ((data.length : ℚ) - 1) then 0 else 1) := by
    rw [choice_ok (by positivity) (by positivity) (by rw [← add_div, div_self hpos.ne']), hq]
  obtain ⟨l, e, hl, hi⟩ := chain_ok hb u (a := leaves data 0) (b := leaves data 1) (data.length - 1) 1
    (s := if u 0 < leaves data 0 / ((data.length : ℚ) - 1) then 0 else 1) (by split <;> simp)
  refine ⟨(if u 0 < leaves data 0 / ((data.length : ℚ) - 1) then 0 else 1) :: l, ?_, ?_, ?_, ?_⟩
  · unfold sampleGrid
    rw [if_neg (not_not.mpr hb)]
    simp only [learnMarkov_ok hb]
    rw [if_neg hpos.ne', hc]
    simp only [e]
  · simp only [List.length_cons, hl]; omega
  · simp
  · intro i hlt
    simp only [List.length_cons] at hlt
    rw [List.getElem?_cons_succ, hi i (by omega), Nat.add_comm 1 i]

/-! ### Loops -/

theorem mapM_ok {α β : Type} {f : α → Except Err β} {l : List α} {r : List β} (h : l.mapM f = .ok r) :
    r.length = l.length ∧ ∀ (i : Nat) (a : α), l[i]? = some a → ∃ b, r[i]? = some b ∧ f a = .ok b := by
  induction l generalizing r with
  | nil =>
    simp only [List.mapM_nil] at h
    obtain rfl := Except.ok.inj h
    simp
  | cons x l ih =>
    rw [List.mapM_cons] at h
    cases hx : f x with
    | error e => rw [hx] at h; cases h
    | ok b =>
      rw [hx] at h
      cases hl : l.mapM f with
      | error e => rw [hl] at h; cases h
      | ok r' =>
        rw [hl] at h
        obtain rfl := Except.ok.inj h
        obtain ⟨h1, h2⟩ := ih hl
        refine ⟨by simp [h1], ?_⟩
        intro i a hi
        cases i with
        | zero => simp at hi; subst hi; exact ⟨b, by simp, hx⟩
        | succ i => simpa using h2 i a (by simpa using hi)

theorem mapM_total {α β : Type} {f : α → Except Err β} {l : List α} (h : ∀ a ∈ l, ∃ b, f a = .ok b) : ∃ r, l.mapM f = .ok r := by
  induction l with
  | nil => exact ⟨[], rfl⟩
  | cons x l ih =>
    obtain ⟨b, hb⟩ := h x (by simp)
    obtain ⟨r, hr⟩ := ih fun a ha => h a (by simp [ha])
    exact ⟨b :: r, by rw [List.mapM_cons, hb, hr]; rfl⟩

theorem sampleGrid_naive (hb : ∀ x ∈ data, x = 1 ∨ x = 0) (hn : data ≠ []) (u : Nat → ℚ) :
    ∃ s, sampleGrid .naive data u = .ok s ∧ s.length = data.length ∧
      ∀ i < data.length, s[i]? = some (if u i < 1 - mean data then 0 else 1) := by
  have hlen : 0 < data.length := List.length_pos_iff.mpr hn
  have hq : 0 < (data.length : ℚ) := by exact_mod_cast hlen
  have key : ∀ l : List ℚ, (∀ x ∈ l, x = 1 ∨ x = 0) → 0 ≤ l.sum ∧ l.sum ≤ l.length := by
    intro l hl
    induction l with
    | nil => simp
    | cons a l ih =>
      have := ih fun x hx => hl x (by simp [hx])
      simp only [List.sum_cons, List.length_cons]
      push_cast
      rcases hl a (by simp) with rfl | rfl <;> constructor <;> linarith
  obtain ⟨h1, h2⟩ := key data hb
  have hc : ∀ j, choice (1 - data.sum / data.length) (data.sum / data.length) (u j) =
      .ok (if u j < 1 - mean data then 0 else 1) := fun j =>
    choice_ok (by rw [sub_nonneg, div_le_one hq]; exact h2) (by positivity) (by ring)
  obtain ⟨s, hs⟩ := mapM_total (l := List.range data.length)
    (f := fun j => choice (1 - data.sum / data.length) (data.sum / data.length) (u j)) fun j _ => ⟨_, hc j⟩
  obtain ⟨hl, hi⟩ := mapM_ok hs
  refine ⟨s, ?_, by simpa using hl, ?_⟩
  · unfold sampleGrid
    rw [if_neg (not_not.mpr hb)]
    simp only
    rw [if_neg (by omega)]
    exact hs
  · intro i hlt
    obtain ⟨b, h1, h2⟩ := hi i i (by simp [hlt])
    rw [hc] at h2
    rw [h1, ← Except.ok.inj h2]

/-! ### Load -/

theorem cells_eq (n : Nat) : cells n = (List.range (24 * n)).map fun j => (j / 24, j % 24) := by
  unfold cells
  induction n with
  | zero => rfl
  | succ n ih =>
    rw [List.range_succ (n := n), List.flatMap_append, ih, Nat.mul_succ, List.range_add, List.map_append, List.map_map]
    congr 1
    simp only [List.flatMap_cons, List.flatMap_nil, List.append_nil]
    apply List.map_congr_left
    intro h hh
    rw [List.mem_range] at hh
    simp only [Function.comp, Prod.mk.injEq]
    omega

theorem filterMap_range {α : Type} (f : Nat → Option α) {n : Nat} (m : Nat) (h : n ≤ m) (hf : ∀ j, n ≤ j → f j = none) :
    (List.range m).filterMap f = (List.range n).filterMap f := by
  obtain ⟨k, rfl⟩ := Nat.exists_eq_add_of_le h
  rw [List.range_add, List.filterMap_append]
  have : (List.map (fun x => n + x) (List.range k)).filterMap f = [] := by
    rw [List.filterMap_eq_nil_iff]
    intro a ha
    obtain ⟨x, -, rfl⟩ := List.mem_map.mp ha
    exact hf _ (by omega)
  rw [this, List.append_nil]

theorem filterMap_single {α : Type} (x : Option α) {n k : Nat} (h : k < n) :
    ((List.range n).filterMap fun j => if j = k then x else none) = x.toList := by
  induction n with
  | zero => omega
  | succ n ih =>
    rw [List.range_succ, List.filterMap_append]
    by_cases hk : k = n
    · subst hk
      have : ((List.range k).filterMap fun j => if j = k then x else none) = [] := by
        rw [List.filterMap_eq_nil_iff]
        intro a ha
        rw [List.mem_range] at ha
        rw [if_neg (by omega)]
      rw [this]
      cases x <;> simp
    · rw [ih (by omega)]
      simp [Ne.symm hk]

theorem days_covers (n : Nat) : n ≤ 24 * days n := by unfold days; omega

theorem group_eq (data : List ℚ) (i : Nat) : group data (i / 24 % 7) (i % 24) = weekly data i := by
  have h1 : weekly data i = (List.range data.length).filterMap fun j => if j % 168 = i % 168 then data[j]? else none := by
    unfold weekly
    rw [← List.filterMap_eq_map, List.filterMap_filter]
    apply List.filterMap_congr
    intro j hj
    rw [List.mem_range] at hj
    by_cases h : j % 168 = i % 168
    · simp [h, List.getElem?_eq_getElem hj]
    · simp [h]
  rw [h1, ← filterMap_range _ (24 * days data.length) (days_covers _) (by
    intro j hj
    rw [List.getElem?_eq_none (by omega)]
    simp)]
  unfold group
  rw [List.filterMap_filter]
  generalize days data.length = D
  induction D with
  | zero => rfl
  | succ n ih =>
    rw [List.range_succ, List.filterMap_append, ih, Nat.mul_succ, List.range_add, List.filterMap_append, List.filterMap_map]
    congr 1
    simp only [List.filterMap_cons, List.filterMap_nil, decide_eq_true_eq]
    by_cases hn : n % 7 = i / 24 % 7
    · have e : ∀ h ∈ List.range 24, ((fun j => if j % 168 = i % 168 then data[j]? else none) ∘ fun x => 24 * n + x) h =
          (fun h => if h = i % 24 then data[24 * n + i % 24]? else none) h := by
        intro h hh
        rw [List.mem_range] at hh
        simp only [Function.comp]
        by_cases he : h = i % 24
        · subst he
          rw [if_pos (by omega), if_pos rfl]
        · rw [if_neg (by omega), if_neg he]
      rw [List.filterMap_congr e, filterMap_single _ (by omega)]
      simp only [hn, if_true]
      cases data[24 * n + i % 24]? <;> simp
    · simp only [hn, if_false]
      symm
      rw [List.filterMap_eq_nil_iff]
      intro h hh
      rw [List.mem_range] at hh
      simp only [Function.comp]
      rw [if_neg (by omega)]

theorem weekly_ne {i : Nat} (h : i < data.length) : weekly data i ≠ [] := by
  apply List.ne_nil_of_mem (a := data.getD i 0)
  unfold weekly
  rw [List.mem_map]
  exact ⟨i, by simp [h], rfl⟩

theorem weekly_mem {i : Nat} {x : ℚ} (h : x ∈ weekly data i) : x ∈ data := by
  unfold weekly at h
  obtain ⟨j, hj, rfl⟩ := List.mem_map.mp h
  rw [List.mem_filter, List.mem_range] at hj
  rw [List.getD_eq_getElem?_getD, List.getElem?_eq_getElem hj.1]
  exact List.getElem_mem _

theorem sum_nonneg_of {l : List ℚ} (h : ∀ x ∈ l, 0 ≤ x) : 0 ≤ l.sum := by
  induction l with
  | nil => simp
  | cons a l ih =>
    rw [List.sum_cons]
    exact add_nonneg (h a (by simp)) (ih fun x hx => h x (by simp [hx]))

theorem foldl_min_mem (l : List ℚ) (x : ℚ) : l.foldl min x ∈ x :: l := by
  induction l generalizing x with
  | nil => simp
  | cons a l ih =>
    rw [List.foldl_cons]
    have := ih (min x a)
    rcases min_choice x a with h | h <;> rw [h] at this ⊢ <;> simp only [List.mem_cons] at this ⊢ <;> tauto

theorem foldl_min_le (l : List ℚ) (x : ℚ) : ∀ y ∈ x :: l, l.foldl min x ≤ y := by
  induction l generalizing x with
  | nil => simp
  | cons a l ih =>
    rw [List.foldl_cons]
    intro y hy
    rcases List.mem_cons.mp hy with rfl | hy
    · exact (ih (min y a) _ List.mem_cons_self).trans (min_le_left _ _)
    · rcases List.mem_cons.mp hy with rfl | hy
      · exact (ih (min x y) _ List.mem_cons_self).trans (min_le_right _ _)
      · exact ih _ y (List.mem_cons_of_mem _ hy)

theorem checkLoad_ok {xs : List ℚ} (hne : data ≠ []) (hb : ∀ x ∈ data, 0 ≤ x) :
    ∃ v, (v ∈ data ∧ ∀ x ∈ data, v ≤ x) ∧ checkLoad data xs = .ok (xs.map fun x => if x < 0 then v else x) := by
  cases data with
  | nil => exact absurd rfl hne
  | cons a l =>
    refine ⟨l.foldl min a, ⟨foldl_min_mem l a, foldl_min_le l a⟩, ?_⟩
    unfold checkLoad
    simp only [listMin]
    rw [if_pos]
    intro y hy
    obtain ⟨x, -, rfl⟩ := List.mem_map.mp hy
    split
    · exact hb _ (foldl_min_mem l a)
    · linarith

/-- What a sample of the load is. -/
theorem sampleLoad_ok {sd : List ℚ → ℚ} {loads : List ℚ} {scale : ℚ} {z : Nat → Nat → ℚ} (hsd : ∀ l, 0 ≤ sd l)
    (hsc : 0 ≤ scale) (hne : loads ≠ []) (hb : ∀ x ∈ loads, 0 ≤ x) (hd : 24 ∣ loads.length) :
    ∃ v ys, sampleLoad sd loads scale z = .ok ys ∧ (v ∈ loads ∧ ∀ x ∈ loads.take 8760, v ≤ x) ∧ ys.length = min 8760 loads.length ∧
      ∀ i, i < min 8760 loads.length → ys[i]? = some
        (if mean (weekly (loads.take 8760) i) + scale * std sd (weekly (loads.take 8760) i) * z (i / 24) (i % 24) < 0 then v
          else mean (weekly (loads.take 8760) i) + scale * std sd (weekly (loads.take 8760) i) * z (i / 24) (i % 24)) := by
  have hlen : (loads.take 8760).length = min 8760 loads.length := List.length_take
  have hpos : 0 < loads.length := List.length_pos_iff.mpr hne
  have hdv : 24 * days (loads.take 8760).length = min 8760 loads.length := by
    rw [hlen]; unfold days; omega
  have hstd : ∀ l, 0 ≤ std sd l := by
    intro l; unfold std; split
    · exact le_refl _
    · exact hsd l
  obtain ⟨v, hv, hck⟩ := checkLoad_ok (data := loads.take 8760)
    (xs := (cells (days (loads.take 8760).length)).filterMap fun c =>
      (mean? (group (loads.take 8760) (c.1 % 7) c.2)).map fun m =>
        m + scale * std sd (group (loads.take 8760) (c.1 % 7) c.2) * z c.1 c.2)
    (by
      intro h0
      rw [h0] at hlen
      simp only [List.length_nil] at hlen
      omega)
    (fun x hx => hb x (List.mem_of_mem_take hx))
  have hx : ((cells (days (loads.take 8760).length)).filterMap fun c =>
      (mean? (group (loads.take 8760) (c.1 % 7) c.2)).map fun m =>
        m + scale * std sd (group (loads.take 8760) (c.1 % 7) c.2) * z c.1 c.2) =
      (List.range (min 8760 loads.length)).map fun i => mean (weekly (loads.take 8760) i) +
        scale * std sd (weekly (loads.take 8760) i) * z (i / 24) (i % 24) := by
    rw [cells_eq, List.filterMap_map, hdv, ← List.filterMap_eq_map]
    apply List.filterMap_congr
    intro i hi
    rw [List.mem_range] at hi
    simp only [Function.comp, group_eq]
    have hw : (weekly (loads.take 8760) i).length ≠ 0 := by
      have := weekly_ne (data := loads.take 8760) (i := i) (by omega)
      simpa using this
    simp [mean?, hw, mean]
  rw [hx] at hck
  refine ⟨v, ((List.range (min 8760 loads.length)).map fun i => mean (weekly (loads.take 8760) i) +
        scale * std sd (weekly (loads.take 8760) i) * z (i / 24) (i % 24)).map fun x => if x < 0 then v else x, ?_,
    ⟨List.mem_of_mem_take hv.1, hv.2⟩, ?_, ?_⟩
  · unfold sampleLoad
    simp only
    rw [if_neg]
    · rw [hx]; exact hck
    · rintro ⟨c, -, hc⟩
      have := mul_nonneg hsc (hstd (group (loads.take 8760) (c.1 % 7) c.2))
      linarith
  · simp
  · intro i hi
    rw [List.getElem?_map, List.getElem?_map, List.getElem?_range hi]
    rfl

/-! ### Photovoltaics -/

theorem firstGap_ok {l : List Nat} (hl : l.Pairwise (· < ·)) {a b : Nat} (h : firstGap l = .ok (a, b)) :
    a ∈ l ∧ b ∈ l ∧ a + 1 < b ∧ ∀ x ∈ l, x ≤ a ∨ b ≤ x := by
  induction l with
  | nil => cases h
  | cons x l ih =>
    cases l with
    | nil => cases h
    | cons y l =>
      rw [firstGap] at h
      rw [List.pairwise_cons] at hl
      have hxy := hl.1 y (by simp)
      by_cases hg : x + 1 ≠ y
      · rw [if_pos hg] at h
        simp only [Except.ok.injEq, Prod.mk.injEq] at h
        obtain ⟨rfl, rfl⟩ := h
        refine ⟨by simp, by simp, by omega, ?_⟩
        intro z hz
        rcases List.mem_cons.mp hz with rfl | hz
        · exact .inl le_rfl
        · rcases List.mem_cons.mp hz with rfl | hz
          · exact .inr le_rfl
          · have := (List.pairwise_cons.mp hl.2).1 z hz
            exact .inr this.le
      · rw [if_neg hg] at h
        obtain ⟨h1, h2, h3, h4⟩ := ih hl.2 h
        refine ⟨by simp [h1], by simp [h2], h3, ?_⟩
        intro z hz
        rcases List.mem_cons.mp hz with rfl | hz
        · have := hl.1 a h1
          exact .inl this.le
        · exact h4 z hz

theorem firstGap_total {l : List Nat} (hl : l.Pairwise (· < ·)) {a y b : Nat} (ha : a ∈ l) (hb : b ∈ l) (h1 : a ≤ y) (h2 : y ≤ b)
    (hy : y ∉ l) : ∃ r, firstGap l = .ok r := by
  induction l generalizing a with
  | nil => simp at ha
  | cons x l ih =>
    rw [List.pairwise_cons] at hl
    have hxy : y ≠ x := fun h => hy (by simp [h])
    have hbl : b ∈ l := by
      rcases List.mem_cons.mp hb with rfl | h
      · exfalso
        rcases List.mem_cons.mp ha with rfl | h
        · omega
        · have := hl.1 a h
          omega
      · exact h
    cases l with
    | nil => simp at hbl
    | cons z l =>
      rw [firstGap]
      by_cases hg : x + 1 ≠ z
      · exact ⟨_, if_pos hg⟩
      · rw [if_neg hg]
        have hz := hl.1 z (by simp)
        refine ih hl.2 (a := z) (by simp) hbl ?_ (fun h => hy (by simp [h]))
        rcases List.mem_cons.mp ha with rfl | h
        · omega
        · have := hl.1 a h
          omega

/-- The hours without light of a day. -/
theorem dawnDusk_ok {d a b : Nat} (h : dawnDusk data d = .ok (a, b)) :
    a + 1 < b ∧ b ≤ 23 ∧ ∀ x, x < 24 → data[24 * d + x]? = some 0 → x ≤ a ∨ b ≤ x := by
  unfold dawnDusk at h
  split at h
  · cases h
  · split at h
    · cases h
    · obtain ⟨-, h2, h3, h4⟩ := firstGap_ok (List.pairwise_lt_range.filter _) h
      rw [List.mem_filter, List.mem_range] at h2
      refine ⟨h3, by omega, fun x hx hd => h4 x ?_⟩
      rw [List.mem_filter, List.mem_range]
      exact ⟨hx, by simpa using hd⟩

theorem Daylight.dawnDusk (h : Daylight data) {d : Nat} (hd : 24 * d < data.length) : ∃ r, dawnDusk data d = .ok r := by
  obtain ⟨h0, h23⟩ := h.midnight d hd
  obtain ⟨y, hy, hl⟩ := h.light d hd
  unfold Noisy.dawnDusk
  rw [if_neg (not_not.mpr h0), if_neg (not_not.mpr h23)]
  refine firstGap_total (List.pairwise_lt_range.filter _) (a := 0) (b := 23) (y := y) ?_ ?_ (by omega) (by omega) ?_
  · rw [List.mem_filter]; simpa using h0
  · rw [List.mem_filter]; simpa using h23
  · rw [List.mem_filter]
    rintro ⟨-, h'⟩
    exact hl (by simpa using h')

theorem dawnDusk_dark {d a b : Nat} (h : dawnDusk data d = .ok (a, b)) :
    data[24 * d + a]? = some 0 ∧ data[24 * d + b]? = some 0 ∧ a < b := by
  unfold dawnDusk at h
  split at h
  · cases h
  · split at h
    · cases h
    · obtain ⟨h1, h2, h3, -⟩ := firstGap_ok (List.Pairwise.filter _ List.pairwise_lt_range) h
      rw [List.mem_filter, decide_eq_true_eq] at h1 h2
      exact ⟨h1.2, h2.2, by omega⟩

theorem parabola_dark {a b h : Nat} (hab : a + 1 < b) (hh : h ≤ a ∨ b ≤ h) (v : ℚ) : parabola a b v h = 0 := by
  unfold parabola
  split
  · rfl
  · rename_i hn
    simp only [not_or, not_lt, Nat.cast_le] at hn
    rcases hh with hh | hh
    · have : h = a := by omega
      subst this; simp
    · have : h = b := by omega
      subst this; simp

theorem parabola_bounds {a b : Nat} {h v : ℚ} (hab : a + 1 < b) (hv : 0 ≤ v) : 0 ≤ parabola a b v h ∧ parabola a b v h ≤ v := by
  have hq : (a : ℚ) < b := by exact_mod_cast (by omega : a < b)
  unfold parabola
  split
  · exact ⟨le_refl _, hv⟩
  · rename_i hn
    simp only [not_or, not_lt] at hn
    have hpos : 0 < (((b : ℚ) - a) / 2) ^ 2 := by
      have : 0 < ((b : ℚ) - a) / 2 := by linarith
      positivity
    have h1 : 0 ≤ (h - a) * (b - h) := mul_nonneg (by linarith) (by linarith)
    have h2 : (h - a) * (b - h) / (((b : ℚ) - a) / 2) ^ 2 ≤ 1 := by
      rw [div_le_one hpos]
      nlinarith [sq_nonneg (h - (a + b) / 2)]
    have h3 : 0 ≤ (h - a) * (b - h) / (((b : ℚ) - a) / 2) ^ 2 := div_nonneg h1 hpos.le
    exact ⟨mul_nonneg hv h3, by nlinarith⟩

/-- The days of a baseline. -/
theorem parabolas_ok {curves : Nat → ℚ → ℚ × ℚ} {noise : PeakNoise} {push : Option ℚ} {u : Nat → ℚ} {base : List (List ℚ)}
    (h : parabolas curves noise push data u = .ok base) : base.length = days data.length ∧
      ∀ d < days data.length, ∃ a b v top, dawnDusk data d = .ok (a, b) ∧
        peak noise (fixBounds (curves d ((a + b) / 2)).1 (curves d ((a + b) / 2)).2) (u d) push top = .ok v ∧
        base[d]? = some ((List.range 24).map fun (h : Nat) => parabola a b v h) := by
  obtain ⟨hl, hi⟩ := mapM_ok h
  refine ⟨by simpa using hl, fun d hd => ?_⟩
  obtain ⟨row, hr, hf⟩ := hi d d (by simp [hd])
  split at hf
  · cases hf
  · rename_i a b hdd
    simp only at hf
    split at hf
    · cases hf
    · rename_i v hv
      exact ⟨a, b, v, _, hdd, hv, by rw [hr, ← Except.ok.inj hf]⟩

theorem fixBounds_ok {least most : ℚ} (h : least ≤ most) :
    0 ≤ (fixBounds least most).1 ∧ (fixBounds least most).1 ≤ (fixBounds least most).2 := by
  unfold fixBounds
  split
  · split
    · rw [max_eq_right h, min_eq_left h]; constructor <;> simp only <;> linarith
    · constructor <;> simp only <;> linarith
  · constructor <;> simp only <;> linarith

/-- With the default noise the peak lies between the curves. -/
theorem peak_uniform {b : ℚ × ℚ} {u top : ℚ} (h1 : b.1 ≤ b.2) (hu : 0 ≤ u ∧ u < 1) :
    ∃ v, peak (.uniform 0 1) b u none top = .ok v ∧ b.1 ≤ v ∧ v ≤ b.2 :=
  ⟨_, rfl, by nlinarith, by nlinarith⟩

theorem flatMap_get {α β : Type} {f : α → List β} {l : List α} (hf : ∀ a ∈ l, (f a).length = 24) (d : Nat) {h : Nat} (hh : h < 24) :
    (l.flatMap f)[24 * d + h]? = (l[d]?).bind fun a => (f a)[h]? := by
  induction l generalizing d with
  | nil => simp
  | cons x l ih =>
    have hx := hf x (by simp)
    rw [List.flatMap_cons]
    cases d with
    | zero => rw [List.getElem?_append_left (by omega)]; simp
    | succ d =>
      rw [List.getElem?_append_right (by omega), hx]
      have : 24 * (d + 1) + h - 24 = 24 * d + h := by omega
      rw [this, ih fun a ha => hf a (by simp [ha])]
      simp

theorem flatMap_length {α β : Type} {f : α → List β} {l : List α} (hf : ∀ a ∈ l, (f a).length = 24) :
    (l.flatMap f).length = 24 * l.length := by
  induction l with
  | nil => simp
  | cons x l ih =>
    rw [List.flatMap_cons, List.length_append, hf x (by simp), ih fun a ha => hf a (by simp [ha]), List.length_cons]
    omega

/-- Noise on a baseline of whole days: the values. -/
theorem noisePv_ok {base : List (List ℚ)} {ratio : Option ℚ} {z : Nat → Nat → ℚ} {pv : List ℚ}
    (h : noisePv base ratio z = .ok pv) (h24 : ∀ row ∈ base, row.length = 24) : pv.length = 24 * base.length ∧
      ∀ d x row v, x < 24 → base[d]? = some row → row[x]? = some v →
        pv[24 * d + x]? = some (max 0 (v + (ratio.getD 0) * v * z d x)) := by
  have hm : ∀ x : ℚ, (if x < 0 then 0 else x) = max 0 x := by
    intro x
    split
    · rw [max_eq_left (by linarith)]
    · rw [max_eq_right (by linarith)]
  unfold noisePv at h
  split at h
  · obtain rfl := Except.ok.inj h
    refine ⟨?_, ?_⟩
    · rw [List.length_map]
      have := flatMap_length (f := id) (l := base) (by simpa using h24)
      simpa [List.flatMap] using this
    · intro d x row v hx hr hv
      have := flatMap_get (f := id) (l := base) (by simpa using h24) d hx
      simp only [List.flatMap, List.map_id, id, hr, Option.bind_some, hv] at this
      rw [List.getElem?_map, this]
      simp [hm]
  · rename_i r
    split at h
    · cases h
    · obtain rfl := Except.ok.inj h
      have hl : ∀ a ∈ base.zipIdx, ((fun rd : List ℚ × Nat => rd.1.zipIdx.map fun xh => xh.1 + r * xh.1 * z rd.2 xh.2) a).length = 24 := by
        rintro ⟨row, i⟩ ha
        simp only [List.length_map, List.length_zipIdx]
        have := List.mem_zipIdx' ha
        exact h24 row (by rw [this.2]; exact List.getElem_mem _)
      refine ⟨?_, ?_⟩
      · rw [List.length_map, flatMap_length hl, List.length_zipIdx]
      · intro d x row v hx hr hv
        rw [List.getElem?_map, flatMap_get hl d hx]
        simp [List.getElem?_zipIdx, hr, hv, hm]

/-- A column of a table whose entries are those of a longer series. -/
theorem column_eq {α : Type} {s : List α} {f : α → ℚ} {l : List ℚ} (h : ∀ (i : Nat) (r : α), s[i]? = some r → l[i]? = some (f r)) :
    s.map f = l.take s.length := by
  apply List.ext_getElem?
  intro i
  rw [List.getElem?_map]
  cases hs : s[i]? with
  | none =>
    have := List.getElem?_eq_none_iff.mp hs
    rw [List.getElem?_eq_none (by rw [List.length_take]; omega)]
    rfl
  | some r =>
    have := (List.getElem?_eq_some_iff.mp hs).1
    rw [List.getElem?_take_of_lt this, h i r hs]
    rfl

end Pymgrid.Noisy
