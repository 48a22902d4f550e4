import Verif.Spec.Access
import Verif.Lemmas.Container

set_option autoImplicit false

/-! The containers show what they are to show. -/

namespace Pymgrid

namespace Container

/-- The categories below a container. -/
def View.cats : View → List (FFC × SS)
  | .top => [(.fixed, .sources), (.fixed, .sinks), (.fixed, .both),
    (.flex, .sources), (.flex, .sinks), (.flex, .both),
    (.controllable, .sources), (.controllable, .sinks), (.controllable, .both)]
  | .place f => [(f, .sources), (f, .sinks), (f, .both)]
  | .dir s => [(.fixed, s), (.flex, s), (.controllable, s)]
  | .lowest f s => [(f, s)]

theorem below_eq (c : Container) (v : View) : c.below v = v.cats.map fun k => c.cat k.1 k.2 := by
  cases v <;> rfl

theorem View.cats_nodup (v : View) : v.cats.Nodup := by
  cases v <;> simp [View.cats]

theorem View.mem_cats (h : Heap) (v : View) (i : Nat) : ((h i).ffc, (h i).ss) ∈ v.cats ↔ v.shows h i = true := by
  cases v with
  | top => cases (h i).ffc <;> cases (h i).ss <;> simp [View.cats, View.shows]
  | place f => cases hs : (h i).ss <;> simp [View.cats, View.shows]
  | dir s => cases hf : (h i).ffc <;> simp [View.cats, View.shows]
  | lowest f s => simp [View.cats, View.shows]

/-- The tuples below a container are the modules that belong to it. -/
theorem below_perm (h : Heap) (mods : List (String × Nat)) (v : View) :
    (toTuples ((build h mods).below v).flatten).Perm (mods.filter fun nm => v.shows h nm.2) := by
  rw [below_eq, toTuples_flatten, List.map_map]
  have : ∀ cats : List (FFC × SS), cats.Nodup →
      (cats.map (toTuples ∘ fun k => (build h mods).cat k.1 k.2)).flatten.Perm
        (mods.filter fun nm => decide (((h nm.2).ffc, (h nm.2).ss) ∈ cats)) := by
    intro cats hn
    induction cats with
    | nil => simp
    | cons k cats ih =>
      simp only [List.nodup_cons] at hn
      simp only [List.map_cons, List.flatten_cons, Function.comp]
      refine ((cat_perm h mods k.1 k.2).append (ih hn.2)).trans ?_
      clear ih
      induction mods with
      | nil => simp
      | cons x mods ihm =>
        simp only [List.filter_cons, inCat, List.mem_cons]
        by_cases hx : ((h x.2).ffc, (h x.2).ss) = k
        · have h2 : ((h x.2).ffc, (h x.2).ss) ∉ cats := hx ▸ hn.1
          have h3 : (h x.2).ffc = k.1 ∧ (h x.2).ss = k.2 := by rw [← hx]; exact ⟨rfl, rfl⟩
          have ih' := ihm
          simp only [List.mem_cons] at ih'
          simpa [hx, hn.1, h3] using ih'
        · have h3 : ¬ ((h x.2).ffc = k.1 ∧ (h x.2).ss = k.2) := fun hh => hx (Prod.ext hh.1 hh.2)
          have ih' := ihm
          simp only [List.mem_cons] at ih'
          by_cases hc : ((h x.2).ffc, (h x.2).ss) ∈ cats
          · simp only [h3, decide_false, Bool.false_eq_true, if_false, hc, decide_true, if_true, hx, false_or]
            exact List.perm_middle.trans ((List.perm_cons _).mpr ih')
          · simpa only [h3, decide_false, Bool.false_eq_true, if_false, hc, hx, false_or] using ih'
  refine (this v.cats v.cats_nodup).trans (List.Perm.of_eq ?_)
  congr 1
  funext nm
  rw [Bool.eq_iff_iff, decide_eq_true_eq]
  exact View.mem_cats h v nm.2

theorem toList_eq (ds : List ModDict) : toList ds = (toTuples ds.flatten).map Prod.snd := by
  rw [toTuples_ids]
  unfold toList
  induction ds with
  | nil => rfl
  | cons d ds ih => simp [List.flatMap_append, ih]

theorem len_eq (c : Container) (v : View) : c.len v = (c.list v).length := by
  unfold len list toList
  induction c.below v with
  | nil => rfl
  | cons d ds ih =>
    simp only [List.map_cons, List.sum_cons, List.flatMap_cons, List.length_append, ih, Nat.add_right_cancel_iff]
    induction d with
    | nil => rfl
    | cons x d ihd => simp only [List.map_cons, List.sum_cons, List.flatMap_cons, List.length_append, ihd]

/-- A name is below a container if a module of the container has it. -/
theorem mem_below_names {h : Heap} {mods : List (String × Nat)} {v : View} {n : String} :
    (∃ d ∈ (build h mods).below v, n ∈ d.map Prod.fst) ↔ View.named h mods v n ≠ [] := by
  constructor
  · rintro ⟨d, hd, hn⟩
    rw [below_eq, List.mem_map] at hd
    obtain ⟨k, hk, rfl⟩ := hd
    obtain ⟨⟨n', l⟩, hl, rfl⟩ := List.mem_map.mp hn
    obtain ⟨h1, h2⟩ := mem_cat.mp hl
    obtain ⟨i, hi⟩ := List.exists_mem_of_ne_nil _ h2
    rw [h1] at hi
    simp only [idsOf, List.mem_map, List.mem_filter, inCat, Bool.and_eq_true, decide_eq_true_eq] at hi
    obtain ⟨x, ⟨hx, ⟨hf, hs⟩, hnm⟩, -⟩ := hi
    apply List.ne_nil_of_mem (a := x.2)
    simp only [View.named, List.mem_map, List.mem_filter, Bool.and_eq_true, decide_eq_true_eq]
    refine ⟨x, ⟨hx, ?_, hnm⟩, rfl⟩
    rw [← View.mem_cats, hf, hs]
    exact hk
  · intro hne
    obtain ⟨i, hi⟩ := List.exists_mem_of_ne_nil _ hne
    simp only [View.named, List.mem_map, List.mem_filter, Bool.and_eq_true, decide_eq_true_eq] at hi
    obtain ⟨x, ⟨hx, hs, rfl⟩, -⟩ := hi
    rw [← View.mem_cats] at hs
    refine ⟨(build h mods).cat (h x.2).ffc (h x.2).ss, ?_, ?_⟩
    · rw [below_eq, List.mem_map]
      exact ⟨_, hs, rfl⟩
    · refine List.mem_map.mpr ⟨(x.1, idsOf h mods (h x.2).ffc (h x.2).ss x.1), mem_cat.mpr ⟨rfl, ?_⟩, rfl⟩
      apply List.ne_nil_of_mem (a := x.2)
      simp only [idsOf, List.mem_map, List.mem_filter, inCat, Bool.and_eq_true, decide_eq_true_eq]
      exact ⟨x, ⟨hx, ⟨rfl, rfl⟩, rfl⟩, rfl⟩

/-- Keys of the combined dictionary. -/
theorem toDict_keys {ds : List ModDict} {n : String} : n ∈ (toDict ds).map Prod.fst ↔ ∃ d ∈ ds, n ∈ d.map Prod.fst := by
  induction ds using List.reverseRecOn with
  | nil => simp [toDict]
  | append_singleton ds d ih =>
    rw [toDict_cons]
    have key : ∀ (a b : ModDict), n ∈ (dictUpdate a b).map Prod.fst ↔ n ∈ a.map Prod.fst ∨ n ∈ b.map Prod.fst := by
      intro a b
      unfold dictUpdate
      induction b generalizing a with
      | nil => simp
      | cons y b ihb =>
        simp only [List.foldl_cons, List.map_cons, List.mem_cons]
        rw [ihb, dictSet_mem_keys]
        tauto
    rw [key, ih]
    constructor
    · rintro (⟨d', hd', hn⟩ | hn)
      · exact ⟨d', by simp [hd'], hn⟩
      · exact ⟨d, by simp, hn⟩
    · rintro ⟨d', hd', hn⟩
      simp only [List.mem_append, List.mem_singleton] at hd'
      rcases hd' with hd' | rfl
      · exact .inl ⟨d', hd', hn⟩
      · exact .inr hn
where
  dictSet_mem_keys {a : ModDict} {y : String × List Nat} {n : String} :
      n ∈ (dictSet a y.1 y.2).map Prod.fst ↔ n ∈ a.map Prod.fst ∨ n = y.1 := by
    induction a with
    | nil => simp [dictSet]
    | cons z a ih =>
      obtain ⟨k, v⟩ := z
      by_cases hk : k = y.1
      · subst hk
        simp only [dictSet, if_true, List.map_cons, List.mem_cons]
        tauto
      · simp only [dictSet, hk, if_false, List.map_cons, List.mem_cons, ih]
        tauto

/-- Without ambiguous names the combined dictionary has all modules with a name. -/
theorem toDict_get {h : Heap} {mods : List (String × Nat)} {v : View}
    (hu : ∀ x ∈ mods, ∀ y ∈ mods, x.1 = y.1 → (h x.2).ffc = (h y.2).ffc ∧ (h x.2).ss = (h y.2).ss) (n : String) :
    dictGet? (toDict ((build h mods).below v)) n =
      if View.named h mods v n = [] then none else some (View.named h mods v n) := by
  by_cases hne : View.named h mods v n = []
  · rw [if_pos hne, dictGet?_none, toDict_keys, mem_below_names]
    exact fun hh => hh hne
  · rw [if_neg hne]
    have hk := toDict_keys.mpr (mem_below_names.mpr hne)
    obtain ⟨⟨n', l⟩, hl, rfl⟩ := List.mem_map.mp hk
    rw [dictGet?_of_mem (toDict_nodup _) hl]
    obtain ⟨d, hd, hld⟩ := mem_toDict hl
    rw [below_eq, List.mem_map] at hd
    obtain ⟨k, hkc, rfl⟩ := hd
    obtain ⟨h1, h2⟩ := mem_cat.mp hld
    rw [h1]
    congr 1
    unfold idsOf View.named
    congr 1
    obtain ⟨i, hi⟩ := List.exists_mem_of_ne_nil _ h2
    rw [h1] at hi
    simp only [idsOf, List.mem_map, List.mem_filter, inCat, Bool.and_eq_true, decide_eq_true_eq] at hi
    obtain ⟨x, ⟨hx, ⟨hf, hs⟩, hnm⟩, -⟩ := hi
    apply List.filter_congr
    intro y hy
    rw [Bool.eq_iff_iff]
    simp only [inCat, Bool.and_eq_true, decide_eq_true_eq]
    constructor
    · rintro ⟨⟨h1, h2⟩, h3⟩
      refine ⟨?_, h3⟩
      rw [← View.mem_cats, h1, h2]
      exact hkc
    · rintro ⟨-, h3⟩
      obtain ⟨e1, e2⟩ := hu y hy x hx (h3.trans hnm.symm)
      exact ⟨⟨e1.trans hf, e2.trans hs⟩, h3⟩

end Container

end Pymgrid
