import Verif.Lemmas.Dict
import Verif.Model.Microgrid
import Mathlib.Data.List.Perm.Basic

set_option autoImplicit false

/-! The containers hold exactly the modules they are given. -/

namespace Pymgrid

namespace Container

/-- Entry of the module list that belongs to a category. -/
def inCat (h : Heap) (f : FFC) (s : SS) (nm : String × Nat) : Bool := decide ((h nm.2).ffc = f ∧ (h nm.2).ss = s)

/-- The ids listed in a category under a name. -/
def idsOf (h : Heap) (mods : List (String × Nat)) (f : FFC) (s : SS) (n : String) : List Nat :=
  (mods.filter fun nm => inCat h f s nm && decide (nm.1 = n)).map Prod.snd

theorem build_snoc (h : Heap) (mods : List (String × Nat)) (x : String × Nat) :
    build h (mods ++ [x]) = add h (build h mods) x := by
  simp [build]

theorem idsOf_snoc (h : Heap) (mods : List (String × Nat)) (x : String × Nat) (f : FFC) (s : SS) (n : String) :
    idsOf h (mods ++ [x]) f s n =
      idsOf h mods f s n ++ (if inCat h f s x && decide (x.1 = n) then [x.2] else []) := by
  unfold idsOf
  rw [List.filter_append, List.map_append]
  congr 1
  by_cases hx : inCat h f s x && decide (x.1 = n) <;> simp [hx]

theorem append_get (d : ModDict) (n n' : String) (i : Nat) :
    dictGet? (d.append n i) n' = if n = n' then some ((dictGet? d n).getD [] ++ [i]) else dictGet? d n' := by
  unfold ModDict.append
  cases hd : dictGet? d n <;> simp [dictGet?_dictSet]

theorem append_nodup {d : ModDict} (n : String) (i : Nat) (h : (d.map Prod.fst).Nodup) :
    ((d.append n i).map Prod.fst).Nodup := by
  unfold ModDict.append
  split <;> exact dictSet_nodup _ h

theorem add_cat (h : Heap) (c : Container) (x : String × Nat) (f : FFC) (s : SS) :
    (add h c x).cat f s = if inCat h f s x then ModDict.append (c.cat f s) x.1 x.2 else c.cat f s := by
  unfold add inCat
  by_cases hc : (h x.2).ffc = f ∧ (h x.2).ss = s
  · simp [hc]
  · have hc' : ¬ (f = (h x.2).ffc ∧ s = (h x.2).ss) := fun hh => hc ⟨hh.1.symm, hh.2.symm⟩
    simp [hc, hc']

theorem cat_nodup (h : Heap) (mods : List (String × Nat)) (f : FFC) (s : SS) :
    (((build h mods).cat f s).map Prod.fst).Nodup := by
  induction mods using List.reverseRecOn with
  | nil => simp [build, empty]
  | append_singleton mods x ih =>
    rw [build_snoc, add_cat]
    split
    · exact append_nodup _ _ ih
    · exact ih

theorem cat_get (h : Heap) (mods : List (String × Nat)) (f : FFC) (s : SS) (n : String) :
    dictGet? ((build h mods).cat f s) n =
      if idsOf h mods f s n = [] then none else some (idsOf h mods f s n) := by
  induction mods using List.reverseRecOn with
  | nil => simp [build, empty, idsOf, dictGet?]
  | append_singleton mods x ih =>
    rw [build_snoc, add_cat, idsOf_snoc]
    by_cases hc : inCat h f s x
    · rw [if_pos hc, append_get]
      by_cases hn : x.1 = n
      · subst hn
        simp only [hc, decide_true, Bool.and_self, if_true, ih]
        by_cases hl : idsOf h mods f s x.1 = [] <;> simp [hl]
      · simp [hc, hn, ih]
    · simp [hc, ih]

theorem mem_cat {h : Heap} {mods : List (String × Nat)} {f : FFC} {s : SS} {n : String} {l : List Nat} :
    (n, l) ∈ (build h mods).cat f s ↔ l = idsOf h mods f s n ∧ l ≠ [] := by
  constructor
  · intro hm
    have := dictGet?_of_mem (cat_nodup h mods f s) hm
    rw [cat_get] at this
    split at this
    · simp at this
    · rename_i hne
      simp only [Option.some.injEq] at this
      exact ⟨this.symm, this ▸ hne⟩
  · rintro ⟨rfl, hne⟩
    apply dictGet?_mem
    rw [cat_get, if_neg hne]

/-- The tuples of a category are the module list restricted to it. -/
theorem cat_perm (h : Heap) (mods : List (String × Nat)) (f : FFC) (s : SS) :
    (toTuples ((build h mods).cat f s)).Perm (mods.filter (inCat h f s)) := by
  have key : ∀ (d : ModDict) (n : String) (i : Nat), (d.map Prod.fst).Nodup →
      (toTuples (d.append n i)).Perm (toTuples d ++ [(n, i)]) := by
    intro d n i
    unfold ModDict.append
    induction d with
    | nil => intro _; simp [dictGet?, dictSet, toTuples]
    | cons y d ih =>
      obtain ⟨n', l⟩ := y
      intro hn
      simp only [List.map_cons, List.nodup_cons] at hn
      by_cases hk : n' = n
      · subst hk
        simp only [dictGet?, if_true, dictSet, toTuples, List.flatMap_cons, List.map_append, List.map_cons,
          List.map_nil, List.append_assoc]
        exact (List.perm_append_left_iff _).mpr List.perm_append_comm
      · have ih' := ih hn.2
        simp only [dictGet?, hk, if_false]
        cases hd : dictGet? d n with
        | none =>
          rw [hd] at ih'
          simp only [dictSet, hk, if_false, toTuples, List.flatMap_cons, List.append_assoc]
          exact (List.perm_append_left_iff _).mpr ih'
        | some l' =>
          rw [hd] at ih'
          simp only [dictSet, hk, if_false, toTuples, List.flatMap_cons, List.append_assoc]
          exact (List.perm_append_left_iff _).mpr ih'
  induction mods using List.reverseRecOn with
  | nil => simp [build, empty, toTuples]
  | append_singleton mods x ih =>
    rw [build_snoc, add_cat, List.filter_append]
    by_cases hc : inCat h f s x
    · rw [if_pos hc]
      refine (key _ _ _ (cat_nodup h mods f s)).trans ?_
      simpa [hc] using ih.append_right [x]
    · simpa [hc] using ih

theorem toDict_cons (d : ModDict) (ds : List ModDict) : toDict (ds ++ [d]) = dictUpdate (toDict ds) d := by
  simp [toDict]

theorem toDict_nodup (ds : List ModDict) : ((toDict ds).map Prod.fst).Nodup := by
  induction ds using List.reverseRecOn with
  | nil => simp [toDict]
  | append_singleton ds d ih => rw [toDict_cons]; exact dictUpdate_nodup ih

theorem mem_toDict {ds : List ModDict} {x : String × List Nat} (h : x ∈ toDict ds) : ∃ d ∈ ds, x ∈ d := by
  induction ds using List.reverseRecOn with
  | nil => simp [toDict] at h
  | append_singleton ds d ih =>
    rw [toDict_cons] at h
    rcases mem_dictUpdate h with h | h
    · obtain ⟨d', hd', hx⟩ := ih h
      exact ⟨d', by simp [hd'], hx⟩
    · exact ⟨d, by simp, h⟩

/-- Without ambiguous names, nothing is overridden. -/
theorem toDict_flatten {ds : List ModDict} (hn : (ds.flatten.map Prod.fst).Nodup) : toDict ds = ds.flatten := by
  induction ds using List.reverseRecOn with
  | nil => rfl
  | append_singleton ds d ih =>
    rw [List.flatten_append, List.map_append, List.nodup_append] at hn
    simp only [List.flatten_cons, List.flatten_nil, List.append_nil] at hn
    obtain ⟨h1, h2, h3⟩ := hn
    rw [toDict_cons, ih h1, dictUpdate_append h2]
    · simp
    · intro k hk hk'
      exact h3 k hk' k hk rfl

theorem toTuples_append (a b : ModDict) : toTuples (a ++ b) = toTuples a ++ toTuples b := by
  simp [toTuples]

theorem toTuples_flatten (ds : List ModDict) : toTuples ds.flatten = (ds.map toTuples).flatten := by
  induction ds with
  | nil => rfl
  | cons d ds ih => rw [List.flatten_cons, toTuples_append, ih]; rfl

theorem toTuples_ids (d : ModDict) : (toTuples d).map Prod.snd = d.flatMap Prod.snd := by
  induction d with
  | nil => rfl
  | cons x d ih => simp only [toTuples, List.flatMap_cons, List.map_append] at ih ⊢; rw [ih]; simp

/-- Every reference in a level comes from the module list and has that level. -/
theorem mem_level {h : Heap} {mods : List (String × Nat)} {f : FFC} {n : String} {i : Nat}
    (hm : (n, i) ∈ toTuples ((build h mods).levelDict f)) : (n, i) ∈ mods ∧ (h i).ffc = f := by
  simp only [toTuples, List.mem_flatMap, List.mem_map, Prod.mk.injEq] at hm
  obtain ⟨⟨n', l⟩, hx, j, hj, rfl, rfl⟩ := hm
  obtain ⟨d, hd, hxd⟩ := mem_toDict hx
  simp only [level, List.mem_cons, List.not_mem_nil, or_false] at hd
  have : ∃ s, (n', l) ∈ (build h mods).cat f s := by rcases hd with rfl | rfl | rfl <;> exact ⟨_, hxd⟩
  obtain ⟨s, hs⟩ := this
  obtain ⟨rfl, -⟩ := mem_cat.mp hs
  simp only [idsOf, List.mem_map, List.mem_filter, inCat, Bool.and_eq_true, decide_eq_true_eq] at hj
  obtain ⟨⟨n'', j'⟩, ⟨hm, ⟨hf, -⟩, rfl⟩, rfl⟩ := hj
  exact ⟨hm, hf⟩

theorem mem_all {h : Heap} {mods : List (String × Nat)} {d : ModDict} (hd : d ∈ (build h mods).all) :
    ∃ f s, d = (build h mods).cat f s := by
  simp only [all, level, List.mem_append, List.mem_cons, List.not_mem_nil, or_false] at hd
  rcases hd with (hd | hd) | hd <;> rcases hd with rfl | rfl | rfl <;> exact ⟨_, _, rfl⟩

theorem mem_full {h : Heap} {mods : List (String × Nat)} {n : String} {i : Nat}
    (hm : (n, i) ∈ toTuples (build h mods).fullDict) : (n, i) ∈ mods := by
  simp only [toTuples, List.mem_flatMap, List.mem_map, Prod.mk.injEq] at hm
  obtain ⟨⟨n', l⟩, hx, j, hj, rfl, rfl⟩ := hm
  obtain ⟨d, hd, hxd⟩ := mem_toDict hx
  obtain ⟨f, s, rfl⟩ := mem_all hd
  obtain ⟨rfl, -⟩ := mem_cat.mp hxd
  simp only [idsOf, List.mem_map, List.mem_filter, inCat, Bool.and_eq_true, decide_eq_true_eq] at hj
  obtain ⟨⟨n'', j'⟩, ⟨hm, ⟨hf, -⟩, rfl⟩, rfl⟩ := hj
  exact hm

/-- The references of a dictionary built from distinct modules are distinct. -/
theorem toTuples_nodup {h : Heap} {mods : List (String × Nat)} (hid : (mods.map Prod.snd).Nodup)
    {ds : List ModDict} (hds : ∀ d ∈ ds, ∃ f s, d = (build h mods).cat f s) :
    ((toTuples (toDict ds)).map Prod.snd).Nodup := by
  rw [toTuples_ids, List.nodup_flatMap]
  have hmem : ∀ x ∈ toDict ds, ∃ f s, x.2 = idsOf h mods f s x.1 := by
    intro x hx
    obtain ⟨d, hd, hxd⟩ := mem_toDict hx
    obtain ⟨f, s, rfl⟩ := hds d hd
    obtain ⟨e, -⟩ := (mem_cat (n := x.1) (l := x.2)).mp hxd
    exact ⟨f, s, e⟩
  constructor
  · intro x hx
    obtain ⟨f, s, e⟩ := hmem x hx
    rw [e]
    exact hid.sublist (List.filter_sublist.map _)
  · have hk := toDict_nodup ds
    rw [List.Nodup, List.pairwise_map] at hk
    refine (hk.imp_of_mem ?_)
    intro x y hx hy hne
    obtain ⟨f, s, e⟩ := hmem x hx
    obtain ⟨f', s', e'⟩ := hmem y hy
    simp only [Function.onFun]
    intro i hi hi'
    rw [e] at hi
    rw [e'] at hi'
    simp only [idsOf, List.mem_map, List.mem_filter, Bool.and_eq_true, decide_eq_true_eq] at hi hi'
    obtain ⟨⟨n, j⟩, ⟨hm, -, hn⟩, rfl⟩ := hi
    obtain ⟨⟨n', j'⟩, ⟨hm', -, hn'⟩, hj⟩ := hi'
    simp only at hn hn' hj
    subst hj
    have : (n, j') = (n', j') := List.inj_on_of_nodup_map hid hm hm' rfl
    simp only [Prod.mk.injEq, and_true] at this
    exact hne (hn.symm.trans (this.trans hn'))

theorem level_nodup {h : Heap} {mods : List (String × Nat)} (hid : (mods.map Prod.snd).Nodup) (f : FFC) :
    ((toTuples ((build h mods).levelDict f)).map Prod.snd).Nodup := by
  refine toTuples_nodup (h := h) hid ?_
  intro d hd
  simp only [level, List.mem_cons, List.not_mem_nil, or_false] at hd
  rcases hd with rfl | rfl | rfl <;> exact ⟨_, _, rfl⟩

theorem full_nodup {h : Heap} {mods : List (String × Nat)} (hid : (mods.map Prod.snd).Nodup) :
    ((toTuples (build h mods).fullDict).map Prod.snd).Nodup :=
  toTuples_nodup (h := h) hid fun _ hd => mem_all hd

/-! ### Unambiguous names -/

theorem flatten_nodup {h : Heap} {mods : List (String × Nat)} {cats : List (FFC × SS)} (hc : cats.Nodup)
    (hu : ∀ x ∈ mods, ∀ y ∈ mods, x.1 = y.1 → ((h x.2).ffc, (h x.2).ss) ∈ cats → ((h y.2).ffc, (h y.2).ss) ∈ cats →
      (h x.2).ffc = (h y.2).ffc ∧ (h x.2).ss = (h y.2).ss) :
    (((cats.map fun fs => (build h mods).cat fs.1 fs.2).flatten).map Prod.fst).Nodup := by
  rw [← List.flatMap_def, List.map_flatMap, List.nodup_flatMap]
  refine ⟨fun fs _ => cat_nodup h mods _ _, ?_⟩
  refine hc.imp_of_mem ?_
  rintro ⟨f, s⟩ ⟨f', s'⟩ hf hf' hne
  simp only [Function.onFun]
  intro n hn hn'
  simp only [List.mem_map, Prod.exists] at hn hn'
  have key : ∀ f s l, (n, l) ∈ (build h mods).cat f s → ∃ i, (n, i) ∈ mods ∧ (h i).ffc = f ∧ (h i).ss = s := by
    intro f s l hl
    obtain ⟨rfl, hne⟩ := mem_cat.mp hl
    obtain ⟨i, hi⟩ := List.exists_mem_of_ne_nil _ hne
    simp only [idsOf, List.mem_map, List.mem_filter, inCat, Bool.and_eq_true, decide_eq_true_eq] at hi
    obtain ⟨⟨n', j⟩, ⟨hm, ⟨h1, h2⟩, rfl⟩, rfl⟩ := hi
    exact ⟨j, hm, h1, h2⟩
  obtain ⟨_, l, hl, rfl⟩ := hn
  obtain ⟨_, l', hl', rfl⟩ := hn'
  obtain ⟨i, hi, rfl, rfl⟩ := key _ _ _ hl
  obtain ⟨j, hj, rfl, rfl⟩ := key _ _ _ hl'
  obtain ⟨h1, h2⟩ := hu _ hi _ hj rfl hf hf'
  exact hne (Prod.ext h1 h2)

theorem level_flatten {h : Heap} {mods : List (String × Nat)} {f : FFC}
    (hu : ∀ x ∈ mods, ∀ y ∈ mods, x.1 = y.1 → (h x.2).ffc = f → (h y.2).ffc = f → (h x.2).ss = (h y.2).ss) :
    (build h mods).levelDict f = ((build h mods).level f).flatten := by
  apply toDict_flatten
  refine flatten_nodup (h := h) (mods := mods) (cats := [(f, .sources), (f, .sinks), (f, .both)]) (by simp) ?_
  intro x hx y hy hn h1 h2
  have e1 : (h x.2).ffc = f := by simp at h1; tauto
  have e2 : (h y.2).ffc = f := by simp at h2; tauto
  exact ⟨e1.trans e2.symm, hu x hx y hy hn e1 e2⟩

theorem full_flatten {h : Heap} {mods : List (String × Nat)}
    (hu : ∀ x ∈ mods, ∀ y ∈ mods, x.1 = y.1 → (h x.2).ffc = (h y.2).ffc ∧ (h x.2).ss = (h y.2).ss) :
    (build h mods).fullDict = (build h mods).all.flatten := by
  apply toDict_flatten
  exact flatten_nodup (h := h) (mods := mods) (cats := [(.fixed, .sources), (.fixed, .sinks), (.fixed, .both),
    (.flex, .sources), (.flex, .sinks), (.flex, .both),
    (.controllable, .sources), (.controllable, .sinks), (.controllable, .both)]) (by decide)
    (fun x hx y hy hn _ _ => hu x hx y hy hn)

theorem split_perm {α : Type} (l : List α) (p : α → Bool) (key : α → SS) :
    (l.filter (fun x => p x && decide (key x = .sources)) ++ l.filter (fun x => p x && decide (key x = .sinks)) ++
      l.filter (fun x => p x && decide (key x = .both))).Perm (l.filter p) := by
  induction l with
  | nil => simp
  | cons x l ih =>
    by_cases hp : p x = true
    · cases hk : key x
      · simpa [hp, hk] using ih
      · simp only [List.filter_cons, hp, hk, decide_true, decide_false, Bool.and_true, Bool.and_false, if_true,
          reduceCtorEq, Bool.false_eq_true, if_false]
        rw [List.append_assoc, List.cons_append]
        exact List.perm_middle.trans ((List.perm_cons _).mpr (by rw [← List.append_assoc]; exact ih))
      · simp only [List.filter_cons, hp, hk, decide_true, decide_false, Bool.and_true, Bool.and_false, if_true,
          reduceCtorEq, Bool.false_eq_true, if_false]
        exact List.perm_middle.trans ((List.perm_cons _).mpr ih)
    · simpa [hp] using ih

theorem level_perm' (h : Heap) (mods : List (String × Nat)) (f : FFC) :
    (toTuples ((build h mods).level f).flatten).Perm (mods.filter fun nm => decide ((h nm.2).ffc = f)) := by
  rw [toTuples_flatten]
  refine List.Perm.trans ?_ (split_perm mods (fun nm => decide ((h nm.2).ffc = f)) fun nm => (h nm.2).ss)
  simp only [level, List.map_cons, List.map_nil, List.flatten_cons, List.flatten_nil, List.append_nil,
    ← List.append_assoc]
  have : ∀ s, (toTuples ((build h mods).cat f s)).Perm
      (mods.filter fun nm => decide ((h nm.2).ffc = f) && decide ((h nm.2).ss = s)) := by
    intro s
    refine (cat_perm h mods f s).trans (List.Perm.of_eq ?_)
    congr 1
    funext nm
    simp [inCat]
  exact ((this _).append (this _)).append (this _)

theorem level_perm {h : Heap} {mods : List (String × Nat)} {f : FFC}
    (hu : ∀ x ∈ mods, ∀ y ∈ mods, x.1 = y.1 → (h x.2).ffc = f → (h y.2).ffc = f → (h x.2).ss = (h y.2).ss) :
    (toTuples ((build h mods).levelDict f)).Perm (mods.filter fun nm => decide ((h nm.2).ffc = f)) := by
  rw [level_flatten hu]
  exact level_perm' h mods f

theorem ffc_perm (h : Heap) (mods : List (String × Nat)) :
    (mods.filter (fun nm => decide ((h nm.2).ffc = .fixed)) ++ mods.filter (fun nm => decide ((h nm.2).ffc = .flex)) ++
      mods.filter (fun nm => decide ((h nm.2).ffc = .controllable))).Perm mods := by
  have := split_perm mods (fun _ => true) (fun nm => match (h nm.2).ffc with
    | .fixed => SS.sources | .flex => SS.sinks | .controllable => SS.both)
  simp only [Bool.true_and, List.filter_true] at this
  refine List.Perm.trans (List.Perm.of_eq ?_) this
  congr 1
  · congr 1
    · congr 1; funext nm; cases (h nm.2).ffc <;> simp
    · congr 1; funext nm; cases (h nm.2).ffc <;> simp
  · congr 1; funext nm; cases (h nm.2).ffc <;> simp

/-- All tuples of all nine containers. -/
theorem all_perm (h : Heap) (mods : List (String × Nat)) :
    (toTuples (build h mods).all.flatten).Perm mods := by
  refine List.Perm.trans ?_ (ffc_perm h mods)
  unfold all
  rw [List.flatten_append, List.flatten_append, toTuples_append, toTuples_append]
  exact ((level_perm' h mods _).append (level_perm' h mods _)).append (level_perm' h mods _)

theorem full_perm {h : Heap} {mods : List (String × Nat)}
    (hu : ∀ x ∈ mods, ∀ y ∈ mods, x.1 = y.1 → (h x.2).ffc = (h y.2).ffc ∧ (h x.2).ss = (h y.2).ss) :
    (toTuples (build h mods).fullDict).Perm mods := by
  rw [full_flatten hu]
  exact all_perm h mods

theorem fullList_perm (h : Heap) (mods : List (String × Nat)) :
    ((build h mods).fullList).Perm (mods.map Prod.snd) := by
  have := (all_perm h mods).map Prod.snd
  rw [toTuples_ids] at this
  refine List.Perm.trans (List.Perm.of_eq ?_) this
  unfold fullList toList
  generalize (build h mods).all = ds
  induction ds with
  | nil => rfl
  | cons d ds ih => simp [List.flatMap_append, ih]

/-- The category of a module only depends on its class. -/
theorem build_congr {h h' : Heap} {mods : List (String × Nat)}
    (hh : ∀ nm ∈ mods, (h' nm.2).ffc = (h nm.2).ffc ∧ (h' nm.2).ss = (h nm.2).ss) :
    build h' mods = build h mods := by
  unfold build
  generalize empty = c
  induction mods generalizing c with
  | nil => rfl
  | cons x mods ih =>
    simp only [List.foldl_cons]
    have hx := hh x (by simp)
    have : add h' c x = add h c x := by
      unfold add
      simp only [hx.1, hx.2]
    rw [this]
    exact ih (fun nm hnm => hh nm (by simp [hnm])) _

end Container

end Pymgrid
