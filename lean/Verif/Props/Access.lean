import Verif.Lemmas.Access
import Verif.Props.Episode

set_option autoImplicit false

/-!
# C78: looking up modules

For every heap of modules and every list of named modules from which a container is built; `build h mods` is the container of
the microgrid at every time (`C33_kept`).
-/

namespace Pymgrid

open Container

section
variable {h : Heap} {mods : List (String × Nat)} {c : Container}

theorem Container.all_names {n : String} :
    (n ∈ (build h mods).all.flatMap fun d => d.map Prod.fst) ↔ ∃ nm ∈ mods, nm.1 = n := by
  rw [List.mem_flatMap]
  change (∃ d ∈ (build h mods).below .top, n ∈ d.map Prod.fst) ↔ _
  rw [mem_below_names]
  constructor
  · intro hne
    obtain ⟨i, hi⟩ := List.exists_mem_of_ne_nil _ hne
    simp only [View.named, List.mem_map, List.mem_filter, Bool.and_eq_true, decide_eq_true_eq] at hi
    obtain ⟨x, ⟨hx, -, hn⟩, -⟩ := hi
    exact ⟨x, hx, hn⟩
  · rintro ⟨x, hx, hn⟩
    apply List.ne_nil_of_mem (a := x.2)
    simp only [View.named, List.mem_map, List.mem_filter, Bool.and_eq_true, decide_eq_true_eq]
    exact ⟨x, ⟨hx, rfl, hn⟩, rfl⟩

/-- C78: the container is built for all names but two, with which it raises `KeyError`. -/
theorem C78_accepted (h : Heap) (mods : List (String × Nat)) :
    ((∃ nm ∈ mods, Forbidden nm.1) → Container.create h mods = .error .key) ∧
      ((∀ nm ∈ mods, ¬ Forbidden nm.1) → Container.create h mods = .ok (build h mods)) := by
  unfold Container.create
  simp only
  constructor
  · rintro ⟨nm, hm, hf⟩
    rw [if_pos]
    rw [List.any_eq_true]
    exact ⟨nm.1, all_names.mpr ⟨nm, hm, rfl⟩, by simpa [Forbidden] using hf⟩
  · intro hall
    rw [if_neg]
    rw [List.any_eq_true]
    rintro ⟨n, hn, hf⟩
    obtain ⟨nm, hm, rfl⟩ := all_names.mp hn
    exact hall nm hm (by simpa [Forbidden] using hf)

theorem Container.create_ok (hc : Container.create h mods = .ok c) :
    c = build h mods ∧ ∀ nm ∈ mods, ¬ Forbidden nm.1 := by
  by_cases hf : ∃ nm ∈ mods, Forbidden nm.1
  · rw [(C78_accepted h mods).1 hf] at hc
    simp at hc
  · have hall : ∀ nm ∈ mods, ¬ Forbidden nm.1 := fun nm hm hh => hf ⟨nm, hm, hh⟩
    rw [(C78_accepted h mods).2 hall] at hc
    exact ⟨(Except.ok.inj hc).symm, hall⟩

/-- C78: the six mid-level containers are found under their keys, and a lowest-level container is reached from either side:
    `container.fixed.sources` is `container.sources.fixed`. -/
theorem C78_levels (c : Container) (f : FFC) (s : SS) :
    c.getItem .top f.key = .ok (.view (.place f)) ∧ c.getItem .top s.key = .ok (.view (.dir s)) ∧
      c.getItem (.place f) s.key = .ok (.view (.lowest f s)) ∧ c.getItem (.dir s) f.key = .ok (.view (.lowest f s)) := by
  cases f <;> cases s <;> simp [getItem, FFC.key, SS.key, data, dictGet?]

/-- C78: the list of a container has exactly the modules that belong to it, each once, and its length is their number. -/
theorem C78_list (hc : Container.create h mods = .ok c) (v : View) :
    (c.list v).Perm ((mods.filter fun nm => v.shows h nm.2).map Prod.snd) ∧
      c.len v = (mods.filter fun nm => v.shows h nm.2).length := by
  obtain ⟨rfl, -⟩ := create_ok hc
  have : ((build h mods).list v).Perm ((mods.filter fun nm => v.shows h nm.2).map Prod.snd) := by
    unfold Container.list
    rw [toList_eq]
    exact (below_perm h mods v).map _
  refine ⟨this, ?_⟩
  rw [len_eq, this.length_eq, List.length_map]

/-- C78: a name leads to exactly the modules of the container with that name, in the order in which they were given;
    `KeyError` if there are none.
    Missing: names that are used for modules of different types, of which only some are found (`C78_clash`), the keys of the
    containers themselves (`C78_shadowed`), and the exception of lowest-level containers (`C78_lowest`). -/
theorem C78_by_name_partial (hc : Container.create h mods = .ok c) (hu : DistinctNames h mods) {v : View}
    (hv : ∀ f s, v ≠ .lowest f s) {name : String} (hk : name ∉ v.keys) :
    c.getItem v name = if v.named h mods name = [] then .error .key else .ok (.list (v.named h mods name)) := by
  obtain ⟨rfl, hforb⟩ := create_ok hc
  unfold getItem
  by_cases hf : name = "data" ∨ name = "module_dict"
  · rw [if_pos hf, if_pos]
    rw [List.eq_nil_iff_forall_not_mem]
    intro i hi
    simp only [View.named, List.mem_map, List.mem_filter, Bool.and_eq_true, decide_eq_true_eq] at hi
    obtain ⟨x, ⟨hx, -, hn⟩, -⟩ := hi
    exact hforb x hx (hn ▸ hf)
  · rw [if_neg hf]
    have hd : dictGet? ((build h mods).data v) name = none := by
      rw [dictGet?_none]
      intro hm
      apply hk
      cases v with
      | top => simp [data, FFC.key, SS.key, View.keys] at hm ⊢; tauto
      | place f => simpa [data, SS.key, View.keys] using hm
      | dir s => simpa [data, FFC.key, View.keys] using hm
      | lowest f s => exact absurd rfl (hv f s)
    have hdict : (build h mods).dict v = .ok (toDict ((build h mods).below v)) := by
      cases v with
      | lowest f s => exact absurd rfl (hv f s)
      | top => rfl
      | place f => rfl
      | dir s => rfl
    rw [hd, hdict]
    simp only
    rw [toDict_get hu]
    by_cases hne : v.named h mods name = [] <;> simp [hne]

/-- C78: in a lowest-level container a name leads to exactly its modules with that name.  The claim is violated in that a
    missing name raises `TypeError` instead of `KeyError` if there are any modules in the container. -/
theorem C78_lowest (hc : Container.create h mods = .ok c) (f : FFC) (s : SS) {name : String} (hn : ¬ Forbidden name) :
    c.getItem (.lowest f s) name =
      if (View.lowest f s).named h mods name = [] then
        .error (if (∃ nm ∈ mods, (h nm.2).ffc = f ∧ (h nm.2).ss = s) then .type else .key)
      else .ok (.list ((View.lowest f s).named h mods name)) := by
  obtain ⟨rfl, -⟩ := create_ok hc
  have hids : (View.lowest f s).named h mods name = idsOf h mods f s name := by
    unfold View.named idsOf
    congr 1
    apply List.filter_congr
    intro x _
    simp [View.shows, inCat]
  unfold getItem
  rw [if_neg (show ¬ (name = "data" ∨ name = "module_dict") from hn), hids]
  have hd : dictGet? ((build h mods).data (.lowest f s)) name =
      if idsOf h mods f s name = [] then none else some (.list (idsOf h mods f s name)) := by
    have : ∀ d : ModDict, dictGet? (d.map fun nl => (nl.1, Entry.list nl.2)) name = (dictGet? d name).map .list := by
      intro d
      induction d with
      | nil => rfl
      | cons x d ih =>
        obtain ⟨k, l⟩ := x
        by_cases hk : k = name <;> simp [dictGet?, hk, ih]
    simp only [data]
    rw [this, cat_get]
    split <;> rfl
  rw [hd]
  by_cases hne : idsOf h mods f s name = []
  · simp only [hne, if_true]
    unfold Container.dict
    simp only
    by_cases hex : ∃ nm ∈ mods, (h nm.2).ffc = f ∧ (h nm.2).ss = s
    · rw [if_pos hex, if_neg]
      obtain ⟨nm, hm, h1, h2⟩ := hex
      have hin : nm.2 ∈ idsOf h mods f s nm.1 := by
        simp only [idsOf, List.mem_map, List.mem_filter, inCat, Bool.and_eq_true, decide_eq_true_eq]
        exact ⟨nm, ⟨hm, ⟨h1, h2⟩, rfl⟩, rfl⟩
      rw [List.all_eq_true]
      intro hall
      have := hall (nm.1, idsOf h mods f s nm.1) (mem_cat.mpr ⟨rfl, List.ne_nil_of_mem hin⟩)
      simp only [List.isEmpty_iff] at this
      rw [this] at hin
      simp at hin
    · have hnil : (build h mods).cat f s = [] := by
        rw [List.eq_nil_iff_forall_not_mem]
        rintro ⟨n, l⟩ hnl
        obtain ⟨h1, h2⟩ := mem_cat.mp hnl
        obtain ⟨i, hi⟩ := List.exists_mem_of_ne_nil _ h2
        rw [h1] at hi
        simp only [idsOf, List.mem_map, List.mem_filter, inCat, Bool.and_eq_true, decide_eq_true_eq] at hi
        obtain ⟨x, ⟨hx, hfs, -⟩, -⟩ := hi
        exact hex ⟨x, hx, hfs⟩
      rw [if_neg hex, hnil]
      rfl
  · simp only [hne, if_false]

/-- C78 is violated for modules that are named like one of the containers: the name leads to the container, although the
    microgrid is accepted. -/
theorem C78_shadowed (c : Container) {v : View} {name : String} (hk : name ∈ v.keys) :
    ∃ w, c.getItem v name = .ok (.view w) := by
  cases v with
  | top =>
    simp only [View.keys, List.mem_cons, List.not_mem_nil, or_false] at hk
    rcases hk with rfl | rfl | rfl | rfl | rfl | rfl
    · exact ⟨_, (C78_levels c .fixed .sources).1⟩
    · exact ⟨_, (C78_levels c .flex .sources).1⟩
    · exact ⟨_, (C78_levels c .controllable .sources).1⟩
    · exact ⟨_, (C78_levels c .fixed .sources).2.1⟩
    · exact ⟨_, (C78_levels c .fixed .sinks).2.1⟩
    · exact ⟨_, (C78_levels c .fixed .both).2.1⟩
  | place f =>
    simp only [View.keys, List.mem_cons, List.not_mem_nil, or_false] at hk
    rcases hk with rfl | rfl | rfl
    · exact ⟨_, (C78_levels c f .sources).2.2.1⟩
    · exact ⟨_, (C78_levels c f .sinks).2.2.1⟩
    · exact ⟨_, (C78_levels c f .both).2.2.1⟩
  | dir s =>
    simp only [View.keys, List.mem_cons, List.not_mem_nil, or_false] at hk
    rcases hk with rfl | rfl | rfl
    · exact ⟨_, (C78_levels c .fixed s).2.2.2⟩
    · exact ⟨_, (C78_levels c .flex s).2.2.2⟩
    · exact ⟨_, (C78_levels c .controllable s).2.2.2⟩
  | lowest f s => simp [View.keys] at hk

/-- C78: `name in container` says whether the name is a key of a container in it or the name of a module of it, and this is
    whether the name can be looked up. -/
theorem C78_contains (hc : Container.create h mods = .ok c) (v : View) (name : String) :
    (c.contains v name = true ↔ name ∈ v.keys ∨ v.named h mods name ≠ []) ∧
      (c.contains v name = true ↔ (c.getItem v name).isOk = true) := by
  obtain ⟨rfl, hforb⟩ := create_ok hc
  have hkeys : ∀ v : View, (∀ f s, v ≠ .lowest f s) → (name ∈ ((build h mods).data v).map Prod.fst ↔ name ∈ v.keys) := by
    intro v hv
    cases v with
    | top => simp [data, FFC.key, SS.key, View.keys]; tauto
    | place f => simp [data, SS.key, View.keys]
    | dir s => simp [data, FFC.key, View.keys]
    | lowest f s => exact absurd rfl (hv f s)
  have hlow : ∀ f s, (((build h mods).data (.lowest f s)).map Prod.fst) = ((build h mods).cat f s).map Prod.fst := by
    intro f s; simp [data, Function.comp_def]
  have h1 : (build h mods).contains v name = true ↔ name ∈ v.keys ∨ v.named h mods name ≠ [] := by
    rw [← mem_below_names]
    unfold contains
    rw [Bool.or_eq_true, decide_eq_true_eq, decide_eq_true_eq]
    cases v with
    | top =>
      rw [hkeys .top (by simp)]
      simp only [dirAdditions, List.mem_append, hkeys .top (by simp), List.mem_flatMap]
      simp only [below]
      constructor
      · rintro (hh | ((hh | ⟨f, -, hh⟩) | ⟨s, -, hh⟩) | hh)
        · exact .inl hh
        · exact .inl hh
        · rw [hkeys (.place f) (by simp)] at hh
          left; simp only [View.keys, List.mem_cons] at hh ⊢; tauto
        · rw [hkeys (.dir s) (by simp)] at hh
          left; simp only [View.keys, List.mem_cons] at hh ⊢; tauto
        · exact .inr hh
      · rintro (hh | hh)
        · exact .inl hh
        · exact .inr (.inr hh)
    | place f =>
      simp only [dirAdditions, List.mem_append, hkeys (.place f) (by simp), List.mem_flatMap, below]
      tauto
    | dir s =>
      simp only [dirAdditions, List.mem_append, hkeys (.dir s) (by simp), List.mem_flatMap, below]
      tauto
    | lowest f s =>
      rw [hlow]
      simp [dirAdditions, below, View.keys]
  refine ⟨h1, h1.trans ?_⟩
  have hnf : v.named h mods name ≠ [] → ¬ Forbidden name := by
    intro hne hf
    obtain ⟨i, hi⟩ := List.exists_mem_of_ne_nil _ hne
    simp only [View.named, List.mem_map, List.mem_filter, Bool.and_eq_true, decide_eq_true_eq] at hi
    obtain ⟨x, ⟨hx, -, hn⟩, -⟩ := hi
    exact hforb x hx (hn ▸ hf)
  constructor
  · rintro (hk | hne)
    · obtain ⟨w, hw⟩ := C78_shadowed (build h mods) hk
      rw [hw]; rfl
    · have hf := hnf hne
      by_cases hv : ∃ f s, v = .lowest f s
      · obtain ⟨f, s, rfl⟩ := hv
        rw [C78_lowest hc f s hf, if_neg hne]; rfl
      · have hdict : (build h mods).dict v = .ok (toDict ((build h mods).below v)) := by
          cases v with
          | lowest f s => exact absurd ⟨f, s, rfl⟩ hv
          | top => rfl
          | place f => rfl
          | dir s => rfl
        unfold getItem
        rw [if_neg (show ¬ (name = "data" ∨ name = "module_dict") from hf), hdict]
        cases hd : dictGet? ((build h mods).data v) name with
        | some e => rfl
        | none =>
          simp only
          cases hg : dictGet? (toDict ((build h mods).below v)) name with
          | some l => rfl
          | none =>
            rw [dictGet?_none, toDict_keys, mem_below_names] at hg
            exact absurd hne hg
  · intro hok
    by_contra hcon
    push Not at hcon
    obtain ⟨hk, hne⟩ := hcon
    by_cases hf : Forbidden name
    · unfold getItem at hok
      rw [if_pos (show name = "data" ∨ name = "module_dict" from hf)] at hok
      simp [Except.isOk, Except.toBool] at hok
    · by_cases hv : ∃ f s, v = .lowest f s
      · obtain ⟨f, s, rfl⟩ := hv
        rw [C78_lowest hc f s hf, if_pos hne] at hok
        simp [Except.isOk, Except.toBool] at hok
      · have hdict : (build h mods).dict v = .ok (toDict ((build h mods).below v)) := by
          cases v with
          | lowest f s => exact absurd ⟨f, s, rfl⟩ hv
          | top => rfl
          | place f => rfl
          | dir s => rfl
        unfold getItem at hok
        have hd : dictGet? ((build h mods).data v) name = none :=
          dictGet?_none.mpr fun hm => hk ((hkeys v (fun f s e => hv ⟨f, s, e⟩)).mp hm)
        have hg : dictGet? (toDict ((build h mods).below v)) name = none :=
          dictGet?_none.mpr fun hm => mem_below_names.mp (toDict_keys.mp hm) hne
        rw [if_neg (show ¬ (name = "data" ∨ name = "module_dict") from hf), hdict, hd] at hok
        simp [hg, Except.isOk, Except.toBool] at hok

/-- C78: attribute access is look-up, with `AttributeError` instead of `KeyError`, unless the class has an attribute of that
    name or the name begins with two underscores. -/
theorem C78_attribute (hc : Container.create h mods = .ok c) (v : View) {name : String} (ha : name ∉ attributes v)
    (hu : ("__".isPrefixOf name : Bool) = false) :
    c.getAttr v name = match c.getItem v name with
      | .ok e => .ok (some e)
      | .error _ => .error .attribute := by
  obtain ⟨hcon, hok⟩ := C78_contains hc v name
  have hdir : c.contains v name = true ↔ name ∈ c.dirAdditions v := by
    unfold contains
    rw [Bool.or_eq_true, decide_eq_true_eq, decide_eq_true_eq]
    constructor
    · rintro (hh | hh)
      · cases v with
        | top => simp only [dirAdditions, List.mem_append]; tauto
        | place f => simp only [dirAdditions, List.mem_append]; tauto
        | dir s => simp only [dirAdditions, List.mem_append]; tauto
        | lowest f s => simpa [dirAdditions, data, Function.comp_def] using hh
      · exact hh
    · exact .inr
  unfold getAttr
  rw [if_neg ha]
  by_cases hd : name ∈ c.dirAdditions v
  · have hi := hok.mp (hdir.mpr hd)
    have hnd : name ≠ "data" := by
      rintro rfl
      simp [getItem, Except.isOk, Except.toBool] at hi
    rw [if_neg (by simp [hd, hu, hnd])]
    cases hg : c.getItem v name with
    | ok e => rfl
    | error e => rw [hg] at hi; simp [Except.isOk, Except.toBool] at hi
  · rw [if_pos (by simp [hd])]
    cases hg : c.getItem v name with
    | ok e => exact absurd (hdir.mp (hok.mpr (by rw [hg]; rfl))) hd
    | error e => rfl

/-- C78: `names()` lists every name of a module once, and no other. -/
theorem C78_names (hc : Container.create h mods = .ok c) :
    c.nameList.Nodup ∧ ∀ n, n ∈ c.nameList ↔ ∃ nm ∈ mods, nm.1 = n := by
  obtain ⟨rfl, -⟩ := create_ok hc
  refine ⟨dictUpdate_nodup (by simp), fun n => ?_⟩
  rw [← all_names (h := h)]
  unfold Container.nameList
  have key : ∀ (b a : List (String × Unit)),
      n ∈ (dictUpdate a b).map Prod.fst ↔ n ∈ a.map Prod.fst ∨ n ∈ b.map Prod.fst := by
    intro b
    induction b with
    | nil => intro a; simp [dictUpdate]
    | cons y b ih =>
      intro a
      have hs : ∀ a : List (String × Unit), n ∈ (dictSet a y.1 y.2).map Prod.fst ↔ n ∈ a.map Prod.fst ∨ n = y.1 := by
        intro a
        induction a with
        | nil => simp [dictSet]
        | cons z a iha =>
          obtain ⟨k, w⟩ := z
          by_cases hk : k = y.1
          · subst hk
            simp only [dictSet, if_true, List.map_cons, List.mem_cons]
            tauto
          · simp only [dictSet, hk, if_false, List.map_cons, List.mem_cons, iha]
            tauto
      have := ih (dictSet a y.1 y.2)
      unfold dictUpdate at this ⊢
      rw [List.foldl_cons, this, hs, List.map_cons, List.mem_cons]
      tauto
  rw [key]
  simp [List.map_flatMap, Function.comp_def]

/-- C78: `item()` returns the module of a list with one module and raises `ValueError` for all other lists. -/
theorem C78_item (l : List Nat) : (∀ i, Container.item l = .ok i ↔ l = [i]) ∧
    (l.length ≠ 1 → Container.item l = .error .value) := by
  match l with
  | [] => simp [Container.item]
  | [i] => simp [Container.item]
  | i :: j :: l => simp [Container.item]

end

/-! ### Examples -/

/-- C78 is violated for a name that is given to a battery and a genset: only one of the two is found by it. -/
theorem C78_clash : (Container.create demoHeap clashMods).isOk = true ∧
    View.top.named demoHeap clashMods "storage" = [2, 3] ∧
    ((build demoHeap clashMods).getItem .top "storage").toOption = some (.list [2]) := by
  decide +kernel

/-- A module named `fixed` is accepted and not found; one named `data` is not accepted. -/
example : (Container.create demoHeap [("fixed", 1), ("load", 0)]).isOk = true ∧
    ((build demoHeap [("fixed", 1), ("load", 0)]).getItem .top "fixed").toOption = some (.view (.place .fixed)) ∧
    (Container.create demoHeap [("data", 1), ("load", 0)]).isOk = false := by
  decide +kernel

/-- Look-ups in the sample microgrid. -/
example : DistinctNames demoHeap demoMods ∧ (Container.create demoHeap demoMods).isOk = true ∧
    ((build demoHeap demoMods).getItem .top "battery").toOption = some (.list [2]) ∧
    ((build demoHeap demoMods).getItem (.place .controllable) "battery").toOption = some (.list [2]) ∧
    ((build demoHeap demoMods).getItem (.dir .both) "load").toOption = none ∧
    ((build demoHeap demoMods).getAttr (.lowest .fixed .sinks) "load").toOption = some (some (.list [0])) ∧
    ((build demoHeap demoMods).getItem (.lowest .fixed .sinks) "battery" matches .error .type) ∧
    (build demoHeap demoMods).len .top = 6 ∧ (build demoHeap demoMods).len (.place .controllable) = 3 :=
  ⟨by unfold DistinctNames; decide +kernel, by decide +kernel⟩

end Pymgrid
