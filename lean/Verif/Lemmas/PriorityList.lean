import Mathlib.Data.List.Perm.Subperm
import Verif.Model.PriorityList
import Verif.Spec.PriorityList
import Verif.Lemmas.Cls
import Verif.Lemmas.Sync
import Verif.Lemmas.Total
import Verif.Lemmas.Spaces
import Verif.Lemmas.GridRun

set_option autoImplicit false

/-! Permutations, and what a priority list consists of. -/

namespace Pymgrid

namespace PriorityList

section
variable {α : Type}

theorem picks_perm {l : List α} {xr : α × List α} (h : xr ∈ picks l) : l.Perm (xr.1 :: xr.2) := by
  induction l generalizing xr with
  | nil => simp [picks] at h
  | cons y l ih =>
    simp only [picks, List.mem_cons, List.mem_map] at h
    rcases h with rfl | ⟨yr, hy, rfl⟩
    · exact List.Perm.refl _
    · exact ((ih hy).cons y).trans (List.Perm.swap _ _ _)

theorem picks_mem {l : List α} {x : α} (h : x ∈ l) : ∃ r, (x, r) ∈ picks l := by
  induction l with
  | nil => simp at h
  | cons y l ih =>
    rcases List.mem_cons.mp h with rfl | h
    · exact ⟨l, by simp [picks]⟩
    · obtain ⟨r, hr⟩ := ih h
      exact ⟨y :: r, by simp only [picks, List.mem_cons, List.mem_map]; exact .inr ⟨(x, r), hr, rfl⟩⟩

theorem mem_arrangements {n : Nat} {l p : List α} (hn : l.length = n) : p ∈ arrangements n l ↔ p.Perm l := by
  induction n generalizing l p with
  | zero =>
    rw [List.length_eq_zero_iff] at hn
    subst hn
    simp [arrangements]
  | succ n ih =>
    simp only [arrangements, List.mem_flatMap, List.mem_map]
    constructor
    · rintro ⟨xr, hx, t, ht, rfl⟩
      have hp := picks_perm hx
      have hlen : xr.2.length = n := by have := hp.length_eq; simp at this; omega
      exact (((ih hlen).mp ht).cons xr.1).trans hp.symm
    · intro hp
      cases p with
      | nil => have := hp.length_eq; simp at this; omega
      | cons x t =>
        obtain ⟨r, hr⟩ := picks_mem (hp.subset (by simp : x ∈ x :: t))
        have hq := picks_perm hr
        have hlen : r.length = n := by have := hq.length_eq; simp at this; omega
        exact ⟨(x, r), hr, t, (ih hlen).mpr (List.Perm.cons_inv (hp.trans hq)), rfl⟩

theorem mem_permutations {l p : List α} : p ∈ permutations l ↔ p.Perm l := mem_arrangements rfl

theorem mem_fromKeys [DecidableEq α] {l : List α} {x : α} : x ∈ fromKeys l ↔ x ∈ l := by
  induction l with
  | nil => simp [fromKeys]
  | cons y l ih =>
    simp only [fromKeys, List.mem_cons, List.mem_filter, decide_eq_true_eq, ih]
    by_cases h : x = y <;> simp [h]

theorem nodup_fromKeys [DecidableEq α] (l : List α) : (fromKeys l).Nodup := by
  induction l with
  | nil => simp [fromKeys]
  | cons y l ih =>
    simp only [fromKeys, List.nodup_cons, List.mem_filter, decide_eq_true_eq]
    exact ⟨fun h => h.2 rfl, ih.filter _⟩

theorem fromKeys_head [DecidableEq α] (l : List α) : (fromKeys l).head? = l.head? := by
  cases l <;> simp [fromKeys]

end

/-! ### `firstOfModule` -/

theorem firstOfModule_subset {l : List Element} : ∀ e ∈ firstOfModule l, e ∈ l := by
  induction l with
  | nil => simp [firstOfModule]
  | cons x l ih =>
    intro e he
    simp only [firstOfModule, List.mem_cons, List.mem_filter] at he ⊢
    rcases he with rfl | ⟨he, -⟩
    · exact .inl rfl
    · exact .inr (ih e he)

theorem firstOfModule_nodup (l : List Element) : ((firstOfModule l).map Element.module).Nodup := by
  induction l with
  | nil => simp [firstOfModule]
  | cons x l ih =>
    simp only [firstOfModule, List.map_cons, List.nodup_cons, List.mem_map, List.mem_filter, decide_eq_true_eq]
    refine ⟨?_, (List.filter_sublist.map _).nodup ih⟩
    rintro ⟨e, ⟨-, h⟩, he⟩
    exact h he

theorem firstOfModule_covers {l : List Element} : ∀ e ∈ l, e.module ∈ (firstOfModule l).map Element.module := by
  induction l with
  | nil => simp
  | cons x l ih =>
    intro e he
    simp only [firstOfModule, List.map_cons, List.mem_cons]
    rcases List.mem_cons.mp he with rfl | he
    · exact .inl rfl
    · by_cases hx : e.module = x.module
      · exact .inl hx
      · right
        obtain ⟨e', he', hm⟩ := List.mem_map.mp (ih e he)
        exact List.mem_map.mpr ⟨e', List.mem_filter.mpr ⟨he', by simpa [hm] using hx⟩, hm⟩

theorem firstOfModule_append {l r : List Element} (hn : (l.map Element.module).Nodup)
    (hr : ∀ e ∈ r, e.module ∈ l.map Element.module) : firstOfModule (l ++ r) = l := by
  induction l generalizing r with
  | nil =>
    cases r with
    | nil => rfl
    | cons e r => have := hr e (by simp); simp at this
  | cons x l ih =>
    rw [List.map_cons, List.nodup_cons] at hn
    -- drop the elements of `x.module` from the rest
    have key : ∀ r : List Element, (firstOfModule (l ++ r)).filter (fun e' => decide (e'.module ≠ x.module)) =
        firstOfModule (l ++ r.filter fun e' => decide (e'.module ≠ x.module)) := by
      intro r
      have gen : ∀ t : List Element, (firstOfModule t).filter (fun e' => decide (e'.module ≠ x.module)) =
          firstOfModule (t.filter fun e' => decide (e'.module ≠ x.module)) := by
        intro t
        induction t with
        | nil => rfl
        | cons y t iht =>
          by_cases hy : y.module = x.module
          · simp only [firstOfModule]
            rw [List.filter_cons_of_neg (by simp [hy]), List.filter_cons_of_neg (by simp [hy]), ← iht,
              List.filter_filter]
            congr 1
            funext e
            simp [hy]
          · simp only [firstOfModule]
            rw [List.filter_cons_of_pos (by simp [hy]), List.filter_cons_of_pos (by simp [hy])]
            simp only [firstOfModule]
            rw [← iht, List.filter_filter, List.filter_filter]
            congr 2
            funext e
            exact Bool.and_comm _ _
      rw [gen, List.filter_append]
      congr 2
      rw [List.filter_eq_self]
      intro e he
      have : e.module ≠ x.module := fun h => hn.1 (h ▸ List.mem_map_of_mem he)
      simpa using this
    rw [List.cons_append]
    simp only [firstOfModule]
    rw [key, ih hn.2]
    intro e he
    obtain ⟨h1, h2⟩ := List.mem_filter.mp he
    have := hr e h1
    rw [List.map_cons, List.mem_cons] at this
    rcases this with h | h
    · simp [h] at h2
    · exact h

/-- The lists that are generated from the elements `base`. -/
theorem mem_removeActions {base pl : List Element} (hb : base.Nodup) :
    pl ∈ removeActions (permutations base) ↔
      (pl.map Element.module).Nodup ∧ (∀ e ∈ pl, e ∈ base) ∧ ∀ e ∈ base, e.module ∈ pl.map Element.module := by
  unfold removeActions
  rw [mem_fromKeys, List.mem_map]
  constructor
  · rintro ⟨p, hp, rfl⟩
    rw [mem_permutations] at hp
    exact ⟨firstOfModule_nodup p, fun e he => hp.subset (firstOfModule_subset e he),
      fun e he => firstOfModule_covers e (hp.symm.subset he)⟩
  · rintro ⟨h1, h2, h3⟩
    refine ⟨pl ++ base.diff pl, ?_, firstOfModule_append h1 fun e he => h3 e (List.diff_subset _ _ he)⟩
    rw [mem_permutations]
    exact List.subperm_append_diff_self_of_count_le fun e he => by
      rw [List.count_eq_one_of_mem (List.Nodup.of_map _ h1) he, List.count_eq_one_of_mem hb (h2 e he)]

/-! ### The elements of a microgrid -/

theorem mem_named {d : ModDict} {key : String × Nat} {i : Nat} :
    (key, i) ∈ named d ↔ ∃ l, (key.1, l) ∈ d ∧ l[key.2]? = some i := by
  obtain ⟨name, j⟩ := key
  simp only [named, List.mem_flatMap, List.mem_map, Prod.mk.injEq, Prod.exists]
  constructor
  · rintro ⟨n, l, hm, a, b, hab, ⟨rfl, rfl⟩, rfl⟩
    exact ⟨l, hm, List.mem_zipIdx_iff_getElem?.mp hab⟩
  · rintro ⟨l, hm, hj⟩
    exact ⟨name, l, hm, i, j, List.mem_zipIdx_iff_getElem?.mpr hj, ⟨rfl, rfl⟩, rfl⟩

theorem named_nodup {d : ModDict} (hd : (d.map Prod.fst).Nodup) : ((named d).map Prod.fst).Nodup := by
  induction d with
  | nil => simp [named]
  | cons nl d ih =>
    rw [List.map_cons, List.nodup_cons] at hd
    have hs : named (nl :: d) = nl.2.zipIdx.map (fun ij => ((nl.1, ij.2), ij.1)) ++ named d := by
      simp [named]
    rw [hs, List.map_append, List.map_map, List.nodup_append]
    refine ⟨?_, ih hd.2, ?_⟩
    · have : (nl.2.zipIdx.map (Prod.fst ∘ fun ij : Nat × Nat => ((nl.1, ij.2), ij.1))) =
          (nl.2.zipIdx.map Prod.snd).map fun j => (nl.1, j) := by
        rw [List.map_map]; rfl
      rw [this, List.zipIdx_map_snd]
      refine List.Nodup.map ?_ List.nodup_range'
      intro a b hab
      exact (Prod.mk.inj hab).2
    · intro a ha b hb hab
      subst hab
      simp only [List.mem_map, Function.comp] at ha
      obtain ⟨x, -, rfl⟩ := ha
      obtain ⟨⟨key, i⟩, hk, he⟩ := List.mem_map.mp hb
      obtain ⟨l, hm, -⟩ := mem_named.mp hk
      simp only at he
      subst he
      exact hd.1 (List.mem_map.mpr ⟨_, hm, rfl⟩)

/-- The elements of one module. -/
def elems (m : Module) (key : String × Nat) (c : ℚ) : List Element :=
  (List.range m.actionDim).map fun a => { module := key, actions := m.actionDim, action := a, cost := c }

theorem moduleElements_ok {m : Module} {c : ℚ} (key : String × Nat) (h : m.marginalCost = .ok c) :
    moduleElements m key = .ok (elems m key c) := by
  unfold moduleElements elems
  rw [h]
  split
  · rename_i h0; rw [h0]; rfl
  · rfl

theorem collect_ok {h : Heap} {l : List ((String × Nat) × Nat)} {c : Nat → ℚ}
    (hc : ∀ x ∈ l, (h x.2).marginalCost = .ok (c x.2)) :
    collect h l = .ok (l.flatMap fun x => elems (h x.2) x.1 (c x.2)) := by
  induction l with
  | nil => rfl
  | cons x l ih =>
    obtain ⟨key, i⟩ := x
    simp only [collect, moduleElements_ok key (hc (key, i) (by simp)), ih fun y hy => hc y (by simp [hy]),
      List.flatMap_cons]

theorem mem_elems {h : Heap} {l : List ((String × Nat) × Nat)} {c : Nat → ℚ} {e : Element} :
    e ∈ l.flatMap (fun x => elems (h x.2) x.1 (c x.2)) ↔
      ∃ i, (e.module, i) ∈ l ∧ e.actions = (h i).actionDim ∧ e.action < e.actions ∧ e.cost = c i := by
  simp only [List.mem_flatMap, elems, List.mem_map, List.mem_range]
  constructor
  · rintro ⟨⟨key, i⟩, hx, a, ha, rfl⟩
    exact ⟨i, hx, rfl, ha, rfl⟩
  · rintro ⟨i, hx, h1, h2, h3⟩
    refine ⟨(e.module, i), hx, e.action, h1 ▸ h2, ?_⟩
    rw [← h1, ← h3]

theorem elems_nodup {h : Heap} {l : List ((String × Nat) × Nat)} {c : Nat → ℚ} (hl : (l.map Prod.fst).Nodup) :
    (l.flatMap fun x => elems (h x.2) x.1 (c x.2)).Nodup := by
  induction l with
  | nil => simp
  | cons x l ih =>
    rw [List.map_cons, List.nodup_cons] at hl
    rw [List.flatMap_cons, List.nodup_append]
    refine ⟨?_, ih hl.2, ?_⟩
    · unfold elems
      refine List.Nodup.map ?_ List.nodup_range
      intro a b hab
      exact (Element.mk.inj hab).2.2.1
    · intro a ha b hb hab
      subst hab
      obtain ⟨i, hi, -⟩ := mem_elems.mp hb
      unfold elems at ha
      obtain ⟨k, -, rfl⟩ := List.mem_map.mp ha
      exact hl.1 (List.mem_map.mpr ⟨_, hi, rfl⟩)

theorem redundant_ok {h : Heap} {l : List ((String × Nat) × Nat)} {c : Nat → ℚ}
    (hc : ∀ x ∈ l, (h x.2).marginalCost = .ok (c x.2)) :
    ∃ red, redundant h l = .ok red ∧ ∀ e, e ∈ red ↔
      ∃ i g, (e.module, i) ∈ l ∧ (h i).kind = .genset g ∧ g.runMin = 0 ∧ e.actions = 2 ∧ e.action = 0 ∧ e.cost = c i := by
  induction l with
  | nil => exact ⟨[], rfl, by simp⟩
  | cons x l ih =>
    obtain ⟨key, i⟩ := x
    obtain ⟨red, h1, h2⟩ := ih fun y hy => hc y (by simp [hy])
    have hci := hc (key, i) (by simp)
    simp only at hci
    have hone : ∃ es, redundantElement (h i) key = .ok es ∧ ∀ e, e ∈ es ↔
        ∃ g, e.module = key ∧ (h i).kind = .genset g ∧ g.runMin = 0 ∧ e.actions = 2 ∧ e.action = 0 ∧ e.cost = c i := by
      unfold redundantElement
      split
      · rename_i g hk
        split
        · rename_i h0
          rw [hci]
          refine ⟨_, rfl, fun e => ?_⟩
          simp only [List.mem_singleton]
          constructor
          · rintro rfl; exact ⟨g, rfl, hk, h0, rfl, rfl, rfl⟩
          · rintro ⟨g', h1, -, -, h2, h3, h4⟩
            rw [← h1, ← h2, ← h3, ← h4]
        · rename_i h0
          refine ⟨[], rfl, fun e => ?_⟩
          simp only [List.not_mem_nil, false_iff]
          rintro ⟨g', -, hg, h0', -⟩
          rw [hk] at hg
          injection hg with hg
          subst hg
          exact h0 h0'
      · rename_i hk
        refine ⟨[], rfl, fun e => ?_⟩
        simp only [List.not_mem_nil, false_iff]
        rintro ⟨g', -, hg, -⟩
        exact hk g' hg
    obtain ⟨es, h3, h4⟩ := hone
    refine ⟨es ++ red, by simp only [redundant, h3, h1], fun e => ?_⟩
    rw [List.mem_append, h4, h2]
    constructor
    · rintro (⟨g, rfl, h⟩ | ⟨j, g, hj, h⟩)
      · exact ⟨i, g, by simp, h⟩
      · exact ⟨j, g, by simp [hj], h⟩
    · rintro ⟨j, g, hj, h⟩
      rcases List.mem_cons.mp hj with hj | hj
      · obtain ⟨h5, rfl⟩ := Prod.mk.inj hj
        exact .inl ⟨g, h5, h⟩
      · exact .inr ⟨j, g, hj, h⟩

end PriorityList

/-! ### Microgrids -/

/-- Every controllable module has as many actions as its class. -/
def Dims (g : Microgrid) (mods : List (String × Nat)) : Prop :=
  ∀ nm ∈ mods, (g.heap nm.2).ffc = .controllable → (g.heap nm.2).actionDim = (g.heap nm.2).kind.cls.actions

theorem LibraryModule.actionDim {m : Module} (h : LibraryModule m) (hf : m.ffc = .controllable) :
    m.actionDim = m.kind.cls.actions := by
  unfold Module.actionDim
  rw [h.spaced.act]
  have hw := h.wf
  cases hw with
  | battery b h => rw [h.kind]; rfl
  | genset g h => rw [h.kind]; rfl
  | grid p t h w => rw [h.kind]; rfl
  | load t h w => rw [h.ffc] at hf; exact absurd hf (by decide)
  | renewable t h w => rw [h.ffc] at hf; exact absurd hf (by decide)
  | balancing u h => rw [h.ffc] at hf; exact absurd hf (by decide)

theorem Module.WF.ctrl_ss {m : Module} (h : m.WF) (hf : m.ffc = .controllable) : m.ss = .sources ∨ m.ss = .both := by
  unfold Module.ss
  cases h with
  | battery b h => right; simp [Module.isSource, Module.isSink, h.kind]
  | genset g h => left; simp [Module.isSource, Module.isSink, h.kind]
  | grid p t h w => right; simp [Module.isSource, Module.isSink, h.kind]
  | load t h w => rw [h.ffc] at hf; exact absurd hf (by decide)
  | renewable t h w => rw [h.ffc] at hf; exact absurd hf (by decide)
  | balancing u h => rw [h.ffc] at hf; exact absurd hf (by decide)

theorem Denotes.mem {h : Heap} {mods : List (String × Nat)} {key : String × Nat} {i : Nat} (hd : Denotes h mods key i) :
    (key.1, i) ∈ mods ∧ (h i).ffc = .controllable := by
  have := List.mem_of_getElem? hd
  simp only [modulesNamed, List.mem_map, List.mem_filter, decide_eq_true_eq] at this
  obtain ⟨⟨n, j⟩, ⟨h1, rfl, h2⟩, rfl⟩ := this
  exact ⟨h1, h2⟩

theorem Denotes.ids {h : Heap} {mods : List (String × Nat)} {key : String × Nat} {i : Nat} (hu : ClearNames h mods)
    (hd : Denotes h mods key i) :
    Container.idsOf h mods .controllable (h i).ss key.1 = modulesNamed h mods .controllable key.1 := by
  apply Container.idsOf_named hu
  have : i ∈ Container.idsOf h mods .controllable (h i).ss key.1 := by
    simp only [Container.idsOf, List.mem_map, List.mem_filter, Container.inCat, Bool.and_eq_true, decide_eq_true_eq]
    exact ⟨(key.1, i), ⟨hd.mem.1, ⟨hd.mem.2, rfl⟩, rfl⟩, rfl⟩
  exact List.ne_nil_of_mem this

namespace PriorityList

variable {mods : List (String × Nat)} {g : Microgrid}

theorem denotes_of_cat {h : Heap} {s : SS} (hu : ClearNames h mods) {key : String × Nat} {i : Nat}
    (hm : (key, i) ∈ named ((Container.build h mods).cat .controllable s)) : Denotes h mods key i := by
  obtain ⟨l, hl, hi⟩ := mem_named.mp hm
  obtain ⟨rfl, hne⟩ := Container.mem_cat.mp hl
  rw [Container.idsOf_named hu hne] at hi
  exact hi

theorem mem_controllable (ok : GridOK mods g) (hu : ClearNames g.heap mods) {key : String × Nat} {i : Nat} :
    (key, i) ∈ named (g.cont.cat .controllable .sources) ++ named (g.cont.cat .controllable .both) ↔
      Denotes g.heap mods key i := by
  rw [ok.cont, List.mem_append]
  constructor
  · rintro (h | h) <;> exact denotes_of_cat hu h
  · intro hd
    have hids := hd.ids hu
    have hs := (ok.wf _ hd.mem.1).ctrl_ss hd.mem.2
    simp only at hs
    have : (key, i) ∈ named ((Container.build g.heap mods).cat .controllable (g.heap i).ss) := by
      refine mem_named.mpr ⟨modulesNamed g.heap mods .controllable key.1, Container.mem_cat.mpr ⟨hids.symm, ?_⟩, hd⟩
      exact List.ne_nil_of_mem (List.mem_of_getElem? hd)
    rcases hs with hs | hs <;> rw [hs] at this
    · exact .inl this
    · exact .inr this

theorem controllable_nodup (ok : GridOK mods g) (hu : ClearNames g.heap mods) :
    ((named (g.cont.cat .controllable .sources) ++ named (g.cont.cat .controllable .both)).map Prod.fst).Nodup := by
  rw [ok.cont, List.map_append, List.nodup_append]
  refine ⟨named_nodup (Container.cat_nodup _ _ _ _), named_nodup (Container.cat_nodup _ _ _ _), ?_⟩
  rintro key h1 key' h2 rfl
  obtain ⟨⟨k1, i⟩, h3, rfl⟩ := List.mem_map.mp h1
  obtain ⟨⟨k2, j⟩, h4, he⟩ := List.mem_map.mp h2
  simp only at he
  subst he
  have aux : ∀ {s : SS} {i : Nat}, (k2, i) ∈ named ((Container.build g.heap mods).cat .controllable s) →
      (k2.1, i) ∈ mods ∧ (g.heap i).ffc = .controllable ∧ (g.heap i).ss = s := by
    intro s i hm
    obtain ⟨l, hl, hi⟩ := mem_named.mp hm
    obtain ⟨rfl, hne⟩ := Container.mem_cat.mp hl
    have := List.mem_of_getElem? hi
    simp only [Container.idsOf, List.mem_map, List.mem_filter, Container.inCat, Bool.and_eq_true,
      decide_eq_true_eq] at this
    obtain ⟨⟨n, j⟩, ⟨h1, ⟨h2, h3⟩, rfl⟩, rfl⟩ := this
    exact ⟨h1, h2, h3⟩
  obtain ⟨m1, f1, s1⟩ := aux h3
  obtain ⟨m2, f2, s2⟩ := aux h4
  have := hu _ m1 _ m2 rfl (f1.trans f2.symm)
  simp only at this
  rw [s1, s2] at this
  exact absurd this (by decide)

theorem full_get (ok : GridOK mods g) (hu : ClearNames g.heap mods) {key : String × Nat} {i : Nat}
    (hd : Denotes g.heap mods key i) :
    dictGet? g.cont.fullDict key.1 = some (modulesNamed g.heap mods .controllable key.1) := by
  rw [ok.cont]
  have hsplit : (Container.build g.heap mods).fullDict = dictUpdate (dictUpdate (dictUpdate
      (Container.toDict ((Container.build g.heap mods).level .fixed ++ (Container.build g.heap mods).level .flex))
      ((Container.build g.heap mods).cat .controllable .sources))
      ((Container.build g.heap mods).cat .controllable .sinks))
      ((Container.build g.heap mods).cat .controllable .both) := rfl
  rw [hsplit, dictGet?_dictUpdate _ _ (Container.cat_nodup _ _ _ _),
    dictGet?_dictUpdate _ _ (Container.cat_nodup _ _ _ _), dictGet?_dictUpdate _ _ (Container.cat_nodup _ _ _ _)]
  have hget : ∀ s l, dictGet? ((Container.build g.heap mods).cat .controllable s) key.1 = some l →
      l = modulesNamed g.heap mods .controllable key.1 := by
    intro s l hl
    obtain ⟨rfl, hne⟩ := Container.mem_cat.mp (dictGet?_mem hl)
    exact Container.idsOf_named hu hne
  have hone : dictGet? ((Container.build g.heap mods).cat .controllable (g.heap i).ss) key.1 =
      some (modulesNamed g.heap mods .controllable key.1) := by
    rw [Container.cat_get, hd.ids hu, if_neg (List.ne_nil_of_mem (List.mem_of_getElem? hd))]
  cases hb : dictGet? ((Container.build g.heap mods).cat .controllable .both) key.1 with
  | some l => rw [hget _ _ hb]; simp
  | none =>
    cases hk : dictGet? ((Container.build g.heap mods).cat .controllable .sinks) key.1 with
    | some l => rw [hget _ _ hk]; simp
    | none =>
      cases hs : dictGet? ((Container.build g.heap mods).cat .controllable .sources) key.1 with
      | some l => rw [hget _ _ hs]; simp
      | none =>
        cases hss : (g.heap i).ss <;> rw [hss] at hone <;> simp_all

theorem mem_full (ok : GridOK mods g) (hu : ClearNames g.heap mods) {key : String × Nat} {i : Nat}
    (hf : (g.heap i).ffc = .controllable) :
    (key, i) ∈ named g.cont.fullDict ↔ Denotes g.heap mods key i := by
  constructor
  · intro hm
    rw [ok.cont] at hm
    obtain ⟨l, hl, hi⟩ := mem_named.mp hm
    obtain ⟨d, hd, hld⟩ := Container.mem_toDict hl
    obtain ⟨f, s, rfl⟩ := Container.mem_all hd
    obtain ⟨rfl, hne⟩ := Container.mem_cat.mp hld
    have := List.mem_of_getElem? hi
    simp only [Container.idsOf, List.mem_map, List.mem_filter, Container.inCat, Bool.and_eq_true,
      decide_eq_true_eq] at this
    obtain ⟨⟨n, j⟩, ⟨h1, ⟨h2, h3⟩, rfl⟩, rfl⟩ := this
    rw [hf] at h2
    subst h2
    rw [Container.idsOf_named hu hne] at hi
    exact hi
  · intro hd
    exact mem_named.mpr ⟨_, dictGet?_mem (full_get ok hu hd), hd⟩

theorem lookup_ok (ok : GridOK mods g) (hu : ClearNames g.heap mods) {key : String × Nat} {i : Nat}
    (hd : Denotes g.heap mods key i) : lookup g key.1 key.2 = .ok (g.heap i) := by
  unfold lookup
  rw [full_get ok hu hd]
  simp only
  rw [show (modulesNamed g.heap mods .controllable key.1)[key.2]? = some i from hd]

/-- The marginal cost as a number. -/
def costOf (h : Heap) (i : Nat) : ℚ :=
  match (h i).marginalCost with
  | .ok c => c
  | .error _ => 0

theorem costOf_ok {h : Heap} {i : Nat} (hw : (h i).WF) : (h i).marginalCost = .ok (costOf h i) := by
  obtain ⟨c, hc⟩ := hw.costs.1
  simp [costOf, hc]

/-- The base elements. -/
theorem elements_ok (ok : GridOK mods g) (hu : ClearNames g.heap mods) (hdim : Dims g mods) :
    ∃ base, elements g = .ok base ∧ base.Nodup ∧ ∀ e, e ∈ base ↔ ∃ i, Denotes g.heap mods e.module i ∧
      e.actions = (g.heap i).kind.cls.actions ∧ e.action < e.actions ∧ (g.heap i).marginalCost = .ok e.cost := by
  have hc : ∀ x ∈ named (g.cont.cat .controllable .sources) ++ named (g.cont.cat .controllable .both),
      (g.heap x.2).marginalCost = .ok (costOf g.heap x.2) := by
    rintro ⟨key, i⟩ hx
    exact costOf_ok (ok.wf _ ((mem_controllable ok hu).mp hx).mem.1)
  refine ⟨_, collect_ok hc, elems_nodup (controllable_nodup ok hu), fun e => ?_⟩
  rw [mem_elems]
  constructor
  · rintro ⟨i, hi, h1, h2, h3⟩
    have hd := (mem_controllable ok hu).mp hi
    refine ⟨i, hd, h1.trans (hdim _ hd.mem.1 hd.mem.2), h2, ?_⟩
    rw [h3]
    exact costOf_ok (ok.wf _ hd.mem.1)
  · rintro ⟨i, hd, h1, h2, h3⟩
    refine ⟨i, (mem_controllable ok hu).mpr hd, h1.trans (hdim _ hd.mem.1 hd.mem.2).symm, h2, ?_⟩
    have := costOf_ok (h := g.heap) (ok.wf _ hd.mem.1)
    rw [h3] at this
    exact Except.ok.inj this

theorem Denotes.unique {h : Heap} {key : String × Nat} {i j : Nat} (hi : Denotes h mods key i)
    (hj : Denotes h mods key j) : i = j := Option.some.inj (hi.symm.trans hj)

/-- Modules of a list that have at least one action. -/
theorem cls_actions_pos {m : Module} (h : m.WF) (hf : m.ffc = .controllable) : 0 < m.kind.cls.actions := by
  cases h with
  | battery b h => rw [h.kind]; exact Nat.zero_lt_one
  | genset g h => rw [h.kind]; exact Nat.zero_lt_two
  | grid p t h w => rw [h.kind]; exact Nat.zero_lt_one
  | load t h w => rw [h.ffc] at hf; exact absurd hf (by decide)
  | renewable t h w => rw [h.ffc] at hf; exact absurd hf (by decide)
  | balancing u h => rw [h.ffc] at hf; exact absurd hf (by decide)

theorem genset_controllable {m : Module} {gs : Genset} (h : m.WF) (hk : m.kind = .genset gs) :
    m.ffc = .controllable := by
  cases h with
  | genset g h => exact h.ffc
  | battery b h => rw [h.kind] at hk; cases hk
  | grid p t h w => rw [h.kind] at hk; cases hk
  | load t h w => rw [h.kind] at hk; cases hk
  | renewable t h w => rw [h.kind] at hk; cases hk
  | balancing u h => rw [h.kind] at hk; cases hk

/-- What `get_priority_lists` returns. -/
theorem getPriorityLists_ok (ok : GridOK mods g) (hu : ClearNames g.heap mods) (hdim : Dims g mods) (rm : Bool) :
    ∃ pls, getPriorityLists g rm = .ok pls ∧ pls.Nodup ∧ ∀ pl, pl ∈ pls ↔
      IsPriorityList g.heap mods pl ∧ (rm = true → NoIdleGenset g.heap mods pl) := by
  obtain ⟨base, hb, hn, hm⟩ := elements_ok ok hu hdim
  have hlist : ∀ pl, pl ∈ removeActions (permutations base) ↔ IsPriorityList g.heap mods pl := by
    intro pl
    rw [mem_removeActions hn]
    constructor
    · rintro ⟨h1, h2, h3⟩
      refine ⟨h1, fun key i hd => ?_, fun e he => (hm e).mp (h2 e he)⟩
      exact h3 ⟨key, (g.heap i).kind.cls.actions, 0, costOf g.heap i⟩ ((hm _).mpr ⟨i, hd, rfl,
        cls_actions_pos (ok.wf _ hd.mem.1) hd.mem.2, costOf_ok (ok.wf _ hd.mem.1)⟩)
    · intro hp
      refine ⟨hp.once, fun e he => (hm e).mpr (hp.element e he), fun e he => ?_⟩
      obtain ⟨i, hd, -⟩ := (hm e).mp he
      exact hp.all _ i hd
  have hnd : (removeActions (permutations base)).Nodup := nodup_fromKeys _
  unfold getPriorityLists
  rw [hb]
  simp only
  cases rm with
  | false => exact ⟨_, rfl, hnd, fun pl => by rw [hlist]; simp⟩
  | true =>
    have hc : ∀ x ∈ named g.cont.fullDict, (g.heap x.2).marginalCost = .ok (costOf g.heap x.2) := by
      rintro ⟨key, i⟩ hx
      obtain ⟨l, hl, hi⟩ := mem_named.mp hx
      refine costOf_ok (ok.wf (key.1, i) ?_)
      rw [ok.cont] at hl
      apply Container.mem_full (h := g.heap)
      simp only [Container.toTuples, List.mem_flatMap, List.mem_map, Prod.mk.injEq]
      exact ⟨_, hl, i, List.mem_of_getElem? hi, rfl, rfl⟩
    obtain ⟨red, hr, hmr⟩ := redundant_ok hc
    rw [hr]
    refine ⟨_, rfl, hnd.filter _, fun pl => ?_⟩
    rw [List.mem_filter, hlist]
    refine and_congr_right fun hp => ?_
    simp only [Bool.not_eq_true', List.any_eq_false, List.contains_iff_mem, forall_const]
    constructor
    · intro hno e he i gs hd hk h0
      obtain ⟨j, hd', ha, hlt, hcost⟩ := hp.element e he
      have := Denotes.unique hd hd'
      subst this
      have h2 : e.actions = 2 := by rw [ha, hk]; rfl
      by_contra hne
      have hz : e.action = 0 := by omega
      have hin : e ∈ red := (hmr e).mpr ⟨i, gs, (mem_full ok hu hd.mem.2).mpr hd, hk, h0, h2, hz, by
        have := costOf_ok (h := g.heap) (ok.wf _ hd.mem.1)
        rw [hcost] at this
        exact Except.ok.inj this⟩
      exact hno e hin he
    · intro hno e hin he
      obtain ⟨i, gs, hi, hk, h0, h2, hz, -⟩ := (hmr e).mp hin
      obtain ⟨j, hd', ha, hlt, hcost⟩ := hp.element e he
      have hf : (g.heap i).ffc = .controllable := by
        obtain ⟨l, hl, hii⟩ := mem_named.mp hi
        rw [ok.cont] at hl
        have hmem : (e.module.1, i) ∈ mods := by
          apply Container.mem_full (h := g.heap)
          simp only [Container.toTuples, List.mem_flatMap, List.mem_map, Prod.mk.injEq]
          exact ⟨_, hl, i, List.mem_of_getElem? hii, rfl, rfl⟩
        exact genset_controllable (ok.wf _ hmem) hk
      have := hno e he i gs ((mem_full ok hu hf).mp hi) hk h0
      omega

end PriorityList

end Pymgrid
