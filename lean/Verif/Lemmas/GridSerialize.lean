import Verif.Lemmas.Reload
import Verif.Lemmas.Rename
import Verif.Lemmas.BalanceLog
import Verif.Lemmas.Cls
import Verif.Lemmas.RBC
import Verif.Spec.GridSerialize

set_option autoImplicit false

/-! Dumping and loading microgrids. -/

namespace Pymgrid

open Module

/-! ### Rebuilding a container from its own list -/

/-- Group a list of references by name. -/
def group (l : List (String × Nat)) (d : ModDict) : ModDict := l.foldl (fun d x => d.append x.1 x.2) d

theorem cat_group (h : Heap) (l : List (String × Nat)) (f : FFC) (s : SS) :
    (Container.build h l).cat f s = group (l.filter (Container.inCat h f s)) [] := by
  induction l using List.reverseRecOn with
  | nil => rfl
  | append_singleton l x ih =>
    rw [Container.build_snoc, Container.add_cat, ih, List.filter_append]
    by_cases hx : Container.inCat h f s x = true
    · simp [hx, group]
    · simp [hx, group]

theorem append_fresh {d : ModDict} {n : String} {i : Nat} (h : n ∉ d.map Prod.fst) : d.append n i = d ++ [(n, [i])] := by
  unfold ModDict.append
  induction d with
  | nil => rfl
  | cons x d ih =>
    simp only [List.map_cons, List.mem_cons, not_or] at h
    have h1 : x.1 ≠ n := fun e => h.1 e.symm
    have := ih h.2
    simp only [dictGet?, h1, if_false, dictSet] at this ⊢
    cases hd : dictGet? d n with
    | none => rw [hd] at this; simp only at this ⊢; rw [this]; rfl
    | some l => rw [hd] at this; simp only at this ⊢; rw [this]; rfl

theorem append_last {d : ModDict} {n : String} {l : List Nat} {i : Nat} (h : n ∉ d.map Prod.fst) :
    (ModDict.append (d ++ [(n, l)]) n i) = d ++ [(n, l ++ [i])] := by
  unfold ModDict.append
  induction d with
  | nil => simp [dictGet?, dictSet]
  | cons x d ih =>
    simp only [List.map_cons, List.mem_cons, not_or] at h
    have h1 : x.1 ≠ n := fun e => h.1 e.symm
    have := ih h.2
    simp only [List.cons_append, dictGet?, h1, if_false, dictSet] at this ⊢
    cases hd : dictGet? (d ++ [(n, l)]) n with
    | none => rw [hd] at this; simp only at this ⊢; rw [this]
    | some l => rw [hd] at this; simp only at this ⊢; rw [this]

theorem group_one {d : ModDict} {n : String} (h : n ∉ d.map Prod.fst) {l : List Nat} (hl : l ≠ []) :
    group (l.map fun i => (n, i)) d = d ++ [(n, l)] := by
  induction l using List.reverseRecOn with
  | nil => exact absurd rfl hl
  | append_singleton l i ih =>
    rw [List.map_append, group, List.foldl_append]
    by_cases hn : l = []
    · subst hn
      simp only [List.map_nil, List.foldl_nil, List.map_cons, List.foldl_cons, List.nil_append]
      exact append_fresh h
    · have := ih hn
      rw [group] at this
      rw [this]
      simp only [List.map_cons, List.map_nil, List.foldl_cons, List.foldl_nil]
      exact append_last h

theorem group_tuples {d e : ModDict} (hn : ((d ++ e).map Prod.fst).Nodup) (hl : ∀ x ∈ e, x.2 ≠ []) :
    group (Container.toTuples e) d = d ++ e := by
  induction e generalizing d with
  | nil => simp [Container.toTuples, group]
  | cons x e ih =>
    have h1 : x.1 ∉ d.map Prod.fst := by
      intro hm
      rw [List.map_append, List.nodup_append] at hn
      exact hn.2.2 _ hm x.1 (by simp) rfl
    have : Container.toTuples (x :: e) = (x.2.map fun i => (x.1, i)) ++ Container.toTuples e := by
      simp [Container.toTuples]
    rw [this, group, List.foldl_append]
    have := group_one h1 (hl x (by simp))
    rw [group] at this
    rw [this]
    have := ih (d := d ++ [(x.1, x.2)]) (by simpa using hn) (fun y hy => hl y (by simp [hy]))
    rw [group] at this
    rw [this]
    simp

/-- All references of one category. -/
theorem tuples_inCat {h : Heap} {mods : List (String × Nat)} {f : FFC} {s : SS} {x : String × Nat}
    (hx : x ∈ Container.toTuples ((Container.build h mods).cat f s)) : Container.inCat h f s x = true := by
  have := (Container.cat_perm h mods f s).subset hx
  exact (List.mem_filter.mp this).2

theorem build_tuples {h : Heap} {mods : List (String × Nat)} (hd : DistinctNames h mods) :
    Container.build h (Container.toTuples (Container.build h mods).fullDict) = Container.build h mods := by
  have hcat : ∀ f s, (Container.build h (Container.toTuples (Container.build h mods).fullDict)).cat f s =
      (Container.build h mods).cat f s := by
    intro f s
    rw [cat_group, Container.full_flatten hd, Container.toTuples_flatten, List.filter_flatten, List.map_map]
    have key : ∀ f' s', (Container.toTuples ((Container.build h mods).cat f' s')).filter (Container.inCat h f s) =
        if f' = f ∧ s' = s then Container.toTuples ((Container.build h mods).cat f s) else [] := by
      intro f' s'
      by_cases he : f' = f ∧ s' = s
      · obtain ⟨rfl, rfl⟩ := he
        rw [if_pos ⟨rfl, rfl⟩, List.filter_eq_self]
        exact fun x hx => tuples_inCat hx
      · rw [if_neg he, List.filter_eq_nil_iff]
        intro x hx
        have := tuples_inCat hx
        simp only [Container.inCat, decide_eq_true_eq] at this ⊢
        rintro ⟨e1, e2⟩
        exact he ⟨this.1.symm.trans e1, this.2.symm.trans e2⟩
    have : ((Container.build h mods).all.map ((List.filter (Container.inCat h f s)) ∘ Container.toTuples)).flatten =
        Container.toTuples ((Container.build h mods).cat f s) := by
      unfold Container.all Container.level
      simp only [List.cons_append, List.nil_append, List.map_cons, List.map_nil, Function.comp, key]
      cases f <;> cases s <;> simp
    rw [this]
    have := group_tuples (d := []) (e := (Container.build h mods).cat f s) (by simpa using Container.cat_nodup h mods f s)
      (fun x hx => by
        obtain ⟨n, l⟩ := x
        exact (Container.mem_cat.mp hx).2)
    simpa using this
  generalize Container.build h (Container.toTuples (Container.build h mods).fullDict) = c at hcat
  generalize Container.build h mods = c' at hcat
  obtain ⟨c⟩ := c
  obtain ⟨c'⟩ := c'
  congr
  funext f s
  exact hcat f s

theorem build_rename {h h' : Heap} {σ : Nat → Nat} {l : List (String × Nat)}
    (hh : ∀ x ∈ l, (h' (σ x.2)).ffc = (h x.2).ffc ∧ (h' (σ x.2)).ss = (h x.2).ss) :
    Container.build h' (l.map fun x => (x.1, σ x.2)) = (Container.build h l).rename σ := by
  induction l using List.reverseRecOn with
  | nil => rfl
  | append_singleton l x ih =>
    rw [List.map_append, List.map_cons, List.map_nil, Container.build_snoc, Container.build_snoc,
      ih fun y hy => hh y (by simp [hy])]
    obtain ⟨e1, e2⟩ := hh x (by simp)
    unfold Container.add Container.rename
    simp only [Container.mk.injEq]
    funext f s
    rw [e1, e2]
    split
    · rw [rename_append]
    · rfl

/-! ### Numbering -/

/-- The number of a module in the list of all modules. -/
def numberIn (T : List (String × Nat)) (i : Nat) : Nat := (T.map Prod.snd).idxOf i

theorem references_number {T : List (String × Nat)} (hn : (T.map Prod.snd).Nodup) (F : Nat → Module) :
    Legacy.references (T.map fun x => (x.1, F x.2)) = T.map fun x => (x.1, numberIn T x.2) := by
  apply List.ext_getElem
  · simp [Legacy.references]
  intro k h1 h2
  simp only [List.length_map] at h2
  simp only [Legacy.references, List.getElem_map, List.getElem_zipIdx, Nat.zero_add, Prod.mk.injEq, true_and]
  have := List.Nodup.idxOf_getElem hn k (by simpa using h2)
  rw [List.getElem_map] at this
  exact this.symm

theorem place_number {T : List (String × Nat)} (F : Nat → Module) {x : String × Nat} (hx : x ∈ T) :
    Legacy.place (T.map fun x => (x.1, F x.2)) (numberIn T x.2) = F x.2 := by
  have hm : x.2 ∈ T.map Prod.snd := List.mem_map_of_mem hx
  have hlt := List.idxOf_lt_length_of_mem hm
  have hg := List.getElem_idxOf hlt
  unfold Legacy.place numberIn
  have hlt' : (T.map Prod.snd).idxOf x.2 < T.length := by simpa using hlt
  rw [List.getElem?_map, List.getElem?_eq_getElem hlt']
  simp only [Option.map_some]
  rw [List.getElem_map] at hg
  rw [hg]

theorem number_inj {T : List (String × Nat)} {i j : Nat} (hi : i ∈ T.map Prod.snd) (he : numberIn T i = numberIn T j) :
    i = j := (List.idxOf_inj hi).mp he

/-! ### Dumping and loading all modules -/

theorem Module.load_class {m : Module} {c : FFC} (hc : m.kind.cls = .grid → m.ffc = c) {d : Dump} (hd : m.dump = .ok d) :
    d.load c = d.load m.ffc := by
  have hp : d.params = m.params := by
    unfold dump at hd
    split at hd
    · simp at hd
    · split at hd
      · simp only [Except.ok.injEq] at hd
        rw [← hd]
      · simp at hd
  have hb : m.params.build c = m.params.build m.ffc := by
    unfold params
    cases hk : m.kind with
    | grid p t => rw [hc (by rw [hk]; rfl)]
    | _ => rfl
  unfold Dump.load
  rw [hp, hb]

theorem dump_load_all {h : Heap} {c : FFC} {T : List (String × Nat)} (hl : ∀ x ∈ T, LibraryModule (h x.2))
    (hn : ∀ x ∈ T, ¬ (h x.2).HasCallable) (hc : ∀ x ∈ T, (h x.2).kind.cls = .grid → (h x.2).ffc = c) :
    ∃ ds, dumpAll h T = .ok ds ∧ loadAll c ds = .ok (T.map fun x => (x.1, loadedOf (h x.2))) := by
  induction T with
  | nil => exact ⟨[], rfl, rfl⟩
  | cons x T ih =>
    obtain ⟨n, i⟩ := x
    obtain ⟨ds, h1, h2⟩ := ih (fun y hy => hl y (by simp [hy])) (fun y hy => hn y (by simp [hy]))
      (fun y hy => hc y (by simp [hy]))
    have hr := loadedOf_eq (hl (n, i) (by simp)) (hn (n, i) (by simp))
    unfold reload at hr
    cases hd : (h i).dump with
    | error e => simp only [hd] at hr; simp at hr
    | ok d =>
      simp only [hd] at hr
      refine ⟨(n, d) :: ds, ?_, ?_⟩
      · simp only [dumpAll, hd, h1]
      · simp only [loadAll, Module.load_class (hc (n, i) (by simp)) hd, hr, h2, List.map_cons]

theorem dumpAll_error {h : Heap} {T : List (String × Nat)} (hl : ∀ x ∈ T, LibraryModule (h x.2))
    (hn : ∃ x ∈ T, (h x.2).HasCallable) : dumpAll h T = .error .type := by
  induction T with
  | nil => simp at hn
  | cons x T ih =>
    obtain ⟨n, i⟩ := x
    unfold dumpAll
    by_cases hc : (h i).HasCallable
    · rw [callable_dump (hl (n, i) (by simp)) hc]
    · have hr := loadedOf_eq (hl (n, i) (by simp)) hc
      unfold reload at hr
      cases hd : (h i).dump with
      | error e => simp only [hd] at hr; simp at hr
      | ok d =>
        simp only
        rw [ih (fun y hy => hl y (by simp [hy])) (by
          obtain ⟨y, hy, hy'⟩ := hn
          rcases List.mem_cons.mp hy with rfl | hy
          · exact absurd hy' hc
          · exact ⟨y, hy, hy'⟩)]

/-! ### A microgrid that can be dumped -/

theorem LibraryModule.reload_alike {m : Module} (h : LibraryModule m) (hc : ¬ m.HasCallable) :
    (loadedOf m).mod.ffc = m.ffc ∧ (loadedOf m).mod.ss = m.ss ∧ (loadedOf m).mod.initialStep = m.initialStep ∧
      (loadedOf m).mod.finalStep? = m.finalStep? ∧ (loadedOf m).mod.currentStep = m.currentStep ∧
      (loadedOf m).mod.logger = m.logger := by
  obtain ⟨l, hl, -, h1, h2⟩ := h.reloaded hc
  have : l = loadedOf m := by rw [loadedOf_eq h hc] at hl; injection hl with hl; exact hl.symm
  subst this
  cases hs : m.series? with
  | none => rw [h1 hs]; exact ⟨rfl, rfl, rfl, rfl, rfl, rfl⟩
  | some t =>
    obtain ⟨t₀, s, -, -, e⟩ := h2 t hs
    rw [e]
    refine ⟨rfl, ?_, rfl, ?_, rfl, rfl⟩
    · unfold ss isSource isSink
      cases hk : m.kind <;> simp [Kind.withTS]
    · unfold finalStep?
      unfold series? at hs
      cases hk : m.kind <;> rw [hk] at hs <;> simp at hs <;> subst hs <;> simp [Kind.withTS, s.finalStep]

/-- What loading needs to know about a microgrid. -/
structure Dumpable (mods : List (String × Nat)) (c : FFC) (g : Microgrid) : Prop where
  ok : GridOK mods g
  ids : (mods.map Prod.snd).Nodup
  names : DistinctNames g.heap mods
  lib : ∀ nm ∈ mods, LibraryModule (g.heap nm.2)
  log : ∃ rows, g.balanceLog.Holds balanceKeys rows
  init : ∀ nm ∈ mods, (g.heap nm.2).initialStep = g.initialStep
  fin : ∀ nm ∈ mods, ∀ f, (g.heap nm.2).finalStep? = some f → g.finalStep = some f
  some : mods = [] ∨ ∃ nm ∈ mods, (g.heap nm.2).finalStep?.isSome
  cls : ∀ nm ∈ mods, (g.heap nm.2).kind.cls = .grid → (g.heap nm.2).ffc = c

section
variable {mods : List (String × Nat)} {c : FFC} {g : Microgrid}

/-- The dumped list of modules. -/
abbrev Microgrid.tuples (g : Microgrid) : List (String × Nat) := Container.toTuples g.cont.fullDict

theorem Dumpable.perm (d : Dumpable mods c g) : g.tuples.Perm mods := by
  unfold Microgrid.tuples
  rw [d.ok.cont]
  exact Container.full_perm d.names

theorem Dumpable.nodup (d : Dumpable mods c g) : (g.tuples.map Prod.snd).Nodup :=
  (d.perm.map Prod.snd).nodup_iff.mpr d.ids

/-- The loaded microgrid. -/
def reloadedGrid (g : Microgrid) : LoadedGrid :=
  { grid := { g with heap := Legacy.place (g.tuples.map fun x => (x.1, (loadedOf (g.heap x.2)).mod))
                     cont := g.cont.rename (numberIn g.tuples), shaper := none, otherLog := {} }
    frozen := fun i => ((g.tuples[i]?).map fun x => (loadedOf (g.heap x.2)).frozen).getD false
    frozenBalance := decide (0 < g.balanceLog.len) }

theorem Dumpable.reload (d : Dumpable mods c g) (hn : ∀ nm ∈ mods, ¬ (g.heap nm.2).HasCallable) :
    g.reload c = .ok (reloadedGrid g) := by
  have hsub := d.perm.subset
  obtain ⟨ds, h1, h2⟩ := dump_load_all (h := g.heap) (c := c) (T := g.tuples) (fun x hx => d.lib x (hsub hx))
    (fun x hx => hn x (hsub hx)) (fun x hx => d.cls x (hsub hx))
  obtain ⟨rows, hr⟩ := d.log
  obtain ⟨raw, l1, l2, l3⟩ := Logger.Holds.serialize (show g.balanceLog.Holds (.str "reward" :: _) rows from hr)
  unfold Microgrid.reload Microgrid.dump
  rw [l1]
  simp only [h1]
  unfold GridDump.load
  simp only [h2, List.map_map]
  obtain ⟨F, hF⟩ : ∃ F : Nat → Module, F = fun i => (loadedOf (g.heap i)).mod := ⟨_, rfl⟩
  have hms : (List.map ((fun nl : String × Loaded => (nl.1, nl.2.mod)) ∘ fun x => (x.1, loadedOf (g.heap x.2))) g.tuples) =
      g.tuples.map fun x => (x.1, F x.2) := by rw [hF]; rfl
  rw [hms, references_number d.nodup]
  have halike : ∀ x ∈ g.tuples, (F x.2).ffc = (g.heap x.2).ffc ∧ (F x.2).ss = (g.heap x.2).ss ∧
      (F x.2).initialStep = (g.heap x.2).initialStep ∧ (F x.2).finalStep? = (g.heap x.2).finalStep? := by
    intro x hx
    rw [hF]
    obtain ⟨a1, a2, a3, a4, -⟩ := (d.lib x (hsub hx)).reload_alike (hn x (hsub hx))
    exact ⟨a1, a2, a3, a4⟩
  have hcont : Container.build (Legacy.place (g.tuples.map fun x => (x.1, F x.2)))
      (g.tuples.map fun x => (x.1, numberIn g.tuples x.2)) = g.cont.rename (numberIn g.tuples) := by
    rw [build_rename (h := g.heap)]
    · congr 1
      have := build_tuples d.names
      rw [← d.ok.cont] at this
      exact this
    · intro x hx
      rw [place_number _ hx]
      exact ⟨(halike x hx).1, (halike x hx).2.1⟩
  have hids : (Container.toTuples (g.cont.rename (numberIn g.tuples)).fullDict).map Prod.snd =
      (g.tuples.map Prod.snd).map (numberIn g.tuples) := by
    rw [Container.rename_full, rename_toTuples, List.map_map, List.map_map]
    rfl
  rcases d.some with h0 | ⟨nm, hm, hs⟩
  · have ht : g.tuples = [] := by
      have := d.perm
      rw [h0] at this
      exact this.eq_nil
    rw [ht, List.map_nil, List.map_nil] at hcont
    unfold Microgrid.create
    simp only [ht, List.map_nil, List.isEmpty_nil, if_true, Microgrid.checkTrajectory]
    unfold reloadedGrid
    simp only [l2, l3, ht, hcont, Except.ok.injEq]
    rfl
  have hne : g.tuples ≠ [] := fun e => by
    have := d.perm.symm.subset hm
    rw [e] at this
    simp at this
  obtain ⟨f₀, hf₀⟩ := Option.isSome_iff_exists.mp hs
  have hfin := d.fin nm hm f₀ hf₀
  unfold Microgrid.create
  rw [if_neg (by simpa using hne)]
  simp only [hcont, hids]
  have u1 : uniqueVal (((g.tuples.map Prod.snd).map (numberIn g.tuples)).map fun i =>
      (Legacy.place (g.tuples.map fun x => (x.1, F x.2)) i).initialStep) =
      .ok g.initialStep := by
    apply uniqueVal_of
    · intro y hy
      simp only [List.mem_map, exists_exists_and_eq_and] at hy
      obtain ⟨x, hx, rfl⟩ := hy
      rw [place_number F hx, (halike x hx).2.2.1, d.init x (hsub hx)]
    · simpa using hne
  have u2 : uniqueVal (((g.tuples.map Prod.snd).map (numberIn g.tuples)).filterMap fun i =>
      (Legacy.place (g.tuples.map fun x => (x.1, F x.2)) i).finalStep?) =
      .ok f₀ := by
    apply uniqueVal_of
    · intro y hy
      simp only [List.mem_filterMap, List.mem_map, exists_exists_and_eq_and] at hy
      obtain ⟨x, hx, he⟩ := hy
      rw [place_number F hx, (halike x hx).2.2.2] at he
      have := d.fin x (hsub hx) y he
      rw [hfin] at this
      injection this with this
      exact this.symm
    · apply List.ne_nil_of_mem (a := f₀)
      simp only [List.mem_filterMap, List.mem_map, exists_exists_and_eq_and]
      refine ⟨nm, d.perm.symm.subset hm, ?_⟩
      rw [place_number F (d.perm.symm.subset hm),
        (halike nm (d.perm.symm.subset hm)).2.2.2, hf₀]
  simp only [u1, u2, Microgrid.checkTrajectory]
  unfold reloadedGrid
  simp only [l2, l3, hfin, hF, Except.ok.injEq]
  congr 1
  funext i
  rw [List.getElem?_map, Option.map_map]
  rfl

end

/-! ### Histories without trajectory -/

section
variable {mods : List (String × Nat)} {g : Microgrid}

/-- Modules only step and reset. -/
theorem runG_rel {P : Module → Module → Prop} (hP : Respected P) (hr : ∀ m, P m m.reset.1) (htr : g.trajectory = none)
    (ops : List GOp) (j : Nat) : P (g.heap j) ((runG g ops).heap j) := by
  have many : ∀ (l : List Nat) (h : Heap) (j : Nat), P (h j) ((Microgrid.resetMany h l).1 j) := by
    intro l
    induction l with
    | nil => intro h j; exact hP.refl _
    | cons i l ih =>
      intro h j
      have hs := hr (h i)
      simp only [Microgrid.resetMany]
      cases he : (h i).reset with
      | mk m' r =>
        rw [he] at hs
        cases r with
        | error e => exact heapSet_rel hP.refl hs j
        | ok _ => exact hP.trans (heapSet_rel hP.refl hs j) (ih _ j)
  unfold runG
  induction ops generalizing g with
  | nil => exact hP.refl _
  | cons op ops ih =>
    have htr' : (op.apply g).trajectory = none := by
      cases op with
      | run c n => exact (g.run_fixed c n).trajectory.trans htr
      | reset => exact g.reset_fixed.trajectory.trans htr
    refine hP.trans ?_ (ih htr')
    cases op with
    | run c n => exact hP.run g c n j
    | reset =>
      simp only [GOp.apply, Microgrid.reset, Microgrid.setTrajectory, htr]
      have := many ((Container.toTuples g.cont.fullDict).map Prod.snd) g.heap j
      split
      · rename_i he; rw [he] at this; exact this
      · rename_i he; rw [he] at this; exact this

theorem respected_library : Respected fun m m' => LibraryModule m → LibraryModule m' :=
  { refl := fun _ h => h, trans := fun h h' x => h' (h x), step := fun _ a n h => .step h a n }

theorem respected_det : Respected fun m m' => m.Deterministic → m'.Deterministic :=
  { refl := fun _ h => h, trans := fun h h' x => h' (h x), step := fun m a n h => (twin_step (rfl : m.core = m.core) h a n).2.2 }

theorem Dumpable.created {h : Heap} {sh : Option Shaper} {tr : Option (Nat → Nat → Option Nat → Except Err (Nat × Nat))}
    {c : FFC} (hc : Microgrid.create h mods sh tr = .ok g) (hl : ∀ nm ∈ mods, LibraryModule (h nm.2))
    (hid : (mods.map Prod.snd).Nodup) (hd : DistinctNames h mods)
    (hcls : ∀ nm ∈ mods, (h nm.2).kind.cls = .grid → (h nm.2).ffc = c) : Dumpable mods c g := by
  have ok := GridOK.created hc hl
  by_cases hne : mods = []
  · obtain ⟨rfl, -, -, -, hb, -⟩ := Microgrid.create_ok hc
    subst hne
    exact ⟨ok, hid, hd, hl, ⟨[], by rw [hb]; exact Logger.Holds.empty _⟩, by simp, by simp, .inl rfl, hcls⟩
  obtain ⟨hi, f, hf, hfin⟩ := Microgrid.create_some hc hne
  obtain ⟨rfl, hcont, -, -, hb, -⟩ := Microgrid.create_ok hc
  have hp := Container.full_perm hd
  obtain ⟨i1, i2⟩ := uniqueVal_ok hi
  obtain ⟨f1, f2⟩ := uniqueVal_ok hfin
  refine ⟨ok, hid, hd, hl, ⟨[], by rw [hb]; exact Logger.Holds.empty _⟩, ?_, ?_, ?_, hcls⟩
  · intro nm hm
    exact i1 _ (List.mem_map.mpr ⟨nm.2, List.mem_map_of_mem (hp.symm.subset hm), rfl⟩)
  · intro nm hm f' hf'
    rw [hf, f1 f' (List.mem_filterMap.mpr ⟨nm.2, List.mem_map_of_mem (hp.symm.subset hm), hf'⟩)]
  · obtain ⟨y, hy⟩ := List.exists_mem_of_ne_nil _ f2
    obtain ⟨i, hi, he⟩ := List.mem_filterMap.mp hy
    obtain ⟨nm, hm, rfl⟩ := List.mem_map.mp hi
    exact .inr ⟨nm, hp.subset hm, by rw [he]; rfl⟩

theorem Dumpable.runG {c : FFC} (d : Dumpable mods c g) (htr : g.trajectory = none) (ops : List GOp) :
    Dumpable mods c (runG g ops) := by
  have ha := kept_alike.runG g ops
  have hl := limits_kept htr ops
  have hf := runG_fixed g ops
  refine ⟨d.ok.runG ops, d.ids, d.names.congr ha, ?_, holds_runG d.log ops, ?_, ?_, ?_, ?_⟩
  · intro nm hm
    exact runG_rel respected_library (fun _ => .reset) htr ops nm.2 (d.lib nm hm)
  · intro nm hm
    rw [(hl nm.2).1, hf.initialStep]
    exact d.init nm hm
  · intro nm hm f he
    rw [(hl nm.2).2] at he
    rw [hf.finalStep]
    exact d.fin nm hm f he
  · rcases d.some with h0 | ⟨nm, hm, hs⟩
    · exact .inl h0
    · exact .inr ⟨nm, hm, by rw [(hl nm.2).2]; exact hs⟩
  · intro nm hm he
    rw [(ha nm.2).ffc]
    apply d.cls nm hm
    rw [← he]
    exact (kept_cls.runG g ops nm.2).symm

end

/-! ### Running a loaded microgrid -/

section
variable {st : Stepper}

theorem stepOneWith_free (hst : ∀ i m a n, st i m a n = m.step a n) (s : RunSt) (name : String) (i : Nat) (a : Act)
    (n : Bool) : s.stepOneWith st name i a n = s.stepOne name i a n := by
  unfold RunSt.stepOneWith RunSt.stepOne
  rw [hst]
  rfl

theorem stepManyWith_free (hst : ∀ i m a n, st i m a n = m.step a n) (l : List (String × Nat × Act)) (n : Bool) (s : RunSt) :
    RunSt.stepManyWith st l n s = RunSt.stepMany l n s := by
  induction l generalizing s with
  | nil => rfl
  | cons x l ih =>
    obtain ⟨name, i, a⟩ := x
    simp only [RunSt.stepManyWith, RunSt.stepMany, stepOneWith_free hst, ih]
    rfl

theorem stepControlsWith_free (hst : ∀ i m a n, st i m a n = m.step a n) (control : List (String × Ctrl)) (n : Bool)
    (d : ModDict) (s : RunSt) : RunSt.stepControlsWith st control n d s = RunSt.stepControls control n d s := by
  induction d generalizing s with
  | nil => rfl
  | cons x d ih =>
    obtain ⟨name, ids⟩ := x
    simp only [RunSt.stepControlsWith, RunSt.stepControls, stepManyWith_free hst, ih]
    rfl

theorem absorbExcessWith_free (hst : ∀ i m a n, st i m a n = m.step a n) (l : List (String × Nat)) (x : ℚ) (s : RunSt) :
    RunSt.absorbExcessWith st l x s = RunSt.absorbExcess l x s := by
  induction l generalizing s x with
  | nil => rfl
  | cons y l ih =>
    obtain ⟨name, i⟩ := y
    simp only [RunSt.absorbExcessWith, RunSt.absorbExcess, stepOneWith_free hst, ih]
    rfl

theorem coverNeedWith_free (hst : ∀ i m a n, st i m a n = m.step a n) (l : List (String × Nat)) (x : ℚ) (s : RunSt) :
    RunSt.coverNeedWith st l x s = RunSt.coverNeed l x s := by
  induction l generalizing s x with
  | nil => rfl
  | cons y l ih =>
    obtain ⟨name, i⟩ := y
    simp only [RunSt.coverNeedWith, RunSt.coverNeed, stepOneWith_free hst, ih]
    rfl

theorem runWith_free (hst : ∀ i m a n, st i m a n = m.step a n) (g : Microgrid) (control : List (String × Ctrl)) (n : Bool) :
    g.runWith st false control n = g.run control n := by
  unfold Microgrid.runWith Microgrid.run Microgrid.dispatchWith Microgrid.dispatch Microgrid.finishWith
  simp only [stepManyWith_free hst, stepControlsWith_free hst, absorbExcessWith_free hst, coverNeedWith_free hst,
    Bool.false_eq_true, if_false]
  rfl

/-- A run that reaches the balance log fails if that log cannot append. -/
theorem runWith_stuck (g : Microgrid) (control : List (String × Ctrl)) (n : Bool) :
    ∃ e, (g.runWith st true control n).2 = .error e := by
  unfold Microgrid.runWith Microgrid.finishWith
  simp only [if_true]
  repeat' split
  all_goals exact ⟨_, rfl⟩

end

/-- A loaded microgrid without any log entries behaves like every other one. -/
theorem loaded_results (g : Microgrid) (ops : List GOp) :
    LoadedGrid.results ⟨g, fun _ => false, false⟩ ops = g.results ops ∧
      LoadedGrid.after ⟨g, fun _ => false, false⟩ ops = ⟨runG g ops, fun _ => false, false⟩ := by
  have hrun : ∀ (g : Microgrid) (c : List (String × Ctrl)) (n : Bool),
      LoadedGrid.run ⟨g, fun _ => false, false⟩ c n = (⟨(g.run c n).1, fun _ => false, false⟩, (g.run c n).2) := by
    intro g c n
    unfold LoadedGrid.run
    have : g.runWith (LoadedGrid.stepper ⟨g, fun _ => false, false⟩) false c n = g.run c n :=
      runWith_free (fun i m a n => by simp [LoadedGrid.stepper]) g c n
    simp only [this]
  have hreset : ∀ g : Microgrid, LoadedGrid.reset ⟨g, fun _ => false, false⟩ = (⟨g.reset.1, fun _ => false, false⟩, g.reset.2) := by
    intro g
    unfold LoadedGrid.reset
    cases h : g.setTrajectory with
    | mk g₁ r =>
      cases r with
      | error e => simp only [Microgrid.reset, h]
      | ok u => simp only [Bool.false_and]
  induction ops generalizing g with
  | nil => exact ⟨rfl, rfl⟩
  | cons op ops ih =>
    cases op with
    | run c n =>
      obtain ⟨h1, h2⟩ := ih (g.run c n).1
      refine ⟨?_, ?_⟩
      · simp only [LoadedGrid.results, Microgrid.results, hrun, h1]
      · rw [LoadedGrid.after, List.foldl_cons, LoadedGrid.apply, hrun]
        exact h2
    | reset =>
      obtain ⟨h1, h2⟩ := ih g.reset.1
      refine ⟨?_, ?_⟩
      · simp only [LoadedGrid.results, Microgrid.results, hreset, h1]
      · rw [LoadedGrid.after, List.foldl_cons, LoadedGrid.apply, hreset]
        exact h2

theorem TwinGrid.results {σ : Nat → Nat} {g g' : Microgrid} (t : TwinGrid σ g g') (ops : List GOp) :
    g'.results ops = g.results ops ∧ TwinGrid σ (Pymgrid.runG g ops) (Pymgrid.runG g' ops) := by
  induction ops generalizing g g' with
  | nil => exact ⟨rfl, t⟩
  | cons op ops ih =>
    cases op with
    | run c n =>
      obtain ⟨t', e⟩ := t.run c n
      obtain ⟨h1, h2⟩ := ih t'
      exact ⟨by simp only [Microgrid.results, h1, e], h2⟩
    | reset =>
      obtain ⟨t', e⟩ := t.reset
      obtain ⟨h1, h2⟩ := ih t'
      exact ⟨by simp only [Microgrid.results, h1, e], h2⟩

/-! ### The loaded microgrid as a twin -/

section
variable {mods : List (String × Nat)} {c : FFC} {g : Microgrid}

theorem Dumpable.mem_fullList (d : Dumpable mods c g) {i : Nat} : i ∈ g.cont.fullList ↔ i ∈ mods.map Prod.snd := by
  rw [d.ok.cont]
  exact (Container.fullList_perm g.heap mods).mem_iff

theorem Dumpable.mem_tuples (d : Dumpable mods c g) {i : Nat} (hi : i ∈ mods.map Prod.snd) : ∃ n, (n, i) ∈ g.tuples ∧ (n, i) ∈ mods := by
  obtain ⟨nm, hm, rfl⟩ := List.mem_map.mp hi
  exact ⟨nm.1, d.perm.symm.subset hm, hm⟩

theorem Dumpable.number_inj (d : Dumpable mods c g) : ∀ i ∈ g.cont.fullList, ∀ j ∈ g.cont.fullList,
    numberIn g.tuples i = numberIn g.tuples j → i = j := by
  intro i hi j _ he
  obtain ⟨n, hn, -⟩ := d.mem_tuples (d.mem_fullList.mp hi)
  exact Pymgrid.number_inj (List.mem_map_of_mem (f := Prod.snd) hn) he

theorem reloadedGrid_heap {x : String × Nat} (hx : x ∈ g.tuples) :
    (reloadedGrid g).grid.heap (numberIn g.tuples x.2) = (loadedOf (g.heap x.2)).mod :=
  place_number (fun i => (loadedOf (g.heap i)).mod) hx

theorem Dumpable.twin (d : Dumpable mods c g) (hn : ∀ nm ∈ mods, ¬ (g.heap nm.2).HasCallable)
    (hd : ∀ nm ∈ mods, (g.heap nm.2).Deterministic) (h0 : ∀ nm ∈ mods, (g.heap nm.2).logger.len = 0)
    (hs : g.shaper = none) : TwinGrid (numberIn g.tuples) g (reloadedGrid g).grid := by
  refine ⟨⟨d.number_inj, ?_, ?_⟩, rfl, rfl, rfl, hs.symm, rfl, rfl⟩
  · intro i hi
    obtain ⟨n, h1, h2⟩ := d.mem_tuples (d.mem_fullList.mp hi)
    rw [reloadedGrid_heap h1]
    exact (reloaded_core (d.lib _ h2) (hd _ h2) (h0 _ h2) (loadedOf_eq (d.lib _ h2) (hn _ h2))).symm
  · intro i hi
    obtain ⟨n, h1, h2⟩ := d.mem_tuples (d.mem_fullList.mp hi)
    exact hd _ h2

theorem Dumpable.unfrozen (d : Dumpable mods c g) (hn : ∀ nm ∈ mods, ¬ (g.heap nm.2).HasCallable)
    (h0 : ∀ nm ∈ mods, (g.heap nm.2).logger.len = 0) (hb : g.balanceLog.len = 0) :
    reloadedGrid g = ⟨(reloadedGrid g).grid, fun _ => false, false⟩ := by
  have h1 : (reloadedGrid g).frozenBalance = false := by simp [reloadedGrid, hb]
  have h2 : (reloadedGrid g).frozen = fun _ => false := by
    funext i
    unfold reloadedGrid
    simp only
    cases hi : g.tuples[i]? with
    | none => rfl
    | some x =>
      have hx := d.perm.subset (List.mem_of_getElem? hi)
      simp only [Option.map_some, Option.getD_some]
      rw [reloaded_frozen (d.lib x hx) (loadedOf_eq (d.lib x hx) (hn x hx)), h0 x hx]
      rfl
  conv_rhs => rw [← h2]
  conv_rhs => rw [← h1]

theorem resetMany_each {l : List Nat} {h : Heap} (hn : l.Nodup) (hr : ∀ i ∈ l, ∃ m obs, (h i).reset = (m, .ok obs)) :
    (∃ h', Microgrid.resetMany h l = (h', .ok ())) ∧ LoadedGrid.thawed h l = l := by
  induction l generalizing h with
  | nil => exact ⟨⟨h, rfl⟩, rfl⟩
  | cons i l ih =>
    rw [List.nodup_cons] at hn
    obtain ⟨m, obs, e⟩ := hr i (by simp)
    have := ih (h := h.set i m) hn.2 (fun j hj => by
      have : j ≠ i := fun e => hn.1 (e ▸ hj)
      simp only [Heap.set, this, if_false]
      exact hr j (by simp [hj]))
    simp only [Microgrid.resetMany, LoadedGrid.thawed, e, this.2]
    exact ⟨this.1, trivial⟩

theorem Dumpable.reset_loaded (d : Dumpable mods c g) (hn : ∀ nm ∈ mods, ¬ (g.heap nm.2).HasCallable)
    (hd : ∀ nm ∈ mods, (g.heap nm.2).Deterministic) (htr : g.trajectory = none) (hs : g.shaper = none) :
    ∃ g₁ g₂, g.reset = (g₁, .ok ()) ∧ (reloadedGrid g).reset = (⟨g₂, fun _ => false, false⟩, .ok ()) ∧
      TwinGrid (numberIn g.tuples) g₁ g₂ := by
  have hrc : ∀ x ∈ g.tuples, _ := fun x hx =>
    reloaded_reset_core (d.lib x (d.perm.subset hx)) (hd x (d.perm.subset hx))
      (loadedOf_eq (d.lib x (d.perm.subset hx)) (hn x (d.perm.subset hx)))
  have hids : (Container.toTuples (g.cont.rename (numberIn g.tuples)).fullDict).map Prod.snd =
      (g.tuples.map Prod.snd).map (numberIn g.tuples) := by
    rw [Container.rename_full, rename_toTuples, List.map_map, List.map_map]
    rfl
  have hnd' : ((g.tuples.map Prod.snd).map (numberIn g.tuples)).Nodup := by
    rw [List.nodup_map_iff_inj_on d.nodup]
    intro i hi j _ he
    exact Pymgrid.number_inj hi he
  obtain ⟨⟨h₁, e₁⟩, -⟩ := resetMany_each (h := g.heap) d.nodup (fun i hi => by
    obtain ⟨x, hx, rfl⟩ := List.mem_map.mp hi
    obtain ⟨-, obs, -, ho⟩ := hrc x hx
    exact ⟨_, obs, Prod.ext rfl ho⟩)
  obtain ⟨⟨h₂, e₂⟩, ht⟩ := resetMany_each (h := (reloadedGrid g).grid.heap) hnd' (fun i hi => by
    obtain ⟨j, hj, rfl⟩ := List.mem_map.mp hi
    obtain ⟨x, hx, rfl⟩ := List.mem_map.mp hj
    obtain ⟨-, obs, ho, -⟩ := hrc x hx
    rw [reloadedGrid_heap hx]
    exact ⟨_, obs, Prod.ext rfl ho⟩)
  have hr₁ : g.reset = ({ g with heap := h₁, balanceLog := g.balanceLog.flush, otherLog := g.otherLog.flush }, .ok ()) := by
    unfold Microgrid.reset Microgrid.setTrajectory
    simp only [htr, e₁]
  have hr₂ : (reloadedGrid g).grid.reset =
      ({ (reloadedGrid g).grid with heap := h₂, balanceLog := (reloadedGrid g).grid.balanceLog.flush
                                    otherLog := (reloadedGrid g).grid.otherLog.flush }, .ok ()) := by
    have htr' : (reloadedGrid g).grid.trajectory = none := htr
    have hc' : (reloadedGrid g).grid.cont = g.cont.rename (numberIn g.tuples) := rfl
    unfold Microgrid.reset Microgrid.setTrajectory
    simp only [htr', hc', hids, e₂]
  refine ⟨_, (reloadedGrid g).grid.reset.1, hr₁, ?_, ?_⟩
  · unfold LoadedGrid.reset
    have : (reloadedGrid g).grid.setTrajectory = ((reloadedGrid g).grid, .ok ()) := by
      unfold Microgrid.setTrajectory
      have htr' : (reloadedGrid g).grid.trajectory = none := htr
      simp only [htr']
    simp only [this, hr₂]
    refine Prod.ext ?_ rfl
    simp only [LoadedGrid.mk.injEq, true_and]
    refine ⟨?_, ?_⟩
    · funext i
      have hc' : (reloadedGrid g).grid.cont = g.cont.rename (numberIn g.tuples) := rfl
      rw [hc', hids, ht]
      by_cases hi : i < g.tuples.length
      · have : i ∈ (g.tuples.map Prod.snd).map (numberIn g.tuples) := by
          refine List.mem_map.mpr ⟨(g.tuples[i]).2, List.mem_map_of_mem (List.getElem_mem hi), ?_⟩
          have := List.Nodup.idxOf_getElem d.nodup i (by simpa using hi)
          rw [List.getElem_map] at this
          exact this
        rw [List.contains_iff_mem.mpr this]
        simp
      · have : (reloadedGrid g).frozen i = false := by
          unfold reloadedGrid
          simp only
          rw [List.getElem?_eq_none (by omega)]
          rfl
        simp [this]
    · simp [Except.isOk, Except.toBool]
  · obtain ⟨k₁, -⟩ := resetMany_ok e₁ d.nodup
    obtain ⟨k₂, -⟩ := resetMany_ok e₂ hnd'
    rw [hr₂]
    refine ⟨⟨d.number_inj, ?_, ?_⟩, rfl, rfl, rfl, hs.symm, rfl, rfl⟩
    · intro i hi
      obtain ⟨n, h1, h2⟩ := d.mem_tuples (d.mem_fullList.mp hi)
      have hi' : i ∈ g.tuples.map Prod.snd := List.mem_map_of_mem (f := Prod.snd) h1
      obtain ⟨o₁, q₁⟩ := k₁ i hi'
      obtain ⟨o₂, q₂⟩ := k₂ _ (List.mem_map_of_mem (f := numberIn g.tuples) hi')
      have r₁ : h₁ i = (g.heap i).reset.1 := by rw [q₁]
      have r₂ : h₂ (numberIn g.tuples i) = ((reloadedGrid g).grid.heap (numberIn g.tuples i)).reset.1 := by rw [q₂]
      simp only
      rw [r₁, r₂, reloadedGrid_heap h1]
      exact (hrc _ h1).1.symm
    · intro i hi
      obtain ⟨n, h1, h2⟩ := d.mem_tuples (d.mem_fullList.mp hi)
      obtain ⟨o₁, q₁⟩ := k₁ i (List.mem_map_of_mem (f := Prod.snd) h1)
      have r₁ : h₁ i = (g.heap i).reset.1 := by rw [q₁]
      simp only
      rw [r₁]
      exact (twin_reset (rfl : (g.heap i).core = _) (hd _ h2)).2.2

end

section
variable {h : Heap} {mods : List (String × Nat)} {sh : Option Shaper}
  {tr : Option (Nat → Nat → Option Nat → Except Err (Nat × Nat))} {g₀ : Microgrid} {c : FFC} {ops : List GOp}

/-- Every microgrid of library modules without a trajectory function, and every new one with such a function. -/
theorem Dumpable.reach (hc : Microgrid.create h mods sh tr = .ok g₀) (hl : ∀ nm ∈ mods, LibraryModule (h nm.2))
    (hid : (mods.map Prod.snd).Nodup) (hd : DistinctNames h mods)
    (hcls : ∀ nm ∈ mods, (h nm.2).kind.cls = .grid → (h nm.2).ffc = c) (htr : tr = none ∨ ops = []) :
    Dumpable mods c (Pymgrid.runG g₀ ops) := by
  have d := Dumpable.created hc hl hid hd hcls
  rcases htr with rfl | rfl
  · exact d.runG (by obtain ⟨-, -, -, e, -⟩ := Microgrid.create_ok hc; exact e) ops
  · exact d

theorem Dumpable.no_callable {g : Microgrid} (d : Dumpable mods c g) {l : LoadedGrid} (hl : g.reload c = .ok l) :
    ∀ nm ∈ mods, ¬ (g.heap nm.2).HasCallable := by
  intro nm hm hcal
  have := dumpAll_error (h := g.heap) (T := g.tuples) (fun x hx => d.lib x (d.perm.subset hx))
    ⟨nm, d.perm.symm.subset hm, hcal⟩
  obtain ⟨rows, hr⟩ := d.log
  obtain ⟨raw, l1, -⟩ := Logger.Holds.serialize (show g.balanceLog.Holds (.str "reward" :: _) rows from hr)
  unfold Microgrid.reload Microgrid.dump at hl
  rw [l1] at hl
  simp only [this] at hl
  exact absurd hl (by simp)

end

end Pymgrid
