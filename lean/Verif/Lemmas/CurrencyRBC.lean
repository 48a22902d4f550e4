import Verif.Lemmas.CurrencyBuild

set_option autoImplicit false

/-! Lemmas for C86: rule-based control in two currencies. -/

namespace Pymgrid

section
variable {k : ℚ}

theorem priced_inj (hk : 0 < k) {a b : Element} (h : a.priced k = b.priced k) : a = b := by
  obtain ⟨m, n, x, c⟩ := a
  obtain ⟨m', n', x', c'⟩ := b
  simp only [Element.priced, Element.mk.injEq] at h
  obtain ⟨rfl, rfl, rfl, h⟩ := h
  rw [mul_left_cancel₀ hk.ne' h]

theorem priced_lt (hk : 0 < k) (a b : Element) : (a.priced k).lt (b.priced k) = a.lt b := by
  unfold Element.lt Element.priced
  simp only [mul_lt_iff hk, mul_right_inj' hk.ne']

theorem priced_map_inj (hk : 0 < k) : Function.Injective (List.map (Element.priced k)) :=
  List.map_injective_iff.mpr fun _ _ h => priced_inj hk h

namespace PriorityList

theorem picks_map {α β : Type} (f : α → β) (l : List α) :
    picks (l.map f) = (picks l).map fun x => (f x.1, x.2.map f) := by
  induction l with
  | nil => rfl
  | cons x l ih =>
    simp only [List.map_cons, picks, ih, List.map_map]
    rfl

theorem arrangements_map {α β : Type} (f : α → β) (n : Nat) (l : List α) :
    arrangements n (l.map f) = (arrangements n l).map (List.map f) := by
  induction n generalizing l with
  | zero => rfl
  | succ n ih =>
    simp only [arrangements, picks_map, List.flatMap_map, List.map_flatMap, ih, List.map_map]
    rfl

theorem permutations_map {α β : Type} (f : α → β) (l : List α) :
    permutations (l.map f) = (permutations l).map (List.map f) := by
  unfold permutations
  rw [List.length_map, arrangements_map]

theorem firstOfModule_map (l : List Element) :
    firstOfModule (l.map (Element.priced k)) = (firstOfModule l).map (Element.priced k) := by
  induction l with
  | nil => rfl
  | cons x l ih =>
    simp only [List.map_cons, firstOfModule, ih, List.filter_map]
    rfl

theorem fromKeys_map {α β : Type} [DecidableEq α] [DecidableEq β] {f : α → β} (hf : Function.Injective f) (l : List α) :
    fromKeys (l.map f) = (fromKeys l).map f := by
  induction l with
  | nil => rfl
  | cons x l ih =>
    simp only [List.map_cons, fromKeys, ih, List.filter_map, Function.comp_def, ne_eq, hf.eq_iff]

theorem removeActions_map (hk : 0 < k) (pls : List (List Element)) :
    removeActions (pls.map (List.map (Element.priced k))) = (removeActions pls).map (List.map (Element.priced k)) := by
  unfold removeActions
  rw [← fromKeys_map (priced_map_inj hk), List.map_map, List.map_map]
  congr 1
  apply List.map_congr_left
  intro l _
  exact firstOfModule_map l

theorem sorted_map (hk : 0 < k) (l : List Element) :
    RBC.sorted (l.map (Element.priced k)) = (RBC.sorted l).map (Element.priced k) := by
  unfold RBC.sorted
  refine (List.map_insertionSort _ _ _ l ?_).symm
  intro a _ b _
  rw [priced_lt hk]

end PriorityList

theorem ModPriced.actionDim {m m' : Module} (h : ModPriced k m m') : m'.actionDim = m.actionDim := by
  unfold Module.actionDim
  rw [h.actSpace]

namespace PriorityList

theorem moduleElements_priced (hk : 0 < k) {m m' : Module} (h : ModPriced k m m') (key : String × Nat) :
    moduleElements m' key = (moduleElements m key).map (List.map (Element.priced k)) := by
  unfold moduleElements
  rw [h.actionDim, h.marginalCost hk]
  split
  · rfl
  · cases m.marginalCost with
    | error e => rfl
    | ok c =>
      simp only [Except.map, List.map_map]
      rfl

theorem collect_priced (hk : 0 < k) {h h' : Heap} (l : List ((String × Nat) × Nat))
    (t : ∀ x ∈ l, ModPriced k (h x.2) (h' x.2)) :
    collect h' l = (collect h l).map (List.map (Element.priced k)) := by
  induction l with
  | nil => rfl
  | cons x l ih =>
    obtain ⟨key, i⟩ := x
    simp only [collect]
    rw [moduleElements_priced hk (t (key, i) (by simp)), ih fun y hy => t y (by simp [hy])]
    cases moduleElements (h i) key with
    | error e => rfl
    | ok es =>
      cases collect h l with
      | error e => rfl
      | ok r => simp [Except.map]

theorem redundantElement_priced (hk : 0 < k) {m m' : Module} (h : ModPriced k m m') (key : String × Nat) :
    redundantElement m' key = (redundantElement m key).map (List.map (Element.priced k)) := by
  have hkind := h.kind
  have hc := h.marginalCost hk
  unfold redundantElement
  rw [hc]
  generalize m.kind = a at hkind ⊢
  generalize m'.kind = b at hkind ⊢
  generalize m.obsSpace = s at hkind
  generalize m'.obsSpace = s' at hkind
  cases hkind with
  | genset g s =>
    simp only
    split
    · cases m.marginalCost <;> rfl
    · rfl
  | _ => rfl

theorem redundant_priced (hk : 0 < k) {h h' : Heap} (l : List ((String × Nat) × Nat))
    (t : ∀ x ∈ l, ModPriced k (h x.2) (h' x.2)) :
    redundant h' l = (redundant h l).map (List.map (Element.priced k)) := by
  induction l with
  | nil => rfl
  | cons x l ih =>
    obtain ⟨key, i⟩ := x
    simp only [redundant]
    rw [redundantElement_priced hk (t (key, i) (by simp)), ih fun y hy => t y (by simp [hy])]
    cases redundantElement (h i) key with
    | error e => rfl
    | ok es =>
      cases redundant h l with
      | error e => rfl
      | ok r => simp [Except.map]

theorem named_mem {d : ModDict} {x : (String × Nat) × Nat} (hx : x ∈ named d) : ∃ nl ∈ d, x.2 ∈ nl.2 := by
  unfold named at hx
  obtain ⟨nl, h1, h2⟩ := List.mem_flatMap.mp hx
  obtain ⟨ij, h3, rfl⟩ := List.mem_map.mp h2
  exact ⟨nl, h1, (List.mem_zipIdx' h3).2 ▸ List.getElem_mem _⟩

theorem cat_fullList {c : Container} {f : FFC} {s : SS} {nl : String × List Nat} (h : nl ∈ c.cat f s) {i : Nat}
    (hi : i ∈ nl.2) : i ∈ c.fullList := by
  unfold Container.fullList Container.toList Container.all Container.level
  rw [List.mem_flatMap]
  refine ⟨c.cat f s, ?_, List.mem_flatMap.mpr ⟨nl, h, hi⟩⟩
  cases f <;> cases s <;> simp

variable {g g' : Microgrid}

theorem priorityLists_priced (t : PricedGrid k g g') (hk : 0 < k) (rg : Bool) :
    getPriorityLists g' rg = (getPriorityLists g rg).map (List.map (List.map (Element.priced k))) := by
  have he : elements g' = (elements g).map (List.map (Element.priced k)) := by
    unfold elements
    rw [t.cont]
    apply collect_priced hk
    intro x hx
    rcases List.mem_append.mp hx with h | h <;> obtain ⟨nl, h1, h2⟩ := named_mem h <;>
      exact t.heap _ (cat_fullList h1 h2)
  have hr : redundant g'.heap (named g'.cont.fullDict) =
      (redundant g.heap (named g.cont.fullDict)).map (List.map (Element.priced k)) := by
    rw [t.cont]
    apply redundant_priced hk
    intro x hx
    obtain ⟨nl, h1, h2⟩ := named_mem hx
    exact t.heap _ (Container.full_fullList (toTuples_mem h1 h2))
  unfold getPriorityLists
  rw [he]
  cases elements g with
  | error e => rfl
  | ok base =>
    simp only [Except.map]
    rw [permutations_map, removeActions_map hk, hr]
    split
    · cases redundant g.heap (named g.cont.fullDict) with
      | error e => rfl
      | ok red =>
        simp only [Except.map, List.filter_map]
        congr 2
        apply List.filter_congr
        intro pl _
        simp only [Function.comp_apply]
        congr 1
        rw [List.any_map]
        congr 1
        funext r
        simp only [Function.comp_apply]
        rw [Bool.eq_iff_iff, List.contains_iff_mem, List.contains_iff_mem]
        exact List.mem_map_of_injective fun _ _ h => priced_inj hk h
    · rfl

theorem energyFor_priced (hk : 0 < k) {m m' : Module} (h : ModPriced k m m') (a : Nat) (x : ℚ) :
    energyFor m' a x = energyFor m a x := by
  have hp : produce m' a x = produce m a x := by
    have hkind := h.kind
    unfold produce
    rw [h.maxProduction hk, h.minProduction]
    generalize m.kind = a at hkind ⊢
    generalize m'.kind = b at hkind ⊢
    generalize m.obsSpace = s at hkind
    generalize m'.obsSpace = s' at hkind
    cases hkind <;> rfl
  unfold energyFor consume
  rw [hp, h.isSink, h.maxConsumption hk]

theorem sumE_priced {h h' : Heap} {f : Module → Except Err ERat} (l : List Nat) (t : ∀ i ∈ l, f (h' i) = f (h i)) :
    sumE h' f l = sumE h f l := by
  induction l with
  | nil => rfl
  | cons i l ih =>
    simp only [sumE]
    rw [t i (by simp), ih fun j hj => t j (by simp [hj])]

theorem emptyAction_priced (t : PricedGrid k g g') : emptyAction g' = emptyAction g := by
  unfold emptyAction
  rw [t.cont]
  congr 1
  apply List.filter_congr
  intro nl hnl
  cases hl : nl.2 with
  | nil => rfl
  | cons i l =>
    have := (t.heap i (Container.level_fullList (toTuples_mem hnl (i := i) (by rw [hl]; simp)))).actionDim
    simp only [this]

theorem lookup_priced (t : PricedGrid k g g') (name : String) (j : Nat) :
    (∃ e, lookup g name j = .error e ∧ lookup g' name j = .error e) ∨
      (∃ m m', lookup g name j = .ok m ∧ lookup g' name j = .ok m' ∧ ModPriced k m m') := by
  unfold lookup
  rw [t.cont]
  cases hd : dictGet? g.cont.fullDict name with
  | none => exact .inl ⟨_, rfl, rfl⟩
  | some l =>
    simp only
    cases hj : l[j]? with
    | none => exact .inl ⟨_, rfl, rfl⟩
    | some i =>
      exact .inr ⟨_, _, rfl, rfl, t.heap i (Container.full_fullList (toTuples_mem (dictGet?_mem hd)
        (List.mem_of_getElem? hj)))⟩

theorem populate_priced (t : PricedGrid k g g') (hk : 0 < k) (pl : List Element)
    (act : List (String × List (Option Act))) (x : ℚ) :
    populate g' (pl.map (Element.priced k)) act x = populate g pl act x := by
  induction pl generalizing act x with
  | nil => rfl
  | cons el pl ih =>
    have e1 : (el.priced k).module = el.module := rfl
    have e2 : (el.priced k).actions = el.actions := rfl
    have e3 : (el.priced k).action = el.action := rfl
    simp only [List.map_cons, populate, e1, e2, e3]
    rcases lookup_priced t el.module.1 el.module.2 with ⟨e, h1, h2⟩ | ⟨m, m', h1, h2, hm⟩
    · rw [h1, h2]
    · rw [h1, h2]
      simp only [energyFor_priced hk hm, ih]

theorem populateAction_priced (t : PricedGrid k g g') (hk : 0 < k) (pl : List Element) :
    populateAction g' (pl.map (Element.priced k)) = populateAction g pl := by
  have h1 : totalLoad g' = totalLoad g := by
    unfold totalLoad
    rw [t.cont]
    apply sumE_priced
    intro i hi
    obtain ⟨nl, hnl, hi⟩ := List.mem_flatMap.mp hi
    exact (t.heap i (cat_fullList hnl hi)).maxConsumption hk
  have h2 : totalRenewable g' = totalRenewable g := by
    unfold totalRenewable
    rw [t.cont]
    apply sumE_priced
    intro i hi
    obtain ⟨nl, hnl, hi⟩ := List.mem_flatMap.mp hi
    exact (t.heap i (cat_fullList hnl hi)).maxProduction hk
  unfold populateAction
  rw [h1, h2, emptyAction_priced t]
  simp only [populate_priced t hk]

end PriorityList

/-- Two rule-based controllers in the two currencies. -/
structure PricedRBC (k : ℚ) (r r' : RBC) : Prop where
  g : PricedGrid k r.g r'.g
  list : r'.list = r.list.map (Element.priced k)

theorem PricedGrid.rbc {g g' : Microgrid} (t : PricedGrid k g g') (hk : 0 < k) (user : Option (List Element)) (rg : Bool)
    {r : RBC} (h : RBC.create g user rg = .ok r) :
    ∃ r', RBC.create g' (user.map (List.map (Element.priced k))) rg = .ok r' ∧ PricedRBC k r r' := by
  unfold RBC.create at *
  rw [PriorityList.priorityLists_priced t hk]
  cases hp : PriorityList.getPriorityLists g rg with
  | error e => rw [hp] at h; simp at h
  | ok pls =>
    rw [hp] at h
    simp only [Except.map] at h ⊢
    have hch : RBC.choose (pls.map (List.map (Element.priced k))) (user.map (List.map (Element.priced k))) =
        (RBC.choose pls user).map (List.map (Element.priced k)) := by
      unfold RBC.choose
      cases user with
      | none =>
        cases pls with
        | nil => rfl
        | cons pl pls => simp only [Option.map_none, List.map_cons, Except.map, PriorityList.sorted_map hk]
      | some pl =>
        simp only [Option.map_some, List.mem_map_of_injective (priced_map_inj hk)]
        split <;> rfl
    rw [hch]
    cases hc : RBC.choose pls user with
    | error e => rw [hc] at h; simp at h
    | ok pl =>
      rw [hc] at h
      simp only [Except.ok.injEq, Except.map] at h ⊢
      subst h
      exact ⟨_, rfl, t, rfl⟩

theorem PricedRBC.step {r r' : RBC} (t : PricedRBC k r r') (hk : 0 < k) :
    PricedRBC k r.step.1 r'.step.1 ∧ r'.step.2 = r.step.2.map (RunOut.priced k) := by
  unfold RBC.step
  rw [t.list, PriorityList.populateAction_priced t.g hk]
  cases PriorityList.populateAction r.g r.list with
  | error e => exact ⟨t, rfl⟩
  | ok x =>
    obtain ⟨act, rem⟩ := x
    simp only
    cases PriorityList.toControl act with
    | none => exact ⟨t, rfl⟩
    | some c =>
      obtain ⟨h1, h2⟩ := t.g.run hk c false
      simp only
      exact ⟨⟨h1, rfl⟩, h2⟩

theorem PricedRBC.story {r r' : RBC} (t : PricedRBC k r r') (hk : 0 < k) (n : Nat) :
    RBC.story n r' = (RBC.story n r).map (Except.map (RunOut.priced k)) := by
  induction n generalizing r r' with
  | zero => rfl
  | succ n ih =>
    obtain ⟨h1, h2⟩ := t.step hk
    unfold RBC.story
    cases e : r.step with
    | mk s x =>
    cases e' : r'.step with
    | mk s' x' =>
    rw [e, e'] at h1 h2
    simp only at h1 h2
    subst h2
    cases x with
    | error err => rfl
    | ok o =>
      simp only [Except.map, List.map_cons, ih h1]

end

end Pymgrid
