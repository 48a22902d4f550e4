import Verif.Lemmas.PriorityList

set_option autoImplicit false

/-! The first of the generated priority lists, which is the one that rule-based control uses. -/

namespace Pymgrid

namespace PriorityList

theorem fromKeys_filter_head {α : Type} [DecidableEq α] (l : List α) (p : α → Bool) :
    ((fromKeys l).filter p).head? = (l.filter p).head? := by
  induction l with
  | nil => rfl
  | cons x l ih =>
    unfold fromKeys
    by_cases hx : p x = true
    · simp [hx]
    · rw [List.filter_cons_of_neg hx, List.filter_cons_of_neg hx, ← ih, List.filter_filter]
      congr 1
      apply List.filter_congr
      intro y _
      by_cases hy : p y = true
      · have : y ≠ x := by rintro rfl; exact hx hy
        simp [hy, this]
      · simp [hy]

/-- No element of `red` is the first of its module, for the modules that are not in `seen`. -/
def good (red : List Element) : List (String × Nat) → List Element → Bool
  | _, [] => true
  | seen, e :: l => (seen.contains e.module || !(red.contains e)) && good red (e.module :: seen) l

theorem good_eq (red : List Element) (seen : List (String × Nat)) (pl : List Element) :
    good red seen pl = ((firstOfModule pl).filter fun e => !(seen.contains e.module)).all fun e => !(red.contains e) := by
  induction pl generalizing seen with
  | nil => rfl
  | cons e pl ih =>
    rw [good, ih, firstOfModule]
    have hf : ((firstOfModule pl).filter fun e' => !((e.module :: seen).contains e'.module)) =
        ((firstOfModule pl).filter fun e' => decide (e'.module ≠ e.module)).filter
          fun e' => !(seen.contains e'.module) := by
      rw [List.filter_filter]
      apply List.filter_congr
      intro y _
      by_cases h : y.module = e.module <;> simp [h]
    rw [hf, List.filter_cons]
    by_cases hs : seen.contains e.module = true
    · simp only [hs, Bool.true_or, Bool.true_and, Bool.not_true, Bool.false_eq_true, if_false]
    · have hs' : seen.contains e.module = false := by simpa using hs
      simp only [hs', Bool.false_or, Bool.not_false, if_true, List.all_cons]

theorem head_accept {red : List Element} {seen : List (String × Nat)} {e : Element} {l t : List Element}
    (he : seen.contains e.module = true ∨ red.contains e = false)
    (ht : ((arrangements l.length l).filter (good red (e.module :: seen))).head? = some t) :
    ((arrangements (e :: l).length (e :: l)).filter (good red seen)).head? = some (e :: t) := by
  simp only [List.length_cons, arrangements, picks, List.flatMap_cons, List.filter_append, List.filter_map]
  have hf : (good red seen ∘ fun x => e :: x) = good red (e.module :: seen) := by
    funext x
    simp only [Function.comp, good]
    rcases he with h | h <;> simp only [h] <;> simp
  rw [hf]
  cases hl : (arrangements l.length l).filter (good red (e.module :: seen)) with
  | nil => rw [hl] at ht; simp at ht
  | cons a as =>
    rw [hl] at ht
    simp only [List.head?_cons, Option.some.injEq] at ht
    simp [ht]

theorem head_skip {red : List Element} {seen : List (String × Nat)} {e x : Element} {l t : List Element}
    (he : seen.contains e.module = false ∧ red.contains e = true) (hx : red.contains x = false)
    (ht : ((arrangements (e :: l).length (e :: l)).filter (good red (x.module :: seen))).head? = some t) :
    ((arrangements (e :: x :: l).length (e :: x :: l)).filter (good red seen)).head? = some (x :: t) := by
  simp only [List.length_cons] at ht ⊢
  rw [arrangements]
  simp only [picks, List.flatMap_cons, List.map_cons, List.filter_append, List.filter_map]
  have hf : (good red seen ∘ fun y => e :: y) = fun _ => false := by
    funext y
    simp only [Function.comp, good, he.1, he.2, Bool.not_true, Bool.or_self, Bool.false_and]
  have hg : (good red seen ∘ fun y => x :: y) = good red (x.module :: seen) := by
    funext y
    simp only [Function.comp, good, hx]
    simp
  rw [hf, hg]
  cases hl : (arrangements (l.length + 1) (e :: l)).filter (good red (x.module :: seen)) with
  | nil => rw [hl] at ht; simp at ht
  | cons a as =>
    rw [hl] at ht
    simp only [List.head?_cons, Option.some.injEq] at ht
    simp [ht]

/-- The elements of one module in the base list. -/
inductive Block (red : List Element) : List Element → List Element → Element → Prop
  | one (e : Element) (h : red.contains e = false) : Block red [e] [e] e
  | two (e x : Element) (h : red.contains e = false) (hm : x.module = e.module) : Block red [e, x] [e, x] e
  | swap (e x : Element) (h : red.contains e = true) (hx : red.contains x = false) (hm : x.module = e.module) :
      Block red [e, x] [x, e] x

/-- A base list, the first acceptable arrangement of it and the priority list that it gives. -/
inductive Blocks (red : List Element) : List (String × Nat) → List Element → List Element → List Element → Prop
  | nil (seen : List (String × Nat)) : Blocks red seen [] [] []
  | cons {seen : List (String × Nat)} {b c l t f : List Element} {e : Element} (hb : Block red b c e)
      (hs : e.module ∉ seen) (hl : ∀ y ∈ l, y.module ≠ e.module)
      (h : Blocks red (e.module :: seen) l t f) : Blocks red seen (b ++ l) (c ++ t) (e :: f)

theorem good_congr {red : List Element} {seen seen' : List (String × Nat)} (h : ∀ k, k ∈ seen ↔ k ∈ seen') :
    good red seen = good red seen' := by
  funext pl
  induction pl generalizing seen seen' with
  | nil => rfl
  | cons e pl ih =>
    rw [good, good, ih (seen' := e.module :: seen') (by intro k; simp [h])]
    have : seen.contains e.module = seen'.contains e.module := by
      rw [Bool.eq_iff_iff, List.contains_iff_mem, List.contains_iff_mem, h]
    rw [this]

theorem firstOfModule_cons_new {e : Element} {l : List Element} (h : ∀ y ∈ l, y.module ≠ e.module) :
    firstOfModule (e :: l) = e :: firstOfModule l := by
  rw [firstOfModule]
  congr 1
  rw [List.filter_eq_self]
  intro y hy
  have := h y (firstOfModule_subset _ hy)
  simp [this]

theorem firstOfModule_cons_same {e x : Element} {l : List Element} (hm : x.module = e.module)
    (h : ∀ y ∈ l, y.module ≠ e.module) : firstOfModule (e :: x :: l) = e :: firstOfModule l := by
  rw [firstOfModule, firstOfModule_cons_new (e := x) (by rw [hm]; exact h)]
  rw [List.filter_cons]
  simp only [hm, ne_eq, not_true_eq_false, decide_false, Bool.false_eq_true, if_false]
  congr 1
  rw [List.filter_eq_self]
  intro y hy
  have := h y (firstOfModule_subset _ hy)
  simp [this]

theorem Blocks.mem {red : List Element} {seen : List (String × Nat)} {l t f : List Element}
    (h : Blocks red seen l t f) : ∀ y ∈ t, y ∈ l := by
  induction h with
  | nil => simp
  | cons hb hs hl h ih =>
    intro y hy
    rcases List.mem_append.mp hy with hy | hy
    · apply List.mem_append_left
      cases hb with
      | one => exact hy
      | two => exact hy
      | swap => simp only [List.mem_cons, List.not_mem_nil, or_false] at hy ⊢; tauto
    · exact List.mem_append_right _ (ih y hy)

theorem Blocks.first {red : List Element} {seen : List (String × Nat)} {l t f : List Element}
    (h : Blocks red seen l t f) :
    ((arrangements l.length l).filter (good red seen)).head? = some t ∧ firstOfModule t = f := by
  induction h with
  | nil seen => exact ⟨by simp [arrangements, good], rfl⟩
  | @cons seen b c l t f e hb hs hl h ih =>
    have hlt : ∀ y ∈ t, y.module ≠ e.module := fun y hy => hl y (h.mem y hy)
    have hs' : seen.contains e.module = false := by
      rw [← Bool.not_eq_true, List.contains_iff_mem]; exact hs
    cases hb with
    | one e he =>
      exact ⟨head_accept (.inr he) ih.1, by rw [List.singleton_append, firstOfModule_cons_new hlt, ih.2]⟩
    | two e x he hm =>
      refine ⟨?_, ?_⟩
      · refine head_accept (l := x :: l) (t := x :: t) (.inr he) (head_accept (.inl (by simp [hm])) ?_)
        rw [good_congr (seen' := e.module :: seen) (by intro k; simp [hm])]
        exact ih.1
      · exact (firstOfModule_cons_same hm hlt).trans (by rw [ih.2])
    | swap e' x he hx hm =>
      refine ⟨?_, ?_⟩
      · refine head_skip (l := l) (t := e' :: t) ⟨by rw [← hm]; exact hs', he⟩ hx (head_accept (.inl (by simp [hm])) ?_)
        rw [good_congr (seen' := e.module :: seen) (by intro k; simp [hm])]
        exact ih.1
      · exact (firstOfModule_cons_same hm.symm hlt).trans (by rw [ih.2])

/-! ### Microgrids -/

variable {mods : List (String × Nat)} {g : Microgrid}

/-- The action that the first list chooses for a module. -/
def firstAction (rm : Bool) (m : Module) : Nat :=
  match m.kind with
  | .genset gs => if rm = true ∧ gs.runMin = 0 then 1 else 0
  | _ => 0

/-- The element of a module in the first list. -/
def firstElement (rm : Bool) (h : Heap) (x : (String × Nat) × Nat) : Element :=
  { module := x.1, actions := (h x.2).actionDim, action := firstAction rm (h x.2), cost := costOf h x.2 }

theorem blocks {h : Heap} {red : List Element} {rm : Bool} {l : List ((String × Nat) × Nat)} (seen : List (String × Nat))
    (hn : (l.map Prod.fst).Nodup) (hd : ∀ x ∈ l, x.1 ∉ seen)
    (hdim : ∀ x ∈ l, (h x.2).actionDim = (h x.2).kind.cls.actions ∧ 0 < (h x.2).kind.cls.actions)
    (hred : ∀ x ∈ l, ∀ a, red.contains ⟨x.1, (h x.2).actionDim, a, costOf h x.2⟩ = true ↔
      rm = true ∧ a = 0 ∧ ∃ gs, (h x.2).kind = .genset gs ∧ gs.runMin = 0) :
    ∃ t, Blocks red seen (l.flatMap fun x => elems (h x.2) x.1 (costOf h x.2)) t (l.map (firstElement rm h)) := by
  induction l generalizing seen with
  | nil => exact ⟨[], .nil seen⟩
  | cons x l ih =>
    rw [List.map_cons, List.nodup_cons] at hn
    obtain ⟨t, ht⟩ := ih (x.1 :: seen) hn.2 (by
        intro y hy
        rw [List.mem_cons, not_or]
        exact ⟨fun e => hn.1 (e ▸ List.mem_map_of_mem (f := Prod.fst) hy), hd y (by simp [hy])⟩)
      (fun y hy => hdim y (by simp [hy])) (fun y hy => hred y (by simp [hy]))
    have hlm : ∀ y ∈ l.flatMap (fun x => elems (h x.2) x.1 (costOf h x.2)), y.module ≠ x.1 := by
      intro y hy e
      obtain ⟨i, hi, -⟩ := mem_elems.mp hy
      exact hn.1 (e ▸ List.mem_map_of_mem (f := Prod.fst) hi)
    obtain ⟨hx1, hx2⟩ := hdim x (by simp)
    have hr := hred x (by simp)
    have hr' : ∀ a, ¬ (rm = true ∧ a = 0 ∧ ∃ gs, (h x.2).kind = .genset gs ∧ gs.runMin = 0) →
        red.contains ⟨x.1, (h x.2).actionDim, a, costOf h x.2⟩ = false := by
      intro a ha
      rw [← Bool.not_eq_true, hr]
      exact ha
    rw [List.flatMap_cons, List.map_cons]
    have hblock : ∃ c, Block red (elems (h x.2) x.1 (costOf h x.2)) c (firstElement rm h x) := by
      unfold elems firstElement firstAction
      by_cases hg : ∃ gs, (h x.2).kind = .genset gs
      · obtain ⟨gs, hk⟩ := hg
        have h2 : (h x.2).actionDim = 2 := by rw [hx1, hk]; rfl
        have hrange : List.range (h x.2).actionDim = [0, 1] := by rw [h2]; rfl
        rw [hrange]
        simp only [List.map_cons, List.map_nil, hk]
        by_cases hc : rm = true ∧ gs.runMin = 0
        · rw [if_pos hc]
          exact ⟨_, .swap _ _ ((hr 0).mpr ⟨hc.1, rfl, gs, hk, hc.2⟩) (hr' 1 (by simp)) rfl⟩
        · rw [if_neg hc]
          refine ⟨_, .two _ _ (hr' 0 ?_) rfl⟩
          rintro ⟨h1, -, gs', hk', h3⟩
          rw [hk] at hk'
          injection hk' with hk'
          subst hk'
          exact hc ⟨h1, h3⟩
      · have h1 : (h x.2).actionDim = 1 := by
          rw [hx1]
          cases hk : (h x.2).kind with
          | genset gs => exact absurd ⟨gs, hk⟩ hg
          | load t => rw [hk] at hx2; exact absurd hx2 (Nat.lt_irrefl 0)
          | _ => rfl
        have hrange : List.range (h x.2).actionDim = [0] := by rw [h1]; rfl
        rw [hrange]
        simp only [List.map_cons, List.map_nil]
        have hz : (match (h x.2).kind with
            | .genset gs => if rm = true ∧ gs.runMin = 0 then 1 else 0
            | _ => 0) = 0 := by
          cases hk : (h x.2).kind with
          | genset gs => exact absurd ⟨gs, hk⟩ hg
          | _ => rfl
        rw [hz]
        exact ⟨_, .one _ (hr' 0 (by rintro ⟨-, -, gs, hk, -⟩; exact hg ⟨gs, hk⟩))⟩
    obtain ⟨c, hb⟩ := hblock
    exact ⟨_, .cons hb (hd x (by simp)) hlm ht⟩

/-- The first generated list: the modules in the order of the containers, each with `firstAction`. -/
theorem first_list (ok : GridOK mods g) (hu : ClearNames g.heap mods) (hdim : Dims g mods) (rm : Bool) :
    ∃ rest, getPriorityLists g rm = .ok (((named (g.cont.cat .controllable .sources) ++
      named (g.cont.cat .controllable .both)).map (firstElement rm g.heap)) :: rest) := by
  have hc : ∀ x ∈ named (g.cont.cat .controllable .sources) ++ named (g.cont.cat .controllable .both),
      (g.heap x.2).marginalCost = .ok (costOf g.heap x.2) := by
    rintro ⟨key, i⟩ hx
    exact costOf_ok (ok.wf _ ((mem_controllable ok hu).mp hx).mem.1)
  have hel : elements g = .ok _ := collect_ok hc
  have hdims : ∀ x ∈ named (g.cont.cat .controllable .sources) ++ named (g.cont.cat .controllable .both),
      (g.heap x.2).actionDim = (g.heap x.2).kind.cls.actions ∧ 0 < (g.heap x.2).kind.cls.actions := by
    rintro ⟨key, i⟩ hx
    have hd := ((mem_controllable ok hu).mp hx)
    exact ⟨hdim _ hd.mem.1 hd.mem.2, cls_actions_pos (ok.wf _ hd.mem.1) hd.mem.2⟩
  have key : ∀ red : List Element, (∀ x ∈ named (g.cont.cat .controllable .sources) ++
      named (g.cont.cat .controllable .both), ∀ a, red.contains ⟨x.1, (g.heap x.2).actionDim, a, costOf g.heap x.2⟩ = true ↔
        rm = true ∧ a = 0 ∧ ∃ gs, (g.heap x.2).kind = .genset gs ∧ gs.runMin = 0) →
      ((removeActions (permutations ((named (g.cont.cat .controllable .sources) ++
        named (g.cont.cat .controllable .both)).flatMap fun x => elems (g.heap x.2) x.1 (costOf g.heap x.2)))).filter
          fun pl => !(red.any fun r => pl.contains r)).head? =
      some ((named (g.cont.cat .controllable .sources) ++ named (g.cont.cat .controllable .both)).map
        (firstElement rm g.heap)) := by
    intro red hred
    obtain ⟨t, ht⟩ := blocks (rm := rm) [] (controllable_nodup ok hu) (by simp) hdims hred
    obtain ⟨h1, h2⟩ := ht.first
    unfold removeActions
    rw [fromKeys_filter_head, List.filter_map, List.head?_map]
    have hp : ((fun pl : List Element => !(red.any fun r => pl.contains r)) ∘ firstOfModule) = good red [] := by
      funext pl
      rw [good_eq]
      simp only [Function.comp, List.contains_nil, Bool.not_false, List.filter_true]
      rw [Bool.eq_iff_iff]
      simp only [Bool.not_eq_true', List.any_eq_false, List.contains_iff_mem, List.all_eq_true]
      constructor
      · intro h e he
        rw [← Bool.not_eq_true, List.contains_iff_mem]
        exact fun hr => h e hr he
      · intro h r hr he
        have := h r he
        rw [← Bool.not_eq_true, List.contains_iff_mem] at this
        exact this hr
    rw [hp]
    unfold permutations
    rw [h1, Option.map_some, h2]
  unfold getPriorityLists
  rw [hel]
  simp only
  cases rm with
  | false =>
    have := key [] (by intro x hx a; simp)
    simp only [List.any_nil, Bool.not_false, List.filter_true] at this
    simp only [Bool.false_eq_true, if_false]
    cases hl : removeActions (permutations ((named (g.cont.cat .controllable .sources) ++
        named (g.cont.cat .controllable .both)).flatMap fun x => elems (g.heap x.2) x.1 (costOf g.heap x.2))) with
    | nil => rw [hl] at this; simp at this
    | cons a as =>
      rw [hl] at this
      simp only [List.head?_cons, Option.some.injEq] at this
      exact ⟨as, by rw [this]⟩
  | true =>
    have hcf : ∀ x ∈ named g.cont.fullDict, (g.heap x.2).marginalCost = .ok (costOf g.heap x.2) := by
      rintro ⟨key, i⟩ hx
      obtain ⟨l, hl, hi⟩ := mem_named.mp hx
      refine costOf_ok (ok.wf (key.1, i) ?_)
      rw [ok.cont] at hl
      apply Container.mem_full (h := g.heap)
      simp only [Container.toTuples, List.mem_flatMap, List.mem_map, Prod.mk.injEq]
      exact ⟨_, hl, i, List.mem_of_getElem? hi, rfl, rfl⟩
    obtain ⟨red, hr, hmr⟩ := redundant_ok hcf
    have := key red (by
      rintro ⟨k, i⟩ hx a
      have hd := ((mem_controllable ok hu).mp hx)
      have hdi := hdims _ hx
      simp only at hdi ⊢
      rw [List.contains_iff_mem, hmr]
      simp only
      constructor
      · rintro ⟨j, gs, hj, hk, h0, h2, ha, hcst⟩
        have hf : (g.heap j).ffc = .controllable := by
          obtain ⟨l, hl, hii⟩ := mem_named.mp hj
          rw [ok.cont] at hl
          have hmem : (k.1, j) ∈ mods := by
            apply Container.mem_full (h := g.heap)
            simp only [Container.toTuples, List.mem_flatMap, List.mem_map, Prod.mk.injEq]
            exact ⟨_, hl, j, List.mem_of_getElem? hii, rfl, rfl⟩
          exact genset_controllable (ok.wf _ hmem) hk
        have he := Denotes.unique ((mem_full ok hu hf).mp hj) hd
        subst he
        exact ⟨trivial, ha, gs, hk, h0⟩
      · rintro ⟨-, ha, gs, hk, h0⟩
        exact ⟨i, gs, (mem_full ok hu hd.mem.2).mpr hd, hk, h0, by rw [hdi.1, hk]; rfl, ha, rfl⟩)
    rw [hr]
    simp only [if_true]
    cases hl : (removeActions (permutations ((named (g.cont.cat .controllable .sources) ++
        named (g.cont.cat .controllable .both)).flatMap fun x => elems (g.heap x.2) x.1 (costOf g.heap x.2)))).filter
          fun pl => !(red.any fun r => pl.contains r) with
    | nil => rw [hl] at this; simp at this
    | cons a as =>
      rw [hl] at this
      simp only [List.head?_cons, Option.some.injEq] at this
      exact ⟨as, by rw [this]⟩

end PriorityList

end Pymgrid
