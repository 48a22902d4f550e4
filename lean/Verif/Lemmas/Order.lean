import Verif.Spec.Order
import Verif.Lemmas.GridSetters

set_option autoImplicit false

/-! A run does not depend on the order of the fixed and controllable modules. -/

namespace Pymgrid

/-! ### Dictionaries -/

theorem dict_perm {β : Type} {d d' : List (String × β)} (hn : (d.map Prod.fst).Nodup) (hn' : (d'.map Prod.fst).Nodup)
    (h : SameDict d d') : d.Perm d' := by
  have a : d.Nodup := List.Nodup.of_map _ hn
  have b : d'.Nodup := List.Nodup.of_map _ hn'
  rw [List.perm_ext_iff_of_nodup a b]
  rintro ⟨k, v⟩
  constructor
  · intro hm
    exact dictGet?_mem ((h k).trans (dictGet?_of_mem hn hm))
  · intro hm
    exact dictGet?_mem ((h k).symm.trans (dictGet?_of_mem hn' hm))

theorem SameDict.of_perm {β : Type} {d d' : List (String × β)} (hn : (d.map Prod.fst).Nodup) (h : d.Perm d') :
    SameDict d d' := by
  intro k
  have hn' : (d'.map Prod.fst).Nodup := (h.map _).nodup_iff.mp hn
  cases hk : dictGet? d k with
  | some v => exact dictGet?_of_mem hn' (h.subset (dictGet?_mem hk))
  | none =>
    rw [dictGet?_none] at hk ⊢
    intro hm
    exact hk ((h.map Prod.fst).symm.subset hm)

theorem SameDict.dictAppend {β : Type} {d d' : List (String × List β)} (h : SameDict d d') (n : String) (v : β) :
    SameDict (dictAppend d n v) (dictAppend d' n v) := by
  intro k
  unfold Pymgrid.dictAppend
  rw [h n]
  cases dictGet? d n <;> simp [dictGet?_dictSet, h k]

theorem SameDict.rfl' {β : Type} (d : List (String × β)) : SameDict d d := fun _ => rfl

/-- The part of a list that a name contributes is the same in both orders. -/
theorem flatMap_named {β γ : Type} {d d' : List (String × β)} {f : String × β → List γ} {name : γ → String}
    (hn : (d.map Prod.fst).Nodup) (hp : d.Perm d') (hf : ∀ x, ∀ y ∈ f x, name y = x.1) (n : String) :
    (d'.flatMap f).filter (fun y => decide (name y = n)) = (d.flatMap f).filter (fun y => decide (name y = n)) := by
  have key : ∀ e : List (String × β), (e.flatMap f).filter (fun y => decide (name y = n)) =
      (e.filter (fun x => decide (x.1 = n))).flatMap f := by
    intro e
    induction e with
    | nil => rfl
    | cons x e ih =>
      rw [List.flatMap_cons, List.filter_append, ih]
      by_cases hx : x.1 = n
      · rw [List.filter_cons_of_pos (by simp [hx]), List.flatMap_cons]
        congr 1
        rw [List.filter_eq_self]
        intro y hy
        simp [hf x y hy, hx]
      · rw [List.filter_cons_of_neg (by simp [hx])]
        have : (f x).filter (fun y => decide (name y = n)) = [] := by
          rw [List.filter_eq_nil_iff]
          intro y hy
          simp [hf x y hy, hx]
        rw [this]; rfl
  rw [key, key]
  congr 1
  have hp' := hp.filter (fun x => decide (x.1 = n))
  have small : ∀ e : List (String × β), (e.map Prod.fst).Nodup → (e.filter (fun x => decide (x.1 = n))).length ≤ 1 := by
    intro e
    induction e with
    | nil => simp
    | cons x e ih =>
      intro he
      simp only [List.map_cons, List.nodup_cons] at he
      by_cases hx : x.1 = n
      · rw [List.filter_cons_of_pos (by simp [hx])]
        have : e.filter (fun x => decide (x.1 = n)) = [] := by
          rw [List.filter_eq_nil_iff]
          intro y hy
          simp only [decide_eq_true_eq]
          intro hyn
          exact he.1 (List.mem_map.mpr ⟨y, hy, hyn.trans hx.symm⟩)
        rw [this]; simp
      · rw [List.filter_cons_of_neg (by simp [hx])]
        exact ih he.2
  have hs := small d hn
  generalize d.filter (fun x => decide (x.1 = n)) = e at hp' hs
  cases e with
  | nil => exact hp'.symm.eq_nil
  | cons x e =>
    cases e with
    | nil => exact List.perm_singleton.mp hp'.symm
    | cons y e => simp at hs

/-! ### Steps in another order -/

/-- The accumulators agree up to the order of their entries. -/
structure SameAcc (a a' : StepAcc) : Prop where
  obs : SameDict a.obs a'.obs
  infos : SameDict a.infos a'.infos
  reward : a'.reward = a.reward
  done : a'.done = a.done
  provided : a'.provided.sum = a.provided.sum
  absorbed : a'.absorbed.sum = a.absorbed.sum

theorem SameAcc.append {a a' : StepAcc} (h : SameAcc a a') (n : String) (o : StepOut) :
    SameAcc (a.append n o) (a'.append n o) where
  obs := h.obs.dictAppend n _
  infos := h.infos.dictAppend n _
  reward := by simp [StepAcc.append, h.reward]
  done := by simp [StepAcc.append, h.done]
  provided := by simp only [StepAcc.append]; split <;> simp [h.provided]
  absorbed := by simp only [StepAcc.append]; split <;> simp [h.absorbed]

theorem dictAppend_lookup {β : Type} (d : List (String × List β)) (k n : String) (v : β) :
    dictGet? (dictAppend d k v) n = if k = n then some ((dictGet? d n).getD [] ++ [v]) else dictGet? d n := by
  unfold dictAppend
  by_cases hk : k = n
  · subst hk
    cases dictGet? d k <;> simp [dictGet?_dictSet]
  · cases dictGet? d k <;> simp [dictGet?_dictSet, hk]

/-- What a name gets in the dictionaries depends only on its own steps. -/
theorem run_lookup {β : Type} (get : StepAcc → List (String × List β)) (val : StepOut → β)
    (hg : ∀ a n o, get (StepAcc.append a n o) = dictAppend (get a) n (val o)) (a : StepAcc) (tr : List Event)
    (n : String) :
    dictGet? (get (a.run tr)) n = (tr.filter fun e => decide (e.name = n)).foldl
      (fun r e => some (r.getD [] ++ [val e.out])) (dictGet? (get a) n) := by
  induction tr generalizing a with
  | nil => rfl
  | cons e tr ih =>
    have := ih (a.append e.name e.out)
    rw [hg, dictAppend_lookup] at this
    show dictGet? (get ((a.append e.name e.out).run tr)) n = _
    rw [this]
    by_cases he : e.name = n
    · rw [List.filter_cons_of_pos (by simp [he]), List.foldl_cons, if_pos he]
    · rw [List.filter_cons_of_neg (by simp [he]), if_neg he]

theorem SameAcc.run {a a' : StepAcc} (h : SameAcc a a') {tr tr' : List Event} (hp : tr.Perm tr')
    (hf : ∀ n, (tr'.filter fun e => decide (e.name = n)) = tr.filter fun e => decide (e.name = n)) :
    SameAcc (a.run tr) (a'.run tr') where
  obs := fun n => by
    rw [run_lookup (fun a => a.obs) (·.obs) (fun _ _ _ => rfl), run_lookup (fun a => a.obs) (·.obs) (fun _ _ _ => rfl), hf,
      h.obs n]
  infos := fun n => by
    rw [run_lookup (fun a => a.infos) (·.info) (fun _ _ _ => rfl), run_lookup (fun a => a.infos) (·.info) (fun _ _ _ => rfl),
      hf, h.infos n]
  reward := by rw [StepAcc.run_reward, StepAcc.run_reward, h.reward, (hp.map fun e => e.out.reward).sum_eq]
  done := by
    rw [StepAcc.run_done, StepAcc.run_done, h.done]
    congr 1
    rw [Bool.eq_iff_iff, List.any_eq_true, List.any_eq_true]
    exact ⟨fun ⟨e, he, hd⟩ => ⟨e, hp.symm.subset he, hd⟩, fun ⟨e, he, hd⟩ => ⟨e, hp.subset he, hd⟩⟩
  provided := by
    rw [StepAcc.run_provided, StepAcc.run_provided, h.provided]
    unfold provSum
    rw [(hp.map fun e : Event => e.out.info.provided.getD 0).sum_eq]
  absorbed := by
    rw [StepAcc.run_absorbed, StepAcc.run_absorbed, h.absorbed]
    unfold absSum
    rw [(hp.map fun e : Event => e.out.info.absorbed.getD 0).sum_eq]

/-- The event of a step that succeeds. -/
def eventOf (h : Heap) (n : Bool) (x : String × Nat × Act) : Option Event :=
  match ((h x.2.1).step x.2.2 n).2 with
  | .ok o => some ⟨x.1, x.2.1, x.2.2, n, o⟩
  | .error _ => none

theorem eventOf_congr {h h' : Heap} {n : Bool} {x : String × Nat × Act} (hx : h' x.2.1 = h x.2.1) :
    eventOf h' n x = eventOf h n x := by
  unfold eventOf; rw [hx]

theorem stepMany_split {l : List (String × Nat × Act)} {n : Bool} {s s' : RunSt} (hn : (l.map (·.2.1)).Nodup)
    (h : RunSt.stepMany l n s = (s', .ok ())) :
    (∀ x ∈ l, ∃ o, (s.heap x.2.1).step x.2.2 n = (s'.heap x.2.1, .ok o)) ∧
      (∀ j, j ∉ l.map (·.2.1) → s'.heap j = s.heap j) ∧ s'.acc = s.acc.run (l.filterMap (eventOf s.heap n)) := by
  induction l generalizing s with
  | nil =>
    simp only [RunSt.stepMany, Prod.mk.injEq, and_true] at h
    subst h
    exact ⟨by simp, fun _ _ => rfl, rfl⟩
  | cons x l ih =>
    obtain ⟨name, i, a⟩ := x
    simp only [List.map_cons, List.nodup_cons] at hn
    simp only [RunSt.stepMany] at h
    split at h
    · simp at h
    · rename_i s₁ h₁
      obtain ⟨m', o, hs, hh, ha⟩ := RunSt.stepOne_ok h₁
      obtain ⟨e1, e2, e3⟩ := ih hn.2 h
      have other : ∀ j, j ≠ i → s₁.heap j = s.heap j := by
        intro j hj; rw [hh]; simp [Heap.set, hj]
      have mem : ∀ x ∈ l, x.2.1 ≠ i := fun x hx he => hn.1 (he ▸ List.mem_map_of_mem (f := fun x => x.2.1) hx)
      refine ⟨?_, ?_, ?_⟩
      · intro x hx
        rcases List.mem_cons.mp hx with rfl | hx
        · refine ⟨o, ?_⟩
          simp only
          rw [e2 i hn.1, hh, hs]
          simp [Heap.set]
        · obtain ⟨o', ho'⟩ := e1 x hx
          rw [other _ (mem x hx)] at ho'
          exact ⟨o', ho'⟩
      · intro j hj
        simp only [List.map_cons, List.mem_cons, not_or] at hj
        rw [e2 j hj.2, other j hj.1]
      · have h0 : eventOf s.heap n (name, i, a) = some ⟨name, i, a, n, o⟩ := by simp [eventOf, hs]
        rw [List.filterMap_cons, h0, e3, ha]
        have : l.filterMap (eventOf s₁.heap n) = l.filterMap (eventOf s.heap n) :=
          List.filterMap_congr fun x hx => eventOf_congr (other _ (mem x hx))
        rw [this]; rfl

theorem stepMany_join {l : List (String × Nat × Act)} {n : Bool} {s : RunSt} (hn : (l.map (·.2.1)).Nodup)
    (h : ∀ x ∈ l, ∃ m o, (s.heap x.2.1).step x.2.2 n = (m, .ok o)) :
    ∃ s', RunSt.stepMany l n s = (s', .ok ()) := by
  induction l generalizing s with
  | nil => exact ⟨s, rfl⟩
  | cons x l ih =>
    obtain ⟨name, i, a⟩ := x
    simp only [List.map_cons, List.nodup_cons] at hn
    obtain ⟨m, o, hs⟩ := h _ (List.mem_cons_self ..)
    simp only at hs
    simp only [RunSt.stepMany, RunSt.stepOne, hs]
    refine ih hn.2 ?_
    intro x hx
    have : x.2.1 ≠ i := fun he => hn.1 (he ▸ List.mem_map_of_mem (f := fun x => x.2.1) hx)
    simpa [Heap.set, this] using h x (List.mem_cons_of_mem _ hx)

/-- The states agree up to the order of the entries of the accumulator. -/
structure SameSt (s s' : RunSt) : Prop where
  heap : s'.heap = s.heap
  acc : SameAcc s.acc s'.acc

theorem SameSt.stepMany {s s' t : RunSt} (hs : SameSt s s') {l l' : List (String × Nat × Act)} {n : Bool}
    (hn : (l.map (·.2.1)).Nodup) (hp : l.Perm l')
    (hf : ∀ k, (l'.filter fun x => decide (x.1 = k)) = l.filter fun x => decide (x.1 = k))
    (h : RunSt.stepMany l n s = (t, .ok ())) : ∃ t', RunSt.stepMany l' n s' = (t', .ok ()) ∧ SameSt t t' := by
  have hn' : (l'.map (·.2.1)).Nodup := (hp.map _).nodup_iff.mp hn
  obtain ⟨a1, a2, a3⟩ := stepMany_split hn h
  obtain ⟨t', ht'⟩ := stepMany_join (s := s') hn' (fun x hx => by
    obtain ⟨o, ho⟩ := a1 x (hp.symm.subset hx)
    exact ⟨_, o, by rw [hs.heap]; exact ho⟩)
  obtain ⟨b1, b2, b3⟩ := stepMany_split hn' ht'
  refine ⟨t', ht', ?_, ?_⟩
  · funext j
    by_cases hj : j ∈ l.map (·.2.1)
    · obtain ⟨x, hx, rfl⟩ := List.mem_map.mp hj
      obtain ⟨o, ho⟩ := a1 x hx
      obtain ⟨o', ho'⟩ := b1 x (hp.subset hx)
      rw [hs.heap, ho] at ho'
      exact (Prod.ext_iff.mp ho').1.symm
    · rw [a2 j hj, b2 j (fun hm => hj ((hp.map _).symm.subset hm)), hs.heap]
  · rw [a3, b3, hs.heap]
    refine hs.acc.run (hp.filterMap _) ?_
    have key : ∀ (e : List (String × Nat × Act)) (k : String),
        ((e.filterMap (eventOf s.heap n)).filter fun e => decide (e.name = k)) =
          (e.filter fun x => decide (x.1 = k)).filterMap (eventOf s.heap n) := by
      intro e k
      induction e with
      | nil => rfl
      | cons x e ih =>
        have nm : ∀ ev, eventOf s.heap n x = some ev → ev.name = x.1 := by
          intro ev hev
          unfold eventOf at hev
          split at hev
          · simp only [Option.some.injEq] at hev
            rw [← hev]
          · simp at hev
        by_cases hx : x.1 = k
        · rw [List.filter_cons_of_pos (by simp [hx]), List.filterMap_cons, List.filterMap_cons]
          cases hev : eventOf s.heap n x with
          | none => simpa using ih
          | some ev => simp only; rw [List.filter_cons_of_pos (by simp [nm ev hev, hx]), ih]
        · rw [List.filter_cons_of_neg (by simp [hx]), List.filterMap_cons]
          cases hev : eventOf s.heap n x with
          | none => simpa using ih
          | some ev => simp only; rw [List.filter_cons_of_neg (by simp [nm ev hev, hx]), ih]
    intro k
    rw [key, key, hf]

theorem stepMany_append (l l' : List (String × Nat × Act)) (n : Bool) (s : RunSt) :
    RunSt.stepMany (l ++ l') n s = match RunSt.stepMany l n s with
      | (t, .error e) => (t, .error e)
      | (t, .ok ()) => RunSt.stepMany l' n t := by
  induction l generalizing s with
  | nil => rfl
  | cons x l ih =>
    obtain ⟨name, i, a⟩ := x
    simp only [List.cons_append, RunSt.stepMany]
    cases s.stepOne name i a n with
    | mk t r => cases r <;> simp [ih]

theorem stepControls_flat {control : List (String × Ctrl)} {n : Bool} {d : ModDict} {s : RunSt}
    (h : ∀ nl ∈ d, (dictGet? control nl.1).isSome = true) :
    RunSt.stepControls control n d s = RunSt.stepMany (controlSteps control d) n s := by
  induction d generalizing s with
  | nil => rfl
  | cons x d ih =>
    obtain ⟨name, ids⟩ := x
    have hx := h _ (List.mem_cons_self ..)
    obtain ⟨c, hc⟩ := Option.isSome_iff_exists.mp hx
    simp only at hc
    have : controlSteps control ((name, ids) :: d) =
        (ids.zip c.acts).map (fun ia => (name, ia.1, ia.2)) ++ controlSteps control d := by
      simp [controlSteps, hc]
    rw [this, stepMany_append]
    simp only [RunSt.stepControls, hc]
    cases RunSt.stepMany ((ids.zip c.acts).map (fun ia => (name, ia.1, ia.2))) n s with
    | mk t r =>
      cases r with
      | error e => rfl
      | ok u => exact ih fun nl hnl => h nl (List.mem_cons_of_mem _ hnl)

theorem controlSteps_ids (control : List (String × Ctrl)) (d : ModDict) :
    ((controlSteps control d).map (·.2.1)).Sublist (d.flatMap Prod.snd) := by
  induction d with
  | nil => simp [controlSteps]
  | cons x d ih =>
    unfold controlSteps at ih ⊢
    rw [List.flatMap_cons, List.map_append, List.flatMap_cons]
    refine List.Sublist.append ?_ ih
    rw [List.map_map]
    have : ∀ (l : List Nat) (m : List Act),
        ((l.zip m).map ((fun x : String × Nat × Act => x.2.1) ∘ fun ia => (x.1, ia.1, ia.2))).Sublist l := by
      intro l
      induction l with
      | nil => simp
      | cons i l ih =>
        intro m
        cases m with
        | nil => simp
        | cons a m => simpa using ih m
    exact this _ _

theorem SameSt.stepControls {s s' t : RunSt} (hs : SameSt s s') {control : List (String × Ctrl)} {n : Bool}
    {d d' : ModDict} (hk : (d.map Prod.fst).Nodup) (hn : (d.flatMap Prod.snd).Nodup) (hp : d.Perm d')
    (h : RunSt.stepControls control n d s = (t, .ok ())) :
    ∃ t', RunSt.stepControls control n d' s' = (t', .ok ()) ∧ SameSt t t' := by
  obtain ⟨-, -, -, -, -, hsome⟩ := RunSt.stepControls_ok h
  rw [stepControls_flat hsome] at h
  rw [stepControls_flat fun nl hnl => hsome nl (hp.symm.subset hnl)]
  refine hs.stepMany (hn.sublist (controlSteps_ids control d)) ?_ ?_ h
  · exact hp.flatMap_right _
  · exact fun k => flatMap_named hk hp (by
      intro x y hy
      obtain ⟨ia, -, rfl⟩ := List.mem_map.mp hy
      rfl) k

theorem SameSt.stepOne {s s' : RunSt} (hs : SameSt s s') (name : String) (i : Nat) (a : Act) (n : Bool) :
    SameSt (s.stepOne name i a n).1 (s'.stepOne name i a n).1 ∧
      (s'.stepOne name i a n).2 = (s.stepOne name i a n).2 := by
  unfold RunSt.stepOne
  rw [hs.heap]
  cases (s.heap i).step a n with
  | mk m r =>
    cases r with
    | error e => exact ⟨⟨by rfl, hs.acc⟩, rfl⟩
    | ok o => exact ⟨⟨by rfl, hs.acc.append name o⟩, rfl⟩

theorem SameSt.absorbExcess {l : List (String × Nat)} : ∀ {x : ℚ} {s s' : RunSt} (_ : SameSt s s'),
    SameSt (s.absorbExcess l x).1 (s'.absorbExcess l x).1 ∧ (s'.absorbExcess l x).2 = (s.absorbExcess l x).2 := by
  induction l with
  | nil => exact fun hs => ⟨hs, rfl⟩
  | cons y l ih =>
    obtain ⟨name, i⟩ := y
    intro x s s' hs
    simp only [RunSt.absorbExcess]
    rw [hs.heap]
    cases sinkAmount (s.heap i) x with
    | error e => exact ⟨hs, rfl⟩
    | ok amt =>
      obtain ⟨k1, k2⟩ := hs.stepOne name i (.num (-1 * amt)) false
      simp only
      cases e : s.stepOne name i (.num (-1 * amt)) false with
      | mk t r =>
        cases e' : s'.stepOne name i (.num (-1 * amt)) false with
        | mk t' r' =>
          rw [e, e'] at k1 k2
          simp only at k1 k2
          subst k2
          cases r' with
          | error _ => exact ⟨k1, rfl⟩
          | ok u => exact ih k1

theorem SameSt.coverNeed {l : List (String × Nat)} : ∀ {x : ℚ} {s s' : RunSt} (_ : SameSt s s'),
    SameSt (s.coverNeed l x).1 (s'.coverNeed l x).1 ∧ (s'.coverNeed l x).2 = (s.coverNeed l x).2 := by
  induction l with
  | nil => exact fun hs => ⟨hs, rfl⟩
  | cons y l ih =>
    obtain ⟨name, i⟩ := y
    intro x s s' hs
    simp only [RunSt.coverNeed]
    rw [hs.heap]
    cases sourceAmount (s.heap i) x with
    | error e => exact ⟨hs, rfl⟩
    | ok amt =>
      obtain ⟨k1, k2⟩ := hs.stepOne name i (.num amt) false
      simp only
      cases e : s.stepOne name i (.num amt) false with
      | mk t r =>
        cases e' : s'.stepOne name i (.num amt) false with
        | mk t' r' =>
          rw [e, e'] at k1 k2
          simp only at k1 k2
          subst k2
          cases r' with
          | error _ => exact ⟨k1, rfl⟩
          | ok u => exact ih k1

/-! ### Marginal costs -/

theorem costInfo_perm {h : Heap} {d d' : ModDict} (hp : d.Perm d') : ∀ {ci : CostInfo}, costInfo h d = .ok ci →
    ∃ ci', costInfo h d' = .ok ci' ∧ ci.Perm ci' := by
  induction hp with
  | nil => exact fun e => ⟨_, e, .refl _⟩
  | cons x hp ih =>
    obtain ⟨n, is⟩ := x
    intro ci e
    simp only [costInfo] at e ⊢
    split at e
    · rename_i l r h1 h2
      obtain ⟨ci', e', p'⟩ := ih h2
      simp only [Except.ok.injEq] at e
      subst e
      rw [h1, e']
      exact ⟨_, rfl, p'.cons _⟩
    · simp at e
    · simp at e
  | swap x y l =>
    obtain ⟨n, is⟩ := x
    obtain ⟨n', is'⟩ := y
    intro ci e
    simp only [costInfo] at e ⊢
    cases h1 : costInfoOf h is <;> cases h2 : costInfoOf h is' <;> cases h3 : costInfo h l <;>
      simp only [h1, h2, h3, reduceCtorEq, Except.ok.injEq] at e ⊢
    subst e
    exact ⟨_, rfl, .swap ..⟩
  | trans _ _ ih₁ ih₂ =>
    intro ci e
    obtain ⟨c₁, e₁, p₁⟩ := ih₁ e
    obtain ⟨c₂, e₂, p₂⟩ := ih₂ e₁
    exact ⟨c₂, e₂, p₁.trans p₂⟩

theorem costInfo_keys {h : Heap} {d : ModDict} : ∀ {ci : CostInfo}, costInfo h d = .ok ci →
    ci.map Prod.fst = d.map Prod.fst := by
  induction d with
  | nil => intro ci e; simp only [costInfo, Except.ok.injEq] at e; subst e; rfl
  | cons x d ih =>
    obtain ⟨n, is⟩ := x
    intro ci e
    simp only [costInfo] at e
    split at e
    · rename_i l r h1 h2
      simp only [Except.ok.injEq] at e
      subst e
      simp [ih h2]
    · simp at e
    · simp at e

/-! ### Containers -/

/-- What the order of the modules may change in a container. -/
structure SameCont (c c' : Container) : Prop where
  level : ∀ f, (c.levelDict f).Perm (c'.levelDict f)
  flex : c'.levelDict .flex = c.levelDict .flex
  full : c.fullDict.Perm c'.fullDict
  list : c.fullList.Perm c'.fullList
  levelKeys : ∀ f, ((c.levelDict f).map Prod.fst).Nodup
  levelIds : ∀ f, ((c.levelDict f).flatMap Prod.snd).Nodup
  fullKeys : (c.fullDict.map Prod.fst).Nodup
  fullIds : (c.fullDict.flatMap Prod.snd).Nodup
  listIds : c.fullList.Nodup

theorem SameCont.symm {c c' : Container} (h : SameCont c c') : SameCont c' c where
  level f := (h.level f).symm
  flex := h.flex.symm
  full := h.full.symm
  list := h.list.symm
  levelKeys f := ((h.level f).map _).nodup_iff.mp (h.levelKeys f)
  levelIds f := ((h.level f).flatMap_right _).nodup_iff.mp (h.levelIds f)
  fullKeys := (h.full.map _).nodup_iff.mp h.fullKeys
  fullIds := (h.full.flatMap_right _).nodup_iff.mp h.fullIds
  listIds := h.list.nodup_iff.mp h.listIds

theorem Reordered.perm {h : Heap} {mods mods' : List (String × Nat)} (r : Reordered h mods mods') : mods.Perm mods' := by
  rw [List.perm_iff_count]
  rintro ⟨n, i⟩
  have : ∀ l : List (String × Nat), l.count (n, i) = (l.filter fun x => decide (x.1 = n)).count (n, i) := by
    intro l
    rw [List.count_filter (by simp)]
  rw [this mods, this mods', r.named]

theorem Reordered.symm {h : Heap} {mods mods' : List (String × Nat)} (r : Reordered h mods mods') :
    Reordered h mods' mods := ⟨fun n => (r.named n).symm, fun s => (r.flex s).symm⟩

namespace Container

theorem cat_same {h : Heap} {mods mods' : List (String × Nat)} (r : Reordered h mods mods') (f : FFC) (s : SS) :
    SameDict ((build h mods).cat f s) ((build h mods').cat f s) := by
  intro n
  have : idsOf h mods' f s n = idsOf h mods f s n := by
    unfold idsOf
    rw [← List.filter_filter, ← List.filter_filter, r.named]
  rw [cat_get, cat_get, this]

theorem dictUpdate_same {d d' e e' : ModDict} (h : SameDict d d') (he : SameDict e e') (hn : (e.map Prod.fst).Nodup)
    (hn' : (e'.map Prod.fst).Nodup) : SameDict (dictUpdate d e) (dictUpdate d' e') := by
  intro k
  rw [dictGet?_dictUpdate _ _ hn, dictGet?_dictUpdate _ _ hn', h k, he k]

theorem toDict_same {h : Heap} {mods mods' : List (String × Nat)} (r : Reordered h mods mods') (cats : List (FFC × SS)) :
    SameDict (toDict (cats.map fun fs => (build h mods).cat fs.1 fs.2))
      (toDict (cats.map fun fs => (build h mods').cat fs.1 fs.2)) := by
  induction cats using List.reverseRecOn with
  | nil => exact SameDict.rfl' _
  | append_singleton cats fs ih =>
    rw [List.map_append, List.map_append, List.map_cons, List.map_nil, List.map_cons, List.map_nil, toDict_cons,
      toDict_cons]
    exact dictUpdate_same ih (cat_same r fs.1 fs.2) (cat_nodup ..) (cat_nodup ..)

/-- A category depends only on its own modules. -/
theorem cat_filter (h : Heap) (mods : List (String × Nat)) (f : FFC) (s : SS) :
    (build h mods).cat f s = (mods.filter (inCat h f s)).foldl (fun d x => ModDict.append d x.1 x.2) [] := by
  induction mods using List.reverseRecOn with
  | nil => rfl
  | append_singleton mods x ih =>
    rw [build_snoc, add_cat, List.filter_append, List.foldl_append, ← ih]
    by_cases hx : inCat h f s x = true
    · simp [hx]
    · simp [hx]

theorem sameCont {h : Heap} {mods mods' : List (String × Nat)} (r : Reordered h mods mods')
    (hid : (mods.map Prod.snd).Nodup) : SameCont (build h mods) (build h mods') := by
  have hid' : (mods'.map Prod.snd).Nodup := (r.perm.map _).nodup_iff.mp hid
  refine ⟨?_, ?_, ?_, ?_, ?_, ?_, ?_, ?_, ?_⟩
  · intro f
    exact dict_perm (toDict_nodup _) (toDict_nodup _)
      (toDict_same r [(f, .sources), (f, .sinks), (f, .both)])
  · unfold levelDict level
    have : ∀ s, (build h mods').cat .flex s = (build h mods).cat .flex s := by
      intro s
      rw [cat_filter, cat_filter]
      congr 1
      exact r.flex s
    simp [this]
  · exact dict_perm (toDict_nodup _) (toDict_nodup _)
      (toDict_same r [(.fixed, .sources), (.fixed, .sinks), (.fixed, .both), (.flex, .sources), (.flex, .sinks),
        (.flex, .both), (.controllable, .sources), (.controllable, .sinks), (.controllable, .both)])
  · exact (fullList_perm h mods).trans ((r.perm.map _).trans (fullList_perm h mods').symm)
  · exact fun f => toDict_nodup _
  · intro f
    rw [← toTuples_ids]
    exact level_nodup hid f
  · exact toDict_nodup _
  · rw [← toTuples_ids]
    exact full_nodup hid
  · exact (fullList_perm h mods).nodup_iff.mpr hid

end Container

/-! ### Microgrids -/

/-- The microgrids differ only in the order of their modules. -/
structure Shuffled (g g' : Microgrid) : Prop where
  same : SameParts g g'
  cont : SameCont g.cont g'.cont
  shaper : Orderless g.shaper

theorem SameParts.symm {g g' : Microgrid} (h : SameParts g g') : SameParts g' g :=
  ⟨h.heap.symm, h.initialStep.symm, h.finalStep.symm, h.shaper.symm, h.trajectory.symm, h.calls.symm,
    h.balanceLog.symm, h.otherLog.symm⟩

theorem Shuffled.symm {g g' : Microgrid} (h : Shuffled g g') : Shuffled g' g :=
  ⟨h.same.symm, h.cont.symm, by rw [h.same.shaper]; exact h.shaper⟩

theorem SameAcc.shaped {a a' : StepAcc} (h : SameAcc a a') {sh : Option Shaper} (hs : Orderless sh) {ci ci' : CostInfo}
    (hc : SameDict ci ci') : a'.shapedReward sh ci' = a.shapedReward sh ci := by
  unfold StepAcc.shapedReward
  cases sh with
  | none => simp [h.reward]
  | some f => exact hs f rfl _ _ _ _ h.infos hc

theorem SameAcc.balance {a a' : StepAcc} (h : SameAcc a a') {sh : Option Shaper} (hs : Orderless sh) {ci ci' : CostInfo}
    (hc : SameDict ci ci') : a'.balance sh ci' = a.balance sh ci := by
  unfold StepAcc.balance
  rw [h.shaped hs hc, h.provided, h.absorbed, h.reward]

theorem Shuffled.finish {g g' : Microgrid} (h : Shuffled g g') {s s' : RunSt} (hs : SameSt s s') {ci ci' : CostInfo}
    (hc : SameDict ci ci') {fp fc p c : ℚ} {g₁ : Microgrid} {o : RunOut} (hr : g.finish ci s fp fc p c = (g₁, .ok o)) :
    ∃ g₁' o', g'.finish ci' s' fp fc p c = (g₁', .ok o') ∧ SameOut o o' ∧ Shuffled g₁ g₁' := by
  unfold Microgrid.finish at hr ⊢
  simp only at hr ⊢
  rw [h.same.shaper, hs.acc.balance h.shaper hc, hs.acc.shaped h.shaper hc, h.same.balanceLog, hs.heap]
  split at hr
  · simp at hr
  · rename_i q hq
    split at hr
    · simp at hr
    · rename_i hcl
      split at hr
      · simp at hr
      · rename_i r hr'
        simp only [Prod.mk.injEq, Except.ok.injEq] at hr
        obtain ⟨rfl, rfl⟩ := hr
        rw [if_neg hcl]
        refine ⟨_, _, rfl, ⟨hs.acc.obs, hs.acc.infos, rfl, hs.acc.done⟩, ⟨?_, h.cont, h.shaper⟩⟩
        exact ⟨rfl, h.same.initialStep, h.same.finalStep, rfl, h.same.trajectory, h.same.calls, rfl,
          h.same.otherLog⟩

theorem Shuffled.run {g g' : Microgrid} (h : Shuffled g g') {c : List (String × Ctrl)} {n : Bool} {g₁ : Microgrid}
    {o : RunOut} (hr : g.run c n = (g₁, .ok o)) :
    ∃ g₁' o', g'.run c n = (g₁', .ok o') ∧ SameOut o o' ∧ Shuffled g₁ g₁' := by
  unfold Microgrid.run at hr
  split at hr
  · simp at hr
  rename_i ci hci
  obtain ⟨ci', hci', hcp⟩ := costInfo_perm h.cont.full hci
  have hsd : SameDict ci ci' := SameDict.of_perm (by rw [costInfo_keys hci]; exact h.cont.fullKeys) hcp
  split at hr
  · simp at hr
  rename_i s₁ hs₁
  have s0 : SameSt { heap := g.heap, acc := {} } { heap := g'.heap, acc := {} } :=
    ⟨h.same.heap, ⟨SameDict.rfl' _, SameDict.rfl' _, rfl, rfl, rfl, rfl⟩⟩
  obtain ⟨s₁', hs₁', k₁⟩ := s0.stepMany (l' := g'.fixedSteps) (by
      unfold Microgrid.fixedSteps
      rw [List.map_map]
      have := h.cont.levelIds .fixed
      rw [← Container.toTuples_ids] at this
      exact this) (by
      unfold Microgrid.fixedSteps Container.toTuples
      exact ((h.cont.level .fixed).flatMap_right _).map _) (by
      intro k
      have e : ∀ d : ModDict, (Container.toTuples d).map (fun ni => (ni.1, ni.2, Act.num 0)) =
          d.flatMap fun nl => nl.2.map fun i => (nl.1, i, Act.num 0) := by
        intro d
        simp [Container.toTuples, List.map_flatMap, Function.comp_def]
      unfold Microgrid.fixedSteps
      rw [e, e]
      refine flatMap_named (name := fun x : String × Nat × Act => x.1) (h.cont.levelKeys .fixed) (h.cont.level .fixed) ?_ k
      intro x y hy
      obtain ⟨i, -, rfl⟩ := List.mem_map.mp hy
      rfl) hs₁
  split at hr
  · simp at hr
  rename_i fp fc x₁ x₂ hb₁
  split at hr
  · simp at hr
  rename_i s₂ hs₂
  obtain ⟨s₂', hs₂', k₂⟩ := k₁.stepControls (d' := g'.cont.levelDict .controllable) (h.cont.levelKeys _)
    (h.cont.levelIds _) (h.cont.level _) hs₂
  split at hr
  · simp at hr
  rename_i p cc y₁ y₂ hb₂
  split at hr
  · simp at hr
  rename_i s₃ hs₃
  have hd : ∃ s₃', g'.dispatch (p - cc) s₂' = (s₃', .ok ()) ∧ SameSt s₃ s₃' := by
    have fl : g'.flexList = g.flexList := by unfold Microgrid.flexList; rw [h.cont.flex]
    unfold Microgrid.dispatch at hs₃ ⊢
    rw [fl]
    split at hs₃
    · rename_i hpos
      rw [if_pos hpos]
      obtain ⟨a, b⟩ := k₂.absorbExcess (l := g.flexList) (x := p - cc)
      rw [hs₃] at a b
      exact ⟨_, Prod.ext rfl b, a⟩
    · rename_i hpos
      rw [if_neg hpos]
      obtain ⟨a, b⟩ := k₂.coverNeed (l := g.flexList) (x := -(p - cc))
      rw [hs₃] at a b
      exact ⟨_, Prod.ext rfl b, a⟩
  obtain ⟨s₃', hs₃', k₃⟩ := hd
  obtain ⟨g₁', o', hf, ho, hg⟩ := h.finish k₃ hsd hr
  refine ⟨g₁', o', ?_, ho, hg⟩
  unfold Microgrid.run
  rw [h.same.heap, hci']
  simp only
  rw [← h.same.heap, hs₁']
  simp only
  rw [h.same.shaper, k₁.acc.balance h.shaper hsd, hb₁]
  simp only
  rw [hs₂']
  simp only
  rw [k₂.acc.balance h.shaper hsd, hb₂]
  simp only
  rw [hs₃']
  exact hf

theorem setFinalMany_any {l : List Nat} {v : Int} {b : Bool} {h h' : Heap}
    (hr : Microgrid.setFinalMany h v b l = (h', .ok ())) (hn : l.Nodup) :
    b = true ∨ ∃ i ∈ l, (Microgrid.setFinalOne (h i) v).2 = .ok true := by
  induction l generalizing h b with
  | nil =>
    simp only [Microgrid.setFinalMany, Prod.mk.injEq] at hr
    left
    by_contra hb
    simp [hb] at hr
  | cons i l ih =>
    simp only [List.nodup_cons] at hn
    simp only [Microgrid.setFinalMany] at hr
    split at hr
    · simp at hr
    · rename_i m' b' he
      rcases ih hr hn.2 with hb | ⟨j, hj, he'⟩
      · rcases Bool.or_eq_true_iff.mp hb with hb | hb
        · exact .inl hb
        · subst hb
          exact .inr ⟨i, List.mem_cons_self .., by rw [he]⟩
      · refine .inr ⟨j, List.mem_cons_of_mem _ hj, ?_⟩
        have : j ≠ i := fun e => hn.1 (e ▸ hj)
        simpa [Heap.set, this] using he'

theorem setFinalMany_all {l : List Nat} {v : Int} {b : Bool} {h : Heap} (hn : l.Nodup)
    (hr : ∀ i ∈ l, ∃ m' x, Microgrid.setFinalOne (h i) v = (m', .ok x))
    (hb : b = true ∨ ∃ i ∈ l, (Microgrid.setFinalOne (h i) v).2 = .ok true) :
    ∃ h', Microgrid.setFinalMany h v b l = (h', .ok ()) := by
  induction l generalizing h b with
  | nil =>
    rcases hb with rfl | ⟨i, hi, -⟩
    · exact ⟨h, rfl⟩
    · simp at hi
  | cons i l ih =>
    simp only [List.nodup_cons] at hn
    obtain ⟨m', x, e⟩ := hr i (List.mem_cons_self ..)
    simp only [Microgrid.setFinalMany, e]
    have ne : ∀ j ∈ l, j ≠ i := fun j hj he => hn.1 (he ▸ hj)
    refine ih hn.2 ?_ ?_
    · intro j hj
      simpa [Heap.set, ne j hj] using hr j (List.mem_cons_of_mem _ hj)
    · rcases hb with rfl | ⟨j, hj, he⟩
      · exact .inl rfl
      · rcases List.mem_cons.mp hj with rfl | hj
        · rw [e] at he
          simp only [Except.ok.injEq] at he
          exact .inl (by simp [he])
        · exact .inr ⟨j, hj, by simpa [Heap.set, ne j hj] using he⟩

theorem setInitialMany_perm {l l' : List Nat} (hp : l.Perm l') (v : Nat) (h : Heap) :
    Microgrid.setInitialMany h v l' = Microgrid.setInitialMany h v l := by
  funext i
  rw [setInitialMany_get, setInitialMany_get]
  simp only [hp.mem_iff]

theorem setFinalMany_perm {l l' : List Nat} (hn : l.Nodup) (hp : l.Perm l') {v : Int} {b : Bool} {h h' : Heap}
    (hr : Microgrid.setFinalMany h v b l = (h', .ok ())) : Microgrid.setFinalMany h v b l' = (h', .ok ()) := by
  have hn' := hp.nodup_iff.mp hn
  obtain ⟨a1, a2⟩ := setFinalMany_ok hr hn
  obtain ⟨h'', e⟩ := setFinalMany_all (h := h) (v := v) (b := b) hn' (fun i hi => by
      obtain ⟨x, hx⟩ := a1 i (hp.symm.subset hi)
      exact ⟨_, x, hx⟩) (by
      rcases setFinalMany_any hr hn with hb | ⟨i, hi, he⟩
      · exact .inl hb
      · exact .inr ⟨i, hp.subset hi, he⟩)
  obtain ⟨b1, b2⟩ := setFinalMany_ok e hn'
  rw [e]
  congr 1
  funext i
  by_cases hi : i ∈ l
  · obtain ⟨x, hx⟩ := a1 i hi
    obtain ⟨y, hy⟩ := b1 i (hp.subset hi)
    rw [hx] at hy
    exact (Prod.ext_iff.mp hy).1.symm
  · rw [a2 i hi, b2 i (fun hm => hi (hp.symm.subset hm))]

theorem resetMany_perm {l l' : List Nat} (hn : l.Nodup) (hp : l.Perm l') {h h' : Heap}
    (hr : Microgrid.resetMany h l = (h', .ok ())) : Microgrid.resetMany h l' = (h', .ok ()) := by
  have hn' := hp.nodup_iff.mp hn
  obtain ⟨a1, a2⟩ := resetMany_ok hr hn
  obtain ⟨h'', e⟩ := resetMany_all (h := h) hn' (fun i hi => by
      obtain ⟨x, hx⟩ := a1 i (hp.symm.subset hi)
      exact ⟨_, x, hx⟩)
  obtain ⟨b1, b2⟩ := resetMany_ok e hn'
  rw [e]
  congr 1
  funext i
  by_cases hi : i ∈ l
  · obtain ⟨x, hx⟩ := a1 i hi
    obtain ⟨y, hy⟩ := b1 i (hp.subset hi)
    rw [hx] at hy
    exact (Prod.ext_iff.mp hy).1.symm
  · rw [a2 i hi, b2 i (fun hm => hi (hp.symm.subset hm))]

theorem Shuffled.setTrajectory {g g' : Microgrid} (h : Shuffled g g') {g₁ : Microgrid}
    (hr : g.setTrajectory = (g₁, .ok ())) : ∃ g₁', g'.setTrajectory = (g₁', .ok ()) ∧ Shuffled g₁ g₁' ∧
      g₁.cont = g.cont ∧ g₁'.cont = g'.cont := by
  unfold Microgrid.setTrajectory at hr ⊢
  rw [h.same.trajectory]
  split at hr
  · simp only [Prod.mk.injEq, and_true] at hr
    subst hr
    exact ⟨_, rfl, h, rfl, rfl⟩
  · rename_i f hf
    simp only at hr ⊢
    rw [h.same.calls, h.same.initialStep, h.same.finalStep]
    split at hr
    · simp at hr
    · rename_i i fin hfin
      rw [Prod.mk.injEq] at hr
      obtain ⟨e1, e2⟩ := hr
      have hm : Microgrid.setFinalMany (Microgrid.setInitialMany g.heap i g.cont.fullList) fin false g.cont.fullList =
          ((Microgrid.setFinalMany (Microgrid.setInitialMany g.heap i g.cont.fullList) fin false g.cont.fullList).1,
            .ok ()) := Prod.ext rfl e2
      have hm' := setFinalMany_perm h.cont.listIds h.cont.list hm
      rw [h.same.heap, setInitialMany_perm h.cont.list, hm']
      subst e1
      exact ⟨_, rfl, ⟨⟨rfl, rfl, rfl, h.same.shaper, rfl, rfl,
        h.same.balanceLog, h.same.otherLog⟩, h.cont, h.shaper⟩, rfl, rfl⟩

theorem Shuffled.reset {g g' : Microgrid} (h : Shuffled g g') {g₁ : Microgrid} (hr : g.reset = (g₁, .ok ())) :
    ∃ g₁', g'.reset = (g₁', .ok ()) ∧ Shuffled g₁ g₁' := by
  unfold Microgrid.reset at hr ⊢
  split at hr
  · simp at hr
  · rename_i g₂ hg₂
    obtain ⟨g₂', hg₂', k, c₁, c₂⟩ := h.setTrajectory hg₂
    rw [hg₂']
    simp only
    split at hr
    · simp at hr
    · rename_i hp hm
      simp only [Prod.mk.injEq, and_true] at hr
      subst hr
      have hm' := resetMany_perm (l' := (Container.toTuples g'.cont.fullDict).map Prod.snd)
        (by rw [Container.toTuples_ids]; exact h.cont.fullIds)
        (by rw [Container.toTuples_ids, Container.toTuples_ids]; exact h.cont.full.flatMap_right _) hm
      rw [k.same.heap, hm']
      exact ⟨_, rfl, ⟨⟨rfl, k.same.initialStep, k.same.finalStep, k.same.shaper, k.same.trajectory, k.same.calls,
        by simp [k.same.balanceLog], by simp [k.same.otherLog]⟩, k.cont, k.shaper⟩⟩

theorem uniqueVal_perm {α : Type} [DecidableEq α] {l l' : List α} {x : α} (hp : l.Perm l') (h : uniqueVal l = .ok x) :
    uniqueVal l' = .ok x := by
  obtain ⟨a, b⟩ := uniqueVal_ok h
  exact uniqueVal_of (fun y hy => a y (hp.symm.subset hy)) (fun e => b (by subst e; exact hp.eq_nil))

theorem Shuffled.create {h : Heap} {mods mods' : List (String × Nat)} {sh : Option Shaper}
    {tr : Option (Nat → Nat → Option Nat → Except Err (Nat × Nat))} {g : Microgrid}
    (hc : Microgrid.create h mods sh tr = .ok g) (r : Reordered h mods mods') (hid : (mods.map Prod.snd).Nodup)
    (hs : Orderless sh) : ∃ g', Microgrid.create h mods' sh tr = .ok g' ∧ Shuffled g g' := by
  have sc := Container.sameCont r hid
  have ck : ∀ a a' : Microgrid, Shuffled a a' → a.checkTrajectory tr = .ok g →
      ∃ g', a'.checkTrajectory tr = .ok g' ∧ Shuffled g g' := by
    intro a a' s hk
    unfold Microgrid.checkTrajectory at hk ⊢
    split at hk
    · simp only [Except.ok.injEq] at hk
      subst hk
      exact ⟨_, rfl, s⟩
    · rw [s.same.initialStep, s.same.finalStep]
      split at hk
      · simp at hk
      · rename_i i fin hf
        split at hk
        · simp at hk
        · rename_i h1
          split at hk
          · simp at hk
          · rename_i h2
            split at hk
            · simp at hk
            · rename_i h3
              simp only [Except.ok.injEq] at hk
              subst hk
              rw [if_neg h1, if_neg h2, if_neg h3]
              exact ⟨_, rfl, ⟨⟨s.same.heap, rfl, rfl, s.same.shaper, rfl, rfl,
                s.same.balanceLog, s.same.otherLog⟩, s.cont, s.shaper⟩⟩
  unfold Microgrid.create at hc ⊢
  simp only at hc ⊢
  have hem : mods'.isEmpty = mods.isEmpty := by
    rw [Bool.eq_iff_iff, List.isEmpty_iff, List.isEmpty_iff]
    exact ⟨fun e => by subst e; exact r.perm.eq_nil, fun e => by subst e; exact r.perm.symm.eq_nil⟩
  have hp : ((Container.toTuples (Container.build h mods).fullDict).map Prod.snd).Perm
      ((Container.toTuples (Container.build h mods').fullDict).map Prod.snd) := by
    rw [Container.toTuples_ids, Container.toTuples_ids]
    exact sc.full.flatMap_right _
  rw [hem]
  split at hc
  · rename_i he
    rw [if_pos he]
    exact ck { heap := h, cont := .build h mods, initialStep := 0, finalStep := none, shaper := sh } _
      ⟨⟨rfl, rfl, rfl, rfl, rfl, rfl, rfl, rfl⟩, sc, hs⟩ hc
  · rename_i he
    rw [if_neg he]
    split at hc
    · simp at hc
    · rename_i i0 h0
      rw [uniqueVal_perm (hp.map _) h0]
      simp only
      split at hc
      · simp at hc
      · rename_i f0 h1
        rw [uniqueVal_perm (hp.filterMap _) h1]
        exact ck { heap := h, cont := .build h mods, initialStep := i0, finalStep := some f0, shaper := sh } _
          ⟨⟨rfl, rfl, rfl, rfl, rfl, rfl, rfl, rfl⟩, sc, hs⟩ hc

end Pymgrid
