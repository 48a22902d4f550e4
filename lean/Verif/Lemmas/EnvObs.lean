import Verif.Spec.EnvObs
import Verif.Lemmas.GetLog
import Verif.Lemmas.Observe
import Verif.Lemmas.NormalizedRun

set_option autoImplicit false

/-! Observations of environments. -/

namespace Pymgrid

open Module

/-! ### Sorting -/

section
variable {β : Type}

theorem insertKey_perm (x : String × β) (l : List (String × β)) : (insertKey x l).Perm (x :: l) := by
  induction l with
  | nil => exact List.Perm.refl _
  | cons y ys ih =>
    unfold insertKey
    split
    · exact List.Perm.refl _
    · exact (List.Perm.cons y ih).trans (List.Perm.swap x y ys)

theorem sortKeys_perm (d : List (String × β)) : (sortKeys d).Perm d := by
  induction d with
  | nil => exact List.Perm.refl _
  | cons x d ih => exact (insertKey_perm x _).trans (List.Perm.cons x ih)

theorem insertKey_sorted {x : String × β} {l : List (String × β)} (hl : l.Pairwise fun a b => a.1 ≤ b.1) :
    (insertKey x l).Pairwise fun a b => a.1 ≤ b.1 := by
  induction l with
  | nil => simp [insertKey]
  | cons y ys ih =>
    rw [List.pairwise_cons] at hl
    unfold insertKey
    split
    · rename_i hxy
      refine List.pairwise_cons.mpr ⟨?_, List.pairwise_cons.mpr hl⟩
      intro z hz
      rcases List.mem_cons.mp hz with rfl | hz
      · exact hxy
      · exact String.le_trans hxy (hl.1 z hz)
    · rename_i hxy
      refine List.pairwise_cons.mpr ⟨?_, ih hl.2⟩
      intro z hz
      rcases List.mem_cons.mp ((insertKey_perm x ys).subset hz) with rfl | hz
      · exact (String.le_total _ _).resolve_left hxy
      · exact hl.1 z hz

theorem sortKeys_sorted (d : List (String × β)) : (sortKeys d).Pairwise fun a b => a.1 ≤ b.1 := by
  induction d with
  | nil => exact List.Pairwise.nil
  | cons x d ih => exact insertKey_sorted ih

theorem sortKeys_strict {d : List (String × β)} (hd : (d.map Prod.fst).Nodup) :
    ((sortKeys d).map Prod.fst).Pairwise (· < ·) := by
  have h1 := sortKeys_sorted d
  have h2 : ((sortKeys d).map Prod.fst).Nodup := (((sortKeys_perm d).map Prod.fst).nodup_iff).mpr hd
  rw [List.Nodup, List.pairwise_map] at h2
  rw [List.pairwise_map]
  exact h1.imp₂ (fun _ _ hle hne => Std.lt_of_le_of_ne hle hne) h2

end

/-! ### Modules -/

theorem kept_box : Kept SameBox where
  refl := SameBox.refl
  trans := SameBox.trans
  step := box_step
  reset := box_reset
  initial := fun _ _ => ⟨rfl, rfl, rfl⟩
  final := fun m v => by
    unfold Microgrid.setFinalOne
    cases hk : m.kind with
    | grid p t =>
      simp only [TS.setFinalStep]
      split <;> rename_i heq <;> (simp only [Prod.mk.injEq] at heq; obtain ⟨rfl, -⟩ := heq; exact ⟨by rw [hk]; rfl, by rw [hk]; rfl, by rw [hk]; rfl⟩)
    | load t =>
      simp only [TS.setFinalStep]
      split <;> rename_i heq <;> (simp only [Prod.mk.injEq] at heq; obtain ⟨rfl, -⟩ := heq; exact ⟨by rw [hk]; rfl, by rw [hk]; rfl, by rw [hk]; rfl⟩)
    | renewable t =>
      simp only [TS.setFinalStep]
      split <;> rename_i heq <;> (simp only [Prod.mk.injEq] at heq; obtain ⟨rfl, -⟩ := heq; exact ⟨by rw [hk]; rfl, by rw [hk]; rfl, by rw [hk]; rfl⟩)
    | _ => exact SameBox.refl _

theorem obsBox_square {m : Module} (h : m.WF) : m.kind.obsBox.low.length = m.kind.obsBox.high.length := by
  have ts : ∀ {t : TS}, m.TSWF t → t.obsSpace.low.length = t.obsSpace.high.length := by
    intro t hw
    have := hw.state_within
    exact this.1.symm.trans this.2.1
  cases h with
  | battery b h => rw [h.kind]; rfl
  | genset g h => rw [h.kind]; rfl
  | grid p t h w => rw [h.kind]; exact ts h.ts
  | load t h w => rw [h.kind]; exact ts h.ts
  | renewable t h w => rw [h.kind]; exact ts h.ts
  | balancing u h => rw [h.kind]; rfl

/-- The normalised observation has one entry for each dimension. -/
theorem normalizedObs_dim {m : Module} (h : m.WF) (sp : m.Spaced) {a : Act} (ha : m.normalizedObs = .ok a) :
    a.vals.length = m.obsSpace.dim := by
  have hb := obsBox_square h
  rw [← sp.obs] at hb
  unfold Module.normalizedObs at ha
  cases hs : m.state with
  | error e => rw [hs] at ha; simp at ha
  | ok s =>
    rw [hs] at ha
    simp only [Space.normalize, Space.apply] at ha
    split at ha
    · simp at ha
    · rename_i hl
      simp only [ne_eq, not_not] at hl
      simp only [Except.ok.injEq] at ha
      rw [← ha, Space.item_vals, mapBounds_length _ _ _ _ hl hb, hl]

/-- Arrays of one element become scalars, others stay arrays. -/
theorem normalizedObs_shape {m : Module} {a : Act} (ha : m.normalizedObs = .ok a) :
    a = Space.item a.vals := by
  unfold Module.normalizedObs at ha
  cases hs : m.state with
  | error e => rw [hs] at ha; simp at ha
  | ok s =>
    rw [hs] at ha
    simp only [Space.normalize, Space.apply] at ha
    split at ha
    · simp at ha
    · simp only [Except.ok.injEq] at ha
      rw [← ha, Space.item_vals]

/-! ### The modules stepped under a name -/

section
variable {h : Heap} {mods : List (String × Nat)}

theorem toTuples_filter {d : ModDict} (hd : (d.map Prod.fst).Nodup) (name : String) :
    ((Container.toTuples d).filter fun x => decide (x.1 = name)).map Prod.snd = (dictGet? d name).getD [] := by
  induction d with
  | nil => rfl
  | cons nl d ih =>
    obtain ⟨n, l⟩ := nl
    simp only [List.map_cons, List.nodup_cons] at hd
    have ih' := ih hd.2
    simp only [Container.toTuples, List.flatMap_cons, List.filter_append, List.map_append] at ih' ⊢
    rw [ih']
    by_cases hn : n = name
    · subst hn
      have : dictGet? d n = none := dictGet?_none.mpr hd.1
      rw [this]
      simp [dictGet?, List.filter_map, Function.comp_def]
    · simp [dictGet?, hn, List.filter_map, Function.comp_def]

theorem level_getD (hu : ClearNames h mods) (f : FFC) (name : String) :
    (dictGet? ((Container.build h mods).levelDict f) name).getD [] = modulesNamed h mods f name := by
  cases hg : dictGet? ((Container.build h mods).levelDict f) name with
  | some l => exact Container.level_named hu (dictGet?_mem hg)
  | none =>
    rw [Option.getD_none]
    symm
    rw [List.eq_nil_iff_forall_not_mem]
    intro i hi
    simp only [modulesNamed, List.mem_map, List.mem_filter, decide_eq_true_eq] at hi
    obtain ⟨nm, ⟨hm, hn, hf⟩, -⟩ := hi
    obtain ⟨ids, hids⟩ := Container.level_key (h := h) hm
    rw [hf, hn] at hids
    rw [dictGet?_none] at hg
    exact hg (List.mem_map_of_mem (f := Prod.fst) hids)

/-- With distinct names, the modules of a name are all in one category. -/
theorem modulesNamed_all (hd : DistinctNames h mods) (name : String) :
    modulesNamed h mods .fixed name ++ modulesNamed h mods .controllable name ++ modulesNamed h mods .flex name =
      allNamed mods name := by
  by_cases he : allNamed mods name = []
  · have : ∀ f, modulesNamed h mods f name = [] := by
      intro f
      rw [List.eq_nil_iff_forall_not_mem] at he ⊢
      intro i hi
      apply he i
      simp only [modulesNamed, allNamed, List.mem_map, List.mem_filter, decide_eq_true_eq] at hi ⊢
      obtain ⟨nm, ⟨hm, hn, -⟩, e⟩ := hi
      exact ⟨nm, ⟨hm, hn⟩, e⟩
    rw [this, this, this, he]; rfl
  · obtain ⟨i, hi⟩ := List.exists_mem_of_ne_nil _ he
    simp only [allNamed, List.mem_map, List.mem_filter, decide_eq_true_eq] at hi
    obtain ⟨nm, ⟨hm, hn⟩, -⟩ := hi
    have key : ∀ f, modulesNamed h mods f name = if (h nm.2).ffc = f then allNamed mods name else [] := by
      intro f
      unfold modulesNamed allNamed
      have : ∀ x ∈ mods, (decide (x.1 = name ∧ (h x.2).ffc = f)) = (decide (x.1 = name) && decide ((h nm.2).ffc = f)) := by
        intro x hx
        by_cases hxn : x.1 = name
        · simp [hxn, (hd x hx nm hm (hxn.trans hn.symm)).1]
        · simp [hxn]
      rw [List.filter_congr this]
      by_cases hf : (h nm.2).ffc = f <;> simp [hf]
    rw [key, key, key]
    cases (h nm.2).ffc <;> simp

end

/-! ### Observations of runs -/

section
variable {mods : List (String × Nat)} {g g' : Microgrid} {control : List (String × Ctrl)} {n : Bool} {o : RunOut}
  {trF trC trX : List Event} {h₁ h₂ : Heap} {ci : CostInfo}

theorem events_named (h : GridOK mods g) (hd : DistinctNames g.heap mods) (hs : Supplies g.heap mods control)
    (r : RunInfo g control n g' o trF trC trX h₁ h₂ ci) (name : String) :
    ((trF ++ trC ++ trX).filter fun e => decide (e.name = name)).map Event.id = allNamed mods name := by
  have key : ∀ (tr : List Event) (f : FFC), tr.map (fun e => (e.name, e.id)) = Container.toTuples (g.cont.levelDict f) →
      (tr.filter fun e => decide (e.name = name)).map Event.id = modulesNamed g.heap mods f name := by
    intro tr f htr
    have h1 := toTuples_filter (d := g.cont.levelDict f) (Container.toDict_nodup _) name
    rw [← htr, List.filter_map, List.map_map] at h1
    rw [h.cont, level_getD hd.clear] at h1
    exact h1
  rw [List.filter_append, List.filter_append, List.map_append, List.map_append,
    key trF .fixed (fixed_pairs r), key trC .controllable (ctrl_pairs h hd.clear hs r), key trX .flex r.flexL,
    modulesNamed_all hd]

/-- The observations that a run returns under a name are those of the modules of that name after it. -/
theorem run_obs (h : GridOK mods g) (hid : (mods.map Prod.snd).Nodup) (hd : DistinctNames g.heap mods)
    (hs : Supplies g.heap mods control) (hr : g.run control n = (g', .ok o)) (name : String) :
    List.Forall₂ (fun i a => (g'.heap i).normalizedObs = .ok a) (allNamed mods name) ((dictGet? o.obs name).getD []) := by
  obtain ⟨trF, trC, trX, h₁, h₂, ci, r⟩ := Microgrid.run_ok hr
  have h2 := (run_get {} (trF ++ trC ++ trX) name).2
  rw [← r.obs] at h2
  simp only [dictGet?, Option.getD_none, List.nil_append] at h2
  rw [h2, ← events_named h hd hs r name]
  have hn := (h.events_ids hd.clear hs r).nodup_iff.mpr hid
  rw [List.forall₂_map_left_iff, List.forall₂_map_right_iff, List.forall₂_same]
  intro e he
  exact step_obs (r.exec.once hn (List.mem_of_mem_filter he))

theorem run_keys (a : StepAcc) (tr : List Event) (name : String) :
    name ∈ (a.run tr).obs.map Prod.fst ↔ name ∈ a.obs.map Prod.fst ∨ ∃ e ∈ tr, e.name = name := by
  induction tr generalizing a with
  | nil => simp [StepAcc.run]
  | cons e tr ih =>
    have := ih (a.append e.name e.out)
    simp only [StepAcc.run, List.foldl_cons] at this ⊢
    rw [this]
    have hk : name ∈ (a.append e.name e.out).obs.map Prod.fst ↔ name ∈ a.obs.map Prod.fst ∨ e.name = name := by
      simp only [StepAcc.append, dictAppend]
      have key : ∀ v : List Act, name ∈ (dictSet a.obs e.name v).map Prod.fst ↔ name ∈ a.obs.map Prod.fst ∨ e.name = name := by
        intro v
        rw [dictSet_keys]
        split
        · rename_i hin
          exact ⟨.inl, fun h => h.elim id fun h => h ▸ hin⟩
        · simp [eq_comm]
      split <;> exact key _
    rw [hk]
    simp only [List.mem_cons, exists_eq_or_imp, or_assoc]

theorem run_obs_keys (h : GridOK mods g) (hd : ClearNames g.heap mods) (hs : Supplies g.heap mods control)
    (hr : g.run control n = (g', .ok o)) (name : String) :
    name ∈ o.obs.map Prod.fst ↔ ∃ nm ∈ mods, nm.1 = name := by
  obtain ⟨trF, trC, trX, h₁, h₂, ci, r⟩ := Microgrid.run_ok hr
  rw [r.obs, run_keys]
  have hp := h.events_perm hd hs r
  constructor
  · rintro (h0 | ⟨e, he, rfl⟩)
    · simp at h0
    · exact ⟨_, hp.subset (List.mem_map_of_mem (f := fun e : Event => (e.name, e.id)) he), rfl⟩
  · rintro ⟨nm, hm, rfl⟩
    obtain ⟨e, he, hee⟩ := List.mem_map.mp (hp.symm.subset hm)
    exact .inr ⟨e, he, congrArg Prod.fst hee⟩

end

/-! ### Observations of resets -/

theorem resetIds_eq (l : List Nat) (h : Heap) :
    (resetIds h l).1 = (Microgrid.resetMany h l).1 ∧ (resetIds h l).2.map (fun _ => ()) = (Microgrid.resetMany h l).2 := by
  induction l generalizing h with
  | nil => exact ⟨rfl, rfl⟩
  | cons i l ih =>
    unfold resetIds Microgrid.resetMany
    cases hr : (h i).reset with
    | mk m' r =>
      cases r with
      | error e => exact ⟨rfl, rfl⟩
      | ok a =>
        obtain ⟨i1, i2⟩ := ih (h.set i m')
        simp only
        cases hk : resetIds (h.set i m') l with
        | mk h' r' =>
          rw [hk] at i1 i2
          cases r' <;> exact ⟨i1, i2⟩

theorem resetMany_append (l l' : List Nat) (h : Heap) :
    Microgrid.resetMany h (l ++ l') = match Microgrid.resetMany h l with
      | (h', .error e) => (h', .error e)
      | (h', .ok ()) => Microgrid.resetMany h' l' := by
  induction l generalizing h with
  | nil => rfl
  | cons i l ih =>
    simp only [List.cons_append, Microgrid.resetMany]
    cases hr : (h i).reset with
    | mk m' r =>
      cases r with
      | error e => rfl
      | ok a => exact ih _

theorem resetDict_eq (d : ModDict) (h : Heap) :
    (resetDict h d).1 = (Microgrid.resetMany h (d.flatMap Prod.snd)).1 ∧
      (resetDict h d).2.map (fun _ => ()) = (Microgrid.resetMany h (d.flatMap Prod.snd)).2 := by
  induction d generalizing h with
  | nil => exact ⟨rfl, rfl⟩
  | cons nl d ih =>
    obtain ⟨name, ids⟩ := nl
    rw [List.flatMap_cons, resetMany_append]
    obtain ⟨e1, e2⟩ := resetIds_eq ids h
    unfold resetDict
    cases hk : resetIds h ids with
    | mk h' r =>
      rw [hk] at e1 e2
      cases hm : Microgrid.resetMany h ids with
      | mk h'' r' =>
        rw [hm] at e1 e2
        simp only at e1 e2
        subst e1 e2
        cases r with
        | error e => exact ⟨rfl, rfl⟩
        | ok os =>
          simp only [Except.map]
          obtain ⟨i1, i2⟩ := ih h'
          cases hj : resetDict h' d with
          | mk h3 r3 =>
            rw [hj] at i1 i2
            cases r3 <;> exact ⟨i1, i2⟩

/-- The reset that returns observations is the reset. -/
theorem resetObs_eq (g : Microgrid) : g.reset = (g.resetObs.1, g.resetObs.2.map fun _ => ()) := by
  unfold Microgrid.reset Microgrid.resetObs
  cases hs : g.setTrajectory with
  | mk g₁ r =>
    cases r with
    | error e => rfl
    | ok u =>
      simp only
      rw [Container.toTuples_ids]
      obtain ⟨e1, e2⟩ := resetDict_eq g.cont.fullDict g₁.heap
      cases hk : resetDict g₁.heap g.cont.fullDict with
      | mk h' r =>
        rw [hk] at e1 e2
        cases hm : Microgrid.resetMany g₁.heap (g.cont.fullDict.flatMap Prod.snd) with
        | mk h'' r' =>
          rw [hm] at e1 e2
          simp only at e1 e2
          subst e1 e2
          cases r <;> rfl

theorem _root_.List.Forall₂.heap {h h' : Heap} {l : List Nat} {os : List Act}
    (ho : List.Forall₂ (fun i a => (h i).normalizedObs = .ok a) l os) (he : ∀ i ∈ l, h' i = h i) :
    List.Forall₂ (fun i a => (h' i).normalizedObs = .ok a) l os := by
  induction ho with
  | nil => exact .nil
  | cons ha _ ih =>
    refine .cons ?_ (ih fun i hi => he i (List.mem_cons_of_mem _ hi))
    rw [he _ (List.mem_cons_self ..)]
    exact ha

theorem resetIds_obs {l : List Nat} {h h' : Heap} {os : List Act} (hr : resetIds h l = (h', .ok os)) (hn : l.Nodup) :
    List.Forall₂ (fun i a => (h' i).normalizedObs = .ok a) l os ∧ ∀ i ∉ l, h' i = h i := by
  induction l generalizing h os with
  | nil =>
    simp only [resetIds, Prod.mk.injEq, Except.ok.injEq] at hr
    obtain ⟨rfl, rfl⟩ := hr
    exact ⟨.nil, fun _ _ => rfl⟩
  | cons i l ih =>
    simp only [List.nodup_cons] at hn
    unfold resetIds at hr
    cases hm : (h i).reset with
    | mk m' r =>
      rw [hm] at hr
      cases r with
      | error e => simp at hr
      | ok a =>
        simp only at hr
        cases hk : resetIds (h.set i m') l with
        | mk h₁ r₁ =>
          rw [hk] at hr
          cases r₁ with
          | error e => simp at hr
          | ok os' =>
            simp only [Prod.mk.injEq, Except.ok.injEq] at hr
            obtain ⟨rfl, rfl⟩ := hr
            obtain ⟨i1, i2⟩ := ih hk hn.2
            refine ⟨.cons ?_ i1, ?_⟩
            · rw [i2 i hn.1]
              simp only [Heap.set, if_true]
              exact reset_obs hm
            · intro j hj
              simp only [List.mem_cons, not_or] at hj
              rw [i2 j hj.2]
              simp [Heap.set, hj.1]

theorem resetDict_obs {d : ModDict} {h h' : Heap} {r : List (String × List Act)} (hr : resetDict h d = (h', .ok r))
    (hn : (d.flatMap Prod.snd).Nodup) :
    List.Forall₂ (fun nl na => nl.1 = na.1 ∧ List.Forall₂ (fun i a => (h' i).normalizedObs = .ok a) nl.2 na.2) d r ∧
      ∀ i ∉ d.flatMap Prod.snd, h' i = h i := by
  induction d generalizing h r with
  | nil =>
    simp only [resetDict, Prod.mk.injEq, Except.ok.injEq] at hr
    obtain ⟨rfl, rfl⟩ := hr
    exact ⟨.nil, fun _ _ => rfl⟩
  | cons nl d ih =>
    obtain ⟨name, ids⟩ := nl
    rw [List.flatMap_cons, List.nodup_append] at hn
    unfold resetDict at hr
    cases hk : resetIds h ids with
    | mk h₁ r₁ =>
      rw [hk] at hr
      cases r₁ with
      | error e => simp at hr
      | ok os =>
        simp only at hr
        cases hj : resetDict h₁ d with
        | mk h₂ r₂ =>
          rw [hj] at hr
          cases r₂ with
          | error e => simp at hr
          | ok r' =>
            simp only [Prod.mk.injEq, Except.ok.injEq] at hr
            obtain ⟨rfl, rfl⟩ := hr
            obtain ⟨i1, i2⟩ := ih hj hn.2.1
            obtain ⟨j1, j2⟩ := resetIds_obs hk hn.1
            refine ⟨.cons ⟨rfl, ?_⟩ i1, ?_⟩
            · have : ∀ i ∈ ids, h₂ i = h₁ i := fun i hi => i2 i fun hi' => hn.2.2 i hi i hi' rfl
              exact j1.heap this
            · intro i hi
              simp only [List.flatMap_cons, List.mem_append, not_or] at hi
              rw [i2 i hi.2, j2 i hi.1]

section
variable {mods : List (String × Nat)} {g g' : Microgrid}

theorem dictGet?_map {α β γ : Type} [DecidableEq α] (f : β → γ) (d : List (α × β)) (k : α) :
    dictGet? (d.map fun x => (x.1, f x.2)) k = (dictGet? d k).map f := by
  induction d with
  | nil => rfl
  | cons x d ih =>
    simp only [List.map_cons, dictGet?]
    split
    · rfl
    · exact ih

/-- What a reset returns. -/
theorem reset_obs_dict (h : GridOK mods g) (hid : (mods.map Prod.snd).Nodup) (hd : DistinctNames g.heap mods)
    {d : List (String × ObsEntry)} (hr : g.resetObs = (g', .ok d)) :
    (∀ nm ∈ mods, nm.1 ≠ "balance" → nm.1 ≠ "other" → ∃ l, dictGet? d nm.1 = some (.obs l) ∧
      List.Forall₂ (fun i a => (g'.heap i).normalizedObs = .ok a) (allNamed mods nm.1) l) ∧
    dictGet? d "balance" = some .log ∧ dictGet? d "other" = some .log := by
  unfold Microgrid.resetObs at hr
  cases hs : g.setTrajectory with
  | mk g₁ r =>
    rw [hs] at hr
    cases r with
    | error e => simp at hr
    | ok u =>
      simp only at hr
      cases hk : resetDict g₁.heap g.cont.fullDict with
      | mk h' r' =>
        rw [hk] at hr
        cases r' with
        | error e => simp at hr
        | ok d₀ =>
          simp only [Prod.mk.injEq, Except.ok.injEq] at hr
          obtain ⟨rfl, rfl⟩ := hr
          have hu : ((("balance", ObsEntry.log) :: [("other", ObsEntry.log)]).map Prod.fst).Nodup := by decide
          refine ⟨?_, ?_, ?_⟩
          · intro nm hm hb ho
            have hp := (h.fullIds_perm hd).nodup_iff.mpr hid
            rw [Container.toTuples_ids] at hp
            obtain ⟨hf, -⟩ := resetDict_obs hk hp
            rw [dictGet?_dictUpdate _ _ hu, dictGet?_map (f := ObsEntry.obs)]
            have hne : allNamed mods nm.1 ≠ [] := by
              apply List.ne_nil_of_mem (a := nm.2)
              simp only [allNamed, List.mem_map, List.mem_filter, decide_eq_true_eq]
              exact ⟨nm, ⟨hm, rfl⟩, rfl⟩
            have hin := full_has hd hne
            rw [← h.cont] at hin
            have hn : (g.cont.fullDict.map Prod.fst).Nodup := Container.toDict_nodup _
            have hfst : d₀.map Prod.fst = g.cont.fullDict.map Prod.fst := by
              clear hk hp hin hn hne
              generalize g.cont.fullDict = D at hf ⊢
              induction hf with
              | nil => rfl
              | cons h1 _ ih => simp only [List.map_cons, ih, h1.1]
            obtain ⟨na, hna, e1, e2⟩ : ∃ na ∈ d₀, nm.1 = na.1 ∧
                List.Forall₂ (fun i a => (h' i).normalizedObs = .ok a) (allNamed mods nm.1) na.2 := by
              clear hk hp hn hfst
              generalize g.cont.fullDict = D at hf hin
              induction hf with
              | nil => simp at hin
              | cons h1 _ ih =>
                rcases List.mem_cons.mp hin with rfl | hin
                · exact ⟨_, List.mem_cons_self .., h1⟩
                · obtain ⟨na, hna, h2⟩ := ih hin
                  exact ⟨na, List.mem_cons_of_mem _ hna, h2⟩
            rw [dictGet?_of_mem (by rw [hfst]; exact hn) (show (nm.1, na.2) ∈ d₀ by rw [e1]; exact hna)]
            refine ⟨na.2, ?_, e2⟩
            simp [dictGet?, hb.symm, ho.symm]
          · rw [dictGet?_dictUpdate _ _ hu]; simp [dictGet?]
          · rw [dictGet?_dictUpdate _ _ hu]; simp [dictGet?]

/-! ### The space -/

theorem seriesOf_ok {h : Heap} (name : String) {l : List Nat} (hl : ∀ i ∈ l, ∃ d, (h i).stateDict = .ok d) (j : Nat) :
    ∃ s, seriesOf h false name j l = .ok s := by
  induction l generalizing j with
  | nil => exact ⟨_, rfl⟩
  | cons i l ih =>
    obtain ⟨d, hdd⟩ := hl i (by simp)
    obtain ⟨r, hr⟩ := ih (fun i hi => hl i (by simp [hi])) (j + 1)
    exact ⟨_, by simp only [seriesOf, stateDictAs, hdd, hr, Bool.false_eq_true, if_false]; rfl⟩

theorem stateSeriesOf_ok {h : Heap} {d : ModDict} (hl : ∀ nl ∈ d, ∀ i ∈ nl.2, ∃ d, (h i).stateDict = .ok d) :
    ∃ s, stateSeriesOf h false d = .ok s := by
  induction d with
  | nil => exact ⟨_, rfl⟩
  | cons nl d ih =>
    obtain ⟨r, hr⟩ := ih fun nl hnl => hl nl (by simp [hnl])
    obtain ⟨s, hs⟩ := seriesOf_ok nl.1 (hl nl (by simp)) 0
    exact ⟨_, by simp only [stateSeriesOf, hs, hr]; rfl⟩

theorem full_mem_mods (h : GridOK mods g) {nl : String × List Nat} (hnl : nl ∈ g.cont.fullDict) {i : Nat} (hi : i ∈ nl.2) :
    (nl.1, i) ∈ mods := by
  apply Container.mem_full (h := g.heap)
  rw [← h.cont]
  simp only [Container.toTuples, List.mem_flatMap, List.mem_map, Prod.mk.injEq]
  exact ⟨nl, hnl, i, hi, rfl, rfl⟩

/-- The observation space. -/
theorem obsSpace_ok (h : GridOK mods g) (hd : DistinctNames g.heap mods) :
    ∃ names, Alphabetic mods names ∧ ∀ mode, (mode = .flat ∨ mode = .nested) → obsSpaceOf g mode =
      .ok (names.map fun name => (name, (allNamed mods name).map fun i => (g.heap i).obsSpace.dim)) := by
  obtain ⟨ss, hss⟩ := stateSeriesOf_ok (h := g.heap) (d := g.cont.fullDict)
    (fun nl hnl i hi => (h.wf _ (full_mem_mods h hnl hi)).stateDict_ok)
  have hn : (g.cont.fullDict.map Prod.fst).Nodup := Container.toDict_nodup _
  let d := g.cont.fullDict.map fun nl => (nl.1, nl.2.map fun i => (g.heap i).obsSpace.dim)
  have hdf : d.map Prod.fst = g.cont.fullDict.map Prod.fst := by simp [d, Function.comp_def]
  refine ⟨(sortKeys d).map Prod.fst, ⟨sortKeys_strict (hdf ▸ hn), ?_⟩, ?_⟩
  · intro name
    rw [((sortKeys_perm d).map Prod.fst).mem_iff, hdf]
    constructor
    · intro hm
      obtain ⟨nl, hnl, rfl⟩ := List.mem_map.mp hm
      have hl : nl.2 ≠ [] := by
        rw [h.cont] at hnl
        obtain ⟨d', hd', hx⟩ := Container.mem_toDict hnl
        obtain ⟨f, s, rfl⟩ := Container.mem_all hd'
        exact (Container.mem_cat.mp hx).2
      obtain ⟨i, hi⟩ := List.exists_mem_of_ne_nil _ hl
      exact ⟨_, full_mem_mods h hnl hi, rfl⟩
    · rintro ⟨nm, hm, rfl⟩
      have hne : allNamed mods nm.1 ≠ [] := by
        apply List.ne_nil_of_mem (a := nm.2)
        simp only [allNamed, List.mem_map, List.mem_filter, decide_eq_true_eq]
        exact ⟨nm, ⟨hm, rfl⟩, rfl⟩
      rw [h.cont]
      exact List.mem_map_of_mem (f := Prod.fst) (full_has hd hne)
  · intro mode hmode
    have : sortKeys d = ((sortKeys d).map Prod.fst).map fun name =>
        (name, (allNamed mods name).map fun i => (g.heap i).obsSpace.dim) := by
      rw [List.map_map]
      conv_lhs => rw [← List.map_id (sortKeys d)]
      apply List.map_congr_left
      intro x hx
      have hx' := (sortKeys_perm d).subset hx
      obtain ⟨nl, hnl, rfl⟩ := List.mem_map.mp hx'
      rw [h.cont] at hnl
      have := full_named hd (name := nl.1) (l := nl.2) hnl
      simp [this]
    unfold obsSpaceOf Microgrid.stateSeries
    rw [hss]
    rcases hmode with rfl | rfl <;> simp only [] <;> exact congrArg Except.ok this

/-- Flattening. -/
theorem flatten_shown {h : Heap} {d : List (String × ObsEntry)} {names : List String} {dims : Nat → Nat}
    (hd : ∀ name ∈ names, ∃ l, dictGet? d name = some (.obs l) ∧
      List.Forall₂ (fun i a => a.vals = (h i).readings.map Reading.pos) (allNamed mods name) l) :
    flattenObs d (names.map fun name => (name, (allNamed mods name).map dims)) = .ok (shown h mods names) := by
  induction names with
  | nil => rfl
  | cons name names ih =>
    obtain ⟨l, hl, hf⟩ := hd name (by simp)
    simp only [List.map_cons, flattenObs, hl, ih fun n hn => hd n (by simp [hn])]
    simp only [shown, List.flatMap_cons, Except.ok.injEq]
    congr 1
    clear ih hd hl
    generalize allNamed mods name = ids at hf
    induction hf with
    | nil => rfl
    | @cons i a ids l h1 _ ih =>
      simp only [List.map_cons, List.zip_cons_cons, List.flatMap_cons]
      rw [ih, ← h1]
      cases a <;> rfl

end

end Pymgrid
