import Verif.Lemmas.Grid

set_option autoImplicit false

/-! Which modules a run steps, with which actions, and when it succeeds. -/

namespace Pymgrid

theorem DistinctNames.clear {h : Heap} {mods : List (String × Nat)} (hd : DistinctNames h mods) : ClearNames h mods :=
  fun x hx y hy hn _ => (hd x hx y hy hn).2

namespace Container

theorem idsOf_named {h : Heap} {mods : List (String × Nat)} (hu : ClearNames h mods) {f : FFC} {s : SS} {name : String}
    (hne : idsOf h mods f s name ≠ []) : idsOf h mods f s name = modulesNamed h mods f name := by
  unfold idsOf modulesNamed at *
  congr 1
  apply List.filter_congr
  intro x hx
  obtain ⟨i, hi⟩ := List.exists_mem_of_ne_nil _ hne
  simp only [List.mem_map, List.mem_filter, inCat, Bool.and_eq_true, decide_eq_true_eq] at hi
  obtain ⟨y, ⟨hy, ⟨hyf, hys⟩, hyn⟩, -⟩ := hi
  rw [Bool.eq_iff_iff]
  simp only [inCat, Bool.and_eq_true, decide_eq_true_eq]
  constructor
  · rintro ⟨⟨h1, -⟩, h2⟩; exact ⟨h2, h1⟩
  · rintro ⟨h1, h2⟩
    exact ⟨⟨h2, (hu x hx y hy (h1.trans hyn.symm) (h2.trans hyf.symm)).trans hys⟩, h1⟩

theorem level_get (h : Heap) (mods : List (String × Nat)) (f : FFC) (name : String) :
    dictGet? ((build h mods).levelDict f) name =
      ((dictGet? ((build h mods).cat f .both) name).or (dictGet? ((build h mods).cat f .sinks) name)).or
        (dictGet? ((build h mods).cat f .sources) name) := by
  have : (build h mods).levelDict f = dictUpdate (dictUpdate (dictUpdate [] ((build h mods).cat f .sources))
      ((build h mods).cat f .sinks)) ((build h mods).cat f .both) := rfl
  rw [this, dictGet?_dictUpdate _ _ (cat_nodup h mods f .both), dictGet?_dictUpdate _ _ (cat_nodup h mods f .sinks),
    dictGet?_dictUpdate _ _ (cat_nodup h mods f .sources)]
  simp [dictGet?, Option.or_assoc]

/-- Every name of a level is a key of its dictionary. -/
theorem level_key {h : Heap} {mods : List (String × Nat)} {nm : String × Nat} (hm : nm ∈ mods) :
    ∃ ids, (nm.1, ids) ∈ (build h mods).levelDict (h nm.2).ffc := by
  have hin : nm.2 ∈ idsOf h mods (h nm.2).ffc (h nm.2).ss nm.1 := by
    simp only [idsOf, List.mem_map, List.mem_filter, inCat, Bool.and_eq_true, decide_eq_true_eq]
    exact ⟨nm, ⟨hm, ⟨rfl, rfl⟩, rfl⟩, rfl⟩
  have hne : idsOf h mods (h nm.2).ffc (h nm.2).ss nm.1 ≠ [] := fun e => by rw [e] at hin; simp at hin
  have hc := cat_get h mods (h nm.2).ffc (h nm.2).ss nm.1
  rw [if_neg hne] at hc
  have hl := level_get h mods (h nm.2).ffc nm.1
  have : ∃ l, dictGet? ((build h mods).levelDict (h nm.2).ffc) nm.1 = some l := by
    rw [hl]
    cases hss : (h nm.2).ss <;> rw [hss] at hc <;> rw [hc]
    · cases (dictGet? ((build h mods).cat (h nm.2).ffc .both) nm.1).or
        (dictGet? ((build h mods).cat (h nm.2).ffc .sinks) nm.1) <;> simp
    · cases dictGet? ((build h mods).cat (h nm.2).ffc .both) nm.1 <;> simp
    · simp
  obtain ⟨l, hl⟩ := this
  exact ⟨l, dictGet?_mem hl⟩

/-- With clear names the entry of a name lists exactly the modules of that name. -/
theorem level_named {h : Heap} {mods : List (String × Nat)} (hu : ClearNames h mods) {f : FFC} {nl : String × List Nat}
    (hx : nl ∈ (build h mods).levelDict f) : nl.2 = modulesNamed h mods f nl.1 := by
  obtain ⟨d, hd, hxd⟩ := mem_toDict hx
  simp only [level, List.mem_cons, List.not_mem_nil, or_false] at hd
  have : ∃ s, (nl.1, nl.2) ∈ (build h mods).cat f s := by rcases hd with rfl | rfl | rfl <;> exact ⟨_, hxd⟩
  obtain ⟨s, hs⟩ := this
  obtain ⟨he, hne⟩ := mem_cat.mp hs
  rw [he] at hne ⊢
  exact idsOf_named hu hne

end Container

theorem modulesNamed_congr {h h' : Heap} {mods : List (String × Nat)} (hh : ∀ j, (h' j).ffc = (h j).ffc) (f : FFC)
    (name : String) : modulesNamed h' mods f name = modulesNamed h mods f name := by
  unfold modulesNamed
  simp only [hh]

theorem zip_fst_sublist {α β : Type} (l : List α) (l' : List β) : ((l.zip l').map Prod.fst).Sublist l := by
  induction l generalizing l' with
  | nil => simp
  | cons i l ih =>
    cases l' with
    | nil => simp
    | cons a l' => simpa using ih l'

theorem controlSteps_pairs {control : List (String × Ctrl)} {d : ModDict}
    (hd : ∀ nl ∈ d, ∃ c, dictGet? control nl.1 = some c ∧ nl.2.length ≤ c.acts.length) :
    (controlSteps control d).map (fun x => (x.1, x.2.1)) = Container.toTuples d := by
  unfold controlSteps Container.toTuples
  rw [List.map_flatMap]
  apply List.flatMap_congr
  intro nl hnl
  obtain ⟨c, hc, hl⟩ := hd nl hnl
  simp only [hc, Option.map_some, Option.getD_some, List.map_map, Function.comp_def]
  have : List.map Prod.fst (nl.2.zip c.acts) = nl.2 := List.map_fst_zip hl
  conv_rhs => rw [← this]
  rw [List.map_map]
  rfl

section
variable {mods : List (String × Nat)} {g g' : Microgrid} {control : List (String × Ctrl)} {n : Bool} {o : RunOut}
  {trF trC trX : List Event} {h₁ h₂ : Heap} {ci : CostInfo}

theorem GridOK.supplies (h : GridOK mods g) (hu : ClearNames g.heap mods) (hs : Supplies g.heap mods control) :
    ∀ nl ∈ g.cont.levelDict .controllable, ∃ c, dictGet? control nl.1 = some c ∧ nl.2.length ≤ c.acts.length := by
  intro nl hnl
  rw [h.cont] at hnl
  have he := Container.level_named hu hnl
  have hne : nl.2 ≠ [] := by
    obtain ⟨d, hd, hxd⟩ := Container.mem_toDict hnl
    simp only [Container.level, List.mem_cons, List.not_mem_nil, or_false] at hd
    have : ∃ s, (nl.1, nl.2) ∈ (Container.build g.heap mods).cat .controllable s := by
      rcases hd with rfl | rfl | rfl <;> exact ⟨_, hxd⟩
    obtain ⟨s, hs⟩ := this
    exact (Container.mem_cat.mp hs).2
  obtain ⟨i, hi⟩ := List.exists_mem_of_ne_nil _ hne
  rw [he] at hi
  simp only [modulesNamed, List.mem_map, List.mem_filter, decide_eq_true_eq] at hi
  obtain ⟨nm, ⟨hm, hn, hf⟩, -⟩ := hi
  obtain ⟨c, hc, hl⟩ := hs nm hm hf
  rw [hn] at hc hl
  exact ⟨c, hc, he ▸ hl⟩

theorem fixed_pairs (r : RunInfo g control n g' o trF trC trX h₁ h₂ ci) :
    trF.map (fun e => (e.name, e.id)) = Container.toTuples (g.cont.levelDict .fixed) := by
  have := congrArg (List.map fun x : String × Nat × Act => (x.1, x.2.1)) r.fixedL
  simpa [Microgrid.fixedSteps, List.map_map, Function.comp_def] using this

theorem ctrl_pairs (h : GridOK mods g) (hu : ClearNames g.heap mods) (hs : Supplies g.heap mods control)
    (r : RunInfo g control n g' o trF trC trX h₁ h₂ ci) :
    trC.map (fun e => (e.name, e.id)) = Container.toTuples (g.cont.levelDict .controllable) := by
  have := congrArg (List.map fun x : String × Nat × Act => (x.1, x.2.1)) r.ctrlL
  rw [controlSteps_pairs (h.supplies hu hs)] at this
  simpa [List.map_map, Function.comp_def] using this

/-- A run steps every module exactly once. -/
theorem GridOK.events_perm (h : GridOK mods g) (hu : ClearNames g.heap mods) (hs : Supplies g.heap mods control)
    (r : RunInfo g control n g' o trF trC trX h₁ h₂ ci) :
    ((trF ++ trC ++ trX).map fun e => (e.name, e.id)).Perm mods := by
  rw [List.map_append, List.map_append, fixed_pairs r, ctrl_pairs h hu hs r, r.flexL]
  unfold Microgrid.flexList
  rw [h.cont]
  have hl : ∀ f, (Container.toTuples ((Container.build g.heap mods).levelDict f)).Perm
      (mods.filter fun nm => decide ((g.heap nm.2).ffc = f)) := fun f =>
    Container.level_perm fun x hx y hy hn hf hf' => hu x hx y hy hn (hf.trans hf'.symm)
  refine List.Perm.trans ?_ (Container.ffc_perm g.heap mods)
  refine List.Perm.trans (((hl _).append (hl _)).append (hl _)) ?_
  rw [List.append_assoc, List.append_assoc]
  exact (List.perm_append_left_iff _).mpr List.perm_append_comm

theorem RunInfo.exec (r : RunInfo g control n g' o trF trC trX h₁ h₂ ci) :
    Exec g.heap (trF ++ trC ++ trX) g'.heap := (r.fixed.append r.ctrl).append r.flex

/-- Flexible modules are stepped once and only in the dispatch. -/
theorem GridOK.flex_untouched (h : GridOK mods g) (r : RunInfo g control n g' o trF trC trX h₁ h₂ ci) {e : Event}
    (he : e ∈ trX) : h₂ e.id = g.heap e.id := by
  have hm : (e.name, e.id) ∈ g.flexList :=
    r.flexL ▸ List.mem_map_of_mem (f := fun e : Event => (e.name, e.id)) he
  have hf := (h.mem_flexList hm).2
  apply (r.fixed.append r.ctrl).other
  intro hmem
  rw [List.map_append, List.mem_append] at hmem
  rcases hmem with hmem | hmem
  · obtain ⟨e', he', hid⟩ := List.mem_map.mp hmem
    have : (e'.name, e'.id) ∈ Container.toTuples (g.cont.levelDict .fixed) :=
      fixed_pairs r ▸ List.mem_map_of_mem (f := fun e : Event => (e.name, e.id)) he'
    rw [h.cont] at this
    have := (Container.mem_level this).2
    simp only [hid, hf] at this
    simp at this
  · obtain ⟨e', he', hid⟩ := List.mem_map.mp hmem
    have : (e'.name, e'.id, e'.act) ∈ controlSteps control (g.cont.levelDict .controllable) :=
      r.ctrlL ▸ List.mem_map_of_mem (f := fun e : Event => (e.name, e.id, e.act)) he'
    simp only [controlSteps, List.mem_flatMap, List.mem_map, Prod.mk.injEq] at this
    obtain ⟨nl, hnl, ia, hia, -, hi2, -⟩ := this
    have hmem := (List.of_mem_zip hia).1
    rw [hi2] at hmem
    have := (h.mem_levelDict nl hnl _ hmem).2
    rw [hid, hf] at this
    simp at this

theorem GridOK.flex_nodup (h : GridOK mods g) (hid : (mods.map Prod.snd).Nodup)
    (hl : trX.map (fun e => (e.name, e.id)) = g.flexList) : (trX.map Event.id).Nodup := by
  have : trX.map Event.id = g.flexList.map Prod.snd := by rw [← hl, List.map_map]; rfl
  rw [this]
  unfold Microgrid.flexList
  rw [h.cont]
  exact Container.level_nodup hid _

/-! ### When a run succeeds -/

theorem GridOK.controlSteps_nodup (h : GridOK mods g) (hid : (mods.map Prod.snd).Nodup)
    (control : List (String × Ctrl)) :
    ((controlSteps control (g.cont.levelDict .controllable)).map fun x => x.2.1).Nodup := by
  have hn := Container.level_nodup (h := g.heap) hid .controllable
  rw [← h.cont] at hn
  refine hn.sublist ?_
  generalize g.cont.levelDict .controllable = d
  unfold controlSteps Container.toTuples
  induction d with
  | nil => simp
  | cons nl d ih =>
    simp only [List.flatMap_cons, List.map_append, List.map_map, Function.comp_def]
    refine List.Sublist.append ?_ ih
    simp only [List.map_id']
    exact zip_fst_sublist _ _

/-- A module of the controllable level is untouched by the fixed steps. -/
theorem Exec.other_level {f f' : FFC} {tr : List Event} {h' : Heap} (he : Exec g.heap tr h') (hne : f ≠ f')
    (ht : ∀ e ∈ tr, (g.heap e.id).ffc = f) {i : Nat} (hi : (g.heap i).ffc = f') :
    h' i = g.heap i := by
  apply he.other
  intro hmem
  obtain ⟨e, hx, rfl⟩ := List.mem_map.mp hmem
  exact hne ((ht e hx).symm.trans hi)

theorem StepAcc.balance_total {a : StepAcc} {sh : Option Shaper} (hs : ∀ f, sh = some f → ∀ i c, ∃ r, f i c = .ok r) :
    ∃ s, a.balance sh ci = .ok (a.provided.sum, a.absorbed.sum, a.reward, s) ∧ a.shapedReward sh ci = .ok s := by
  unfold balance shapedReward
  cases sh with
  | none => exact ⟨_, rfl, rfl⟩
  | some f =>
    obtain ⟨r, hr⟩ := hs f rfl a.infos ci
    exact ⟨r, by simp [hr], hr⟩

/-- The first phase of a run succeeds while there is data. -/
theorem GridOK.fixed_total (h : GridOK mods g) (hid : (mods.map Prod.snd).Nodup)
    (hl : ∀ nm ∈ mods, (g.heap nm.2).Live) :
    ∃ s₁ trF, RunSt.stepMany g.fixedSteps false { heap := g.heap, acc := {} } = (s₁, .ok ()) ∧
      Exec g.heap trF s₁.heap ∧ s₁.acc = ({} : StepAcc).run trF ∧ ∀ e ∈ trF, (g.heap e.id).ffc = .fixed := by
  have hmem : ∀ x ∈ g.fixedSteps, (x.1, x.2.1) ∈ mods ∧ (g.heap x.2.1).ffc = .fixed ∧ x.2.2 = .num 0 := by
    intro x hx
    simp only [Microgrid.fixedSteps, List.mem_map] at hx
    obtain ⟨ni, hni, rfl⟩ := hx
    rw [h.cont] at hni
    exact ⟨(Container.mem_level hni).1, (Container.mem_level hni).2, rfl⟩
  have hn : (g.fixedSteps.map fun x => x.2.1).Nodup := by
    have := Container.level_nodup (h := g.heap) hid .fixed
    rw [← h.cont] at this
    simpa [Microgrid.fixedSteps, List.map_map, Function.comp_def] using this
  obtain ⟨s₁, hs⟩ := RunSt.stepMany_total (n := false) (s := ⟨g.heap, {}⟩) hn (by
    intro x hx
    obtain ⟨h1, h2, h3⟩ := hmem x hx
    rw [h3]
    exact (h.wf _ h1).fixed_step (hl _ h1) h2)
  obtain ⟨trF, a1, a2, a3, -⟩ := RunSt.stepMany_ok hs
  refine ⟨s₁, trF, hs, a1, a2, ?_⟩
  intro e he
  have : (e.name, e.id, e.act) ∈ g.fixedSteps :=
    a3 ▸ List.mem_map_of_mem (f := fun e : Event => (e.name, e.id, e.act)) he
  exact (hmem _ this).2.1

theorem GridOK.run_total (h : GridOK mods g) (hid : (mods.map Prod.snd).Nodup)
    (hl : ∀ nm ∈ mods, (g.heap nm.2).Live) (hr : ∀ nm ∈ mods, (g.heap nm.2).raiseErrors = false)
    {nm : String × Nat} (hm : nm ∈ mods) (hb : (g.heap nm.2).canProvide = none)
    (hs : ∀ f, g.shaper = some f → ∀ i c, ∃ r, f i c = .ok r)
    (hc : ∀ nl ∈ g.cont.levelDict .controllable, ∃ c, dictGet? control nl.1 = some c ∧
      ∀ ia ∈ nl.2.zip c.acts, (g.heap ia.1).Accepts ia.2 n) :
    ∃ g' o, g.run control n = (g', .ok o) := by
  unfold Microgrid.run
  obtain ⟨ci, hci⟩ := costInfo_ok h.mem_full
  obtain ⟨s₁, trF, e1, f1, f2, f3⟩ := h.fixed_total hid hl
  obtain ⟨_, hb1, -⟩ := StepAcc.balance_total (a := s₁.acc) (ci := ci) hs
  simp only [hci, e1, hb1]
  rw [RunSt.stepControls_eq fun nl hnl => by obtain ⟨c, hc, -⟩ := hc nl hnl; simp [hc]]
  have hmemC : ∀ x ∈ controlSteps control (g.cont.levelDict .controllable), (x.1, x.2.1) ∈ mods ∧
      (g.heap x.2.1).ffc = .controllable ∧ (g.heap x.2.1).Accepts x.2.2 n := by
    intro x hx
    simp only [controlSteps, List.mem_flatMap, List.mem_map] at hx
    obtain ⟨nl, hnl, ia, hia, rfl⟩ := hx
    obtain ⟨c, hc1, hc2⟩ := hc nl hnl
    simp only [hc1, Option.map_some, Option.getD_some] at hia
    obtain ⟨h1, h2⟩ := h.mem_levelDict nl hnl _ (List.of_mem_zip hia).1
    exact ⟨h1, h2, hc2 ia hia⟩
  obtain ⟨s₂, e2⟩ := RunSt.stepMany_total (n := n) (s := s₁) (h.controlSteps_nodup hid control) (by
    intro x hx
    obtain ⟨h1, h2, h3⟩ := hmemC x hx
    rw [f1.other_level (f := .fixed) (by simp) f3 h2]
    exact (h.wf _ h1).step_accepts (hl _ h1) (hr _ h1) h3)
  obtain ⟨trC, c1, c2, c3, -⟩ := RunSt.stepMany_ok e2
  obtain ⟨_, hb2, -⟩ := StepAcc.balance_total (a := s₂.acc) (ci := ci) hs
  simp only [e2, hb2]
  have hex := f1.append c1
  have hX : ∀ y ∈ g.flexList, (s₂.heap y.2).WF ∧ (s₂.heap y.2).Live ∧ (s₂.heap y.2).ffc = .flex := by
    intro y hy
    obtain ⟨h1, h2⟩ := h.mem_flexList hy
    have : s₂.heap y.2 = g.heap y.2 := by
      apply hex.other
      intro hmem
      rw [List.map_append, List.mem_append] at hmem
      rcases hmem with hmem | hmem
      · obtain ⟨e, he, hid⟩ := List.mem_map.mp hmem
        have := f3 e he
        rw [hid, h2] at this
        simp at this
      · obtain ⟨e, he, hid⟩ := List.mem_map.mp hmem
        have : (e.name, e.id, e.act) ∈ controlSteps control (g.cont.levelDict .controllable) :=
          c3 ▸ List.mem_map_of_mem (f := fun e : Event => (e.name, e.id, e.act)) he
        have := (hmemC _ this).2.1
        simp only [hid, h2] at this
        simp at this
    rw [this]
    exact ⟨h.wf _ h1, hl _ h1, h2⟩
  have hnX : (g.flexList.map Prod.snd).Nodup := by
    unfold Microgrid.flexList
    rw [h.cont]
    exact Container.level_nodup hid _
  have hd : ∃ s₃ trX, g.dispatch (s₂.acc.provided.sum - s₂.acc.absorbed.sum) s₂ = (s₃, .ok ()) ∧
      s₃.acc = s₂.acc.run trX ∧ trX.map (fun e => (e.name, e.id)) = g.flexList ∧
      (if s₂.acc.provided.sum - s₂.acc.absorbed.sum > 0 then
        Chain sinkAmount (fun a => -1 * a) (s₂.acc.provided.sum - s₂.acc.absorbed.sum) s₂.heap trX
       else Chain sourceAmount (fun a => a) (-(s₂.acc.provided.sum - s₂.acc.absorbed.sum)) s₂.heap trX) := by
    unfold Microgrid.dispatch
    split
    · rename_i hd
      obtain ⟨s₃, e3⟩ := RunSt.absorbExcess_total hnX hX hd.le
      obtain ⟨tr, -, x2, x3, x4⟩ := RunSt.absorbExcess_ok e3
      exact ⟨s₃, tr, e3, x2, x3, x4⟩
    · rename_i hd
      obtain ⟨s₃, e3⟩ := RunSt.coverNeed_total hnX hX (by linarith : 0 ≤ -(s₂.acc.provided.sum - s₂.acc.absorbed.sum))
      obtain ⟨tr, -, x2, x3, x4⟩ := RunSt.coverNeed_ok e3
      exact ⟨s₃, tr, e3, x2, x3, x4⟩
  obtain ⟨s₃, trX, e3, x2, x3, x4⟩ := hd
  have hbal := h.dispatch_exact hex x3 hm hb x4
  have hclose : isclose s₃.acc.provided.sum s₃.acc.absorbed.sum = true := by
    have : s₃.acc.provided.sum = s₃.acc.absorbed.sum := by
      rw [x2, StepAcc.run_provided, StepAcc.run_absorbed]
      linarith
    rw [this]
    exact isclose_self _
  obtain ⟨_, hb3, hsr⟩ := StepAcc.balance_total (a := s₃.acc) (ci := ci) hs
  simp only [e3, Microgrid.finish, hb3, hclose, hsr]
  exact ⟨_, _, rfl⟩

/-- A missing name is reported. -/
theorem GridOK.run_missing (h : GridOK mods g) {nm : String × Nat} (hm : nm ∈ mods)
    (hf : (g.heap nm.2).ffc = .controllable) (hc : dictGet? control nm.1 = none) (o : RunOut) :
    (g.run control n).2 ≠ .ok o := by
  intro hr
  obtain ⟨trF, trC, trX, h₁, h₂, ci, r⟩ := Microgrid.run_ok (Prod.ext rfl hr)
  obtain ⟨ids, hids⟩ := Container.level_key (h := g.heap) hm
  rw [hf, ← h.cont] at hids
  have := r.named _ hids
  simp [hc] at this

theorem RunSt.stepControls_missing {d : ModDict} {s : RunSt} (hn : (d.flatMap Prod.snd).Nodup)
    (hok : ∀ nl ∈ d, ∀ c, dictGet? control nl.1 = some c → ∀ ia ∈ nl.2.zip c.acts,
      ∃ m' o, (s.heap ia.1).step ia.2 n = (m', .ok o))
    (hd : ∃ nl ∈ d, dictGet? control nl.1 = none) : (RunSt.stepControls control n d s).2 = .error .value := by
  induction d generalizing s with
  | nil => simp at hd
  | cons x d ih =>
    obtain ⟨name, ids⟩ := x
    simp only [stepControls]
    cases hc : dictGet? control name with
    | none => rfl
    | some c =>
      simp only [List.flatMap_cons, List.nodup_append] at hn
      obtain ⟨hn1, hn2, hn3⟩ := hn
      have hnz : (((ids.zip c.acts).map fun ia => (name, ia.1, ia.2)).map fun x => x.2.1).Nodup := by
        rw [List.map_map]
        have : (fun x : String × Nat × Act => x.2.1) ∘ (fun ia : Nat × Act => (name, ia.1, ia.2)) = Prod.fst := rfl
        rw [this]
        exact hn1.sublist (zip_fst_sublist _ _)
      have hst : ∀ x ∈ (ids.zip c.acts).map (fun ia => (name, ia.1, ia.2)), ∃ m' o,
          (s.heap x.2.1).step x.2.2 n = (m', .ok o) := by
        intro x hx
        obtain ⟨ia, hia, rfl⟩ := List.mem_map.mp hx
        exact hok (name, ids) (by simp) c hc ia hia
      obtain ⟨s', hs'⟩ := RunSt.stepMany_total hnz hst
      obtain ⟨tr, a1, -, a3, -⟩ := RunSt.stepMany_ok hs'
      simp only [hs']
      apply ih hn2
      · intro nl hnl c' hc' ia hia
        have : s'.heap ia.1 = s.heap ia.1 := by
          apply a1.other
          intro hmem
          obtain ⟨e, he, hid⟩ := List.mem_map.mp hmem
          have hx : (e.name, e.id, e.act) ∈ (ids.zip c.acts).map (fun ia => (name, ia.1, ia.2)) :=
            a3 ▸ List.mem_map_of_mem (f := fun e : Event => (e.name, e.id, e.act)) he
          obtain ⟨ia', hia', he'⟩ := List.mem_map.mp hx
          simp only [Prod.mk.injEq] at he'
          exact hn3 ia.1 (by rw [← hid, ← he'.2.1]; exact (List.of_mem_zip hia').1) ia.1
            (List.mem_flatMap.mpr ⟨nl, hnl, (List.of_mem_zip hia).1⟩) rfl
        rw [this]
        exact hok nl (by simp [hnl]) c' hc' ia hia
      · obtain ⟨nl, hnl, hnone⟩ := hd
        rcases List.mem_cons.mp hnl with rfl | hnl
        · simp [hc] at hnone
        · exact ⟨nl, hnl, hnone⟩

theorem GridOK.run_missing_value (h : GridOK mods g) (hid : (mods.map Prod.snd).Nodup)
    (hl : ∀ nm ∈ mods, (g.heap nm.2).Live) (hr : ∀ nm ∈ mods, (g.heap nm.2).raiseErrors = false)
    (hs : ∀ f, g.shaper = some f → ∀ i c, ∃ r, f i c = .ok r)
    (hc : ∀ nl ∈ g.cont.levelDict .controllable, ∀ c, dictGet? control nl.1 = some c →
      ∀ ia ∈ nl.2.zip c.acts, (g.heap ia.1).Accepts ia.2 n)
    {nm : String × Nat} (hm : nm ∈ mods) (hf : (g.heap nm.2).ffc = .controllable)
    (hmiss : dictGet? control nm.1 = none) : (g.run control n).2 = .error .value := by
  unfold Microgrid.run
  obtain ⟨ci, hci⟩ := costInfo_ok h.mem_full
  obtain ⟨s₁, trF, e1, f1, f2, f3⟩ := h.fixed_total hid hl
  obtain ⟨_, hb1, -⟩ := StepAcc.balance_total (a := s₁.acc) (ci := ci) hs
  simp only [hci, e1, hb1]
  obtain ⟨ids, hids⟩ := Container.level_key (h := g.heap) hm
  rw [hf, ← h.cont] at hids
  have hn := Container.level_nodup (h := g.heap) hid .controllable
  rw [← h.cont, Container.toTuples_ids] at hn
  have := RunSt.stepControls_missing (control := control) (n := n) (s := s₁) hn (by
    intro nl hnl c hcc ia hia
    obtain ⟨h1, h2⟩ := h.mem_levelDict nl hnl _ (List.of_mem_zip hia).1
    rw [f1.other_level (f := .fixed) (by simp) f3 h2]
    exact (h.wf _ h1).step_accepts (hl _ h1) (hr _ h1) (hc nl hnl c hcc ia hia)) ⟨_, hids, hmiss⟩
  split
  · rename_i e he; rw [he] at this; simpa using this
  · rename_i he; rw [he] at this; simp at this

end

end Pymgrid
