import Verif.Lemmas.Total

set_option autoImplicit false

/-! Invariants of microgrids and the balance of a run. -/

namespace Pymgrid

/-- A microgrid whose container lists the modules `mods`, all of which are consistent. -/
structure GridOK (mods : List (String × Nat)) (g : Microgrid) : Prop where
  cont : g.cont = Container.build g.heap mods
  wf : ∀ nm ∈ mods, (g.heap nm.2).WF

theorem Microgrid.checkTrajectory_ok {g g' : Microgrid}
    {tr : Option (Nat → Nat → Option Nat → Except Err (Nat × Nat))} (hc : g.checkTrajectory tr = .ok g')
    (h0 : g.trajectory = none) :
    g'.heap = g.heap ∧ g'.cont = g.cont ∧ g'.shaper = g.shaper ∧ g'.trajectory = tr ∧ g'.balanceLog = g.balanceLog ∧
      g'.initialStep = g.initialStep ∧ g'.finalStep = g.finalStep ∧
      ∀ f, tr = some f → ∃ i fin, f 0 g.initialStep g.finalStep = .ok (i, fin) ∧ g.initialStep ≤ i ∧ i < fin ∧
        ∀ F, g.finalStep = some F → fin ≤ F := by
  unfold Microgrid.checkTrajectory at hc
  split at hc
  · simp only [Except.ok.injEq] at hc
    subst hc
    exact ⟨rfl, rfl, rfl, h0, rfl, rfl, rfl, by simp⟩
  · rename_i f
    split at hc
    · simp at hc
    rename_i i fin hfe
    split at hc
    · simp at hc
    split at hc
    · simp at hc
    rename_i hF
    split at hc
    · simp at hc
    simp only [Except.ok.injEq] at hc
    subst hc
    refine ⟨rfl, rfl, rfl, rfl, rfl, rfl, rfl, ?_⟩
    intro f' hf'
    simp only [Option.some.injEq] at hf'
    subst hf'
    refine ⟨i, fin, hfe, by omega, by omega, fun F e => ?_⟩
    simp only [e, Microgrid.exceeds, gt_iff_lt, decide_eq_true_eq, not_lt] at hF
    exact hF

/-- Microgrids without modules are accepted; others must have a common first and a common last step. -/
theorem Microgrid.create_ok {h : Heap} {mods : List (String × Nat)} {sh : Option Shaper}
    {tr : Option (Nat → Nat → Option Nat → Except Err (Nat × Nat))} {g : Microgrid}
    (hc : Microgrid.create h mods sh tr = .ok g) :
    g.heap = h ∧ g.cont = Container.build h mods ∧ g.shaper = sh ∧ g.trajectory = tr ∧ g.balanceLog = {} ∧
      (mods = [] ∧ g.initialStep = 0 ∧ g.finalStep = none ∨
        mods ≠ [] ∧ uniqueVal (((Container.toTuples (Container.build h mods).fullDict).map Prod.snd).map
          fun i => (h i).initialStep) = .ok g.initialStep ∧
        ∃ f0, g.finalStep = some f0 ∧ uniqueVal (((Container.toTuples (Container.build h mods).fullDict).map
          Prod.snd).filterMap fun i => (h i).finalStep?) = .ok f0) ∧
      ∀ f, tr = some f → ∃ i fin, f 0 g.initialStep g.finalStep = .ok (i, fin) ∧ g.initialStep ≤ i ∧ i < fin ∧
        ∀ F, g.finalStep = some F → fin ≤ F := by
  unfold Microgrid.create at hc
  simp only at hc
  split at hc
  · rename_i hm
    obtain ⟨h1, h2, h3, h4, h5, h6, h7, h8⟩ := Microgrid.checkTrajectory_ok hc rfl
    rw [h6, h7]
    exact ⟨h1, h2, h3, h4, h5, .inl ⟨List.isEmpty_iff.mp hm, rfl, rfl⟩, h8⟩
  · rename_i hm
    split at hc
    · simp at hc
    rename_i i0 hi
    split at hc
    · simp at hc
    rename_i f0 hf
    obtain ⟨h1, h2, h3, h4, h5, h6, h7, h8⟩ := Microgrid.checkTrajectory_ok hc rfl
    rw [h6, h7]
    exact ⟨h1, h2, h3, h4, h5, .inr ⟨fun e => hm (List.isEmpty_iff.mpr e), hi, f0, rfl, hf⟩, h8⟩

theorem Microgrid.exceeds_iff {fin : Nat} {o : Option Nat} :
    Microgrid.exceeds fin o = true ↔ ∃ F, o = some F ∧ F < fin := by
  cases o <;> simp [Microgrid.exceeds]

/-- Creation with a trajectory function is creation without, followed by the validation of the function. -/
theorem Microgrid.create_with {h : Heap} {mods : List (String × Nat)} {sh : Option Shaper} {g : Microgrid}
    (hc : Microgrid.create h mods sh none = .ok g)
    (tr : Option (Nat → Nat → Option Nat → Except Err (Nat × Nat))) :
    Microgrid.create h mods sh tr = g.checkTrajectory tr := by
  unfold Microgrid.create at hc ⊢
  simp only at hc ⊢
  split at hc
  · rename_i hm
    obtain rfl := Except.ok.inj hc
    rw [if_pos hm]
  · rename_i hm
    rw [if_neg hm]
    split at hc
    · simp at hc
    split at hc
    · simp at hc
    obtain rfl := Except.ok.inj hc
    rfl

/-- The case of microgrids with modules. -/
theorem Microgrid.create_some {h : Heap} {mods : List (String × Nat)} {sh : Option Shaper}
    {tr : Option (Nat → Nat → Option Nat → Except Err (Nat × Nat))} {g : Microgrid}
    (hc : Microgrid.create h mods sh tr = .ok g) (hne : mods ≠ []) :
    uniqueVal (((Container.toTuples (Container.build h mods).fullDict).map Prod.snd).map
      fun i => (h i).initialStep) = .ok g.initialStep ∧
    ∃ f0, g.finalStep = some f0 ∧ uniqueVal (((Container.toTuples (Container.build h mods).fullDict).map
      Prod.snd).filterMap fun i => (h i).finalStep?) = .ok f0 := by
  obtain ⟨-, -, -, -, -, h6, -⟩ := Microgrid.create_ok hc
  rcases h6 with ⟨e, -⟩ | ⟨-, h1, h2⟩
  · exact absurd e hne
  · exact ⟨h1, h2⟩

theorem GridOK.created {h : Heap} {mods : List (String × Nat)} {sh : Option Shaper}
    {tr : Option (Nat → Nat → Option Nat → Except Err (Nat × Nat))} {g : Microgrid}
    (hc : Microgrid.create h mods sh tr = .ok g) (hl : ∀ nm ∈ mods, LibraryModule (h nm.2)) : GridOK mods g := by
  obtain ⟨rfl, h2, -⟩ := Microgrid.create_ok hc
  exact ⟨h2, fun nm hnm => (hl nm hnm).wf⟩

theorem GridOK.of_kept {mods : List (String × Nat)} {g g' : Microgrid} (h : GridOK mods g)
    (hf : Microgrid.Fixed g g') (ha : ∀ j, (g.heap j).Alike (g'.heap j))
    (hw : ∀ j, (g.heap j).WF → (g'.heap j).WF) : GridOK mods g' :=
  ⟨by rw [hf.cont, h.cont]; exact (Container.build_congr fun nm _ => ⟨(ha nm.2).ffc, (ha nm.2).ss⟩).symm,
    fun nm hnm => hw _ (h.wf nm hnm)⟩

theorem GridOK.runG {mods : List (String × Nat)} {g : Microgrid} (h : GridOK mods g) (ops : List GOp) :
    GridOK mods (runG g ops) :=
  h.of_kept (runG_fixed g ops) (kept_alike.runG g ops) (kept_wf.runG g ops)

theorem GridOK.run {mods : List (String × Nat)} {g : Microgrid} (h : GridOK mods g) (c : List (String × Ctrl))
    (n : Bool) : GridOK mods (g.run c n).1 := h.runG [.run c n]

theorem GridOK.reset {mods : List (String × Nat)} {g : Microgrid} (h : GridOK mods g) : GridOK mods g.reset.1 :=
  h.runG [.reset]

/-- Modules of the last category of a level cannot be shadowed. -/
theorem Container.mem_level_both {h : Heap} {mods : List (String × Nat)} {nm : String × Nat} {f : FFC} (hm : nm ∈ mods)
    (hf : (h nm.2).ffc = f) (hs : (h nm.2).ss = .both) :
    nm ∈ Container.toTuples ((Container.build h mods).levelDict f) := by
  have hin : nm.2 ∈ Container.idsOf h mods f .both nm.1 := by
    simp only [Container.idsOf, List.mem_map, List.mem_filter, Container.inCat, Bool.and_eq_true, decide_eq_true_eq]
    exact ⟨nm, ⟨hm, ⟨hf, hs⟩, rfl⟩, rfl⟩
  have hne : Container.idsOf h mods f .both nm.1 ≠ [] := fun e => by rw [e] at hin; simp at hin
  have hg : dictGet? ((Container.build h mods).levelDict f) nm.1 = some (Container.idsOf h mods f .both nm.1) := by
    have : (Container.build h mods).levelDict f = dictUpdate
        (Container.toDict [(Container.build h mods).cat f .sources, (Container.build h mods).cat f .sinks])
        ((Container.build h mods).cat f .both) := rfl
    rw [this, dictGet?_dictUpdate _ _ (Container.cat_nodup h mods f .both), Container.cat_get, if_neg hne]
    rfl
  simp only [Container.toTuples, List.mem_flatMap, List.mem_map]
  exact ⟨_, dictGet?_mem hg, nm.2, hin, rfl⟩

theorem Module.WF.canProvide_none {m : Module} (h : m.WF) (hp : m.canProvide = none) : m.ffc = .flex ∧ m.ss = .both := by
  cases h with
  | balancing u hb => exact ⟨hb.ffc, by simp [Module.ss, Module.isSink, Module.isSource, hb.kind]⟩
  | battery b hb => simp [Module.canProvide, hb.kind] at hp
  | genset g hb => simp [Module.canProvide, hb.kind] at hp
  | grid p t hb w => simp [Module.canProvide, hb.kind] at hp
  | load t hb w => simp [Module.canProvide, hb.kind] at hp
  | renewable t hb w => simp [Module.canProvide, hb.kind] at hp

/-- A balancing module stays a balancing module. -/
theorem Module.WF.canProvide_step {m : Module} (hw : m.WF) (hp : m.canProvide = none) (a : Act) (n : Bool) :
    (m.step a n).1.canProvide = none := by
  cases hw with
  | balancing u hb =>
    have := hb.op (.step a n)
    simp only [MOp.apply] at this
    simp [Module.canProvide, this.kind]
  | battery b hb => simp [Module.canProvide, hb.kind] at hp
  | genset g hb => simp [Module.canProvide, hb.kind] at hp
  | grid p t hb w => simp [Module.canProvide, hb.kind] at hp
  | load t hb w => simp [Module.canProvide, hb.kind] at hp
  | renewable t hb w => simp [Module.canProvide, hb.kind] at hp

theorem Module.WF.canProvide_reset {m : Module} (hw : m.WF) (hp : m.canProvide = none) :
    m.reset.1.canProvide = none := by
  cases hw with
  | balancing u hb =>
    have := hb.op .reset
    simp only [MOp.apply] at this
    simp [Module.canProvide, this.kind]
  | battery b hb => simp [Module.canProvide, hb.kind] at hp
  | genset g hb => simp [Module.canProvide, hb.kind] at hp
  | grid p t hb w => simp [Module.canProvide, hb.kind] at hp
  | load t hb w => simp [Module.canProvide, hb.kind] at hp
  | renewable t hb w => simp [Module.canProvide, hb.kind] at hp

theorem kept_balancing : Kept fun m m' => (m.WF ∧ m.canProvide = none) → (m'.WF ∧ m'.canProvide = none) where
  refl := fun _ h => h
  trans := fun h h' hw => h' (h hw)
  step := fun _ a n h => ⟨h.1.step a n, h.1.canProvide_step h.2 a n⟩
  reset := fun _ h => ⟨h.1.reset, h.1.canProvide_reset h.2⟩
  initial := fun m v h => ⟨h.1.withInitial v, h.2⟩
  final := fun m v h => ⟨h.1.setFinal v, by
    have hk := h.2
    unfold Module.canProvide at hk
    split at hk
    · simp at hk
    · simp at hk
    · rename_i u hb
      simp [Microgrid.setFinalOne, hb, Module.canProvide]
    · simp at hk⟩

theorem isclose_self (x : ℚ) : isclose x x = true := by
  simp only [isclose, sub_self, abs_zero, decide_eq_true_eq]
  positivity

section
variable {mods : List (String × Nat)} {g g' : Microgrid} {control : List (String × Ctrl)} {n : Bool} {o : RunOut}
  {trF trC trX : List Event} {h₁ h₂ : Heap} {ci : CostInfo}

theorem GridOK.mem_flexList (h : GridOK mods g) {ni : String × Nat} (hx : ni ∈ g.flexList) :
    ni ∈ mods ∧ (g.heap ni.2).ffc = .flex := by
  unfold Microgrid.flexList at hx
  rw [h.cont] at hx
  exact Container.mem_level hx

/-- The conditions of the dispatch lemmas hold for whatever precedes the dispatch. -/
theorem GridOK.flexEvents (h : GridOK mods g) {tr : List Event} (he : Exec g.heap tr h₂)
    (hl : trX.map (fun e => (e.name, e.id)) = g.flexList) : FlexEvents h₂ trX := by
  intro e hx
  have hm : (e.name, e.id) ∈ g.flexList := hl ▸ List.mem_map_of_mem (f := fun e : Event => (e.name, e.id)) hx
  obtain ⟨h1, h2⟩ := h.mem_flexList hm
  exact ⟨he.wf (h.wf _ h1), (he.alike e.id).ffc.trans h2⟩

theorem Exec.canProvide_none {h h' : Heap} {tr : List Event} (e : Exec h tr h') {i : Nat}
    (hw : (h i).WF ∧ (h i).canProvide = none) : (h' i).WF ∧ (h' i).canProvide = none := by
  induction e with
  | nil => exact hw
  | @cons h h' y tr m' hs ht ih =>
    apply ih
    have := kept_balancing.step (h y.id) y.act y.normalized
    rw [hs] at this
    exact heapSet_rel (P := fun m m' => (m.WF ∧ m.canProvide = none) → (m'.WF ∧ m'.canProvide = none))
      kept_balancing.refl this i hw

/-- A dispatch with a balancing module settles the difference exactly. -/
theorem GridOK.dispatch_exact (h : GridOK mods g) {tr : List Event} (he : Exec g.heap tr h₂)
    (hl : trX.map (fun e => (e.name, e.id)) = g.flexList) {nm : String × Nat} (hm : nm ∈ mods)
    (hb : (g.heap nm.2).canProvide = none) {d : ℚ}
    (hc : if d > 0 then Chain sinkAmount (fun a => -1 * a) d h₂ trX else Chain sourceAmount (fun a => a) (-d) h₂ trX) :
    provSum trX - absSum trX = -d := by
  have hfe := h.flexEvents he hl
  obtain ⟨h1, h2⟩ := (h.wf nm hm).canProvide_none hb
  have hmem : nm ∈ g.flexList := by
    unfold Microgrid.flexList
    rw [h.cont]
    exact Container.mem_level_both hm h1 h2
  rw [← hl] at hmem
  obtain ⟨e, hex, hee⟩ := List.mem_map.mp hmem
  have hbe : ∃ e ∈ trX, (h₂ e.id).canProvide = none := by
    refine ⟨e, hex, ?_⟩
    rw [show e.id = nm.2 from congrArg Prod.snd hee]
    exact (he.canProvide_none ⟨h.wf nm hm, hb⟩).2
  split at hc
  · rename_i hd
    obtain ⟨-, h3, -, -, h4⟩ := hc.sink hfe hd.le
    rw [h3, h4 hbe]; ring
  · rename_i hd
    obtain ⟨-, h3, -, -, h4⟩ := hc.source hfe (by linarith)
    rw [h3, h4 hbe]; ring

theorem acc_provided (tr : List Event) : (({} : StepAcc).run tr).provided.sum = provSum tr := by
  rw [StepAcc.run_provided]; simp

theorem acc_absorbed (tr : List Event) : (({} : StepAcc).run tr).absorbed.sum = absSum tr := by
  rw [StepAcc.run_absorbed]; simp

theorem GridOK.balance (h : GridOK mods g) {nm : String × Nat} (hm : nm ∈ mods)
    (hb : (g.heap nm.2).canProvide = none) (r : RunInfo g control n g' o trF trC trX h₁ h₂ ci) :
    provSum (trF ++ trC ++ trX) = absSum (trF ++ trC ++ trX) := by
  have hc := r.chain
  simp only [acc_provided, acc_absorbed] at hc
  have := h.dispatch_exact (r.fixed.append r.ctrl) r.flexL hm hb hc
  rw [provSum_append, absSum_append _ trX]
  linarith

/-! ### No failure of the self-check -/

theorem RunSt.stepOne_nr {s : RunSt} {name : String} {i : Nat} {a : Act} (hw : (s.heap i).WF) :
    (s.stepOne name i a n).2 ≠ .error .runtime := by
  have := hw.step_nr a n
  unfold stepOne
  split
  · rename_i e he
    rw [he] at this
    simpa using this
  · simp

theorem RunSt.stepMany_nr {l : List (String × Nat × Act)} {s : RunSt} (hw : ∀ x ∈ l, (s.heap x.2.1).WF) :
    (RunSt.stepMany l n s).2 ≠ .error .runtime := by
  induction l generalizing s with
  | nil => simp [stepMany]
  | cons x l ih =>
    obtain ⟨name, i, a⟩ := x
    have h1 := RunSt.stepOne_nr (n := n) (name := name) (a := a) (hw (name, i, a) (by simp))
    have h2 := kept_wf.toRespected.stepOne s name i a n
    simp only [stepMany]
    split
    · rename_i e he
      rw [he] at h1
      simpa using h1
    · rename_i s' he
      rw [he] at h2
      exact ih fun x hx => h2 _ (hw x (by simp [hx]))

theorem RunSt.stepControls_nr {d : ModDict} {s : RunSt} (hw : ∀ nl ∈ d, ∀ i ∈ nl.2, (s.heap i).WF) :
    (RunSt.stepControls control n d s).2 ≠ .error .runtime := by
  induction d generalizing s with
  | nil => simp [stepControls]
  | cons x d ih =>
    obtain ⟨name, ids⟩ := x
    simp only [stepControls]
    split
    · simp
    · rename_i c hc
      have h1 := RunSt.stepMany_nr (n := n) (s := s) (l := (ids.zip c.acts).map fun ia => (name, ia.1, ia.2)) (by
        intro x hx
        simp only [List.mem_map] at hx
        obtain ⟨⟨i, a⟩, hia, rfl⟩ := hx
        exact hw (name, ids) (by simp) i (List.of_mem_zip hia).1)
      have h2 := kept_wf.toRespected.stepMany ((ids.zip c.acts).map fun ia => (name, ia.1, ia.2)) n s
      split
      · rename_i e he
        rw [he] at h1
        simpa using h1
      · rename_i s' he
        rw [he] at h2
        exact ih fun nl hnl i hi => h2 _ (hw nl (by simp [hnl]) i hi)

theorem Module.WF.gridStatus_ok {m : Module} {p : GridParams} {t : TS} (h : m.GridWF p t) :
    ∃ q, m.gridStatus = .ok q := by
  obtain ⟨s, hs, hl⟩ := h.state_get
  simp only [Module.gridStatus, hs]
  rw [List.getElem?_eq_getElem (by omega : 3 < s.length)]
  simp

theorem Module.WF.sinkAmount_nr {m : Module} (h : m.WF) (x : ℚ) : sinkAmount m x ≠ .error .runtime := by
  unfold sinkAmount
  split
  · simp
  split
  · rename_i e he
    intro hh
    simp only [Except.error.injEq] at hh
    subst hh
    cases h with
    | battery b h => simp [Module.maxConsumption, h.kind] at he
    | genset g h => simp [Module.maxConsumption, h.kind] at he
    | grid p t h w =>
      obtain ⟨q, hq⟩ := Module.WF.gridStatus_ok h
      simp [Module.maxConsumption, h.kind, hq] at he
    | load t h w =>
      simp only [Module.maxConsumption, h.kind] at he
      split at he
      · simp at he
      · rename_i e' h'
        simp only [Except.error.injEq] at he
        subst he
        exact TS.itemAt_nr _ _ h'
    | renewable t h w => simp [Module.maxConsumption, h.kind] at he
    | balancing u h => simp [Module.maxConsumption, h.kind] at he
  all_goals simp

theorem Module.WF.sourceAmount_nr {m : Module} (h : m.WF) (x : ℚ) : sourceAmount m x ≠ .error .runtime := by
  unfold sourceAmount
  split
  · simp
  split
  · rename_i e he
    intro hh
    simp only [Except.error.injEq] at hh
    subst hh
    cases h with
    | battery b h => simp [Module.maxProduction, h.kind] at he
    | genset g h => simp [Module.maxProduction, h.kind] at he
    | grid p t h w =>
      obtain ⟨q, hq⟩ := Module.WF.gridStatus_ok h
      simp [Module.maxProduction, h.kind, hq] at he
    | renewable t h w =>
      simp only [Module.maxProduction, h.kind] at he
      split at he
      · simp at he
      · rename_i e' h'
        simp only [Except.error.injEq] at he
        subst he
        exact TS.itemAt_nr _ _ h'
    | load t h w => simp [Module.maxProduction, h.kind] at he
    | balancing u h => simp [Module.maxProduction, h.kind] at he
  all_goals simp

theorem RunSt.absorbExcess_nr {l : List (String × Nat)} {x : ℚ} {s : RunSt} (hw : ∀ y ∈ l, (s.heap y.2).WF) :
    (RunSt.absorbExcess l x s).2 ≠ .error .runtime := by
  induction l generalizing s x with
  | nil => simp [absorbExcess]
  | cons y l ih =>
    obtain ⟨name, i⟩ := y
    have hwi := hw (name, i) (by simp)
    simp only [absorbExcess]
    split
    · rename_i e he
      have := hwi.sinkAmount_nr x
      rw [he] at this
      simpa using this
    · rename_i amt ha
      have h1 := RunSt.stepOne_nr (n := false) (name := name) (a := .num (-1 * amt)) hwi
      have h2 := kept_wf.toRespected.stepOne s name i (.num (-1 * amt)) false
      split
      · rename_i e he
        rw [he] at h1
        simpa using h1
      · rename_i s' he
        rw [he] at h2
        exact ih fun y hy => h2 _ (hw y (by simp [hy]))

theorem RunSt.coverNeed_nr {l : List (String × Nat)} {x : ℚ} {s : RunSt} (hw : ∀ y ∈ l, (s.heap y.2).WF) :
    (RunSt.coverNeed l x s).2 ≠ .error .runtime := by
  induction l generalizing s x with
  | nil => simp [coverNeed]
  | cons y l ih =>
    obtain ⟨name, i⟩ := y
    have hwi := hw (name, i) (by simp)
    simp only [coverNeed]
    split
    · rename_i e he
      have := hwi.sourceAmount_nr x
      rw [he] at this
      simpa using this
    · rename_i amt ha
      have h1 := RunSt.stepOne_nr (n := false) (name := name) (a := .num amt) hwi
      have h2 := kept_wf.toRespected.stepOne s name i (.num amt) false
      split
      · rename_i e he
        rw [he] at h1
        simpa using h1
      · rename_i s' he
        rw [he] at h2
        exact ih fun y hy => h2 _ (hw y (by simp [hy]))

theorem StepAcc.shapedReward_nr {a : StepAcc} {sh : Option Shaper} (hs : ∀ f, sh = some f → ∀ i c, f i c ≠ .error .runtime) :
    a.shapedReward sh ci ≠ .error .runtime := by
  unfold shapedReward
  split
  · rename_i f; exact hs f rfl _ _
  · simp

theorem StepAcc.balance_nr {a : StepAcc} {sh : Option Shaper} (hs : ∀ f, sh = some f → ∀ i c, f i c ≠ .error .runtime) :
    a.balance sh ci ≠ .error .runtime := by
  have := StepAcc.shapedReward_nr (a := a) (ci := ci) hs
  unfold balance
  split
  · rename_i e he; rw [he] at this; simpa using this
  · simp

theorem GridOK.mem_full (h : GridOK mods g) : ∀ nl ∈ g.cont.fullDict, ∀ i ∈ nl.2, (g.heap i).WF := by
  intro nl hnl i hi
  have : (nl.1, i) ∈ Container.toTuples g.cont.fullDict := by
    simp only [Container.toTuples, List.mem_flatMap, List.mem_map]
    exact ⟨nl, hnl, i, hi, rfl⟩
  rw [h.cont] at this
  exact h.wf _ (Container.mem_full this)

theorem GridOK.mem_levelDict (h : GridOK mods g) {f : FFC} : ∀ nl ∈ g.cont.levelDict f, ∀ i ∈ nl.2,
    (nl.1, i) ∈ mods ∧ (g.heap i).ffc = f := by
  intro nl hnl i hi
  have : (nl.1, i) ∈ Container.toTuples (g.cont.levelDict f) := by
    simp only [Container.toTuples, List.mem_flatMap, List.mem_map]
    exact ⟨nl, hnl, i, hi, rfl⟩
  rw [h.cont] at this
  exact Container.mem_level this

theorem GridOK.run_nr (h : GridOK mods g) {nm : String × Nat} (hm : nm ∈ mods)
    (hb : (g.heap nm.2).canProvide = none)
    (hs : ∀ f, g.shaper = some f → ∀ i c, f i c ≠ .error .runtime) (control : List (String × Ctrl)) (n : Bool) :
    (g.run control n).2 ≠ .error .runtime := by
  unfold Microgrid.run
  obtain ⟨ci, hci⟩ := costInfo_ok h.mem_full
  simp only [hci]
  have hF : ∀ x ∈ g.fixedSteps, (g.heap x.2.1).WF := by
    intro x hx
    simp only [Microgrid.fixedSteps, List.mem_map] at hx
    obtain ⟨ni, hni, rfl⟩ := hx
    rw [h.cont] at hni
    exact h.wf _ (Container.mem_level hni).1
  have f1 := RunSt.stepMany_nr (n := false) (s := ⟨g.heap, {}⟩) hF
  split
  · rename_i s₁ e he
    rw [he] at f1
    simpa using f1
  rename_i s₁ he₁
  obtain ⟨trF, a1, a2, -, -⟩ := RunSt.stepMany_ok he₁
  have b1 := StepAcc.balance_nr (a := s₁.acc) (ci := ci) hs
  split
  · rename_i e he
    rw [he] at b1
    simpa using b1
  rename_i fp fc _ _ hb₁
  have c1 := RunSt.stepControls_nr (control := control) (n := n) (s := s₁) (d := g.cont.levelDict .controllable)
    fun nl hnl i hi => a1.wf (h.wf _ (h.mem_levelDict nl hnl i hi).1)
  split
  · rename_i s₂ e he
    rw [he] at c1
    simpa using c1
  rename_i s₂ he₂
  obtain ⟨trC, c1, c2, -, -, -⟩ := RunSt.stepControls_ok he₂
  have b2 := StepAcc.balance_nr (a := s₂.acc) (ci := ci) hs
  split
  · rename_i e he
    rw [he] at b2
    simpa using b2
  rename_i p c _ _ hb₂
  obtain ⟨rfl, rfl, -, -⟩ := StepAcc.balance_ok hb₂
  have ha : s₂.acc = ({} : StepAcc).run (trF ++ trC) := by rw [c2, a2, StepAcc.run_append]
  have hex := a1.append c1
  have hX : ∀ y ∈ g.flexList, (s₂.heap y.2).WF := fun y hy => hex.wf (h.wf _ (h.mem_flexList hy).1)
  have d1 : (g.dispatch (s₂.acc.provided.sum - s₂.acc.absorbed.sum) s₂).2 ≠ .error .runtime := by
    unfold Microgrid.dispatch
    split
    · exact RunSt.absorbExcess_nr hX
    · exact RunSt.coverNeed_nr hX
  split
  · rename_i s₃ e he
    rw [he] at d1
    simpa using d1
  rename_i s₃ he₃
  have hx : ∃ trX, s₃.acc = s₂.acc.run trX ∧ trX.map (fun e => (e.name, e.id)) = g.flexList ∧
      (if s₂.acc.provided.sum - s₂.acc.absorbed.sum > 0 then
        Chain sinkAmount (fun a => -1 * a) (s₂.acc.provided.sum - s₂.acc.absorbed.sum) s₂.heap trX
       else Chain sourceAmount (fun a => a) (-(s₂.acc.provided.sum - s₂.acc.absorbed.sum)) s₂.heap trX) := by
    unfold Microgrid.dispatch at he₃
    split at he₃
    · rename_i hd
      obtain ⟨tr, -, e2, e3, e4⟩ := RunSt.absorbExcess_ok he₃
      exact ⟨tr, e2, e3, by rw [if_pos hd]; exact e4⟩
    · rename_i hd
      obtain ⟨tr, -, e2, e3, e4⟩ := RunSt.coverNeed_ok he₃
      exact ⟨tr, e2, e3, by rw [if_neg hd]; exact e4⟩
  obtain ⟨trX, x2, x3, x4⟩ := hx
  have hbal := h.dispatch_exact hex x3 hm hb x4
  have hclose : isclose s₃.acc.provided.sum s₃.acc.absorbed.sum = true := by
    have : s₃.acc.provided.sum = s₃.acc.absorbed.sum := by
      rw [x2, StepAcc.run_provided, StepAcc.run_absorbed]
      linarith
    rw [this]
    exact isclose_self _
  unfold Microgrid.finish
  simp only
  have b3 := StepAcc.balance_nr (a := s₃.acc) (ci := ci) hs
  split
  · rename_i e he
    rw [he] at b3
    simpa using b3
  rename_i provided consumed reward shaped hb₃
  obtain ⟨rfl, rfl, rfl, hsr⟩ := StepAcc.balance_ok hb₃
  rw [hclose, hsr]
  simp

end

end Pymgrid
