import Verif.Props.Microgrid

set_option autoImplicit false

/-!
# C22, C23, C33, C34, C41, C47: episodes, lockstep and the module container
-/

namespace Pymgrid

open Module

theorem kept_final : Kept fun m m' => (m'.finalStep? = none ↔ m.finalStep? = none) where
  refl := fun _ => Iff.rfl
  trans := fun h h' => h'.trans h
  step := fun m a n => by rw [(Module.shape_step m a n).final]
  reset := fun m => by rw [(Module.shape_reset m).final]
  initial := fun m v => by simp [Module.finalStep?]
  final := fun m v => by
    unfold Microgrid.setFinalOne
    repeat' split
    all_goals simp_all [Module.finalStep?]

section
variable {h : Heap} {mods : List (String × Nat)} {sh : Option Shaper}
  {tr : Option (Nat → Nat → Option Nat → Except Err (Nat × Nat))} {g₀ : Microgrid}

/-! ### C22: length of episodes -/

/-- C22: in the runs after a reset, `done` is reported from the run that completes step number
    `final_step - initial_step` on, and not before.  (For microgrids without modules, which have no last step, see
    `C22_no_modules`.) -/
theorem C22_done_at_final_step (hc : Microgrid.create h mods sh none = .ok g₀) (hmods : mods ≠ [])
    (hl : ∀ nm ∈ mods, LibraryModule (h nm.2)) (hid : (mods.map Prod.snd).Nodup) (hd : DistinctNames h mods)
    (ops : List GOp) (g₁ g' : Microgrid) (hr : (runG g₀ ops).reset = (g₁, .ok ()))
    (cs : List (List (String × Ctrl) × Bool)) (os : List RunOut) (hs : ∀ cn ∈ cs, Supplies h mods cn.1)
    (hrun : Runs g₁ cs os g') :
    ∃ F, g₀.finalStep = some F ∧
      ∀ j (hj : j < os.length), os[j].done = decide (F ≤ g₀.initialStep + (j + 1)) := by
  obtain ⟨ok, alike, -, -⟩ := user_grid hc hl ops
  obtain ⟨F, hF, he⟩ := created_episode hc hd hmods
  have htr : g₀.trajectory = none := (Microgrid.create_ok hc).2.2.2.1
  have hheap := (Microgrid.create_ok hc).1
  have htr' : (runG g₀ ops).trajectory = none := (runG_fixed g₀ ops).trajectory.trans htr
  obtain ⟨hcur, -, hlim, -⟩ := ok.reset_modules hid (hd.congr alike) hr
  have hlim := hlim htr'
  have ok₁ := ok.reset_next hr
  have alike₁ : ∀ j, (h j).Alike (g₁.heap j) := fun j => (alike j).trans (reset_alike hr j)
  have he₁ : Episode mods g₁ g₀.initialStep F := by
    refine ⟨fun nm hm => ?_, ?_⟩
    · rw [(hlim nm hm).1, (hlim nm hm).2, (limits_kept htr ops nm.2).1, (limits_kept htr ops nm.2).2]
      exact he.1 nm hm
    · obtain ⟨nm, hm, hne⟩ := he.2
      refine ⟨nm, hm, ?_⟩
      rw [(hlim nm hm).2, (limits_kept htr ops nm.2).2]
      exact hne
  have hlock : LockStep mods g₁ g₀.initialStep := fun nm hm => (hcur nm hm).1.trans (he₁.1 nm hm).1
  refine ⟨F, hF, fun j hj => ?_⟩
  rw [(Runs.dones ok₁ hid (hd.clear.congr alike₁) hrun (fun cn hcn => (hs cn hcn).congr alike₁) he₁ hlock).1 j hj]
  rfl

/-- C22 for microgrids without modules: they are accepted, and every run succeeds, costs nothing and never ends the
    episode. -/
theorem C22_no_modules (h : Heap) : ∃ g₀, Microgrid.create h [] none none = .ok g₀ ∧ g₀.initialStep = 0 ∧
    g₀.finalStep = none ∧ ∀ (ops : List GOp) (ctl : List (String × Ctrl)) (n : Bool),
      ((runG g₀ ops).run ctl n).2 = .ok { obs := [], reward := 0, done := false, infos := [] } := by
  refine ⟨_, rfl, rfl, rfl, fun ops ctl n => ?_⟩
  have hf := runG_fixed (g := { heap := h, cont := Container.build h [], initialStep := 0, finalStep := none,
                                shaper := none }) ops
  have hc := hf.cont
  have hs := hf.shaper
  generalize runG _ ops = g at hc hs ⊢
  have hcont : g.cont = Container.build h [] := hc
  unfold Microgrid.run Microgrid.finish Microgrid.dispatch Microgrid.fixedSteps Microgrid.flexList
  have e1 : (Container.build h []).fullDict = [] := rfl
  have e2 : ∀ f, (Container.build h []).levelDict f = [] := by intro f; cases f <;> rfl
  simp [hs, hcont, e1, e2, costInfo, Container.toTuples, RunSt.stepMany, RunSt.stepControls,
    RunSt.coverNeed, StepAcc.balance, StepAcc.shapedReward, isclose]

/-- C22: with a trajectory function the episode is the one which the function returned at the reset. -/
theorem C22_done_at_trajectory_end {f : Nat → Nat → Option Nat → Except Err (Nat × Nat)}
    (hc : Microgrid.create h mods sh (some f) = .ok g₀)
    (hl : ∀ nm ∈ mods, LibraryModule (h nm.2)) (hid : (mods.map Prod.snd).Nodup) (hd : DistinctNames h mods)
    (ops : List GOp) (g₁ g' : Microgrid) (hr : (runG g₀ ops).reset = (g₁, .ok ()))
    (cs : List (List (String × Ctrl) × Bool)) (os : List RunOut) (hs : ∀ cn ∈ cs, Supplies h mods cn.1)
    (hrun : Runs g₁ cs os g') :
    ∃ I F, f (runG g₀ ops).calls g₀.initialStep g₀.finalStep = .ok (I, F) ∧ LockStep mods g₁ I ∧
      (0 < F → I < F ∧ ∀ j (hj : j < os.length), os[j].done = decide (F ≤ I + (j + 1))) := by
  obtain ⟨ok, alike, -, -⟩ := user_grid hc hl ops
  have htr : g₀.trajectory = some f := (Microgrid.create_ok hc).2.2.2.1
  have hfx := runG_fixed g₀ ops
  obtain ⟨F₀, hF, he⟩ := created_episode hc hd (ok.reset_nonempty (hfx.trajectory.trans htr) hr)
  obtain ⟨hcur, -, -, hlim⟩ := ok.reset_modules hid (hd.congr alike) hr
  obtain ⟨I, F, hf, hlim⟩ := hlim f (hfx.trajectory.trans htr)
  rw [hfx.initialStep, hfx.finalStep] at hf
  have ok₁ := ok.reset_next hr
  have alike₁ : ∀ j, (h j).Alike (g₁.heap j) := fun j => (alike j).trans (reset_alike hr j)
  have hlock : LockStep mods g₁ I := fun nm hm => (hcur nm hm).1.trans (hlim nm hm).1
  refine ⟨I, F, hf, hlock, fun hpos => ?_⟩
  have hex : ∃ nm ∈ mods, (g₁.heap nm.2).finalStep? ≠ none := by
    obtain ⟨nm, hm, hne⟩ := he.2
    refine ⟨nm, hm, fun hn => hne ?_⟩
    exact (kept_final.runG g₀ ops nm.2).mp ((hlim nm hm).2.1.mp hn)
  have he₁ : Episode mods g₁ I F :=
    ⟨fun nm hm => ⟨(hlim nm hm).1, fun F' hF' => ((hlim nm hm).2.2 hpos F' hF').1⟩, hex⟩
  constructor
  · obtain ⟨nm, hm, hne⟩ := hex
    obtain ⟨F', hF'⟩ := Option.ne_none_iff_exists'.mp hne
    exact ((hlim nm hm).2.2 hpos F' hF').2
  · intro j hj
    rw [(Runs.dones ok₁ hid (hd.clear.congr alike₁) hrun (fun cn hcn => (hs cn hcn).congr alike₁) he₁ hlock).1 j hj]
    rfl

/-! ### C23: lockstep -/

/-- What `microgrid.current_step` returns when all modules are at the same step. -/
theorem GridOK.currentStep {g : Microgrid} (ok : GridOK mods g) (hd : DistinctNames g.heap mods) (hne : mods ≠ [])
    {c : Nat} (hl : LockStep mods g c) : g.currentStep = .ok c := by
  have hp := ok.fullIds_perm hd
  have : uniqueVal ((Container.toTuples g.cont.fullDict).map fun ni => (g.heap ni.2).currentStep) = .ok c := ?_
  · unfold Microgrid.currentStep
    split
    · rename_i h0
      rw [h0] at this
      simp [uniqueVal] at this
    · rename_i h0
      rw [← h0]
      exact this
  apply uniqueVal_of
  · intro y hy
    obtain ⟨ni, hni, rfl⟩ := List.mem_map.mp hy
    rw [ok.cont] at hni
    exact hl _ (Container.mem_full hni)
  · intro h0
    have : (Container.toTuples g.cont.fullDict) = [] := by simpa using h0
    rw [this] at hp
    simp at hp
    exact hne hp

/-- C23: a successful run with one action per controllable module takes all modules from step `c` to step `c+1`. -/
theorem C23_run_advances_all (hc : Microgrid.create h mods sh tr = .ok g₀)
    (hl : ∀ nm ∈ mods, LibraryModule (h nm.2)) (hid : (mods.map Prod.snd).Nodup) (hd : DistinctNames h mods)
    (ops : List GOp) (c : Nat) (hlock : LockStep mods (runG g₀ ops) c) (control : List (String × Ctrl))
    (hs : Supplies h mods control) (n : Bool) (g' : Microgrid) (o : RunOut)
    (hr : (runG g₀ ops).run control n = (g', .ok o)) :
    LockStep mods g' (c + 1) ∧ (mods ≠ [] → g'.currentStep = .ok (c + 1)) := by
  obtain ⟨ok, alike, -, -⟩ := user_grid hc hl ops
  have h1 : LockStep mods g' (c + 1) := by
    intro nm hm
    rw [((ok.run_modules hid (hd.clear.congr alike) (hs.congr alike) hr).1 nm hm).1, hlock nm hm]
  exact ⟨h1, fun hne => (ok.run_next hr).currentStep (hd.congr fun j => (alike j).trans (run_alike hr j)) hne h1⟩

/-- C23: a successful reset takes all modules to a common step: the initial step, or the one which the trajectory
    function returns. -/
theorem C23_reset_aligns_all (hc : Microgrid.create h mods sh tr = .ok g₀)
    (hl : ∀ nm ∈ mods, LibraryModule (h nm.2)) (hid : (mods.map Prod.snd).Nodup) (hd : DistinctNames h mods)
    (ops : List GOp) (g' : Microgrid) (hr : (runG g₀ ops).reset = (g', .ok ())) :
    ∃ c, LockStep mods g' c ∧ (tr = none → c = g₀.initialStep) ∧
      ∀ f, tr = some f → ∃ F, f (runG g₀ ops).calls g₀.initialStep g₀.finalStep = .ok (c, F) := by
  obtain ⟨ok, alike, -, -⟩ := user_grid hc hl ops
  have htr : g₀.trajectory = tr := (Microgrid.create_ok hc).2.2.2.1
  have hfx := runG_fixed g₀ ops
  obtain ⟨hcur, -, hlim, hlim'⟩ := ok.reset_modules hid (hd.congr alike) hr
  rw [hfx.trajectory, htr] at hlim hlim'
  rw [hfx.initialStep, hfx.finalStep] at hlim'
  cases tr with
  | none =>
    refine ⟨g₀.initialStep, fun nm hm => ?_, fun _ => rfl, by simp⟩
    obtain ⟨F₀, hF, he⟩ := created_episode hc hd (List.ne_nil_of_mem hm)
    rw [(hcur nm hm).1, (hlim rfl nm hm).1, (limits_kept htr ops nm.2).1]
    exact (he.1 nm hm).1
  | some f =>
    obtain ⟨I, F, hf, hlim'⟩ := hlim' f rfl
    refine ⟨I, fun nm hm => (hcur nm hm).1.trans (hlim' nm hm).1, by simp, ?_⟩
    rintro f' ⟨⟩
    exact ⟨F, hf⟩

/-- Number of runs after the last reset. -/
def runsSinceReset (ops : List GOp) : Nat :=
  ops.foldl (fun k op => match op with | .run _ _ => k + 1 | .reset => 0) 0

/-- C23: after any history of successful runs and resets the modules of a microgrid built from modules at the
    initial step are all at the same step, which without trajectory function is the initial step plus the number of
    runs since the last reset; `current_step` returns that step. -/
theorem C23_lockstep_history (hc : Microgrid.create h mods sh tr = .ok g₀)
    (hl : ∀ nm ∈ mods, LibraryModule (h nm.2)) (hid : (mods.map Prod.snd).Nodup) (hd : DistinctNames h mods)
    (h0 : LockStep mods g₀ g₀.initialStep) (ops : List GOp)
    (hs : ∀ c n, GOp.run c n ∈ ops → Supplies h mods c) (g' : Microgrid) (hcalls : Calls g₀ ops g') :
    ∃ c, LockStep mods g' c ∧ (mods ≠ [] → g'.currentStep = .ok c) ∧
      (tr = none → c = g₀.initialStep + runsSinceReset ops) := by
  have key : ∀ (pre : List GOp) (g : Microgrid), g = runG g₀ pre → ∀ (ops : List GOp) (g' : Microgrid), Calls g ops g' →
      (∀ c n, GOp.run c n ∈ ops → Supplies h mods c) → ∀ (c : Nat) (k : Nat), LockStep mods g c →
      (tr = none → c = g₀.initialStep + k) →
      ∃ c, LockStep mods g' c ∧ (tr = none → c = g₀.initialStep +
        ops.foldl (fun k op => match op with | .run _ _ => k + 1 | .reset => 0) k) ∧
        ∃ all, g' = runG g₀ all := by
    intro pre g hg ops g' hcalls
    induction hcalls generalizing pre with
    | nil g => exact fun _ c k hlock hk => ⟨c, hlock, hk, pre, hg⟩
    | @run g g₁ g' ctl n o ops hrun _ ih =>
      intro hs c k hlock hk
      subst hg
      have h1 := C23_run_advances_all hc hl hid hd pre c hlock ctl (hs ctl n (by simp)) n g₁ o hrun
      have hg₁ : g₁ = runG g₀ (pre ++ [.run ctl n]) := by simp [runG, GOp.apply] at hrun ⊢; simp [hrun]
      exact ih (pre ++ [.run ctl n]) hg₁ (fun c n hm => hs c n (by simp [hm])) (c + 1) (k + 1) h1.1
        (fun ht => by rw [hk ht]; omega)
    | @reset g g₁ g' ops hrst _ ih =>
      intro hs c k hlock hk
      subst hg
      obtain ⟨c', h1, h2, -⟩ := C23_reset_aligns_all hc hl hid hd pre g₁ hrst
      have hg₁ : g₁ = runG g₀ (pre ++ [.reset]) := by simp [runG, GOp.apply] at hrst ⊢; simp [hrst]
      exact ih (pre ++ [.reset]) hg₁ (fun c n hm => hs c n (by simp [hm])) c' 0 h1 (fun ht => by rw [h2 ht]; rfl)
  obtain ⟨c, h1, h2, all, rfl⟩ := key [] g₀ rfl ops g' hcalls hs g₀.initialStep 0 h0 (fun _ => rfl)
  obtain ⟨ok, alike, -, -⟩ := user_grid hc hl all
  exact ⟨c, h1, fun hne => ok.currentStep (hd.congr alike) hne h1, h2⟩

/-! ### C34: every module steps once -/

/-- C34, for microgrids in which modules that share a name and a place in the dispatch have the same direction: in
    every successful run with one action per controllable module, the modules of the microgrid take exactly one step
    each: fixed modules the action `0.0`, the `k`-th controllable module of a name the `k`-th action under that name.
    Missing: modules that break the naming condition, for which the claim is false (`C34_not_for_all_names`). -/
theorem C34_one_step_each_partial (hc : Microgrid.create h mods sh tr = .ok g₀)
    (hl : ∀ nm ∈ mods, LibraryModule (h nm.2)) (hid : (mods.map Prod.snd).Nodup) (hu : ClearNames h mods)
    (ops : List GOp) (control : List (String × Ctrl)) (hs : Supplies h mods control) (n : Bool) (g' : Microgrid)
    (o : RunOut) (hr : (runG g₀ ops).run control n = (g', .ok o)) :
    ∃ trace : List Event, Exec (runG g₀ ops).heap trace g'.heap ∧ Reported trace o ∧
      (trace.map fun e => (e.name, e.id)).Perm mods ∧
      ∀ nm ∈ mods, ∃ e ∈ trace, e.name = nm.1 ∧ e.id = nm.2 ∧
        ((runG g₀ ops).heap nm.2).step e.act e.normalized = (g'.heap nm.2, .ok e.out) ∧
        ((h nm.2).ffc = .fixed → e.act = .num 0 ∧ e.normalized = false) ∧
        ((h nm.2).ffc = .controllable → e.normalized = n ∧ ∃ (c : Ctrl) (k : Nat), dictGet? control nm.1 = some c ∧
          (modulesNamed h mods .controllable nm.1)[k]? = some nm.2 ∧ c.acts[k]? = some e.act) := by
  obtain ⟨ok, alike, -, -⟩ := user_grid hc hl ops
  obtain ⟨trF, trC, trX, h₁, h₂, ci, r⟩ := Microgrid.run_ok hr
  refine ⟨trF ++ trC ++ trX, r.exec, r.reported, ok.events_perm (hu.congr alike) (hs.congr alike) r, ?_⟩
  intro nm hm
  obtain ⟨e, he, hn, hi, hst⟩ := ok.run_steps hid (hu.congr alike) (hs.congr alike) r hm
  have hF : e ∈ trF → (h nm.2).ffc = .fixed ∧ e.act = .num 0 ∧ e.normalized = false := by
    intro he
    have hmem : (e.name, e.id, e.act) ∈ (runG g₀ ops).fixedSteps :=
      r.fixedL ▸ List.mem_map_of_mem (f := fun e : Event => (e.name, e.id, e.act)) he
    simp only [Microgrid.fixedSteps, List.mem_map, Prod.mk.injEq] at hmem
    obtain ⟨ni, hni, h1, h2, h3⟩ := hmem
    rw [ok.cont] at hni
    have := (Container.mem_level hni).2
    rw [h2, hi, (alike nm.2).ffc] at this
    exact ⟨this, h3.symm, r.fixedN e he⟩
  have hC : e ∈ trC → (h nm.2).ffc = .controllable ∧ e.normalized = n ∧ ∃ (c : Ctrl) (k : Nat), dictGet? control nm.1 = some c ∧
          (modulesNamed h mods .controllable nm.1)[k]? = some nm.2 ∧ c.acts[k]? = some e.act := by
    intro he
    have hmem : (e.name, e.id, e.act) ∈ controlSteps control ((runG g₀ ops).cont.levelDict .controllable) :=
        r.ctrlL ▸ List.mem_map_of_mem (f := fun e : Event => (e.name, e.id, e.act)) he
    simp only [controlSteps, List.mem_flatMap, List.mem_map, Prod.mk.injEq] at hmem
    obtain ⟨nl, hnl, ia, hia, h1, h2, h3⟩ := hmem
    have hlev := (ok.mem_levelDict nl hnl _ (List.of_mem_zip hia).1).2
    rw [h2, hi, (alike nm.2).ffc] at hlev
    refine ⟨hlev, r.ctrlN e he, ?_⟩
    have hnl' := hnl
    rw [ok.cont] at hnl'
    have hnamed := Container.level_named (hu.congr alike) hnl'
    rw [modulesNamed_congr (fun j => (alike j).ffc)] at hnamed
    obtain ⟨c, hcc⟩ := Option.isSome_iff_exists.mp (r.named nl hnl)
    obtain ⟨k, hk, hke⟩ := List.getElem_of_mem hia
    have hk2 : k < nl.2.length ∧ k < (((dictGet? control nl.1).map Ctrl.acts).getD []).length := by
      simpa using hk
    simp only [List.getElem_zip] at hke
    rw [h1, hn] at hcc hnamed
    refine ⟨c, k, hcc, ?_, ?_⟩
    · rw [← hnamed, List.getElem?_eq_getElem hk2.1, ← hi, ← h2, ← hke]
    · have : c.acts = ((dictGet? control nl.1).map Ctrl.acts).getD [] := by rw [h1, hn, hcc]; rfl
      rw [this, List.getElem?_eq_getElem hk2.2, ← h3, ← hke]
  have hX : e ∈ trX → (h nm.2).ffc = .flex := by
    intro he
    have hmem : (e.name, e.id) ∈ (runG g₀ ops).flexList :=
      r.flexL ▸ List.mem_map_of_mem (f := fun e : Event => (e.name, e.id)) he
    have := (ok.mem_flexList hmem).2
    rwa [hi, (alike nm.2).ffc] at this
  refine ⟨e, he, hn, hi, hst, fun hf => ?_, fun hf => ?_⟩
  · rcases List.mem_append.mp he with he | he
    · rcases List.mem_append.mp he with he | he
      · exact (hF he).2
      · rw [(hC he).1] at hf; simp at hf
    · rw [hX he] at hf; simp at hf
  · rcases List.mem_append.mp he with he | he
    · rcases List.mem_append.mp he with he | he
      · rw [(hF he).1] at hf; simp at hf
      · exact (hC he).2
    · rw [hX he] at hf; simp at hf

/-! ### C33: the container -/

/-- C33: the list view of the container has every module exactly as often as it was passed. -/
theorem C33_list_view (h : Heap) (mods : List (String × Nat)) :
    ((Container.build h mods).fullList).Perm (mods.map Prod.snd) := Container.fullList_perm h mods

/-- C33: each module is found in the category given by its type and direction, under its name, at the index that is
    the number of earlier modules of that name and category. -/
theorem C33_place (h : Heap) (pre post : List (String × Nat)) (name : String) (i : Nat) :
    ∃ l, dictGet? ((Container.build h (pre ++ (name, i) :: post)).cat (h i).ffc (h i).ss) name = some l ∧
      l[(pre.filter fun nm => decide (nm.1 = name ∧ (h nm.2).ffc = (h i).ffc ∧ (h nm.2).ss = (h i).ss)).length]? =
        some i := by
  have hmem : i ∈ Container.idsOf h (pre ++ (name, i) :: post) (h i).ffc (h i).ss name := by
    simp only [Container.idsOf, List.mem_map, List.mem_filter]
    exact ⟨(name, i), ⟨by simp, by simp [Container.inCat]⟩, rfl⟩
  refine ⟨Container.idsOf h (pre ++ (name, i) :: post) (h i).ffc (h i).ss name, ?_, ?_⟩
  · rw [Container.cat_get, if_neg (List.ne_nil_of_mem hmem)]
  · have : (fun nm : String × Nat => Container.inCat h (h i).ffc (h i).ss nm && decide (nm.1 = name)) =
        fun nm => decide (nm.1 = name ∧ (h nm.2).ffc = (h i).ffc ∧ (h nm.2).ss = (h i).ss) := by
      funext nm
      simp only [Container.inCat]
      rw [← Bool.decide_and]
      exact decide_eq_decide.mpr And.comm
    unfold Container.idsOf
    rw [this, List.filter_append, List.map_append, List.getElem?_append_right (by simp)]
    simp

/-- C33: nothing else is in the container, in any category. -/
theorem C33_nothing_else (h : Heap) (mods : List (String × Nat)) (f : FFC) (s : SS) (name : String) (l : List Nat)
    (hg : dictGet? ((Container.build h mods).cat f s) name = some l) (i : Nat) (hi : i ∈ l) :
    (name, i) ∈ mods ∧ (h i).ffc = f ∧ (h i).ss = s := by
  rw [Container.cat_get] at hg
  split at hg
  · simp at hg
  · simp only [Option.some.injEq] at hg
    subst hg
    simp only [Container.idsOf, Container.inCat, List.mem_map, List.mem_filter, Bool.and_eq_true, decide_eq_true_eq]
      at hi
    obtain ⟨nm, ⟨hm, ⟨h1, h2⟩, rfl⟩, rfl⟩ := hi
    exact ⟨hm, h1, h2⟩

/-- C33: and runs and resets never change it. -/
theorem C33_kept (hc : Microgrid.create h mods sh tr = .ok g₀) (ops : List GOp) :
    (runG g₀ ops).cont = Container.build h mods :=
  (runG_fixed g₀ ops).cont.trans (Microgrid.create_ok hc).2.1

/-! ### C41: trajectories -/

/-- C41: the constructor rejects a trajectory function whose first answer leaves the range of the microgrid. -/
theorem C41_rejects_bad_trajectory (h : Heap) (mods : List (String × Nat)) (sh : Option Shaper)
    (f : Nat → Nat → Option Nat → Except Err (Nat × Nat)) (g : Microgrid)
    (hc : Microgrid.create h mods sh none = .ok g) (i fin : Nat)
    (hf : f 0 g.initialStep g.finalStep = .ok (i, fin)) :
    (Microgrid.create h mods sh (some f)).isOk = true ↔
      g.initialStep ≤ i ∧ i < fin ∧ ∀ F, g.finalStep = some F → fin ≤ F := by
  rw [Microgrid.create_with hc]
  unfold Microgrid.checkTrajectory
  simp only [hf]
  split
  · simp [Except.isOk, Except.toBool]; omega
  split
  · rename_i hF
    obtain ⟨F, e, hF⟩ := Microgrid.exceeds_iff.mp hF
    simp only [Except.isOk, Except.toBool, Bool.false_eq_true, false_iff, not_and, not_forall]
    exact fun _ _ => ⟨F, e, by omega⟩
  rename_i hF
  have hF' : ∀ F, g.finalStep = some F → fin ≤ F := fun F e => by
    by_contra h0
    exact hF (Microgrid.exceeds_iff.mpr ⟨F, e, by omega⟩)
  split
  · simp [Except.isOk, Except.toBool]; omega
  · simp only [Except.isOk, Except.toBool, true_iff]
    exact ⟨by omega, by omega, hF'⟩

/-- ... and the error is `ValueError`. -/
theorem C41_rejection_is_ValueError (h : Heap) (mods : List (String × Nat)) (sh : Option Shaper)
    (f : Nat → Nat → Option Nat → Except Err (Nat × Nat)) (g : Microgrid)
    (hc : Microgrid.create h mods sh none = .ok g) (i fin : Nat)
    (hf : f 0 g.initialStep g.finalStep = .ok (i, fin))
    (hbad : i < g.initialStep ∨ fin ≤ i ∨ ∃ F, g.finalStep = some F ∧ F < fin) :
    Microgrid.create h mods sh (some f) = .error .value := by
  rw [Microgrid.create_with hc]
  unfold Microgrid.checkTrajectory
  simp only [hf]
  split
  · rfl
  split
  · rfl
  rename_i hF
  split
  · rfl
  · rcases hbad with h1 | h1 | h1
    · omega
    · omega
    · exact absurd (Microgrid.exceeds_iff.mpr h1) hF

/-- C41, for trajectory functions that stay in range at every call: every reset starts an episode inside the range of
    the microgrid.  Missing: functions that leave the range at a later call, which the constructor cannot detect
    (`C41_later_calls_unchecked`). -/
theorem C41_episode_in_range_partial {f : Nat → Nat → Option Nat → Except Err (Nat × Nat)}
    (hc : Microgrid.create h mods sh (some f) = .ok g₀)
    (hl : ∀ nm ∈ mods, LibraryModule (h nm.2)) (hid : (mods.map Prod.snd).Nodup) (hd : DistinctNames h mods)
    (hrange : ∀ k a b i fin, f k a (some b) = .ok (i, fin) → a ≤ i ∧ i < fin ∧ fin ≤ b)
    (ops : List GOp) (g' : Microgrid) (hr : (runG g₀ ops).reset = (g', .ok ())) :
    ∃ F₀ I F, g₀.finalStep = some F₀ ∧ g₀.initialStep ≤ I ∧ I < F ∧ F ≤ F₀ ∧
      ∀ nm ∈ mods, (g'.heap nm.2).initialStep = I ∧ (g'.heap nm.2).currentStep = I ∧
        ∀ x, (g'.heap nm.2).finalStep? = some x → x = F := by
  obtain ⟨ok, alike, -, -⟩ := user_grid hc hl ops
  have htr : g₀.trajectory = some f := (Microgrid.create_ok hc).2.2.2.1
  have hfx := runG_fixed g₀ ops
  obtain ⟨F₀, hF₀, -⟩ := created_episode hc hd (ok.reset_nonempty (hfx.trajectory.trans htr) hr)
  obtain ⟨hcur, -, -, hlim⟩ := ok.reset_modules hid (hd.congr alike) hr
  obtain ⟨I, F, hf, hlim⟩ := hlim f (hfx.trajectory.trans htr)
  rw [hfx.initialStep, hfx.finalStep, hF₀] at hf
  obtain ⟨h1, h2, h3⟩ := hrange _ _ _ _ _ hf
  refine ⟨F₀, I, F, hF₀, h1, h2, h3, fun nm hm => ⟨(hlim nm hm).1, (hcur nm hm).1.trans (hlim nm hm).1, fun x hx => ?_⟩⟩
  exact ((hlim nm hm).2.2 (by omega) x hx).1

/-! ### C47: failed runs -/

/-- C47: what does hold when a control is missing: logs, trajectory counter, configuration, and all flexible modules
    are unchanged.  Missing: the fixed modules and the controllable modules before the missing one have taken their
    step (`C47_not_atomic`). -/
theorem C47_missing_control_partial (hc : Microgrid.create h mods sh tr = .ok g₀)
    (hl : ∀ nm ∈ mods, LibraryModule (h nm.2)) (ops : List GOp) (control : List (String × Ctrl)) (n : Bool)
    (nm : String × Nat) (hm : nm ∈ mods) (hf : (h nm.2).ffc = .controllable)
    (hmiss : dictGet? control nm.1 = none) :
    ((runG g₀ ops).run control n).1.balanceLog = (runG g₀ ops).balanceLog ∧
      ((runG g₀ ops).run control n).1.otherLog = (runG g₀ ops).otherLog ∧
      ((runG g₀ ops).run control n).1.calls = (runG g₀ ops).calls ∧
      ((runG g₀ ops).run control n).1.cont = (runG g₀ ops).cont ∧
      ∀ j, (h j).ffc = .flex → ((runG g₀ ops).run control n).1.heap j = (runG g₀ ops).heap j := by
  obtain ⟨ok, alike, -, -⟩ := user_grid hc hl ops
  obtain ⟨h1, h2, h3, h4⟩ := ok.missing_effect (n := n) hm ((alike nm.2).ffc.trans hf) hmiss
  exact ⟨h1, h2, h3, ((runG g₀ ops).run_fixed control n).cont, fun j hj => h4 j ((alike j).ffc.trans hj)⟩

end

/-! ### Examples and counterexamples -/

/-- The example microgrid has episodes of three steps; `done` comes with the third run. -/
example : let g₁ := (runG demoGrid [.run demoControl false, .run demoControl false]).reset.1
    let r₁ := g₁.run demoControl false
    let r₂ := r₁.1.run demoControl₂ false
    let r₃ := r₂.1.run demoControl false
    ((runG demoGrid [.run demoControl false, .run demoControl false]).reset.2.isOk,
      [r₁, r₂, r₃].map fun r => r.2.toOption.map (·.done)) = (true, [some false, some false, some true]) := by
  decide +kernel

/-- Its controls supply every controllable module. -/
theorem demo_supplies : Supplies demoHeap demoMods demoControl := by
  intro nm hm hf
  have hb : ∀ nm ∈ demoMods, (demoHeap nm.2).ffc = .controllable → (match dictGet? demoControl nm.1 with
    | some c => decide ((modulesNamed demoHeap demoMods .controllable nm.1).length ≤ c.acts.length)
    | none => false) = true := by decide +kernel
  have := hb nm hm hf
  split at this
  · rename_i c hc
    exact ⟨c, hc, by simpa using this⟩
  · simp at this

example : LockStep demoMods demoGrid demoGrid.initialStep := by
  unfold LockStep
  decide +kernel
example : ((runG demoGrid [.run demoControl false, .reset, .run demoControl false, .run demoControl false]).currentStep
    ).toOption = some 2 := by decide +kernel

/-- All calls succeed. -/
def callsOk : Microgrid → List GOp → Bool
  | _, [] => true
  | g, .run c n :: ops => (g.run c n).2.isOk && callsOk (g.run c n).1 ops
  | g, .reset :: ops => g.reset.2.isOk && callsOk g.reset.1 ops

theorem callsOk_calls {g : Microgrid} {ops : List GOp} (h : callsOk g ops = true) : Calls g ops (runG g ops) := by
  induction ops generalizing g with
  | nil => exact .nil g
  | cons op ops ih =>
    cases op with
    | run c n =>
      simp only [callsOk, Bool.and_eq_true] at h
      have h2 := ih h.2
      cases hr : g.run c n with
      | mk g₁ r =>
        rw [hr] at h h2
        cases r with
        | error e => simp [Except.isOk, Except.toBool] at h
        | ok o =>
          have : runG g (.run c n :: ops) = runG g₁ ops := by simp [runG, GOp.apply, hr]
          rw [this]
          exact .run hr h2
    | reset =>
      simp only [callsOk, Bool.and_eq_true] at h
      have h2 := ih h.2
      cases hr : g.reset with
      | mk g₁ r =>
        rw [hr] at h h2
        cases r with
        | error e => simp [Except.isOk, Except.toBool] at h
        | ok o =>
          have : runG g (.reset :: ops) = runG g₁ ops := by simp [runG, GOp.apply, hr]
          rw [this]
          exact .reset hr h2

example : Calls demoGrid [.run demoControl false, .reset, .run demoControl₂ true]
    (runG demoGrid [.run demoControl false, .reset, .run demoControl₂ true]) := callsOk_calls (by decide +kernel)

/-- A genset and a battery with the same name. -/
def clashMods : List (String × Nat) := [("load", 0), ("storage", 2), ("storage", 3), ("balancing", 5)]

/-- The microgrid built from them. -/
def clashGrid : Microgrid := okGrid (Microgrid.create demoHeap clashMods none none)

/-- Finding, C34: the claim fails for a name shared by modules of different direction.  The microgrid is accepted, a run
    with two actions under the shared name succeeds, and the genset takes no step at all. -/
theorem C34_not_for_all_names : Microgrid.create demoHeap clashMods none none = .ok clashGrid ∧
    modulesNamed demoHeap clashMods .controllable "storage" = [2, 3] ∧
    (clashGrid.run [("storage", .seq [.num 10, .arr [1, 20]])] false).2.isOk = true ∧
    ((clashGrid.run [("storage", .seq [.num 10, .arr [1, 20]])] false).1.heap 3).currentStep = 0 ∧
    ((clashGrid.run [("storage", .seq [.num 10, .arr [1, 20]])] false).1.heap 2).currentStep = 1 :=
  ⟨okGrid_eq (by decide +kernel), by decide +kernel⟩

/-- A load whose episode ends before its data, and a balancing module. -/
def shortHeap : Heap
  | 0 => okModule (mkLoad [60, 40, 20] .oracle 2 0 2 false)
  | _ => mkBalancing false 0 10 5

/-- Answers `(0, 2)` when validated, `(1, 3)` later. -/
def laterTrajectory : Nat → Nat → Option Nat → Except Err (Nat × Nat) := fun k _ _ => .ok (if k = 0 then (0, 2) else (1, 3))

/-- The microgrid with that trajectory. -/
def laterGrid : Microgrid := okGrid (Microgrid.create shortHeap [("load", 0), ("balancing", 1)] none (some laterTrajectory))

/-- Finding, C41: later answers of the trajectory function are not checked.  This microgrid has final step 2, but its
    first reset starts an episode that ends at step 3. -/
theorem C41_later_calls_unchecked :
    Microgrid.create shortHeap [("load", 0), ("balancing", 1)] none (some laterTrajectory) = .ok laterGrid ∧
    laterGrid.finalStep = some 2 ∧ laterGrid.reset.2.isOk = true ∧ (laterGrid.reset.1.heap 0).finalStep? = some 3 :=
  ⟨okGrid_eq (by decide +kernel), by decide +kernel⟩

/-- A trajectory function that stays in range at every call. -/
example : ∃ f : Nat → Nat → Option Nat → Except Err (Nat × Nat),
    (∀ k a b i fin, f k a (some b) = .ok (i, fin) → a ≤ i ∧ i < fin ∧ fin ≤ b) ∧
    (Microgrid.create demoHeap demoMods none (some f)).isOk = true :=
  ⟨fun k a b => match b with
    | some b => if a + 1 < b then .ok (if k % 2 = 0 then (a, b) else (a + 1, b)) else .error .value
    | none => .error .value, by
    intro k a b i fin h
    simp only at h
    split at h
    · split at h <;> simp only [Except.ok.injEq, Prod.mk.injEq] at h <;> omega
    · simp at h, by decide +kernel⟩

/-- Finding, C47: a run that raises because controls are missing is not without effect; the load has taken its step. -/
theorem C47_not_atomic : (demoGrid.run [] false).2.toOption.isNone = true ∧
    (demoGrid.heap 0).currentStep = 0 ∧ ((demoGrid.run [] false).1.heap 0).currentStep = 1 := by decide +kernel

example : dictGet? ((Container.build demoHeap (demoMods ++ [("load", 7)])).cat .fixed .sinks) "load" = some [0] := by
  decide +kernel

end Pymgrid
