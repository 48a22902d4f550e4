import Verif.Lemmas.GridRun

set_option autoImplicit false

/-! Step counters and episode ends. -/

namespace Pymgrid

namespace Module

/-- Whether the module reports the end of its series. -/
def doneNow (m : Module) : Bool := m.finalStep?.any fun f => decide (f ≤ m.currentStep + 1)

theorem update_done {m m' : Module} {e : Option ℚ} {d : Dir} {u : UpdateOut} (h : m.update e d = (m', .ok u)) :
    u.done = m.doneNow := by
  unfold update at h
  unfold doneNow finalStep?
  split at h
  · rename_i b hk
    simp only [hk, Option.any_none]
    simp only [Prod.mk.injEq] at h
    obtain ⟨-, h⟩ := h
    unfold Battery.update at h
    split at h
    · simp at h
    split at h
    all_goals
      simp only at h
      split at h
      · simp at h
      split at h
      · simp at h
      · simp only [Except.ok.injEq] at h; subst h; rfl
  · rename_i g hk
    simp only [hk, Option.any_none]
    simp only [Prod.mk.injEq] at h
    obtain ⟨-, h⟩ := h
    unfold Genset.update at h
    repeat' split at h
    all_goals first | (simp at h; done) | (simp only [Except.ok.injEq] at h; subst h; rfl)
  · rename_i p t hk
    simp only [hk, Option.any_some]
    simp only [Prod.mk.injEq] at h
    obtain ⟨-, h⟩ := h
    unfold gridUpdate at h
    repeat' split at h
    all_goals first | (simp at h; done) | (simp only [Except.ok.injEq] at h; subst h; rfl)
  · rename_i t hk
    simp only [hk, Option.any_some]
    simp only [Prod.mk.injEq] at h
    obtain ⟨-, h⟩ := h
    unfold loadUpdate at h
    repeat' split at h
    all_goals first | (simp at h; done) | (simp only [Except.ok.injEq] at h; subst h; rfl)
  · rename_i t hk
    simp only [hk, Option.any_some]
    simp only [Prod.mk.injEq] at h
    obtain ⟨-, h⟩ := h
    unfold renewableUpdate at h
    repeat' split at h
    all_goals first | (simp at h; done) | (simp only [Except.ok.injEq] at h; subst h; rfl)
  · rename_i u' hk
    simp only [hk, Option.any_none]
    simp only [Prod.mk.injEq] at h
    obtain ⟨-, h⟩ := h
    unfold balancingUpdate at h
    split at h
    · simp at h
    split at h
    all_goals
      simp only at h
      split at h
      · simp at h
      · simp only [Except.ok.injEq] at h; subst h; rfl

theorem unnormalizedStep_done {m m' : Module} {q : ℚ} {u : UpdateOut} (h : m.unnormalizedStep q = (m', .ok u)) :
    u.done = m.doneNow := by
  have src : ∀ x, m.asSource x = (m', .ok u) → u.done = m.doneNow := by
    intro x h
    unfold asSource at h
    repeat' split at h
    all_goals first | exact update_done h | simp at h
  have snk : ∀ x, m.asSink x = (m', .ok u) → u.done = m.doneNow := by
    intro x h
    unfold asSink at h
    repeat' split at h
    all_goals first | exact update_done h | simp at h
  unfold unnormalizedStep at h
  repeat' split at h
  all_goals first | exact src _ h | exact snk _ h | simp at h

theorem step_done {m m' : Module} {a : Act} {n : Bool} {o : StepOut} (h : m.step a n = (m', .ok o)) :
    o.done = m.doneNow := by
  obtain ⟨m₀, q, -, he, hm⟩ := step_split h
  obtain ⟨pre, row, m₁, u, -, hu, -, -, -, -, hd, -⟩ := stepEnergy_inv he
  rw [hd, unnormalizedStep_done hu]
  rcases hm with ⟨-, rfl⟩ | ⟨g, g', goal, rest, hk, -, -, -, -, rfl⟩
  · rfl
  · simp [doneNow, finalStep?, hk]

end Module

section
variable {mods : List (String × Nat)} {g g' : Microgrid} {control : List (String × Ctrl)} {n : Bool} {o : RunOut}
  {trF trC trX : List Event} {h₁ h₂ : Heap} {ci : CostInfo}

theorem GridOK.events_ids (h : GridOK mods g) (hu : ClearNames g.heap mods) (hs : Supplies g.heap mods control)
    (r : RunInfo g control n g' o trF trC trX h₁ h₂ ci) :
    ((trF ++ trC ++ trX).map Event.id).Perm (mods.map Prod.snd) := by
  have := (h.events_perm hu hs r).map Prod.snd
  rwa [List.map_map] at this

/-- The step that a module takes in a run. -/
theorem GridOK.run_steps (h : GridOK mods g) (hid : (mods.map Prod.snd).Nodup) (hu : ClearNames g.heap mods)
    (hs : Supplies g.heap mods control) (r : RunInfo g control n g' o trF trC trX h₁ h₂ ci) {nm : String × Nat}
    (hm : nm ∈ mods) : ∃ e ∈ trF ++ trC ++ trX, e.name = nm.1 ∧ e.id = nm.2 ∧
      (g.heap nm.2).step e.act e.normalized = (g'.heap nm.2, .ok e.out) := by
  have hp := h.events_perm hu hs r
  obtain ⟨e, he, hee⟩ := List.mem_map.mp (hp.symm.subset hm)
  have hn := (h.events_ids hu hs r).nodup_iff.mpr hid
  have := r.exec.once hn he
  have h1 : e.name = nm.1 := congrArg Prod.fst hee
  have h2 : e.id = nm.2 := congrArg Prod.snd hee
  rw [h2] at this
  exact ⟨e, he, h1, h2, this⟩

/-- What all modules do in a run. -/
theorem GridOK.run_modules (h : GridOK mods g) (hid : (mods.map Prod.snd).Nodup) (hu : ClearNames g.heap mods)
    (hs : Supplies g.heap mods control) (hr : g.run control n = (g', .ok o)) :
    (∀ nm ∈ mods, (g'.heap nm.2).currentStep = (g.heap nm.2).currentStep + 1 ∧
      (g'.heap nm.2).initialStep = (g.heap nm.2).initialStep ∧
      (g'.heap nm.2).finalStep? = (g.heap nm.2).finalStep?) ∧
    o.done = mods.any (fun nm => (g.heap nm.2).doneNow) := by
  obtain ⟨trF, trC, trX, h₁, h₂, ci, r⟩ := Microgrid.run_ok hr
  refine ⟨?_, ?_⟩
  · intro nm hm
    obtain ⟨e, -, -, -, he⟩ := h.run_steps hid hu hs r hm
    obtain ⟨hf, hsh, hc, -⟩ := Module.step_ok he
    exact ⟨hc, hf.init, hsh.final⟩
  · rw [r.done, StepAcc.run_done]
    simp only [Bool.false_or]
    rw [Bool.eq_iff_iff, List.any_eq_true, List.any_eq_true]
    have hn := (h.events_ids hu hs r).nodup_iff.mpr hid
    constructor
    · rintro ⟨e, he, hd⟩
      have hm := (h.events_perm hu hs r).subset (List.mem_map_of_mem (f := fun e : Event => (e.name, e.id)) he)
      refine ⟨_, hm, ?_⟩
      rw [← Module.step_done (r.exec.once hn he)]
      exact hd
    · rintro ⟨nm, hm, hd⟩
      obtain ⟨e, he, -, -, hst⟩ := h.run_steps hid hu hs r hm
      exact ⟨e, he, by rw [Module.step_done hst]; exact hd⟩

theorem GridOK.run_next (h : GridOK mods g) (hr : g.run control n = (g', .ok o)) : GridOK mods g' := by
  have := h.run control n
  rwa [hr] at this

theorem GridOK.reset_next (h : GridOK mods g) {r : Except Err Unit} (hr : g.reset = (g', r)) : GridOK mods g' := by
  have := h.reset
  rwa [hr] at this

/-- Names and suppliedness only depend on the classes of the modules. -/
theorem ClearNames.congr {h h' : Heap} (ha : ∀ j, (h j).Alike (h' j)) (hu : ClearNames h mods) : ClearNames h' mods := by
  intro x hx y hy hn hf
  rw [(ha x.2).ss, (ha y.2).ss]
  rw [(ha x.2).ffc, (ha y.2).ffc] at hf
  exact hu x hx y hy hn hf

theorem DistinctNames.congr {h h' : Heap} (ha : ∀ j, (h j).Alike (h' j)) (hu : DistinctNames h mods) :
    DistinctNames h' mods := by
  intro x hx y hy hn
  rw [(ha x.2).ss, (ha y.2).ss, (ha x.2).ffc, (ha y.2).ffc]
  exact hu x hx y hy hn

theorem Supplies.congr {h h' : Heap} (ha : ∀ j, (h j).Alike (h' j)) (hs : Supplies h mods control) :
    Supplies h' mods control := by
  intro nm hm hf
  rw [(ha nm.2).ffc] at hf
  obtain ⟨c, h1, h2⟩ := hs nm hm hf
  exact ⟨c, h1, by rw [modulesNamed_congr fun j => (ha j).ffc]; exact h2⟩

theorem run_alike (hr : g.run control n = (g', .ok o)) (j : Nat) : (g.heap j).Alike (g'.heap j) := by
  have := kept_alike.toRespected.run g control n j
  rwa [hr] at this

theorem reset_alike {r : Except Err Unit} (hr : g.reset = (g', r)) (j : Nat) : (g.heap j).Alike (g'.heap j) := by
  have := kept_alike.reset' g j
  rwa [hr] at this

/-! ### Reset -/

theorem resetMany_ok {l : List Nat} {h h' : Heap} (hr : Microgrid.resetMany h l = (h', .ok ())) (hn : l.Nodup) :
    (∀ i ∈ l, ∃ obs, (h i).reset = (h' i, .ok obs)) ∧ ∀ i ∉ l, h' i = h i := by
  induction l generalizing h with
  | nil =>
    simp only [Microgrid.resetMany, Prod.mk.injEq, and_true] at hr
    subst hr
    simp
  | cons i l ih =>
    simp only [List.nodup_cons] at hn
    simp only [Microgrid.resetMany] at hr
    split at hr
    · simp at hr
    rename_i m' obs he
    obtain ⟨h1, h2⟩ := ih hr hn.2
    constructor
    · intro j hj
      rcases List.mem_cons.mp hj with rfl | hj
      · refine ⟨obs, ?_⟩
        rw [he, h2 _ hn.1]
        simp [Heap.set]
      · have hne : j ≠ i := fun e => hn.1 (e ▸ hj)
        simpa [Heap.set, hne] using h1 j hj
    · intro j hj
      simp only [List.mem_cons, not_or] at hj
      rw [h2 j hj.2]
      simp [Heap.set, hj.1]

theorem setInitialMany_get (l : List Nat) (v : Nat) (h : Heap) (i : Nat) :
    Microgrid.setInitialMany h v l i = if i ∈ l then { h i with initialStep := v } else h i := by
  induction l generalizing h with
  | nil => simp [Microgrid.setInitialMany]
  | cons j l ih =>
    simp only [Microgrid.setInitialMany, ih, Heap.set, List.mem_cons]
    by_cases hj : i = j
    · subst hj; simp
    · simp [hj]

theorem setFinalMany_ok {l : List Nat} {v : Int} {b : Bool} {h h' : Heap}
    (hr : Microgrid.setFinalMany h v b l = (h', .ok ())) (hn : l.Nodup) :
    (∀ i ∈ l, ∃ b, Microgrid.setFinalOne (h i) v = (h' i, .ok b)) ∧ ∀ i ∉ l, h' i = h i := by
  induction l generalizing h b with
  | nil =>
    simp only [Microgrid.setFinalMany, Prod.mk.injEq] at hr
    obtain ⟨rfl, -⟩ := hr
    simp
  | cons i l ih =>
    simp only [List.nodup_cons] at hn
    simp only [Microgrid.setFinalMany] at hr
    split at hr
    · simp at hr
    rename_i m' b' he
    obtain ⟨h1, h2⟩ := ih hr hn.2
    constructor
    · intro j hj
      rcases List.mem_cons.mp hj with rfl | hj
      · refine ⟨b', ?_⟩
        rw [he, h2 _ hn.1]
        simp [Heap.set]
      · have hne : j ≠ i := fun e => hn.1 (e ▸ hj)
        simpa [Heap.set, hne] using h1 j hj
    · intro j hj
      simp only [List.mem_cons, not_or] at hj
      rw [h2 j hj.2]
      simp [Heap.set, hj.1]

/-- A successful assignment of `final_step`. -/
theorem setFinalOne_ok {m m' : Module} {v : Int} {b : Bool} (h : Microgrid.setFinalOne m v = (m', .ok b)) :
    m'.initialStep = m.initialStep ∧ m'.currentStep = m.currentStep ∧ m'.logger = m.logger ∧
      (0 < v → ∀ f, m'.finalStep? = some f → (f : Int) = v ∧ m.initialStep < f) ∧
      (m'.finalStep? = none ↔ m.finalStep? = none) := by
  have key : ∀ (t : TS) (K : TS → Kind), (∀ t', ({ m with kind := K t' } : Module).finalStep? = some t'.finalStep) →
      m.kind = K t → ∀ (hh : (match t.setFinalStep m.initialStep v with
        | (t', .ok ()) => (({ m with kind := K t' } : Module), (Except.ok true : Except Err Bool))
        | (t', .error e) => ({ m with kind := K t' }, .error e)) = (m', .ok b)),
      m'.initialStep = m.initialStep ∧ m'.currentStep = m.currentStep ∧ m'.logger = m.logger ∧
      (0 < v → ∀ f, m'.finalStep? = some f → (f : Int) = v ∧ m.initialStep < f) ∧
      (m'.finalStep? = none ↔ m.finalStep? = none) := by
    intro t K hK hk hh
    split at hh
    · rename_i t' ht
      simp only [Prod.mk.injEq] at hh
      obtain ⟨rfl, -⟩ := hh
      refine ⟨rfl, rfl, rfl, ?_, ?_⟩
      · intro hv f hf
        rw [hK] at hf
        simp only [Option.some.injEq] at hf
        simp only [TS.setFinalStep, Prod.mk.injEq] at ht
        obtain ⟨rfl, hlt⟩ := ht
        have e : (if v ≤ 0 then t.rows.length else v.toNat) = v.toNat := if_neg (by omega)
        rw [e] at hf hlt
        split at hlt
        · simp at hlt
        · have hf' : v.toNat = f := hf
          exact ⟨by omega, by omega⟩
      · have : m.finalStep? = some t.finalStep := by have := hK t; rwa [← hk] at this
        simp [hK, this]
    · simp at hh
  unfold Microgrid.setFinalOne at h
  split at h
  · rename_i p t hk; exact key t (.grid p) (fun _ => rfl) hk h
  · rename_i t hk; exact key t .load (fun _ => rfl) hk h
  · rename_i t hk; exact key t .renewable (fun _ => rfl) hk h
  · rename_i h1 h2 h3
    simp only [Prod.mk.injEq] at h
    obtain ⟨rfl, -⟩ := h
    refine ⟨rfl, rfl, rfl, ?_, Iff.rfl⟩
    intro _ f hf
    unfold Module.finalStep? at hf
    split at hf
    · rename_i p t hk; exact absurd hk (h1 p t)
    · rename_i t hk; exact absurd hk (h2 t)
    · rename_i t hk; exact absurd hk (h3 t)
    · simp at hf

theorem GridOK.fullIds_perm (h : GridOK mods g) (hd : DistinctNames g.heap mods) :
    ((Container.toTuples g.cont.fullDict).map Prod.snd).Perm (mods.map Prod.snd) := by
  rw [h.cont]
  exact (Container.full_perm hd).map Prod.snd

/-- A successful reset. -/
theorem GridOK.reset_modules (h : GridOK mods g) (hid : (mods.map Prod.snd).Nodup) (hd : DistinctNames g.heap mods)
    (hr : g.reset = (g', .ok ())) :
    (∀ nm ∈ mods, (g'.heap nm.2).currentStep = (g'.heap nm.2).initialStep ∧ (g'.heap nm.2).logger = {}) ∧
    g'.balanceLog = {} ∧
    (g.trajectory = none → ∀ nm ∈ mods, (g'.heap nm.2).initialStep = (g.heap nm.2).initialStep ∧
      (g'.heap nm.2).finalStep? = (g.heap nm.2).finalStep?) ∧
    ∀ f, g.trajectory = some f → ∃ i fin, f g.calls g.initialStep g.finalStep = .ok (i, fin) ∧
      ∀ nm ∈ mods, (g'.heap nm.2).initialStep = i ∧
        ((g'.heap nm.2).finalStep? = none ↔ (g.heap nm.2).finalStep? = none) ∧
        (0 < fin → ∀ F, (g'.heap nm.2).finalStep? = some F → F = fin ∧ i < fin) := by
  unfold Microgrid.reset at hr
  split at hr
  · simp at hr
  rename_i g₁ ht
  split at hr
  · simp at hr
  rename_i h₁ hm
  simp only [Prod.mk.injEq, and_true] at hr
  subst hr
  have hp := h.fullIds_perm hd
  obtain ⟨r1, -⟩ := resetMany_ok hm (hp.nodup_iff.mpr hid)
  have hmod : ∀ nm ∈ mods, ∃ obs, (g₁.heap nm.2).reset = (h₁ nm.2, .ok obs) := fun nm hnm =>
    r1 _ (hp.symm.subset (List.mem_map_of_mem hnm))
  refine ⟨?_, rfl, ?_, ?_⟩
  · intro nm hnm
    obtain ⟨obs, ho⟩ := hmod nm hnm
    obtain ⟨hf, -, h1, h2⟩ := Module.reset_ok ho
    exact ⟨by rw [h1, hf.init], h2⟩
  · intro hn nm hnm
    obtain ⟨obs, ho⟩ := hmod nm hnm
    obtain ⟨hf, hs, -, -⟩ := Module.reset_ok ho
    simp only [Microgrid.setTrajectory, hn, Prod.mk.injEq, and_true] at ht
    subst ht
    exact ⟨hf.init, hs.final⟩
  · intro f hf
    simp only [Microgrid.setTrajectory, hf] at ht
    split at ht
    · simp at ht
    rename_i i fin hfe
    refine ⟨i, fin, hfe, ?_⟩
    simp only [Prod.mk.injEq] at ht
    obtain ⟨rfl, hok⟩ := ht
    have hfl : g.cont.fullList.Perm (mods.map Prod.snd) := by rw [h.cont]; exact Container.fullList_perm _ _
    have hnd : g.cont.fullList.Nodup := hfl.nodup_iff.mpr hid
    obtain ⟨f1, -⟩ := setFinalMany_ok (v := fin) (b := false) (h' := (Microgrid.setFinalMany
      (Microgrid.setInitialMany g.heap i g.cont.fullList) fin false g.cont.fullList).1) (Prod.ext rfl hok) hnd
    intro nm hnm
    have hin : nm.2 ∈ g.cont.fullList := hfl.symm.subset (List.mem_map_of_mem hnm)
    obtain ⟨b, hb⟩ := f1 _ hin
    obtain ⟨k1, -, -, k2, k3⟩ := setFinalOne_ok hb
    rw [setInitialMany_get, if_pos hin] at k1 k2 k3
    obtain ⟨obs, ho⟩ := hmod nm hnm
    obtain ⟨hfr, hs, -, -⟩ := Module.reset_ok ho
    simp only at hfr hs
    refine ⟨by rw [hfr.init]; exact k1, by rw [hs.final, k3]; rfl, ?_⟩
    intro hpos F hF
    rw [hs.final] at hF
    obtain ⟨e1, e2⟩ := k2 (by exact_mod_cast hpos) F hF
    simp only at e2
    exact ⟨by exact_mod_cast e1, by omega⟩

/-! ### Episodes -/

/-- All modules have the same episode limits. -/
def Episode (mods : List (String × Nat)) (g : Microgrid) (i f : Nat) : Prop :=
  (∀ nm ∈ mods, (g.heap nm.2).initialStep = i ∧ ∀ F, (g.heap nm.2).finalStep? = some F → F = f) ∧
    ∃ nm ∈ mods, (g.heap nm.2).finalStep? ≠ none

theorem Episode.done {i f c : Nat} (he : Episode mods g i f) (hl : LockStep mods g c) :
    mods.any (fun nm => (g.heap nm.2).doneNow) = decide (f ≤ c + 1) := by
  rw [Bool.eq_iff_iff, List.any_eq_true, decide_eq_true_eq]
  constructor
  · rintro ⟨nm, hm, hd⟩
    unfold Module.doneNow at hd
    rw [hl nm hm] at hd
    cases hF : (g.heap nm.2).finalStep? with
    | none => rw [hF] at hd; simp at hd
    | some F =>
      rw [hF] at hd
      simp only [Option.any_some, decide_eq_true_eq] at hd
      rw [← (he.1 nm hm).2 F hF]
      exact hd
  · intro hle
    obtain ⟨nm, hm, hne⟩ := he.2
    obtain ⟨F, hF⟩ := Option.ne_none_iff_exists'.mp hne
    refine ⟨nm, hm, ?_⟩
    unfold Module.doneNow
    rw [hl nm hm, hF, (he.1 nm hm).2 F hF]
    simpa using hle

theorem Runs.dones {cs : List (List (String × Ctrl) × Bool)} {os : List RunOut} {g' : Microgrid}
    (h : GridOK mods g) (hid : (mods.map Prod.snd).Nodup) (hu : ClearNames g.heap mods)
    (hr : Runs g cs os g') (hs : ∀ cn ∈ cs, Supplies g.heap mods cn.1) {i f c : Nat} (he : Episode mods g i f)
    (hl : LockStep mods g c) :
    (∀ j (hj : j < os.length), os[j].done = decide (f ≤ c + j + 1)) ∧ LockStep mods g' (c + cs.length) ∧
      Episode mods g' i f := by
  induction hr generalizing c with
  | nil g => exact ⟨by simp, by simpa using hl, he⟩
  | @cons g g₁ g' ctl n o cs os hrun ht ih =>
    have hs0 := hs (ctl, n) (by simp)
    obtain ⟨h1, h2⟩ := h.run_modules hid hu hs0 hrun
    have hal := run_alike hrun
    have hl' : LockStep mods g₁ (c + 1) := fun nm hm => by rw [(h1 nm hm).1, hl nm hm]
    have he' : Episode mods g₁ i f := by
      refine ⟨fun nm hm => ⟨by rw [(h1 nm hm).2.1]; exact (he.1 nm hm).1, ?_⟩, ?_⟩
      · intro F hF
        rw [(h1 nm hm).2.2] at hF
        exact (he.1 nm hm).2 F hF
      · obtain ⟨nm, hm, hne⟩ := he.2
        exact ⟨nm, hm, by rw [(h1 nm hm).2.2]; exact hne⟩
    obtain ⟨i1, i2, i3⟩ := ih (h.run_next hrun) (hu.congr hal) (fun cn hcn => (hs cn (by simp [hcn])).congr hal) he' hl'
    refine ⟨?_, ?_, i3⟩
    · intro j hj
      cases j with
      | zero => simp [h2, he.done hl]
      | succ j =>
        simp only [List.getElem_cons_succ]
        rw [i1 j (by simpa using hj)]
        congr 1
        rw [eq_iff_iff]
        constructor <;> intro <;> omega
    · intro nm hm
      rw [i2 nm hm]
      simp only [List.length_cons]; omega

theorem uniqueVal_ok {α : Type} [DecidableEq α] {l : List α} {x : α} (h : uniqueVal l = .ok x) :
    (∀ y ∈ l, y = x) ∧ l ≠ [] := by
  cases l with
  | nil => simp [uniqueVal] at h
  | cons y l =>
    simp only [uniqueVal] at h
    split at h
    · rename_i hall
      simp only [Except.ok.injEq] at h
      subst h
      simp only [List.all_eq_true, decide_eq_true_eq] at hall
      exact ⟨fun z hz => by rcases List.mem_cons.mp hz with rfl | hz; rfl; exact hall z hz, by simp⟩
    · simp at h

theorem uniqueVal_of {α : Type} [DecidableEq α] {l : List α} {x : α} (h : ∀ y ∈ l, y = x) (hne : l ≠ []) :
    uniqueVal l = .ok x := by
  cases l with
  | nil => simp at hne
  | cons y l =>
    have hy := h y (by simp)
    subst hy
    simp only [uniqueVal]
    rw [if_pos]
    simp only [List.all_eq_true, decide_eq_true_eq]
    exact fun z hz => h z (by simp [hz])

/-- With a trajectory function, microgrids without modules cannot be reset. -/
theorem GridOK.reset_nonempty {g' : Microgrid} (ok : GridOK mods g)
    {f : Nat → Nat → Option Nat → Except Err (Nat × Nat)} (htr : g.trajectory = some f)
    (hr : g.reset = (g', .ok ())) : mods ≠ [] := by
  rintro rfl
  have hcont : g.cont.fullList = [] := by rw [ok.cont]; rfl
  unfold Microgrid.reset Microgrid.setTrajectory at hr
  rw [htr] at hr
  simp only [hcont] at hr
  split at hr <;> rename_i he
  · simp at hr
  · split at he
    · simp at he
    · simp [Microgrid.setInitialMany, Microgrid.setFinalMany] at he

/-- Limits of a new microgrid. -/
theorem created_episode {h : Heap} {sh : Option Shaper}
    {tr : Option (Nat → Nat → Option Nat → Except Err (Nat × Nat))}
    (hc : Microgrid.create h mods sh tr = .ok g) (hd : DistinctNames h mods) (hne : mods ≠ []) :
    ∃ f, g.finalStep = some f ∧ Episode mods g g.initialStep f := by
  obtain ⟨hi, f, hf, hfin⟩ := Microgrid.create_some hc hne
  obtain ⟨rfl, hcont, -⟩ := Microgrid.create_ok hc
  have hp := (Container.full_perm hd).map Prod.snd
  refine ⟨f, hf, ?_, ?_⟩
  · intro nm hm
    have hin := hp.symm.subset (List.mem_map_of_mem (f := Prod.snd) hm)
    refine ⟨(uniqueVal_ok hi).1 _ (List.mem_map_of_mem (f := fun i => (g.heap i).initialStep) hin), ?_⟩
    intro F hF
    exact (uniqueVal_ok hfin).1 _ (List.mem_filterMap.mpr ⟨nm.2, hin, hF⟩)
  · obtain ⟨F, hF⟩ := List.exists_mem_of_ne_nil _ (uniqueVal_ok hfin).2
    obtain ⟨i, hi, hiF⟩ := List.mem_filterMap.mp hF
    obtain ⟨nm, hm, rfl⟩ := List.mem_map.mp (hp.subset hi)
    exact ⟨nm, hm, by rw [hiF]; simp⟩

/-- Limits are only changed by trajectories. -/
theorem limits_kept (htr : g.trajectory = none) (ops : List GOp) (j : Nat) :
    ((runG g ops).heap j).initialStep = (g.heap j).initialStep ∧
      ((runG g ops).heap j).finalStep? = (g.heap j).finalStep? := by
  have hP : Respected fun m m' => m'.initialStep = m.initialStep ∧ m'.finalStep? = m.finalStep? :=
    { refl := fun _ => ⟨rfl, rfl⟩
      trans := fun h h' => ⟨h'.1.trans h.1, h'.2.trans h.2⟩
      step := fun m a n => ⟨(Module.frame_step m a n).init, (Module.shape_step m a n).final⟩ }
  have hreset : ∀ (l : List Nat) (h : Heap) (j : Nat), ((Microgrid.resetMany h l).1 j).initialStep = (h j).initialStep ∧
      ((Microgrid.resetMany h l).1 j).finalStep? = (h j).finalStep? := by
    intro l
    induction l with
    | nil => intro h j; exact ⟨rfl, rfl⟩
    | cons i l ih =>
      intro h j
      have hs : ((h i).reset.1).initialStep = (h i).initialStep ∧ ((h i).reset.1).finalStep? = (h i).finalStep? :=
        ⟨(Module.frame_reset (h i)).init, (Module.shape_reset (h i)).final⟩
      simp only [Microgrid.resetMany]
      cases hr : (h i).reset with
      | mk m' r =>
        rw [hr] at hs
        have h1 := heapSet_rel (P := fun m m' => m'.initialStep = m.initialStep ∧ m'.finalStep? = m.finalStep?)
          hP.refl (h := h) (i := i) (m' := m') hs j
        cases r with
        | error e => exact h1
        | ok _ => exact hP.trans h1 (ih _ j)
  unfold runG
  induction ops generalizing g with
  | nil => exact ⟨rfl, rfl⟩
  | cons op ops ih =>
    have htr' : (op.apply g).trajectory = none := by
      cases op with
      | run c n => exact (g.run_fixed c n).trajectory.trans htr
      | reset => exact g.reset_fixed.trajectory.trans htr
    refine hP.trans ?_ (ih htr')
    cases op with
    | run c n => exact hP.run g c n j
    | reset =>
      simp only [GOp.apply, Microgrid.reset, Microgrid.setTrajectory, htr]
      have := hreset ((Container.toTuples g.cont.fullDict).map Prod.snd) g.heap j
      split
      · rename_i he; rw [he] at this; exact this
      · rename_i he; rw [he] at this; exact this

end

end Pymgrid
