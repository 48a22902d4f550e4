import Verif.Spec.GridSetters
import Verif.Lemmas.Sync
import Verif.Lemmas.RBC
import Verif.Lemmas.Setters
import Verif.Lemmas.Serialize
import Verif.Lemmas.Planner
import Verif.Lemmas.NormalizedRun

set_option autoImplicit false

/-! Helper lemmas about the setters of microgrids. -/

namespace Pymgrid

open Module

/-! ### The range of steps -/

theorem Microgrid.setInitialStep_heap (g : Microgrid) (v : Nat) :
    (g.setInitialStep v).1.heap = Microgrid.setInitialMany g.heap v g.cont.fullList := by
  unfold Microgrid.setInitialStep
  split
  · rename_i h
    rw [List.isEmpty_iff.mp h]
    rfl
  · simp only
    split <;> rfl

theorem Microgrid.setFinalStep_heap (g : Microgrid) (v : Int) :
    (g.setFinalStep v).1.heap = (Microgrid.setFinalMany g.heap v false g.cont.fullList).1 := by
  unfold Microgrid.setFinalStep
  split
  · rename_i e; rw [e]
  · rename_i e; rw [e]; split <;> rfl

/-- The fields that no user operation changes. -/
structure SameGrid (g g' : Microgrid) : Prop where
  cont : g'.cont = g.cont
  shaper : g'.shaper = g.shaper
  trajectory : g'.trajectory = g.trajectory

theorem SameGrid.refl (g : Microgrid) : SameGrid g g := ⟨rfl, rfl, rfl⟩

theorem SameGrid.trans {a b c : Microgrid} (h : SameGrid a b) (h' : SameGrid b c) : SameGrid a c :=
  ⟨h'.cont.trans h.cont, h'.shaper.trans h.shaper, h'.trajectory.trans h.trajectory⟩

theorem UOp.same (g : Microgrid) (op : UOp) : SameGrid g (op.apply g) := by
  cases op with
  | call op => have := runG_fixed g [op]; exact ⟨this.cont, this.shaper, this.trajectory⟩
  | setInitial v =>
    simp only [UOp.apply, Microgrid.setInitialStep]
    split
    · exact ⟨rfl, rfl, rfl⟩
    · split <;> exact ⟨rfl, rfl, rfl⟩
  | setFinal v =>
    simp only [UOp.apply, Microgrid.setFinalStep]
    split
    · exact ⟨rfl, rfl, rfl⟩
    · split <;> exact ⟨rfl, rfl, rfl⟩

theorem runU_same (g : Microgrid) (ops : List UOp) : SameGrid g (runU g ops) := by
  unfold runU
  induction ops generalizing g with
  | nil => exact .refl g
  | cons op ops ih => exact (op.same g).trans (ih _)

theorem Kept.uop {P : Module → Module → Prop} (hP : Kept P) (g : Microgrid) (op : UOp) (j : Nat) :
    P (g.heap j) ((op.apply g).heap j) := by
  cases op with
  | call op => exact hP.runG g [op] j
  | setInitial v => simp only [UOp.apply, Microgrid.setInitialStep_heap]; exact hP.setInitialMany _ _ _ _
  | setFinal v => simp only [UOp.apply, Microgrid.setFinalStep_heap]; exact hP.setFinalMany _ _ _ _ _

theorem Kept.runU {P : Module → Module → Prop} (hP : Kept P) (g : Microgrid) (ops : List UOp) (j : Nat) :
    P (g.heap j) ((runU g ops).heap j) := by
  unfold Pymgrid.runU
  induction ops generalizing g with
  | nil => exact hP.refl _
  | cons op ops ih => exact hP.trans (hP.uop g op j) (ih _)

theorem GridOK.runU {mods : List (String × Nat)} {g : Microgrid} (h : GridOK mods g) (ops : List UOp) :
    GridOK mods (runU g ops) :=
  ⟨by
    rw [(runU_same g ops).cont, h.cont]
    exact (Container.build_congr fun nm _ => ⟨(kept_alike.runU g ops nm.2).ffc, (kept_alike.runU g ops nm.2).ss⟩).symm,
   fun nm hm => kept_wf.runU g ops nm.2 (h.wf nm hm)⟩

theorem runU_snoc (g : Microgrid) (ops : List UOp) (op : UOp) : runU g (ops ++ [op]) = op.apply (runU g ops) := by
  simp [runU]

section
variable {mods : List (String × Nat)} {g : Microgrid}

theorem GridOK.setInitial (ok : GridOK mods g) (hd : DistinctNames g.heap mods) (hne : mods ≠ []) (v : Nat) :
    ∃ g', g.setInitialStep v = (g', .ok ()) ∧ g'.initialStep = v ∧ g'.finalStep = g.finalStep ∧
      g'.balanceLog = g.balanceLog ∧
      ∀ nm ∈ mods, g'.heap nm.2 = { g.heap nm.2 with initialStep := v } := by
  have hfl : g.cont.fullList.Perm (mods.map Prod.snd) := by rw [ok.cont]; exact Container.fullList_perm _ _
  have hget : ∀ nm ∈ mods, Microgrid.setInitialMany g.heap v g.cont.fullList nm.2 = { g.heap nm.2 with initialStep := v } := by
    intro nm hm
    rw [setInitialMany_get, if_pos (hfl.symm.subset (List.mem_map_of_mem hm))]
  have hu : uniqueVal ((Container.toTuples g.cont.fullDict).map fun ni =>
      (Microgrid.setInitialMany g.heap v g.cont.fullList ni.2).initialStep) = .ok v := by
    have hp := ok.fullIds_perm hd
    apply uniqueVal_of
    · intro y hy
      obtain ⟨ni, hni, rfl⟩ := List.mem_map.mp hy
      obtain ⟨nm, hm, e⟩ := List.mem_map.mp (hp.subset (List.mem_map_of_mem (f := Prod.snd) hni))
      rw [← e, hget nm hm]
    · intro h0
      have h1 := List.map_eq_nil_iff.mp h0
      rw [h1] at hp
      exact hne (List.map_eq_nil_iff.mp (List.perm_nil.mp hp.symm))
  refine ⟨{ g with heap := Microgrid.setInitialMany g.heap v g.cont.fullList, initialStep := v }, ?_, rfl, rfl, rfl, hget⟩
  have he : g.cont.fullList.isEmpty = false := by
    rw [List.isEmpty_eq_false_iff]
    intro h0
    rw [h0] at hfl
    exact hne (List.map_eq_nil_iff.mp (List.perm_nil.mp hfl.symm))
  simp [Microgrid.setInitialStep, hu, he]

theorem setFinalMany_total {l : List Nat} {v : Int} {b : Bool} {h : Heap} (hv : 0 < v)
    (hi : ∀ i ∈ l, ∀ f, (h i).finalStep? = some f → ((h i).initialStep : Int) < v)
    (hb : b = true ∨ ∃ i ∈ l, (h i).finalStep? ≠ none) :
    (Microgrid.setFinalMany h v b l).2 = .ok () := by
  induction l generalizing h b with
  | nil =>
    rcases hb with rfl | ⟨i, hi, -⟩
    · rfl
    · simp at hi
  | cons i l ih =>
    have key : ∃ b', (Microgrid.setFinalOne (h i) v).2 = .ok b' ∧ (b' = true ↔ (h i).finalStep? ≠ none) := by
      have h1 := hi i (by simp)
      unfold Microgrid.setFinalOne Module.finalStep? at *
      cases hk : (h i).kind <;> simp only [hk, TS.setFinalStep] at h1 ⊢
      all_goals first
        | exact ⟨false, rfl, by simp⟩
        | (have h2 := h1 _ rfl
           rw [if_neg (by omega : ¬ v ≤ 0), if_neg (by omega : ¬ v.toNat ≤ (h i).initialStep)]
           exact ⟨true, rfl, by simp⟩)
    obtain ⟨b', e, hb'⟩ := key
    simp only [Microgrid.setFinalMany]
    cases hr : Microgrid.setFinalOne (h i) v with
    | mk m' r =>
      rw [hr] at e
      simp only at e
      subst e
      simp only
      have hm := setFinalOne_ok hr
      apply ih
      · intro j hj f hf
        by_cases hji : j = i
        · subst hji
          simp only [Heap.set, if_true] at hf ⊢
          rw [hm.1]
          obtain ⟨F, hF⟩ : ∃ F, (h j).finalStep? = some F := by
            apply Option.ne_none_iff_exists'.mp
            intro h0
            rw [hm.2.2.2.2.mpr h0] at hf
            simp at hf
          exact hi j (by simp) F hF
        · simp only [Heap.set, if_neg hji] at hf ⊢
          exact hi j (by simp [hj]) f hf
      · rcases hb with rfl | ⟨j, hj, hne⟩
        · simp
        · by_cases hji : j = i
          · subst hji; simp [hb'.mpr hne]
          · rcases List.mem_cons.mp hj with rfl | hj
            · exact absurd rfl hji
            · exact .inr ⟨j, hj, by simpa [Heap.set, hji] using hne⟩

theorem setFinalOne_other {m m' : Module} {v : Int} {r : Except Err Bool} (h : Microgrid.setFinalOne m v = (m', r)) :
    m.SameButRange m' ∧ m'.initialStep = m.initialStep := by
  have key : ∀ (t : TS) (K : TS → Kind), (∀ t' f, ({ m with kind := K { t' with finalStep := f } } : Module).stateDict =
      ({ m with kind := K t' } : Module).stateDict) → m.kind = K t → ∀ (hh : (match t.setFinalStep m.initialStep v with
        | (t', .ok ()) => (({ m with kind := K t' } : Module), (Except.ok true : Except Err Bool))
        | (t', .error e) => ({ m with kind := K t' }, .error e)) = (m', r)),
      m.SameButRange m' ∧ m'.initialStep = m.initialStep := by
    intro t K hK hk hh
    have hm : m' = { m with kind := K (t.setFinalStep m.initialStep v).1 } := by
      split at hh <;> rename_i e <;> rw [e] <;> exact (congrArg Prod.fst hh).symm
    subst hm
    refine ⟨⟨rfl, rfl, ?_, rfl, rfl⟩, rfl⟩
    have := hK t (t.setFinalStep m.initialStep v).1.finalStep
    rw [← hk] at this
    exact this
  unfold Microgrid.setFinalOne at h
  split at h
  · rename_i p t hk; exact key t (.grid p) (fun _ _ => rfl) hk h
  · rename_i t hk; exact key t .load (fun _ _ => rfl) hk h
  · rename_i t hk; exact key t .renewable (fun _ _ => rfl) hk h
  · obtain ⟨rfl, -⟩ := Prod.mk.inj h
    exact ⟨⟨rfl, rfl, rfl, rfl, rfl⟩, rfl⟩

theorem GridOK.setFinal (ok : GridOK mods g) (hid : (mods.map Prod.snd).Nodup) (hd : DistinctNames g.heap mods) {v : Int}
    (hv : 0 < v) (hi : ∀ nm ∈ mods, ((g.heap nm.2).initialStep : Int) < v)
    (hser : ∃ nm ∈ mods, (g.heap nm.2).finalStep? ≠ none) :
    ∃ g', g.setFinalStep v = (g', .ok ()) ∧ g'.initialStep = g.initialStep ∧ g'.finalStep = some v.toNat ∧
      g'.balanceLog = g.balanceLog ∧
      ∀ nm ∈ mods, (g.heap nm.2).SameButRange (g'.heap nm.2) ∧ (g'.heap nm.2).initialStep = (g.heap nm.2).initialStep ∧
        ((g'.heap nm.2).finalStep? = none ↔ (g.heap nm.2).finalStep? = none) ∧
        ∀ F, (g'.heap nm.2).finalStep? = some F → F = v.toNat := by
  have hfl : g.cont.fullList.Perm (mods.map Prod.snd) := by rw [ok.cont]; exact Container.fullList_perm _ _
  have hnd : g.cont.fullList.Nodup := hfl.nodup_iff.mpr hid
  have htot := setFinalMany_total (l := g.cont.fullList) (b := false) (h := g.heap) hv
    (by
      intro i hil f _
      obtain ⟨nm, hm, rfl⟩ := List.mem_map.mp (hfl.subset hil)
      exact hi nm hm)
    (by
      obtain ⟨nm, hm, hne⟩ := hser
      exact .inr ⟨nm.2, hfl.symm.subset (List.mem_map_of_mem hm), hne⟩)
  cases hs : Microgrid.setFinalMany g.heap v false g.cont.fullList with
  | mk h' r =>
    rw [hs] at htot
    simp only at htot
    subst htot
    obtain ⟨h1, -⟩ := setFinalMany_ok hs hnd
    have key : ∀ nm ∈ mods, (g.heap nm.2).SameButRange (h' nm.2) ∧ (h' nm.2).initialStep = (g.heap nm.2).initialStep ∧
        ((h' nm.2).finalStep? = none ↔ (g.heap nm.2).finalStep? = none) ∧
        ∀ F, (h' nm.2).finalStep? = some F → F = v.toNat := by
      intro nm hm
      obtain ⟨b, hb⟩ := h1 nm.2 (hfl.symm.subset (List.mem_map_of_mem hm))
      have h2 := setFinalOne_ok hb
      have h3 := setFinalOne_other hb
      refine ⟨h3.1, h3.2, h2.2.2.2.2, fun F hF => ?_⟩
      have := (h2.2.2.2.1 hv F hF).1
      omega
    have hu : uniqueVal (((Container.toTuples g.cont.fullDict).map Prod.snd).filterMap fun i => (h' i).finalStep?) =
        .ok v.toNat := by
      have hp := ok.fullIds_perm hd
      apply uniqueVal_of
      · intro y hy
        obtain ⟨i, hin, hF⟩ := List.mem_filterMap.mp hy
        obtain ⟨nm, hm, rfl⟩ := List.mem_map.mp (hp.subset hin)
        exact (key nm hm).2.2.2 y hF
      · obtain ⟨nm, hm, hne⟩ := hser
        have hne' : (h' nm.2).finalStep? ≠ none := fun h0 => hne ((key nm hm).2.2.1.mp h0)
        obtain ⟨F, hF⟩ := Option.ne_none_iff_exists'.mp hne'
        exact List.ne_nil_of_mem (List.mem_filterMap.mpr ⟨nm.2, hp.symm.subset (List.mem_map_of_mem hm), hF⟩)
    refine ⟨{ g with heap := h', finalStep := some v.toNat }, ?_, rfl, rfl, rfl, key⟩
    simp only [Microgrid.setFinalStep, hs, hu]

end

/-! ### Forecasters -/

theorem Module.setForecaster_idem (m : Module) (k : FKind) (n : Nat) :
    (m.setForecaster k n).setForecaster k n = m.setForecaster k n := by
  cases hk : m.kind <;>
    simp only [Module.setForecaster, Module.putTS, hk, TS.setForecaster, TS.setHorizon, TS.obsSpace, TS.minObs, TS.maxObs]

theorem setForecasterMany_get (h : Heap) (k : Nat → FKind) (n : Nat) (l : List Nat) (j : Nat) :
    Microgrid.setForecasterMany h k n l j = if j ∈ l then (h j).setForecaster (k j) n else h j := by
  induction l generalizing h with
  | nil => simp [Microgrid.setForecasterMany]
  | cons i l ih =>
    rw [Microgrid.setForecasterMany, ih]
    by_cases hji : j = i
    · subst hji
      simp [Heap.set, Module.setForecaster_idem]
    · simp [Heap.set, hji]

/-- Change the modules of a heap one by one. -/
def Heap.mapIds (φ : Nat → Module → Module) (h : Heap) : Heap := fun i => φ i (h i)

theorem Heap.mapIds_set (φ : Nat → Module → Module) (h : Heap) (i : Nat) (m : Module) :
    (Heap.mapIds φ h).set i (φ i m) = Heap.mapIds φ (h.set i m) := by
  funext j
  simp only [Heap.set, Heap.mapIds]
  split
  · rename_i e; rw [e]
  · rfl

theorem setInitialMany_map {φ : Nat → Module → Module}
    (hi : ∀ i m v, ({ φ i m with initialStep := v } : Module) = φ i { m with initialStep := v }) (h : Heap) (v : Nat)
    (l : List Nat) : Microgrid.setInitialMany (h.mapIds φ) v l = (Microgrid.setInitialMany h v l).mapIds φ := by
  induction l generalizing h with
  | nil => rfl
  | cons i l ih =>
    simp only [Microgrid.setInitialMany]
    rw [← ih, ← Heap.mapIds_set, ← hi]
    rfl

theorem setFinalMany_map {φ : Nat → Module → Module}
    (hf : ∀ i m v, Microgrid.setFinalOne (φ i m) v = (φ i (Microgrid.setFinalOne m v).1, (Microgrid.setFinalOne m v).2))
    (h : Heap) (v : Int) (b : Bool) (l : List Nat) :
    Microgrid.setFinalMany (h.mapIds φ) v b l =
      ((Microgrid.setFinalMany h v b l).1.mapIds φ, (Microgrid.setFinalMany h v b l).2) := by
  induction l generalizing h b with
  | nil => rfl
  | cons i l ih =>
    simp only [Microgrid.setFinalMany]
    have e := hf i (h i) v
    cases hr : Microgrid.setFinalOne (h i) v with
    | mk m' r =>
      rw [hr] at e
      simp only [Heap.mapIds] at e ⊢
      rw [e]
      cases r with
      | error e => simp only; rw [← Heap.mapIds_set]
      | ok b' => simp only; rw [← ih, ← Heap.mapIds_set]

/-- `set_forecaster` on the modules of a list. -/
def reforecast (k : Nat → FKind) (n : Nat) (l : List Nat) (i : Nat) (m : Module) : Module :=
  if i ∈ l then m.setForecaster (k i) n else m

theorem setForecasterMany_eq (h : Heap) (k : Nat → FKind) (n : Nat) (l : List Nat) :
    Microgrid.setForecasterMany h k n l = h.mapIds (reforecast k n l) := by
  funext j
  rw [setForecasterMany_get]
  rfl

theorem Module.setForecaster_initial (m : Module) (k : FKind) (n v : Nat) :
    ({ m.setForecaster k n with initialStep := v } : Module) = Module.setForecaster { m with initialStep := v } k n := by
  cases hk : m.kind <;> simp only [Module.setForecaster, Module.putTS, hk]

theorem Module.setForecaster_final (m : Module) (k : FKind) (n : Nat) (v : Int) :
    Microgrid.setFinalOne (m.setForecaster k n) v =
      ((Microgrid.setFinalOne m v).1.setForecaster k n, (Microgrid.setFinalOne m v).2) := by
  have key : ∀ (t : TS) (K : TS → Kind), m.kind = K t → (∀ m : Module, ∀ t, m.kind = K t →
        Microgrid.setFinalOne m v = (match t.setFinalStep m.initialStep v with
          | (t', .ok ()) => ({ m with kind := K t' }, .ok true)
          | (t', .error e) => ({ m with kind := K t' }, .error e))) →
      (∀ m : Module, ∀ t, m.kind = K t → m.setForecaster k n =
        { m with kind := K (t.setForecaster k n), obsSpace := (t.setForecaster k n).obsSpace }) →
      Microgrid.setFinalOne (m.setForecaster k n) v =
        ((Microgrid.setFinalOne m v).1.setForecaster k n, (Microgrid.setFinalOne m v).2) := by
    intro t K hk h1 h2
    rw [h2 m t hk, h1 _ _ rfl, h1 m t hk]
    unfold TS.setFinalStep
    by_cases c : (if v ≤ 0 then t.rows.length else v.toNat) ≤ m.initialStep
    · have c' : (if v ≤ 0 then (t.setForecaster k n).rows.length else v.toNat) ≤ m.initialStep := c
      simp only [if_pos c, if_pos c']
      rw [h2 _ _ rfl]
      rfl
    · have c' : ¬ (if v ≤ 0 then (t.setForecaster k n).rows.length else v.toNat) ≤ m.initialStep := c
      simp only [if_neg c, if_neg c']
      rw [h2 _ _ rfl]
      rfl
  cases hk : m.kind with
  | grid p t =>
    exact key t (.grid p) hk (fun m t h => by simp only [Microgrid.setFinalOne, h]; rfl)
      (fun m t h => by simp only [Module.setForecaster, Module.putTS, h])
  | load t =>
    exact key t .load hk (fun m t h => by simp only [Microgrid.setFinalOne, h]; rfl)
      (fun m t h => by simp only [Module.setForecaster, Module.putTS, h])
  | renewable t =>
    exact key t .renewable hk (fun m t h => by simp only [Microgrid.setFinalOne, h]; rfl)
      (fun m t h => by simp only [Module.setForecaster, Module.putTS, h])
  | _ => simp only [Microgrid.setFinalOne, Module.setForecaster, hk]

theorem reforecast_initial (k : Nat → FKind) (n : Nat) (l : List Nat) (i : Nat) (m : Module) (v : Nat) :
    ({ reforecast k n l i m with initialStep := v } : Module) = reforecast k n l i { m with initialStep := v } := by
  unfold reforecast
  split
  · exact m.setForecaster_initial (k i) n v
  · rfl

theorem reforecast_final (k : Nat → FKind) (n : Nat) (l : List Nat) (i : Nat) (m : Module) (v : Int) :
    Microgrid.setFinalOne (reforecast k n l i m) v =
      (reforecast k n l i (Microgrid.setFinalOne m v).1, (Microgrid.setFinalOne m v).2) := by
  unfold reforecast
  split
  · exact m.setForecaster_final (k i) n v
  · rfl

/-- The trajectory function is applied alike before and after a forecaster is set. -/
theorem setTrajectory_setForecaster (g : Microgrid) (k : Nat → FKind) (n : Nat) :
    (g.setForecaster k n).setTrajectory = (g.setTrajectory.1.setForecaster k n, g.setTrajectory.2) := by
  unfold Microgrid.setTrajectory Microgrid.setForecaster
  simp only [setForecasterMany_eq]
  cases h : g.trajectory with
  | none => simp only [h]
  | some f =>
    simp only
    cases f g.calls g.initialStep g.finalStep with
    | error e => rfl
    | ok x =>
      simp only
      rw [setInitialMany_map (reforecast_initial k n _), setFinalMany_map (reforecast_final k n _)]

/-- The stored forecast belongs to the current step. -/
def Module.FreshNow (m : Module) : Prop := ∀ t, m.series? = some t → t.Fresh m.currentStep

theorem kept_fresh : Kept fun m m' => m.WF ∧ m.FreshNow → m'.WF ∧ m'.FreshNow := by
  have back : ∀ {m m' : Module}, m.Sib m' → m'.series?.isSome → m.series?.isSome := by
    intro m m' s hs
    have hk := s.kind
    unfold Module.series? at *
    cases hm : m.kind <;> cases hm' : m'.kind <;> rw [hm, hm'] at hk <;> simp_all <;> cases hk
  have op : ∀ (m : Module) (op : MOp), m.Sib (op.apply m) → m.WF ∧ m.FreshNow → (op.apply m).FreshNow := by
    intro m op hsib h t ht
    obtain ⟨t₁, h₁⟩ := h.1.ts (back hsib (by rw [ht]; rfl))
    obtain ⟨t₂, -, h₂, hf⟩ := h₁.fresh_op (h.2 t₁ h₁.series) (h.1.works h₁) op
    rw [h₂.series] at ht
    injection ht with ht
    exact ht ▸ hf
  exact {
    refl := fun _ h => h
    trans := fun h h' hw => h' (h hw)
    step := fun m a n h => ⟨h.1.step a n, op m (.step a n) (h.1.sib_step a n) h⟩
    reset := fun m h => ⟨h.1.reset, op m .reset h.1.sib_reset h⟩
    initial := fun m v h => ⟨h.1.withInitial v, h.2⟩
    final := fun m v h => ⟨h.1.setFinal v, by
      have key : ∀ (t : TS) (K : TS → Kind), m.kind = K t → (∀ m : Module, ∀ t, m.kind = K t → m.series? = some t) →
          (Microgrid.setFinalOne m v).1 = { m with kind := K (t.setFinalStep m.initialStep v).1 } →
          (Microgrid.setFinalOne m v).1.FreshNow := by
        intro t K hk hK e
        rw [e]
        intro t' ht'
        rw [hK _ (t.setFinalStep m.initialStep v).1 rfl] at ht'
        injection ht' with ht'
        subst ht'
        exact h.2 t (hK m t hk)
      cases hk : m.kind with
      | grid p t =>
        exact key t (.grid p) hk (fun m t h => by simp only [Module.series?, h]) (by
          simp only [Microgrid.setFinalOne, hk]; split <;> rename_i e <;> rw [e])
      | load t =>
        exact key t .load hk (fun m t h => by simp only [Module.series?, h]) (by
          simp only [Microgrid.setFinalOne, hk]; split <;> rename_i e <;> rw [e])
      | renewable t =>
        exact key t .renewable hk (fun m t h => by simp only [Module.series?, h]) (by
          simp only [Microgrid.setFinalOne, hk]; split <;> rename_i e <;> rw [e])
      | _ => simp only [Microgrid.setFinalOne, hk]; exact h.2⟩ }

/-- What a reset makes of a consistent module that was given a new forecaster. -/
structure Reforecast (m m' : Module) (k : FKind) (n : Nat) : Prop where
  wf : m'.WF
  spaced : m'.Spaced
  fresh : m'.FreshNow
  current : m'.currentStep = m.initialStep
  initial : m'.initialStep = m.initialStep
  logger : m'.logger = {}
  final : m'.finalStep? = m.finalStep?
  alike : (m.setForecaster k n).Alike m'
  core : m'.kind.core = (m.setForecaster k n).kind.core

theorem Module.setForecaster_frame (m : Module) (k : FKind) (n : Nat) :
    (m.setForecaster k n).initialStep = m.initialStep ∧ (m.setForecaster k n).currentStep = m.currentStep ∧
    (m.setForecaster k n).logger = m.logger ∧ (m.setForecaster k n).finalStep? = m.finalStep? ∧
    (m.setForecaster k n).ffc = m.ffc ∧ (m.setForecaster k n).ss = m.ss ∧ (m.setForecaster k n).actSpace = m.actSpace := by
  cases hk : m.kind <;> simp [Module.setForecaster, Module.putTS, hk, Module.finalStep?, Module.ss, Module.isSink,
    Module.isSource, TS.setForecaster, TS.setHorizon]

theorem Module.setForecaster_other {m : Module} (h : m.series? = none) (k : FKind) (n : Nat) : m.setForecaster k n = m := by
  unfold Module.series? at h
  unfold Module.setForecaster
  cases hk : m.kind <;> simp_all

theorem Module.setForecaster_series {m : Module} {t : TS} (h : m.series? = some t) (k : FKind) (n : Nat) :
    (m.setForecaster k n).series? = some (t.setForecaster k n) ∧
    (m.setForecaster k n).obsSpace = (t.setForecaster k n).obsSpace ∧
    (m.setForecaster k n).kind = m.kind.withTS (t.setForecaster k n) := by
  unfold Module.series? at h
  unfold Module.setForecaster Module.putTS Module.series?
  cases hk : m.kind <;> simp_all [Kind.withTS]

theorem TS.setForecaster_works {t : TS} {k : FKind} {n : Nat} (h : k.Works t.comps.length n) :
    (t.setForecaster k n).Works := by
  change (Forecaster.get k t.minRow t.maxRow (if k.isSome then n else 0)).kind.Works t.comps.length
    (if k.isSome then n else 0)
  cases k with
  | gaussian f inc s =>
    simp only [Forecaster.get, FKind.isSome, if_true, FKind.Works]
    intro r hr
    split at hr
    · injection hr with hr; omega
    · simp at hr
  | _ => exact h

theorem Module.WF.newForecast {m : Module} (h : m.WF) (hs : m.Spaced) (hf : m.FreshNow) {k : FKind} {n : Nat}
    (hw : ∀ t, m.series? = some t → k.Works t.comps.length n) :
    ∃ m' obs, (m.setForecaster k n).reset = (m', .ok obs) ∧ Reforecast m m' k n := by
  have frame : ∀ m' obs, (m.setForecaster k n).reset = (m', .ok obs) → m'.WF → m'.Spaced → m'.FreshNow →
      m'.kind.core = (m.setForecaster k n).kind.core → Reforecast m m' k n := by
    intro m' obs he hw' hs' hf' hc
    obtain ⟨e1, -, e3, e4, e5, e6, e7⟩ := m.setForecaster_frame k n
    obtain ⟨f1, f2, f3, f4⟩ := Module.reset_ok he
    refine ⟨hw', hs', hf', f3.trans e1, f1.init.trans e1, f4, f2.final.trans e4, ?_, hc⟩
    have := kept_alike.reset (m.setForecaster k n)
    rwa [he] at this
  cases hser : m.series? with
  | none =>
    have e := m.setForecaster_other hser k n
    obtain ⟨obs, ho⟩ := h.reset_ok
    have he : (m.setForecaster k n).reset = (m.reset.1, .ok obs) := by rw [e]; exact Prod.ext rfl ho
    refine ⟨_, obs, he, frame _ obs he h.reset hs.reset (kept_fresh.reset m ⟨h, hf⟩).2 ?_⟩
    rw [e]
    exact h.sib_reset.kind.core
  | some t =>
    have ht : m.TSWF t := by
      obtain ⟨t', h'⟩ := h.ts (by rw [hser]; rfl)
      rw [h'.series] at hser
      injection hser with hser
      exact hser ▸ h'
    have hsp : m.obsSpace = t.obsSpace := by
      rw [hs.obs]
      have := hser
      unfold Module.series? at this
      cases hk : m.kind <;> simp_all [Kind.obsBox]
    have hl := ht.loose hsp
    have hl' := (hl.setForecaster k n).2
    obtain ⟨-, e2, e3⟩ := Module.setForecaster_series hser k n
    have hwk := TS.setForecaster_works (hw t hser)
    rcases hl'.reset with ⟨f, obs, hv, hsh, -, he⟩ | ⟨e, hv, -⟩
    · have hts := hl'.moved (m.setForecaster k n).logger.flush (m.setForecaster k n).initialStep hsh
      have hts' : ∀ t', ((m.setForecaster k n).moved (t.setForecaster k n) (m.setForecaster k n).logger.flush
          (m.setForecaster k n).initialStep f).series? = some t' →
          t' = { t.setForecaster k n with cur := f, draws := (t.setForecaster k n).draws + 1 } := by
        intro t' ht'
        rw [hts.series] at ht'
        injection ht' with ht'
        exact ht'.symm
      refine ⟨_, obs, he, frame _ obs he ?_ ?_ ?_ ?_⟩
      · have hk' : ((m.setForecaster k n).moved (t.setForecaster k n) (m.setForecaster k n).logger.flush
            (m.setForecaster k n).initialStep f).kind =
            m.kind.withTS { t.setForecaster k n with cur := f, draws := (t.setForecaster k n).draws + 1 } := by
          simp only [Module.moved, e3]
          cases hk : m.kind <;> rfl
        have hff := (m.setForecaster_frame k n).2.2.2.2.1
        have hpv : (m.setForecaster k n).provName = m.provName ∧ (m.setForecaster k n).absName = m.absName := by
          cases hk : m.kind <;> simp [Module.setForecaster, Module.putTS, hk]
        cases h with
        | battery b h => simp [series?, h.kind] at hser
        | genset g h => simp [series?, h.kind] at hser
        | balancing u h => simp [series?, h.kind] at hser
        | grid p t₁ h w =>
          have : t₁ = t := by rw [h.ts.series] at hser; injection hser
          subst this
          rw [h.kind] at hk'
          exact .grid p _ ⟨hk', hts, h.names, fun hx => h.ffc (hff.symm.trans hx), hpv.1.trans h.prov, hpv.2.trans h.abs,
            h.imp, h.exp, h.status, h.nonneg⟩ hwk
        | load t₁ h w =>
          have : t₁ = t := by rw [h.ts.series] at hser; injection hser
          subst this
          rw [h.kind] at hk'
          exact .load _ ⟨hk', hts, h.one, hff.trans h.ffc, hpv.1.trans h.prov, hpv.2.trans h.abs, h.sign⟩ hwk
        | renewable t₁ h w =>
          have : t₁ = t := by rw [h.ts.series] at hser; injection hser
          subst this
          rw [h.kind] at hk'
          exact .renewable _ ⟨hk', hts, h.one, hff.trans h.ffc, hpv.1.trans h.prov, hpv.2.trans h.abs, h.sign, h.low⟩ hwk
      · have hact := (m.setForecaster_frame k n).2.2.2.2.2.2
        refine ⟨?_, ?_⟩
        · change (m.setForecaster k n).obsSpace = _
          rw [e2]
          simp only [Module.moved, e3]
          unfold Module.series? at hser
          cases hk : m.kind <;> simp_all [Kind.obsBox, Kind.withTS] <;> rfl
        · change (m.setForecaster k n).actSpace = _
          rw [hact, hs.act]
          simp only [Module.moved, e3]
          unfold Module.series? at hser
          cases hk : m.kind <;> simp_all [Kind.actBox, Kind.withTS]
          exact ⟨rfl, rfl⟩
      · intro t' ht'
        rw [hts' t' ht']
        exact ⟨_, hv⟩
      · simp only [Module.moved, e3]
        unfold Module.series? at hser
        cases hk : m.kind <;> simp_all [Kind.core, Kind.withTS]
    · obtain ⟨f, hf⟩ := hl'.valid.forecast_ok hwk (m.setForecaster k n).initialStep
      rw [hf] at hv
      simp at hv

theorem Kept.trajectory {P : Module → Module → Prop} (hP : Kept P) (g : Microgrid) (j : Nat) :
    P (g.heap j) (g.setTrajectory.1.heap j) := by
  unfold Microgrid.setTrajectory
  split
  · exact hP.refl _
  · simp only
    split
    · exact hP.refl _
    · exact hP.trans (hP.setInitialMany _ _ _ _) (hP.setFinalMany _ _ _ _ _)

theorem setTrajectory_same (g : Microgrid) : g.setTrajectory.1.cont = g.cont ∧ g.setTrajectory.1.shaper = g.shaper ∧
    g.setTrajectory.1.trajectory = g.trajectory ∧ g.setTrajectory.1.initialStep = g.initialStep ∧
    g.setTrajectory.1.finalStep = g.finalStep := by
  unfold Microgrid.setTrajectory
  split
  · exact ⟨rfl, rfl, rfl, rfl, rfl⟩
  · simp only
    split <;> exact ⟨rfl, rfl, rfl, rfl, rfl⟩

theorem resetMany_all {l : List Nat} {h : Heap} (hn : l.Nodup) (hr : ∀ i ∈ l, ∃ m' obs, (h i).reset = (m', .ok obs)) :
    ∃ h', Microgrid.resetMany h l = (h', .ok ()) := by
  induction l generalizing h with
  | nil => exact ⟨h, rfl⟩
  | cons i l ih =>
    simp only [List.nodup_cons] at hn
    obtain ⟨m', obs, e⟩ := hr i (by simp)
    simp only [Microgrid.resetMany, e]
    apply ih hn.2
    intro j hj
    have hji : j ≠ i := fun hx => hn.1 (hx ▸ hj)
    simp only [Heap.set, if_neg hji]
    exact hr j (by simp [hj])

/-- A consistent microgrid whose modules show what they are supposed to show. -/
structure GridFresh (mods : List (String × Nat)) (g : Microgrid) : Prop where
  ok : GridOK mods g
  spaced : ∀ nm ∈ mods, (g.heap nm.2).Spaced
  fresh : ∀ nm ∈ mods, (g.heap nm.2).FreshNow

theorem GridFresh.runG {mods : List (String × Nat)} {g : Microgrid} (h : GridFresh mods g) (ops : List GOp) :
    GridFresh mods (runG g ops) :=
  ⟨h.ok.runG ops, fun nm hm => kept_spaced.runG g ops nm.2 (h.spaced nm hm),
    fun nm hm => (kept_fresh.runG g ops nm.2 ⟨h.ok.wf nm hm, h.fresh nm hm⟩).2⟩

section
variable {mods : List (String × Nat)} {g : Microgrid}

theorem GridFresh.reforecast (h : GridFresh mods g) (hid : (mods.map Prod.snd).Nodup) (hd : DistinctNames g.heap mods)
    {k : Nat → FKind} {n : Nat}
    (hw : ∀ nm ∈ mods, ∀ t, (g.heap nm.2).series? = some t → (k nm.2).Works t.comps.length n) :
    (g.setForecaster k n).reset.2 = g.setTrajectory.2 ∧
    ∀ g₁, (g.setForecaster k n).reset = (g₁, .ok ()) → GridFresh mods g₁ ∧
      (∀ nm ∈ mods, Reforecast (g.setTrajectory.1.heap nm.2) (g₁.heap nm.2) (k nm.2) n) ∧
      g₁.cont = g.cont ∧ g₁.trajectory = g.trajectory ∧ g₁.initialStep = g.initialStep ∧ g₁.finalStep = g.finalStep ∧
      g₁.balanceLog = {} := by
  obtain ⟨c1, c2, c3, c4, c5⟩ := setTrajectory_same g
  have hfl : g.cont.fullList.Perm (mods.map Prod.snd) := by rw [h.ok.cont]; exact Container.fullList_perm _ _
  have hp := h.ok.fullIds_perm hd
  have hnd : ((Container.toTuples g.cont.fullDict).map Prod.snd).Nodup := hp.nodup_iff.mpr hid
  have hget : ∀ nm ∈ mods, (g.setTrajectory.1.setForecaster k n).heap nm.2 =
      (g.setTrajectory.1.heap nm.2).setForecaster (k nm.2) n := by
    intro nm hm
    simp only [Microgrid.setForecaster, setForecasterMany_get, c1]
    rw [if_pos (hfl.symm.subset (List.mem_map_of_mem hm))]
  have hnew : ∀ nm ∈ mods, ∃ m' obs, ((g.setTrajectory.1.setForecaster k n).heap nm.2).reset = (m', .ok obs) ∧
      Reforecast (g.setTrajectory.1.heap nm.2) m' (k nm.2) n := by
    intro nm hm
    rw [hget nm hm]
    have h1 := kept_fresh.trajectory g nm.2 ⟨h.ok.wf nm hm, h.fresh nm hm⟩
    apply h1.1.newForecast (kept_spaced.trajectory g nm.2 (h.spaced nm hm)) h1.2
    intro t ht
    obtain ⟨-, hcore⟩ := kept_core.trajectory g nm.2 (h.ok.wf nm hm)
    obtain ⟨t₀, h0, h0'⟩ : ∃ t₀, (g.heap nm.2).series? = some t₀ ∧ t₀.comps = t.comps := by
      unfold Module.series? at ht ⊢
      cases hk : (g.setTrajectory.1.heap nm.2).kind <;> cases hk' : (g.heap nm.2).kind <;>
        rw [hk, hk'] at hcore <;> simp_all [Kind.core]
    rw [← h0']
    exact hw nm hm t₀ h0
  obtain ⟨h', hr'⟩ := resetMany_all (h := (g.setTrajectory.1.setForecaster k n).heap) hnd (by
    intro i hi
    obtain ⟨nm, hm, rfl⟩ := List.mem_map.mp (hp.subset hi)
    obtain ⟨m', obs, e, -⟩ := hnew nm hm
    exact ⟨m', obs, e⟩)
  have hreset : ∀ r, g.setTrajectory.2 = r → (g.setForecaster k n).reset =
      match r with
      | .error e => (g.setTrajectory.1.setForecaster k n, .error e)
      | .ok () => ({ g.setTrajectory.1.setForecaster k n with
          heap := h'
          balanceLog := g.setTrajectory.1.balanceLog.flush
          otherLog := g.setTrajectory.1.otherLog.flush }, .ok ()) := by
    intro r hr
    unfold Microgrid.reset
    rw [setTrajectory_setForecaster, hr]
    cases r with
    | error e => rfl
    | ok u =>
      simp only
      have : (g.setForecaster k n).cont = g.cont := rfl
      rw [this, hr']
      rfl
  cases hr : g.setTrajectory.2 with
  | error e =>
    rw [hreset _ hr]
    refine ⟨rfl, fun g₁ hg => ?_⟩
    simp at hg
  | ok u =>
    rw [hreset _ hr]
    refine ⟨rfl, fun g₁ hg => ?_⟩
    have hg := (Prod.mk.inj hg).1
    have e1 : g₁.heap = h' := by rw [← hg]
    have hmod : ∀ nm ∈ mods, Reforecast (g.setTrajectory.1.heap nm.2) (g₁.heap nm.2) (k nm.2) n := by
      intro nm hm
      obtain ⟨m', obs, e, hR⟩ := hnew nm hm
      obtain ⟨obs', e'⟩ := (resetMany_ok hr' hnd).1 nm.2 (hp.symm.subset (List.mem_map_of_mem hm))
      rw [e] at e'
      rw [e1, ← (Prod.mk.inj e').1]
      exact hR
    have e2 : g₁.cont = g.cont := by rw [← hg]; exact c1
    refine ⟨⟨⟨?_, fun nm hm => (hmod nm hm).wf⟩, fun nm hm => (hmod nm hm).spaced, fun nm hm => (hmod nm hm).fresh⟩,
      hmod, e2, ?_, ?_, ?_, ?_⟩
    · rw [e2, h.ok.cont]
      refine (Container.build_congr fun nm hm => ?_).symm
      have ha := (hmod nm hm).alike
      have hf := (g.setTrajectory.1.heap nm.2).setForecaster_frame (k nm.2) n
      have ht := kept_alike.trajectory g nm.2
      exact ⟨(ha.ffc.trans hf.2.2.2.2.1).trans ht.ffc, (ha.ss.trans hf.2.2.2.2.2.1).trans ht.ss⟩
    · rw [← hg]; exact c3
    · rw [← hg]; exact c4
    · rw [← hg]; exact c5
    · rw [← hg]; rfl

end

end Pymgrid
