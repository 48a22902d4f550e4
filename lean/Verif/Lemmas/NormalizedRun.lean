import Verif.Lemmas.Normalize
import Verif.Lemmas.Observe
import Verif.Lemmas.GridRun

set_option autoImplicit false

/-! Running a normalised control is running its denormalisation. -/

namespace Pymgrid

theorem kept_spaced : Kept fun m m' => m.Spaced → m'.Spaced where
  refl := fun _ h => h
  trans := fun h h' hw => h' (h hw)
  step := fun _ a n h => h.step a n
  reset := fun _ h => h.reset
  initial := fun _ _ h => ⟨h.obs, h.act⟩
  final := fun m v h => by
    unfold Microgrid.setFinalOne
    cases hk : m.kind with
    | grid p t =>
      have h1 := h.obs; have h2 := h.act
      rw [hk] at h1 h2
      simp only [TS.setFinalStep]
      split <;> rename_i heq <;> (simp only [Prod.mk.injEq] at heq; obtain ⟨rfl, -⟩ := heq; exact ⟨h1, h2⟩)
    | load t =>
      have h1 := h.obs; have h2 := h.act
      rw [hk] at h1 h2
      simp only [TS.setFinalStep]
      split <;> rename_i heq <;> (simp only [Prod.mk.injEq] at heq; obtain ⟨rfl, -⟩ := heq; exact ⟨h1, h2⟩)
    | renewable t =>
      have h1 := h.obs; have h2 := h.act
      rw [hk] at h1 h2
      simp only [TS.setFinalStep]
      split <;> rename_i heq <;> (simp only [Prod.mk.injEq] at heq; obtain ⟨rfl, -⟩ := heq; exact ⟨h1, h2⟩)
    | _ => exact h

/-- In the dict of all modules the controllable ones take precedence. -/
theorem Container.full_controllable {h : Heap} {mods : List (String × Nat)} {n : String} {ids : List Nat}
    (hm : (n, ids) ∈ (build h mods).levelDict .controllable) : dictGet? (build h mods).fullDict n = some ids := by
  have h1 : dictGet? ((build h mods).levelDict .controllable) n = some ids :=
    dictGet?_of_mem (toDict_nodup _) hm
  rw [level_get] at h1
  have : (build h mods).fullDict = dictUpdate (dictUpdate (dictUpdate
      (toDict ((build h mods).level .fixed ++ (build h mods).level .flex)) ((build h mods).cat .controllable .sources))
      ((build h mods).cat .controllable .sinks)) ((build h mods).cat .controllable .both) := rfl
  rw [this, dictGet?_dictUpdate _ _ (cat_nodup h mods _ .both), dictGet?_dictUpdate _ _ (cat_nodup h mods _ .sinks),
    dictGet?_dictUpdate _ _ (cat_nodup h mods _ .sources), ← Option.or_assoc, ← Option.or_assoc, h1]
  rfl

/-- One module: the step with a normalised action is the step with the denormalised action. -/
theorem Module.WF.denormalized {m : Module} (h : m.WF) (sp : m.Spaced) {s : Space} (hs : m.actSpace = some s)
    {a raw : Act} (hf : s.Fits a) (hd : s.denormalize a = .ok raw) : m.step a true = m.step raw false := by
  unfold Space.denormalize at hd
  rw [Space.apply_ok _ _ _ hf.len] at hd
  injection hd with hd
  have hv : raw.vals = mapBounds denorm1 s.low s.high a.vals := by rw [← hd, Space.item_vals]
  refine h.normalized sp hs ?_ ?_
  · rw [hv, mapBounds_length _ _ _ _ hf.len hf.box]; exact hf.len
  · rw [← mapBounds_readRow, hv, mapBounds_comp _ _ norm1_denorm1 _ _ _ hf.len hf.box]

/-- The modules a heap holds can take part in a run. -/
structure Ready (h₀ h : Heap) (i : Nat) : Prop where
  wf : (h i).WF
  sp : (h i).Spaced
  act : (h i).actSpace = (h₀ i).actSpace

theorem Ready.stepMany {h₀ : Heap} {s : RunSt} {i : Nat} (hr : Ready h₀ s.heap i) (l : List (String × Nat × Act)) (n : Bool) :
    Ready h₀ (RunSt.stepMany l n s).1.heap i :=
  ⟨kept_wf.toRespected.stepMany l n s i hr.wf, kept_spaced.toRespected.stepMany l n s i hr.sp,
    (kept_alike.toRespected.stepMany l n s i).act.trans hr.act⟩

theorem Ready.stepOne {h₀ : Heap} {s : RunSt} {i : Nat} (hr : Ready h₀ s.heap i) (name : String) (j : Nat) (a : Act) (n : Bool) :
    Ready h₀ (s.stepOne name j a n).1.heap i :=
  ⟨kept_wf.toRespected.stepOne s name j a n i hr.wf, kept_spaced.toRespected.stepOne s name j a n i hr.sp,
    (kept_alike.toRespected.stepOne s name j a n i).act.trans hr.act⟩

/-- Modules with this action space treat two actions alike. -/
def Interchangeable (sp : Space) (v : Act) (n : Bool) (w : Act) (n' : Bool) : Prop :=
  ∀ m : Module, m.WF → m.Spaced → m.actSpace = some sp → m.step v n = m.step w n'

theorem stepMany_normalized {n n' : Bool} {h₀ : Heap} {name : String} : ∀ (is : List Nat) (vs ws : List Act) (s : RunSt),
    ws.length = vs.length → vs.length ≤ is.length →
    (∀ i ∈ is, Ready h₀ s.heap i) →
    (∀ (j : Nat) v w i, vs[j]? = some v → ws[j]? = some w → is[j]? = some i →
      ∃ sp, (h₀ i).actSpace = some sp ∧ Interchangeable sp v n w n') →
    RunSt.stepMany ((is.zip vs).map fun ia => (name, ia.1, ia.2)) n s =
      RunSt.stepMany ((is.zip ws).map fun ia => (name, ia.1, ia.2)) n' s
  | [], vs, ws, s, _, hl, _, _ => by simp [RunSt.stepMany]
  | _ :: _, [], ws, s, hw, _, _, _ => by
    have : ws = [] := List.length_eq_zero_iff.mp hw
    subst this; simp [RunSt.stepMany]
  | _ :: _, _ :: _, [], s, hw, _, _, _ => by simp at hw
  | i :: is, v :: vs, w :: ws, s, hw, hl, hr, he => by
    obtain ⟨sp, h1, h2⟩ := he 0 v w i rfl rfl rfl
    have r := hr i (by simp)
    have e : (s.heap i).step v n = (s.heap i).step w n' := h2 _ r.wf r.sp (r.act.trans h1)
    have e' : s.stepOne name i v n = s.stepOne name i w n' := by
      unfold RunSt.stepOne; rw [e]
    simp only [List.zip_cons_cons, List.map_cons, RunSt.stepMany]
    rw [e']
    have keep : ∀ j ∈ is, Ready h₀ (s.stepOne name i w n').1.heap j := fun j hj =>
      (hr j (List.mem_cons_of_mem _ hj)).stepOne name i w n'
    cases hs : s.stepOne name i w n' with
    | mk s' r =>
      rw [hs] at keep
      cases r with
      | error e => rfl
      | ok _ =>
        exact stepMany_normalized is vs ws s' (by simpa using hw) (by simpa using hl) keep
          (fun j v' w' i' hv hw' hi => he (j + 1) v' w' i' (by simpa using hv) (by simpa using hw') (by simpa using hi))

/-- A control given as data. -/
def Data.control (d : Data) : List (String × Ctrl) := d.map fun nl => (nl.1, .seq nl.2)

theorem Data.control_get (d : Data) (n : String) : dictGet? d.control n = (dictGet? d n).map Ctrl.seq :=
  dictGet?_mapVal Ctrl.seq d n

theorem stepControls_normalized {n n' : Bool} {h₀ : Heap} {mods : ModDict} {d d' : Data}
    (hc : d.Covered true h₀ mods)
    (he : d.Entrywise (fun m v w => ∃ s, m.actSpace = some s ∧ Interchangeable s v n w n') h₀ mods d') :
    ∀ (l : ModDict) (s : RunSt), (∀ nl ∈ l, dictGet? mods nl.1 = some nl.2) →
      (∀ nl ∈ l, ∀ i ∈ nl.2, Ready h₀ s.heap i) →
      s.stepControls d.control n l = s.stepControls d'.control n' l
  | [], _, _, _ => rfl
  | (nm, ids) :: l, s, hm, hr => by
    have hmods : dictGet? mods nm = some ids := hm (nm, ids) (by simp)
    have hlen := he.1 nm
    simp only [RunSt.stepControls, Data.control_get]
    cases hv : dictGet? d nm with
    | none =>
      rw [hv] at hlen
      simp only [Option.map_none, Option.map_eq_none_iff] at hlen
      simp [hlen]
    | some vs =>
      cases hw : dictGet? d' nm with
      | none => rw [hv, hw] at hlen; simp at hlen
      | some ws =>
        rw [hv, hw] at hlen
        simp only [Option.map_some, Option.some.injEq] at hlen
        obtain ⟨is, hm', hle, hfit⟩ := hc nm vs hv
        rw [hmods] at hm'
        injection hm' with hm'
        subst hm'
        have key := stepMany_normalized (n := n) (n' := n') (h₀ := h₀) (name := nm) ids vs ws s hlen hle (hr (nm, ids) (by simp))
          (by
            intro j v w i hvj hwj hij
            exact he.2 nm vs ws ids j v w i hv hw hmods hvj hwj hij)
        simp only [Option.map_some, Ctrl.acts]
        rw [key]
        have keep : ∀ nl ∈ l, ∀ i ∈ nl.2, Ready h₀
            (RunSt.stepMany ((ids.zip ws).map fun ia => (nm, ia.1, ia.2)) n' s).1.heap i := fun nl hnl i hi =>
          (hr nl (List.mem_cons_of_mem _ hnl) i hi).stepMany _ _
        cases hs : RunSt.stepMany ((ids.zip ws).map fun ia => (nm, ia.1, ia.2)) n' s with
        | mk s' r =>
          rw [hs] at keep
          cases r with
          | error e => rfl
          | ok _ => exact stepControls_normalized hc he l s' (fun nl hnl => hm nl (List.mem_cons_of_mem _ hnl)) keep

theorem Module.spaceOf_act {m : Module} {s : Space} (hs : m.spaceOf true = .ok s) : m.actSpace = some s := by
  unfold Module.spaceOf at hs
  simp only [if_true] at hs
  split at hs
  · rename_i x hx; injection hs with hs; rw [hx, hs]
  · simp at hs

/-- Entries related by an elementwise formula, as interchangeable actions. -/
theorem Data.Entrywise.interchange {k : ℚ → ℚ → ℚ → ℚ} {n n' : Bool} {h₀ : Heap} {mods : ModDict} {d d' : Data}
    (hc : d.Covered true h₀ mods)
    (hk : ∀ (s : Space) (v w : Act), s.Fits v → s.apply k v = .ok w → Interchangeable s v n w n')
    (he : d.Entrywise (fun m v w => ∃ s, m.spaceOf true = .ok s ∧ s.apply k v = .ok w) h₀ mods d') :
    d.Entrywise (fun m v w => ∃ s, m.actSpace = some s ∧ Interchangeable s v n w n') h₀ mods d' := by
  refine ⟨he.1, ?_⟩
  intro nm vs ws is j v w i hv hw hm hvj hwj hij
  obtain ⟨s, hs, ha⟩ := he.2 nm vs ws is j v w i hv hw hm hvj hwj hij
  obtain ⟨is', hm', -, hfit⟩ := hc nm vs hv
  rw [hm] at hm'
  injection hm' with hm'
  subst hm'
  obtain ⟨s', hs', hf⟩ := hfit j v i hvj hij
  rw [hs] at hs'
  injection hs' with hs'
  subst hs'
  exact ⟨s, Module.spaceOf_act hs, hk s v w hf ha⟩

theorem interchange_denorm (s : Space) (v w : Act) (hf : s.Fits v) (ha : s.apply denorm1 v = .ok w) :
    Interchangeable s v true w false := fun _ hw hsp hs => hw.denormalized hsp hs hf ha

theorem interchange_norm (s : Space) (v w : Act) (hf : s.Fits v) (ha : s.apply norm1 v = .ok w) :
    Interchangeable s v false w true := by
  intro m hw hsp hs
  rw [Space.apply_ok _ _ _ hf.len] at ha
  injection ha with ha
  exact (hw.normalized hsp hs hf.len (by rw [← mapBounds_readRow, ← ha, Space.item_vals])).symm

theorem GridOK.run_normalized {n n' : Bool} {mods : List (String × Nat)} {g : Microgrid} (hg : GridOK mods g)
    (hsp : ∀ nm ∈ mods, (g.heap nm.2).Spaced) {d d' : Data}
    (hc : d.Covered true g.heap g.cont.fullDict)
    (he : d.Entrywise (fun m v w => ∃ s, m.actSpace = some s ∧ Interchangeable s v n w n') g.heap g.cont.fullDict d') :
    g.run d.control n = g.run d'.control n' := by
  have hl : ∀ nl ∈ g.cont.levelDict .controllable, dictGet? g.cont.fullDict nl.1 = some nl.2 := by
    intro nl hnl
    rw [hg.cont] at hnl ⊢
    exact Container.full_controllable hnl
  have hready : ∀ s : RunSt, (∀ i, ((g.heap i).WF → (s.heap i).WF) ∧ ((g.heap i).Spaced → (s.heap i).Spaced) ∧
      (s.heap i).actSpace = (g.heap i).actSpace) →
      ∀ nl ∈ g.cont.levelDict .controllable, ∀ i ∈ nl.2, Ready g.heap s.heap i := by
    intro s hs nl hnl i hi
    have hmem : ∃ nm ∈ mods, nm.2 = i := by
      rw [hg.cont] at hnl
      have : (nl.1, i) ∈ Container.toTuples ((Container.build g.heap mods).levelDict .controllable) := by
        unfold Container.toTuples
        rw [List.mem_flatMap]
        exact ⟨nl, hnl, List.mem_map.mpr ⟨i, hi, rfl⟩⟩
      exact ⟨(nl.1, i), (Container.mem_level this).1, rfl⟩
    obtain ⟨nm, hnm, rfl⟩ := hmem
    exact ⟨(hs _).1 (hg.wf nm hnm), (hs _).2.1 (hsp nm hnm), (hs _).2.2⟩
  unfold Microgrid.run
  split
  · rfl
  · rename_i ci _
    have h1 : ∀ i, ((g.heap i).WF → ((RunSt.stepMany g.fixedSteps false { heap := g.heap, acc := {} }).1.heap i).WF) ∧
        ((g.heap i).Spaced → ((RunSt.stepMany g.fixedSteps false { heap := g.heap, acc := {} }).1.heap i).Spaced) ∧
        ((RunSt.stepMany g.fixedSteps false { heap := g.heap, acc := {} }).1.heap i).actSpace = (g.heap i).actSpace :=
      fun i => ⟨kept_wf.toRespected.stepMany g.fixedSteps false { heap := g.heap, acc := {} } i,
        kept_spaced.toRespected.stepMany g.fixedSteps false { heap := g.heap, acc := {} } i,
        (kept_alike.toRespected.stepMany g.fixedSteps false { heap := g.heap, acc := {} } i).act⟩
    cases hf : RunSt.stepMany g.fixedSteps false { heap := g.heap, acc := {} } with
    | mk s₁ r =>
      rw [hf] at h1
      cases r with
      | error e => rfl
      | ok _ =>
        simp only
        cases s₁.acc.balance g.shaper ci with
        | error e => rfl
        | ok p =>
          simp only
          rw [stepControls_normalized hc he _ s₁ hl (hready s₁ h1)]

end Pymgrid
