import Verif.Lemmas.Twin
import Verif.Lemmas.Container

set_option autoImplicit false

/-! Microgrids whose modules are twins, under other identities. -/

namespace Pymgrid

/-! ### Renaming references -/

def ModDict.rename (σ : Nat → Nat) (d : ModDict) : ModDict := d.map fun nl => (nl.1, nl.2.map σ)

def Container.rename (σ : Nat → Nat) (c : Container) : Container := { cat := fun f s => ModDict.rename σ (c.cat f s) }

theorem rename_get (σ : Nat → Nat) (d : ModDict) (n : String) :
    dictGet? (ModDict.rename σ d) n = (dictGet? d n).map (List.map σ) := by
  induction d with
  | nil => rfl
  | cons x d ih =>
    obtain ⟨k, l⟩ := x
    simp only [ModDict.rename, List.map_cons, dictGet?]
    split
    · rfl
    · exact ih

theorem rename_set (σ : Nat → Nat) (d : ModDict) (n : String) (l : List Nat) :
    ModDict.rename σ (dictSet d n l) = dictSet (ModDict.rename σ d) n (l.map σ) := by
  induction d with
  | nil => rfl
  | cons x d ih =>
    obtain ⟨k, v⟩ := x
    simp only [ModDict.rename, List.map_cons, dictSet]
    split
    · rfl
    · simp only [List.map_cons]; exact congrArg _ ih

theorem rename_append (σ : Nat → Nat) (d : ModDict) (n : String) (i : Nat) :
    ModDict.rename σ (d.append n i) = (ModDict.rename σ d).append n (σ i) := by
  unfold ModDict.append
  rw [rename_get]
  cases dictGet? d n <;> simp [rename_set]

theorem rename_update (σ : Nat → Nat) (d e : ModDict) :
    ModDict.rename σ (dictUpdate d e) = dictUpdate (ModDict.rename σ d) (ModDict.rename σ e) := by
  unfold dictUpdate
  induction e generalizing d with
  | nil => rfl
  | cons x e ih =>
    obtain ⟨k, v⟩ := x
    simp only [List.foldl_cons]
    rw [ih, rename_set]
    rfl

theorem rename_toDict (σ : Nat → Nat) (ds : List ModDict) :
    Container.toDict (ds.map (ModDict.rename σ)) = ModDict.rename σ (Container.toDict ds) := by
  induction ds using List.reverseRecOn with
  | nil => rfl
  | append_singleton ds d ih =>
    rw [List.map_append, List.map_cons, List.map_nil, Container.toDict_cons, Container.toDict_cons, rename_update, ih]

theorem rename_toTuples (σ : Nat → Nat) (d : ModDict) :
    Container.toTuples (ModDict.rename σ d) = (Container.toTuples d).map fun ni => (ni.1, σ ni.2) := by
  unfold Container.toTuples ModDict.rename
  rw [List.flatMap_map, List.map_flatMap]
  congr 1
  funext x
  simp only [List.map_map]
  rfl

namespace Container

theorem rename_level (σ : Nat → Nat) (c : Container) (f : FFC) :
    (c.rename σ).levelDict f = ModDict.rename σ (c.levelDict f) := rename_toDict σ (c.level f)

theorem rename_all (σ : Nat → Nat) (c : Container) : (c.rename σ).all = c.all.map (ModDict.rename σ) := rfl

theorem rename_full (σ : Nat → Nat) (c : Container) : (c.rename σ).fullDict = ModDict.rename σ c.fullDict :=
  rename_toDict σ c.all

theorem rename_fullList (σ : Nat → Nat) (c : Container) : (c.rename σ).fullList = c.fullList.map σ := by
  unfold fullList toList
  rw [rename_all]
  simp only [List.flatMap_map, List.map_flatMap]
  congr 1
  funext d
  simp only [ModDict.rename, List.flatMap_map]

theorem mem_fullList {c : Container} {ds : List ModDict} (hds : ∀ d ∈ ds, d ∈ c.all) {n : String} {i : Nat}
    (h : (n, i) ∈ toTuples (toDict ds)) : i ∈ c.fullList := by
  simp only [toTuples, List.mem_flatMap, List.mem_map, Prod.mk.injEq] at h
  obtain ⟨⟨n', l⟩, hx, j, hj, rfl, rfl⟩ := h
  obtain ⟨d, hd, hxd⟩ := mem_toDict hx
  simp only [fullList, toList, List.mem_flatMap]
  exact ⟨d, hds d hd, (n', l), hxd, hj⟩

theorem level_fullList {c : Container} {f : FFC} {n : String} {i : Nat} (h : (n, i) ∈ toTuples (c.levelDict f)) :
    i ∈ c.fullList := by
  refine mem_fullList ?_ h
  intro d hd
  cases f <;> simp only [all, List.mem_append] <;> tauto

theorem full_fullList {c : Container} {n : String} {i : Nat} (h : (n, i) ∈ toTuples c.fullDict) : i ∈ c.fullList :=
  mem_fullList (fun _ hd => hd) h

end Container

/-! ### Twins -/

namespace Module

theorem twin_marginalCost {m m' : Module} (h : m.core = m'.core) : m.marginalCost = m'.marginalCost := by
  have key : ∀ m : Module, m.core.marginalCost = m.marginalCost := by
    intro m
    have := core_state m
    unfold marginalCost
    cases hk : m.kind with
    | grid p t =>
      simp only [core, hk, Kind.still] at this ⊢
      rw [this]
    | _ => simp only [core, hk, Kind.still]
  rw [← key, h, key]

theorem twin_absorptionCost {m m' : Module} (h : m.core = m'.core) : m.absorptionCost = m'.absorptionCost := by
  have key : ∀ m : Module, m.core.absorptionCost = m.absorptionCost := by
    intro m
    have := core_state m
    unfold absorptionCost
    cases hk : m.kind with
    | grid p t =>
      simp only [core, hk, Kind.still] at this ⊢
      rw [this]
    | _ => simp only [core, hk, Kind.still]
  rw [← key, h, key]

theorem twin_sinkAmount {m m' : Module} (h : m.core = m'.core) (x : ℚ) : sinkAmount m x = sinkAmount m' x := by
  have key : ∀ m : Module, sinkAmount m.core x = sinkAmount m x := by
    intro m; unfold sinkAmount; rw [core_isSink, core_maxConsumption]
  rw [← key, h, key]

theorem twin_sourceAmount {m m' : Module} (h : m.core = m'.core) (x : ℚ) : sourceAmount m x = sourceAmount m' x := by
  have key : ∀ m : Module, sourceAmount m.core x = sourceAmount m x := by
    intro m; unfold sourceAmount; rw [core_isSource, core_maxProduction]
  rw [← key, h, key]

theorem twin_initial {m m' : Module} (h : m.core = m'.core) (hd : m.Deterministic) (v : Nat) :
    core { m with initialStep := v } = core { m' with initialStep := v } ∧
      Deterministic { m with initialStep := v } := by
  refine ⟨?_, hd⟩
  unfold core at h ⊢
  simp only [Module.mk.injEq] at h ⊢
  obtain ⟨h1, h2, h3, h4, h5, h6, h7, h8, h9, h10⟩ := h
  exact ⟨h1, trivial, h3, h4, h5, h6, h7, h8, h9, h10⟩

theorem core_setFinal (m : Module) (v : Int) : Blind (fun m => Microgrid.setFinalOne m v) m := by
  unfold Blind Microgrid.setFinalOne
  cases hk : m.kind with
  | grid p t =>
    simp only [core, hk, Kind.still]
    have : t.still.setFinalStep m.initialStep v =
        ((t.setFinalStep m.initialStep v).1.still, (t.setFinalStep m.initialStep v).2) := by
      unfold TS.setFinalStep TS.still; rfl
    rw [this]
    cases ht : t.setFinalStep m.initialStep v with
    | mk t' r => cases r <;> exact ⟨rfl, rfl⟩
  | load t =>
    simp only [core, hk, Kind.still]
    have : t.still.setFinalStep m.initialStep v =
        ((t.setFinalStep m.initialStep v).1.still, (t.setFinalStep m.initialStep v).2) := by
      unfold TS.setFinalStep TS.still; rfl
    rw [this]
    cases ht : t.setFinalStep m.initialStep v with
    | mk t' r => cases r <;> exact ⟨rfl, rfl⟩
  | renewable t =>
    simp only [core, hk, Kind.still]
    have : t.still.setFinalStep m.initialStep v =
        ((t.setFinalStep m.initialStep v).1.still, (t.setFinalStep m.initialStep v).2) := by
      unfold TS.setFinalStep TS.still; rfl
    rw [this]
    cases ht : t.setFinalStep m.initialStep v with
    | mk t' r => cases r <;> exact ⟨rfl, rfl⟩
  | _ => simp only [core, hk, Kind.still, and_self]

theorem det_setFinal {m : Module} (h : m.Deterministic) (v : Int) : (Microgrid.setFinalOne m v).1.Deterministic := by
  have hf : ∀ (t : TS) (i : Nat), (t.setFinalStep i v).1.forecaster = t.forecaster := by
    intro t i; unfold TS.setFinalStep; rfl
  unfold Deterministic series? at *
  unfold Microgrid.setFinalOne
  cases hk : m.kind with
  | grid p t =>
    have h0 := h t (by simp [hk])
    have h1 := hf t m.initialStep
    simp only
    cases he : t.setFinalStep m.initialStep v with
    | mk t' r =>
      rw [he] at h1
      cases r <;> (intro t'' ht; injection ht with ht; subst ht; simp only at h1; rw [h1]; exact h0)
  | load t =>
    have h0 := h t (by simp [hk])
    have h1 := hf t m.initialStep
    simp only
    cases he : t.setFinalStep m.initialStep v with
    | mk t' r =>
      rw [he] at h1
      cases r <;> (intro t'' ht; injection ht with ht; subst ht; simp only at h1; rw [h1]; exact h0)
  | renewable t =>
    have h0 := h t (by simp [hk])
    have h1 := hf t m.initialStep
    simp only
    cases he : t.setFinalStep m.initialStep v with
    | mk t' r =>
      rw [he] at h1
      cases r <;> (intro t'' ht; injection ht with ht; subst ht; simp only at h1; rw [h1]; exact h0)
  | _ => simp [hk]

theorem twin_setFinal {m m' : Module} (h : m.core = m'.core) (hd : m.Deterministic) (v : Int) :
    (Microgrid.setFinalOne m v).1.core = (Microgrid.setFinalOne m' v).1.core ∧
      (Microgrid.setFinalOne m v).2 = (Microgrid.setFinalOne m' v).2 ∧
      (Microgrid.setFinalOne m v).1.Deterministic := by
  obtain ⟨h1, h2⟩ := Blind.twin h (core_setFinal m v) (core_setFinal m' v)
  exact ⟨h1, h2, det_setFinal hd v⟩

end Module

/-- The modules `ids` of one heap have twins in the other. -/
structure Twins (ids : List Nat) (σ : Nat → Nat) (h h' : Heap) : Prop where
  inj : ∀ i ∈ ids, ∀ j ∈ ids, σ i = σ j → i = j
  core : ∀ i ∈ ids, (h i).core = (h' (σ i)).core
  det : ∀ i ∈ ids, (h i).Deterministic

section
variable {ids : List Nat} {σ : Nat → Nat} {h h' : Heap}

theorem Twins.set (t : Twins ids σ h h') {i : Nat} (hi : i ∈ ids) {m m' : Module} (hc : m.core = m'.core)
    (hd : m.Deterministic) : Twins ids σ (h.set i m) (h'.set (σ i) m') := by
  refine ⟨t.inj, ?_, ?_⟩
  · intro j hj
    unfold Heap.set
    by_cases e : j = i
    · subst e; simp [hc]
    · have : σ j ≠ σ i := fun e' => e (t.inj j hj i hi e')
      simp [e, this, t.core j hj]
  · intro j hj
    unfold Heap.set
    split
    · exact hd
    · exact t.det j hj

/-- Two results of a loop over twins. -/
def SameRun (ids : List Nat) (σ : Nat → Nat) (x y : RunSt × Except Err Unit) : Prop :=
  Twins ids σ x.1.heap y.1.heap ∧ x.1.acc = y.1.acc ∧ x.2 = y.2

theorem Twins.stepOne (t : Twins ids σ h h') {i : Nat} (hi : i ∈ ids) (acc : StepAcc) (name : String) (a : Act)
    (n : Bool) : SameRun ids σ (RunSt.stepOne ⟨h, acc⟩ name i a n) (RunSt.stepOne ⟨h', acc⟩ name (σ i) a n) := by
  obtain ⟨h1, h2, h3⟩ := Module.twin_step (t.core i hi) (t.det i hi) a n
  unfold RunSt.stepOne
  simp only
  cases hs : (h i).step a n with
  | mk m r =>
  cases hs' : (h' (σ i)).step a n with
  | mk m' r' =>
  rw [hs, hs'] at h1 h2
  rw [hs] at h3
  simp only at h1 h2 h3
  subst h2
  cases r <;> exact ⟨t.set hi h1 h3, rfl, rfl⟩

theorem Twins.stepMany {l : List (String × Nat × Act)} (hl : ∀ x ∈ l, x.2.1 ∈ ids) (n : Bool) :
    ∀ {h h' : Heap} (_ : Twins ids σ h h') (acc : StepAcc), SameRun ids σ (RunSt.stepMany l n ⟨h, acc⟩)
      (RunSt.stepMany (l.map fun x => (x.1, σ x.2.1, x.2.2)) n ⟨h', acc⟩) := by
  induction l with
  | nil => intro h h' t acc; exact ⟨t, rfl, rfl⟩
  | cons x l ih =>
    intro h h' t acc
    obtain ⟨name, i, a⟩ := x
    have hs := t.stepOne (hl (name, i, a) (by simp)) acc name a n
    simp only [List.map_cons, RunSt.stepMany]
    cases h1 : RunSt.stepOne ⟨h, acc⟩ name i a n with
    | mk s r =>
    cases h2 : RunSt.stepOne ⟨h', acc⟩ name (σ i) a n with
    | mk s' r' =>
    simp only at hs
    rw [h1, h2] at hs
    obtain ⟨hh, acc₁⟩ := s
    obtain ⟨hh', acc₁'⟩ := s'
    obtain ⟨t', e1, e2⟩ := hs
    simp only at t' e1 e2
    subst e1 e2
    cases r with
    | error e => exact ⟨t', rfl, rfl⟩
    | ok u => exact ih (fun x hx => hl x (by simp [hx])) t' acc₁

theorem Twins.stepControls {d : ModDict} (control : List (String × Ctrl)) (n : Bool)
    (hd : ∀ x ∈ d, ∀ i ∈ x.2, i ∈ ids) :
    ∀ {h h' : Heap} (_ : Twins ids σ h h') (acc : StepAcc), SameRun ids σ (RunSt.stepControls control n d ⟨h, acc⟩)
      (RunSt.stepControls control n (ModDict.rename σ d) ⟨h', acc⟩) := by
  induction d with
  | nil => intro h h' t acc; exact ⟨t, rfl, rfl⟩
  | cons x d ih =>
    intro h h' t acc
    obtain ⟨name, is⟩ := x
    simp only [ModDict.rename, List.map_cons, RunSt.stepControls]
    cases dictGet? control name with
    | none => exact ⟨t, rfl, rfl⟩
    | some c =>
      simp only
      have hm : ((is.map σ).zip c.acts).map (fun ia => (name, ia.1, ia.2)) =
          ((is.zip c.acts).map (fun ia => (name, ia.1, ia.2))).map fun x => (x.1, σ x.2.1, x.2.2) := by
        rw [List.zip_map_left, List.map_map, List.map_map]
        rfl
      rw [hm]
      have hs := Twins.stepMany (σ := σ) (l := (is.zip c.acts).map fun ia => (name, ia.1, ia.2)) (ids := ids) (by
        intro y hy
        obtain ⟨ia, hia, rfl⟩ := List.mem_map.mp hy
        exact hd (name, is) (by simp) _ (List.of_mem_zip hia).1) n t acc
      cases h1 : RunSt.stepMany ((is.zip c.acts).map fun ia => (name, ia.1, ia.2)) n ⟨h, acc⟩ with
      | mk s r =>
      cases h2 : RunSt.stepMany (((is.zip c.acts).map fun ia => (name, ia.1, ia.2)).map fun x => (x.1, σ x.2.1, x.2.2))
          n ⟨h', acc⟩ with
      | mk s' r' =>
      rw [h1, h2] at hs
      obtain ⟨hh, acc₁⟩ := s
      obtain ⟨hh', acc₁'⟩ := s'
      obtain ⟨t', e1, e2⟩ := hs
      simp only at t' e1 e2
      subst e1 e2
      cases r with
      | error e => exact ⟨t', rfl, rfl⟩
      | ok u => exact ih (fun x hx => hd x (by simp [hx])) t' acc₁

theorem Twins.absorbExcess {l : List (String × Nat)} (hl : ∀ x ∈ l, x.2 ∈ ids) :
    ∀ {h h' : Heap} (_ : Twins ids σ h h') (acc : StepAcc) (x : ℚ), SameRun ids σ (RunSt.absorbExcess l x ⟨h, acc⟩)
      (RunSt.absorbExcess (l.map fun ni => (ni.1, σ ni.2)) x ⟨h', acc⟩) := by
  induction l with
  | nil => intro h h' t acc x; exact ⟨t, rfl, rfl⟩
  | cons y l ih =>
    intro h h' t acc x
    obtain ⟨name, i⟩ := y
    have hi : i ∈ ids := hl (name, i) (by simp)
    simp only [List.map_cons, RunSt.absorbExcess, ← Module.twin_sinkAmount (t.core i hi)]
    cases sinkAmount (h i) x with
    | error e => exact ⟨t, rfl, rfl⟩
    | ok amt =>
      simp only
      have hs := t.stepOne hi acc name (.num (-1 * amt)) false
      cases h1 : RunSt.stepOne ⟨h, acc⟩ name i (.num (-1 * amt)) false with
      | mk s r =>
      cases h2 : RunSt.stepOne ⟨h', acc⟩ name (σ i) (.num (-1 * amt)) false with
      | mk s' r' =>
      rw [h1, h2] at hs
      obtain ⟨hh, acc₁⟩ := s
      obtain ⟨hh', acc₁'⟩ := s'
      obtain ⟨t', e1, e2⟩ := hs
      simp only at t' e1 e2
      subst e1 e2
      cases r with
      | error e => exact ⟨t', rfl, rfl⟩
      | ok u => exact ih (fun x hx => hl x (by simp [hx])) t' acc₁ _

theorem Twins.coverNeed {l : List (String × Nat)} (hl : ∀ x ∈ l, x.2 ∈ ids) :
    ∀ {h h' : Heap} (_ : Twins ids σ h h') (acc : StepAcc) (x : ℚ), SameRun ids σ (RunSt.coverNeed l x ⟨h, acc⟩)
      (RunSt.coverNeed (l.map fun ni => (ni.1, σ ni.2)) x ⟨h', acc⟩) := by
  induction l with
  | nil => intro h h' t acc x; exact ⟨t, rfl, rfl⟩
  | cons y l ih =>
    intro h h' t acc x
    obtain ⟨name, i⟩ := y
    have hi : i ∈ ids := hl (name, i) (by simp)
    simp only [List.map_cons, RunSt.coverNeed, ← Module.twin_sourceAmount (t.core i hi)]
    cases sourceAmount (h i) x with
    | error e => exact ⟨t, rfl, rfl⟩
    | ok amt =>
      simp only
      have hs := t.stepOne hi acc name (.num amt) false
      cases h1 : RunSt.stepOne ⟨h, acc⟩ name i (.num amt) false with
      | mk s r =>
      cases h2 : RunSt.stepOne ⟨h', acc⟩ name (σ i) (.num amt) false with
      | mk s' r' =>
      rw [h1, h2] at hs
      obtain ⟨hh, acc₁⟩ := s
      obtain ⟨hh', acc₁'⟩ := s'
      obtain ⟨t', e1, e2⟩ := hs
      simp only at t' e1 e2
      subst e1 e2
      cases r with
      | error e => exact ⟨t', rfl, rfl⟩
      | ok u => exact ih (fun x hx => hl x (by simp [hx])) t' acc₁ _

theorem Twins.costInfo (t : Twins ids σ h h') {d : ModDict} (hd : ∀ x ∈ d, ∀ i ∈ x.2, i ∈ ids) :
    costInfo h' (ModDict.rename σ d) = costInfo h d := by
  have one : ∀ l : List Nat, (∀ i ∈ l, i ∈ ids) → costInfoOf h' (l.map σ) = costInfoOf h l := by
    intro l
    induction l with
    | nil => intro _; rfl
    | cons i l ih =>
      intro hl
      simp only [List.map_cons, costInfoOf]
      have hc := t.core i (hl i (by simp))
      rw [← Module.twin_marginalCost hc, ← Module.twin_absorptionCost hc, ih fun j hj => hl j (by simp [hj])]
  induction d with
  | nil => rfl
  | cons x d ih =>
    obtain ⟨n, l⟩ := x
    have := ih fun y hy => hd y (by simp [hy])
    simp only [ModDict.rename, List.map_cons, Pymgrid.costInfo] at this ⊢
    rw [one l (hd (n, l) (by simp)), this]

theorem Twins.resetMany {l : List Nat} (hl : ∀ i ∈ l, i ∈ ids) : ∀ {h h' : Heap} (_ : Twins ids σ h h'),
    Twins ids σ (Microgrid.resetMany h l).1 (Microgrid.resetMany h' (l.map σ)).1 ∧
      (Microgrid.resetMany h l).2 = (Microgrid.resetMany h' (l.map σ)).2 := by
  induction l with
  | nil => intro h h' t; exact ⟨t, rfl⟩
  | cons i l ih =>
    intro h h' t
    have hi := hl i (by simp)
    obtain ⟨h1, h2, h3⟩ := Module.twin_reset (t.core i hi) (t.det i hi)
    simp only [List.map_cons, Microgrid.resetMany]
    cases hs : (h i).reset with
    | mk m r =>
    cases hs' : (h' (σ i)).reset with
    | mk m' r' =>
    rw [hs, hs'] at h1 h2
    rw [hs] at h3
    simp only at h1 h2 h3
    subst h2
    cases r with
    | error e => exact ⟨t.set hi h1 h3, rfl⟩
    | ok o => exact ih (fun j hj => hl j (by simp [hj])) (t.set hi h1 h3)

theorem Twins.setInitial (v : Nat) {l : List Nat} (hl : ∀ i ∈ l, i ∈ ids) : ∀ {h h' : Heap} (_ : Twins ids σ h h'),
    Twins ids σ (Microgrid.setInitialMany h v l) (Microgrid.setInitialMany h' v (l.map σ)) := by
  induction l with
  | nil => intro h h' t; exact t
  | cons i l ih =>
    intro h h' t
    have hi := hl i (by simp)
    obtain ⟨h1, h2⟩ := Module.twin_initial (t.core i hi) (t.det i hi) v
    simp only [List.map_cons, Microgrid.setInitialMany]
    exact ih (fun j hj => hl j (by simp [hj])) (t.set hi h1 h2)

theorem Twins.setFinal (v : Int) {l : List Nat} (hl : ∀ i ∈ l, i ∈ ids) : ∀ {h h' : Heap} (_ : Twins ids σ h h')
    (any : Bool), Twins ids σ (Microgrid.setFinalMany h v any l).1 (Microgrid.setFinalMany h' v any (l.map σ)).1 ∧
      (Microgrid.setFinalMany h v any l).2 = (Microgrid.setFinalMany h' v any (l.map σ)).2 := by
  induction l with
  | nil => intro h h' t any; exact ⟨t, rfl⟩
  | cons i l ih =>
    intro h h' t any
    have hi := hl i (by simp)
    obtain ⟨h1, h2, h3⟩ := Module.twin_setFinal (t.core i hi) (t.det i hi) v
    simp only [List.map_cons, Microgrid.setFinalMany]
    cases hs : Microgrid.setFinalOne (h i) v with
    | mk m r =>
    cases hs' : Microgrid.setFinalOne (h' (σ i)) v with
    | mk m' r' =>
    rw [hs, hs'] at h1 h2
    rw [hs] at h3
    simp only at h1 h2 h3
    subst h2
    cases r with
    | error e => exact ⟨t.set hi h1 h3, rfl⟩
    | ok b => exact ih (fun j hj => hl j (by simp [hj])) (t.set hi h1 h3) _

end

/-- Two microgrids that differ in the identities of their modules, in logs and in counts of draws only. -/
structure TwinGrid (σ : Nat → Nat) (g g' : Microgrid) : Prop where
  heap : Twins g.cont.fullList σ g.heap g'.heap
  cont : g'.cont = g.cont.rename σ
  initialStep : g'.initialStep = g.initialStep
  finalStep : g'.finalStep = g.finalStep
  shaper : g'.shaper = g.shaper
  trajectory : g'.trajectory = g.trajectory
  calls : g'.calls = g.calls

section
variable {σ : Nat → Nat} {g g' : Microgrid}

theorem toTuples_mem {d : ModDict} {x : String × List Nat} (hx : x ∈ d) {i : Nat} (hi : i ∈ x.2) :
    (x.1, i) ∈ Container.toTuples d := by
  simp only [Container.toTuples, List.mem_flatMap, List.mem_map]
  exact ⟨x, hx, i, hi, rfl⟩

theorem TwinGrid.run (t : TwinGrid σ g g') (control : List (String × Ctrl)) (n : Bool) :
    TwinGrid σ (g.run control n).1 (g'.run control n).1 ∧ (g.run control n).2 = (g'.run control n).2 := by
  obtain ⟨h', c', i', f', sh', tr', ca', bl', ol'⟩ := g'
  obtain ⟨th, q1, q2, q3, q4, q5, q6⟩ := t
  simp only at th q1 q2 q3 q4 q5 q6
  subst q1 q2 q3 q4 q5 q6
  have t : TwinGrid σ g ⟨h', g.cont.rename σ, g.initialStep, g.finalStep, g.shaper, g.trajectory, g.calls, bl', ol'⟩ :=
    ⟨th, rfl, rfl, rfl, rfl, rfl, rfl⟩
  have withHeap : ∀ {h h' : Heap}, Twins g.cont.fullList σ h h' →
      TwinGrid σ { g with heap := h }
        ⟨h', g.cont.rename σ, g.initialStep, g.finalStep, g.shaper, g.trajectory, g.calls, bl', ol'⟩ := fun th =>
    ⟨th, rfl, rfl, rfl, rfl, rfl, rfl⟩
  have hci : costInfo h' (g.cont.rename σ).fullDict = costInfo g.heap g.cont.fullDict := by
    rw [Container.rename_full]
    exact th.costInfo fun x hx i hi => Container.full_fullList (toTuples_mem hx hi)
  unfold Microgrid.run
  simp only [hci]
  cases costInfo g.heap g.cont.fullDict with
  | error e => exact ⟨t, rfl⟩
  | ok ci =>
    simp only
    have hfix : (⟨h', g.cont.rename σ, g.initialStep, g.finalStep, g.shaper, g.trajectory, g.calls, bl', ol'⟩ : Microgrid).fixedSteps = g.fixedSteps.map fun x => (x.1, σ x.2.1, x.2.2) := by
      unfold Microgrid.fixedSteps
      simp only [Container.rename_level, rename_toTuples, List.map_map, List.map_map]
      rfl
    rw [hfix]
    have s1 := Twins.stepMany (σ := σ) (l := g.fixedSteps) (ids := g.cont.fullList) (by
      intro x hx
      obtain ⟨ni, hni, rfl⟩ := List.mem_map.mp hx
      exact Container.level_fullList hni) false t.heap {}
    cases e1 : RunSt.stepMany g.fixedSteps false ⟨g.heap, {}⟩ with
    | mk s r =>
    cases e1' : RunSt.stepMany (g.fixedSteps.map fun x => (x.1, σ x.2.1, x.2.2)) false ⟨h', {}⟩ with
    | mk s' r' =>
    rw [e1, e1'] at s1
    obtain ⟨h₁, a₁⟩ := s
    obtain ⟨h₁', a₁'⟩ := s'
    obtain ⟨t₁, q1, q2⟩ := s1
    simp only at t₁ q1 q2
    subst q1 q2
    cases r with
    | error e => exact ⟨withHeap t₁, rfl⟩
    | ok u =>
      simp only
      cases a₁.balance g.shaper ci with
      | error e => exact ⟨withHeap t₁, rfl⟩
      | ok b =>
        obtain ⟨fp, fc, b3, b4⟩ := b
        simp only
        rw [Container.rename_level]
        have s2 := Twins.stepControls (σ := σ) (d := g.cont.levelDict .controllable) (ids := g.cont.fullList) control n
          (fun x hx i hi => Container.level_fullList (toTuples_mem hx hi)) t₁ a₁
        cases e2 : RunSt.stepControls control n (g.cont.levelDict .controllable) ⟨h₁, a₁⟩ with
        | mk s r =>
        cases e2' : RunSt.stepControls control n (ModDict.rename σ (g.cont.levelDict .controllable)) ⟨h₁', a₁⟩ with
        | mk s' r' =>
        rw [e2, e2'] at s2
        obtain ⟨h₂, a₂⟩ := s
        obtain ⟨h₂', a₂'⟩ := s'
        obtain ⟨t₂, q1, q2⟩ := s2
        simp only at t₂ q1 q2
        subst q1 q2
        cases r with
        | error e => exact ⟨withHeap t₂, rfl⟩
        | ok u =>
          simp only
          cases a₂.balance g.shaper ci with
          | error e => exact ⟨withHeap t₂, rfl⟩
          | ok b =>
            obtain ⟨p, c, b3, b4⟩ := b
            simp only
            have hflex : (⟨h', g.cont.rename σ, g.initialStep, g.finalStep, g.shaper, g.trajectory, g.calls, bl', ol'⟩ : Microgrid).flexList = g.flexList.map fun ni => (ni.1, σ ni.2) := by
              unfold Microgrid.flexList
              simp only [Container.rename_level, rename_toTuples]
            have hmem : ∀ x ∈ g.flexList, x.2 ∈ g.cont.fullList := fun x hx => Container.level_fullList hx
            have s3 : SameRun g.cont.fullList σ (g.dispatch (p - c) ⟨h₂, a₂⟩) ((⟨h', g.cont.rename σ, g.initialStep, g.finalStep, g.shaper, g.trajectory, g.calls, bl', ol'⟩ : Microgrid).dispatch (p - c) ⟨h₂', a₂⟩) := by
              unfold Microgrid.dispatch
              rw [hflex]
              split
              · exact Twins.absorbExcess hmem t₂ a₂ _
              · exact Twins.coverNeed hmem t₂ a₂ _
            cases e3 : g.dispatch (p - c) ⟨h₂, a₂⟩ with
            | mk s r =>
            cases e3' : (⟨h', g.cont.rename σ, g.initialStep, g.finalStep, g.shaper, g.trajectory, g.calls, bl', ol'⟩ : Microgrid).dispatch (p - c) ⟨h₂', a₂⟩ with
            | mk s' r' =>
            rw [e3, e3'] at s3
            obtain ⟨h₃, a₃⟩ := s
            obtain ⟨h₃', a₃'⟩ := s'
            obtain ⟨t₃, q1, q2⟩ := s3
            simp only at t₃ q1 q2
            subst q1 q2
            cases r with
            | error e => exact ⟨withHeap t₃, rfl⟩
            | ok u =>
              simp only
              unfold Microgrid.finish
              simp only
              have w := withHeap t₃
              cases a₃.balance g.shaper ci with
              | error e => exact ⟨w, rfl⟩
              | ok b =>
                obtain ⟨x1, x2, x3, x4⟩ := b
                simp only
                split
                · exact ⟨⟨t₃, rfl, rfl, rfl, rfl, rfl, rfl⟩, rfl⟩
                · cases a₃.shapedReward g.shaper ci with
                  | error e => exact ⟨⟨t₃, rfl, rfl, rfl, rfl, rfl, rfl⟩, rfl⟩
                  | ok q => exact ⟨⟨t₃, rfl, rfl, rfl, rfl, rfl, rfl⟩, rfl⟩

theorem TwinGrid.setTrajectory (t : TwinGrid σ g g') :
    TwinGrid σ g.setTrajectory.1 g'.setTrajectory.1 ∧ g.setTrajectory.2 = g'.setTrajectory.2 := by
  obtain ⟨h, c, i₀, f₀, sh, tr, ca, bl, ol⟩ := g
  obtain ⟨h', c', i', f', sh', tr', ca', bl', ol'⟩ := g'
  obtain ⟨th, q1, q2, q3, q4, q5, q6⟩ := t
  simp only at th q1 q2 q3 q4 q5 q6
  subst q1 q2 q3 q4 q5 q6
  unfold Microgrid.setTrajectory
  cases tr' with
  | none => exact ⟨⟨th, rfl, rfl, rfl, rfl, rfl, rfl⟩, rfl⟩
  | some f =>
    simp only
    cases f ca' i' f' with
    | error e => exact ⟨⟨th, rfl, rfl, rfl, rfl, rfl, rfl⟩, rfl⟩
    | ok x =>
      obtain ⟨i, fin⟩ := x
      simp only
      rw [Container.rename_fullList]
      have s1 := Twins.setInitial (σ := σ) i (l := c.fullList) (fun _ h => h) th
      obtain ⟨s2, s3⟩ := Twins.setFinal (σ := σ) fin (l := c.fullList) (fun _ h => h) s1 false
      exact ⟨⟨s2, rfl, rfl, rfl, rfl, rfl, rfl⟩, s3⟩

theorem TwinGrid.reset (t : TwinGrid σ g g') :
    TwinGrid σ g.reset.1 g'.reset.1 ∧ g.reset.2 = g'.reset.2 := by
  obtain ⟨t₁, e⟩ := t.setTrajectory
  have hcont : g.setTrajectory.1.cont = g.cont := by
    unfold Microgrid.setTrajectory
    repeat' split
    all_goals rfl
  unfold Microgrid.reset
  cases h1 : g.setTrajectory with
  | mk g₁ r =>
  cases h1' : g'.setTrajectory with
  | mk g₁' r' =>
  rw [h1, h1'] at t₁ e
  rw [h1] at hcont
  simp only at t₁ e hcont
  subst e
  cases r with
  | error e => exact ⟨t₁, rfl⟩
  | ok u =>
    simp only
    rw [t.cont, Container.rename_full, rename_toTuples, List.map_map]
    have hm : ((Container.toTuples g.cont.fullDict).map (Prod.snd ∘ fun ni => (ni.1, σ ni.2))) =
        ((Container.toTuples g.cont.fullDict).map Prod.snd).map σ := by rw [List.map_map]; rfl
    rw [hm]
    obtain ⟨s1, s2⟩ := Twins.resetMany (σ := σ) (l := (Container.toTuples g.cont.fullDict).map Prod.snd)
      (ids := g₁.cont.fullList) (by
        intro i hi
        obtain ⟨ni, hni, rfl⟩ := List.mem_map.mp hi
        rw [hcont]
        exact Container.full_fullList hni) t₁.heap
    cases h2 : Microgrid.resetMany g₁.heap ((Container.toTuples g.cont.fullDict).map Prod.snd) with
    | mk hh r =>
    cases h2' : Microgrid.resetMany g₁'.heap (((Container.toTuples g.cont.fullDict).map Prod.snd).map σ) with
    | mk hh' r' =>
    rw [h2, h2'] at s1 s2
    simp only at s1 s2
    subst s2
    cases r with
    | error e => exact ⟨⟨s1, t₁.cont, t₁.initialStep, t₁.finalStep, t₁.shaper, t₁.trajectory, t₁.calls⟩, rfl⟩
    | ok u => exact ⟨⟨s1, t₁.cont, t₁.initialStep, t₁.finalStep, t₁.shaper, t₁.trajectory, t₁.calls⟩, rfl⟩

end

end Pymgrid
