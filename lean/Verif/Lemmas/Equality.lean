import Verif.Lemmas.Reproduce
import Verif.Lemmas.GetLog
import Verif.Lemmas.NormalizedRun
import Verif.Lemmas.Spaces
import Verif.Spec.Equality

set_option autoImplicit false

/-! Lemmas for C101: what a comparison that succeeds says. -/

namespace Pymgrid

theorem allEager_true {l : List (Except Err Bool)} (h : allEager l = .ok true) : ∀ x ∈ l, x = .ok true := by
  induction l with
  | nil => simp
  | cons x l ih =>
    cases x with
    | error e => simp [allEager] at h
    | ok b =>
      unfold allEager at h
      cases hr : allEager l with
      | error e => rw [hr] at h; simp at h
      | ok c =>
        rw [hr] at h
        simp only [Except.ok.injEq, Bool.and_eq_true] at h
        obtain ⟨rfl, rfl⟩ := h
        intro y hy
        rcases List.mem_cons.mp hy with rfl | hy
        · rfl
        · exact ih hr y hy

theorem allEager_of {l : List (Except Err Bool)} (h : ∀ x ∈ l, x = .ok true) : allEager l = .ok true := by
  induction l with
  | nil => rfl
  | cons x l ih =>
    have hx := h x (by simp)
    subst hx
    unfold allEager
    rw [ih fun y hy => h y (by simp [hy])]
    rfl

theorem allLazy_true {l : List (Except Err Bool)} (h : allLazy l = .ok true) : ∀ x ∈ l, x = .ok true := by
  induction l with
  | nil => simp
  | cons x l ih =>
    cases x with
    | error e => simp [allLazy] at h
    | ok b =>
      cases b with
      | false => simp [allLazy] at h
      | true =>
        intro y hy
        rcases List.mem_cons.mp hy with rfl | hy
        · rfl
        · exact ih (by simpa [allLazy] using h) y hy

theorem allLazy_of {l : List (Except Err Bool)} (h : ∀ x ∈ l, x = .ok true) : allLazy l = .ok true := by
  induction l with
  | nil => rfl
  | cons x l ih =>
    have hx := h x (by simp)
    subst hx
    unfold allLazy
    exact ih fun y hy => h y (by simp [hy])

theorem isclose_refl (x : ℚ) : isclose x x = true := by
  unfold isclose
  simp only [sub_self, abs_zero, decide_eq_true_eq]
  positivity

theorem isclose_near {x y : ℚ} (h : isclose x y = true) : Near x y := by
  unfold isclose at h
  unfold Near
  exact of_decide_eq_true h

theorem pairUp_refl {α : Type} {f : α → α → Except Err Bool} (hf : ∀ x, f x x = .ok true) (a : List α) :
    pairUp f a a = .ok true := by
  unfold pairUp
  rw [if_pos rfl]
  apply allEager_of
  intro x hx
  induction a with
  | nil => simp at hx
  | cons y a ih =>
    simp only [List.zipWith_cons_cons, List.mem_cons] at hx
    rcases hx with rfl | hx
    · exact hf y
    · exact ih hx

/-- Entries of arrays that compare close are compared with each other, or with the only entry there is. -/
theorem pairUp_true {α : Type} {f : α → α → Except Err Bool} {a b : List α} (h : pairUp f a b = .ok true) :
    (a.length = b.length ∧ ∀ (k : Nat) (x y : α), a[k]? = some x → b[k]? = some y → f x y = .ok true) ∨
    (∃ x, a = [x] ∧ ∀ y ∈ b, f x y = .ok true) ∨ (∃ y, b = [y] ∧ ∀ x ∈ a, f x y = .ok true) := by
  unfold pairUp at h
  split at h
  · rename_i hl
    refine .inl ⟨hl, fun k x y hx hy => allEager_true h _ ?_⟩
    refine List.mem_of_getElem? (i := k) ?_
    rw [List.getElem?_zipWith, hx, hy]
  · split at h
    · rename_i x _
      exact .inr (.inl ⟨x, rfl, fun y hy => allEager_true h _ (List.mem_map.mpr ⟨y, hy, rfl⟩)⟩)
    · rename_i y _ _
      exact .inr (.inr ⟨y, rfl, fun x hx => allEager_true h _ (List.mem_map.mpr ⟨x, hx, rfl⟩)⟩)
    · simp at h

theorem Space.eq_refl (s : Space) : s.eq s = true := by
  unfold Space.eq
  simp [isclose_refl]

theorem dictEq_get {α β : Type} [DecidableEq α] [DecidableEq β] {d e : List (α × β)} (h : dictEq d e = true) {k : α} {v : β}
    (hk : dictGet? d k = some v) : dictGet? e k = some v := by
  unfold dictEq at h
  simp only [Bool.and_eq_true, List.all_eq_true, decide_eq_true_eq] at h
  have hm : (k, v) ∈ d := by
    clear h
    induction d with
    | nil => simp [dictGet?] at hk
    | cons kv d ih =>
      obtain ⟨k', v'⟩ := kv
      unfold dictGet? at hk
      split at hk
      · rename_i e
        subst e
        simp only [Option.some.injEq] at hk
        subst hk
        exact List.mem_cons_self
      · exact List.mem_cons_of_mem _ (ih hk)
  exact h.2 _ hm

section
variable {i : Ident} {a b : Module}

theorem SameData.series {t t' : TS} (d : SameData a b) (ha : a.series? = some t) (hb : b.series? = some t')
    (v : t.Valid) (v' : t'.Valid) (h : ∀ x ∈ t.attrs i t', x = .ok true) :
    t'.still = t.still := by
  unfold TS.still
  obtain ⟨h1, h2, h3, h4, h5, h6⟩ := d t t' ha hb
  simp only [TS.attrs, List.mem_cons, List.not_mem_nil, or_false, forall_eq_or_imp, forall_eq, Except.ok.injEq,
    decide_eq_true_eq] at h
  obtain ⟨-, -, -, e1, -, e2, -, e3, -⟩ := h
  have hc : t'.comps = t.comps := by
    unfold TS.currentKeys at e3
    exact (List.map_injective_iff.mpr (fun x y hxy => by injection hxy) e3).symm
  have g1 := v'.fMin.trans (h2.trans v.fMin.symm)
  have g2 := v'.fMax.trans (h3.trans v.fMax.symm)
  have g3 : t'.forecaster.obsRows = t.forecaster.obsRows := by rw [v'.fObs, v.fObs, e2]
  have g4 : t'.forecaster.fcRows = t.forecaster.fcRows := by rw [v'.fRows, v.fRows, e2]
  obtain ⟨r, c, m1, m2, fs, hz, pa, ⟨k, q1, q2, q3, q4⟩, cu, dr⟩ := t
  obtain ⟨r', c', m1', m2', fs', hz', pa', ⟨k', q1', q2', q3', q4'⟩, cu', dr'⟩ := t'
  simp only at *
  subst_vars
  rfl

theorem base_true (h : ∀ x ∈ Module.baseAttrs a b, x = .ok true) :
    a.raiseErrors = b.raiseErrors ∧ a.initialStep = b.initialStep ∧ a.currentStep = b.currentStep ∧
      a.provName = b.provName ∧ a.absName = b.absName ∧ a.logger.eq b.logger = true := by
  simp only [Module.baseAttrs, List.mem_cons, List.not_mem_nil, or_false, forall_eq_or_imp, forall_eq, Except.ok.injEq,
    decide_eq_true_eq] at h
  exact ⟨h.1, h.2.1, h.2.2.1, h.2.2.2.2.2.1, h.2.2.2.2.2.2.1, h.2.2.2.2.2.2.2⟩

theorem still_boxes {k k' : Kind} (h : k'.still = k.still) : k'.obsBox = k.obsBox ∧ k'.actBox = k.actBox := by
  have h1 : ∀ k : Kind, k.still.obsBox = k.obsBox := by intro k; cases k <;> rfl
  have h2 : ∀ k : Kind, k.still.actBox = k.actBox := by intro k; cases k <;> rfl
  exact ⟨by rw [← h1, h, h1], by rw [← h2, h, h2]⟩

theorem core_of (ha : a.Spaced) (hb : b.Spaced) (hf : b.ffc = a.ffc) (hk : b.kind.still = a.kind.still)
    (h : ∀ x ∈ Module.baseAttrs a b, x = .ok true) : a.core = b.core ∧ a.logger.eq b.logger = true := by
  obtain ⟨h1, h2, h3, h4, h5, h6⟩ := base_true h
  obtain ⟨k1, k2⟩ := still_boxes hk
  have s1 : b.obsSpace = a.obsSpace := by rw [ha.obs, hb.obs, k1]
  have s2 : b.actSpace = a.actSpace := by rw [ha.act, hb.act, k2]
  refine ⟨?_, h6⟩
  unfold Module.core
  rw [h1, h2, h3, h4, h5, s1, s2, hf, hk]

theorem Battery.eq_of (hi : i.Sound) {x y : Battery} (h : ∀ z ∈ x.attrs i y, z = .ok true) : y = x := by
  obtain ⟨x1, x2, x3, x4, x5, x6, x7, x8, x9, x10, x11, x12⟩ := x
  obtain ⟨y1, y2, y3, y4, y5, y6, y7, y8, y9, y10, y11, y12⟩ := y
  simp only [Battery.attrs, List.mem_cons, List.not_mem_nil, or_false, forall_eq_or_imp, forall_eq, Except.ok.injEq,
    decide_eq_true_eq] at h
  obtain ⟨e1, e2, e3, e4, e5, e6, e7, e8, e9, e10, e11, e12⟩ := h
  have : y7 = x7 := by
    cases x7 <;> cases y7 <;> simp only [Bool.false_eq_true] at e6 ⊢
    rw [hi.transition _ _ e6]
  subst_vars
  rfl

theorem Genset.eq_of (hi : i.Sound) {x y : Genset} (h : ∀ z ∈ x.attrs i y, z = .ok true) : y = x := by
  obtain ⟨x1, x2, x3, x4, x5, x6, x7, x8, x9, x10, x11, x12, x13⟩ := x
  obtain ⟨y1, y2, y3, y4, y5, y6, y7, y8, y9, y10, y11, y12, y13⟩ := y
  simp only [Genset.attrs, List.mem_cons, List.not_mem_nil, or_false, forall_eq_or_imp, forall_eq, Except.ok.injEq,
    decide_eq_true_eq] at h
  obtain ⟨e1, e2, e3, e4, e5, e6, e7, e8, e9, e10, e11, e12, e13⟩ := h
  have : y3 = x3 := by
    cases x3 <;> cases y3 <;> simp only [Bool.false_eq_true, decide_eq_true_eq] at e5 ⊢
    · rw [e5]
    · rw [hi.cost _ _ e5]
  subst_vars
  rfl

theorem WF.series_valid (h : a.WF) {t : TS} (ht : a.series? = some t) : t.Valid := by
  have key : ∀ {t₁ : TS}, a.TSWF t₁ → t.Valid := by
    intro t₁ h1
    have := h1.series
    rw [ht] at this
    injection this with this
    subst this
    exact h1.valid
  cases h with
  | grid p t' h w => exact key h.ts
  | load t' h w => exact key h.ts
  | renewable t' h w => exact key h.ts
  | battery b h => simp [Module.series?, h.kind] at ht
  | genset g h => simp [Module.series?, h.kind] at ht
  | balancing u h => simp [Module.series?, h.kind] at ht

/-- Modules that compare equal and have identical data are the same but for the order of their logs and the number of random draws. -/
theorem eq_core (hi : i.Sound) (wa : a.WF) (wb : b.WF) (sa : a.Spaced) (sb : b.Spaced) (hf : b.ffc = a.ffc)
    (hd : SameData a b) (h : a.eq i b = .ok true) : a.core = b.core ∧ a.logger.eq b.logger = true := by
  unfold Module.eq at h
  split at h
  · rename_i x y hx hy
    have h := allEager_true h
    refine core_of sa sb hf ?_ fun z hz => h z (by simp [hz])
    rw [hx, hy, Battery.eq_of (x := x) (y := y) hi fun z hz => h z (by simp [hz])]
  · rename_i x y hx hy
    have h := allEager_true h
    refine core_of sa sb hf ?_ fun z hz => h z (by simp [hz])
    rw [hx, hy, Genset.eq_of (x := x) (y := y) hi fun z hz => h z (by simp [hz])]
  · rename_i p x q y hx hy
    have h := allEager_true h
    refine core_of sa sb hf ?_ fun z hz => h z (by simp [hz])
    have h1 : a.series? = some x := by simp [Module.series?, hx]
    have h2 : b.series? = some y := by simp [Module.series?, hy]
    have e := hd.series (i := i) h1 h2 (WF.series_valid wa h1) (WF.series_valid wb h2) fun z hz => h z (by simp [hz])
    simp only [List.cons_append, List.nil_append, List.mem_cons, forall_eq_or_imp, Except.ok.injEq, decide_eq_true_eq] at h
    obtain ⟨e1, e2, e3, -⟩ := h
    simp only [hx, hy, Kind.still, e]
    obtain ⟨p1, p2, p3⟩ := p
    obtain ⟨q1, q2, q3⟩ := q
    simp only at e1 e2 e3
    rw [e1, e2, e3]
  · rename_i x y hx hy
    have h := allEager_true h
    refine core_of sa sb hf ?_ fun z hz => h z (by simp [hz])
    have h1 : a.series? = some x := by simp [Module.series?, hx]
    have h2 : b.series? = some y := by simp [Module.series?, hy]
    simp only [hx, hy, Kind.still, hd.series (i := i) h1 h2 (WF.series_valid wa h1) (WF.series_valid wb h2) fun z hz => h z (by simp [hz])]
  · rename_i x y hx hy
    have h := allEager_true h
    refine core_of sa sb hf ?_ fun z hz => h z (by simp [hz])
    have h1 : a.series? = some x := by simp [Module.series?, hx]
    have h2 : b.series? = some y := by simp [Module.series?, hy]
    simp only [hx, hy, Kind.still, hd.series (i := i) h1 h2 (WF.series_valid wa h1) (WF.series_valid wb h2) fun z hz => h z (by simp [hz])]
  · rename_i x y hx hy
    have h := allEager_true h
    refine core_of sa sb hf ?_ fun z hz => h z (by simp [hz])
    have e1 := h (.ok (decide (x.lossLoadCost = y.lossLoadCost))) (by simp)
    have e2 := h (.ok (decide (x.overgenerationCost = y.overgenerationCost))) (by simp)
    simp only [Except.ok.injEq, decide_eq_true_eq] at e1 e2
    rw [hx, hy]
    obtain ⟨x1, x2⟩ := x
    obtain ⟨y1, y2⟩ := y
    simp only at e1 e2
    rw [e1, e2]
  · simp at h

theorem twin_replies (ops : List MOp) : ∀ {a b : Module}, a.core = b.core → a.Deterministic → replies b ops = replies a ops := by
  induction ops with
  | nil => intro a b _ _; rfl
  | cons op ops ih =>
    intro a b h hd
    cases op with
    | step x n =>
      obtain ⟨h1, h2, h3⟩ := Module.twin_step h hd x n
      unfold replies
      rw [h2, ih h1 h3]
    | reset =>
      obtain ⟨h1, h2, h3⟩ := Module.twin_reset h hd
      unfold replies
      rw [h2, ih h1 h3]
    | setSoc v =>
      obtain ⟨h1, h3⟩ := Module.twin_op h hd (.setSoc v)
      unfold replies
      rw [ih h1 h3]
    | setCharge v =>
      obtain ⟨h1, h3⟩ := Module.twin_op h hd (.setCharge v)
      unfold replies
      rw [ih h1 h3]

end

/-! ### Microgrids -/

section
variable {i : Ident} {g g' : Microgrid} {mods : List (String × Nat)} {σ : Nat → Nat}

/-- Containers that compare equal and list the same names in the same order hold modules that compare equal. -/
theorem container_true (ok : GridOK mods g) (hc : g'.cont = g.cont.rename σ)
    (h : allLazy (List.zipWith (ModDict.eq fun x y => (g.heap x).eq i (g'.heap y)) g.cont.all g'.cont.all) = .ok true) :
    ∀ nm ∈ mods, (g.heap nm.2).eq i (g'.heap (σ nm.2)) = .ok true := by
  have key : ∀ f s, ModDict.eq (fun x y => (g.heap x).eq i (g'.heap y)) (g.cont.cat f s)
      (ModDict.rename σ (g.cont.cat f s)) = .ok true := by
    intro f s
    refine allLazy_true h _ ?_
    rw [hc]
    unfold Container.all Container.level Container.rename
    cases f <;> cases s <;> simp
  intro nm hm
  have hk := key (g.heap nm.2).ffc (g.heap nm.2).ss
  have hp := (Container.cat_perm g.heap mods (g.heap nm.2).ffc (g.heap nm.2).ss).symm.subset
    (List.mem_filter.mpr ⟨hm, by simp [Container.inCat]⟩)
  rw [← ok.cont] at hp
  unfold Container.toTuples at hp
  obtain ⟨nl, hnl, hx⟩ := List.mem_flatMap.mp hp
  obtain ⟨j, hj, e⟩ := List.mem_map.mp hx
  subst e
  unfold ModDict.eq at hk
  rw [if_pos (by simp [ModDict.rename])] at hk
  have h1 := allLazy_true hk _ (List.mem_map.mpr ⟨nl, hnl, rfl⟩)
  have hn := Container.cat_nodup g.heap mods (g.heap j).ffc (g.heap j).ss
  rw [← ok.cont] at hn
  rw [rename_get, dictGet?_of_mem (v := nl.2) hn hnl] at h1
  simp only [Option.map_some] at h1
  unfold listEq at h1
  rw [if_pos (by simp)] at h1
  obtain ⟨k, hk⟩ := List.getElem?_of_mem hj
  refine allLazy_true h1 _ (List.mem_of_getElem? (i := k) ?_)
  rw [List.getElem?_zipWith, hk, List.getElem?_map, hk]
  rfl

/-- Two microgrids of the same shape that compare equal and have identical data are twins. -/
theorem eq_twins (hi : i.Sound) (ok : GridOK mods g) (ok' : GridOK mods g')
    (sp : ∀ nm ∈ mods, (g.heap nm.2).Spaced) (sp' : ∀ nm ∈ mods, (g'.heap nm.2).Spaced)
    (hc : g'.cont = g.cont) (hf : ∀ nm ∈ mods, (g'.heap nm.2).ffc = (g.heap nm.2).ffc)
    (hd : ∀ nm ∈ mods, SameData (g.heap nm.2) (g'.heap nm.2)) (hdet : ∀ nm ∈ mods, (g.heap nm.2).Deterministic)
    (h : g.eq i g' = .ok true) :
    Twins g.cont.fullList id g.heap g'.heap ∧ g'.trajectory = g.trajectory ∧
      g.balanceLog.eq g'.balanceLog = true ∧ ∀ nm ∈ mods, (g.heap nm.2).logger.eq (g'.heap nm.2).logger = true := by
  have h := allEager_true h
  simp only [List.mem_cons, List.not_mem_nil, or_false, forall_eq_or_imp, forall_eq, Except.ok.injEq] at h
  obtain ⟨h1, h2, h3⟩ := h
  have eqs := container_true (σ := id) ok (by rw [hc, Container.rename_id]) h1
  have cores : ∀ nm ∈ mods, (g.heap nm.2).core = (g'.heap nm.2).core ∧ (g.heap nm.2).logger.eq (g'.heap nm.2).logger = true :=
    fun nm hm => eq_core hi (ok.wf nm hm) (ok'.wf nm hm) (sp nm hm) (sp' nm hm) (hf nm hm) (hd nm hm) (eqs nm hm)
  have ids : ∀ j ∈ g.cont.fullList, ∃ nm ∈ mods, nm.2 = j := by
    intro j hj
    rw [ok.cont] at hj
    exact List.mem_map.mp ((Container.fullList_perm _ _).subset hj)
  refine ⟨⟨fun _ _ _ _ e => e, ?_, ?_⟩, ?_, h2, fun nm hm => (cores nm hm).2⟩
  · intro j hj
    obtain ⟨nm, hm, rfl⟩ := ids j hj
    exact (cores nm hm).1
  · intro j hj
    obtain ⟨nm, hm, rfl⟩ := ids j hj
    exact hdet nm hm
  · split at h3
    · rename_i e e'; rw [e, e']
    · rename_i f f' e e'; rw [e, e', hi.trajectory f f' h3]
    · simp at h3

theorem create_calls {h : Heap} {sh : Option Shaper} {tr : Option (Nat → Nat → Option Nat → Except Err (Nat × Nat))}
    (hc : Microgrid.create h mods sh tr = .ok g) : g.calls = if tr.isSome then 1 else 0 := by
  have key : ∀ {g₁ g₂ : Microgrid}, g₁.checkTrajectory tr = .ok g₂ → g₁.calls = 0 →
      g₂.calls = if tr.isSome then 1 else 0 := by
    intro g₁ g₂ h h0
    unfold Microgrid.checkTrajectory at h
    repeat' split at h
    all_goals first
      | (simp at h; done)
      | (injection h with h; subst h; first | rfl | simpa using h0)
  unfold Microgrid.create at hc
  simp only at hc
  repeat' split at hc
  all_goals first
    | exact key hc rfl
    | simp at hc

/-- Twins have the same first and last step, and so have microgrids without trajectory functions. -/
theorem eq_steps {h h' : Heap} {sh sh' : Option Shaper} {g₀ g₀' : Microgrid} {ops₁ ops₂ : List GOp}
    (hc : Microgrid.create h mods sh none = .ok g₀) (hc' : Microgrid.create h' mods sh' none = .ok g₀')
    (hl : ∀ nm ∈ mods, LibraryModule (h nm.2)) (hl' : ∀ nm ∈ mods, LibraryModule (h' nm.2))
    (hd : DistinctNames h mods) (hd' : DistinctNames h' mods)
    (cores : ∀ nm ∈ mods, ((runG g₀ ops₁).heap nm.2).core = ((runG g₀' ops₂).heap nm.2).core) :
    g₀'.initialStep = g₀.initialStep ∧ g₀'.finalStep = g₀.finalStep := by
  have ok := GridOK.created hc hl
  have ok' := GridOK.created hc' hl'
  obtain ⟨rfl, -, -, ht, -, h6, -⟩ := Microgrid.create_ok hc
  obtain ⟨rfl, -, -, ht', -, h6', -⟩ := Microgrid.create_ok hc'
  rcases h6 with ⟨e, h1, h2⟩ | ⟨hne, h1, f, h2, h3⟩
  · rcases h6' with ⟨-, h1', h2'⟩ | ⟨hne, -⟩
    · exact ⟨h1'.trans h1.symm, h2'.trans h2.symm⟩
    · exact absurd e hne
  · rcases h6' with ⟨e, -⟩ | ⟨-, h1', f', h2', h3'⟩
    · exact absurd e hne
    have sib : ∀ {g : Microgrid}, GridOK mods g → g.trajectory = none → ∀ (ops : List GOp), ∀ nm ∈ mods,
        (g.heap nm.2).Sib ((runG g ops).heap nm.2) := fun ok ht ops nm hm =>
      (runG_rel (P := fun m m' => m.WF → m'.WF ∧ Module.Sib m m')
        { refl := fun m hw => ⟨hw, .refl m⟩
          trans := fun x y hw => ⟨(y (x hw).1).1, (x hw).2.trans (y (x hw).1).2⟩
          step := fun m a n hw => ⟨hw.step a n, hw.sib_step a n⟩ }
        (fun m hw => ⟨hw.reset, hw.sib_reset⟩) ht ops nm.2 (ok.wf nm hm)).2
    have fin : ∀ {m m' : Module}, m.Sib m' → m'.finalStep? = m.finalStep? := by
      intro m m' hs
      have hk := hs.kind
      unfold Module.finalStep?
      generalize m.kind = k at hk
      generalize m'.kind = k' at hk
      cases hk with
      | battery | genset | balancing => rfl
      | grid p s => simp [s.finalStep]
      | load s => simp [s.finalStep]
      | renewable s => simp [s.finalStep]
    have cfin : ∀ m : Module, m.core.finalStep? = m.finalStep? := by
      intro m
      unfold Module.core Module.finalStep?
      cases m.kind <;> rfl
    have mem : ∀ {h : Heap}, DistinctNames h mods → ∀ nm ∈ mods,
        nm.2 ∈ (Container.toTuples (Container.build h mods).fullDict).map Prod.snd := fun hd nm hm =>
      ((Container.full_perm hd).map Prod.snd).symm.subset (List.mem_map_of_mem (f := Prod.snd) hm)
    constructor
    · obtain ⟨nm, hm⟩ := List.exists_mem_of_ne_nil _ hne
      have e1 := (uniqueVal_ok h1).1 _ (List.mem_map_of_mem (f := fun i => (g₀.heap i).initialStep) (mem hd nm hm))
      have e2 := (uniqueVal_ok h1').1 _ (List.mem_map_of_mem (f := fun i => (g₀'.heap i).initialStep) (mem hd' nm hm))
      have e3 : ((runG g₀ ops₁).heap nm.2).initialStep = ((runG g₀' ops₂).heap nm.2).initialStep := by
        have := congrArg Module.initialStep (cores nm hm)
        simpa [Module.core] using this
      rw [← e1, ← e2, ← (sib ok ht ops₁ nm hm).frame.init, ← (sib ok' ht' ops₂ nm hm).frame.init, e3]
    · obtain ⟨F, hF⟩ := List.exists_mem_of_ne_nil _ (uniqueVal_ok h3).2
      have e1 := (uniqueVal_ok h3).1 F hF
      obtain ⟨j, hj, hjF⟩ := List.mem_filterMap.mp hF
      obtain ⟨nm, hm, rfl⟩ := List.mem_map.mp (((Container.full_perm hd).map Prod.snd).subset hj)
      have e2 : (g₀'.heap nm.2).finalStep? = some F := by
        rw [← hjF, ← fin (sib ok ht ops₁ nm hm), ← fin (sib ok' ht' ops₂ nm hm), ← cfin, ← cores nm hm, cfin]
      have e3 := (uniqueVal_ok h3').1 F (List.mem_filterMap.mpr ⟨nm.2, mem hd' nm hm, e2⟩)
      rw [h2, h2', ← e1, ← e3]

end

end Pymgrid
