import Verif.Lemmas.CurrencyRBC
import Verif.Lemmas.Window
import Verif.Spec.NoLookahead

set_option autoImplicit false

/-! Lemmas for C104: rule-based control does not look ahead. -/

namespace Pymgrid

open Module PriorityList

section
variable {f : FFC} {N n : Nat} {m m' : Module}

theorem WinMod.limits (h : WinMod f N (n + 1) m m') :
    m'.maxProduction = m.maxProduction ∧ m'.maxConsumption = m.maxConsumption ∧ m'.minProduction = m.minProduction ∧
      m'.isSink = m.isSink := by
  obtain ⟨wf, hf, ⟨hs, L, i, c, rfl⟩ | ⟨t, t', h⟩⟩ := h
  · exact ⟨maxProduction_clock m L i c hs, maxConsumption_clock m L i c hs, rfl, rfl⟩
  · exact ⟨h.maxProduction, h.maxConsumption, h.minProduction, h.isSink⟩

theorem WinMod.genset (h : WinMod f N n m m') :
    (∃ g, m.kind = .genset g ∧ m'.kind = .genset g) ∨ ((∀ g, m.kind ≠ .genset g) ∧ ∀ g, m'.kind ≠ .genset g) := by
  obtain ⟨wf, hf, ⟨hs, L, i, c, rfl⟩ | ⟨t, t', h⟩⟩ := h
  · cases hk : m.kind with
    | genset g => exact .inl ⟨g, rfl, rfl⟩
    | _ => exact .inr ⟨fun g e => by simp at e, fun g e => by simp at e⟩
  · have hs := h.ts.series
    have hk' := h.kind
    unfold series? at hs
    rw [hk']
    cases hk : m.kind <;> rw [hk] at hs <;> simp at hs <;>
      exact .inr ⟨fun g e => by simp at e, fun g e => by simp [Kind.withTS] at e⟩

theorem WinMod.energyFor (h : WinMod f N (n + 1) m m') (a : Nat) (x : ℚ) : energyFor m' a x = energyFor m a x := by
  obtain ⟨h1, h2, h3, h4⟩ := h.limits
  have hp : produce m' a x = produce m a x := by
    unfold produce
    rw [h1, h3]
    rcases h.genset with ⟨g, k, k'⟩ | ⟨k, k'⟩
    · rw [k, k']
    · generalize m.kind = K at k ⊢
      generalize m'.kind = K' at k' ⊢
      cases K <;> cases K' <;> first | rfl | exact (k _ rfl).elim | exact (k' _ rfl).elim
  unfold PriorityList.energyFor consume
  rw [hp, h4, h2]

theorem WinMod.redundantElement (h : WinMod f N (n + 1) m m') (key : String × Nat) :
    redundantElement m' key = redundantElement m key := by
  unfold PriorityList.redundantElement
  rw [h.costs.1]
  rcases h.genset with ⟨g, k, k'⟩ | ⟨k, k'⟩
  · rw [k, k']
  · generalize m.kind = K at k ⊢
    generalize m'.kind = K' at k' ⊢
    cases K <;> cases K' <;> first | rfl | exact (k _ rfl).elim | exact (k' _ rfl).elim

theorem WinMod.actionDim (h : WinMod .controllable N n m m') : m'.actionDim = m.actionDim := by
  obtain ⟨wf, hf, ⟨hs, L, i, c, rfl⟩ | ⟨t, t', h⟩⟩ := h
  · rfl
  · unfold Module.actionDim
    rw [h.act hf]

theorem WinMod.moduleElements (h : WinMod .controllable N (n + 1) m m') (key : String × Nat) :
    moduleElements m' key = moduleElements m key := by
  unfold PriorityList.moduleElements
  rw [h.actionDim, h.costs.1]

end

/-! ### Microgrids -/

theorem collect_congr {h h' : Heap} (l : List ((String × Nat) × Nat))
    (t : ∀ x ∈ l, moduleElements (h' x.2) x.1 = moduleElements (h x.2) x.1) : collect h' l = collect h l := by
  induction l with
  | nil => rfl
  | cons x l ih =>
    obtain ⟨key, i⟩ := x
    simp only [collect]
    have := t (key, i) (by simp)
    simp only at this
    rw [this, ih fun y hy => t y (by simp [hy])]

theorem redundant_congr {h h' : Heap} (l : List ((String × Nat) × Nat))
    (t : ∀ x ∈ l, redundantElement (h' x.2) x.1 = redundantElement (h x.2) x.1) : redundant h' l = redundant h l := by
  induction l with
  | nil => rfl
  | cons x l ih =>
    obtain ⟨key, i⟩ := x
    simp only [redundant]
    have := t (key, i) (by simp)
    simp only at this
    rw [this, ih fun y hy => t y (by simp [hy])]

/-- Two microgrids with `n` rows left, whose containers sort the modules by their class. -/
structure RuleWin (F : Nat → FFC) (N n : Nat) (g g' : Microgrid) : Prop where
  win : WinGrid F N n g g'
  classes : ∀ f s, ∀ nl ∈ g.cont.cat f s, ∀ i ∈ nl.2, F i = f

section
variable {F : Nat → FFC} {N n : Nat} {g g' : Microgrid}

theorem WinGrid.less {k : Nat} (t : WinGrid F N n g g') (hk : k ≤ n) : WinGrid F N k g g' :=
  ⟨fun i hi => (t.heap i hi).less hk, hk.trans t.left, t.cont, t.shaper, t.trajectory, t.trajectory', t.nodup, t.level, t.full⟩

theorem RuleWin.less {k : Nat} (t : RuleWin F N n g g') (hk : k ≤ n) : RuleWin F N k g g' := ⟨t.win.less hk, t.classes⟩

theorem RuleWin.run (t : RuleWin F N (n + 1) g g') (c : List (String × Ctrl)) (b : Bool) :
    RuleWin F N n (g.run c b).1 (g'.run c b).1 ∧ (g'.run c b).2.map RunOut.deeds = (g.run c b).2.map RunOut.deeds := by
  obtain ⟨h1, h2⟩ := t.win.run c b
  exact ⟨⟨h1, by rw [(g.run_fixed c b).cont]; exact t.classes⟩, h2⟩

theorem RuleWin.reset (t : RuleWin F N n g g') :
    RuleWin F N N g.reset.1 g'.reset.1 ∧ g'.reset.2 = g.reset.2 := by
  obtain ⟨h1, h2⟩ := t.win.reset
  exact ⟨⟨h1, by rw [g.reset_fixed.cont]; exact t.classes⟩, h2⟩

theorem RuleWin.after (t : RuleWin F N n g g') (ops : List GOp) {k : Nat} (hk : stepsLeft N n ops = some k) :
    RuleWin F N k (runG g ops) (runG g' ops) := by
  unfold runG
  induction ops generalizing g g' n with
  | nil => simp only [stepsLeft, Option.some.injEq] at hk; subst hk; exact t
  | cons op ops ih =>
    cases op with
    | run c b =>
      cases n with
      | zero => simp [stepsLeft] at hk
      | succ n => exact ih (t.run c b).1 hk
    | reset => exact ih t.reset.1 (by cases n <;> exact hk)

theorem RuleWin.lists (t : RuleWin F N (n + 1) g g') (rg : Bool) : getPriorityLists g' rg = getPriorityLists g rg := by
  have he : elements g' = elements g := by
    unfold elements
    rw [t.win.cont]
    apply collect_congr
    intro x hx
    rcases List.mem_append.mp hx with h | h <;> obtain ⟨nl, h1, h2⟩ := named_mem h
    all_goals
      have hw := t.win.heap _ (cat_fullList h1 h2)
      rw [t.classes _ _ nl h1 _ h2] at hw
      exact hw.moduleElements _
  have hr : redundant g'.heap (named g'.cont.fullDict) = redundant g.heap (named g.cont.fullDict) := by
    rw [t.win.cont]
    apply redundant_congr
    intro x hx
    obtain ⟨nl, h1, h2⟩ := named_mem hx
    exact (t.win.heap _ (Container.full_fullList (toTuples_mem h1 h2))).redundantElement _
  unfold getPriorityLists
  rw [he, hr]

theorem RuleWin.emptyAction (t : RuleWin F N n g g') : emptyAction g' = emptyAction g := by
  unfold PriorityList.emptyAction
  rw [t.win.cont]
  congr 1
  apply List.filter_congr
  intro nl hnl
  cases hl : nl.2 with
  | nil => rfl
  | cons i l =>
    have hm := toTuples_mem hnl (i := i) (by rw [hl]; simp)
    have hw := t.win.heap i (Container.level_fullList hm)
    have hf : F i = .controllable := t.win.level _ _ hm
    rw [hf] at hw
    simp only [hw.actionDim]

theorem RuleWin.populate (t : RuleWin F N (n + 1) g g') (pl : List Element) (act : List (String × List (Option Act))) (x : ℚ) :
    populate g' pl act x = populate g pl act x := by
  induction pl generalizing act x with
  | nil => rfl
  | cons el pl ih =>
    simp only [PriorityList.populate]
    have hl : (∃ e, lookup g el.module.1 el.module.2 = .error e ∧ lookup g' el.module.1 el.module.2 = .error e) ∨
        ∃ m m' f, lookup g el.module.1 el.module.2 = .ok m ∧ lookup g' el.module.1 el.module.2 = .ok m' ∧
          WinMod f N (n + 1) m m' := by
      unfold lookup
      rw [t.win.cont]
      cases hd : dictGet? g.cont.fullDict el.module.1 with
      | none => exact .inl ⟨_, rfl, rfl⟩
      | some l =>
        simp only
        cases hj : l[el.module.2]? with
        | none => exact .inl ⟨_, rfl, rfl⟩
        | some i =>
          exact .inr ⟨_, _, _, rfl, rfl, t.win.heap i (Container.full_fullList (toTuples_mem (dictGet?_mem hd)
            (List.mem_of_getElem? hj)))⟩
    rcases hl with ⟨e, h1, h2⟩ | ⟨m, m', f, h1, h2, hm⟩
    · rw [h1, h2]
    · rw [h1, h2]
      simp only [hm.energyFor, ih]

theorem RuleWin.populateAction (t : RuleWin F N (n + 1) g g') (pl : List Element) :
    populateAction g' pl = populateAction g pl := by
  have h1 : totalLoad g' = totalLoad g := by
    unfold totalLoad
    rw [t.win.cont]
    apply sumE_priced
    intro i hi
    obtain ⟨nl, hnl, hi⟩ := List.mem_flatMap.mp hi
    exact (t.win.heap i (cat_fullList hnl hi)).limits.2.1
  have h2 : totalRenewable g' = totalRenewable g := by
    unfold totalRenewable
    rw [t.win.cont]
    apply sumE_priced
    intro i hi
    obtain ⟨nl, hnl, hi⟩ := List.mem_flatMap.mp hi
    exact (t.win.heap i (cat_fullList hnl hi)).limits.1
  unfold PriorityList.populateAction
  rw [h1, h2, t.emptyAction]
  simp only [t.populate]

end

/-! ### Rule-based control -/

section
variable {F : Nat → FFC} {N n : Nat}

theorem RuleWin.rbcStep {r r' : RBC} (t : RuleWin F N (n + 1) r.g r'.g) (hl : r'.list = r.list) :
    RuleWin F N n r.step.1.g r'.step.1.g ∧ r'.step.1.list = r.step.1.list ∧
      r'.step.2.map RunOut.deeds = r.step.2.map RunOut.deeds := by
  unfold RBC.step
  rw [hl, t.populateAction]
  cases PriorityList.populateAction r.g r.list with
  | error e => exact ⟨t.less (by omega), hl, rfl⟩
  | ok x =>
    obtain ⟨act, rem⟩ := x
    simp only
    cases PriorityList.toControl act with
    | none => exact ⟨t.less (by omega), hl, rfl⟩
    | some c =>
      obtain ⟨h1, h2⟩ := t.run c false
      exact ⟨h1, rfl, h2⟩

theorem RuleWin.acts {k : Nat} {r r' : RBC} (t : RuleWin F N n r.g r'.g) (hl : r'.list = r.list) (hk : k ≤ n) :
    RBC.acts k r' = RBC.acts k r := by
  unfold RBC.acts
  induction k generalizing r r' n with
  | zero => rfl
  | succ k ih =>
    obtain ⟨n, rfl⟩ : ∃ n', n = n' + 1 := ⟨n - 1, by omega⟩
    obtain ⟨h1, h2, h3⟩ := t.rbcStep hl
    have ih := ih h1 h2 (by omega)
    unfold RBC.story
    cases e : r.step with
    | mk s x =>
    cases e' : r'.step with
    | mk s' x' =>
    rw [e, e'] at ih h3
    simp only at ih h3
    cases x <;> cases x' <;> simp only [Except.map, Except.error.injEq, Except.ok.injEq, reduceCtorEq] at h3
    · subst h3; rfl
    · simp only [List.map_cons, ih, Except.map, h3]

theorem RuleWin.loop {k : Nat} {r r' : RBC} (t : RuleWin F N n r.g r'.g) (hl : r'.list = r.list) (hk : k ≤ n) :
    (RBC.loop k r').2 = (RBC.loop k r).2 := by
  induction k generalizing r r' n with
  | zero => rfl
  | succ k ih =>
    obtain ⟨n, rfl⟩ : ∃ n', n = n' + 1 := ⟨n - 1, by omega⟩
    obtain ⟨h1, h2, h3⟩ := t.rbcStep hl
    have ih := ih h1 h2 (by omega)
    unfold RBC.loop
    cases e : r.step with
    | mk s x =>
    cases e' : r'.step with
    | mk s' x' =>
    rw [e, e'] at ih h3
    simp only at ih h3
    cases x <;> cases x' <;> simp only [Except.map, Except.error.injEq, Except.ok.injEq, reduceCtorEq] at h3
    · subst h3; rfl
    · rename_i o o'
      have : o'.done = o.done := by
        unfold RunOut.deeds at h3
        simp only [Prod.mk.injEq] at h3
        exact h3.2.1
      simp only [this]
      split
      · rfl
      · exact ih

theorem RuleWin.create {g g' : Microgrid} (t : RuleWin F N (n + 1) g g') (user : Option (List Element)) (rg : Bool) :
    (RBC.create g' user rg).map RBC.list = (RBC.create g user rg).map RBC.list ∧
      (∀ r, RBC.create g user rg = .ok r → r.g = g) ∧ ∀ r', RBC.create g' user rg = .ok r' → r'.g = g' := by
  unfold RBC.create
  rw [t.lists]
  cases getPriorityLists g rg with
  | error e => exact ⟨rfl, fun _ h => by simp at h, fun _ h => by simp at h⟩
  | ok pls =>
    simp only
    cases RBC.choose pls user with
    | error e => exact ⟨rfl, fun _ h => by simp at h, fun _ h => by simp at h⟩
    | ok pl =>
      refine ⟨rfl, fun _ h => ?_, fun _ h => ?_⟩ <;> · simp only [Except.ok.injEq] at h; subst h; rfl

/-! ### The discrete environment -/

/-- Two environments with `n` rows left. -/
structure EnvWin (F : Nat → FFC) (N n : Nat) (e e' : DiscreteEnv) : Prop where
  g : RuleWin F N n e.g e'.g
  lists : e'.lists = e.lists
  count : e'.n = e.n
  emptySpace : e'.emptySpace = e.emptySpace

theorem RuleWin.env {g g' : Microgrid} (t : RuleWin F N (n + 1) g g') (rg es : Bool) {e : DiscreteEnv}
    (h : DiscreteEnv.create g rg es = .ok e) : ∃ e', DiscreteEnv.create g' rg es = .ok e' ∧ EnvWin F N (n + 1) e e' := by
  unfold DiscreteEnv.create at h ⊢
  rw [t.lists, t.lists]
  cases h1 : getPriorityLists g false with
  | error e => rw [h1] at h; simp at h
  | ok pls =>
    rw [h1] at h
    simp only at h ⊢
    cases h2 : DiscreteEnv.discrete es pls.length with
    | error e => rw [h2] at h; simp at h
    | ok k =>
      rw [h2] at h
      simp only at h ⊢
      cases h3 : getPriorityLists g rg with
      | error e => rw [h3] at h; simp at h
      | ok pls' =>
        rw [h3] at h
        simp only at h ⊢
        cases h4 : DiscreteEnv.discrete es pls'.length with
        | error e => rw [h4] at h; simp at h
        | ok k' =>
          rw [h4] at h
          simp only [Except.ok.injEq] at h ⊢
          subst h
          exact ⟨_, rfl, t, rfl, rfl, rfl⟩

theorem RuleWin.logged {g g' : Microgrid} (t : RuleWin F N n g g') (l l' : Logger) :
    RuleWin F N n { g with otherLog := l } { g' with otherLog := l' } :=
  ⟨⟨t.win.heap, t.win.left, t.win.cont, t.win.shaper, t.win.trajectory, t.win.trajectory', t.win.nodup, t.win.level, t.win.full⟩,
    t.classes⟩

theorem EnvWin.step {e e' : DiscreteEnv} (t : EnvWin F N (n + 1) e e') (a : Int) :
    EnvWin F N n (e.step a).1 (e'.step a).1 ∧ (e'.step a).2.map RunOut.deeds = (e.step a).2.map RunOut.deeds := by
  have ha : e'.getAction a = e.getAction a := by
    unfold DiscreteEnv.getAction DiscreteEnv.contains
    rw [t.lists, t.count]
    simp only [t.g.populateAction]
  unfold DiscreteEnv.step
  rw [ha]
  have tl := t.g.logged (e.g.otherLog.log [(.str "action", (a : ℚ))]) (e'.g.otherLog.log [(.str "action", (a : ℚ))])
  cases e.getAction a with
  | error er => exact ⟨⟨tl.less (by omega), t.lists, t.count, t.emptySpace⟩, rfl⟩
  | ok act =>
    simp only
    cases PriorityList.toControl act with
    | none => exact ⟨⟨tl.less (by omega), t.lists, t.count, t.emptySpace⟩, rfl⟩
    | some c =>
      obtain ⟨h1, h2⟩ := tl.run c false
      exact ⟨⟨h1, t.lists, t.count, t.emptySpace⟩, h2⟩

theorem EnvWin.remove {e e' : DiscreteEnv} (t : EnvWin F N n e e') (a : Int) :
    EnvWin F N n (e.removeAction a).1 (e'.removeAction a).1 ∧ (e'.removeAction a).2 = (e.removeAction a).2 := by
  unfold DiscreteEnv.removeAction DiscreteEnv.contains
  rw [t.lists, t.count, t.emptySpace]
  split
  · exact ⟨t, rfl⟩
  · split
    · simp only
      cases DiscreteEnv.discrete e.emptySpace (e.n - 1) with
      | error er => exact ⟨⟨t.g, rfl, rfl, rfl⟩, rfl⟩
      | ok k => exact ⟨⟨t.g, rfl, rfl, rfl⟩, rfl⟩
    · exact ⟨t, rfl⟩

theorem EnvWin.reset {e e' : DiscreteEnv} (t : EnvWin F N n e e') :
    EnvWin F N N e.reset.1 e'.reset.1 ∧ e'.reset.2 = e.reset.2 := by
  obtain ⟨h1, h2⟩ := t.g.reset
  exact ⟨⟨h1, t.lists, t.count, t.emptySpace⟩, h2⟩

theorem EnvWin.doings {e e' : DiscreteEnv} (t : EnvWin F N n e e') (ops : List EOp) (hf : EOp.fits N n ops) :
    e'.doings ops = e.doings ops := by
  induction ops generalizing e e' n with
  | nil => rfl
  | cons op ops ih =>
    cases op with
    | step a =>
      cases n with
      | zero => exact hf.elim
      | succ n =>
        obtain ⟨h1, h2⟩ := t.step a
        simp only [DiscreteEnv.doings, ih h1 hf, List.cons.injEq, and_true]
        cases e1 : (e.step a).2 <;> cases e2 : (e'.step a).2 <;> rw [e1, e2] at h2 <;> simp [Except.map] at h2 ⊢ <;> exact h2
    | remove a =>
      obtain ⟨h1, h2⟩ := t.remove a
      simp only [DiscreteEnv.doings, ih h1 (by cases n <;> exact hf), h2]
    | reset =>
      obtain ⟨h1, h2⟩ := t.reset
      simp only [DiscreteEnv.doings, ih h1 (by cases n <;> exact hf), h2]

end

/-! ### Building the two microgrids -/

theorem RuleWin.created {N : Nat} {h h' : Heap} {mods : List (String × Nat)} {sh : Option Shaper} {g g' : Microgrid}
    (hl : ∀ nm ∈ mods, LibraryModule (h nm.2)) (hl' : ∀ nm ∈ mods, LibraryModule (h' nm.2))
    (hw : ∀ nm ∈ mods, SameWindow N (h nm.2) (h' nm.2)) (hid : (mods.map Prod.snd).Nodup) (hn : DistinctNames h mods)
    (hc : Microgrid.create h mods sh none = .ok g) (hc' : Microgrid.create h' mods sh none = .ok g') :
    RuleWin (fun i => (h i).ffc) N N g g' := by
  refine ⟨WinGrid.created hl hl' hw hid hn hc hc', ?_⟩
  rw [(Microgrid.create_ok hc).2.1]
  rintro f s ⟨nm, l⟩ hnl i hi
  obtain ⟨rfl, -⟩ := Container.mem_cat.mp hnl
  simp only [Container.idsOf, List.mem_map, List.mem_filter, Container.inCat, Bool.and_eq_true, decide_eq_true_eq] at hi
  obtain ⟨⟨n'', j'⟩, ⟨hm, ⟨hf, -⟩, rfl⟩, rfl⟩ := hi
  exact hf

end Pymgrid
