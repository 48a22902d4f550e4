import Verif.Lemmas.FirstList
import Verif.Lemmas.Log
import Verif.Lemmas.PlanRun
import Verif.Lemmas.Size
import Verif.Lemmas.Sync

set_option autoImplicit false

/-! Rule-based control: sorting, and the loop of `run`. -/

namespace Pymgrid

/-! ### Sorting -/

theorem RBC.sorted_perm (l : List Element) : (RBC.sorted l).Perm l := List.perm_insertionSort _ _

theorem RBC.sorted_pairwise (l : List Element) :
    (RBC.sorted l).Pairwise fun a b => a.cost ≤ b.cost ∧ (a.cost = b.cost → b.action ≤ a.action) := by
  have : IsTrans Element fun a b => b.lt a = false := ⟨by
    intro a b c h1 h2
    simp only [Element.lt, decide_eq_false_iff_not, not_or, not_lt, not_and, gt_iff_lt] at h1 h2 ⊢
    refine ⟨h1.1.trans h2.1, fun e => ?_⟩
    have e1 : b.cost = a.cost := le_antisymm (by rw [← e]; exact h2.1) h1.1
    exact (h2.2 (e.trans e1.symm)).trans (h1.2 e1)⟩
  have : Std.Total fun a b : Element => b.lt a = false := ⟨by
    intro a b
    simp only [Element.lt, decide_eq_false_iff_not, not_or, not_lt, not_and, gt_iff_lt]
    rcases lt_trichotomy a.cost b.cost with h | h | h
    · exact Or.inl ⟨h.le, fun e => absurd e h.ne'⟩
    · rcases le_total b.action a.action with h' | h'
      · exact Or.inl ⟨h.le, fun _ => h'⟩
      · exact Or.inr ⟨h.ge, fun _ => h'⟩
    · exact Or.inr ⟨h.le, fun e => absurd e h.ne'⟩⟩
  refine (List.pairwise_insertionSort (fun a b : Element => b.lt a = false) l).imp ?_
  intro a b h
  simp only [Element.lt, decide_eq_false_iff_not, not_or, not_lt, not_and, gt_iff_lt] at h
  exact ⟨h.1, fun e => h.2 e.symm⟩

theorem IsPriorityList.perm {h : Heap} {mods : List (String × Nat)} {pl pl' : List Element}
    (hp : IsPriorityList h mods pl) (e : pl'.Perm pl) : IsPriorityList h mods pl' where
  once := (e.map Element.module).nodup_iff.mpr hp.once
  all key i hd := (e.map Element.module).mem_iff.mpr (hp.all key i hd)
  element x hx := hp.element x (e.mem_iff.mp hx)

/-! ### Stability under the operations of a microgrid -/

theorem Denotes.congr {h h' : Heap} {mods : List (String × Nat)} (hh : ∀ j, (h' j).ffc = (h j).ffc)
    {key : String × Nat} {i : Nat} : Denotes h' mods key i ↔ Denotes h mods key i := by
  unfold Denotes
  rw [modulesNamed_congr hh]

/-- The part of being a priority list that does not depend on the state. -/
structure Fits (h : Heap) (mods : List (String × Nat)) (pl : List Element) : Prop where
  use : PriorityList.Usable h mods pl
  all : ∀ key i, Denotes h mods key i → key ∈ pl.map Element.module

theorem Fits.congr {h h' : Heap} {mods : List (String × Nat)} {pl : List Element} (hp : Fits h mods pl)
    (hh : ∀ j, (h' j).ffc = (h j).ffc) (hcl : ∀ j, (h' j).kind.cls = (h j).kind.cls) : Fits h' mods pl where
  use := ⟨hp.use.once, fun e he => by
    obtain ⟨i, h1, h2, h3⟩ := hp.use.element e he
    exact ⟨i, (Denotes.congr hh).mpr h1, by rw [hcl]; exact h2, h3⟩⟩
  all key i hd := hp.all key i ((Denotes.congr hh).mp hd)

theorem IsPriorityList.fits {h : Heap} {mods : List (String × Nat)} {pl : List Element}
    (hp : IsPriorityList h mods pl) : Fits h mods pl :=
  ⟨⟨hp.once, fun e he => by obtain ⟨i, h1, h2, h3, -⟩ := hp.element e he; exact ⟨i, h1, h2, h3⟩⟩, hp.all⟩

theorem Dims.congr {g g' : Microgrid} {mods : List (String × Nat)} (hd : Dims g mods)
    (ha : ∀ j, (g.heap j).Alike (g'.heap j)) (hcl : ∀ j, (g'.heap j).kind.cls = (g.heap j).kind.cls) :
    Dims g' mods := by
  intro nm hm hf
  have := hd nm hm ((ha nm.2).ffc.symm.trans hf)
  rw [hcl]
  rw [← this]
  unfold Module.actionDim
  rw [(ha nm.2).act]

/-! ### Planned controls are accepted -/

theorem Planned.supplied {h : Heap} {mods : List (String × Nat)} {pl : List Element} {c : List (String × Ctrl)}
    {net rem : ℚ} {xs : List ℚ} (p : Planned h mods pl c net rem xs) : Supplies h mods c := by
  intro nm hm hf
  rcases p.supplies nm.1 with ⟨-, h2⟩ | ⟨k, h1, h2, -⟩
  · exfalso
    have : nm.2 ∈ modulesNamed h mods .controllable nm.1 := by
      unfold modulesNamed
      simp only [List.mem_map, List.mem_filter, decide_eq_true_eq]
      exact ⟨nm, ⟨hm, by simp [hf]⟩, rfl⟩
    rw [h2] at this
    simp at this
  · exact ⟨k, h1, h2.ge⟩

theorem Module.WF.plan_accepts {m : Module} (h : m.WF) (hf : m.ffc = .controllable) {action : Nat}
    (ha : action < m.kind.cls.actions) {lo hi x : ℚ} (hw : m.planWindow action = some (lo, hi))
    (hx : (lo ≤ x ∧ x ≤ hi) ∨ (x = 0 ∧ 0 < lo)) : m.Accepts (m.planAct action x) false := by
  cases h with
  | battery b h => simp only [Module.planAct, Module.Accepts, h.kind]; exact ⟨x, m.request_num x⟩
  | grid p t h w => simp only [Module.planAct, Module.Accepts, h.kind]; exact ⟨x, m.request_num x⟩
  | genset g h =>
    rw [h.kind] at ha
    have ha : action < 2 := ha
    obtain ⟨g', e', wf, -, -⟩ := h.goal ha
    have hlo : 0 ≤ lo := by
      simp only [Module.planWindow, Module.afterStatus, h.kind, e'] at hw
      rw [wf.window] at hw
      obtain ⟨rfl, -⟩ := Prod.mk.inj (Option.some.inj hw)
      obtain ⟨p', hp''⟩ := wf.phase
      rcases hp''.1.status with e | e <;> simp [Genset.minProduction, e, wf.min_nonneg]
    simp only [Module.planAct, Module.Accepts, h.kind]
    have h1 : (action : ℚ) ≤ 1 := by
      have : action ≤ 1 := by omega
      exact_mod_cast this
    refine ⟨action, x, rfl, by positivity, h1, x, Module.request_genset h _ _, ?_⟩
    rcases hx with hx | hx
    · exact hlo.trans hx.1
    · exact hx.1.ge
  | load t h w => rw [h.ffc] at hf; exact absurd hf (by decide)
  | renewable t h w => rw [h.ffc] at hf; exact absurd hf (by decide)
  | balancing u h => rw [h.ffc] at hf; exact absurd hf (by decide)

variable {mods : List (String × Nat)} {g : Microgrid} {pl : List Element}

theorem Planned.accepted (ok : GridOK mods g) (hu : ClearNames g.heap mods) (hp : Fits g.heap mods pl)
    {c : List (String × Ctrl)} {net rem : ℚ} {xs : List ℚ} (p : Planned g.heap mods pl c net rem xs) :
    ∀ nl ∈ g.cont.levelDict .controllable, ∃ k, dictGet? c nl.1 = some k ∧
      ∀ ia ∈ nl.2.zip k.acts, (g.heap ia.1).Accepts ia.2 false := by
  intro nl hnl
  have hnl' := hnl
  rw [ok.cont] at hnl'
  have hne : nl.2 ≠ [] := PriorityList.level_nonempty hnl'
  have hnamed := Container.level_named hu hnl'
  obtain ⟨i₀, hi₀⟩ := List.exists_mem_of_ne_nil _ hne
  obtain ⟨k, hk, -⟩ := p.supplied (nl.1, i₀) (ok.mem_levelDict nl hnl i₀ hi₀).1 (ok.mem_levelDict nl hnl i₀ hi₀).2
  refine ⟨k, hk, ?_⟩
  intro ia hia
  obtain ⟨j, hj, hje⟩ := List.getElem_of_mem hia
  have hj2 : j < nl.2.length ∧ j < k.acts.length := by simpa using hj
  simp only [List.getElem_zip] at hje
  have hd : Denotes g.heap mods (nl.1, j) ia.1 := by
    unfold Denotes
    simp only
    rw [← hnamed, List.getElem?_eq_getElem hj2.1, ← hje]
  obtain ⟨e, he, hem⟩ := List.mem_map.mp (hp.all _ _ hd)
  obtain ⟨n, hn, hne'⟩ := List.getElem_of_mem he
  have hz : (e, xs[n]'(by rw [p.len]; exact hn)) ∈ pl.zip xs :=
    List.mem_iff_getElem.mpr ⟨n, by simp [p.len, hn], by simp [hne']⟩
  obtain ⟨i, k', lo, hi, d1, d2, d3, d4, d5, -⟩ := p.each _ hz
  simp only [hem] at d1 d2 d3
  have hii : i = ia.1 := Option.some.inj (d1.symm.trans hd)
  rw [hk] at d2
  obtain rfl := Option.some.inj d2
  have ha : ia.2 = (g.heap i).planAct e.action (xs[n]'(by rw [p.len]; exact hn)) := by
    rw [List.getElem?_eq_getElem hj2.2] at d3
    have := Option.some.inj d3
    rw [← hje]
    exact this
  rw [ha, ← hii]
  obtain ⟨i', u1, u2, u3⟩ := hp.use.element e he
  have hi' : i' = i := by
    rw [hem] at u1
    exact Option.some.inj (u1.symm.trans d1)
  subst hi'
  exact (ok.wf _ d1.mem.1).plan_accepts d1.mem.2 (by rw [← u2]; exact u3) d4 d5

/-! ### Reset -/

theorem resetMany_total {l : List Nat} {h : Heap} (hw : ∀ i ∈ l, (h i).WF) :
    ∃ h', Microgrid.resetMany h l = (h', .ok ()) := by
  induction l generalizing h with
  | nil => exact ⟨h, rfl⟩
  | cons i l ih =>
    obtain ⟨m', obs, hr⟩ := (hw i (by simp)).resets
    have hwf : m'.WF := by have := kept_wf.reset (h i) (hw i (by simp)); rwa [hr] at this
    obtain ⟨h', e⟩ := ih (h := h.set i m') (by
      intro j hj
      unfold Heap.set
      split
      · exact hwf
      · exact hw j (by simp [hj]))
    refine ⟨h', ?_⟩
    simp only [Microgrid.resetMany, hr, e]

theorem GridOK.reset_total (ok : GridOK mods g) (htr : g.trajectory = none) : ∃ g', g.reset = (g', .ok ()) := by
  obtain ⟨h', e⟩ := resetMany_total (h := g.heap) (l := (Container.toTuples g.cont.fullDict).map Prod.snd) (by
    intro i hi
    obtain ⟨ni, hni, rfl⟩ := List.mem_map.mp hi
    rw [ok.cont] at hni
    exact ok.wf _ (Container.mem_full hni))
  refine ⟨{ g with heap := h', balanceLog := g.balanceLog.flush, otherLog := g.otherLog.flush }, ?_⟩
  unfold Microgrid.reset Microgrid.setTrajectory
  simp only [htr, e]

/-- Without trajectory function a reset leaves gensets as they are. -/
theorem GridOK.reset_genset (ok : GridOK mods g) (hid : (mods.map Prod.snd).Nodup) (hd : DistinctNames g.heap mods)
    (htr : g.trajectory = none) {g' : Microgrid} (hr : g.reset = (g', .ok ())) {nm : String × Nat} (hm : nm ∈ mods)
    {gs : Genset} (hk : (g.heap nm.2).kind = .genset gs) : (g'.heap nm.2).kind = .genset gs := by
  have hn : ((Container.toTuples g.cont.fullDict).map Prod.snd).Nodup := (ok.fullIds_perm hd).nodup_iff.mpr hid
  unfold Microgrid.reset Microgrid.setTrajectory at hr
  simp only [htr] at hr
  cases hm' : Microgrid.resetMany g.heap ((Container.toTuples g.cont.fullDict).map Prod.snd) with
  | mk h' r =>
    rw [hm'] at hr
    cases r with
    | error e => simp at hr
    | ok u =>
      simp only [Prod.mk.injEq, and_true] at hr
      rw [← hr]
      simp only
      have hmem : nm.2 ∈ (Container.toTuples g.cont.fullDict).map Prod.snd :=
        (ok.fullIds_perm hd).mem_iff.mpr (List.mem_map_of_mem (f := Prod.snd) hm)
      obtain ⟨obs, ho⟩ := (resetMany_ok hm' hn).1 nm.2 hmem
      have hw := ok.wf nm hm
      obtain ⟨m', obs', he, wf, -⟩ := (hw.genWF hk).reset
      rw [ho] at he
      simp only [Prod.mk.injEq, Except.ok.injEq] at he
      rw [he.1]
      exact wf.kind

/-! ### The loop -/

/-- The state of an episode in which the rule-based control acts. -/
structure Running (mods : List (String × Nat)) (pl : List Element) (F : Nat) (g : Microgrid) (c : Nat) : Prop where
  ok : GridOK mods g
  names : ClearNames g.heap mods
  dims : Dims g mods
  fits : Fits g.heap mods pl
  lock : LockStep mods g c
  episode : ∃ i, Episode mods g i F
  raise : ∀ nm ∈ mods, (g.heap nm.2).raiseErrors = false
  bal : ∃ nm ∈ mods, (g.heap nm.2).canProvide = none
  size : ∀ nm ∈ mods, ∀ n, (g.heap nm.2).kind.size = some n → F ≤ n
  shaper : ∀ f, g.shaper = some f → ∀ i c, ∃ r, f i c = .ok r

theorem Module.size_series {m : Module} {t : TS} (h : m.series? = some t) : m.kind.size = some t.rows.length := by
  unfold Module.series? at h
  unfold Kind.size
  cases hk : m.kind <;> rw [hk] at h <;> simp at h <;> simp [h]

theorem Running.live {F c : Nat} (r : Running mods pl F g c) (hc : c < F) : ∀ nm ∈ mods, (g.heap nm.2).Live := by
  intro nm hm t ht
  have := r.size nm hm _ (Module.size_series ht)
  rw [r.lock nm hm]
  omega

/-- An episode goes on with any control that the modules accept. -/
theorem Running.step_on {F c : Nat} (r : Running mods pl F g c) (hid : (mods.map Prod.snd).Nodup) (hc : c < F)
    {ctl : List (String × Ctrl)} {n : Bool} (hsup : Supplies g.heap mods ctl)
    (hacc : ∀ nl ∈ g.cont.levelDict .controllable, ∃ k, dictGet? ctl nl.1 = some k ∧
      ∀ ia ∈ nl.2.zip k.acts, (g.heap ia.1).Accepts ia.2 n) :
    ∃ g' o, g.run ctl n = (g', .ok o) ∧ o.done = decide (F ≤ c + 1) ∧ Running mods pl F g' (c + 1) := by
  obtain ⟨nm, hm, hb⟩ := r.bal
  obtain ⟨g', o, hr⟩ := r.ok.run_total hid (r.live hc) r.raise hm hb r.shaper (n := n) hacc
  have hal := run_alike hr
  have hcl : ∀ j, (g'.heap j).kind.cls = (g.heap j).kind.cls := fun j => by
    have := kept_cls.toRespected.run g ctl n j
    rwa [hr] at this
  have hsz : ∀ j, (g'.heap j).kind.size = (g.heap j).kind.size := fun j => by
    have := kept_size.toRespected.run g ctl n j
    rwa [hr] at this
  obtain ⟨i, hep⟩ := r.episode
  obtain ⟨hmods, -⟩ := r.ok.run_modules hid r.names hsup hr
  refine ⟨g', o, hr, ?_, ?_⟩
  · have := (Runs.dones r.ok hid r.names (.cons hr (.nil g')) (by
      intro cn hcn
      simp only [List.mem_singleton] at hcn
      subst hcn
      exact hsup) hep r.lock).1 0 (by simp)
    simpa using this
  · refine ⟨r.ok.run_next hr, r.names.congr hal, r.dims.congr hal hcl, r.fits.congr (fun j => (hal j).ffc) hcl, ?_, ⟨i, ?_, ?_⟩,
      ?_, ⟨nm, hm, ?_⟩, ?_, ?_⟩
    · intro nm hm
      rw [(hmods nm hm).1, r.lock nm hm]
    · intro nm hm
      rw [(hmods nm hm).2.1, (hmods nm hm).2.2]
      exact hep.1 nm hm
    · obtain ⟨nm, hm, hne⟩ := hep.2
      exact ⟨nm, hm, by rw [(hmods nm hm).2.2]; exact hne⟩
    · intro nm hm
      rw [(hal nm.2).raise]
      exact r.raise nm hm
    · have := kept_balancing.toRespected.run g ctl n nm.2 ⟨r.ok.wf nm hm, hb⟩
      rw [hr] at this
      exact this.2
    · intro nm hm k hk
      rw [hsz] at hk
      exact r.size nm hm k hk
    · have := (runG_fixed g [.run ctl n]).shaper
      simp only [runG, GOp.apply, List.foldl_cons, List.foldl_nil, hr] at this
      rw [this]
      exact r.shaper

theorem Running.step {F c : Nat} (r : Running mods pl F g c) (hid : (mods.map Prod.snd).Nodup) (hc : c < F) :
    ∃ ctl rem xs g' o, Planned g.heap mods pl ctl (netLoad g.heap mods) rem xs ∧ g.run ctl false = (g', .ok o) ∧
      RBC.step ⟨g, pl⟩ = (⟨g', pl⟩, .ok o) ∧ o.done = decide (F ≤ c + 1) ∧ Running mods pl F g' (c + 1) := by
  obtain ⟨act, rem, ctl, xs, h1, h2, p⟩ :=
    PriorityList.populateAction_ok r.ok r.names r.dims (r.live hc) r.fits.use r.fits.all
  obtain ⟨g', o, hr, hd, r'⟩ := r.step_on hid hc p.supplied (p.accepted r.ok r.names r.fits)
  exact ⟨ctl, rem, xs, g', o, p, hr, by simp only [RBC.step, h1, h2, hr], hd, r'⟩

/-- The loop makes a step for each of the `n` iterations until the episode is over; only the last step of the episode says
    that it is. -/
theorem Running.loop {F : Nat} (hid : (mods.map Prod.snd).Nodup) (n : Nat) {g : Microgrid} {c : Nat}
    (r : Running mods pl F g c) (hc : c < F) :
    ∃ g' os, RBC.loop n ⟨g, pl⟩ = (⟨g', pl⟩, .ok ()) ∧ PlannedRuns mods pl g os g' ∧ os.length = min n (F - c) ∧
      os.map RunOut.done = (List.range os.length).map fun j => decide (F ≤ c + j + 1) := by
  induction n generalizing g c with
  | zero => exact ⟨g, [], rfl, .nil g, by simp⟩
  | succ n ih =>
    obtain ⟨ctl, rem, xs, g₁, o, p, hr, hs, hd, r'⟩ := r.step hid hc
    simp only [RBC.loop, hs]
    by_cases hF : F ≤ c + 1
    · rw [hd, if_pos (by simpa using hF)]
      exact ⟨g₁, [o], rfl, .cons p hr (.nil g₁), by simp only [List.length_singleton]; omega, by simp [hd]⟩
    · rw [hd, if_neg (by simpa using hF)]
      obtain ⟨g', os, e, pr, hl, hds⟩ := ih r' (by omega)
      refine ⟨g', o :: os, e, .cons p hr pr, by simp only [List.length_cons, hl]; omega, ?_⟩
      rw [List.map_cons, hds, List.length_cons, List.range_succ_eq_map, List.map_cons, List.map_map, hd]
      refine congrArg₂ _ (by simp) (List.map_congr_left fun j _ => ?_)
      simp only [Function.comp]
      congr 2
      omega

/-! ### Gensets -/

/-- The window of a genset that is asked to run: nothing while it starts up, its full range otherwise. -/
theorem Module.GenWF.on_window {m : Module} {gs : Genset} (h : m.GenWF gs) (hon : gs.status = 1 ∨ gs.startUpTime = 0) :
    m.planWindow 1 = some (gs.runMin, gs.runMax) := by
  obtain ⟨g', e', wf, hst, hsp⟩ := h.goal (action := 1) (by decide)
  have h1 : g'.status = 1 := by
    rw [hst]
    obtain ⟨p, hp, -⟩ := h.phase
    have : gs.status = 1 ∨ gs.untilUp = 0 := by
      rcases hon with h1 | h1
      · exact Or.inl h1
      · cases p with
        | on => exact Or.inl hp.1
        | off => exact Or.inr (by rw [hp.2.2.1, h1]; rfl)
        | starting k => have := hp.2.2.2.2; omega
        | stopping k => exact Or.inl hp.1
    rcases this with h1 | h1 <;> simp [Genset.nextStatus, h1]
  unfold Module.planWindow
  simp only [Module.afterStatus, h.kind, e']
  rw [wf.window]
  simp [Genset.minProduction, Genset.maxProduction, h1, hsp.runMin, hsp.runMax]

/-- A genset that is off and that the list wants to be off stays off. -/
theorem PlannedRuns.off {g' : Microgrid} {os : List RunOut} (hpr : PlannedRuns mods pl g os g') (ok : GridOK mods g)
    (hu : ClearNames g.heap mods) (hid : (mods.map Prod.snd).Nodup) {e : Element} (he : e ∈ pl) (ha : e.action = 0) {i : Nat}
    (hd : Denotes g.heap mods e.module i) {gs : Genset} (hk : (g.heap i).kind = .genset gs) (h0 : gs.status = 0) :
    ∃ gs', (g'.heap i).kind = .genset gs' ∧ gs'.status = 0 := by
  induction hpr generalizing gs with
  | nil g => exact ⟨gs, hk, h0⟩
  | @cons g g₁ g' c rem xs o os plan run rest ih =>
    have hal := run_alike run
    obtain ⟨n, hn, hne⟩ := List.getElem_of_mem he
    have hz : (e, xs[n]'(by rw [plan.len]; exact hn)) ∈ pl.zip xs :=
      List.mem_iff_getElem.mpr ⟨n, by simp [plan.len, hn], by simp [hne]⟩
    obtain ⟨i', k, lo, hi, d1, d2, d3, -⟩ := plan.each _ hz
    obtain rfl : i' = i := Option.some.inj (d1.symm.trans hd)
    obtain ⟨out, ho⟩ := planned_event ok hu hid run d1 d2 d3
    have hpa : (g.heap i').planAct e.action (xs[n]'(by rw [plan.len]; exact hn)) =
        .arr [((0 : Nat) : ℚ), xs[n]'(by rw [plan.len]; exact hn)] := by
      unfold Module.planAct
      rw [hk, ha]
    simp only [hpa] at ho
    obtain ⟨gs', hk', h0', -⟩ := Module.genset_stays_off (ok.wf _ d1.mem.1) hk h0 ho
    exact ih (ok.run_next run) (hu.congr hal) ((Denotes.congr fun j => (hal j).ffc).mpr hd) hk' h0'

end Pymgrid
