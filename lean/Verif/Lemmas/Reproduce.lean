import Verif.Lemmas.GridSerialize
import Verif.Lemmas.Planner
import Verif.Lemmas.GridSetters
import Verif.Spec.Reproduce

set_option autoImplicit false

/-! What a reset makes of two microgrids that went through different histories. -/

namespace Pymgrid
open Pymgrid Module

/-- Without what a reset sets anew. -/
def Kind.quiet : Kind → Kind
  | .grid p t => .grid p { t with cur := none, draws := 0 }
  | .load t => .load { t with cur := none, draws := 0 }
  | .renewable t => .renewable { t with cur := none, draws := 0 }
  | k => k

/-- Without what a reset and a new trajectory set anew. -/
def Kind.bare : Kind → Kind
  | .grid p t => .grid p { t with finalStep := 0, cur := none, draws := 0 }
  | .load t => .load { t with finalStep := 0, cur := none, draws := 0 }
  | .renewable t => .renewable { t with finalStep := 0, cur := none, draws := 0 }
  | k => k

namespace Module

@[inherit_doc Kind.quiet]
def quiet (m : Module) : Module := { m with logger := {}, currentStep := 0, kind := m.kind.quiet }

@[inherit_doc Kind.bare]
def bare (m : Module) : Module := { m with logger := {}, currentStep := 0, initialStep := 0, kind := m.kind.bare }

theorem same_of_quiet {t t' : TS} (h : ({ t with cur := none, draws := 0 } : TS) = { t' with cur := none, draws := 0 }) :
    TS.Same t t' := by
  cases t; cases t'
  simp only [TS.mk.injEq] at h
  unfold TS.Same
  simp only [TS.mk.injEq]
  simp [h]

theorem quiet_series {a b : Module} {t : TS} (h : a.kind.quiet = b.kind.quiet) (hs : a.series? = some t) :
    ∃ t', b.kind = a.kind.withTS t' ∧ TS.Same t t' := by
  unfold series? at hs
  cases hk : a.kind <;> rw [hk] at hs h <;> simp only [Option.some.injEq, reduceCtorEq] at hs <;> subst hs <;>
    cases hk' : b.kind <;> rw [hk'] at h <;>
    simp only [Kind.quiet, Kind.grid.injEq, Kind.load.injEq, Kind.renewable.injEq, reduceCtorEq] at h
  · obtain ⟨rfl, h⟩ := h
    exact ⟨_, rfl, same_of_quiet h⟩
  · exact ⟨_, rfl, same_of_quiet h⟩
  · exact ⟨_, rfl, same_of_quiet h⟩

theorem quiet_plain {k : Kind} (h : k.cls = .battery ∨ k.cls = .genset ∨ k.cls = .balancing) : k.quiet = k := by
  cases k <;> simp [Kind.cls] at h <;> rfl

/-- A reset of two modules that agree except for what it sets anew. -/
theorem WF.reset_quiet {a b : Module} (ha : a.WF) (hb : b.WF) (hd : a.Deterministic) (e : a.quiet = b.quiet) :
    a.reset.1.core = b.reset.1.core := by
  have e' := e
  unfold quiet at e
  simp only [Module.mk.injEq, true_and] at e
  obtain ⟨e1, e2, e3, e4, e5, e6, e7, hk⟩ := e
  cases hs : a.series? with
  | some t =>
    obtain ⟨t', hk', s⟩ := quiet_series hk hs
    obtain ⟨ta, wa⟩ := ha.ts (by rw [hs]; rfl)
    have : ta = t := by have := wa.series; rw [hs] at this; injection this with this; exact this.symm
    subst this
    have hs' : b.series? = some t' := by
      unfold series? at hs ⊢
      rw [hk']
      cases hka : a.kind <;> rw [hka] at hs <;> simp [Kind.withTS] at hs ⊢
    obtain ⟨tb, wb⟩ := hb.ts (by rw [hs']; rfl)
    have : tb = t' := by have := wb.series; rw [hs'] at this; injection this with this; exact this.symm
    subst this
    have hda := hd _ hs
    obtain ⟨f, hf⟩ := wa.valid.forecast_ok (ha.works wa) a.initialStep
    have hf' : tb.forecastValue b.initialStep = .ok f := by rw [s.forecast hda, ← e2]; exact hf
    rcases wa.reset with ⟨fa, oa, hva, -, hra⟩ | ⟨er, hva, -⟩
    · rcases wb.reset with ⟨fb, ob, hvb, -, hrb⟩ | ⟨er, hvb, -⟩
      · rw [hf] at hva
        rw [hf'] at hvb
        injection hva with hva
        injection hvb with hvb
        subst hva hvb
        rw [hra, hrb]
        unfold core moved
        simp only [Module.mk.injEq, true_and]
        refine ⟨e1, e2, e2, e3, e4, e5, e6, e7, ?_⟩
        rw [hk', Kind.withTS_withTS]
        apply still_withTS
        unfold TS.still
        rw [s]
      · rw [hf'] at hvb; simp at hvb
    · rw [hf] at hva; simp at hva
  | none =>
    unfold series? at hs
    have hr : ∀ m : Module, m.series? = none → m.reset.1.core = { m with currentStep := m.initialStep, logger := {}, kind := m.kind.still } := by
      intro m hm
      unfold series? at hm
      unfold Module.reset updateStep refresh core
      cases hk : m.kind <;> rw [hk] at hm <;> simp_all
    have hab : a.kind = b.kind := by
      cases hka : a.kind <;> rw [hka] at hs hk <;> simp at hs <;>
        cases hkb : b.kind <;> rw [hkb] at hk <;> simp only [Kind.quiet, reduceCtorEq] at hk <;> exact hk
    rw [hr a hs, hr b (by unfold series?; rw [← hab]; exact hs), e1, e2, e3, e4, e5, e6, e7, hab]

/-- A new final step of two modules that agree except for what a reset and a new trajectory set anew. -/
theorem setFinal_bare {a b : Module} (e : a.bare = b.bare) (hi : a.initialStep = b.initialStep) (v : Int) :
    (Microgrid.setFinalOne a v).2 = (Microgrid.setFinalOne b v).2 ∧
      (Microgrid.setFinalOne a v).1.quiet = (Microgrid.setFinalOne b v).1.quiet := by
  have hrow : ∀ {t t' : TS}, ({ t with finalStep := 0, cur := none, draws := 0 } : TS) = { t' with finalStep := 0, cur := none, draws := 0 } →
      (t.setFinalStep b.initialStep v).2 = (t'.setFinalStep b.initialStep v).2 ∧
      ({ (t.setFinalStep b.initialStep v).1 with cur := none, draws := 0 } : TS) =
        { (t'.setFinalStep b.initialStep v).1 with cur := none, draws := 0 } := by
    intro t t' h
    cases t; cases t'
    simp only [TS.mk.injEq] at h
    unfold TS.setFinalStep
    simp [h]
  unfold bare at e
  simp only [Module.mk.injEq, true_and] at e
  obtain ⟨e1, e3, e4, e5, e6, e7, hk⟩ := e
  unfold Microgrid.setFinalOne
  cases hka : a.kind <;> cases hkb : b.kind <;> rw [hka, hkb] at hk <;>
    simp only [Kind.bare, Kind.grid.injEq, Kind.load.injEq, Kind.renewable.injEq, reduceCtorEq] at hk
  case battery.battery => exact ⟨rfl, by unfold quiet; rw [hka, hkb, hk, e1, hi, e3, e4, e5, e6, e7]⟩
  case genset.genset => exact ⟨rfl, by unfold quiet; rw [hka, hkb, hk, e1, hi, e3, e4, e5, e6, e7]⟩
  case balancing.balancing => exact ⟨rfl, by unfold quiet; rw [hka, hkb, hk, e1, hi, e3, e4, e5, e6, e7]⟩
  case grid.grid p t p' t' =>
    obtain ⟨rfl, hk⟩ := hk
    obtain ⟨h1, h2⟩ := hrow hk
    rw [hi]
    simp only
    cases hx : t.setFinalStep b.initialStep v with
    | mk x rx =>
      cases hy : t'.setFinalStep b.initialStep v with
      | mk y ry =>
        rw [hx, hy] at h1 h2
        simp only at h1 h2
        subst h1
        cases rx <;> refine ⟨rfl, ?_⟩ <;> unfold quiet <;> simp only [Kind.quiet, h2] <;> rw [e1, e3, e4, e5, e6, e7]
  case load.load t t' =>
    obtain ⟨h1, h2⟩ := hrow hk
    rw [hi]
    simp only
    cases hx : t.setFinalStep b.initialStep v with
    | mk x rx =>
      cases hy : t'.setFinalStep b.initialStep v with
      | mk y ry =>
        rw [hx, hy] at h1 h2
        simp only at h1 h2
        subst h1
        cases rx <;> refine ⟨rfl, ?_⟩ <;> unfold quiet <;> simp only [Kind.quiet, h2] <;> rw [e1, e3, e4, e5, e6, e7]
  case renewable.renewable t t' =>
    obtain ⟨h1, h2⟩ := hrow hk
    rw [hi]
    simp only
    cases hx : t.setFinalStep b.initialStep v with
    | mk x rx =>
      cases hy : t'.setFinalStep b.initialStep v with
      | mk y ry =>
        rw [hx, hy] at h1 h2
        simp only at h1 h2
        subst h1
        cases rx <;> refine ⟨rfl, ?_⟩ <;> unfold quiet <;> simp only [Kind.quiet, h2] <;> rw [e1, e3, e4, e5, e6, e7]

/-- Two states of one module with the same state of charge or status. -/
theorem same_kind {a b : Module} (hc : a.kind.core = b.kind.core)
    (hs : a.kind.cls = .battery ∨ a.kind.cls = .genset → a.stateDict = b.stateDict) : a.kind.bare = b.kind.bare := by
  unfold stateDict at hs
  cases hka : a.kind <;> cases hkb : b.kind <;> rw [hka, hkb] at hc hs <;>
    simp only [Kind.core, Kind.cls, reduceCtorEq, or_false, false_or, forall_const, Except.ok.injEq] at hc hs
  case battery.battery x y =>
    obtain ⟨_, _, _, _, _, _, _, _, _⟩ := x
    obtain ⟨_, _, _, _, _, _, _, _, _⟩ := y
    simp [Battery.stateDict] at hc hs
    simp [Kind.bare, hc, hs]
  case genset.genset x y =>
    cases x
    cases y
    simp [Genset.stateDict] at hc hs
    simp [Kind.bare, hc, hs]
  case grid.grid => simpa [Kind.bare] using hc
  case load.load => simpa [Kind.bare] using hc
  case renewable.renewable => simpa [Kind.bare] using hc
  case balancing.balancing => simpa [Kind.bare] using hc

theorem det_core {a b : Module} (hc : a.kind.core = b.kind.core) (hd : a.Deterministic) : b.Deterministic := by
  intro t ht
  unfold Deterministic series? at *
  cases hka : a.kind <;> cases hkb : b.kind <;> rw [hka, hkb] at hc <;> rw [hkb] at ht <;> rw [hka] at hd <;>
    simp only [Kind.core, reduceCtorEq, Option.some.injEq, Kind.grid.injEq, Kind.load.injEq, Kind.renewable.injEq,
      TS.mk.injEq, forall_eq'] at hc hd ht
  · subst ht
    have := hc.2.2.2.2.2.2.2.2
    rw [← this.1]; exact hd
  · subst ht
    have := hc.2.2.2.2.2.2.2
    rw [← this.1]; exact hd
  · subst ht
    have := hc.2.2.2.2.2.2.2
    rw [← this.1]; exact hd

/-- Two states of one module within one range of steps. -/
theorem Sib.quiet {m a b : Module} (ha : m.Sib a) (hb : m.Sib b) (hk : a.kind.bare = b.kind.bare) : a.quiet = b.quiet := by
  obtain ⟨fa, ka⟩ := ha
  obtain ⟨fb, kb⟩ := hb
  have : a.kind.quiet = b.kind.quiet := by
    generalize m.kind = K at ka kb
    generalize a.kind = A at ka hk
    generalize b.kind = B at kb hk
    have hq : ∀ {t t' t'' : TS}, TS.Same t t' → TS.Same t t'' →
        ({ t' with cur := none, draws := 0 } : TS) = { t'' with cur := none, draws := 0 } := by
      intro t t' t'' s s'
      rw [s, s']
    cases ka with
    | battery => cases kb; exact hk
    | genset => cases kb; exact hk
    | balancing => cases kb; exact hk
    | grid p s => cases kb with | grid _ s' => simp only [Kind.quiet, hq s s']
    | load s => cases kb with | load s' => simp only [Kind.quiet, hq s s']
    | renewable s => cases kb with | renewable s' => simp only [Kind.quiet, hq s s']
  unfold Module.quiet
  rw [this, fa.raise, fb.raise, fa.init, fb.init, fa.act, fb.act, fa.obs, fb.obs, fa.prov, fb.prov, fa.abs, fb.abs,
    fa.ffc, fb.ffc]

end Module

/-! ### Microgrids -/

theorem Container.rename_id (c : Container) : c.rename id = c := by
  obtain ⟨cat⟩ := c
  unfold Container.rename ModDict.rename
  simp

theorem run_calls (g : Microgrid) (c : List (String × Ctrl)) (n : Bool) : (g.run c n).1.calls = g.calls := by
  unfold Microgrid.run Microgrid.finish
  repeat' split
  all_goals rfl

theorem reset_calls (g : Microgrid) :
    g.reset.1.calls = match g.trajectory with | none => g.calls | some _ => g.calls + 1 := by
  have h : g.setTrajectory.1.calls = match g.trajectory with | none => g.calls | some _ => g.calls + 1 := by
    unfold Microgrid.setTrajectory
    cases g.trajectory with
    | none => rfl
    | some f => simp only; repeat' split; all_goals rfl
  unfold Microgrid.reset
  cases hs : g.setTrajectory with
  | mk g₁ r =>
    rw [hs] at h
    cases r with
    | error e => exact h
    | ok u => simp only; split <;> exact h

theorem runG_calls (g : Microgrid) (ops : List GOp) :
    (runG g ops).calls = match g.trajectory with | none => g.calls | some _ => g.calls + resets ops := by
  unfold runG
  induction ops generalizing g with
  | nil => cases g.trajectory <;> rfl
  | cons op ops ih =>
    rw [List.foldl_cons, ih]
    cases op with
    | run c n =>
      simp only [GOp.apply, (g.run_fixed c n).trajectory, run_calls]
      rfl
    | reset =>
      have := (runG_fixed g [.reset]).trajectory
      simp only [runG, List.foldl_cons, List.foldl_nil, GOp.apply] at this
      simp only [GOp.apply, this, reset_calls]
      cases g.trajectory with
      | none => rfl
      | some f => simp only [resets, List.countP_cons, if_true]; omega

theorem setFinalMany_same {l : List Nat} {v : Int} {b : Bool} {h h' : Heap} (hn : l.Nodup)
    (hs : ∀ i ∈ l, (Microgrid.setFinalOne (h i) v).2 = (Microgrid.setFinalOne (h' i) v).2) :
    (Microgrid.setFinalMany h v b l).2 = (Microgrid.setFinalMany h' v b l).2 := by
  induction l generalizing h h' b with
  | nil => rfl
  | cons i l ih =>
    rw [List.nodup_cons] at hn
    have h0 := hs i (by simp)
    simp only [Microgrid.setFinalMany]
    cases hx : Microgrid.setFinalOne (h i) v with
    | mk x rx =>
      cases hy : Microgrid.setFinalOne (h' i) v with
      | mk y ry =>
        rw [hx, hy] at h0
        simp only at h0
        subst h0
        cases rx with
        | error e => rfl
        | ok c =>
          refine ih hn.2 fun j hj => ?_
          have : j ≠ i := fun e => hn.1 (e ▸ hj)
          simp only [Heap.set, this, if_false]
          exact hs j (by simp [hj])

section
variable {mods : List (String × Nat)} {g₁ g₂ : Microgrid}

/-- Two microgrids with the same modules in the same states of charge and status, apart from logs and steps. -/
structure Alongside (mods : List (String × Nat)) (g₁ g₂ : Microgrid) : Prop where
  ok₁ : GridOK mods g₁
  ok₂ : GridOK mods g₂
  cont : g₂.cont = g₁.cont
  initialStep : g₂.initialStep = g₁.initialStep
  finalStep : g₂.finalStep = g₁.finalStep
  shaper : g₂.shaper = g₁.shaper
  trajectory : g₂.trajectory = g₁.trajectory
  calls : g₂.calls = g₁.calls
  det : ∀ nm ∈ mods, (g₁.heap nm.2).Deterministic
  bare : ∀ nm ∈ mods, (g₁.heap nm.2).bare = (g₂.heap nm.2).bare
  quiet : g₁.trajectory = none → ∀ nm ∈ mods, (g₁.heap nm.2).quiet = (g₂.heap nm.2).quiet

theorem Alongside.setTrajectory (h : Alongside mods g₁ g₂) (hid : (mods.map Prod.snd).Nodup)
    (hr : g₁.setTrajectory.2 = .ok ()) :
    g₂.setTrajectory.2 = .ok () ∧ (∀ nm ∈ mods, (g₁.setTrajectory.1.heap nm.2).quiet = (g₂.setTrajectory.1.heap nm.2).quiet) ∧
      g₂.setTrajectory.1.calls = g₁.setTrajectory.1.calls := by
  have hfl : g₁.cont.fullList.Perm (mods.map Prod.snd) := by rw [h.ok₁.cont]; exact Container.fullList_perm _ _
  unfold Microgrid.setTrajectory at hr ⊢
  rw [h.trajectory]
  cases htr : g₁.trajectory with
  | none => exact ⟨rfl, h.quiet htr, h.calls⟩
  | some f =>
    rw [htr] at hr
    simp only [h.calls, h.initialStep, h.finalStep, h.cont] at hr ⊢
    cases hf : f g₁.calls g₁.initialStep g₁.finalStep with
    | error e => rw [hf] at hr; simp at hr
    | ok x =>
      obtain ⟨i, fin⟩ := x
      rw [hf] at hr
      simp only at hr ⊢
      have hnd : g₁.cont.fullList.Nodup := hfl.nodup_iff.mpr hid
      have key : ∀ j ∈ g₁.cont.fullList,
          (Microgrid.setFinalOne (Microgrid.setInitialMany g₁.heap i g₁.cont.fullList j) fin).2 =
            (Microgrid.setFinalOne (Microgrid.setInitialMany g₂.heap i g₁.cont.fullList j) fin).2 ∧
          (Microgrid.setFinalOne (Microgrid.setInitialMany g₁.heap i g₁.cont.fullList j) fin).1.quiet =
            (Microgrid.setFinalOne (Microgrid.setInitialMany g₂.heap i g₁.cont.fullList j) fin).1.quiet := by
        intro j hj
        obtain ⟨nm, hm, rfl⟩ := List.mem_map.mp (hfl.subset hj)
        rw [setInitialMany_get, setInitialMany_get, if_pos hj, if_pos hj]
        exact setFinal_bare (a := { g₁.heap nm.2 with initialStep := i }) (b := { g₂.heap nm.2 with initialStep := i })
          (h.bare nm hm) rfl _
      have hsame := setFinalMany_same (b := false) hnd fun j hj => (key j hj).1
      refine ⟨hsame ▸ hr, ?_, trivial⟩
      intro nm hm
      have hj : nm.2 ∈ g₁.cont.fullList := hfl.symm.subset (List.mem_map_of_mem hm)
      obtain ⟨b₁, e₁⟩ := (setFinalMany_ok (Prod.ext rfl hr) hnd).1 nm.2 hj
      obtain ⟨b₂, e₂⟩ := (setFinalMany_ok (Prod.ext rfl (hsame ▸ hr)) hnd).1 nm.2 hj
      have := (key nm.2 hj).2
      rw [e₁, e₂] at this
      exact this

/-- After a reset they cannot be told apart. -/
theorem Alongside.reset (h : Alongside mods g₁ g₂) (hid : (mods.map Prod.snd).Nodup) (hd : DistinctNames g₁.heap mods)
    (hr : g₁.reset.2 = .ok ()) : g₂.reset.2 = .ok () ∧ TwinGrid id g₁.reset.1 g₂.reset.1 := by
  have hp := h.ok₁.fullIds_perm hd
  have hnd := hp.nodup_iff.mpr hid
  have hfl : g₁.cont.fullList.Perm (mods.map Prod.snd) := by rw [h.ok₁.cont]; exact Container.fullList_perm _ _
  have hst : g₁.setTrajectory.2 = .ok () := by
    unfold Microgrid.reset at hr
    split at hr
    · simp at hr
    · rename_i e; rw [e]
  obtain ⟨hst', hq, hcalls⟩ := h.setTrajectory hid hst
  have w₁ : ∀ nm ∈ mods, (g₁.setTrajectory.1.heap nm.2).WF := fun nm hm => kept_wf.setTrajectory g₁ nm.2 (h.ok₁.wf nm hm)
  have w₂ : ∀ nm ∈ mods, (g₂.setTrajectory.1.heap nm.2).WF := fun nm hm => kept_wf.setTrajectory g₂ nm.2 (h.ok₂.wf nm hm)
  have d₁ : ∀ nm ∈ mods, (g₁.setTrajectory.1.heap nm.2).Deterministic := fun nm hm =>
    det_core (kept_core.setTrajectory g₁ nm.2 (h.ok₁.wf nm hm)).2.symm (h.det nm hm)
  obtain ⟨⟨k₁, r₁⟩, -⟩ := resetMany_each (h := g₁.setTrajectory.1.heap) hnd (fun i hi => by
    obtain ⟨nm, hm, rfl⟩ := List.mem_map.mp (hp.subset hi)
    obtain ⟨obs, ho⟩ := (w₁ nm hm).reset_ok
    exact ⟨_, obs, Prod.ext rfl ho⟩)
  obtain ⟨⟨k₂, r₂⟩, -⟩ := resetMany_each (h := g₂.setTrajectory.1.heap) hnd (fun i hi => by
    obtain ⟨nm, hm, rfl⟩ := List.mem_map.mp (hp.subset hi)
    obtain ⟨obs, ho⟩ := (w₂ nm hm).reset_ok
    exact ⟨_, obs, Prod.ext rfl ho⟩)
  have e₁ : g₁.setTrajectory = (g₁.setTrajectory.1, .ok ()) := Prod.ext rfl hst
  have e₂ : g₂.setTrajectory = (g₂.setTrajectory.1, .ok ()) := Prod.ext rfl hst'
  have fix : ∀ g : Microgrid, Microgrid.Fixed g g.setTrajectory.1 := by
    intro g
    unfold Microgrid.setTrajectory
    cases htr : g.trajectory with
    | none => exact .refl g
    | some f => simp only; cases f g.calls g.initialStep g.finalStep <;> exact ⟨rfl, rfl, rfl, rfl, htr.symm⟩
  have f₁ := fix g₁
  have f₂ := fix g₂
  have R₁ : g₁.reset = ({ g₁.setTrajectory.1 with heap := k₁, balanceLog := g₁.setTrajectory.1.balanceLog.flush, otherLog := g₁.setTrajectory.1.otherLog.flush }, .ok ()) := by
    unfold Microgrid.reset
    rw [e₁]
    simp only [r₁]
  have R₂ : g₂.reset = ({ g₂.setTrajectory.1 with heap := k₂, balanceLog := g₂.setTrajectory.1.balanceLog.flush, otherLog := g₂.setTrajectory.1.otherLog.flush }, .ok ()) := by
    unfold Microgrid.reset
    rw [e₂]
    simp only [h.cont, r₂]
  refine ⟨by rw [R₂], ?_⟩
  rw [R₁, R₂]
  obtain ⟨q₁, -⟩ := resetMany_ok r₁ hnd
  obtain ⟨q₂, -⟩ := resetMany_ok r₂ hnd
  have hcore : ∀ i ∈ g₁.cont.fullList, (k₁ i).core = (k₂ i).core ∧ (k₁ i).Deterministic := by
    intro i hi
    obtain ⟨nm, hm, rfl⟩ := List.mem_map.mp (hfl.subset hi)
    have hi' := hp.symm.subset (List.mem_map_of_mem (f := Prod.snd) hm)
    obtain ⟨o₁, a₁⟩ := q₁ _ hi'
    obtain ⟨o₂, a₂⟩ := q₂ _ hi'
    have b₁ : k₁ nm.2 = (g₁.setTrajectory.1.heap nm.2).reset.1 := by rw [a₁]
    have b₂ : k₂ nm.2 = (g₂.setTrajectory.1.heap nm.2).reset.1 := by rw [a₂]
    rw [b₁, b₂]
    exact ⟨(w₁ nm hm).reset_quiet (w₂ nm hm) (d₁ nm hm) (hq nm hm), det_core (kept_core.reset _ (w₁ nm hm)).2.symm (d₁ nm hm)⟩
  refine ⟨⟨fun i _ j _ e => e, ?_, ?_⟩, ?_, ?_, ?_, ?_, ?_, hcalls⟩
  · intro i hi
    rw [f₁.cont] at hi
    exact (hcore i hi).1
  · intro i hi
    rw [f₁.cont] at hi
    exact (hcore i hi).2
  · simp only [Container.rename_id, f₁.cont, f₂.cont, h.cont]
  · simp only [f₁.initialStep, f₂.initialStep, h.initialStep]
  · simp only [f₁.finalStep, f₂.finalStep, h.finalStep]
  · simp only [f₁.shaper, f₂.shaper, h.shaper]
  · simp only [f₁.trajectory, f₂.trajectory, h.trajectory]

end

end Pymgrid
