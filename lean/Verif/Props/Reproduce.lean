import Verif.Lemmas.Reproduce
import Verif.Props.GridSerialize
import Verif.Props.Trajectory
import Verif.Props.Ledger

set_option autoImplicit false

/-! C83: episodes are reproducible. -/

namespace Pymgrid
open Pymgrid Module

section
variable {h : Heap} {mods : List (String × Nat)} {sh : Option Shaper}
  {tr : Option (Nat → Nat → Option Nat → Except Err (Nat × Nat))} {g₀ : Microgrid} {ops₁ ops₂ : List GOp}

private theorem alongside (hc : Microgrid.create h mods sh tr = .ok g₀) (hl : ∀ nm ∈ mods, LibraryModule (h nm.2))
    (hdet : ∀ nm ∈ mods, (h nm.2).Deterministic) (hr : tr = none ∨ resets ops₁ = resets ops₂)
    (hs : ∀ nm ∈ mods, (h nm.2).Stores →
      ((runG g₀ ops₁).heap nm.2).stateDict = ((runG g₀ ops₂).heap nm.2).stateDict) :
    Alongside mods (runG g₀ ops₁) (runG g₀ ops₂) := by
  have ok := GridOK.created hc hl
  obtain ⟨rfl, -, -, ht, -⟩ := Microgrid.create_ok hc
  have core : ∀ ops, ∀ nm ∈ mods, ((runG g₀ ops).heap nm.2).kind.core = (g₀.heap nm.2).kind.core := fun ops nm hm =>
    (kept_core.runG g₀ ops nm.2 (ok.wf nm hm)).2
  have cls : ∀ k : Kind, k.core.cls = k.cls := Kind.core_cls
  have stores : ∀ m m' : Module, m'.kind.core = m.kind.core → m'.kind.cls = .battery ∨ m'.kind.cls = .genset → m.Stores := by
    intro m m' hk hcl
    rw [← cls, hk, cls] at hcl
    unfold Module.Stores
    cases hm : m.kind <;> rw [hm] at hcl <;> simp [Kind.cls] at hcl ⊢
  have kinds : ∀ nm ∈ mods, ((runG g₀ ops₁).heap nm.2).kind.bare = ((runG g₀ ops₂).heap nm.2).kind.bare := fun nm hm =>
    same_kind ((core ops₁ nm hm).trans (core ops₂ nm hm).symm) fun hcl => hs nm hm (stores _ _ (core ops₁ nm hm) hcl)
  have f₁ := runG_fixed g₀ ops₁
  have f₂ := runG_fixed g₀ ops₂
  refine ⟨ok.runG ops₁, ok.runG ops₂, f₂.cont.trans f₁.cont.symm, f₂.initialStep.trans f₁.initialStep.symm,
    f₂.finalStep.trans f₁.finalStep.symm, f₂.shaper.trans f₁.shaper.symm, f₂.trajectory.trans f₁.trajectory.symm, ?_, ?_, ?_, ?_⟩
  · rw [runG_calls, runG_calls, ht]
    rcases hr with rfl | hr
    · rfl
    · rw [hr]
  · intro nm hm
    exact det_core (core ops₁ nm hm).symm (hdet nm hm)
  · intro nm hm
    have a₁ := kept_alike.runG g₀ ops₁ nm.2
    have a₂ := kept_alike.runG g₀ ops₂ nm.2
    unfold Module.bare
    rw [kinds nm hm, a₁.raise, a₂.raise, a₁.act, a₂.act, a₁.obs, a₂.obs, a₁.prov, a₂.prov, a₁.abs, a₂.abs, a₁.ffc, a₂.ffc]
  · intro htr nm hm
    have htr : g₀.trajectory = none := f₁.trajectory.symm.trans htr
    have sib : ∀ ops, (g₀.heap nm.2).Sib ((runG g₀ ops).heap nm.2) := fun ops =>
      (runG_rel (P := fun m m' => m.WF → m'.WF ∧ Module.Sib m m')
        { refl := fun m hw => ⟨hw, .refl m⟩
          trans := fun x y hw => ⟨(y (x hw).1).1, (x hw).2.trans (y (x hw).1).2⟩
          step := fun m a n hw => ⟨hw.step a n, hw.sib_step a n⟩ }
        (fun m hw => ⟨hw.reset, hw.sib_reset⟩) htr ops nm.2 (ok.wf nm hm)).2
    exact (sib ops₁).quiet (sib ops₂) (kinds nm hm)

/-- C83: whatever happened before, once a reset succeeds the further episodes depend on nothing but the states of batteries
    and gensets (and, with a trajectory function, on the number of resets before): if these agree after two histories, the
    reset succeeds after the other history too, and the two microgrids cannot be told apart any more.
    Missing: batteries and gensets are not reset, so the claim without the condition on them fails
    (`C83_battery_fails`, `C83_genset_fails`); random forecasters. -/
theorem C83_reproducible_partial (hc : Microgrid.create h mods sh tr = .ok g₀) (hl : ∀ nm ∈ mods, LibraryModule (h nm.2))
    (hid : (mods.map Prod.snd).Nodup) (hd : DistinctNames h mods) (hdet : ∀ nm ∈ mods, (h nm.2).Deterministic)
    (hr : tr = none ∨ resets ops₁ = resets ops₂)
    (hs : ∀ nm ∈ mods, (h nm.2).Stores →
      ((runG g₀ ops₁).heap nm.2).stateDict = ((runG g₀ ops₂).heap nm.2).stateDict)
    (hok : (runG g₀ ops₁).reset.2 = .ok ()) :
    (runG g₀ ops₂).reset.2 = .ok () ∧ SameFuture mods (runG g₀ ops₁).reset.1 (runG g₀ ops₂).reset.1 := by
  have a := alongside hc hl hdet hr hs
  have hd' : DistinctNames (runG g₀ ops₁).heap mods := by
    obtain ⟨rfl, -⟩ := Microgrid.create_ok hc
    exact hd.congr fun j => kept_alike.runG g₀ ops₁ j
  obtain ⟨h1, t⟩ := a.reset hid hd' hok
  refine ⟨h1, fun future => ?_⟩
  obtain ⟨e, t'⟩ := t.results future
  refine ⟨e, fun nm hm => ?_⟩
  have hi : nm.2 ∈ (runG (runG g₀ ops₁).reset.1 future).cont.fullList := by
    have f := (runG_fixed (runG g₀ ops₁) (.reset :: future)).cont
    rw [show runG (runG g₀ ops₁).reset.1 future = runG (runG g₀ ops₁) (.reset :: future) from rfl, f, a.ok₁.cont]
    exact (Container.fullList_perm _ _).symm.subset (List.mem_map_of_mem hm)
  have := t'.heap.core nm.2 hi
  rw [id_eq] at this
  rw [← core_stateDict, ← this, core_stateDict]

/-- C83 without batteries and gensets: after a reset the past makes no difference. -/
theorem C83_no_storage (hc : Microgrid.create h mods sh none = .ok g₀) (hl : ∀ nm ∈ mods, LibraryModule (h nm.2))
    (hid : (mods.map Prod.snd).Nodup) (hd : DistinctNames h mods) (hdet : ∀ nm ∈ mods, (h nm.2).Deterministic)
    (hn : ∀ nm ∈ mods, ¬ (h nm.2).Stores) (ops₁ ops₂ : List GOp) :
    (runG g₀ ops₁).reset.2 = .ok () ∧ (runG g₀ ops₂).reset.2 = .ok () ∧
      SameFuture mods (runG g₀ ops₁).reset.1 (runG g₀ ops₂).reset.1 := by
  have hok : (runG g₀ ops₁).reset.2 = .ok () := by
    have ok := (GridOK.created hc hl).runG ops₁
    obtain ⟨rfl, -, -, ht, -⟩ := Microgrid.create_ok hc
    obtain ⟨g', e⟩ := ok.reset_total ((runG_fixed g₀ ops₁).trajectory.trans ht)
    rw [e]
  exact ⟨hok, C83_reproducible_partial hc hl hid hd hdet (.inl rfl) (fun nm hm hst => absurd hst (hn nm hm)) hok⟩

end

/-! ### Examples and violations -/

/-- The rewards of a sequence of calls. -/
def rewardsOf (g : Microgrid) (ops : List GOp) : List (Option (Option ℚ)) :=
  (g.results ops).map fun r => r.toOption.map fun o => o.map RunOut.reward

/-- C83 is violated by batteries: `reset` keeps the charge.  The same action in the first step of an episode of the outpost
    earns -560 if there was a step before the reset, and -540 otherwise. -/
theorem C83_battery_fails :
    (runG outpost [.run outpostControl false]).reset.2.isOk = true ∧ outpost.reset.2.isOk = true ∧
    rewardsOf (runG outpost [.run outpostControl false]).reset.1 [.run outpostControl false] = [some (some (-560))] ∧
    rewardsOf outpost.reset.1 [.run outpostControl false] = [some (some (-540))] := by
  decide +kernel

/-- A load and a genset. -/
def campMods : List (String × Nat) := [("load", 0), ("genset", 3), ("balancing", 5)]

@[inherit_doc campMods] def camp : Microgrid := okGrid (Microgrid.create demoHeap campMods none none)

theorem camp_ok : Microgrid.create demoHeap campMods none none = .ok camp := okGrid_eq (by decide +kernel)

/-- C83 is violated by gensets too: switched off in the previous episode, the genset of the camp is off after the reset, and
    asking it for 50 units earns -600 instead of -130. -/
theorem C83_genset_fails :
    let off : GOp := .run [("genset", .seq [.arr [0, 0]])] false
    let on : GOp := .run [("genset", .seq [.arr [1, 50]])] false
    (runG camp [off, off]).reset.2.isOk = true ∧ camp.reset.2.isOk = true ∧
    rewardsOf (runG camp [off, off]).reset.1 [on] = [some (some (-600))] ∧
    rewardsOf camp.reset.1 [on] = [some (some (-130))] := by
  decide +kernel

/-- Non-vacuity of `C83_reproducible_partial`: a run without the actions it needs raises after load and photovoltaics have
    been stepped, so that the next run returns something else; the battery and the genset keep their states, and after a
    reset everything is as without it. -/
example : (∀ nm ∈ demoMods, (demoHeap nm.2).Stores →
      ((runG demoGrid [.run [] false]).heap nm.2).stateDict = ((runG demoGrid []).heap nm.2).stateDict) ∧
    (runG demoGrid [.run [] false]).reset.2 = .ok () ∧
    rewardsOf (runG demoGrid [.run [] false]) [.run demoControl false] = [some (some (-143/2))] ∧
    rewardsOf (runG demoGrid [.run [] false]).reset.1 [.run demoControl false] = [some (some (-243/2))] ∧
    rewardsOf demoGrid.reset.1 [.run demoControl false] = [some (some (-243/2))] := by
  refine ⟨?_, by decide +kernel, by decide +kernel, by decide +kernel, by decide +kernel⟩
  intro nm hm hst
  simp only [demoMods, List.mem_cons, List.not_mem_nil, or_false] at hm
  have pos : ∀ {r r' : Except Err (List (Key × ℚ))}, r.toOption = r'.toOption → r.isOk = true → r = r' := by
    intro r r' h ho
    cases r <;> cases r' <;> simp_all [Except.toOption, Except.isOk, Except.toBool]
  have no : ∀ m : Module, (m.kind.cls ≠ .battery ∧ m.kind.cls ≠ .genset) → ¬ m.Stores := by
    rintro m ⟨h1, h2⟩ (⟨b, hb⟩ | ⟨g, hg⟩)
    · exact h1 (by rw [hb]; rfl)
    · exact h2 (by rw [hg]; rfl)
  rcases hm with rfl | rfl | rfl | rfl | rfl | rfl
  · exact absurd hst (no _ (by decide +kernel))
  · exact absurd hst (no _ (by decide +kernel))
  · exact pos (by decide +kernel) (by decide +kernel)
  · exact pos (by decide +kernel) (by decide +kernel)
  · exact absurd hst (no _ (by decide +kernel))
  · exact absurd hst (no _ (by decide +kernel))

/-- The same with a trajectory function and one reset before. -/
example : resets [.run [] false, .reset] = resets [.reset] ∧ (runG twoSteps [.run [] false, .reset]).reset.2 = .ok () ∧
    rewardsOf (runG twoSteps [.run [] false, .reset]).reset.1 [.run demoControl false, .reset, .run demoControl false] =
      [some (some (-243/2)), some none, some (some (-243/2))] := by
  decide +kernel

/-- Load, photovoltaics and grid. -/
def villageMods : List (String × Nat) := [("load", 0), ("pv", 1), ("grid", 4), ("balancing", 5)]

@[inherit_doc villageMods] def village : Microgrid := okGrid (Microgrid.create demoHeap villageMods none none)

/-- Non-vacuity of `C83_no_storage`. -/
example : Microgrid.create demoHeap villageMods none none = .ok village ∧
    (∀ nm ∈ villageMods, nm ∈ demoMods) ∧ (∀ nm ∈ villageMods, ¬ (demoHeap nm.2).Stores) ∧
    let buy : GOp := .run [("grid", .seq [.num 20])] false
    rewardsOf (runG village [buy]) [buy] ≠ rewardsOf village [buy] ∧
    rewardsOf (runG village [buy]).reset.1 [buy, buy] = rewardsOf village [buy, buy] := by
  refine ⟨okGrid_eq (by decide +kernel), by decide +kernel, ?_, by decide +kernel⟩
  intro nm hm
  have key : ∀ nm ∈ villageMods, (demoHeap nm.2).kind.cls ≠ .battery ∧ (demoHeap nm.2).kind.cls ≠ .genset := by
    decide +kernel
  obtain ⟨h1, h2⟩ := key nm hm
  rintro (⟨b, hb⟩ | ⟨g, hg⟩)
  · exact h1 (by rw [hb]; rfl)
  · exact h2 (by rw [hg]; rfl)

end Pymgrid
