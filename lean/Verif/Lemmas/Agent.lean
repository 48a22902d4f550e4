import Verif.Spec.Agent
import Verif.Lemmas.RBC
import Verif.Lemmas.GridSetters

set_option autoImplicit false

/-! Lemmas about agents. -/

namespace Pymgrid

open Module

variable {mods : List (String × Nat)} {g : Microgrid} {pl : List Element}

/-- What a module accepts depends on its class and its action space. -/
theorem Module.Accepts.congr {m m' : Module} {a : Act} {n : Bool} (hc : m'.kind.cls = m.kind.cls)
    (ha : m'.actSpace = m.actSpace) (h : m.Accepts a n) : m'.Accepts a n := by
  have hp : m'.energyPos = m.energyPos := by
    unfold Module.energyPos
    cases hk : m.kind <;> cases hk' : m'.kind <;> rw [hk, hk'] at hc <;> simp [Kind.cls] at hc
  have hq : m'.request a n = m.request a n := by
    unfold Module.request Module.denormalizeAct
    rw [ha, hp]
  unfold Module.Accepts at h ⊢
  rw [hq]
  cases hk : m.kind <;> cases hk' : m'.kind <;> rw [hk, hk'] at hc <;> simp [Kind.cls] at hc <;> rw [hk] at h <;> exact h

theorem Playable.congr {h h' : Heap} {cn : List (String × Ctrl) × Bool} (hc : ∀ j, (h' j).kind.cls = (h j).kind.cls)
    (ha : ∀ j, (h' j).actSpace = (h j).actSpace) (hf : ∀ j, (h' j).ffc = (h j).ffc) (p : Playable h mods cn) :
    Playable h' mods cn := by
  intro nm hm hn
  rw [hf] at hn
  have e : modulesNamed h' mods .controllable nm.1 = modulesNamed h mods .controllable nm.1 := by
    unfold modulesNamed; simp only [hf]
  rw [e]
  obtain ⟨c, h1, h2, h3⟩ := p nm hm hn
  exact ⟨c, h1, h2, fun ia hia => (h3 ia hia).congr (hc _) (ha _)⟩

theorem Playable.supplies {h : Heap} {cn : List (String × Ctrl) × Bool} (p : Playable h mods cn) : Supplies h mods cn.1 :=
  fun nm hm hf => by
    obtain ⟨c, h1, h2, -⟩ := p nm hm hf
    exact ⟨c, h1, h2⟩

/-- An episode goes on with a playable control. -/
theorem Running.play_step {F c : Nat} (r : Running mods pl F g c) (hid : (mods.map Prod.snd).Nodup) (hc : c < F)
    {cn : List (String × Ctrl) × Bool} (p : Playable g.heap mods cn) :
    ∃ g' o, g.run cn.1 cn.2 = (g', .ok o) ∧ o.done = decide (F ≤ c + 1) ∧ Running mods pl F g' (c + 1) := by
  refine r.step_on hid hc p.supplies fun nl hnl => ?_
  have hnl' : nl ∈ (Container.build g.heap mods).levelDict .controllable := by rw [← r.ok.cont]; exact hnl
  have hnamed := Container.level_named r.names hnl'
  obtain ⟨i₀, hi₀⟩ := List.exists_mem_of_ne_nil _ (PriorityList.level_nonempty hnl')
  obtain ⟨k, hk, -, hacc⟩ := p (nl.1, i₀) (r.ok.mem_levelDict nl hnl i₀ hi₀).1 (r.ok.mem_levelDict nl hnl i₀ hi₀).2
  exact ⟨k, hk, by rw [hnamed]; exact hacc⟩

/-- The whole loop. -/
theorem Running.play {F : Nat} (hid : (mods.map Prod.snd).Nodup) {π : Agent} {h₀ : Heap}
    (hπ : ∀ hist, Playable h₀ mods (π hist)) (n : Nat) {g : Microgrid} {c : Nat}
    (r : Running mods pl F g c) (hc : c < F) (hist : List RunOut) (hcl : ∀ j, (g.heap j).kind.cls = (h₀ j).kind.cls)
    (hal : ∀ j, (g.heap j).actSpace = (h₀ j).actSpace) (hff : ∀ j, (g.heap j).ffc = (h₀ j).ffc) :
    ∃ g' os, play π n g hist = (g', .ok (hist ++ os)) ∧ os.length = min n (F - c) ∧
      Running mods pl F g' (c + os.length) ∧ (∃ ops, g' = runG g ops) ∧
      os.map RunOut.done = (List.range os.length).map fun j => decide (F ≤ c + j + 1) := by
  induction n generalizing g c hist with
  | zero => exact ⟨g, [], by simp [Pymgrid.play], by simp, by simpa using r, ⟨[], rfl⟩, by simp⟩
  | succ n ih =>
    obtain ⟨g₁, o, hr, hd, r'⟩ := r.play_step hid hc ((hπ hist).congr hcl hal hff)
    have al := run_alike hr
    have cl : ∀ j, (g₁.heap j).kind.cls = (g.heap j).kind.cls := fun j => by
      have := kept_cls.toRespected.run g (π hist).1 (π hist).2 j
      rwa [hr] at this
    simp only [Pymgrid.play, hr]
    by_cases hF : F ≤ c + 1
    · rw [hd, if_pos (by simpa using hF)]
      exact ⟨g₁, [o], rfl, by simp only [List.length_singleton]; omega, r', ⟨[.run (π hist).1 (π hist).2], by simp [runG, GOp.apply, hr]⟩, by simp [hd]⟩
    · rw [hd, if_neg (by simpa using hF)]
      obtain ⟨g', os, e, hl, rn, ⟨ops, hops⟩, hds⟩ := ih r' (by omega) (hist ++ [o]) (fun j => (cl j).trans (hcl j))
        (fun j => (al j).act.trans (hal j)) (fun j => (al j).ffc.trans (hff j))
      refine ⟨g', o :: os, by rw [e, List.append_assoc]; rfl, by simp only [List.length_cons, hl]; omega, ?_,
        ⟨.run (π hist).1 (π hist).2 :: ops, by rw [hops]; simp [runG, GOp.apply, hr]⟩, ?_⟩
      · rw [List.length_cons, Nat.add_comm os.length 1, ← Nat.add_assoc]; exact rn
      · rw [List.map_cons, hds, List.length_cons, List.range_succ_eq_map, List.map_cons, List.map_map, hd]
        refine congrArg₂ _ (by simp) (List.map_congr_left fun j _ => ?_)
        simp only [Function.comp]
        congr 2
        omega

/-- A reset succeeds if the trajectory function (if any) gives a range that is not empty. -/
theorem GridOK.reset_any (ok : GridOK mods g) (hser : ∃ nm ∈ mods, (g.heap nm.2).finalStep? ≠ none)
    (ht : ∀ f, g.trajectory = some f → ∃ i fin, f g.calls g.initialStep g.finalStep = .ok (i, fin) ∧ i < fin) :
    ∃ g', g.reset = (g', .ok ()) := by
  cases htr : g.trajectory with
  | none => exact ok.reset_total htr
  | some f =>
    obtain ⟨i, fin, hf, hlt⟩ := ht f htr
    have hfl : g.cont.fullList.Perm (mods.map Prod.snd) := by rw [ok.cont]; exact Container.fullList_perm _ _
    have htot := setFinalMany_total (l := g.cont.fullList) (b := false) (v := (fin : Int))
      (h := Microgrid.setInitialMany g.heap i g.cont.fullList) (by omega)
      (by
        intro j hj f _
        rw [setInitialMany_get, if_pos hj]
        simp only
        omega)
      (by
        obtain ⟨nm, hm, hne⟩ := hser
        refine .inr ⟨nm.2, hfl.symm.subset (List.mem_map_of_mem hm), ?_⟩
        rw [setInitialMany_get]
        split
        · exact hne
        · exact hne)
    cases hs : Microgrid.setFinalMany (Microgrid.setInitialMany g.heap i g.cont.fullList) fin false g.cont.fullList with
    | mk h₂ r =>
      rw [hs] at htot
      simp only at htot
      subst htot
      have hw : ∀ j ∈ (Container.toTuples g.cont.fullDict).map Prod.snd, (h₂ j).WF := by
        intro j hj
        obtain ⟨ni, hni, rfl⟩ := List.mem_map.mp hj
        rw [ok.cont] at hni
        have h1 := kept_wf.setInitialMany g.cont.fullList i g.heap ni.2
        have h2 := kept_wf.setFinalMany g.cont.fullList fin false (Microgrid.setInitialMany g.heap i g.cont.fullList) ni.2
        rw [hs] at h2
        exact h2 (h1 (ok.wf _ (Container.mem_full hni)))
      obtain ⟨h', e⟩ := resetMany_total hw
      unfold Microgrid.reset Microgrid.setTrajectory
      simp only [htr, hf, hs, e]
      exact ⟨_, rfl⟩

end Pymgrid
