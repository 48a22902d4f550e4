import Verif.Lemmas.FlexSample
import Verif.Lemmas.Contains
import Verif.Lemmas.Loads
import Verif.Props.Sample

set_option autoImplicit false

/-! # C45: random actions that include the flex modules -/

namespace Pymgrid

open Module

section
variable {h : Heap} {mods : List (String × Nat)} {sh : Option Shaper} {tr : Option (Nat → Nat → Option Nat → Except Err (Nat × Nat))}
  {g₀ : Microgrid}

/-- C45, microgrids with `sample_flex_modules=True`: the sample has one action for every module that is not a load, none for
    the loads, and `run` with it succeeds.  Missing for strict samples: microgrids with gensets
    (`C45_strict_sample_genset_microgrid`). -/
theorem C45_flex_sample_partial (hc : Microgrid.create h mods sh tr = .ok g₀)
    (hl : ∀ nm ∈ mods, LibraryModule (h nm.2)) (hb : ∃ nm ∈ mods, ∃ u, (h nm.2).kind = .balancing u)
    (hid : (mods.map Prod.snd).Nodup) (hd : DistinctNames h mods) (hr : ∀ nm ∈ mods, (h nm.2).raiseErrors = false)
    (hs : ∀ f, sh = some f → ∀ i c, ∃ r, f i c = .ok r) (ops : List GOp)
    (hlive : ∀ nm ∈ mods, ((runG g₀ ops).heap nm.2).Live) (strict : Bool)
    (hg : strict = true → ∀ nm ∈ mods, ∀ g, (h nm.2).kind ≠ .genset g) (draw : String → Nat → ℚ × ℚ)
    (hdr : ∀ n j, 0 ≤ (draw n j).1 ∧ 0 ≤ (draw n j).2 ∧ (draw n j).2 ≤ 1) :
    ∃ d g' o, (runG g₀ ops).sampleAction strict true draw = .ok d ∧
      (∀ nm ∈ mods, (∀ t, (h nm.2).kind ≠ .load t) →
        ∃ as, dictGet? d nm.1 = some as ∧ as.length = (allNamed mods nm.1).length) ∧
      (∀ nm ∈ mods, (∃ t, (h nm.2).kind = .load t) → dictGet? d nm.1 = none) ∧
      (runG g₀ ops).run d.control true = (g', .ok o) := by
  obtain ⟨ok, alike, -, -⟩ := user_grid hc hl ops
  obtain ⟨hsp, hcls⟩ := user_spaced hc hl ops
  have hcl : ∀ i, ((runG g₀ ops).heap i).kind.cls = (h i).kind.cls := by
    obtain ⟨rfl, -⟩ := Microgrid.create_ok hc
    exact fun i => kept_cls.runG g₀ ops i
  have hd' : DistinctNames (runG g₀ ops).heap mods := hd.congr alike
  have hall : ∀ nl ∈ (runG g₀ ops).cont.fullDict, nl.2 = allNamed mods nl.1 := fun nl hnl => by
    rw [ok.cont] at hnl; exact full_named hd' hnl
  have hmem : ∀ nl ∈ (runG g₀ ops).cont.fullDict, ∀ i ∈ nl.2, (nl.1, i) ∈ mods := fun nl hnl i hi => by
    rw [hall nl hnl] at hi
    simp only [allNamed, List.mem_map, List.mem_filter, decide_eq_true_eq] at hi
    obtain ⟨x, ⟨hx, hn⟩, rfl⟩ := hi
    rw [← hn]
    exact hx
  have hng : ∀ nm ∈ mods, strict = true → ∀ g, ((runG g₀ ops).heap nm.2).kind ≠ .genset g := by
    intro nm hm hst g hk
    obtain ⟨g', hk'⟩ := hcls nm.2 g hk
    exact hg hst nm hm g' hk'
  have hdim : ∀ nm ∈ mods, (((runG g₀ ops).heap nm.2).actionDim = 0 ↔ (h nm.2).kind.cls = .load) := fun nm hm => by
    have := ((ok.wf _ hm).sample_any (hsp _ hm) (hlive _ hm) (hng nm hm) (le_refl (0 : ℚ)) ⟨le_refl (0 : ℚ), zero_le_one⟩).1
    rw [this, hcl]
  have hne : ∀ nl ∈ (runG g₀ ops).cont.fullDict, nl.2 ≠ [] := fun nl hnl => by
    rw [ok.cont] at hnl
    obtain ⟨d, hdm, hld⟩ := Container.mem_toDict hnl
    obtain ⟨f, s, rfl⟩ := Container.mem_all hdm
    exact (Container.mem_cat.mp hld).1 ▸ (Container.mem_cat.mp hld).2
  obtain ⟨d, e1, -, e3⟩ := Microgrid.sampleDict_any (h := (runG g₀ ops).heap) (strict := strict)
    (P := fun i a => ((runG g₀ ops).heap i).ffc = .controllable → ((runG g₀ ops).heap i).Accepts a true)
    (d := (runG g₀ ops).cont.fullDict) draw (Container.toDict_nodup _)
    (fun nl hnl => ⟨hne nl hnl, fun i hi j =>
      ((ok.wf _ (hmem nl hnl i hi)).sample_any (hsp _ (hmem nl hnl i hi)) (hlive _ (hmem nl hnl i hi))
        (hng _ (hmem nl hnl i hi)) (hdr nl.1 j).1 (hdr nl.1 j).2).2⟩)
  have full : ∀ nm ∈ mods, (nm.1, allNamed mods nm.1) ∈ (runG g₀ ops).cont.fullDict := fun nm hm => by
    rw [ok.cont]
    apply full_has hd'
    apply List.ne_nil_of_mem (a := nm.2)
    simp only [allNamed, List.mem_map, List.mem_filter, decide_eq_true_eq]
    exact ⟨nm, ⟨hm, rfl⟩, rfl⟩
  have same : ∀ nm ∈ mods, ∀ i ∈ allNamed mods nm.1, (h i).ffc = (h nm.2).ffc ∧ (nm.1, i) ∈ mods := fun nm hm i hi => by
    have := hmem _ (full nm hm) i hi
    exact ⟨(hd _ this nm hm rfl).1, this⟩
  have load_iff : ∀ nm ∈ mods, ((h nm.2).kind.cls = .load ↔ (h nm.2).ffc = .fixed) := fun nm hm => by
    constructor
    · intro hk
      have w := (hl nm hm).wf
      cases w with
      | load t h' => exact h'.ffc
      | battery b h' => rw [h'.kind] at hk; simp [Kind.cls] at hk
      | genset b h' => rw [h'.kind] at hk; simp [Kind.cls] at hk
      | grid b t h' => rw [h'.kind] at hk; simp [Kind.cls] at hk
      | renewable b h' => rw [h'.kind] at hk; simp [Kind.cls] at hk
      | balancing b h' => rw [h'.kind] at hk; simp [Kind.cls] at hk
    · intro hf
      obtain ⟨t, ht⟩ := (hl nm hm).wf.fixed_load hf
      rw [ht]; rfl
  have acts : ∀ nm ∈ mods, (h nm.2).ffc ≠ .fixed → ∀ i ∈ allNamed mods nm.1, ((runG g₀ ops).heap i).actionDim ≠ 0 := by
    intro nm hm hf i hi
    obtain ⟨s1, s2⟩ := same nm hm i hi
    intro h0
    exact hf (s1 ▸ (load_iff _ s2).mp ((hdim _ s2).mp h0))
  obtain ⟨g', o, hrun⟩ := C19_run_succeeds hc hl hb hid hr hs ops hlive d.control true fun nl hnl => by
    obtain ⟨i, hi⟩ := List.exists_mem_of_ne_nil _ (PriorityList.level_nonempty (by rw [ok.cont] at hnl; exact hnl))
    obtain ⟨m1, m2⟩ := ok.mem_levelDict nl hnl i hi
    have hf : (h i).ffc = .controllable := by rw [← m2]; exact ((alike i).ffc).symm
    have hnamed : nl.2 = allNamed mods nl.1 := by
      rw [ok.cont] at hnl
      rw [Container.level_named hd'.clear hnl]
      exact (allNamed_controllable hd' m1 m2).symm
    obtain ⟨as, h1, -, h3⟩ := (e3 _ (full _ m1)).2 (acts _ m1 (by simp only; rw [hf]; decide))
    refine ⟨.seq as, by rw [Data.control_get, h1]; rfl, fun ia hia => h3 ia (hnamed ▸ hia) ?_⟩
    exact (ok.mem_levelDict nl hnl _ (List.of_mem_zip hia).1).2
  refine ⟨d, g', o, e1, fun nm hm hk => ?_, fun nm hm hk => ?_, hrun⟩
  · obtain ⟨as, h1, h2, -⟩ := (e3 _ (full nm hm)).2 (acts nm hm fun hf => by
      obtain ⟨t, ht⟩ := (hl nm hm).wf.fixed_load hf
      exact hk t ht)
    exact ⟨as, h1, h2⟩
  · obtain ⟨t, ht⟩ := hk
    refine (e3 _ (full nm hm)).1 fun i hi => ?_
    obtain ⟨s1, s2⟩ := same nm hm i hi
    refine (hdim _ s2).mpr ((load_iff _ s2).mpr ?_)
    exact s1.trans ((load_iff nm hm).mp (by rw [ht]; rfl))

end

/-! ### Examples -/

/-- A sample of the example microgrid with its renewable and balancing modules. -/
example : ((demoGrid.sampleAction false true demoDraw).toOption.map fun d => d.map fun nl => (nl.1, nl.2.map Act.vals)) =
    some [("pv", [[1/4]]), ("balancing", [[1/4]]), ("genset", [[3/4, 1/4]]), ("battery", [[1/4]]), ("grid", [[1/4]])] := by
  decide +kernel
example : ∃ d g' o, demoGrid.sampleAction false true demoDraw = .ok d ∧
    (∀ nm ∈ demoMods, (∀ t, (demoHeap nm.2).kind ≠ .load t) →
      ∃ as, dictGet? d nm.1 = some as ∧ as.length = (allNamed demoMods nm.1).length) ∧
    (∀ nm ∈ demoMods, (∃ t, (demoHeap nm.2).kind = .load t) → dictGet? d nm.1 = none) ∧
    demoGrid.run d.control true = (g', .ok o) :=
  C45_flex_sample_partial demoGrid_ok demo_library demo_balancing demo_ids demo_names (by decide +kernel) (by simp) []
    demo_live false (by simp) demoDraw (by intro n j; norm_num [demoDraw])

end Pymgrid
