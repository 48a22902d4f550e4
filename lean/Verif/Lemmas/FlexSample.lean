import Verif.Lemmas.Sample
import Verif.Lemmas.GetLog

set_option autoImplicit false

/-! Samples that include the flex modules. -/

namespace Pymgrid

open Module

/-- Every module that still has data can be sampled, strictly unless it is a genset. -/
theorem Module.WF.sample_any {m : Module} (h : m.WF) (sp : m.Spaced) (hl : m.Live) {strict : Bool}
    (hg : strict = true → ∀ g, m.kind ≠ .genset g) {u v : ℚ} (hu : 0 ≤ u) (hv : 0 ≤ v ∧ v ≤ 1) :
    (m.actionDim = 0 ↔ m.kind.cls = .load) ∧
      ∃ a, m.sampleAction strict u v = .ok a ∧ (m.ffc = .controllable → m.Accepts a true) := by
  have ha := sp.act
  have ctrl : m.ffc = .controllable → m.kind.cls ≠ .load → (m.actionDim = 0 ↔ m.kind.cls = .load) ∧
      ∃ a, m.sampleAction strict u v = .ok a ∧ (m.ffc = .controllable → m.Accepts a true) := by
    intro hf hk
    obtain ⟨d, a, e, ac⟩ := h.sample_accepts sp hl hf hg hu hv
    exact ⟨by simp [d, hk], a, e, fun _ => ac⟩
  have h0 := h
  cases h with
  | battery b h => exact ctrl h.ffc (by simp [h.kind, Kind.cls])
  | grid p t h w =>
    by_cases hf : m.ffc = .controllable
    · exact ctrl hf (by simp [h.kind, Kind.cls])
    rw [h.kind] at ha
    refine ⟨by simp [actionDim, ha, h.kind, Kind.cls, Kind.actBox, Space.dim], ?_⟩
    cases strict with
    | false => exact ⟨.num u, by simp [sampleAction, h.kind, sampleBase], fun e => absurd e hf⟩
    | true =>
      obtain ⟨r, hr⟩ := hl.row h.ts.series
      obtain ⟨imp, exp, co2, st, rfl, hst, -⟩ := h.row hr
      obtain ⟨-, a, e, -⟩ := h0.sample_strict sp hl (by simp [h.kind]) (h.window hr hst) u v
      exact ⟨_, e, fun e => absurd e hf⟩
  | genset g h => exact ctrl h.ffc (by simp [h.kind, Kind.cls])
  | load t h w =>
    rw [h.kind] at ha
    simp only [Kind.actBox] at ha
    refine ⟨by simp [actionDim, ha, h.kind, Kind.cls, Space.dim], .arr [], by simp [sampleAction, h.kind], ?_⟩
    rw [h.ffc]; simp
  | renewable t h w =>
    have hn : m.ffc ≠ .controllable := by rw [h.ffc]; simp
    rw [h.kind] at ha
    refine ⟨by simp [actionDim, ha, h.kind, Kind.cls, Kind.actBox, Space.dim, h.low], ?_⟩
    cases strict with
    | false => exact ⟨.num u, by simp [sampleAction, h.kind, sampleBase], fun e => absurd e hn⟩
    | true =>
      obtain ⟨r, hr⟩ := hl.row h.ts.series
      obtain ⟨x, rfl, -, -⟩ := h.itemAt hr
      obtain ⟨-, a, e, -⟩ := h0.sample_strict sp hl (by simp [h.kind]) (h.window hr) u v
      exact ⟨_, e, fun e => absurd e hn⟩
  | balancing b h =>
    have hn : m.ffc ≠ .controllable := by rw [h.ffc]; simp
    rw [h.kind] at ha
    simp only [Kind.actBox] at ha
    refine ⟨by simp [actionDim, ha, h.kind, Kind.cls], ?_⟩
    cases strict with
    | false => exact ⟨.num u, by simp [sampleAction, h.kind, sampleBase], fun e => absurd e hn⟩
    | true =>
      exact ⟨.num 0, by simp [sampleAction, h.kind, sampleBase, isSink, isSource, maxProduction, maxConsumption, normBound, ha],
        fun e => absurd e hn⟩

namespace Microgrid

variable {h : Heap} {strict : Bool} {P : Nat → Act → Prop}

/-- Samples of a dict whose names have either only modules with actions or only modules without. -/
theorem sampleDict_any {d : ModDict} (draw : String → Nat → ℚ × ℚ) (hn : (d.map Prod.fst).Nodup)
    (hp : ∀ nl ∈ d, nl.2 ≠ [] ∧ ∀ i ∈ nl.2, ∀ j, ∃ a, (h i).sampleAction strict (draw nl.1 j).1 (draw nl.1 j).2 = .ok a ∧ P i a) :
    ∃ r, sampleDict h strict draw d = .ok r ∧ (∀ n ∈ r.map Prod.fst, n ∈ d.map Prod.fst) ∧ ∀ nl ∈ d,
      ((∀ i ∈ nl.2, (h i).actionDim = 0) → dictGet? r nl.1 = none) ∧
      ((∀ i ∈ nl.2, (h i).actionDim ≠ 0) → ∃ as, dictGet? r nl.1 = some as ∧ as.length = nl.2.length ∧
        ∀ ia ∈ nl.2.zip as, P ia.1 ia.2) := by
  induction d with
  | nil => exact ⟨[], rfl, by simp, by simp⟩
  | cons nl d ih =>
    obtain ⟨name, is⟩ := nl
    obtain ⟨r, e2, k2, p2⟩ := ih (List.nodup_cons.mp hn).2 fun nl hnl => hp nl (by simp [hnl])
    obtain ⟨h1, h2⟩ := hp (name, is) (by simp)
    have hnot : name ∉ d.map Prod.fst := (List.nodup_cons.mp hn).1
    have hgone : dictGet? r name = none := by
      cases hr : dictGet? r name with
      | none => rfl
      | some l => exact absurd (k2 name (List.mem_map.mpr ⟨_, dictGet?_mem hr, rfl⟩)) hnot
    cases is with
    | nil => exact absurd rfl h1
    | cons i is =>
      by_cases h0 : (h i).actionDim = 0
      · refine ⟨r, by simp only [sampleDict, if_pos h0, e2], fun n hn => List.mem_cons_of_mem _ (k2 n hn), ?_⟩
        intro nl hnl
        rcases List.mem_cons.mp hnl with rfl | hnl
        · exact ⟨fun _ => hgone, fun hc => absurd h0 (hc i (by simp))⟩
        · exact p2 nl hnl
      · obtain ⟨as, e1, l1, p1⟩ := sampleList_ok (h := h) (strict := strict) (P := P) (is := i :: is) (draw name) h2
        refine ⟨(name, as) :: r, by simp only [sampleDict, if_neg h0, e1, e2], ?_, ?_⟩
        · intro n hn
          rcases List.mem_cons.mp hn with rfl | hn
          · simp
          · exact List.mem_cons_of_mem _ (k2 n hn)
        · intro nl hnl
          rcases List.mem_cons.mp hnl with rfl | hnl
          · exact ⟨fun hc => absurd (hc i (by simp)) h0, fun _ => ⟨as, by simp [dictGet?], l1, p1⟩⟩
          · have : name ≠ nl.1 := fun e => hnot (e ▸ List.mem_map.mpr ⟨nl, hnl, rfl⟩)
            simpa [dictGet?, this] using p2 nl hnl

end Microgrid

end Pymgrid
