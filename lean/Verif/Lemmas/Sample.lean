import Verif.Lemmas.RBC
import Verif.Lemmas.NormalizedRun
import Verif.Lemmas.Strict
import Verif.Model.Sample

set_option autoImplicit false

/-! Random actions. -/

namespace Pymgrid

theorem spread1_ne (lo hi : ℚ) : spread1 lo hi ≠ 0 := by
  unfold spread1
  split
  · exact one_ne_zero
  · assumption

theorem denorm1_mix (lo hi a b u : ℚ) :
    denorm1 lo hi (u * (norm1 lo hi b - norm1 lo hi a) + norm1 lo hi a) = a + u * (b - a) := by
  unfold denorm1 norm1
  have := spread1_ne lo hi
  field_simp
  ring

theorem denorm1_low (lo hi b u : ℚ) : denorm1 lo hi (u * (norm1 lo hi b - 0) + 0) = lo + u * (b - lo) := by
  unfold denorm1 norm1
  have := spread1_ne lo hi
  field_simp
  ring

namespace Module

theorem normBound_fin {m : Module} {lo hi sign x : ℚ} (hs : m.actSpace = some ⟨[lo], [hi]⟩) :
    m.normBound sign (.ok (.fin x)) = .ok (norm1 lo hi (sign * x)) := by
  simp [normBound, hs, Space.normalize, Space.apply, Space.dim, mapBounds, Space.item]

theorem request_one {m : Module} {lo hi v : ℚ} (hs : m.actSpace = some ⟨[lo], [hi]⟩) :
    m.request (.num v) true = .ok (denorm1 lo hi v) := by
  simp [request, denormalizeAct, hs, Space.denormalize, Space.apply, Space.dim, mapBounds, Space.item, energyOf]

/-- A module other than a genset that is asked for an energy in its window exchanges exactly that. -/
theorem WF.step_in_window {m : Module} (h : m.WF) (hl : m.Live) (hg : ∀ g, m.kind ≠ .genset g) {a : Act} {n : Bool}
    {lo hi q : ℚ} (hw : m.window = some (lo, hi)) (hq : m.request a n = .ok q) (hx : lo ≤ q ∧ q ≤ hi) :
    ∃ m' o, m.step a n = (m', .ok o) ∧ o.info.provided.getD 0 - o.info.absorbed.getD 0 = q := by
  cases h with
  | battery b h =>
    have hw' : (-b.maxConsumption, b.maxProduction) = (lo, hi) := by
      simpa [window, h.kind, Battery.maxConsumption, Battery.maxProduction] using hw
    obtain ⟨rfl, rfl⟩ := Prod.mk.inj hw'
    rw [h.step_eq, hq]
    have := h.stepEnergy q
    by_cases h0 : 0 ≤ q
    · rw [if_pos h0, if_neg (fun hh => absurd hh.2 (not_lt.mpr hx.2))] at this
      obtain ⟨m', o, e, s⟩ := this
      refine ⟨m', o, e, ?_⟩
      rw [s.provided, s.absorbed, min_eq_left hx.2]
      simp [Dir.out, Dir.into]
    · rw [if_neg h0, if_neg (fun hh => absurd hh.2 (not_lt.mpr (by linarith [hx.1])))] at this
      obtain ⟨m', o, e, s⟩ := this
      refine ⟨m', o, e, ?_⟩
      rw [s.provided, s.absorbed, min_eq_left (by linarith [hx.1])]
      simp [Dir.out, Dir.into]
  | grid p t h w =>
    obtain ⟨r, hr⟩ := hl.row h.ts.series
    obtain ⟨imp, exp, co2, st, rfl, hst, -⟩ := h.row hr
    have hw' : (-(p.maxExport * st), p.maxImport * st) = (lo, hi) := by
      rw [h.window hr hst] at hw
      exact Option.some.inj hw
    obtain ⟨rfl, rfl⟩ := Prod.mk.inj hw'
    have hun := (h.unnormalizedStep q).2 _ _ _ _ hr
    rw [h.ts.step_eq, hq]
    rcases le_or_gt 0 q with h0 | h0
    · have hun := hun.1 h0
      rw [if_neg (fun hh => absurd hh.2 (not_lt.mpr hx.2)), min_eq_left hx.2] at hun
      obtain ⟨pre, row, f, obs, -, -, -, -, he⟩ := h.ts.stepEnergy_ok hun (by simp [h.prov]) (by simp) w
      exact ⟨_, _, he, by simp⟩
    · have hun := hun.2 h0
      rw [if_neg (fun hh => absurd hh.2 (not_lt.mpr (by linarith [hx.1]))), min_eq_left (by linarith [hx.1])] at hun
      obtain ⟨pre, row, f, obs, -, -, -, -, he⟩ := h.ts.stepEnergy_ok hun (by simp) (by simp [h.abs]) w
      exact ⟨_, _, he, by simp⟩
  | renewable t h w =>
    obtain ⟨r, hr⟩ := hl.row h.ts.series
    obtain ⟨x, rfl, hx0, hi⟩ := h.itemAt hr
    rw [h.window hr] at hw
    obtain ⟨rfl, rfl⟩ := Prod.mk.inj (Option.some.inj hw)
    have hun := (h.unnormalizedStep q).2.2 x hr hx.1
    rw [if_neg (fun hh => absurd hh.2 (not_lt.mpr hx.2))] at hun
    obtain ⟨pre, row, f, obs, -, -, -, -, he⟩ := h.ts.stepEnergy_ok hun (by simp [h.prov]) (by simp) w
    rw [h.ts.step_eq, hq]
    exact ⟨_, _, he, by simp [hx.2]⟩
  | genset g h => exact absurd h.kind (hg g)
  | load t h w => simp [window, h.kind] at hw
  | balancing u h => simp [window, h.kind] at hw

/-- Strict samples: a convex combination of the bounds of the window. -/
theorem WF.sample_strict {m : Module} (h : m.WF) (sp : m.Spaced) (hl : m.Live) (hg : ∀ g, m.kind ≠ .genset g)
    {lo hi : ℚ} (hw : m.window = some (lo, hi)) (u v : ℚ) :
    lo ≤ hi ∧ ∃ a, m.sampleAction true u v = .ok (.num a) ∧ m.request (.num a) true = .ok (lo + u * (hi - lo)) := by
  have ha := sp.act
  cases h with
  | battery b h =>
    have hw' : (-b.maxConsumption, b.maxProduction) = (lo, hi) := by
      simpa [window, h.kind, Battery.maxConsumption, Battery.maxProduction] using hw
    obtain ⟨rfl, rfl⟩ := Prod.mk.inj hw'
    rw [h.kind] at ha
    simp only [Kind.actBox] at ha
    have h1 := h.valid.maxProduction_nonneg
    have h2 := h.valid.maxConsumption_nonneg
    refine ⟨by linarith, _, ?_, (request_one ha).trans (congrArg _ (denorm1_mix _ _ _ _ _))⟩
    simp only [sampleAction, h.kind, sampleBase, isSink, isSource, maxProduction,
      maxConsumption, and_self, if_true]
    rw [normBound_fin ha, normBound_fin ha]
    simp
  | grid p t h w =>
    obtain ⟨r, hr⟩ := hl.row h.ts.series
    obtain ⟨imp, exp, co2, st, rfl, hst, -⟩ := h.row hr
    have hw' : (-(p.maxExport * st), p.maxImport * st) = (lo, hi) := by
      rw [h.window hr hst] at hw
      exact Option.some.inj hw
    obtain ⟨rfl, rfl⟩ := Prod.mk.inj hw'
    rw [h.kind] at ha
    simp only [Kind.actBox] at ha
    have h1 : 0 ≤ st := by rcases hst with rfl | rfl <;> norm_num
    have h2 := mul_nonneg h.imp h1
    have h3 := mul_nonneg h.exp h1
    refine ⟨by linarith, _, ?_, (request_one ha).trans (congrArg _ (denorm1_mix _ _ _ _ _))⟩
    simp only [sampleAction, h.kind, sampleBase, isSink, isSource, maxProduction,
      maxConsumption, and_self, if_true, h.gridStatus hr]
    rw [normBound_fin ha, normBound_fin ha]
    simp
  | renewable t h w =>
    obtain ⟨r, hr⟩ := hl.row h.ts.series
    obtain ⟨x, rfl, hx0, hi'⟩ := h.itemAt hr
    rw [h.window hr] at hw
    obtain ⟨rfl, rfl⟩ := Prod.mk.inj (Option.some.inj hw)
    rw [h.kind] at ha
    simp only [Kind.actBox] at ha
    have hlen := (h.ts.valid.box).2.1
    rw [h.low] at ha hlen
    obtain ⟨mx, hmx⟩ := List.length_eq_one_iff.mp hlen.symm
    rw [hmx] at ha
    refine ⟨hx0, _, ?_, (request_one ha).trans (congrArg _ (denorm1_low _ _ _ _))⟩
    simp only [sampleAction, h.kind, sampleBase, isSink, isSource, maxProduction,
      hi', if_true, and_self, Bool.false_eq_true, and_false, if_false]
    rw [normBound_fin ha]
    simp
  | genset g h => exact absurd h.kind (hg g)
  | load t h w => simp [window, h.kind] at hw
  | balancing u h => simp [window, h.kind] at hw

theorem accepts_request {m : Module} {a : Act} {n : Bool} {q : ℚ} (k1 : ∀ g, m.kind ≠ .genset g)
    (k2 : ∀ t, m.kind ≠ .load t) (k3 : ∀ t, m.kind ≠ .renewable t) (hq : m.request a n = .ok q) : m.Accepts a n := by
  unfold Accepts
  split
  · exact absurd ‹_› (k1 _)
  · exact absurd ‹_› (k2 _)
  · exact absurd ‹_› (k3 _)
  · exact ⟨q, hq⟩

/-- Strict samples of gensets: the scalar bound does not fit the two-dimensional space. -/
theorem WF.sample_genset {m : Module} (sp : m.Spaced) {g : Genset} (hg : m.kind = .genset g) (u v : ℚ) :
    m.sampleAction true u v = .error .type := by
  have ha := sp.act
  rw [hg] at ha
  simp only [Kind.actBox, Genset.minAct, Genset.maxAct] at ha
  simp [sampleAction, hg, sampleBase, isSink, isSource, maxProduction, normBound, ha, Space.normalize, Space.apply,
    Space.dim]

/-- Samples of controllable modules are actions which the modules accept. -/
theorem WF.sample_accepts {m : Module} (h : m.WF) (sp : m.Spaced) (hl : m.Live) (hf : m.ffc = .controllable)
    {strict : Bool} (hg : strict = true → ∀ g, m.kind ≠ .genset g) {u v : ℚ} (hu : 0 ≤ u) (hv : 0 ≤ v ∧ v ≤ 1) :
    m.actionDim ≠ 0 ∧ ∃ a, m.sampleAction strict u v = .ok a ∧ m.Accepts a true := by
  have ha := sp.act
  have key : ∀ {lo hi w₁ w₂ : ℚ}, (∀ g, m.kind ≠ .genset g) → (∀ t, m.kind ≠ .load t) → (∀ t, m.kind ≠ .renewable t) →
      m.window = some (w₁, w₂) → m.actSpace = some ⟨[lo], [hi]⟩ →
      m.actionDim ≠ 0 ∧ ∃ a, m.sampleAction strict u v = .ok a ∧ m.Accepts a true := by
    intro lo hi w₁ w₂ k1 k2 k3 hw hs
    refine ⟨by simp [actionDim, hs, Space.dim], ?_⟩
    cases strict with
    | true =>
      obtain ⟨-, a, e1, e2⟩ := h.sample_strict sp hl k1 hw u v
      exact ⟨_, e1, accepts_request k1 k2 k3 e2⟩
    | false =>
      refine ⟨.num u, ?_, accepts_request k1 k2 k3 (request_one hs)⟩
      unfold sampleAction
      split
      · exact absurd ‹_› (k2 _)
      · exact absurd ‹_› (k1 _)
      · simp [sampleBase]
  cases h with
  | battery b h =>
    rw [h.kind] at ha
    exact key (by simp [h.kind]) (by simp [h.kind]) (by simp [h.kind])
      (by simp only [window, h.kind]; rfl) ha
  | grid p t h w =>
    rw [h.kind] at ha
    obtain ⟨r, hr⟩ := hl.row h.ts.series
    obtain ⟨imp, exp, co2, st, rfl, hst, -⟩ := h.row hr
    exact key (by simp [h.kind]) (by simp [h.kind]) (by simp [h.kind]) (h.window hr hst) ha
  | genset g h =>
    rw [h.kind] at ha
    simp only [Kind.actBox, Genset.minAct, Genset.maxAct] at ha
    have hs : strict = false := by
      cases strict with
      | true => exact absurd h.kind (hg rfl g)
      | false => rfl
    subst hs
    refine ⟨by simp [actionDim, ha, Space.dim], .arr [v, u], by simp [sampleAction, h.kind, sampleBase], ?_⟩
    simp only [Accepts, h.kind]
    refine ⟨v, u, rfl, hv.1, hv.2, denorm1 0 g.runMax u, ?_, ?_⟩
    · simp [request, denormalizeAct, ha, Space.denormalize, Space.apply, Space.dim, mapBounds, Space.item, energyOf,
        energyPos, h.kind]
    · have := h.min_nonneg.trans h.min_le
      unfold denorm1 spread1
      split
      · linarith
      · nlinarith
  | load t h w => rw [h.ffc] at hf; exact absurd hf (by decide)
  | renewable t h w => rw [h.ffc] at hf; exact absurd hf (by decide)
  | balancing u h => rw [h.ffc] at hf; exact absurd hf (by decide)

end Module

namespace Microgrid

variable {h : Heap} {strict : Bool} {P : Nat → Act → Prop}

theorem sampleList_ok {is : List Nat} (draw : Nat → ℚ × ℚ)
    (hp : ∀ i ∈ is, ∀ j, ∃ a, (h i).sampleAction strict (draw j).1 (draw j).2 = .ok a ∧ P i a) :
    ∃ as, sampleList h strict draw is = .ok as ∧ as.length = is.length ∧ ∀ ia ∈ is.zip as, P ia.1 ia.2 := by
  induction is generalizing draw with
  | nil => exact ⟨[], rfl, rfl, by simp⟩
  | cons i is ih =>
    obtain ⟨a, e1, p1⟩ := hp i (by simp) 0
    obtain ⟨as, e2, l2, p2⟩ := ih (fun j => draw (j + 1)) fun i hi j => hp i (by simp [hi]) (j + 1)
    refine ⟨a :: as, by simp only [sampleList, e1, e2], by simp [l2], ?_⟩
    intro ia hia
    rcases List.mem_cons.mp hia with rfl | hia
    · exact p1
    · exact p2 ia hia

theorem sampleDict_ok {d : ModDict} (draw : String → Nat → ℚ × ℚ) (hn : (d.map Prod.fst).Nodup)
    (hp : ∀ nl ∈ d, nl.2 ≠ [] ∧ ∀ i ∈ nl.2, (h i).actionDim ≠ 0 ∧
      ∀ j, ∃ a, (h i).sampleAction strict (draw nl.1 j).1 (draw nl.1 j).2 = .ok a ∧ P i a) :
    ∃ r, sampleDict h strict draw d = .ok r ∧ r.map Prod.fst = d.map Prod.fst ∧ ∀ nl ∈ d, ∃ as,
      dictGet? r nl.1 = some as ∧ as.length = nl.2.length ∧ ∀ ia ∈ nl.2.zip as, P ia.1 ia.2 := by
  induction d with
  | nil => exact ⟨[], rfl, rfl, by simp⟩
  | cons nl d ih =>
    obtain ⟨name, is⟩ := nl
    obtain ⟨r, e2, k2, p2⟩ := ih (List.nodup_cons.mp hn).2 fun nl hnl => hp nl (by simp [hnl])
    obtain ⟨h1, h2⟩ := hp (name, is) (by simp)
    obtain ⟨as, e1, l1, p1⟩ := sampleList_ok (h := h) (strict := strict) (P := P) (is := is) (draw name)
      fun i hi j => (h2 i hi).2 j
    cases is with
    | nil => exact absurd rfl h1
    | cons i is =>
      refine ⟨(name, as) :: r, ?_, by simp [k2], ?_⟩
      · simp only [sampleDict, if_neg (h2 i (by simp)).1, e1, e2]
      · intro nl hnl
        rcases List.mem_cons.mp hnl with rfl | hnl
        · exact ⟨as, by simp [dictGet?], l1, p1⟩
        · obtain ⟨bs, g1, g2, g3⟩ := p2 nl hnl
          refine ⟨bs, ?_, g2, g3⟩
          have : name ≠ nl.1 := fun e =>
            (List.nodup_cons.mp hn).1 (e ▸ List.mem_map.mpr ⟨nl, hnl, rfl⟩)
          simpa [dictGet?, this] using g1

theorem sampleList_or {is : List Nat} (draw : Nat → ℚ × ℚ) {e : Err}
    (hp : ∀ i ∈ is, ∀ j, (∃ a, (h i).sampleAction strict (draw j).1 (draw j).2 = .ok a) ∨
      (h i).sampleAction strict (draw j).1 (draw j).2 = .error e) :
    (∃ as, sampleList h strict draw is = .ok as) ∨ sampleList h strict draw is = .error e := by
  induction is generalizing draw with
  | nil => exact .inl ⟨[], rfl⟩
  | cons i is ih =>
    rcases hp i (by simp) 0 with ⟨a, e1⟩ | e1
    · rcases ih (fun j => draw (j + 1)) (fun i hi j => hp i (by simp [hi]) (j + 1)) with ⟨as, e2⟩ | e2
      · exact .inl ⟨a :: as, by simp only [sampleList, e1, e2]⟩
      · exact .inr (by simp only [sampleList, e1, e2])
    · exact .inr (by simp only [sampleList, e1])

theorem sampleList_error {is : List Nat} (draw : Nat → ℚ × ℚ) {e : Err}
    (hp : ∀ i ∈ is, ∀ j, (∃ a, (h i).sampleAction strict (draw j).1 (draw j).2 = .ok a) ∨
      (h i).sampleAction strict (draw j).1 (draw j).2 = .error e)
    {i₀ : Nat} (hi : i₀ ∈ is) (he : ∀ j, (h i₀).sampleAction strict (draw j).1 (draw j).2 = .error e) :
    sampleList h strict draw is = .error e := by
  induction is generalizing draw with
  | nil => simp at hi
  | cons i is ih =>
    rcases hp i (by simp) 0 with ⟨a, e1⟩ | e1
    · rcases List.mem_cons.mp hi with rfl | hi
      · rw [he 0] at e1; cases e1
      · have := ih (fun j => draw (j + 1)) (fun i hi j => hp i (by simp [hi]) (j + 1)) hi fun j => he (j + 1)
        simp only [sampleList, e1, this]
    · simp only [sampleList, e1]

theorem sampleDict_error {d : ModDict} (draw : String → Nat → ℚ × ℚ) {e : Err}
    (hp : ∀ nl ∈ d, nl.2 ≠ [] ∧ ∀ i ∈ nl.2, (h i).actionDim ≠ 0 ∧ ∀ j,
      (∃ a, (h i).sampleAction strict (draw nl.1 j).1 (draw nl.1 j).2 = .ok a) ∨
        (h i).sampleAction strict (draw nl.1 j).1 (draw nl.1 j).2 = .error e)
    {nl₀ : String × List Nat} (hnl : nl₀ ∈ d) {i₀ : Nat} (hi : i₀ ∈ nl₀.2)
    (he : ∀ j, (h i₀).sampleAction strict (draw nl₀.1 j).1 (draw nl₀.1 j).2 = .error e) :
    sampleDict h strict draw d = .error e := by
  induction d with
  | nil => simp at hnl
  | cons nl d ih =>
    obtain ⟨name, is⟩ := nl
    obtain ⟨h1, h2⟩ := hp (name, is) (by simp)
    cases is with
    | nil => exact absurd rfl h1
    | cons i is =>
      simp only [sampleDict, if_neg (h2 i (by simp)).1]
      rcases List.mem_cons.mp hnl with rfl | hnl
      · rw [sampleList_error (draw name) (fun i hi j => (h2 i hi).2 j) hi he]
      · have ih' := ih (fun nl hnl => hp nl (by simp [hnl])) hnl
        rcases sampleList_or (h := h) (strict := strict) (is := i :: is) (draw name) (fun i hi j => (h2 i hi).2 j) with
          ⟨as, e1⟩ | e1
        · rw [e1, ih']
        · rw [e1]

end Microgrid

end Pymgrid
