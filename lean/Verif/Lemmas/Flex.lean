import Verif.Lemmas.Evolve

set_option autoImplicit false

/-! What the flexible modules do when they are dispatched. -/

namespace Pymgrid

namespace Module

theorem TSWF.step_num {m : Module} {t : TS} (h : m.TSWF t) (w : t.Works) {q : ℚ} {u : UpdateOut}
    (hu : m.unnormalizedStep q = (m, .ok u))
    (hp : m.provName = none → u.info.provided = none) (ha : m.absName = none → u.info.absorbed = none) :
    ∃ m' o, m.step (.num q) false = (m', .ok o) ∧ o.info = u.info ∧ o.reward = u.reward ∧ o.done = u.done := by
  obtain ⟨pre, row, f, obs, -, -, -, -, he⟩ := h.stepEnergy_ok hu hp ha w
  have hreq : m.request (.num q) false = .ok q := by simp [request, energyOf]
  rw [h.step_eq, hreq]
  exact ⟨_, _, he, rfl, rfl, rfl⟩

theorem GridWF.status_mul {m : Module} {p : GridParams} {t : TS} (h : m.GridWF p t) {a b c d : ℚ}
    (hr : t.rows[m.currentStep]? = some [a, b, c, d]) (x : ℚ) :
    x * d = if (t.rows[m.currentStep]?).bind (·[3]?) = some 1 then x else 0 := by
  obtain ⟨_, _, _, _, e, hs, -⟩ := h.row hr
  simp only [List.cons.injEq, and_true] at e
  obtain ⟨-, -, -, rfl⟩ := e
  rcases hs with rfl | rfl <;> simp [hr]

theorem GridWF.state_get {m : Module} {p : GridParams} {t : TS} (h : m.GridWF p t) :
    ∃ s, m.state = .ok s ∧ 4 ≤ s.length := by
  refine ⟨_, h.ts.state, ?_⟩
  rw [List.length_append, h.ts.valid.width (h.ts.valid.obsAt_within _), h.four]
  omega

theorem series_eq {m : Module} {t t' : TS} (h : m.series? = some t) (h' : m.series? = some t') : t' = t := by
  rw [h] at h'; simpa using h'.symm

/-- A module only steps while it has data. -/
theorem WF.live_of_step {m m' : Module} (h : m.WF) {a : Act} {n : Bool} {o : StepOut}
    (hs : m.step a n = (m', .ok o)) : m.Live := by
  intro t ht
  by_contra hc
  have hr : t.rows[m.currentStep]? = none := List.getElem?_eq_none (not_lt.mp hc)
  have key : ∀ {t : TS}, m.TSWF t → (∀ q, ∃ e, m.unnormalizedStep q = (m, .error e)) → False := by
    intro t hw hq
    rw [hw.step_eq] at hs
    cases hreq : m.request a n with
    | error e => rw [hreq] at hs; simp at hs
    | ok q =>
      rw [hreq] at hs
      obtain ⟨e, he⟩ := hq q
      obtain ⟨pre, row, m₁, u, -, hu, -⟩ := stepEnergy_inv hs
      rw [he] at hu
      simp at hu
  cases h with
  | battery b h => simp [series?, h.kind] at ht
  | genset g h => simp [series?, h.kind] at ht
  | balancing u h => simp [series?, h.kind] at ht
  | grid p t' h w =>
    obtain rfl := series_eq ht h.ts.series
    exact key h.ts fun q => (h.unnormalizedStep q).1 hr
  | renewable t' h w =>
    obtain rfl := series_eq ht h.ts.series
    exact key h.ts fun q => (h.unnormalizedStep q).2.1 hr
  | load t' h w =>
    obtain rfl := series_eq ht h.ts.series
    refine key h.ts fun q => ?_
    rcases lt_or_ge 0 q with hq | hq
    · exact ⟨_, (h.unnormalizedStep q).1 hq⟩
    · have := (h.unnormalizedStep q).2 hq
      rw [itemAt_none hr] at this
      exact ⟨_, this⟩

theorem Live.row {m : Module} {t : TS} (h : m.Live) (ht : m.series? = some t) :
    ∃ r, t.rows[m.currentStep]? = some r := ⟨_, List.getElem?_eq_getElem (h t ht)⟩

/-- Dispatch of a flexible module on a deficit. -/
theorem WF.flex_source {m : Module} (h : m.WF) (hl : m.Live) (hf : m.ffc = .flex) {need : ℚ} (h0 : 0 ≤ need) :
    sourceAmount m need = .ok (capMin m.canProvide need) ∧ 0 ≤ capMin m.canProvide need ∧
      capMin m.canProvide need ≤ need ∧
      ∃ m' o, m.step (.num (capMin m.canProvide need)) false = (m', .ok o) ∧
        o.info.provided = some (capMin m.canProvide need) ∧ o.info.absorbed = none := by
  have hmin : ∀ x y : ℚ, (if x < y then x else y) = min x y := by
    intro x y
    split
    · rename_i hlt; exact (min_eq_left hlt.le).symm
    · rename_i hlt; exact (min_eq_right (not_lt.mp hlt)).symm
  cases h with
  | battery b h => rw [h.ffc] at hf; simp at hf
  | genset g h => rw [h.ffc] at hf; simp at hf
  | load t h w => rw [h.ffc] at hf; simp at hf
  | balancing u h =>
    have hc : capMin m.canProvide need = need := by simp [canProvide, h.kind, capMin]
    rw [hc]
    refine ⟨by simp [sourceAmount, isSource, h.kind, maxProduction], h0, le_rfl, ?_⟩
    obtain ⟨row, -, he⟩ := h.stepEnergy need
    have hreq : m.request (.num need) false = .ok need := by simp [request, energyOf]
    rw [h.step_eq, hreq]
    exact ⟨_, _, he, by simp [h0], by simp [h0]⟩
  | renewable t h w =>
    obtain ⟨r, hr⟩ := hl.row h.ts.series
    obtain ⟨x, rfl, hx, hi⟩ := h.itemAt hr
    have hc : capMin m.canProvide need = min x need := by simp [canProvide, h.kind, capMin, hr]
    rw [hc]
    refine ⟨by simp [sourceAmount, isSource, h.kind, maxProduction, hi, hmin], le_min hx h0, min_le_right _ _, ?_⟩
    have hun := (h.unnormalizedStep (min x need)).2.2 x hr (le_min hx h0)
    rw [if_neg (fun hh => absurd (min_le_left x need) (not_le.mpr hh.2))] at hun
    obtain ⟨m', o, he, hinfo, -⟩ := h.ts.step_num w hun (by simp [h.prov]) (by simp)
    refine ⟨m', o, he, ?_, ?_⟩
    · rw [hinfo]; simp
    · rw [hinfo]
  | grid p t h w =>
    obtain ⟨r, hr⟩ := hl.row h.ts.series
    obtain ⟨a, b, c, d, rfl, hs, -⟩ := h.row hr
    have hst0 : 0 ≤ d := by rcases hs with rfl | rfl <;> norm_num
    have hm0 : 0 ≤ p.maxImport * d := mul_nonneg h.imp hst0
    have hc : capMin m.canProvide need = min (p.maxImport * d) need := by
      simp only [canProvide, h.kind, capMin]
      rw [h.status_mul hr]
    rw [hc]
    refine ⟨by simp [sourceAmount, isSource, h.kind, maxProduction, h.gridStatus hr, hmin], le_min hm0 h0,
      min_le_right _ _, ?_⟩
    have hun := ((h.unnormalizedStep (min (p.maxImport * d) need)).2 a b c d hr).1 (le_min hm0 h0)
    rw [if_neg (fun hh => absurd (min_le_left (p.maxImport * d) need) (not_le.mpr hh.2))] at hun
    obtain ⟨m', o, he, hinfo, -⟩ := h.ts.step_num w hun (by simp [h.prov]) (by simp)
    refine ⟨m', o, he, ?_, ?_⟩
    · rw [hinfo]; simp
    · rw [hinfo]

/-- Dispatch of a flexible module on a surplus. -/
theorem WF.flex_sink {m : Module} (h : m.WF) (hl : m.Live) (hf : m.ffc = .flex) {x : ℚ} (h0 : 0 ≤ x) :
    sinkAmount m x = .ok (capMin m.canAbsorb x) ∧ 0 ≤ capMin m.canAbsorb x ∧ capMin m.canAbsorb x ≤ x ∧
      ∃ m' o, m.step (.num (-1 * capMin m.canAbsorb x)) false = (m', .ok o) ∧
        o.info.absorbed.getD 0 = capMin m.canAbsorb x ∧ o.info.provided.getD 0 = 0 := by
  have hmin : ∀ x y : ℚ, (if x < y then x else y) = min x y := by
    intro x y
    split
    · rename_i hlt; exact (min_eq_left hlt.le).symm
    · rename_i hlt; exact (min_eq_right (not_lt.mp hlt)).symm
  cases h with
  | battery b h => rw [h.ffc] at hf; simp at hf
  | genset g h => rw [h.ffc] at hf; simp at hf
  | load t h w => rw [h.ffc] at hf; simp at hf
  | balancing u h =>
    have hc : capMin m.canAbsorb x = x := by simp [canAbsorb, h.kind, capMin]
    rw [hc]
    refine ⟨by simp [sinkAmount, isSink, h.kind, maxConsumption], h0, le_rfl, ?_⟩
    obtain ⟨row, -, he⟩ := h.stepEnergy (-1 * x)
    have hreq : m.request (.num (-1 * x)) false = .ok (-1 * x) := by simp [request, energyOf]
    rw [h.step_eq, hreq]
    refine ⟨_, _, he, ?_⟩
    rcases h0.eq_or_lt with rfl | hx
    · simp
    · have : ¬ (0 ≤ -1 * x) := by linarith
      simp only [this, if_false]
      constructor <;> simp
  | renewable t h w =>
    obtain ⟨r, hr⟩ := hl.row h.ts.series
    obtain ⟨y, rfl, hy, hi⟩ := h.itemAt hr
    have hc : capMin m.canAbsorb x = 0 := by simp [canAbsorb, h.kind, capMin, h0]
    rw [hc]
    refine ⟨by simp [sinkAmount, isSink, h.kind], le_rfl, h0, ?_⟩
    have hun := (h.unnormalizedStep (-1 * 0)).2.2 y hr (by norm_num)
    rw [if_neg (by rintro ⟨-, hh⟩; linarith)] at hun
    obtain ⟨m', o, he, hinfo, -⟩ := h.ts.step_num w hun (by simp [h.prov]) (by simp)
    refine ⟨m', o, he, ?_, ?_⟩
    · rw [hinfo]; simp
    · rw [hinfo]; simp [hy]
  | grid p t h w =>
    obtain ⟨r, hr⟩ := hl.row h.ts.series
    obtain ⟨a, b, c, d, rfl, hs, -⟩ := h.row hr
    have hst0 : 0 ≤ d := by rcases hs with rfl | rfl <;> norm_num
    have hm0 : 0 ≤ p.maxExport * d := mul_nonneg h.exp hst0
    have hm1 : 0 ≤ p.maxImport * d := mul_nonneg h.imp hst0
    have hc : capMin m.canAbsorb x = min (p.maxExport * d) x := by
      simp only [canAbsorb, h.kind, capMin]
      rw [h.status_mul hr]
    rw [hc]
    refine ⟨by simp [sinkAmount, isSink, h.kind, maxConsumption, h.gridStatus hr, hmin], le_min hm0 h0,
      min_le_right _ _, ?_⟩
    rcases (le_min hm0 h0).eq_or_lt with he0 | hpos
    · have hun := ((h.unnormalizedStep (-1 * 0)).2 a b c d hr).1 (by norm_num)
      rw [if_neg (by rintro ⟨-, hh⟩; linarith)] at hun
      obtain ⟨m', o, he, hinfo, -⟩ := h.ts.step_num w hun (by simp [h.prov]) (by simp)
      rw [← he0]
      refine ⟨m', o, he, ?_, ?_⟩
      · rw [hinfo]; simp
      · rw [hinfo]; simp [hm1]
    · have hun := ((h.unnormalizedStep (-1 * min (p.maxExport * d) x)).2 a b c d hr).2 (by linarith)
      rw [if_neg (by rintro ⟨-, hh⟩; have := min_le_left (p.maxExport * d) x; linarith)] at hun
      obtain ⟨m', o, he, hinfo, -⟩ := h.ts.step_num w hun (by simp) (by simp [h.abs])
      refine ⟨m', o, he, ?_, ?_⟩
      · rw [hinfo]; simp
      · rw [hinfo]; simp

end Module

end Pymgrid
