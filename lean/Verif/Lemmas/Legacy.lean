import Verif.Spec.Legacy

set_option autoImplicit false

namespace Pymgrid.Legacy

section
variable {p : Params}

theorem checkGenset_spec (h : p.Good) (x : ℚ) :
    0 ≤ p.checkGenset x ∧ p.checkGenset x ≤ p.rated * p.pmax ∧ (1 < p.checkGenset x → p.rated * p.pmin ≤ p.checkGenset x) ∧
      (0 ≤ x → x ≤ p.rated * p.pmax → x ≤ 1 ∨ p.rated * p.pmin ≤ x → p.checkGenset x = x) := by
  have h1 := h.genset_min
  have h2 := h.genset_max
  unfold Params.checkGenset
  simp only
  refine ⟨?_, ?_, ?_, ?_⟩
  · split_ifs <;> linarith
  · split_ifs <;> linarith
  · split_ifs with a b c d e <;> intro hx <;> try linarith
    by_contra hle
    exact e ⟨not_le.mp hle, hx⟩
  · intro a b c
    have : ¬ (x < p.rated * p.pmin ∧ x > 1) := by
      rintro ⟨h3, h4⟩
      rcases c with c | c <;> linarith
    rw [if_neg (not_lt.mpr a), if_neg this, if_neg (not_lt.mpr b)]

theorem checkGrid_spec (h : p.Good) (i e : ℚ) :
    (0 ≤ (p.checkGrid i e).1 ∧ (p.checkGrid i e).1 ≤ p.pImport) ∧
      (0 ≤ (p.checkGrid i e).2 ∧ (p.checkGrid i e).2 ≤ p.pExport) ∧
      (0 ≤ i → i ≤ p.pImport → (p.checkGrid i e).1 = i) ∧ (0 ≤ e → e ≤ p.pExport → (p.checkGrid i e).2 = e) := by
  have h1 := h.imp
  have h2 := h.exp
  unfold Params.checkGrid
  simp only
  refine ⟨?_, ?_, ?_, ?_⟩
  · constructor <;> split_ifs <;> linarith
  · constructor <;> split_ifs <;> linarith
  · intro a b
    rw [if_neg (not_lt.mpr a), if_neg (not_lt.mpr b)]
  · intro a b
    rw [if_neg (not_lt.mpr a), if_neg (not_lt.mpr b)]

/-- One half of `checkBattery`. -/
theorem clip_spec {x cap lim : ℚ} (hc : 0 ≤ cap) (hl : 0 ≤ lim) :
    let x' := if x < 0 then 0 else x
    let y := if x' > cap ∨ x' > lim then min cap lim else x'
    0 ≤ y ∧ y ≤ lim ∧ y ≤ cap ∧ (0 ≤ x → x ≤ cap → x ≤ lim → y = x) := by
  simp only
  have hm := min_le_left cap lim
  have hm' := min_le_right cap lim
  have hm'' : 0 ≤ min cap lim := le_min hc hl
  refine ⟨?_, ?_, ?_, ?_⟩
  · split_ifs <;> linarith
  · split_ifs with a b c
    · exact hm'
    · exact hl
    · exact hm'
    · push Not at c; exact c.2
  · split_ifs with a b c
    · exact hm
    · exact hc
    · exact hm
    · push Not at c; exact c.1
  · intro a b c
    rw [if_neg (not_lt.mpr a), if_neg]
    rintro (d | d) <;> linarith

theorem capaToCharge_nonneg (p : Params) (soc : ℚ) : 0 ≤ p.capaToCharge soc := le_max_right _ _
theorem capaToDischarge_nonneg (p : Params) (soc : ℚ) : 0 ≤ p.capaToDischarge soc := le_max_right _ _

theorem clip_clamp {x cap lim : ℚ} (hc : 0 ≤ cap) (hl : 0 ≤ lim) :
    (if (if x < 0 then 0 else x) > cap ∨ (if x < 0 then 0 else x) > lim then min cap lim else (if x < 0 then 0 else x)) =
      clamp 0 (min lim cap) x := by
  unfold clamp
  have hm : 0 ≤ min lim cap := le_min hl hc
  by_cases hx : x < 0
  · simp only [hx, if_true]
    rw [if_neg (by rintro (h | h) <;> linarith), min_eq_left (by linarith), max_eq_left hx.le]
  · simp only [hx, if_false]
    have hx' : 0 ≤ x := not_lt.mp hx
    split_ifs with h
    · have : min lim cap ≤ x := by
        rcases h with h | h
        · exact le_trans (min_le_right _ _) h.le
        · exact le_trans (min_le_left _ _) h.le
      rw [min_eq_right this, max_eq_right hm, min_comm]
    · push Not at h
      rw [min_eq_left (le_min h.2 h.1), max_eq_right hx']

theorem capaToCharge_eq (p : Params) (soc : ℚ) : p.capaToCharge soc = max 0 ((p.socMax - soc) * p.capacity * p.eff) := by
  unfold Params.capaToCharge
  rw [max_comm]
  congr 1
  ring

theorem capaToDischarge_eq (p : Params) (soc : ℚ) :
    p.capaToDischarge soc = max 0 ((soc - p.socMin) * p.capacity * p.eff) := by
  unfold Params.capaToDischarge
  rw [max_comm]
  congr 1
  ring

theorem checkBattery_eq (h : p.Good) (c d soc : ℚ) :
    p.checkBattery c d soc = (clamp 0 (p.chargeLimit soc) c, clamp 0 (p.dischargeLimit soc) d) := by
  unfold Params.checkBattery Params.chargeLimit Params.dischargeLimit
  simp only
  rw [clip_clamp (capaToCharge_nonneg p soc) h.charge, clip_clamp (capaToDischarge_nonneg p soc) h.discharge,
    capaToCharge_eq, capaToDischarge_eq]

theorem checkGrid_eq (h : p.Good) (i e : ℚ) : p.checkGrid i e = (clamp 0 p.pImport i, clamp 0 p.pExport e) := by
  have key : ∀ {x l : ℚ}, 0 ≤ l → (if (if x < 0 then 0 else x) > l then l else (if x < 0 then 0 else x)) = clamp 0 l x := by
    intro x l hl
    unfold clamp
    by_cases hx : x < 0
    · simp only [hx, if_true]
      rw [if_neg (by linarith), min_eq_left (by linarith), max_eq_left hx.le]
    · simp only [hx, if_false]
      split_ifs with h
      · rw [min_eq_right h.le, max_eq_right hl]
      · rw [min_eq_left (not_lt.mp h), max_eq_right (not_lt.mp hx)]
  unfold Params.checkGrid
  simp only
  rw [key h.imp, key h.exp]

theorem checkGenset_eq (h : p.Good) (x : ℚ) : p.checkGenset x =
    if 1 < x then clamp (p.rated * p.pmin) (p.rated * p.pmax) x else clamp 0 (p.rated * p.pmax) x := by
  have h1 := h.genset_min
  have h2 := h.genset_max
  unfold Params.checkGenset clamp
  simp only
  by_cases hx : x < 0
  · have c1 : ¬ ((0 : ℚ) < p.rated * p.pmin ∧ (0 : ℚ) > 1) := by rintro ⟨-, h⟩; linarith
    have c2 : ¬ ((0 : ℚ) > p.rated * p.pmax) := by linarith
    have c3 : ¬ (1 < x) := by linarith
    simp only [if_pos hx, if_neg c1, if_neg c2, if_neg c3]
    rw [min_eq_left (by linarith), max_eq_left hx.le]
  · simp only [if_neg hx]
    have hx' := not_lt.mp hx
    by_cases h3 : 1 < x
    · rw [if_pos h3]
      by_cases h4 : x < p.rated * p.pmin
      · have c1 : x < p.rated * p.pmin ∧ x > 1 := ⟨h4, h3⟩
        have c2 : ¬ (p.rated * p.pmin > p.rated * p.pmax) := by linarith
        simp only [if_pos c1, if_neg c2]
        rw [min_eq_left (by linarith), max_eq_left h4.le]
      · have c1 : ¬ (x < p.rated * p.pmin ∧ x > 1) := by rintro ⟨a, -⟩; exact h4 a
        simp only [if_neg c1]
        split_ifs with h5
        · rw [min_eq_right h5.le, max_eq_right h2]
        · rw [min_eq_left (not_lt.mp h5), max_eq_right (not_lt.mp h4)]
    · have c1 : ¬ (x < p.rated * p.pmin ∧ x > 1) := by rintro ⟨-, b⟩; exact h3 b
      simp only [if_neg h3, if_neg c1]
      split_ifs with h5
      · rw [min_eq_right h5.le, max_eq_right (le_trans h1 h2)]
      · rw [min_eq_left (not_lt.mp h5), max_eq_right hx']

theorem checkBattery_spec (h : p.Good) (c d soc : ℚ) :
    (0 ≤ (p.checkBattery c d soc).1 ∧ (p.checkBattery c d soc).1 ≤ p.pCharge ∧
      (p.checkBattery c d soc).1 ≤ p.capaToCharge soc) ∧
    (0 ≤ (p.checkBattery c d soc).2 ∧ (p.checkBattery c d soc).2 ≤ p.pDischarge ∧
      (p.checkBattery c d soc).2 ≤ p.capaToDischarge soc) := by
  obtain ⟨a1, a2, a3, a4⟩ := clip_spec (x := c) (capaToCharge_nonneg p soc) h.charge
  obtain ⟨b1, b2, b3, b4⟩ := clip_spec (x := d) (capaToDischarge_nonneg p soc) h.discharge
  exact ⟨⟨a1, a2, a3⟩, ⟨b1, b2, b3⟩⟩

/-- Charging at most `capaToCharge` does not overfill. -/
theorem charge_fits (h : p.Good) {soc x : ℚ} (hs : soc ≤ p.socMax) (hx : x ≤ p.capaToCharge soc) :
    soc * p.capacity + x * p.eff ≤ p.socMax * p.capacity := by
  have hc := h.capacity
  have he := h.eff
  have he' := h.eff_le
  have room : 0 ≤ p.socMax * p.capacity - soc * p.capacity := by nlinarith
  have hx' : x ≤ (p.socMax * p.capacity - soc * p.capacity) * p.eff := by
    unfold Params.capaToCharge at hx
    rwa [max_eq_left (mul_nonneg room he.le)] at hx
  have : x * p.eff ≤ (p.socMax * p.capacity - soc * p.capacity) * p.eff * p.eff :=
    mul_le_mul_of_nonneg_right hx' he.le
  have h2 : p.eff * p.eff ≤ 1 := by nlinarith
  have : (p.socMax * p.capacity - soc * p.capacity) * p.eff * p.eff ≤ p.socMax * p.capacity - soc * p.capacity := by
    rw [mul_assoc]
    calc _ ≤ (p.socMax * p.capacity - soc * p.capacity) * 1 := mul_le_mul_of_nonneg_left h2 room
      _ = _ := mul_one _
  linarith

/-- Discharging at most `capaToDischarge` does not take too much. -/
theorem discharge_fits (h : p.Good) {soc x : ℚ} (hs : p.socMin ≤ soc) (hx : x ≤ p.capaToDischarge soc) :
    p.socMin * p.capacity ≤ soc * p.capacity - x / p.eff := by
  have hc := h.capacity
  have he := h.eff
  have room : 0 ≤ soc * p.capacity - p.socMin * p.capacity := by nlinarith
  have hx' : x ≤ (soc * p.capacity - p.socMin * p.capacity) * p.eff := by
    unfold Params.capaToDischarge at hx
    rwa [max_eq_left (mul_nonneg room he.le)] at hx
  have : x / p.eff ≤ soc * p.capacity - p.socMin * p.capacity := by
    rw [div_le_iff₀ he]; exact hx'
  linarith

/-- The new state of charge stays in the window. -/
theorem soc_step (h : p.Good) {soc c d : ℚ} (hlo : p.socMin ≤ soc) (hhi : soc ≤ p.socMax) (hc0 : 0 ≤ c)
    (hc : c ≤ p.capaToCharge soc) (hd0 : 0 ≤ d) (hd : d ≤ p.capaToDischarge soc) :
    p.socMin ≤ soc + (c * p.eff - d / p.eff) / p.capacity ∧
      soc + (c * p.eff - d / p.eff) / p.capacity ≤ p.socMax := by
  have hC := h.capacity
  have he := h.eff
  have h1 := charge_fits h hhi hc
  have h2 := discharge_fits h hlo hd
  have h3 : 0 ≤ c * p.eff := mul_nonneg hc0 he.le
  have h4 : 0 ≤ d / p.eff := div_nonneg hd0 he.le
  have e : soc + (c * p.eff - d / p.eff) / p.capacity = (soc * p.capacity + c * p.eff - d / p.eff) / p.capacity := by
    field_simp
    ring
  rw [e]
  constructor
  · rw [le_div_iff₀ hC]; linarith
  · rw [div_le_iff₀ hC]; linarith

end

theorem settle_spec {r v : ℚ} (hv : 0 ≤ v) {w : PvRow} (h : settle r v = .ok w) :
    |w.consumed + w.lossLoad - (r + w.overgen)| < 1/1000 ∧ w.consumed + w.curtailed = v ∧
    (0 ≤ w.consumed ∧ 0 ≤ w.curtailed ∧ 0 ≤ w.lossLoad ∧ 0 ≤ w.overgen) ∧ (w.lossLoad = 0 ∨ w.overgen = 0) ∧
    (0 < w.lossLoad → w.curtailed = 0) ∧ (0 < w.overgen → w.consumed = 0) := by
  unfold settle at h
  split_ifs at h with h1 h2 h3 h4 h5 <;> injection h with h <;> subst h <;> simp only
  · refine ⟨?_, by ring, ⟨hv, le_refl _, le_refl _, le_refl _⟩, .inl trivial, fun _ => trivial, fun hc => absurd hc (lt_irrefl _)⟩
    rw [abs_sub_comm]
    simpa using h1
  · refine ⟨?_, by ring, ⟨hv, le_refl _, by linarith, le_refl _⟩, .inr trivial, fun _ => trivial, fun hc => absurd hc (lt_irrefl _)⟩
    rw [show v + (r - v) - (r + 0) = 0 by ring, abs_zero]; norm_num
  · refine ⟨?_, by ring, ⟨h3.1.le, by linarith [h3.2], le_refl _, le_refl _⟩, .inl trivial, fun hc => absurd hc (lt_irrefl _),
      fun hc => absurd hc (lt_irrefl _)⟩
    rw [show r + 0 - (r + 0) = 0 by ring, abs_zero]; norm_num
  · refine ⟨?_, by ring, ⟨le_refl _, hv, le_refl _, by linarith⟩, .inl trivial, fun hc => absurd hc (lt_irrefl _), fun _ => trivial⟩
    rw [show (0 : ℚ) + 0 - (r + -r) = 0 by ring, abs_zero]; norm_num
  · refine ⟨?_, by linarith, ⟨le_refl _, le_refl _, le_refl _, by linarith⟩, .inl trivial, fun hc => absurd hc (lt_irrefl _), fun _ => trivial⟩
    rw [show (0 : ℚ) + 0 - (r + -r) = 0 by ring, abs_zero]; norm_num

theorem settle_fails {r v : ℚ} : (∃ e, settle r v = .error e) ↔ r = 0 ∧ 1/1000 ≤ v := by
  unfold settle
  constructor
  · rintro ⟨e, h⟩
    split_ifs at h with h1 h2 h3 h4
    have hr : r = 0 := by
      rcases lt_trichotomy r 0 with a | a | a
      · exact absurd a h4
      · exact a
      · rw [not_and_or] at h3
        rcases h3 with h3 | h3
        · exact absurd a h3
        · have : r = v := le_antisymm (not_lt.mp h2) (not_lt.mp h3)
          rw [this] at h1; simp at h1
    refine ⟨hr, ?_⟩
    rw [hr] at h1 h2
    have hv : 0 ≤ v := not_lt.mp h2
    rw [zero_sub, abs_neg, abs_of_nonneg hv] at h1
    exact not_lt.mp h1
  · rintro ⟨rfl, hv⟩
    refine ⟨.assertion, ?_⟩
    have h0 : 0 ≤ v := by linarith
    rw [if_neg (by rw [zero_sub, abs_neg, abs_of_nonneg h0]; exact not_lt.mpr hv), if_neg (not_lt.mpr h0),
      if_neg (by simp), if_neg (lt_irrefl _)]

/-- What the checks make of the requests; absent components give 0. -/
structure Checked (a : Arch) (p : Params) (soc : ℚ) (c : Control) (e : Entry) : Prop where
  battery : a.battery = true → ∃ x y, c.charge = some x ∧ c.discharge = some y ∧
    (e.charge, e.discharge) = p.checkBattery x y soc
  noBattery : a.battery = false → e.charge = 0 ∧ e.discharge = 0
  grid : a.grid = true → ∃ x y, c.imp = some x ∧ c.exp = some y ∧ (e.imp, e.exp) = p.checkGrid x y
  noGrid : a.grid = false → e.imp = 0 ∧ e.exp = 0
  genset : a.genset = true → ∃ x, c.genset = some x ∧ e.genset = p.checkGenset x
  noGenset : a.genset = false → e.genset = 0

/-- The columns after the battery, grid and genset were recorded. -/
def Entry.put (e : Entry) (a : Arch) (r : Production) : Production :=
  { battery := if a.battery then r.battery ++ [(e.charge, e.discharge)] else r.battery
    grid := if a.grid then r.grid ++ [(e.imp, e.exp)] else r.grid
    genset := if a.genset then r.genset ++ [e.genset] else r.genset
    pv := r.pv }

/-- `_record_production` for complete controls. -/
theorem record_eq (a : Arch) (p : Params) (load pv soc : ℚ) {c : Control} (r : Production) (hc : c.Complete a) :
    ∃ ch di im ex ge, (∀ w : PvRow, Checked a p soc c ⟨ch, di, im, ex, ge, w.consumed, w.lossLoad, w.curtailed, w.overgen⟩) ∧
      record a p load pv soc c r =
        (match settle (load + ch + ex - (di + im + ge)) pv with
          | .error e => (Entry.put ⟨ch, di, im, ex, ge, 0, 0, 0, 0⟩ a r, .error e)
          | .ok w => ({ Entry.put ⟨ch, di, im, ex, ge, 0, 0, 0, 0⟩ a r with pv := r.pv ++ [w] }, .ok ())) := by
  obtain ⟨ab, ag, ai⟩ := a
  obtain ⟨hb, hg, hn⟩ := hc
  obtain ⟨cc, cd, ci, ce, cn⟩ := c
  simp only at hb hg hn
  have hB : ∃ ch di, (ab = true → ∃ x y, cc = some x ∧ cd = some y ∧ (ch, di) = p.checkBattery x y soc) ∧
      (ab = false → ch = 0 ∧ di = 0) := by
    cases ab with
    | false => exact ⟨0, 0, nofun, fun _ => ⟨rfl, rfl⟩⟩
    | true =>
      obtain ⟨h1, h2⟩ := hb rfl
      obtain ⟨x, hx⟩ := Option.isSome_iff_exists.mp h1
      obtain ⟨y, hy⟩ := Option.isSome_iff_exists.mp h2
      exact ⟨(p.checkBattery x y soc).1, (p.checkBattery x y soc).2, fun _ => ⟨x, y, hx, hy, rfl⟩, nofun⟩
  have hG : ∃ im ex, (ai = true → ∃ x y, ci = some x ∧ ce = some y ∧ (im, ex) = p.checkGrid x y) ∧
      (ai = false → im = 0 ∧ ex = 0) := by
    cases ai with
    | false => exact ⟨0, 0, nofun, fun _ => ⟨rfl, rfl⟩⟩
    | true =>
      obtain ⟨h1, h2⟩ := hg rfl
      obtain ⟨x, hx⟩ := Option.isSome_iff_exists.mp h1
      obtain ⟨y, hy⟩ := Option.isSome_iff_exists.mp h2
      exact ⟨(p.checkGrid x y).1, (p.checkGrid x y).2, fun _ => ⟨x, y, hx, hy, rfl⟩, nofun⟩
  have hN : ∃ ge, (ag = true → ∃ x, cn = some x ∧ ge = p.checkGenset x) ∧ (ag = false → ge = 0) := by
    cases ag with
    | false => exact ⟨0, nofun, fun _ => rfl⟩
    | true =>
      obtain ⟨x, hx⟩ := Option.isSome_iff_exists.mp (hn rfl)
      exact ⟨p.checkGenset x, fun _ => ⟨x, hx, rfl⟩, nofun⟩
  obtain ⟨ch, di, hB1, hB2⟩ := hB
  obtain ⟨im, ex, hG1, hG2⟩ := hG
  obtain ⟨ge, hN1, hN2⟩ := hN
  refine ⟨ch, di, im, ex, ge, fun w => ⟨hB1, hB2, hG1, hG2, hN1, hN2⟩, ?_⟩
  have key : ∀ s t : ℚ, s = t → settle s pv = settle t pv := fun _ _ h => by rw [h]
  unfold record
  cases ab with
  | false =>
    obtain ⟨rfl, rfl⟩ := hB2 rfl
    cases ai with
    | false =>
      obtain ⟨rfl, rfl⟩ := hG2 rfl
      cases ag with
      | false =>
        obtain rfl := hN2 rfl
        simp only [Bool.false_eq_true, if_false, Legacy.key, Entry.put]
        rw [key (load - 0) (load + 0 + 0 - (0 + 0 + 0)) (by ring)]
        cases settle (load + 0 + 0 - (0 + 0 + 0)) pv <;> rfl
      | true =>
        obtain ⟨x, hx, rfl⟩ := hN1 rfl
        simp only [Bool.false_eq_true, if_false, if_true, Legacy.key, Entry.put, hx]
        rw [key _ (load + 0 + 0 - (0 + 0 + p.checkGenset x)) (by ring)]
        cases settle (load + 0 + 0 - (0 + 0 + p.checkGenset x)) pv <;> rfl
    | true =>
      obtain ⟨x, y, hx, hy, he⟩ := hG1 rfl
      cases ag with
      | false =>
        obtain rfl := hN2 rfl
        simp only [Bool.false_eq_true, if_false, if_true, Legacy.key, Entry.put, hx, hy, ← he]
        rw [key _ (load + 0 + ex - (0 + im + 0)) (by ring)]
        cases settle (load + 0 + ex - (0 + im + 0)) pv <;> rfl
      | true =>
        obtain ⟨z, hz, rfl⟩ := hN1 rfl
        simp only [Bool.false_eq_true, if_false, if_true, Legacy.key, Entry.put, hx, hy, hz, ← he]
        rw [key _ (load + 0 + ex - (0 + im + p.checkGenset z)) (by ring)]
        cases settle (load + 0 + ex - (0 + im + p.checkGenset z)) pv <;> rfl
  | true =>
    obtain ⟨x', y', hx', hy', he'⟩ := hB1 rfl
    cases ai with
    | false =>
      obtain ⟨rfl, rfl⟩ := hG2 rfl
      cases ag with
      | false =>
        obtain rfl := hN2 rfl
        simp only [Bool.false_eq_true, if_false, if_true, Legacy.key, Entry.put, hx', hy', ← he']
        rw [key _ (load + ch + 0 - (di + 0 + 0)) (by ring)]
        cases settle (load + ch + 0 - (di + 0 + 0)) pv <;> rfl
      | true =>
        obtain ⟨z, hz, rfl⟩ := hN1 rfl
        simp only [Bool.false_eq_true, if_false, if_true, Legacy.key, Entry.put, hx', hy', hz, ← he']
        rw [key _ (load + ch + 0 - (di + 0 + p.checkGenset z)) (by ring)]
        cases settle (load + ch + 0 - (di + 0 + p.checkGenset z)) pv <;> rfl
    | true =>
      obtain ⟨x, y, hx, hy, he⟩ := hG1 rfl
      cases ag with
      | false =>
        obtain rfl := hN2 rfl
        simp only [Bool.false_eq_true, if_false, if_true, Legacy.key, Entry.put, hx, hy, hx', hy', ← he, ← he']
        rw [key _ (load + ch + ex - (di + im + 0)) (by ring)]
        cases settle (load + ch + ex - (di + im + 0)) pv <;> rfl
      | true =>
        obtain ⟨z, hz, rfl⟩ := hN1 rfl
        simp only [if_true, Legacy.key, Entry.put, hx, hy, hx', hy', hz, ← he, ← he']
        rw [key _ (load + ch + ex - (di + im + p.checkGenset z)) (by ring)]
        cases settle (load + ch + ex - (di + im + p.checkGenset z)) pv <;> rfl

/-- Incomplete controls raise `KeyError`. -/
theorem record_incomplete (a : Arch) (p : Params) (load pv soc : ℚ) {c : Control} (r : Production)
    (hc : ¬ c.Complete a) : (record a p load pv soc c r).2 = .error .key := by
  obtain ⟨ab, ag, ai⟩ := a
  obtain ⟨cc, cd, ci, ce, cn⟩ := c
  unfold Control.Complete at hc
  cases ab <;> cases ai <;> cases ag <;> simp only at hc <;>
    cases cc <;> cases cd <;> cases ci <;> cases ce <;> cases cn <;>
    first
    | (simp at hc; done)
    | (simp [record, key])

theorem Checked.recorded {a : Arch} {p : Params} {soc : ℚ} {c : Control} {e : Entry} (h : Checked a p soc c e)
    (r : Production) :
    e.Recorded a r { e.put a r with pv := r.pv ++ [⟨e.consumed, e.lossLoad, e.curtailed, e.overgen⟩] } :=
  ⟨rfl, h.noBattery, rfl, h.noGrid, rfl, h.noGenset, rfl⟩

theorem record_ok {a : Arch} {p : Params} {load pv soc : ℚ} {c : Control} {r r' : Production}
    (h : record a p load pv soc c r = (r', .ok ())) :
    c.Complete a ∧ ∃ e : Entry, Checked a p soc c e ∧ e.Recorded a r r' ∧
      settle (load + e.charge + e.exp - (e.discharge + e.imp + e.genset)) pv =
        .ok ⟨e.consumed, e.lossLoad, e.curtailed, e.overgen⟩ := by
  have hc : c.Complete a := by
    by_contra hc
    have := record_incomplete a p load pv soc r hc
    rw [h] at this
    simp at this
  refine ⟨hc, ?_⟩
  obtain ⟨ch, di, im, ex, ge, hk, he⟩ := record_eq a p load pv soc r hc
  rw [he] at h
  split at h
  · simp at h
  · rename_i w hw
    simp only [Prod.mk.injEq, and_true] at h
    subst h
    refine ⟨⟨ch, di, im, ex, ge, w.consumed, w.lossLoad, w.curtailed, w.overgen⟩, hk w, ?_, hw⟩
    have := (hk w).recorded r
    exact this

theorem Recorded.last {a : Arch} {r r' : Production} {e : Entry} (h : e.Recorded a r r') :
    r'.last a = .ok ⟨e.charge, e.discharge, e.imp, e.exp, e.genset,
      ⟨e.consumed, e.lossLoad, e.curtailed, e.overgen⟩⟩ := by
  obtain ⟨h1, h1', h2, h2', h3, h3', h4⟩ := h
  unfold Production.last
  rw [h1, h2, h3, h4]
  obtain ⟨ab, ag, ai⟩ := a
  cases ab <;> cases ai <;> cases ag <;>
    simp_all

theorem Checked.executes {a : Arch} {p : Params} {soc : ℚ} {c : Control} {e : Entry} (h : Checked a p soc c e)
    (hp : p.Good) : e.Executes a p soc c := by
  refine ⟨?_, ?_, ?_, ?_, ?_, h.noBattery, h.noGrid, h.noGenset⟩
  · intro hb
    obtain ⟨x, y, hx, hy, he⟩ := h.battery hb
    rw [checkBattery_eq hp] at he
    injection he with h1 h2
    rw [hx, h1]; rfl
  · intro hb
    obtain ⟨x, y, hx, hy, he⟩ := h.battery hb
    rw [checkBattery_eq hp] at he
    injection he with h1 h2
    rw [hy, h2]; rfl
  · intro hb
    obtain ⟨x, y, hx, hy, he⟩ := h.grid hb
    rw [checkGrid_eq hp] at he
    injection he with h1 h2
    rw [hx, h1]; rfl
  · intro hb
    obtain ⟨x, y, hx, hy, he⟩ := h.grid hb
    rw [checkGrid_eq hp] at he
    injection he with h1 h2
    rw [hy, h2]; rfl
  · intro hb
    obtain ⟨x, hx, he⟩ := h.genset hb
    rw [checkGenset_eq hp] at he
    rw [hx, he]; rfl

/-- The production is determined by the requests. -/
theorem Entry.Executes.unique {a : Arch} {p : Params} {soc : ℚ} {c : Control} {e e' : Entry} (h : e.Executes a p soc c)
    (h' : e'.Executes a p soc c) : e'.charge = e.charge ∧ e'.discharge = e.discharge ∧ e'.imp = e.imp ∧ e'.exp = e.exp ∧
      e'.genset = e.genset := by
  have hb : e'.charge = e.charge ∧ e'.discharge = e.discharge := by
    cases hb : a.battery with
    | false =>
      obtain ⟨a1, a2⟩ := h.noBattery hb
      obtain ⟨b1, b2⟩ := h'.noBattery hb
      exact ⟨b1.trans a1.symm, b2.trans a2.symm⟩
    | true =>
      exact ⟨Option.some.inj ((h'.charge hb).symm.trans (h.charge hb)),
        Option.some.inj ((h'.discharge hb).symm.trans (h.discharge hb))⟩
  have hg : e'.imp = e.imp ∧ e'.exp = e.exp := by
    cases hb : a.grid with
    | false =>
      obtain ⟨a1, a2⟩ := h.noGrid hb
      obtain ⟨b1, b2⟩ := h'.noGrid hb
      exact ⟨b1.trans a1.symm, b2.trans a2.symm⟩
    | true =>
      exact ⟨Option.some.inj ((h'.imp hb).symm.trans (h.imp hb)), Option.some.inj ((h'.exp hb).symm.trans (h.exp hb))⟩
  have hn : e'.genset = e.genset := by
    cases hb : a.genset with
    | false => exact (h'.noGenset hb).trans (h.noGenset hb).symm
    | true => exact Option.some.inj ((h'.genset hb).symm.trans (h.genset hb))
  exact ⟨hb.1, hb.2, hg.1, hg.2, hn⟩

theorem Checked.within {a : Arch} {p : Params} {soc : ℚ} {c : Control} {e : Entry} (h : Checked a p soc c e)
    (hp : p.Good) : e.Within p soc ∧ e.charge ≤ p.capaToCharge soc ∧ e.discharge ≤ p.capaToDischarge soc ∧
      (1 < e.genset → p.rated * p.pmin ≤ e.genset) := by
  have hB : (0 ≤ e.charge ∧ e.charge ≤ p.pCharge ∧ e.charge ≤ p.capaToCharge soc) ∧
      (0 ≤ e.discharge ∧ e.discharge ≤ p.pDischarge ∧ e.discharge ≤ p.capaToDischarge soc) := by
    cases hb : a.battery with
    | false =>
      obtain ⟨h1, h2⟩ := h.noBattery hb
      rw [h1, h2]
      exact ⟨⟨le_refl _, hp.charge, capaToCharge_nonneg _ _⟩, ⟨le_refl _, hp.discharge, capaToDischarge_nonneg _ _⟩⟩
    | true =>
      obtain ⟨x, y, -, -, he⟩ := h.battery hb
      obtain ⟨h1, h2⟩ := checkBattery_spec hp x y soc
      rw [← he] at h1 h2
      exact ⟨h1, h2⟩
  have hG : (0 ≤ e.imp ∧ e.imp ≤ p.pImport) ∧ (0 ≤ e.exp ∧ e.exp ≤ p.pExport) := by
    cases hb : a.grid with
    | false =>
      obtain ⟨h1, h2⟩ := h.noGrid hb
      rw [h1, h2]
      exact ⟨⟨le_refl _, hp.imp⟩, ⟨le_refl _, hp.exp⟩⟩
    | true =>
      obtain ⟨x, y, -, -, he⟩ := h.grid hb
      obtain ⟨h1, h2, -⟩ := checkGrid_spec hp x y
      rw [← he] at h1 h2
      exact ⟨h1, h2⟩
  have hN : (0 ≤ e.genset ∧ e.genset ≤ p.rated * p.pmax) ∧ (1 < e.genset → p.rated * p.pmin ≤ e.genset) := by
    cases hb : a.genset with
    | false =>
      rw [h.noGenset hb]
      exact ⟨⟨le_refl _, le_trans hp.genset_min hp.genset_max⟩, fun h => by norm_num at h⟩
    | true =>
      obtain ⟨x, -, he⟩ := h.genset hb
      obtain ⟨h1, h2, h3, -⟩ := checkGenset_spec hp x
      rw [he]
      exact ⟨⟨h1, h2⟩, h3⟩
  exact ⟨⟨⟨hB.1.1, hB.1.2.1⟩, fun hs => charge_fits hp hs hB.1.2.2, ⟨hB.2.1, hB.2.2.1⟩,
    fun hs => discharge_fits hp hs hB.2.2.2, hG.1, hG.2, hN.1⟩, hB.1.2.2, hB.2.2.2, hN.2⟩

namespace Grid

/-- The parts of a microgrid that `update_variables` leaves alone. -/
structure Frame (g g' : Grid) : Prop where
  arch : g'.arch = g.arch
  params : g'.params = g.params
  loads : g'.loads = g.loads
  pvs : g'.pvs = g.pvs
  statuses : g'.statuses = g.statuses
  importPrices : g'.importPrices = g.importPrices
  exportPrices : g'.exportPrices = g.exportPrices
  co2s : g'.co2s = g.co2s
  horizon : g'.horizon = g.horizon

structure Records (g g' : Grid) : Prop where
  states : g'.states = g.states
  production : g'.production = g.production
  costs : g'.costs = g.costs
  co2 : g'.co2 = g.co2
  t : g'.t = g.t
  done : g'.done = g.done

theorem updateVariables_frame (g : Grid) : g.Frame g.updateVariables.1 ∧ g.Records g.updateVariables.1 := by
  unfold updateVariables
  split
  · simp only
    split
    · split
      · exact ⟨⟨rfl, rfl, rfl, rfl, rfl, rfl, rfl, rfl, rfl⟩, ⟨rfl, rfl, rfl, rfl, rfl, rfl⟩⟩
      · split
        · split
          · exact ⟨⟨rfl, rfl, rfl, rfl, rfl, rfl, rfl, rfl, rfl⟩, ⟨rfl, rfl, rfl, rfl, rfl, rfl⟩⟩
          · exact ⟨⟨rfl, rfl, rfl, rfl, rfl, rfl, rfl, rfl, rfl⟩, ⟨rfl, rfl, rfl, rfl, rfl, rfl⟩⟩
        · exact ⟨⟨rfl, rfl, rfl, rfl, rfl, rfl, rfl, rfl, rfl⟩, ⟨rfl, rfl, rfl, rfl, rfl, rfl⟩⟩
    · exact ⟨⟨rfl, rfl, rfl, rfl, rfl, rfl, rfl, rfl, rfl⟩, ⟨rfl, rfl, rfl, rfl, rfl, rfl⟩⟩
  · exact ⟨⟨rfl, rfl, rfl, rfl, rfl, rfl, rfl, rfl, rfl⟩, ⟨rfl, rfl, rfl, rfl, rfl, rfl⟩⟩

/-- The state row that a run appends for the given production entry. -/
def rowOf (g : Grid) (c : Control) (e : Entry) : StateRow :=
  if g.arch.grid then nextRow g.arch g.params g.soc e.charge e.discharge g.nextLoad g.nextPv g.t g.next
  else nextRow g.arch g.params g.soc (c.charge.getD 0) (c.discharge.getD 0) g.nextLoad g.nextPv g.t none

/-- The CO2 entry that a run appends. -/
def co2For (g : Grid) (e : Entry) : ℚ :=
  co2Of g.arch g.params ⟨e.charge, e.discharge, e.imp, e.exp, e.genset, ⟨e.consumed, e.lossLoad, e.curtailed, e.overgen⟩⟩
    (if g.arch.grid then g.cur.co2 else 0)

/-- The cost entry that a run appends. -/
def costFor (g : Grid) (e : Entry) : CostRow :=
  costRow g.arch g.params ⟨e.charge, e.discharge, e.imp, e.exp, e.genset, ⟨e.consumed, e.lossLoad, e.curtailed, e.overgen⟩⟩
    (g.co2For e) (if g.arch.grid then g.cur.priceImport else 0) (if g.arch.grid then g.cur.priceExport else 0)

/-- `done` is set at the end of the data or of the last horizon. -/
def AtEnd (g : Grid) : Prop :=
  (g.t : Int) = (g.dataLength : Int) - g.horizon ∨ (g.t : Int) = (g.dataLength : Int) - 1

instance (g : Grid) : Decidable g.AtEnd := by unfold AtEnd; infer_instance

/-- The microgrid after the records of a step are written. -/
def written (g : Grid) (c : Control) (e : Entry) (r : Production) : Grid :=
  { g with production := r, co2 := g.co2 ++ [g.co2For e], costs := g.costs ++ [g.costFor e], states := g.states ++ [g.rowOf c e] }

/-- `run`, whether it succeeds or not. -/
theorem run_cases (g : Grid) (c : Control) :
    (∃ r e, record g.arch g.params g.load g.pv g.soc c g.production = (r, .error e) ∧
      g.run c = ({ g with production := r }, .error e)) ∨
    ∃ r e, record g.arch g.params g.load g.pv g.soc c g.production = (r, .ok ()) ∧ c.Complete g.arch ∧
      Checked g.arch g.params g.soc c e ∧ e.Recorded g.arch g.production r ∧
      settle (g.load + e.charge + e.exp - (e.discharge + e.imp + e.genset)) g.pv =
        .ok ⟨e.consumed, e.lossLoad, e.curtailed, e.overgen⟩ ∧
      g.run c =
        if g.AtEnd then ({ g.written c e r with done := true }, .ok (g.rowOf c e))
        else
          match { g.written c e r with t := g.t + 1 }.updateVariables with
          | (g', .error e) => (g', .error e)
          | (g', .ok ()) => (g', .ok (g.rowOf c e)) := by
  cases hr : record g.arch g.params g.load g.pv g.soc c g.production with
  | mk r res =>
    cases res with
    | error e =>
      refine .inl ⟨r, e, rfl, ?_⟩
      unfold run
      rw [hr]
    | ok u =>
      obtain ⟨hc, e, h1, h2, h3⟩ := record_ok hr
      refine .inr ⟨r, e, rfl, hc, h1, h2, h3, ?_⟩
      unfold run
      rw [hr]
      simp only [Recorded.last h2]
      rfl

theorem run_frame (g : Grid) (c : Control) : g.Frame (g.run c).1 := by
  rcases g.run_cases c with ⟨r, e, -, h⟩ | ⟨r, e, -, -, -, -, -, h⟩
  · rw [h]; exact ⟨rfl, rfl, rfl, rfl, rfl, rfl, rfl, rfl, rfl⟩
  · rw [h]
    split
    · exact ⟨rfl, rfl, rfl, rfl, rfl, rfl, rfl, rfl, rfl⟩
    · have := ({ g.written c e r with t := g.t + 1 } : Grid).updateVariables_frame.1
      split <;> rename_i hu <;> rw [hu] at this <;>
        exact ⟨this.arch, this.params, this.loads, this.pvs, this.statuses, this.importPrices, this.exportPrices, this.co2s,
          this.horizon⟩

theorem reset_frame (g : Grid) : g.Frame g.reset.1 := by
  unfold reset
  simp only
  have := ({ g with states := g.states.take 1, production := {}, costs := [], co2 := [], t := 0 } : Grid).updateVariables_frame.1
  split <;> rename_i hu <;> rw [hu] at this <;>
    exact ⟨this.arch, this.params, this.loads, this.pvs, this.statuses, this.importPrices, this.exportPrices, this.co2s,
      this.horizon⟩

theorem Frame.trans {g g' g'' : Grid} (h : g.Frame g') (h' : g'.Frame g'') : g.Frame g'' :=
  ⟨h'.arch.trans h.arch, h'.params.trans h.params, h'.loads.trans h.loads, h'.pvs.trans h.pvs,
   h'.statuses.trans h.statuses, h'.importPrices.trans h.importPrices, h'.exportPrices.trans h.exportPrices,
   h'.co2s.trans h.co2s, h'.horizon.trans h.horizon⟩

theorem Frame.refl (g : Grid) : g.Frame g := ⟨rfl, rfl, rfl, rfl, rfl, rfl, rfl, rfl, rfl⟩

theorem after_frame (g : Grid) (ops : List Op) : g.Frame (after g ops) := by
  induction ops generalizing g with
  | nil => exact .refl g
  | cons op ops ih =>
    refine Frame.trans ?_ (ih (op.apply g))
    cases op with
    | run c => exact g.run_frame c
    | reset => exact g.reset_frame

/-- A successful run. -/
theorem run_ok {g g' : Grid} {c : Control} {row : StateRow} (h : g.run c = (g', .ok row)) :
    ∃ e, c.Complete g.arch ∧ Checked g.arch g.params g.soc c e ∧ e.Recorded g.arch g.production g'.production ∧
      settle (g.load + e.charge + e.exp - (e.discharge + e.imp + e.genset)) g.pv =
        .ok ⟨e.consumed, e.lossLoad, e.curtailed, e.overgen⟩ ∧
      row = g.rowOf c e ∧ g'.states = g.states ++ [row] ∧ g'.costs = g.costs ++ [g.costFor e] ∧
      g'.co2 = g.co2 ++ [g.co2For e] ∧
      (g.AtEnd → g' = { g.written c e g'.production with done := true }) ∧
      (¬ g.AtEnd → ({ g.written c e g'.production with t := g.t + 1 } : Grid).updateVariables = (g', .ok ())) := by
  rcases g.run_cases c with ⟨r, e, -, h'⟩ | ⟨r, e, -, hc, h1, h2, h3, h'⟩
  · rw [h] at h'; simp at h'
  · rw [h] at h'
    split at h'
    · rename_i hend
      simp only [Prod.mk.injEq, Except.ok.injEq] at h'
      obtain ⟨rfl, rfl⟩ := h'
      exact ⟨e, hc, h1, h2, h3, rfl, rfl, rfl, rfl, fun _ => rfl, fun hn => absurd hend hn⟩
    · rename_i hend
      have fr := ({ g.written c e r with t := g.t + 1 } : Grid).updateVariables_frame.2
      split at h'
      · simp at h'
      · rename_i g₂ hu
        simp only [Prod.mk.injEq, Except.ok.injEq] at h'
        obtain ⟨rfl, rfl⟩ := h'
        rw [hu] at fr
        have hp : g'.production = r := fr.production
        refine ⟨e, hc, h1, by rw [hp]; exact h2, h3, rfl, fr.states, fr.costs, fr.co2, fun hn => absurd hn hend, fun _ => ?_⟩
        rw [hp]; exact hu

/-- The state of charge after a run: unchanged, or updated by an amount. -/
theorem run_soc (g : Grid) (c : Control) : (g.run c).1.states = g.states ∨
    ∃ e, c.Complete g.arch ∧ Checked g.arch g.params g.soc c e ∧ (g.run c).1.states = g.states ++ [g.rowOf c e] := by
  rcases g.run_cases c with ⟨r, e, -, h'⟩ | ⟨r, e, -, hc, h1, h2, h3, h'⟩
  · rw [h']; exact .inl rfl
  · right
    refine ⟨e, hc, h1, ?_⟩
    rw [h']
    split
    · rfl
    · have fr := ({ g.written c e r with t := g.t + 1 } : Grid).updateVariables_frame.2
      split <;> rename_i hu <;> rw [hu] at fr <;> exact fr.states

theorem gridAt_ok {g : Grid} {i : Nat} {row : GridRow} : g.gridAt i = .ok row ↔ g.GridData i row := by
  unfold gridAt GridData
  constructor
  · intro h
    split at h
    · rename_i a b c d
      injection h with h
      subst h
      exact ⟨a, b, c, d⟩
    · simp at h
  · rintro ⟨a, b, c, d⟩
    rw [a, b, c, d]

theorem gridAt_total {g : Grid} (h : g.FullSeries) (ha : g.arch.grid = true) {i : Nat} (hi : i < g.dataLength) :
    ∃ row, g.gridAt i = .ok row := by
  obtain ⟨a, b, c, d⟩ := h ha
  refine ⟨⟨g.statuses[i]'(by omega), g.importPrices[i]'(by omega), g.exportPrices[i]'(by omega), g.co2s[i]'(by omega)⟩, ?_⟩
  rw [gridAt_ok]
  exact ⟨List.getElem?_eq_getElem _, List.getElem?_eq_getElem _, List.getElem?_eq_getElem _, List.getElem?_eq_getElem _⟩

/-- The values of the current step and of the next one. -/
structure Timed (g : Grid) : Prop where
  inside : g.t < g.dataLength
  load : g.loads[g.t]? = some g.load
  pv : g.pvs[g.t]? = some g.pv
  nextLoad : g.nextLoad = if g.t + 1 < g.dataLength then g.loads[g.t + 1]? else none
  nextPv : g.nextPv = if g.t + 1 < g.dataLength then g.pvs[g.t + 1]? else none
  cur : g.arch.grid = true → g.GridData g.t g.cur

/-- The next grid values are those of the next step. -/
def NextGrid (g : Grid) : Prop :=
  g.arch.grid = true →
    (g.t + 1 < g.dataLength → ∃ row, g.next = some row ∧ g.GridData (g.t + 1) row) ∧
    (¬ g.t + 1 < g.dataLength → g.next = none)

theorem updateVariables_ok {g : Grid} (hf : g.FullSeries) (ht : g.t < g.dataLength) :
    ∃ g', g.updateVariables = (g', .ok ()) ∧ g'.Timed ∧ g'.NextGrid ∧ g'.batterySoc = g.soc := by
  have h1 : g.t < g.loads.length := lt_of_lt_of_le ht (Nat.min_le_left _ _)
  have h2 : g.t < g.pvs.length := lt_of_lt_of_le ht (Nat.min_le_right _ _)
  have e1 := List.getElem?_eq_getElem h1
  have e2 := List.getElem?_eq_getElem h2
  unfold updateVariables
  rw [e1, e2]
  simp only
  by_cases ha : g.arch.grid = true
  · rw [if_pos ha]
    obtain ⟨row, hrow⟩ := gridAt_total hf ha ht
    have hrow' : ∀ x y z w, ({ g with pv := x, load := y, nextPv := z, nextLoad := w } : Grid).gridAt g.t = .ok row :=
      fun _ _ _ _ => hrow
    rw [hrow']
    simp only
    by_cases hi : g.t + 1 < g.dataLength
    · obtain ⟨row', hr'⟩ := gridAt_total hf ha hi
      have hr'' : ∀ x y z w, ({ g with pv := x, load := y, nextPv := z, nextLoad := w } : Grid).gridAt (g.t + 1) = .ok row' :=
        fun _ _ _ _ => hr'
      simp only [hr'', if_pos hi]
      exact ⟨_, rfl, ⟨ht, e1, e2, (if_pos hi).symm, (if_pos hi).symm, fun _ => gridAt_ok.mp hrow⟩,
        fun _ => ⟨fun _ => ⟨row', rfl, gridAt_ok.mp hr'⟩, fun hn => absurd hi hn⟩, rfl⟩
    · simp only [if_neg hi]
      exact ⟨_, rfl, ⟨ht, e1, e2, (if_neg hi).symm, (if_neg hi).symm, fun _ => gridAt_ok.mp hrow⟩,
        fun _ => ⟨fun hn => absurd hn hi, fun _ => rfl⟩, rfl⟩
  · rw [if_neg ha]
    exact ⟨_, rfl, ⟨ht, e1, e2, rfl, rfl, fun h => absurd h ha⟩, fun h => absurd h ha, rfl⟩

theorem Frame.fullSeries {g g' : Grid} (h : g.Frame g') (hf : g.FullSeries) : g'.FullSeries := by
  unfold FullSeries dataLength at *
  rw [h.arch, h.loads, h.pvs, h.statuses, h.importPrices, h.exportPrices, h.co2s]
  exact hf

theorem Frame.dataLength {g g' : Grid} (h : g.Frame g') : g'.dataLength = g.dataLength := by
  unfold Grid.dataLength
  rw [h.loads, h.pvs]

theorem Frame.gridData {g g' : Grid} (h : g.Frame g') {i : Nat} {row : GridRow} :
    g'.GridData i row ↔ g.GridData i row := by
  unfold GridData
  rw [h.statuses, h.importPrices, h.exportPrices, h.co2s]

/-- Every call leaves the values in step. -/
structure Clock (g : Grid) : Prop where
  full : g.FullSeries
  timed : g.Timed
  later : 0 < g.t → g.NextGrid

theorem run_clock {g : Grid} (h : g.Clock) (c : Control) :
    (g.run c).1.Clock ∧ (∀ e, (g.run c).2 = .error e → e ≠ .index) := by
  rcases g.run_cases c with ⟨r, e, hr, h'⟩ | ⟨r, e, hr, hc, h1, h2, h3, h'⟩
  · rw [h']
    refine ⟨⟨h.full, ⟨h.timed.inside, h.timed.load, h.timed.pv, h.timed.nextLoad, h.timed.nextPv, h.timed.cur⟩,
      fun ht => h.later ht⟩, ?_⟩
    intro e' he'
    simp only [Except.error.injEq] at he'
    subst he'
    by_cases hc : c.Complete g.arch
    · obtain ⟨ch, di, im, ex, ge, -, hq⟩ := record_eq g.arch g.params g.load g.pv g.soc g.production hc
      rw [hq] at hr
      split at hr
      · rename_i e₂ hs
        simp only [Prod.mk.injEq, Except.error.injEq] at hr
        rw [← hr.2]
        unfold settle at hs
        split_ifs at hs
        injection hs with hs
        rw [← hs]; decide
      · simp at hr
    · have := record_incomplete g.arch g.params g.load g.pv g.soc g.production hc
      rw [hr] at this
      injection this with this
      rw [this]; decide
  · rw [h']
    by_cases hend : g.AtEnd
    · rw [if_pos hend]
      exact ⟨⟨h.full, ⟨h.timed.inside, h.timed.load, h.timed.pv, h.timed.nextLoad, h.timed.nextPv, h.timed.cur⟩,
        fun ht => h.later ht⟩, fun e he => by simp at he⟩
    · rw [if_neg hend]
      have hlt : g.t + 1 < g.dataLength := by
        have := h.timed.inside
        unfold AtEnd at hend
        push Not at hend
        omega
      obtain ⟨g₂, hu, ht, hn, -⟩ := updateVariables_ok (g := { g.written c e r with t := g.t + 1 }) h.full hlt
      have fr := ({ g.written c e r with t := g.t + 1 } : Grid).updateVariables_frame.1
      rw [hu] at fr ⊢
      refine ⟨⟨?_, ht, fun _ => hn⟩, fun e he => by simp at he⟩
      exact fr.fullSeries h.full

theorem reset_clock {g : Grid} (h : g.Clock) : g.reset.1.Clock ∧ g.reset.2 = .ok () ∧ g.reset.1.NextGrid := by
  unfold reset
  simp only
  obtain ⟨g₂, hu, ht, hn, -⟩ := updateVariables_ok
    (g := { g with states := g.states.take 1, production := {}, costs := [], co2 := [], t := 0 }) h.full
    (show 0 < g.dataLength from lt_of_le_of_lt (Nat.zero_le _) h.timed.inside)
  have fr := ({ g with states := g.states.take 1, production := {}, costs := [], co2 := [], t := 0 } : Grid).updateVariables_frame.1
  rw [hu] at fr ⊢
  refine ⟨⟨?_, ⟨ht.inside, ht.load, ht.pv, ht.nextLoad, ht.nextPv, ht.cur⟩, fun _ => hn⟩, rfl, hn⟩
  have : g₂.FullSeries := fr.fullSeries h.full
  exact this

theorem after_clock {g : Grid} (h : g.Clock) (ops : List Op) : (after g ops).Clock := by
  induction ops generalizing g with
  | nil => exact h
  | cons op ops ih =>
    refine ih ?_
    cases op with
    | run c => exact (run_clock h c).1
    | reset => exact (reset_clock h).1

theorem create_clock {arch : Arch} {params : Params} {loads pvs statuses importPrices exportPrices co2s : List ℚ} {horizon : Nat}
    {socStart : ℚ} {status : StateRow} {g : Grid}
    (h : create arch params loads pvs statuses importPrices exportPrices co2s horizon socStart status = .ok g)
    (hf : g.FullSeries) : g.Clock ∧ g.t = 0 ∧ g.states = [status] ∧ g.arch = arch ∧ g.params = params ∧
      (arch.grid = true → g.next = some g.cur) := by
  unfold create at h
  split at h
  · rename_i load pv nl np e1 e2 e3 e4
    have l1 : 1 < loads.length := (List.getElem?_eq_some_iff.mp e3).1
    have l2 : 1 < pvs.length := (List.getElem?_eq_some_iff.mp e4).1
    simp only at h
    split at h
    · rename_i ha
      split at h
      · simp at h
      · rename_i row hrow
        injection h with h
        subst h
        refine ⟨⟨hf, ⟨?_, e1, e2, ?_, ?_, fun _ => gridAt_ok.mp hrow⟩, fun h => absurd h (lt_irrefl _)⟩, rfl, rfl, rfl, rfl,
          fun _ => rfl⟩
        · show 0 < min loads.length pvs.length; omega
        · exact e3.symm.trans (if_pos (show 0 + 1 < min loads.length pvs.length by omega)).symm
        · exact e4.symm.trans (if_pos (show 0 + 1 < min loads.length pvs.length by omega)).symm
    · rename_i ha
      injection h with h
      subst h
      refine ⟨⟨hf, ⟨?_, e1, e2, ?_, ?_, fun h => absurd h ha⟩, fun h => absurd h (lt_irrefl _)⟩, rfl, rfl, rfl, rfl,
        fun h => absurd h ha⟩
      · show 0 < min loads.length pvs.length; omega
      · exact e3.symm.trans (if_pos (show 0 + 1 < min loads.length pvs.length by omega)).symm
      · exact e4.symm.trans (if_pos (show 0 + 1 < min loads.length pvs.length by omega)).symm
  · simp at h

theorem reset_states (g : Grid) : g.reset.1.states = g.states.take 1 := by
  unfold reset
  simp only
  have := ({ g with states := g.states.take 1, production := {}, costs := [], co2 := [], t := 0 } : Grid).updateVariables_frame.2
  split <;> rename_i hu <;> rw [hu] at this <;> exact this.states

end Grid

end Pymgrid.Legacy
