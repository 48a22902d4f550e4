import Verif.Spec.Generator
import Verif.Lemmas.Legacy
import Mathlib.Tactic.Linarith
import Mathlib.Tactic.FieldSimp
import Mathlib.Data.Rat.Floor

set_option autoImplicit false

/-! Lemmas on the generator. -/

namespace Pymgrid.Legacy.Generator

/-! ## Outages -/

theorem extendBack_length (n i : Nat) (l : List ℚ) : (extendBack n i l).length = l.length := by
  unfold extendBack
  have : ∀ (ks : List Nat) (l : List ℚ),
      (ks.foldl (fun l k => let j := k + 1; if i > j then l.set (i - j) 0 else l) l).length = l.length := by
    intro ks
    induction ks with
    | nil => intro l; rfl
    | cons k ks ih =>
      intro l
      rw [List.foldl_cons, ih]
      simp only
      split <;> simp
  exact this _ _

theorem extendBack_get (n i : Nat) (l : List ℚ) (k : Nat) (hk : k < l.length) :
    (extendBack n i l)[k]? = if 0 < k ∧ k < i ∧ i < k + n then some 0 else l[k]? := by
  unfold extendBack
  have : ∀ (m : Nat) (l : List ℚ), k < l.length →
      ((List.range m).foldl (fun l k => let j := k + 1; if i > j then l.set (i - j) 0 else l) l)[k]? =
        if 0 < k ∧ k < i ∧ i ≤ k + m then some 0 else l[k]? := by
    intro m
    induction m with
    | zero =>
      intro l hl
      rw [if_neg (by omega)]
      rfl
    | succ m ih =>
      intro l hl
      rw [List.range_succ, List.foldl_append, List.foldl_cons, List.foldl_nil]
      have hlen : ∀ (ks : List Nat) (l : List ℚ),
          (ks.foldl (fun l k => let j := k + 1; if i > j then l.set (i - j) 0 else l) l).length = l.length := by
        intro ks
        induction ks with
        | nil => intro l; rfl
        | cons k ks ih =>
          intro l
          rw [List.foldl_cons, ih]
          simp only
          split <;> simp
      simp only
      by_cases hm : i > m + 1
      · rw [if_pos hm, List.getElem?_set]
        by_cases he : i - (m + 1) = k
        · rw [if_pos he, if_pos (by rw [hlen]; omega), if_pos (by omega)]
        · rw [if_neg he, ih l hl]
          by_cases hc : 0 < k ∧ k < i ∧ i ≤ k + m
          · rw [if_pos hc, if_pos (by omega)]
          · rw [if_neg hc, if_neg (by omega)]
      · rw [if_neg hm, ih l hl]
        by_cases hc : 0 < k ∧ k < i ∧ i ≤ k + m
        · rw [if_pos hc, if_pos (by omega)]
        · rw [if_neg hc, if_neg (by omega)]
  rw [this (n - 1) l hk]
  by_cases hc : 0 < k ∧ k < i ∧ i < k + n
  · rw [if_pos hc, if_pos (by omega)]
  · rw [if_neg hc, if_neg (by omega)]

/-- The state of the outer loop. -/
theorem extend_loop (n : Nat) (l : List ℚ) : ∀ m, m ≤ l.length →
    ((List.range m).foldl (fun l i => if l[i]? = some 0 then extendBack n i l else l) l).length = l.length ∧
    ∀ k, k < l.length →
      (((∃ i, i < m ∧ 0 < k ∧ k < i ∧ i < k + n ∧ l[i]? = some 0) →
        ((List.range m).foldl (fun l i => if l[i]? = some 0 then extendBack n i l else l) l)[k]? = some 0) ∧
      ((¬ ∃ i, i < m ∧ 0 < k ∧ k < i ∧ i < k + n ∧ l[i]? = some 0) →
        ((List.range m).foldl (fun l i => if l[i]? = some 0 then extendBack n i l else l) l)[k]? = l[k]?)) := by
  intro m
  induction m with
  | zero =>
    intro _
    refine ⟨rfl, fun k _ => ⟨?_, fun _ => rfl⟩⟩
    rintro ⟨i, h, -⟩
    omega
  | succ m ih =>
    intro hm
    obtain ⟨hlen, hget⟩ := ih (by omega)
    rw [List.range_succ, List.foldl_append, List.foldl_cons, List.foldl_nil]
    set l' := (List.range m).foldl (fun l i => if l[i]? = some 0 then extendBack n i l else l) l with hl'
    have hmm : l'[m]? = l[m]? := by
      refine (hget m (by omega)).2 ?_
      rintro ⟨i, h1, -, h2, -⟩
      omega
    rw [hmm]
    by_cases h0 : l[m]? = some 0
    · rw [if_pos h0]
      refine ⟨by rw [extendBack_length, hlen], fun k hk => ?_⟩
      rw [extendBack_get n m l' k (by rw [hlen]; exact hk)]
      by_cases hc : 0 < k ∧ k < m ∧ m < k + n
      · rw [if_pos hc]
        refine ⟨fun _ => rfl, fun h => ?_⟩
        exact absurd ⟨m, by omega, hc.1, hc.2.1, hc.2.2, h0⟩ h
      · rw [if_neg hc]
        constructor
        · rintro ⟨i, h1, h2, h3, h4, h5⟩
          refine (hget k hk).1 ⟨i, ?_, h2, h3, h4, h5⟩
          by_contra hne
          have : i = m := by omega
          subst this
          exact hc ⟨h2, h3, h4⟩
        · intro h
          refine (hget k hk).2 ?_
          rintro ⟨i, h1, h2⟩
          exact h ⟨i, by omega, h2⟩
    · rw [if_neg h0]
      refine ⟨hlen, fun k hk => ⟨?_, ?_⟩⟩
      · rintro ⟨i, h1, h2, h3, h4, h5⟩
        refine (hget k hk).1 ⟨i, ?_, h2, h3, h4, h5⟩
        by_contra hne
        have : i = m := by omega
        subst this
        exact h0 h5
      · intro h
        refine (hget k hk).2 ?_
        rintro ⟨i, h1, h2⟩
        exact h ⟨i, by omega, h2⟩

theorem extendOutages_length (n : Nat) (l : List ℚ) : (extendOutages n l).length = l.length :=
  (extend_loop n l l.length (le_refl _)).1

theorem getElem?_flags (draws : List ℚ) (thr : ℚ) (i : Nat) :
    (draws.map (fun x => if x < thr then (0 : ℚ) else 1))[i]? = some 0 ↔ ∃ x, draws[i]? = some x ∧ x < thr := by
  rw [List.getElem?_map]
  cases h : draws[i]? with
  | none => simp
  | some x =>
    simp only [Option.map_some, Option.some.injEq]
    constructor
    · intro h
      refine ⟨x, rfl, ?_⟩
      by_contra hc
      rw [if_neg hc] at h
      simp at h
    · rintro ⟨y, rfl, hy⟩
      rw [if_pos hy]

theorem extendOutages_get (draws : List ℚ) (thr : ℚ) (n k : Nat) (hk : k < draws.length) :
    (Outage draws thr n k → (extendOutages n (draws.map (fun x => if x < thr then (0 : ℚ) else 1)))[k]? = some 0) ∧
    (¬ Outage draws thr n k → (extendOutages n (draws.map (fun x => if x < thr then (0 : ℚ) else 1)))[k]? = some 1) := by
  set l := draws.map (fun x => if x < thr then (0 : ℚ) else 1) with hl
  have hlen : l.length = draws.length := by rw [hl, List.length_map]
  obtain ⟨h1, h2⟩ := (extend_loop n l l.length (le_refl _)).2 k (by omega)
  have hfl := getElem?_flags draws thr
  rw [← hl] at hfl
  have hex : (∃ i, i < l.length ∧ 0 < k ∧ k < i ∧ i < k + n ∧ l[i]? = some 0) ↔
      (0 < k ∧ ∃ i x, k < i ∧ i < k + n ∧ draws[i]? = some x ∧ x < thr) := by
    constructor
    · rintro ⟨i, -, a, b, c, e⟩
      obtain ⟨x, hx, hx'⟩ := (hfl i).mp e
      exact ⟨a, i, x, b, c, hx, hx'⟩
    · rintro ⟨a, i, x, b, c, hx, hx'⟩
      refine ⟨i, ?_, a, b, c, (hfl i).mpr ⟨x, hx, hx'⟩⟩
      rw [hlen]
      by_contra hc
      rw [List.getElem?_eq_none (by omega)] at hx
      simp at hx
  unfold extendOutages Outage
  constructor
  · rintro (h | h)
    · by_cases hc : ∃ i, i < l.length ∧ 0 < k ∧ k < i ∧ i < k + n ∧ l[i]? = some 0
      · exact h1 hc
      · rw [h2 hc]
        exact (hfl k).mpr h
    · exact h1 (hex.mpr h)
  · intro h
    rw [h2 fun hc => h (.inr (hex.mp hc)), hl, List.getElem?_map, List.getElem?_eq_getElem hk]
    simp only [Option.map_some, Option.some.injEq]
    rw [if_neg]
    intro hlt
    exact h (.inl ⟨_, List.getElem?_eq_getElem hk, hlt⟩)

/-! ## Sizes -/

theorem foldl_max_spec : ∀ (l : List ℚ) (x : ℚ), (x ≤ l.foldl max x ∧ ∀ y ∈ l, y ≤ l.foldl max x) ∧
    (l.foldl max x = x ∨ l.foldl max x ∈ l)
  | [], x => ⟨⟨le_refl _, by simp⟩, .inl rfl⟩
  | y :: l, x => by
    obtain ⟨⟨h1, h2⟩, h3⟩ := foldl_max_spec l (max x y)
    refine ⟨⟨le_trans (le_max_left _ _) h1, ?_⟩, ?_⟩
    · intro z hz
      rcases List.mem_cons.mp hz with rfl | hz
      · exact le_trans (le_max_right _ _) h1
      · exact h2 z hz
    · rcases h3 with h3 | h3
      · rw [List.foldl_cons, h3]
        rcases max_choice x y with h | h
        · exact .inl h
        · exact .inr (by rw [h]; exact List.mem_cons_self)
      · exact .inr (List.mem_cons_of_mem _ h3)

theorem maxOf_peak {l : List ℚ} (h : l ≠ []) : IsPeak l (maxOf l) := by
  cases l with
  | nil => exact absurd rfl h
  | cons x l =>
    obtain ⟨⟨h1, h2⟩, h3⟩ := foldl_max_spec l x
    refine ⟨?_, ?_⟩
    · rcases h3 with h3 | h3
      · show l.foldl max x ∈ _
        rw [h3]; exact List.mem_cons_self
      · exact List.mem_cons_of_mem _ h3
    · intro y hy
      rcases List.mem_cons.mp hy with rfl | hy
      · exact h1
      · exact h2 y hy

theorem IsPeak.unique {l : List ℚ} {a b : ℚ} (ha : IsPeak l a) (hb : IsPeak l b) : a = b :=
  le_antisymm (hb.2 a ha.1) (ha.2 b hb.1)

theorem scaleMax_peak {l : List ℚ} {s : ℚ} (h : ∃ x ∈ l, 0 < x) (hs : 0 ≤ s) : IsPeak (scaleMax l s) s := by
  obtain ⟨x, hx, hx0⟩ := h
  have hm := maxOf_peak (List.ne_nil_of_mem hx)
  have hpos : 0 < maxOf l := lt_of_lt_of_le hx0 (hm.2 x hx)
  refine ⟨List.mem_map.mpr ⟨maxOf l, hm.1, by field_simp⟩, ?_⟩
  intro y hy
  obtain ⟨z, hz, rfl⟩ := List.mem_map.mp hy
  have := hm.2 z hz
  calc z * (s / maxOf l) ≤ maxOf l * (s / maxOf l) := mul_le_mul_of_nonneg_right this (div_nonneg hs hpos.le)
    _ = s := by field_simp

theorem mean_pos {l : List ℚ} (hne : l ≠ []) (h : ∀ x ∈ l, 0 < x) : 0 < mean l := by
  have hlen : 0 < l.length := List.length_pos_of_ne_nil hne
  have : 0 < l.sum := by
    clear hlen
    induction l with
    | nil => exact absurd rfl hne
    | cons x l ih =>
      rw [List.sum_cons]
      have hx := h x List.mem_cons_self
      by_cases hl : l = []
      · subst hl; simpa using hx
      · have := ih hl fun y hy => h y (List.mem_cons_of_mem _ hy)
        linarith
  unfold mean
  exact div_pos this (by exact_mod_cast hlen)

theorem Draws.Valid.load_ne {d : Draws} (h : d.Valid) : d.load ≠ [] := by
  have := h.rows
  intro he
  rw [he] at this
  simp at this

theorem Draws.Valid.lit {d : Draws} (h : d.Valid) : ∃ x ∈ d.load, 0 < x := by
  have hne := h.load_ne
  exact ⟨d.load.head hne, List.head_mem hne, h.load _ (List.head_mem hne)⟩

theorem Draws.Valid.size_pos {d : Draws} (h : d.Valid) : (100 : ℚ) ≤ d.sizeLoad := by exact_mod_cast h.sizeLoad.1

theorem Draws.Valid.loads_peak {d : Draws} (h : d.Valid) : IsPeak d.loads d.sizeLoad :=
  scaleMax_peak h.lit (le_trans (by norm_num) h.size_pos)

theorem Draws.Valid.loads_ne {d : Draws} (h : d.Valid) : d.loads ≠ [] := List.ne_nil_of_mem h.loads_peak.1

theorem Draws.Valid.maxOf_loads {d : Draws} (h : d.Valid) : maxOf d.loads = d.sizeLoad :=
  (maxOf_peak h.loads_ne).unique h.loads_peak

theorem Draws.Valid.loads_pos {d : Draws} (h : d.Valid) : ∀ x ∈ d.loads, 0 < x := by
  intro y hy
  obtain ⟨z, hz, rfl⟩ := List.mem_map.mp hy
  obtain ⟨x, hx, hx0⟩ := h.lit
  have hpos : 0 < maxOf d.load := lt_of_lt_of_le hx0 ((maxOf_peak h.load_ne).2 x hx)
  have := h.size_pos
  exact mul_pos (h.load z hz) (div_pos (by linarith) hpos)

theorem Draws.Valid.pv_size_pos {d : Draws} (h : d.Valid) : 0 < sizePv d.loads d.pvPercent := by
  unfold sizePv
  rw [h.maxOf_loads]
  have h1 := h.size_pos
  have h2 : (30 : ℚ) ≤ d.pvPercent := by exact_mod_cast h.pvPercent.1
  exact mul_pos (by linarith) (div_pos (by linarith) (by norm_num))

theorem Draws.Valid.pvs_nonneg {d : Draws} (h : d.Valid) : ∀ x ∈ d.pvs, 0 ≤ x := by
  intro y hy
  obtain ⟨z, hz, rfl⟩ := List.mem_map.mp hy
  obtain ⟨x, hx, hx0⟩ := h.sun
  have hpos : 0 < maxOf d.pv := lt_of_lt_of_le hx0 ((maxOf_peak (List.ne_nil_of_mem hx)).2 x hx)
  exact mul_nonneg (h.pv z hz) (div_nonneg h.pv_size_pos.le hpos.le)

theorem Draws.Valid.pvs_peak {d : Draws} (h : d.Valid) : IsPeak d.pvs ((d.pvPercent : ℚ) / 100 * d.sizeLoad) := by
  have := scaleMax_peak h.sun h.pv_size_pos.le
  unfold sizePv at this
  rw [h.maxOf_loads, mul_comm] at this
  unfold Draws.pvs sizePv
  rw [h.maxOf_loads, mul_comm (d.sizeLoad : ℚ)]
  exact this

theorem Draws.Valid.capacity {d : Draws} (h : d.Valid) :
    0 < d.params.capacity ∧ (d.batteryHours : ℚ) * mean d.loads ≤ d.params.capacity ∧
      d.params.capacity < d.batteryHours * mean d.loads + 1 := by
  have h1 : (d.batteryHours : ℚ) * mean d.loads ≤ d.params.capacity := Rat.le_ceil
  have h2 : (3 : ℚ) ≤ d.batteryHours := by exact_mod_cast h.batteryHours.1
  have h3 := mean_pos h.loads_ne h.loads_pos
  have h4 : 0 < (d.batteryHours : ℚ) * mean d.loads := mul_pos (by linarith) h3
  exact ⟨by linarith, h1, Rat.ceil_lt⟩

theorem Draws.power (d : Draws) : d.params.capacity ≤ 4 * d.params.pCharge ∧
    d.params.pDischarge = d.params.pCharge := by
  refine ⟨?_, rfl⟩
  have : d.params.capacity / 4 ≤ d.params.pCharge := Rat.le_ceil
  linarith

theorem Draws.Valid.genset {d : Draws} (h : d.Valid) : (d.sizeLoad : ℚ) ≤ d.params.rated * d.params.pmax := by
  have : maxOf d.loads / (9/10) ≤ d.params.rated := Rat.le_ceil
  rw [h.maxOf_loads] at this
  show (d.sizeLoad : ℚ) ≤ d.params.rated * (9/10)
  rw [div_le_iff₀ (by norm_num)] at this
  exact this

theorem Draws.Valid.grid {d : Draws} (h : d.Valid) : 2 * (d.sizeLoad : ℚ) ≤ d.params.pImport ∧ d.params.pExport = d.params.pImport := by
  refine ⟨?_, rfl⟩
  show _ ≤ ((maxOf d.loads * 2).floor : ℚ)
  rw [h.maxOf_loads]
  have : (d.sizeLoad : ℚ) * 2 = ((d.sizeLoad * 2 : Int) : ℚ) := by push_cast; ring
  rw [this, Rat.floor_intCast]
  push_cast
  linarith

theorem Draws.Valid.good {d : Draws} (h : d.Valid) : d.params.Good := by
  have h1 := h.capacity.1
  have h2 := d.power.1
  have h3 := h.genset
  have h4 := h.grid.1
  have h5 := h.size_pos
  have h6 : (0 : ℚ) < d.params.rated := by
    have : d.params.rated * d.params.pmax = d.params.rated * (9/10) := rfl
    rw [this] at h3
    linarith
  constructor
  · exact h1
  · show (0 : ℚ) < 9/10; norm_num
  · show (9/10 : ℚ) ≤ 1; norm_num
  · show (1/5 : ℚ) ≤ 1; norm_num
  · linarith
  · rw [d.power.2]; linarith
  · show 0 ≤ d.params.rated * (5/100); linarith
  · show d.params.rated * (5/100) ≤ d.params.rated * (9/10); linarith
  · linarith
  · rw [h.grid.2]; linarith

theorem soc₀_mem (d : Draws) : 1/5 ≤ d.soc₀ ∧ d.soc₀ ≤ 1 :=
  ⟨le_min (le_max_right _ _) (by norm_num), min_le_right _ _⟩

theorem arch_spec (d : Draws) : d.arch.battery = true ∧ (d.arch.genset = true ∨ d.arch.grid = true) ∧
    (d.arch.grid = true → d.weak = true → d.arch.genset = true) := by
  unfold Draws.arch binGensetGrid
  by_cases h1 : d.rand < 33/100
  · rw [if_pos h1]; simp
  · rw [if_neg h1]
    by_cases h2 : d.rand ≥ 33/100 ∧ d.rand < 66/100
    · rw [if_pos h2]; simp
    · rw [if_neg h2]; simp

theorem statuses_length {d : Draws} (h : d.Valid) : d.statuses.length = 8760 := by
  unfold Draws.statuses
  rw [List.length_take]
  split
  · unfold weakGridProfile
    rw [extendOutages_length, List.length_map, h.hours]
    rfl
  · rw [List.length_replicate]; rfl

theorem weakGridProfile_get (draws : List ℚ) (o : ℚ) (duration : Nat) {k : Nat} (hk : k < draws.length) :
    (Outage draws (o / 24) duration k → (weakGridProfile draws o duration 8760)[k]? = some 0) ∧
    (¬ Outage draws (o / 24) duration k → (weakGridProfile draws o duration 8760)[k]? = some 1) := by
  have : ((duration : ℚ) / (8760 / 8760)).floor.toNat = duration := by
    rw [div_self (by norm_num), div_one]
    exact Int.toNat_natCast duration
  unfold weakGridProfile
  rw [this]
  exact extendOutages_get draws (o / 24) duration k hk

theorem statuses_binary (d : Draws) : ∀ s ∈ d.statuses, s = 0 ∨ s = 1 := by
  intro s hs
  unfold Draws.statuses at hs
  have hs := List.mem_of_mem_take hs
  split at hs
  · obtain ⟨k, hk, rfl⟩ := List.getElem_of_mem hs
    have hlen : (weakGridProfile d.hours d.outages d.duration 8760).length = d.hours.length := by
      unfold weakGridProfile
      rw [extendOutages_length, List.length_map]
    obtain ⟨a, b⟩ := weakGridProfile_get d.hours d.outages d.duration (k := k) (by omega)
    by_cases ho : Outage d.hours (d.outages / 24) d.duration k
    · have := a ho
      rw [List.getElem?_eq_getElem hk] at this
      exact .inl (Option.some.inj this)
    · have := b ho
      rw [List.getElem?_eq_getElem hk] at this
      exact .inr (Option.some.inj this)
  · exact .inr (List.mem_replicate.mp hs).2

theorem tariff_length {n : Nat} (h : n = 1 ∨ n = 2) : (electricityTariff n).1.length = 8760 ∧
    (electricityTariff n).2.length = 8760 := by
  unfold electricityTariff
  rw [if_pos h]
  exact ⟨by rw [List.length_map, List.length_range], List.length_replicate⟩

/-- Data of a constructed legacy microgrid. -/
theorem legacy_create {a : Arch} {p : Params} {loads pvs st ip ep co2 : List ℚ} {h : Nat} {s : ℚ} {row : StateRow}
    (hl : 2 ≤ loads.length) (hp : 2 ≤ pvs.length)
    (hg : a.grid = true → 0 < st.length ∧ 0 < ip.length ∧ 0 < ep.length ∧ 0 < co2.length) :
    ∃ g, Legacy.create a p loads pvs st ip ep co2 h s row = .ok g ∧ g.arch = a ∧ g.params = p ∧ g.loads = loads ∧
      g.pvs = pvs ∧ g.statuses = st ∧ g.importPrices = ip ∧ g.exportPrices = ep ∧ g.co2s = co2 ∧ g.horizon = h ∧
      g.states = [row] ∧ g.batterySoc = s ∧ g.production = {} ∧ g.costs = [] ∧ g.co2 = [] ∧ g.t = 0 := by
  unfold Legacy.create
  rw [List.getElem?_eq_getElem (show 0 < loads.length by omega), List.getElem?_eq_getElem (show 0 < pvs.length by omega),
    List.getElem?_eq_getElem (show 1 < loads.length by omega), List.getElem?_eq_getElem (show 1 < pvs.length by omega)]
  simp only
  cases hag : a.grid with
  | false => exact ⟨_, rfl, rfl, rfl, rfl, rfl, rfl, rfl, rfl, rfl, rfl, rfl, rfl, rfl, rfl, rfl, rfl⟩
  | true =>
    obtain ⟨h1, h2, h3, h4⟩ := hg hag
    simp only [if_true]
    unfold Grid.gridAt
    simp only
    rw [List.getElem?_eq_getElem h1, List.getElem?_eq_getElem h2, List.getElem?_eq_getElem h3,
      List.getElem?_eq_getElem h4]
    exact ⟨_, rfl, rfl, rfl, rfl, rfl, rfl, rfl, rfl, rfl, rfl, rfl, rfl, rfl, rfl, rfl, rfl⟩

/-- The generator succeeds, and this is what it makes of the draws. -/
theorem create_spec {d : Draws} (hv : d.Valid) : ∃ g row, d.create = .ok g ∧ g.arch = d.arch ∧ g.params = d.params ∧
    g.loads = d.loads ∧ g.pvs = d.pvs ∧ g.horizon = 24 ∧ g.states = [row] ∧ row.soc = d.soc₀ ∧ g.batterySoc = d.soc₀ ∧
    g.production = {} ∧ g.costs = [] ∧ g.co2 = [] ∧ g.t = 0 ∧
    (d.arch.grid = true → g.statuses = d.statuses ∧ g.importPrices = (electricityTariff d.scenario).1 ∧
      g.exportPrices = (electricityTariff d.scenario).2 ∧ g.co2s = d.co2) ∧
    (d.arch.grid = false → g.statuses = []) := by
  have hrows := hv.rows
  have hl : 2 ≤ d.loads.length := by unfold Draws.loads scaleMax; rw [List.length_map]; exact hrows.1
  have hp : 2 ≤ d.pvs.length := by unfold Draws.pvs scaleMax; rw [List.length_map, hv.pv_rows]; exact hrows.1
  obtain ⟨t1, t2⟩ := tariff_length hv.scenario
  have hst := statuses_length hv
  have hco := hv.co2_rows
  unfold Draws.create
  simp only
  rw [List.getElem?_eq_getElem (show 0 < d.loads.length by omega), List.getElem?_eq_getElem (show 0 < d.pvs.length by omega)]
  simp only
  cases hg : d.arch.grid with
  | false =>
    simp only [Bool.false_eq_true, if_false]
    obtain ⟨g, h, h1, h2, h3, h4, h5, -, -, -, h9, h10, h11, h12, h13, h14, h15⟩ := legacy_create (a := d.arch) (p := d.params)
      (st := []) (ip := []) (ep := []) (co2 := []) (h := 24) (s := d.soc₀) (row := _) hl hp (fun h => by rw [hg] at h; simp at h)
    exact ⟨g, _, h, h1, h2, h3, h4, h9, h10, rfl, h11, h12, h13, h14, h15, by simp, fun _ => h5⟩
  | true =>
    simp only [if_true]
    rw [List.getElem?_eq_getElem (show 0 < d.statuses.length by omega),
      List.getElem?_eq_getElem (show 0 < (electricityTariff d.scenario).1.length by omega),
      List.getElem?_eq_getElem (show 0 < (electricityTariff d.scenario).2.length by omega),
      List.getElem?_eq_getElem (show 0 < d.co2.length by omega)]
    simp only
    obtain ⟨g, h, h1, h2, h3, h4, h5, h6, h7, h8, h9, h10, h11, h12, h13, h14, h15⟩ := legacy_create (a := d.arch)
      (p := d.params) (st := d.statuses) (ip := (electricityTariff d.scenario).1) (ep := (electricityTariff d.scenario).2)
      (co2 := d.co2) (h := 24) (s := d.soc₀) (row := _) hl hp (fun _ => ⟨by omega, by omega, by omega, by omega⟩)
    exact ⟨g, _, h, h1, h2, h3, h4, h9, h10, rfl, h11, h12, h13, h14, h15, fun _ => ⟨h5, h6, h7, h8⟩, by simp⟩

end Pymgrid.Legacy.Generator
