import Verif.Lemmas.DataGenerator
import Verif.Props.SAA

set_option autoImplicit false

/-!
# C90: the noisy data of the sample average approximation
-/

namespace Pymgrid.Noisy

section
variable {data : List ℚ} {u : Nat → ℚ}

/-- C90, status of the grid: samples of a Markov chain follow the frequencies of the data, exactly: each value is 0 with the relative
    frequency with which 0 follows the value before. -/
theorem C90_grid (hb : ∀ x ∈ data, x = 1 ∨ x = 0) (hn : 2 ≤ data.length) (u : Nat → ℚ) :
    ∃ s, sampleGrid .markov data u = .ok s ∧ DrawnLike data u s := sampleGrid_markov hb hn u

/-- C90, status of the grid without memory: each value is 0 with the relative frequency of 0. -/
theorem C90_grid_naive (hb : ∀ x ∈ data, x = 1 ∨ x = 0) (hn : data ≠ []) (u : Nat → ℚ) :
    ∃ s, sampleGrid .naive data u = .ok s ∧ s.length = data.length ∧
      ∀ i < data.length, s[i]? = some (if u i < 1 - mean data then 0 else 1) := sampleGrid_naive hb hn u

/-- C90, status of the grid: data with other values than 0 and 1, and data without any transition, is refused. -/
theorem C90_grid_refused (u : Nat → ℚ) : (∀ dist, (∃ x ∈ data, x ≠ 1 ∧ x ≠ 0) → sampleGrid dist data u = .error .value) ∧
    (data.length < 2 → sampleGrid .markov data u = .error .value) := by
  refine ⟨?_, ?_⟩
  · rintro dist ⟨x, hx, h1, h0⟩
    unfold sampleGrid
    rw [if_pos]
    intro hb
    rcases hb x hx with h | h
    · exact h1 h
    · exact h0 h
  · intro hl
    unfold sampleGrid
    split
    · rfl
    · rename_i hb
      rw [not_not] at hb
      simp only [learnMarkov_ok hb]
      rw [if_pos]
      have h1 : leaves data 0 + leaves data 1 = 0 := by rw [leaves_total hb]; omega
      exact_mod_cast h1

/-- C90, status of the grid: the sample has only the values 0 and 1, and only transitions that the data has (or, after a value that
    is only the last one of the data, none). -/
theorem C90_grid_support (hb : ∀ x ∈ data, x = 1 ∨ x = 0) {s : List ℚ} (hs : sampleGrid .markov data u = .ok s)
    (hu : ∀ i, 0 ≤ u i ∧ u i < 1) : (∀ x ∈ s, x = 0 ∨ x = 1) ∧
      ∀ (i : Nat) (a b : ℚ), s[i]? = some a → s[i + 1]? = some b → 0 < transitions data a b ∨ (leaves data a = 0 ∧ b = a) := by
  have hn : 2 ≤ data.length := by
    by_contra h
    rw [(C90_grid_refused u).2 (by omega)] at hs
    cases hs
  obtain ⟨s', e, d⟩ := C90_grid hb hn u
  rw [hs] at e
  obtain rfl := Except.ok.inj e
  have hval : ∀ x ∈ s, x = 0 ∨ x = 1 := by
    intro x hx
    obtain ⟨i, hi, rfl⟩ := List.mem_iff_getElem.mp hx
    have : s[i]? = some s[i] := List.getElem?_eq_getElem hi
    cases i with
    | zero =>
      rw [d.first] at this
      rw [← Option.some.inj this]
      split <;> simp
    | succ i =>
      rw [d.next i (by omega)] at this
      rw [← Option.some.inj this]
      split <;> simp
  refine ⟨hval, ?_⟩
  intro i a b ha hb'
  have hlt : i + 1 < s.length := (List.getElem?_eq_some_iff.mp hb').1
  have h1 := d.next i hlt
  rw [hb', List.getD_eq_getElem?_getD, ha, Option.getD_some] at h1
  have ha' : a = 1 ∨ a = 0 := (hval a (List.mem_of_getElem? ha)).symm
  have hsum := freq_sum hb ha'
  obtain ⟨hu0, hu1⟩ := hu (i + 1)
  have hpos : 0 < freq data a b := by
    by_cases h : u (i + 1) < freq data a 0
    · rw [if_pos h] at h1
      rw [Option.some.inj h1]
      linarith
    · rw [if_neg h] at h1
      rw [Option.some.inj h1]
      linarith
  unfold freq at hpos
  split at hpos
  · rename_i hz
    split at hpos
    · rename_i hab
      exact .inr ⟨hz, hab.symm⟩
    · simp at hpos
  · left
    by_contra h0
    have : transitions data a b = 0 := by omega
    rw [this] at hpos
    simp at hpos

/-- C90: if the grid never fails in the data, it never fails in a sample. -/
theorem C90_no_outage (hb : ∀ x ∈ data, x = 1) {s : List ℚ} (hs : sampleGrid .markov data u = .ok s) (hu : ∀ i, 0 ≤ u i ∧ u i < 1) :
    ∀ x ∈ s, x = 1 := by
  have hb' : ∀ x ∈ data, x = 1 ∨ x = 0 := fun x hx => .inl (hb x hx)
  have hn : 2 ≤ data.length := by
    by_contra h
    rw [(C90_grid_refused u).2 (by omega)] at hs
    cases hs
  obtain ⟨s', e, d⟩ := C90_grid hb' hn u
  rw [hs] at e
  obtain rfl := Except.ok.inj e
  have h0 : leaves data 0 = 0 := by
    unfold leaves
    rw [List.length_eq_zero_iff, List.filter_eq_nil_iff]
    intro x hx
    rw [hb x (List.mem_of_mem_dropLast hx)]
    simp
  obtain ⟨-, hsup⟩ := C90_grid_support hb' hs hu
  have key : ∀ (i : Nat) (x : ℚ), s[i]? = some x → x = 1 := by
    intro i
    induction i with
    | zero =>
      intro x hx
      rw [d.first, h0] at hx
      rw [← Option.some.inj hx, if_neg]
      have := (hu 0).1
      simp only [Nat.cast_zero, zero_div, not_lt]
      exact this
    | succ i ih =>
      intro x hx
      have hlt := (List.getElem?_eq_some_iff.mp hx).1
      obtain ⟨a, ha⟩ : ∃ a, s[i]? = some a := ⟨_, List.getElem?_eq_getElem (by omega)⟩
      have := ih a ha
      subst this
      rcases hsup i 1 x ha hx with h | ⟨-, h⟩
      · unfold transitions at h
        obtain ⟨p, hp⟩ := List.exists_mem_of_length_pos h
        rw [List.mem_filter, decide_eq_true_eq] at hp
        obtain ⟨hp, rfl⟩ := hp
        exact hb x (List.mem_of_mem_tail (List.of_mem_zip hp).2)
      · exact h
  intro x hx
  obtain ⟨i, hi, rfl⟩ := List.mem_iff_getElem.mp hx
  exact key i _ (List.getElem?_eq_getElem hi)

/-- C90, load: for whole days of non-negative data, a sample has as many rows as the data (at most a year), all non-negative. Each is
    drawn around the mean of the same hour of the same weekday, with their standard deviation times the scale (0 for a single
    value); negative draws become the least value `v` of the data. -/
theorem C90_load {sd : List ℚ → ℚ} {scale : ℚ} {z : Nat → Nat → ℚ} (hsd : ∀ l, 0 ≤ sd l) (hsc : 0 ≤ scale) (hne : data ≠ [])
    (hb : ∀ x ∈ data, 0 ≤ x) (hd : 24 ∣ data.length) :
    ∃ v ys, sampleLoad sd data scale z = .ok ys ∧ (v ∈ data ∧ ∀ x ∈ data.take 8760, v ≤ x) ∧ ys.length = min 8760 data.length ∧ (∀ y ∈ ys, 0 ≤ y) ∧
      ∀ i, i < ys.length → ∃ x, ys[i]? = some (if x < 0 then v else x) ∧
        x = mean (weekly (data.take 8760) i) + scale * (if (weekly (data.take 8760) i).length < 2 then 0
          else sd (weekly (data.take 8760) i)) * z (i / 24) (i % 24) := by
  obtain ⟨v, ys, e, hv, hl, hi⟩ := sampleLoad_ok (z := z) hsd hsc hne hb hd
  refine ⟨v, ys, e, hv, hl, ?_, fun i h => ⟨_, hi i (by omega), rfl⟩⟩
  intro y hy
  obtain ⟨i, h, rfl⟩ := List.mem_iff_getElem.mp hy
  have := hi i (by omega)
  rw [List.getElem?_eq_getElem h] at this
  rw [Option.some.inj this]
  split
  · exact hb v hv.1
  · linarith

/-- C90, load: without variance the sample is the mean of the same hour of the same weekday. -/
theorem C90_load_mean {sd : List ℚ → ℚ} {z : Nat → Nat → ℚ} (hsd : ∀ l, 0 ≤ sd l) (hne : data ≠ []) (hb : ∀ x ∈ data, 0 ≤ x)
    (hd : 24 ∣ data.length) {ys : List ℚ} (hy : sampleLoad sd data 0 z = .ok ys) :
    ∀ i, i < ys.length → ys[i]? = some (mean (weekly (data.take 8760) i)) := by
  obtain ⟨v, ys', e, -, -, -, hi⟩ := C90_load (z := z) hsd (le_refl 0) hne hb hd
  rw [hy] at e
  obtain rfl := Except.ok.inj e
  intro i h
  obtain ⟨x, h1, h2⟩ := hi i h
  rw [zero_mul, zero_mul, add_zero] at h2
  rw [h1, if_neg, h2]
  rw [h2, not_lt]
  unfold mean
  exact div_nonneg (sum_nonneg_of fun x hx => hb x (List.mem_of_mem_take (weekly_mem hx))) (by positivity)

/-- C90, PV: whatever the noise, a sample has whole days for the data, no negative values, and it is dark whenever it is dark in the
    data. -/
theorem C90_pv {curves : Nat → ℚ → ℚ × ℚ} {noise : PeakNoise} {push ratio : Option ℚ} {z : Nat → Nat → ℚ} {base : List (List ℚ)}
    {pv : List ℚ} (hbase : parabolas curves noise push data u = .ok base) (hpv : noisePv base ratio z = .ok pv) :
    pv.length = data.length ∧ (∀ x ∈ pv, 0 ≤ x) ∧ ∀ i : Nat, data[i]? = some 0 → pv[i]? = some 0 := by
  obtain ⟨hl, hrow⟩ := parabolas_ok hbase
  have hdays : 24 * days data.length = data.length := by
    by_contra hne
    have hlt : data.length < 24 * days data.length := lt_of_le_of_ne (days_covers _) (Ne.symm hne)
    have hpos : 0 < days data.length := by omega
    obtain ⟨a, b, v, top, hdd, -⟩ := hrow (days data.length - 1) (by omega)
    unfold dawnDusk at hdd
    rw [List.getElem?_eq_none (i := 24 * (days data.length - 1) + 23) (by omega)] at hdd
    simp only [ne_eq, reduceCtorEq, not_false_eq_true, if_true] at hdd
    split at hdd <;> cases hdd
  have h24 : ∀ row ∈ base, row.length = 24 := by
    intro row hr
    obtain ⟨d, hd, rfl⟩ := List.mem_iff_getElem.mp hr
    obtain ⟨a, b, v, top, -, -, hb⟩ := hrow d (by omega)
    rw [List.getElem?_eq_getElem hd] at hb
    rw [Option.some.inj hb]
    simp
  obtain ⟨hlen, hval⟩ := noisePv_ok hpv h24
  refine ⟨by rw [hlen, hl, hdays], ?_, ?_⟩
  · intro x hx
    obtain ⟨i, hi, rfl⟩ := List.mem_iff_getElem.mp hx
    obtain ⟨a, b, v, top, -, -, hb⟩ := hrow (i / 24) (by omega)
    have := hval (i / 24) (i % 24) _ (parabola a b v ((i % 24 : Nat) : ℚ)) (by omega) hb (by
      rw [List.getElem?_map, List.getElem?_range (by omega)]; rfl)
    have e : 24 * (i / 24) + i % 24 = i := by omega
    rw [e, List.getElem?_eq_getElem hi] at this
    rw [Option.some.inj this]
    exact le_max_left _ _
  · intro i hi
    have hlt := (List.getElem?_eq_some_iff.mp hi).1
    obtain ⟨a, b, v, top, hdd, -, hb⟩ := hrow (i / 24) (by omega)
    have e : 24 * (i / 24) + i % 24 = i := by omega
    obtain ⟨h1, h2, h3⟩ := dawnDusk_ok hdd
    have hz := parabola_dark h1 (h3 (i % 24) (by omega) (by rw [e]; exact hi)) v
    have := hval (i / 24) (i % 24) _ 0 (by omega) hb (by
      rw [List.getElem?_map, List.getElem?_range (by omega), Option.map_some, hz])
    rw [e] at this
    rw [this]
    simp

/-- C90, PV: for daylight data and curves that do not cross, sampling with the default noise of the peaks succeeds; without the normal
    noise there is never more light than the curves say. -/
theorem C90_pv_total {curves : Nat → ℚ → ℚ × ℚ} {ratio : Option ℚ} {z : Nat → Nat → ℚ} (hd : Daylight data)
    (hc : ∀ d t, (curves d t).1 ≤ (curves d t).2) (hu : ∀ d, 0 ≤ u d ∧ u d < 1) (hr : ∀ r, ratio = some r → 0 ≤ r) :
    ∃ base pv, parabolas curves (.uniform 0 1) none data u = .ok base ∧ (∀ z, ∃ pv', noisePv base ratio z = .ok pv') ∧
      noisePv base ratio z = .ok pv ∧
      (ratio = none → ∀ C, (∀ d t, |(curves d t).1| ≤ C ∧ |(curves d t).2| ≤ C) → ∀ x ∈ pv, x ≤ C) := by
  have hdays : 24 * days data.length = data.length := by
    obtain ⟨k, hk⟩ := hd.whole
    unfold days
    omega
  obtain ⟨base, hbase⟩ : ∃ base, parabolas curves (.uniform 0 1) none data u = .ok base := by
    apply mapM_total
    intro d hdm
    rw [List.mem_range] at hdm
    obtain ⟨⟨a, b⟩, hab⟩ := hd.dawnDusk (d := d) (by omega)
    simp only [hab]
    exact ⟨_, rfl⟩
  obtain ⟨hl, hrow⟩ := parabolas_ok hbase
  have hb : ∀ d < days data.length, ∃ a b v : _, base[d]? = some ((List.range 24).map fun (h : Nat) => parabola (a : Nat) (b : Nat) v h) ∧
      a + 1 < b ∧ 0 ≤ v ∧ v ≤ (fixBounds (curves d ((a + b) / 2)).1 (curves d ((a + b) / 2)).2).2 := by
    intro d hdm
    obtain ⟨a, b, v, top, hdd, hpk, hrw⟩ := hrow d hdm
    obtain ⟨h1, h2⟩ := fixBounds_ok (hc d ((a + b) / 2))
    obtain ⟨v', e, h3, h4⟩ := peak_uniform (b := fixBounds (curves d ((a + b) / 2)).1 (curves d ((a + b) / 2)).2) (top := top) h2 (hu d)
    rw [hpk] at e
    obtain rfl := Except.ok.inj e
    exact ⟨a, b, v, hrw, (dawnDusk_ok hdd).1, by linarith, h4⟩
  have hnn : ∀ row ∈ base, ∀ x ∈ row, 0 ≤ x := by
    intro row hr x hx
    obtain ⟨d, hdm, rfl⟩ := List.mem_iff_getElem.mp hr
    obtain ⟨a, b, v, hrw, hab, hv, -⟩ := hb d (by omega)
    rw [List.getElem?_eq_getElem hdm] at hrw
    rw [Option.some.inj hrw] at hx
    obtain ⟨h, -, rfl⟩ := List.mem_map.mp hx
    exact (parabola_bounds hab hv).1
  have htot : ∀ z, ∃ pv', noisePv base ratio z = .ok pv' := by
    intro z
    unfold noisePv
    cases ratio with
    | none => exact ⟨_, rfl⟩
    | some r =>
      simp only
      rw [if_neg]
      · exact ⟨_, rfl⟩
      · rintro ⟨row, hrw, x, hx, hneg⟩
        have := mul_nonneg (hr r rfl) (hnn row hrw x hx)
        linarith
  obtain ⟨pv, hpv⟩ := htot z
  refine ⟨base, pv, hbase, htot, hpv, ?_⟩
  rintro rfl C hC x hx
  unfold noisePv at hpv
  obtain rfl := Except.ok.inj hpv
  obtain ⟨y, hy, rfl⟩ := List.mem_map.mp hx
  obtain ⟨row, hrw, hy⟩ := List.mem_flatten.mp hy
  obtain ⟨d, hdm, rfl⟩ := List.mem_iff_getElem.mp hrw
  obtain ⟨a, b, v, hrw', hab, hv, hv'⟩ := hb d (by omega)
  rw [List.getElem?_eq_getElem hdm] at hrw'
  rw [Option.some.inj hrw'] at hy
  obtain ⟨h, -, rfl⟩ := List.mem_map.mp hy
  obtain ⟨p1, p2⟩ := parabola_bounds (h := (h : ℚ)) hab hv
  rw [if_neg (not_lt.mpr p1)]
  refine p2.trans (hv'.trans ?_)
  obtain ⟨c1, c2⟩ := hC d ((a + b) / 2)
  have := abs_le.mp c1
  have := abs_le.mp c2
  unfold fixBounds
  split
  · split
    · have : -C ≤ min (curves d ((a + b) / 2)).1 (curves d ((a + b) / 2)).2 := le_min (by linarith) (by linarith)
      simp only
      linarith
    · simp only; linarith
  · simp only; linarith

/-- C90, PV: without the normal noise each day is an arc over the hours of the first light of the day, with a peak between the curves. -/
theorem C90_pv_shape {curves : Nat → ℚ → ℚ × ℚ} {base : List (List ℚ)} {pv : List ℚ} {z : Nat → Nat → ℚ}
    (hc : ∀ d t, 0 ≤ (curves d t).1 ∧ (curves d t).1 ≤ (curves d t).2) (hu : ∀ d, 0 ≤ u d ∧ u d < 1)
    (hbase : parabolas curves (.uniform 0 1) none data u = .ok base) (hpv : noisePv base none z = .ok pv) {d : Nat}
    (hd : 24 * d < data.length) :
    ∃ (a b : Nat) (v : ℚ), a + 1 < b ∧ b < 24 ∧ data[24 * d + a]? = some 0 ∧ data[24 * d + b]? = some 0 ∧
      (∀ h, a < h → h < b → data[24 * d + h]? ≠ some 0) ∧
      (curves d ((a + b) / 2)).1 ≤ v ∧ v ≤ (curves d ((a + b) / 2)).2 ∧
      ∀ h : Nat, h < 24 → pv[24 * d + h]? =
        some (if a ≤ h ∧ h ≤ b then 4 * v * (((h : ℚ) - a) * ((b : ℚ) - h)) / ((b : ℚ) - a) ^ 2 else 0) := by
  obtain ⟨hl, hrow⟩ := parabolas_ok hbase
  have hdd : d < days data.length := by unfold days; omega
  have h24 : ∀ row ∈ base, row.length = 24 := by
    intro row hr
    obtain ⟨d, hd, rfl⟩ := List.mem_iff_getElem.mp hr
    obtain ⟨a, b, v, top, -, -, hb⟩ := hrow d (by omega)
    rw [List.getElem?_eq_getElem hd] at hb
    rw [Option.some.inj hb]
    simp
  obtain ⟨hlen, hval⟩ := noisePv_ok hpv h24
  obtain ⟨a, b, v, top, hdk, hpk, hrw⟩ := hrow d hdd
  obtain ⟨k1, k2, k3⟩ := dawnDusk_ok hdk
  obtain ⟨ha, hb, hab⟩ := dawnDusk_dark hdk
  obtain ⟨c1, c2⟩ := hc d ((a + b) / 2)
  have hfix : fixBounds (curves d ((a + b) / 2)).1 (curves d ((a + b) / 2)).2 = curves d ((a + b) / 2) := by
    unfold fixBounds
    rw [if_neg (not_lt.mpr c1)]
  rw [hfix] at hpk
  obtain ⟨v', e, h3, h4⟩ := peak_uniform (b := curves d ((a + b) / 2)) (top := top) c2 (hu d)
  rw [hpk] at e
  obtain rfl := Except.ok.inj e
  refine ⟨a, b, v, k1, by omega, ha, hb, ?_, h3, h4, ?_⟩
  · intro h h1 h2 h0
    have := k3 h (by omega) h0
    omega
  · intro h hh
    have := hval d h _ (parabola a b v (h : ℚ)) hh hrw (by
      rw [List.getElem?_map, List.getElem?_range hh]; rfl)
    rw [this]
    have hnn := (parabola_bounds (h := (h : ℚ)) k1 (by linarith : 0 ≤ v)).1
    congr 1
    simp only [Option.getD_none, zero_mul, add_zero]
    rw [max_eq_right hnn]
    unfold parabola
    by_cases hin : a ≤ h ∧ h ≤ b
    · rw [if_pos hin, if_neg]
      · have hne : ((b : ℚ) - a) ≠ 0 := by
          have : (a : ℚ) < b := by exact_mod_cast (by omega : a < b)
          linarith
        field_simp
        try ring
      · push Not
        exact ⟨by exact_mod_cast hin.1, by exact_mod_cast hin.2⟩
    · rw [if_neg hin, if_pos]
      rw [not_and_or, not_le, not_le] at hin
      rcases hin with q | q
      · left; exact_mod_cast q
      · right; exact_mod_cast q

end

/-- C90: for a microgrid with whole days of data, non-negative load, daylight and a binary status of the grid, forecasts and any number
    of samples can be drawn, whatever the draws; every sample is good data for the planner: it has a row for every step of the
    first year, no negative load or PV, no PV where the data has none, and the status is 0 or 1. Its columns are the ones sampled from
    the forecasts. -/
theorem C90_samples {st : Statistics} {g : Legacy.Grid} {a : Args} (hsd : ∀ l, 0 ≤ st.sd l)
    (hc : ∀ d t, (st.curves d t).1 ≤ (st.curves d t).2) (hn : a.noise = .uniform 0 1) (hp : a.push = none)
    (hr : ∀ r, a.ratio = some r → 0 ≤ r) (hsc : 0 ≤ a.scale)
    (hload : ∀ x ∈ g.loads, 0 ≤ x) (hne : g.loads ≠ []) (hlen : g.pvs.length = g.loads.length) (hday : Daylight g.pvs)
    (hgrid : g.arch.grid = true → (∀ s ∈ g.statuses, s = 0 ∨ s = 1) ∧ g.loads.length ≤ g.statuses.length)
    (w : Draws) (hw : ∀ d, 0 ≤ w.peak d ∧ w.peak d < 1) (k : Nat) (w' : Nat → Draws) :
    ∃ f frames, createForecasts st a g w = .ok f ∧ sampleFrames st a g f k w' = .ok frames ∧ frames.length = k ∧
      (∀ s ∈ frames, MPC.GoodFrame g s ∧ s.length = min 8760 g.loads.length ∧
        ∀ (i : Nat) (r : MPC.DataRow), s[i]? = some r → g.pvs[i]? = some 0 → r.pv = 0) ∧
      ∀ (i : Nat) (s : MPC.Frame), frames[i]? = some s → ∃ pv grid, sampleLoad st.sd f.load a.scale (w' i).load = .ok (s.map (·.load)) ∧
        noisePv f.base a.ratio (w' i).pv = .ok pv ∧ s.map (·.pv) = pv.take s.length ∧
        DrawnLike f.grid (w' i).grid grid ∧ s.map (·.grid) = grid.take s.length := by
  have hpos : 0 < g.loads.length := List.length_pos_iff.mpr hne
  have h24 : 24 ∣ g.loads.length := by rw [← hlen]; exact hday.whole
  obtain ⟨base, pv, hbase, htot, hpv, -⟩ := C90_pv_total (ratio := a.ratio) (z := w.pv) hday hc hw hr
  obtain ⟨v, load, hld, hv, hll, hln, -⟩ := C90_load (z := w.load) hsd hsc hne hload h24
  have hbin : ∀ l : List ℚ, (∀ s ∈ l, s = 0 ∨ s = 1) → ∀ x ∈ l, x = 1 ∨ x = 0 := fun l hl x hx => (hl x hx).symm
  obtain ⟨grid, hgr, hgb, hgl⟩ : ∃ grid, (if g.arch.grid then sampleGrid .markov g.statuses w.grid
      else .ok (List.replicate g.loads.length 0)) = .ok grid ∧ (∀ x ∈ grid, x = 1 ∨ x = 0) ∧ g.loads.length ≤ grid.length := by
    cases hg : g.arch.grid with
    | false => exact ⟨List.replicate g.loads.length 0, by simp, by simp, by simp⟩
    | true =>
      obtain ⟨h1, h2⟩ := hgrid hg
      obtain ⟨s, hs, dl⟩ := C90_grid (hbin _ h1) (by omega) w.grid
      refine ⟨s, by simpa using hs, ?_, by rw [dl.length]; exact h2⟩
      intro x hx
      obtain ⟨i, hi, rfl⟩ := List.mem_iff_getElem.mp hx
      have : s[i]? = some s[i] := List.getElem?_eq_getElem hi
      cases i with
      | zero => rw [dl.first] at this; rw [← Option.some.inj this]; split <;> simp
      | succ i => rw [dl.next i (by omega)] at this; rw [← Option.some.inj this]; split <;> simp
  have hf : createForecasts st a g w = .ok ⟨base, pv, load, grid⟩ := by
    unfold createForecasts
    rw [if_neg]
    · rw [hn, hp]
      simp only [hbase, hpv, hld, hgr]
    · rintro ⟨h1, h2⟩
      exact h2 (hbin _ (hgrid h1).1)
  have hframe : ∀ w : Draws, ∃ s, sampleFrame st a g ⟨base, pv, load, grid⟩ w = .ok s ∧ MPC.GoodFrame g s ∧
      s.length = min 8760 g.loads.length ∧ (∀ (i : Nat) (r : MPC.DataRow), s[i]? = some r → g.pvs[i]? = some 0 → r.pv = 0) ∧
      ∃ pv grid', sampleLoad st.sd load a.scale w.load = .ok (s.map (·.load)) ∧ noisePv base a.ratio w.pv = .ok pv ∧
        s.map (·.pv) = pv.take s.length ∧ DrawnLike grid w.grid grid' ∧ s.map (·.grid) = grid'.take s.length := by
    intro w
    obtain ⟨pv', hpv'⟩ := htot w.pv
    obtain ⟨hpl, hpn, hpd⟩ := C90_pv hbase hpv'
    obtain ⟨v', load', hld', -, hll', hln', -⟩ := C90_load (data := load) (z := w.load) hsd hsc
      (by intro h0; rw [h0] at hll; simp at hll; omega) hln (by rw [hll]; omega)
    obtain ⟨grid', hgr', dl⟩ := C90_grid hgb (by omega) w.grid
    have hgb' : ∀ x ∈ grid', x = 0 ∨ x = 1 := by
      intro x hx
      obtain ⟨i, hi, rfl⟩ := List.mem_iff_getElem.mp hx
      have : grid'[i]? = some grid'[i] := List.getElem?_eq_getElem hi
      cases i with
      | zero => rw [dl.first] at this; rw [← Option.some.inj this]; split <;> simp
      | succ i => rw [dl.next i (by omega)] at this; rw [← Option.some.inj this]; split <;> simp
    have hslen : (((load'.zip (pv'.zip grid')).map fun r => (⟨r.1, r.2.1, r.2.2⟩ : MPC.DataRow)).take
        (min g.pvs.length (min (load.take 8760).length grid.length))).length = min 8760 g.loads.length := by
      simp only [List.length_take, List.length_map, List.length_zip, dl.length, hpl, hll', hll, hlen]
      omega
    have hcol : ∀ (i : Nat) (r : MPC.DataRow), (((load'.zip (pv'.zip grid')).map fun r => (⟨r.1, r.2.1, r.2.2⟩ : MPC.DataRow)).take
        (min g.pvs.length (min (load.take 8760).length grid.length)))[i]? = some r →
        load'[i]? = some r.load ∧ pv'[i]? = some r.pv ∧ grid'[i]? = some r.grid := by
      intro i r hr
      have hi := (List.getElem?_eq_some_iff.mp hr).1
      rw [hslen] at hi
      have e1 : load'[i]? = some (load'[i]'(by omega)) := List.getElem?_eq_getElem _
      have e2 : pv'[i]? = some (pv'[i]'(by omega)) := List.getElem?_eq_getElem _
      have e3 : grid'[i]? = some (grid'[i]'(by rw [dl.length]; omega)) := List.getElem?_eq_getElem _
      have e4 : (load'.zip (pv'.zip grid'))[i]? = some (load'[i]'(by omega), pv'[i]'(by omega), grid'[i]'(by rw [dl.length]; omega)) :=
        List.getElem?_zip_eq_some.mpr ⟨e1, List.getElem?_zip_eq_some.mpr ⟨e2, e3⟩⟩
      rw [List.getElem?_take_of_lt (by rw [List.length_take]; omega), List.getElem?_map, e4] at hr
      cases hr
      exact ⟨e1, e2, e3⟩
    generalize hsdef : (((load'.zip (pv'.zip grid')).map fun r => (⟨r.1, r.2.1, r.2.2⟩ : MPC.DataRow)).take
        (min g.pvs.length (min (load.take 8760).length grid.length))) = s at hslen hcol
    refine ⟨s, by simp only [sampleFrame, hpv', hld', hgr', hsdef], ?_, hslen, ?_, pv', grid', ?_, hpv', ?_, dl, ?_⟩
    · have hmem : ∀ r ∈ s, r.load ∈ load' ∧ r.pv ∈ pv' ∧ r.grid ∈ grid' := by
        intro r hr
        obtain ⟨i, hi⟩ := List.getElem?_of_mem hr
        obtain ⟨q1, q2, q3⟩ := hcol i r hi
        exact ⟨List.mem_of_getElem? q1, List.mem_of_getElem? q2, List.mem_of_getElem? q3⟩
      refine ⟨?_, fun r hr => hln' _ (hmem r hr).1, fun r hr => hpn _ (hmem r hr).2.1, fun r hr => hgb' _ (hmem r hr).2.2⟩
      unfold Legacy.Grid.dataLength
      rw [hlen, min_self, hslen]
      exact min_le_right _ _
    · intro i r hr h0
      have := (hcol i r hr).2.1
      rw [hpd i h0] at this
      exact (Option.some.inj this).symm
    · rw [hld']
      congr 1
      have := column_eq (f := fun r : MPC.DataRow => r.load) fun i r hr => (hcol i r hr).1
      rw [this, List.take_of_length_le (by omega)]
    · exact column_eq fun i r hr => (hcol i r hr).2.1
    · exact column_eq fun i r hr => (hcol i r hr).2.2
  obtain ⟨frames, hfr⟩ := mapM_total (l := List.range k) (f := fun i => sampleFrame st a g ⟨base, pv, load, grid⟩ (w' i))
    fun i _ => by
      obtain ⟨s, hs, -⟩ := hframe (w' i)
      exact ⟨s, hs⟩
  obtain ⟨hl1, hl2⟩ := mapM_ok hfr
  have hall : ∀ (i : Nat) (s : MPC.Frame), frames[i]? = some s → sampleFrame st a g ⟨base, pv, load, grid⟩ (w' i) = .ok s := by
    intro i s hs
    have hi := (List.getElem?_eq_some_iff.mp hs).1
    obtain ⟨b, h1, h2⟩ := hl2 i i (by
      rw [List.length_range] at hl1
      rw [List.getElem?_range (by omega)])
    rw [hs] at h1
    obtain rfl := Option.some.inj h1
    exact h2
  refine ⟨_, frames, hf, hfr, by simpa using hl1, ?_, ?_⟩
  · intro s hs
    obtain ⟨i, hi⟩ := List.getElem?_of_mem hs
    obtain ⟨s', hs', h3, h4, h5, -⟩ := hframe (w' i)
    rw [hall i s hi] at hs'
    obtain rfl := Except.ok.inj hs'
    exact ⟨h3, h4, h5⟩
  · intro i s hi
    obtain ⟨s', hs', -, -, -, h6⟩ := hframe (w' i)
    rw [hall i s hi] at hs'
    obtain rfl := Except.ok.inj hs'
    exact h6

/-- C79: on the samples that it draws itself (C90), the sample average approximation makes its steps as in C79: it either raises the
    `AssertionError` of C79 or returns a record for every step, with the state of charge in its window.
    Missing: the runs that raise `AssertionError` (`C79_step_partial`). -/
theorem C79_sampled_partial {solve : MPC.Solver} {select : MPC.Selector} {st : Statistics} {g : Legacy.Grid} {a : Args} {p : ℚ}
    (hs : solve.Sound) (hsel : select.Sound) (h : MPC.Usual g) (h0 : 0 ≤ p) (h1 : p < 1)
    (hsd : ∀ l, 0 ≤ st.sd l) (hc : ∀ d t, (st.curves d t).1 ≤ (st.curves d t).2) (hn : a.noise = .uniform 0 1) (hp : a.push = none)
    (hr : ∀ r, a.ratio = some r → 0 ≤ r) (hsc : 0 ≤ a.scale) (hne : g.loads ≠ []) (hlen : g.pvs.length = g.loads.length)
    (hday : Daylight g.pvs) (w : Draws) (hw : ∀ d, 0 ≤ w.peak d ∧ w.peak d < 1) {k : Nat} (hk : 0 < k) (w' : Nat → Draws) {n : Nat}
    (hsteps : n + g.horizon ≤ min 8760 g.loads.length) (hst : g.states ≠ [])
    (hwin : ∀ row ∈ g.states, g.params.socMin ≤ row.soc ∧ row.soc ≤ g.params.socMax) :
    ∃ f frames, createForecasts st a g w = .ok f ∧ sampleFrames st a g f k w' = .ok frames ∧ frames.length = k ∧
      ((MPC.runGroup solve select g frames (some n) p).2 = .error .assertion ∨
        ∃ frames' b, MPC.runGroup solve select g frames (some n) p = (frames', .ok b) ∧
          b.states.length = g.states.length + n ∧ b.costs.length = g.costs.length + n ∧
          ∀ row ∈ b.states, g.params.socMin ≤ row.soc ∧ row.soc ≤ g.params.socMax) := by
  obtain ⟨f, frames, h2, h3, h4, h5, -⟩ := C90_samples hsd hc hn hp hr hsc h.loads hne hlen hday (fun hg => ⟨h.statuses, by
    have := (h.series hg).1
    unfold Legacy.Grid.dataLength at this
    rw [hlen, min_self] at this
    exact this⟩) w hw k w'
  refine ⟨f, frames, h2, h3, h4, ?_⟩
  rcases MPC.C79_run_partial hs hsel h h0 h1 (frames := frames) (by intro e; rw [e] at h4; simp at h4; omega) (n := n)
    (fun s hs => ⟨(h5 s hs).1, by rw [(h5 s hs).2.1]; exact hsteps⟩) hst hwin with ⟨e, -⟩ | ⟨frames', b, e, -, e1, e2, e3⟩
  · exact .inl e
  · exact .inr ⟨frames', b, e, e1, e2, e3⟩

/-- A day of light. -/
def dayPv : List ℚ := [0, 0, 0, 0, 0, 0, 5, 15, 30, 45, 55, 60, 60, 55, 45, 30, 15, 5, 0, 0, 0, 0, 0, 0]

/-- Two days of a grid that fails now and then. -/
def dayGrid : Legacy.Grid :=
  { Legacy.demo true with
    horizon := 2, loads := List.replicate 24 60 ++ List.replicate 24 40, pvs := dayPv ++ dayPv
    statuses := List.replicate 20 1 ++ List.replicate 3 0 ++ List.replicate 25 1
    importPrices := List.replicate 48 (1/5), exportPrices := List.replicate 48 0, co2s := List.replicate 48 (1/4) }

theorem dayGrid_usual : MPC.Usual dayGrid := by
  have hp : dayGrid.params = Legacy.demoParams := by decide +kernel
  exact ⟨by rw [hp]; exact Legacy.demoParams_good, by decide +kernel, fun _ => by decide +kernel, by decide +kernel, by decide +kernel,
    by decide +kernel, by decide +kernel, by decide +kernel⟩

theorem dayPv_daylight : Daylight dayGrid.pvs := by
  refine ⟨by decide +kernel, ?_, ?_⟩
  · intro d hd
    have h48 : dayGrid.pvs.length = 48 := by decide +kernel
    have : d = 0 ∨ d = 1 := by omega
    rcases this with rfl | rfl <;> decide +kernel
  · intro d hd
    have h48 : dayGrid.pvs.length = 48 := by decide +kernel
    have : d = 0 ∨ d = 1 := by omega
    rcases this with rfl | rfl <;> exact ⟨12, by decide, by decide +kernel⟩

/-- Statistics for it: a spread of 5, and peaks between 50 and 70. -/
def dayStats : Statistics := ⟨fun _ => 5, fun _ _ => (50, 70)⟩

/-- Draws in the middle, with some noise. -/
def dayDraws : Draws := ⟨fun _ => 1/2, fun d h => if (d + h) % 2 = 0 then 1 else -1, fun _ h => if h = 3 then 2 else 0, fun i => if i % 7 = 0 then 1/50 else 1/2⟩

/-- Non-vacuity of `C90_grid`, `C90_grid_naive`, `C90_grid_support`: outages of two and one hours out of nine, and a draw of them. -/
example : sampleGrid .markov [1, 1, 0, 0, 1, 1, 0, 1, 1] (fun i => if i % 3 = 2 then 1/10 else 6/10) =
      .ok [1, 1, 0, 1, 1, 0, 1, 1, 0] ∧ freq [1, 1, 0, 0, 1, 1, 0, 1, 1] 1 0 = 2/5 ∧ freq [1, 1, 0, 0, 1, 1, 0, 1, 1] 0 0 = 1/3 ∧
    (sampleGrid .naive [1, 1, 0, 0, 1, 1, 0, 1, 1] (fun i => if i % 3 = 2 then 1/10 else 6/10)).toOption =
      some [1, 1, 0, 1, 1, 0, 1, 1, 0] := by
  refine ⟨?_, by decide +kernel, by decide +kernel, by decide +kernel⟩
  have h : (sampleGrid .markov [1, 1, 0, 0, 1, 1, 0, 1, 1] (fun i => if i % 3 = 2 then 1/10 else 6/10)).toOption =
      some [1, 1, 0, 1, 1, 0, 1, 1, 0] := by decide +kernel
  revert h
  cases sampleGrid .markov [1, 1, 0, 0, 1, 1, 0, 1, 1] (fun i => if i % 3 = 2 then 1/10 else 6/10) with
  | error e => intro h; cases h
  | ok s => intro h; rw [Option.some.inj h]

/-- Non-vacuity of `C90_no_outage` and `C90_grid_refused`. -/
example : (sampleGrid .markov [1, 1, 1] fun _ => 1/2).toOption = some [1, 1, 1] ∧
    (sampleGrid .markov [1] fun _ => 1/2).toOption = none ∧ (sampleGrid .naive [1, 1/2] fun _ => 1/2).toOption = none := by decide +kernel

/-- Non-vacuity of `C90_load` and `C90_load_mean`: a negative draw becomes the least value of the data. -/
example : ((sampleLoad dayStats.sd (dayGrid.loads ++ List.replicate 120 40 ++ List.replicate 24 100) 1
      fun d h => if d = 0 ∧ h = 1 then -17 else if d = 0 ∧ h = 2 then 1 else 0).toOption.map fun l => (l.take 4, l.length)) =
    some ([80, 40, 85, 80], 192) := by decide +kernel

/-- Non-vacuity of `C90_pv` and `C90_pv_total`. -/
example : ((parabolas dayStats.curves (.uniform 0 1) none dayGrid.pvs dayDraws.peak).toOption.bind fun base =>
      (noisePv base (some (1/20)) dayDraws.pv).toOption.map fun pv => (pv.length, pv[5]?, pv[6]?, pv[7]?)) =
    some (48, some 0, some (3024/169), some (5016/169)) := by decide +kernel

/-- Non-vacuity of `C90_pv_shape`: dawn at 5, dusk at 18 and a peak of 60. -/
example : ((parabolas dayStats.curves (.uniform 0 1) none dayGrid.pvs dayDraws.peak).toOption.bind fun base =>
      (noisePv base none dayDraws.pv).toOption.map fun pv => (pv.drop 29).take 3) =
    some [0, 4 * 60 * (1 * 12) / 13 ^ 2, 4 * 60 * (2 * 11) / 13 ^ 2] := by decide +kernel

/-- Non-vacuity of `C90_samples`. -/
example : ∃ f frames, createForecasts dayStats {} dayGrid dayDraws = .ok f ∧
    sampleFrames dayStats {} dayGrid f 3 (fun _ => dayDraws) = .ok frames ∧ frames.length = 3 ∧
    ∀ s ∈ frames, MPC.GoodFrame dayGrid s ∧ s.length = 48 := by
  have h48 : min 8760 dayGrid.loads.length = 48 := by decide +kernel
  obtain ⟨f, frames, h1, h2, h3, h4, -⟩ := C90_samples (st := dayStats) (g := dayGrid) (a := {}) (fun _ => by show (0 : ℚ) ≤ 5; norm_num)
    (fun _ _ => by show (50 : ℚ) ≤ 70; norm_num) rfl rfl (by rintro r h; cases h; norm_num) (by norm_num) dayGrid_usual.loads
    (by decide +kernel) (by decide +kernel) dayPv_daylight (fun _ => ⟨dayGrid_usual.statuses, by decide +kernel⟩) dayDraws
    (fun _ => by show (0 : ℚ) ≤ 1/2 ∧ (1/2 : ℚ) < 1; norm_num) 3 fun _ => dayDraws
  exact ⟨f, frames, h1, h2, h3, fun s hs => ⟨(h4 s hs).1, by rw [(h4 s hs).2.1, h48]⟩⟩

/-- Non-vacuity of `C79_sampled_partial`. -/
example : ∃ solve select, MPC.Solver.Sound solve ∧ MPC.Selector.Sound select ∧ ∃ f frames,
    createForecasts dayStats {} dayGrid dayDraws = .ok f ∧ sampleFrames dayStats {} dayGrid f 3 (fun _ => dayDraws) = .ok frames ∧
    ((MPC.runGroup solve select dayGrid frames (some 40) (1/2)).2 = .error .assertion ∨
      ∃ frames' b, MPC.runGroup solve select dayGrid frames (some 40) (1/2) = (frames', .ok b) ∧ b.states.length = 41) := by
  obtain ⟨solve, hs⟩ := MPC.exists_sound
  obtain ⟨select, hsel⟩ := MPC.exists_selector
  have h1 : dayGrid.states.length = 1 := by decide +kernel
  obtain ⟨f, frames, h2, h3, -, h4⟩ := C79_sampled_partial (p := 1/2) (st := dayStats) (a := {}) hs hsel dayGrid_usual (by norm_num)
    (by norm_num) (fun _ => by show (0 : ℚ) ≤ 5; norm_num)
    (fun _ _ => by show (50 : ℚ) ≤ 70; norm_num) rfl rfl (by rintro r h; cases h; norm_num) (by norm_num)
    (by decide +kernel) (by decide +kernel) dayPv_daylight dayDraws
    (fun _ => by show (0 : ℚ) ≤ 1/2 ∧ (1/2 : ℚ) < 1; norm_num) (k := 3) (by decide) (fun _ => dayDraws) (n := 40) (by decide +kernel)
    (by decide +kernel) (by decide +kernel)
  refine ⟨solve, select, hs, hsel, f, frames, h2, h3, ?_⟩
  rcases h4 with h | ⟨frames', b, h, h5, -⟩
  · exact .inl h
  · exact .inr ⟨frames', b, h, by rw [h5, h1]⟩

end Pymgrid.Noisy
