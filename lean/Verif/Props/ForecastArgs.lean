import Mathlib.Algebra.Order.Field.Basic
import Mathlib.Tactic.FieldSimp
import Mathlib.Tactic.Linarith
import Mathlib.Tactic.Ring
import Mathlib.Data.List.Basic
import Verif.Model.ForecastArgs

set_option autoImplicit false

/-!
# C113: the error of a forecast, and C114: parameters to try
-/

namespace Pymgrid.Validation

/-- Rows that count: the data are not 0. -/
def counted (rows : List (ℚ × ℚ)) : List (ℚ × ℚ) := rows.filter fun r => r.1 ≠ 0

private theorem zip_eq {a f : List ℚ} : a.zipWith ratio f = (a.zip f).map fun r => ratio r.1 r.2 := by
  rw [List.zip, List.map_zipWith]

private theorem mem_nan {a f : ℚ} : ratio a f = .nan ↔ a = 0 ∧ f = 0 := by
  unfold ratio
  by_cases h : a = 0
  · subst h; by_cases h' : f = 0 <;> simp [h']
  · simp [h]

private theorem mem_inf {a f : ℚ} : ratio a f = .inf ↔ a = 0 ∧ f ≠ 0 := by
  unfold ratio
  by_cases h : a = 0
  · subst h; by_cases h' : f = 0 <;> simp [h']
  · simp [h]

private theorem kept_fin {rows : List (ℚ × ℚ)} (h : ∀ r ∈ rows, r.1 = 0 → r.2 = 0) :
    ((rows.map fun r => ratio r.1 r.2).filter (· != .nan)) = (counted rows).map fun r => .fin |(r.1 - r.2) / r.1| := by
  induction rows with
  | nil => rfl
  | cons r rows ih =>
    have ih := ih fun r' hr => h r' (List.mem_cons_of_mem _ hr)
    have hr := h r List.mem_cons_self
    by_cases h0 : r.1 = 0
    · have : ratio r.1 r.2 = .nan := mem_nan.mpr ⟨h0, hr h0⟩
      simp only [List.map_cons, this]
      rw [List.filter_cons_of_neg (by decide), ih, counted, counted, List.filter_cons_of_neg (by simpa using h0)]
    · have : ratio r.1 r.2 = .fin |(r.1 - r.2) / r.1| := by unfold ratio; rw [if_neg h0]
      simp only [List.map_cons, this]
      rw [List.filter_cons_of_pos (by simp), ih, counted, counted, List.filter_cons_of_pos (by simpa using h0), List.map_cons]

private theorem finite_fin (l : List (ℚ × ℚ)) : finite (l.map fun r => Quot.fin |(r.1 - r.2) / r.1|) = l.map fun r => |(r.1 - r.2) / r.1| := by
  induction l with
  | nil => rfl
  | cons r l ih => simp only [List.map_cons, finite, ih]

private theorem mean_rows (rows : List (ℚ × ℚ)) :
    mean (rows.map fun r => ratio r.1 r.2) =
      if ∃ r ∈ rows, r.1 = 0 ∧ r.2 ≠ 0 then .inf
      else if counted rows = [] then .nan
      else .fin (((counted rows).map fun r => |r.1 - r.2| / |r.1|).sum / (counted rows).length) := by
  unfold mean
  by_cases h : ∃ r ∈ rows, r.1 = 0 ∧ r.2 ≠ 0
  · rw [if_pos h]
    obtain ⟨r, hr, h0⟩ := h
    have hm : Quot.inf ∈ (rows.map fun r => ratio r.1 r.2).filter (· != .nan) :=
      List.mem_filter.mpr ⟨List.mem_map.mpr ⟨r, hr, mem_inf.mpr h0⟩, by decide⟩
    simp only
    rw [if_neg (List.ne_nil_of_mem hm), if_pos (by simpa using hm)]
  · rw [if_neg h]
    have hk := kept_fin (rows := rows) fun r hr h0 => by
      by_contra h1
      exact h ⟨r, hr, h0, h1⟩
    simp only [hk, List.map_eq_nil_iff, finite_fin, List.length_map]
    split
    · rfl
    · rw [if_neg (by simp)]
      simp only [abs_div]

/-- C113: the error of a forecast of the same length (which is not 1) is infinite if something is forecast where there is nothing,
    nan if there is nothing but zeros, and otherwise the mean of the relative errors where the data are not 0. -/
theorem C113_mape (actual forecast : List ℚ) (h : actual.length = forecast.length) (h1 : actual.length ≠ 1) :
    mape actual forecast = .ok (
      if ∃ r ∈ actual.zip forecast, r.1 = 0 ∧ r.2 ≠ 0 then .inf
      else if counted (actual.zip forecast) = [] then .nan
      else .fin (((counted (actual.zip forecast)).map fun r => |r.1 - r.2| / |r.1|).sum / (counted (actual.zip forecast)).length)) := by
  unfold mape
  rw [if_neg h1, if_neg (h ▸ h1), if_neg (not_not.mpr h), zip_eq, mean_rows]

/-- C113: series of one entry and series of different lengths are refused. -/
theorem C113_refused (actual forecast : List ℚ) :
    (∃ e, mape actual forecast = .error e) ↔ actual.length = 1 ∨ actual.length ≠ forecast.length := by
  unfold mape
  by_cases h1 : actual.length = 1
  · simp [h1]
  · by_cases h2 : forecast.length = 1
    · have : actual.length ≠ forecast.length := by omega
      simp [h1, h2]
    · by_cases h3 : actual.length = forecast.length
      · simp [h2, h3]
      · simp [h1, h2, h3]

private theorem sum_nonneg {l : List ℚ} (h : ∀ x ∈ l, 0 ≤ x) : 0 ≤ l.sum ∧ (l.sum = 0 → ∀ x ∈ l, x = 0) := by
  induction l with
  | nil => simp
  | cons x l ih =>
    obtain ⟨h1, h2⟩ := ih fun y hy => h y (List.mem_cons_of_mem _ hy)
    have hx := h x List.mem_cons_self
    refine ⟨by rw [List.sum_cons]; linarith, fun hs => ?_⟩
    rw [List.sum_cons] at hs
    rw [List.forall_mem_cons]
    exact ⟨by linarith, h2 (by linarith)⟩

/-- C113: the error is 0 if and only if the forecast is the data (and not everything is 0); it is never negative. -/
theorem C113_zero (actual forecast : List ℚ) (h : actual.length = forecast.length) (h1 : actual.length ≠ 1) :
    (mape actual forecast = .ok (.fin 0) ↔ actual = forecast ∧ ∃ x ∈ actual, x ≠ 0) ∧
    ∀ q, mape actual forecast = .ok (.fin q) → 0 ≤ q := by
  rw [C113_mape actual forecast h h1]
  have nn : ∀ x ∈ (counted (actual.zip forecast)).map fun r => |r.1 - r.2| / |r.1|, 0 ≤ x := by
    intro x hx
    obtain ⟨r, -, rfl⟩ := List.mem_map.mp hx
    positivity
  refine ⟨⟨fun hm => ?_, fun ⟨he, x, hx, h0⟩ => ?_⟩, fun q hq => ?_⟩
  · by_cases hi : ∃ r ∈ actual.zip forecast, r.1 = 0 ∧ r.2 ≠ 0
    · rw [if_pos hi] at hm; simp at hm
    · rw [if_neg hi] at hm
      by_cases hc : counted (actual.zip forecast) = []
      · rw [if_pos hc] at hm; simp at hm
      · rw [if_neg hc] at hm
        simp only [Except.ok.injEq, Quot.fin.injEq, div_eq_zero_iff, Nat.cast_eq_zero, List.length_eq_zero_iff, hc, or_false] at hm
        have hz := (sum_nonneg nn).2 hm
        have same : ∀ r ∈ actual.zip forecast, r.1 = r.2 := by
          intro r hr
          by_cases h0 : r.1 = 0
          · by_contra hn
            exact hi ⟨r, hr, h0, fun h2 => hn (h0.trans h2.symm)⟩
          · have := hz _ (List.mem_map.mpr ⟨r, List.mem_filter.mpr ⟨hr, by simpa using h0⟩, rfl⟩)
            rw [div_eq_zero_iff, abs_eq_zero, abs_eq_zero, or_iff_left h0] at this
            linarith
        refine ⟨?_, ?_⟩
        · refine List.ext_getElem h fun i hi1 hi2 => ?_
          have := same (actual[i], forecast[i]) (by
            rw [List.mem_iff_getElem]
            exact ⟨i, by simp [hi1, hi2], by simp⟩)
          exact this
        · obtain ⟨r, hr⟩ := List.exists_mem_of_ne_nil _ hc
          obtain ⟨hr1, hr2⟩ := List.mem_filter.mp hr
          exact ⟨r.1, (List.of_mem_zip hr1).1, by simpa using hr2⟩
  · subst he
    have same : ∀ r ∈ actual.zip actual, r.1 = r.2 := by
      intro r hr
      obtain ⟨i, hi, rfl⟩ := List.mem_iff_getElem.mp hr
      simp
    rw [if_neg (fun ⟨r, hr, a, b⟩ => b (same r hr ▸ a))]
    have hc : counted (actual.zip actual) ≠ [] := by
      obtain ⟨i, hi, rfl⟩ := List.mem_iff_getElem.mp hx
      refine List.ne_nil_of_mem (a := (actual[i], actual[i])) (List.mem_filter.mpr ⟨?_, by simpa using h0⟩)
      rw [List.mem_iff_getElem]
      exact ⟨i, by simpa using hi, by simp⟩
    rw [if_neg hc]
    have : ((counted (actual.zip actual)).map fun r => |r.1 - r.2| / |r.1|).sum = 0 := by
      refine List.sum_eq_zero fun x hx => ?_
      obtain ⟨r, hr, rfl⟩ := List.mem_map.mp hx
      rw [same r (List.mem_filter.mp hr).1]; simp
    rw [this, zero_div]
  · split at hq
    · simp at hq
    · split at hq
      · simp at hq
      · simp only [Except.ok.injEq, Quot.fin.injEq] at hq
        rw [← hq]
        exact div_nonneg (sum_nonneg nn).1 (by positivity)

/-- C113: the unit of the data does not matter. -/
theorem C113_unit (actual forecast : List ℚ) {c : ℚ} (hc : c ≠ 0) :
    mape (actual.map (c * ·)) (forecast.map (c * ·)) = mape actual forecast := by
  have hr : ∀ a f : ℚ, ratio (c * a) (c * f) = ratio a f := by
    intro a f
    unfold ratio
    by_cases ha : a = 0
    · subst ha
      simp [hc]
    · rw [if_neg (mul_ne_zero hc ha), if_neg ha, ← mul_sub, mul_div_mul_left _ _ hc]
  unfold mape
  simp only [List.length_map, List.zipWith_map, hr]

/-- Non-vacuity: PV with a night; a forecast in the night makes the error infinite. -/
example : mape [0, 4, 2, 0] [0, 5, 1, 0] = .ok (.fin (3/8)) ∧ mape [0, 4, 2, 0] [1, 5, 1, 0] = .ok .inf ∧
    mape [0, 0] [0, 0] = .ok .nan ∧ mape [0, 4] [0, 4] = .ok (.fin 0) ∧ mape [4] [4] = .error .type := by
  decide +kernel

private theorem linspace_mem {lo hi x : ℚ} {n : Nat} (h : x ∈ linspace lo hi n) :
    ∃ t : ℚ, 0 ≤ t ∧ t ≤ 1 ∧ x = lo + t * (hi - lo) := by
  unfold linspace at h
  obtain ⟨i, hi', rfl⟩ := List.mem_map.mp h
  have hi' := List.mem_range.mp hi'
  by_cases h1 : n = 1
  · exact ⟨0, le_refl _, by norm_num, by rw [if_pos h1]; ring⟩
  · rw [if_neg h1]
    have hn : (1 : ℚ) < n := by exact_mod_cast (by omega : 1 < n)
    have hpos : (0 : ℚ) < n - 1 := by linarith
    refine ⟨i / ((n : ℚ) - 1), by positivity, ?_, by ring⟩
    rw [div_le_one hpos]
    have : (i : ℚ) + 1 ≤ n := by exact_mod_cast hi'
    linarith

private theorem linspace_between {lo hi x : ℚ} {n : Nat} (h : x ∈ linspace lo hi n) (hl : lo ≤ hi) : lo ≤ x ∧ x ≤ hi := by
  obtain ⟨t, h0, h1, rfl⟩ := linspace_mem h
  constructor <;> nlinarith

private theorem linspace_down {lo hi x : ℚ} {n : Nat} (h : x ∈ linspace lo hi n) (hl : hi ≤ lo) : hi ≤ x ∧ x ≤ lo := by
  obtain ⟨t, h0, h1, rfl⟩ := linspace_mem h
  constructor <;> nlinarith

private theorem linspace_length (lo hi : ℚ) (n : Nat) : (linspace lo hi n).length = n := by simp [linspace]

private theorem mem_sets {noise std load peak individual : Nat} {maxScale maxStd : ℚ} {p : PvArgs} {v : ℚ} :
    (p, v) ∈ paramSets noise std load peak individual maxScale maxStd ↔
      p.individual ∈ linspace 0 1 individual ∧ p.peak ∈ linspace 0 1 peak ∧ p.std ∈ linspace 0 maxStd std ∧
      p.lower ∈ linspace 0 1 noise ∧ p.upper ∈ linspace 1 p.lower noise ∧ p.upper ≥ p.lower ∧ v ∈ linspace 0 maxScale load := by
  obtain ⟨i, q, s, l, u⟩ := p
  simp only [paramSets, pvParameters, loadParameters, List.mem_flatMap, List.mem_filterMap, List.mem_map, Prod.mk.injEq,
    Option.ite_none_right_eq_some, Option.some.injEq]
  constructor
  · rintro ⟨p, ⟨i', hi, p', hp, s', hs, l', hl, u', hu, hle, rfl⟩, v', hv, hv', rfl⟩
    cases hv'
    exact ⟨hi, hp, hs, hl, hu, hle, hv⟩
  · rintro ⟨hi, hp, hs, hl, hu, hle, hv⟩
    exact ⟨_, ⟨i, hi, q, hp, s, hs, l, hl, u, hu, hle, rfl⟩, v, hv, rfl, rfl⟩

variable {noise std load peak individual : Nat} {maxScale maxStd : ℚ}

/-- C114: every set of parameters is valid: ratios are between 0 and 1, the range of the noise is not empty and lies between 0 and 1,
    and deviations are at most the maximum. -/
theorem C114_valid (h1 : 0 ≤ maxScale) (h2 : 0 ≤ maxStd) {p : PvArgs} {v : ℚ}
    (h : (p, v) ∈ paramSets noise std load peak individual maxScale maxStd) :
    (0 ≤ p.individual ∧ p.individual ≤ 1) ∧ (0 ≤ p.peak ∧ p.peak ≤ 1) ∧ (0 ≤ p.std ∧ p.std ≤ maxStd) ∧
    (0 ≤ p.lower ∧ p.lower ≤ p.upper ∧ p.upper ≤ 1) ∧ 0 ≤ v ∧ v ≤ maxScale := by
  obtain ⟨a, b, c, d, e, f, g⟩ := mem_sets.mp h
  have hl := linspace_between d zero_le_one
  exact ⟨linspace_between a zero_le_one, linspace_between b zero_le_one, linspace_between c h2,
    ⟨hl.1, f, (linspace_down e hl.2).2⟩, linspace_between g h1⟩

private theorem flatMap_length {α β : Type} (l : List α) (f : α → List β) (n : Nat) (h : ∀ x ∈ l, (f x).length = n) :
    (l.flatMap f).length = l.length * n := by
  induction l with
  | nil => simp
  | cons x l ih =>
    rw [List.flatMap_cons, List.length_append, h x List.mem_cons_self, ih fun y hy => h y (List.mem_cons_of_mem _ hy),
      List.length_cons]
    ring

/-- C114: no combination is left out: there are as many sets as the numbers of values say. -/
theorem C114_count : (paramSets noise std load peak individual maxScale maxStd).length =
    individual * (peak * (std * (noise * noise))) * load := by
  unfold paramSets
  rw [flatMap_length _ _ load fun p _ => by rw [List.length_map, loadParameters, linspace_length]]
  congr 1
  unfold pvParameters
  rw [flatMap_length _ _ (peak * (std * (noise * noise))), linspace_length]
  intro i _
  rw [flatMap_length _ _ (std * (noise * noise)), linspace_length]
  intro q _
  rw [flatMap_length _ _ (noise * noise), linspace_length]
  intro s _
  rw [flatMap_length _ _ noise, linspace_length]
  intro l hl
  have hl := linspace_between hl zero_le_one
  have : ∀ L : List ℚ, (∀ u ∈ L, u ≥ l) →
      (L.filterMap fun u => if u ≥ l then some (⟨i, q, s, l, u⟩ : PvArgs) else none).length = L.length := by
    intro L
    induction L with
    | nil => intro _; rfl
    | cons u L ih =>
      intro hL
      rw [List.filterMap_cons_some (b := ⟨i, q, s, l, u⟩) (by rw [if_pos (hL u List.mem_cons_self)]), List.length_cons, List.length_cons,
        ih fun v hv => hL v (List.mem_cons_of_mem _ hv)]
  rw [this _ fun u hu => (linspace_down hu hl.2).1, linspace_length]

private theorem linspace_first (lo hi : ℚ) {n : Nat} (h : 0 < n) : lo ∈ linspace lo hi n :=
  List.mem_map.mpr ⟨0, List.mem_range.mpr h, by simp⟩

private theorem linspace_last (lo hi : ℚ) {n : Nat} (h : 1 < n) : hi ∈ linspace lo hi n := by
  refine List.mem_map.mpr ⟨n - 1, List.mem_range.mpr (by omega), ?_⟩
  have hn : (1 : ℚ) < n := by exact_mod_cast h
  have : (n : ℚ) - 1 ≠ 0 := by linarith
  rw [if_neg (by omega), Nat.cast_sub h.le, Nat.cast_one]
  field_simp
  ring

/-- C114: with at least two values each, the extremes are among the sets, in all combinations. -/
theorem C114_extremes (h1 : 1 < noise) (h2 : 1 < std) (h3 : 1 < load) (h4 : 1 < peak) (h5 : 1 < individual)
    {i p s l u v : ℚ} (hi : i = 0 ∨ i = 1) (hp : p = 0 ∨ p = 1) (hs : s = 0 ∨ s = maxStd) (hl : l = 0 ∨ l = 1)
    (hu : u = l ∨ u = 1) (hv : v = 0 ∨ v = maxScale) :
    (⟨i, p, s, l, u⟩, v) ∈ paramSets noise std load peak individual maxScale maxStd := by
  rw [mem_sets]
  refine ⟨?_, ?_, ?_, ?_, ?_, ?_, ?_⟩
  · rcases hi with rfl | rfl
    · exact linspace_first _ _ (by omega)
    · exact linspace_last _ _ h5
  · rcases hp with rfl | rfl
    · exact linspace_first _ _ (by omega)
    · exact linspace_last _ _ h4
  · rcases hs with rfl | rfl
    · exact linspace_first _ _ (by omega)
    · exact linspace_last _ _ h2
  · rcases hl with rfl | rfl
    · exact linspace_first _ _ (by omega)
    · exact linspace_last _ _ h1
  · rcases hu with rfl | rfl
    · exact linspace_last _ _ h1
    · exact linspace_first _ _ (by omega)
  · rcases hl with rfl | rfl <;> rcases hu with rfl | rfl <;> norm_num
  · rcases hv with rfl | rfl
    · exact linspace_first _ _ (by omega)
    · exact linspace_last _ _ h3

private theorem flatMap_dup {α β : Type} {l : List α} {f : α → List β} {x : α} (hx : x ∈ l) (h : ¬ (f x).Nodup) :
    ¬ (l.flatMap f).Nodup := fun hn => h ((List.nodup_flatMap.mp hn).1 x hx)

/-- C114: sets are tried more than once as soon as the noise takes two values: where the range begins at 1 it also ends there, and all
    the ranges are the same. -/
theorem C114_repeats (h1 : 1 < noise) (h2 : 0 < std) (h3 : 0 < load) (h4 : 0 < peak) (h5 : 0 < individual) :
    ¬ (paramSets noise std load peak individual maxScale maxStd).Nodup := by
  have hp : ¬ (pvParameters noise std peak individual maxStd).Nodup := by
    unfold pvParameters
    refine flatMap_dup (linspace_first 0 1 h5) (flatMap_dup (linspace_first 0 1 h4) (flatMap_dup (linspace_first 0 maxStd h2)
      (flatMap_dup (linspace_last 0 1 h1) ?_)))
    have : linspace 1 1 noise = List.replicate noise 1 := by
      refine List.eq_replicate_iff.mpr ⟨linspace_length _ _ _, fun b hb => ?_⟩
      obtain ⟨t, -, -, rfl⟩ := linspace_mem hb
      ring
    rw [this]
    obtain ⟨n, rfl⟩ : ∃ n, noise = n + 2 := ⟨noise - 2, by omega⟩
    simp [List.replicate_succ]
  intro hn
  apply hp
  unfold paramSets at hn
  obtain ⟨v, hv⟩ : ∃ v, v ∈ loadParameters load maxScale := ⟨0, linspace_first _ _ h3⟩
  have : ∀ L : List PvArgs, (L.flatMap fun p => (loadParameters load maxScale).map fun l => (p, l)).Nodup → L.Nodup := by
    intro L
    induction L with
    | nil => intro _; exact List.nodup_nil
    | cons p L ih =>
      intro h
      rw [List.flatMap_cons, List.nodup_append] at h
      rw [List.nodup_cons]
      refine ⟨fun hm => ?_, ih h.2.1⟩
      exact h.2.2 (p, v) (List.mem_map.mpr ⟨v, hv, rfl⟩) (p, v)
        (List.mem_flatMap.mpr ⟨p, hm, List.mem_map.mpr ⟨v, hv, rfl⟩⟩) rfl
  exact this _ hn

private theorem linspace_nodup {lo hi : ℚ} (h : lo ≠ hi) (n : Nat) : (linspace lo hi n).Nodup := by
  unfold linspace
  refine List.Nodup.map_on ?_ List.nodup_range
  intro i hi' j hj he
  have hi' := List.mem_range.mp hi'
  have hj := List.mem_range.mp hj
  by_cases h1 : n = 1
  · omega
  · rw [if_neg h1, if_neg h1] at he
    have hn : (1 : ℚ) < n := by exact_mod_cast (by omega : 1 < n)
    have h2 : (hi - lo) / ((n : ℚ) - 1) ≠ 0 := div_ne_zero (sub_ne_zero.mpr h.symm) (by linarith)
    have : (i : ℚ) = j := mul_right_cancel₀ h2 (add_left_cancel he)
    exact_mod_cast this

private theorem flatMap_nodup {α β : Type} {l : List α} {f : α → List β} (g : β → α) (hl : l.Nodup) (hf : ∀ x ∈ l, (f x).Nodup)
    (hg : ∀ x ∈ l, ∀ y ∈ f x, g y = x) : (l.flatMap f).Nodup := by
  rw [List.nodup_flatMap]
  refine ⟨hf, ?_⟩
  refine List.Pairwise.imp_of_mem (fun {a b} ha hb hab => ?_) hl
  intro y hy1 hy2
  exact hab ((hg a ha y hy1).symm.trans (hg b hb y hy2))

/-- C114, in part: with one value of the noise every set is tried once.  With more values it is not (`C114_repeats`). -/
theorem C114_once_partial (h1 : 0 < maxScale) (h2 : 0 < maxStd) : (paramSets 1 std load peak individual maxScale maxStd).Nodup := by
  unfold paramSets
  refine flatMap_nodup Prod.fst ?_ (fun p _ => ?_) ?_
  · unfold pvParameters
    refine flatMap_nodup PvArgs.individual (linspace_nodup (by norm_num) _) (fun i _ => ?_) ?_
    · refine flatMap_nodup PvArgs.peak (linspace_nodup (by norm_num) _) (fun q _ => ?_) ?_
      · refine flatMap_nodup PvArgs.std (linspace_nodup h2.ne _) (fun s _ => ?_) ?_
        · simp [linspace]
        · intro s _ y hy
          simp only [List.mem_flatMap, List.mem_filterMap, Option.ite_none_right_eq_some, Option.some.injEq] at hy
          obtain ⟨l, -, u, -, -, rfl⟩ := hy
          rfl
      · intro q _ y hy
        simp only [List.mem_flatMap, List.mem_filterMap, Option.ite_none_right_eq_some, Option.some.injEq] at hy
        obtain ⟨s, -, l, -, u, -, -, rfl⟩ := hy
        rfl
    · intro i _ y hy
      simp only [List.mem_flatMap, List.mem_filterMap, Option.ite_none_right_eq_some, Option.some.injEq] at hy
      obtain ⟨q, -, s, -, l, -, u, -, -, rfl⟩ := hy
      rfl
  · exact List.Nodup.map (fun a b h => (Prod.mk.inj h).2) (linspace_nodup h1.ne _)
  · intro p _ y hy
    obtain ⟨v, -, rfl⟩ := List.mem_map.mp hy
    rfl

/-- Non-vacuity: the numbers that `test_args` uses (`DataGenerator.py:865-875`). -/
example : (paramSets 3 3 3 3 3 2 (1/2)).length = 729 ∧
    ((⟨1/2, 0, 1/4, 1/2, 3/4⟩, 1) : PvArgs × ℚ) ∈ paramSets 3 3 3 3 3 2 (1/2) ∧ ¬ (paramSets 3 3 3 3 3 2 (1/2)).Nodup := by
  refine ⟨C114_count, mem_sets.mpr ?_, C114_repeats (by norm_num) (by norm_num) (by norm_num) (by norm_num) (by norm_num)⟩
  decide +kernel

end Pymgrid.Validation
