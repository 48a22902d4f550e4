import Verif.Spec.Callable
import Verif.Lemmas.SeriesHist

set_option autoImplicit false

/-! User-defined forecasters. -/

namespace Pymgrid

theorem clip1_eq {lo hi v : ℚ} (h : lo ≤ hi) : Forecaster.clip1 lo hi v = clampTo lo hi v := by
  unfold Forecaster.clip1 clampTo
  split
  · rename_i h1
    rw [if_neg (by linarith)]
    rw [max_eq_left (by exact (min_le_right _ _).trans h1.le)]
  · rename_i h1
    split
    · rename_i h2
      rw [min_eq_left h2.le, max_eq_right h]
    · rename_i h2
      rw [min_eq_right (not_lt.mp h2), max_eq_right (not_lt.mp h1)]

/-- What a forecast is made of. -/
theorem TS.Valid.forecast_of_raw {t : TS} (h : t.Valid) {c : Nat} {row : List ℚ} {out : List (List ℚ)}
    (hr : t.rows[c]? = some row) (ho : t.forecaster.raw t.draws row (t.window c) t.horizon = .ok (some out))
    (hl : out.length ≤ t.horizon) (hw : ∀ r ∈ out, r.length = t.minRow.length) :
    t.forecastValue c = .ok (some (out.map (Forecaster.clipRow t.minRow t.maxRow) ++
      List.replicate (t.horizon - out.length) (midpoints t.minRow t.maxRow))) := by
  unfold TS.forecastValue
  rw [hr]
  simp only [Forecaster.call]
  rw [if_neg (by rw [h.fRows]; have := TS.window_len t c; omega), ho]
  simp only
  have hpad : t.forecaster.pad out t.horizon =
      .ok (out ++ List.replicate (t.horizon - out.length) (midpoints t.minRow t.maxRow)) := by
    unfold Forecaster.pad
    split
    · rename_i he
      simp [he]
    · rename_i he
      rw [if_neg (by omega), if_neg (by rw [h.fObs]; omega), Forecaster.fillRow_eq, h.fMin, h.fMax]
  rw [hpad]
  have hall : ∀ r ∈ out ++ List.replicate (t.horizon - out.length) (midpoints t.minRow t.maxRow),
      r.length = t.minRow.length := by
    intro r hr
    rcases List.mem_append.mp hr with hr | hr
    · exact hw r hr
    · rw [List.eq_of_mem_replicate hr]; exact h.mid.1
  have hlen : (out ++ List.replicate (t.horizon - out.length) (midpoints t.minRow t.maxRow)).length = t.horizon := by
    simp; omega
  simp only [Forecaster.clip]
  rw [if_neg (by rw [h.fRows, hlen]; exact lt_irrefl _), if_neg (by
    rw [Bool.not_eq_false, List.all_eq_true]
    intro r hr
    rw [h.fMin]
    simpa using hall r hr)]
  simp only
  rw [h.fMin, h.fMax, if_pos]
  · rw [List.map_append, List.map_replicate, Forecaster.clipRow_of h.mid]
  · refine ⟨by rw [List.length_map, hlen], ?_⟩
    rw [List.all_eq_true]
    intro r hr
    obtain ⟨r₀, hr₀, rfl⟩ := List.mem_map.mp hr
    simpa using (Forecaster.clipRow_within h.box (hall r₀ hr₀)).1

/-- An error of the callable is an error of the forecast. -/
theorem TS.Valid.forecast_error {t : TS} (h : t.Valid) {c : Nat} {row : List ℚ} {e : Err}
    (hr : t.rows[c]? = some row) (ho : t.forecaster.raw t.draws row (t.window c) t.horizon = .error e) :
    t.forecastValue c = .error e := by
  unfold TS.forecastValue
  rw [hr]
  simp only [Forecaster.call]
  rw [if_neg (by rw [h.fRows]; have := TS.window_len t c; omega), ho]

namespace Callable

theorem column_length (l : List ℚ) : (column l).length = l.length := by simp [column]

theorem reshape_one (l : List ℚ) : reshape l.length 1 l = column l := by
  unfold reshape column
  apply List.ext_getElem?
  intro j
  by_cases hj : j < l.length
  · rw [List.getElem?_map, List.getElem?_range hj, List.getElem?_map, List.getElem?_eq_getElem hj]
    simp only [Option.map_some, Nat.mul_one, Option.some.injEq]
    rw [List.drop_eq_getElem_cons hj]
    rfl
  · rw [List.getElem?_eq_none_iff.mpr (by simpa using hj), List.getElem?_eq_none_iff.mpr (by simpa using hj)]

theorem validateRows_iff : ∀ l zs : List ℚ, validateRows (column l) (column zs) = .ok () ↔
    ∀ (j : Nat) (q z : ℚ), l[j]? = some q → zs[j]? = some z → 0 ≤ q * z
  | [], zs => by cases zs <;> simp [column, validateRows]
  | q :: l, [] => by simp [column, validateRows]
  | q :: l, z :: zs => by
    have ih := validateRows_iff l zs
    unfold column at ih
    simp only [column, List.map_cons, validateRows, validateValue, ge_iff_le]
    by_cases h0 : 0 ≤ q * z
    · rw [if_pos h0]
      simp only
      rw [ih]
      constructor
      · intro h j q' z' hq hz
        cases j with
        | zero =>
          simp only [List.getElem?_cons_zero, Option.some.injEq] at hq hz
          subst hq hz
          exact h0
        | succ j => exact h j q' z' (by simpa using hq) (by simpa using hz)
      · intro h j q' z' hq hz
        exact h (j + 1) q' z' (by simpa using hq) (by simpa using hz)
    · rw [if_neg h0]
      simp only [reduceCtorEq, false_iff]
      intro h
      exact h0 (h 0 q z rfl rfl)

theorem carries_entries {r : FRet} {l : List ℚ} : Carries r l ↔ r.entries = l ∧ ∀ n, r ≠ .text n := by
  constructor
  · rintro (_ | _ | _ | _) <;> simp [FRet.entries]
  · rintro ⟨rfl, h⟩
    cases r with
    | num q => exact .num q
    | list l => exact .list l
    | arr1 l => exact .arr1 l
    | arr2 l => exact .arr2 l
    | text n => exact absurd rfl (h n)

theorem validateVector_iff {f : Callable} {y : ℚ} {zs : List ℚ} {n : Nat} {cast : Bool} :
    validateVector f [y] (column zs) n = .ok cast ↔
      ∃ r l, f [y] (.vec (column zs)) n = .ok r ∧ Carries r l ∧ l.length = zs.length ∧ cast = r.castNeeded ∧
        ∀ (j : Nat) (q z : ℚ), l[j]? = some q → zs[j]? = some z → 0 ≤ q * z := by
  have key : ∀ r : FRet, (∀ k, r ≠ .text k) →
      ((if r.entries.length ≠ (column zs).length * [y].length then (.error .value : Except Err Bool)
        else match validateRows (reshape (column zs).length [y].length r.entries) (column zs) with
          | .error e => .error e
          | .ok () => .ok r.castNeeded) = .ok cast ↔
        ∃ l, Carries r l ∧ l.length = zs.length ∧ cast = r.castNeeded ∧
          ∀ (j : Nat) (q z : ℚ), l[j]? = some q → zs[j]? = some z → 0 ≤ q * z) := by
    intro r ht
    have hc : Carries r r.entries := carries_entries.mpr ⟨rfl, ht⟩
    have hu : ∀ l, Carries r l → l = r.entries := fun l h => (carries_entries.mp h).1.symm
    rw [column_length]
    simp only [List.length_singleton, Nat.mul_one]
    by_cases hl : r.entries.length = zs.length
    · rw [if_neg (by simpa using hl), ← hl, reshape_one]
      have hi := validateRows_iff r.entries zs
      constructor
      · intro h
        split at h
        · simp at h
        · rename_i hv
          simp only [Except.ok.injEq] at h
          exact ⟨_, hc, rfl, h.symm, hi.mp hv⟩
      · rintro ⟨l, h1, h2, h3, h4⟩
        obtain rfl := hu l h1
        rw [hi.mpr h4, h3]
    · rw [if_pos (by simpa using hl)]
      simp only [reduceCtorEq, false_iff]
      rintro ⟨l, h1, h2, -⟩
      obtain rfl := hu l h1
      exact hl h2
  unfold validateVector
  cases hf : f [y] (.vec (column zs)) n with
  | error e => simp
  | ok r =>
    have hex : ∀ P : FRet → Prop, (∃ r', Except.ok (ε := Err) r = .ok r' ∧ P r') ↔ P r := by
      intro P
      constructor
      · rintro ⟨r', h, hp⟩
        simp only [Except.ok.injEq] at h
        subst h
        exact hp
      · exact fun hp => ⟨r, rfl, hp⟩
    have hrw : (∃ r' l, Except.ok (ε := Err) r = .ok r' ∧ Carries r' l ∧ l.length = zs.length ∧ cast = r'.castNeeded ∧
        ∀ (j : Nat) (q z : ℚ), l[j]? = some q → zs[j]? = some z → 0 ≤ q * z) ↔
        ∃ l, Carries r l ∧ l.length = zs.length ∧ cast = r.castNeeded ∧
          ∀ (j : Nat) (q z : ℚ), l[j]? = some q → zs[j]? = some z → 0 ≤ q * z := by
      constructor
      · rintro ⟨r', l, h, hp⟩
        simp only [Except.ok.injEq] at h
        subst h
        exact ⟨l, hp⟩
      · rintro ⟨l, hp⟩
        exact ⟨r, l, rfl, hp⟩
    rw [hrw]
    cases r with
    | text k =>
      simp only
      constructor
      · intro h; split at h <;> simp at h
      · rintro ⟨l, hc, -⟩; cases hc
    | num q => exact key (.num q) (by simp)
    | list l => exact key (.list l) (by simp)
    | arr1 l => exact key (.arr1 l) (by simp)
    | arr2 l => exact key (.arr2 l) (by simp)

theorem validateVector_notImplemented {f : Callable} {c : List ℚ} {rows : List (List ℚ)} {n : Nat}
    (h : validateVector f c rows n = .error .notImplemented) : ∃ e, f c (.vec rows) n = .error e := by
  unfold validateVector at h
  cases hf : f c (.vec rows) n with
  | error e => exact ⟨e, rfl⟩
  | ok r =>
    rw [hf] at h
    have hv : ∀ a b : List (List ℚ), validateRows a b ≠ .error .notImplemented := by
      intro a
      induction a with
      | nil => intro b; cases b <;> simp [validateRows]
      | cons o os ih =>
        intro b
        cases b with
        | nil => simp [validateRows]
        | cons t ts =>
          simp only [validateRows]
          have : validateValue o t = .ok () ∨ validateValue o t = .error .value := by
            unfold validateValue
            split
            · split <;> simp
            · simp
          rcases this with h | h <;> rw [h] <;> simp [ih]
    cases r with
    | text k => simp only at h; split at h <;> simp at h
    | num q =>
      simp only at h
      split at h
      · simp at h
      · split at h
        · rename_i e he
          simp only [Except.error.injEq] at h
          subst h
          exact absurd he (hv _ _)
        · simp at h
    | list q =>
      simp only at h
      split at h
      · simp at h
      · split at h
        · rename_i e he
          simp only [Except.error.injEq] at h
          subst h
          exact absurd he (hv _ _)
        · simp at h
    | arr1 q =>
      simp only at h
      split at h
      · simp at h
      · split at h
        · rename_i e he
          simp only [Except.error.injEq] at h
          subst h
          exact absurd he (hv _ _)
        · simp at h
    | arr2 q =>
      simp only at h
      split at h
      · simp at h
      · split at h
        · rename_i e he
          simp only [Except.error.injEq] at h
          subst h
          exact absurd he (hv _ _)
        · simp at h

theorem validateScalar_iff {f : Callable} {y x : ℚ} {n : Nat} :
    validateScalar f [y] [x] n = .ok () ↔ ∃ r q, f [y] (.row [x]) n = .ok r ∧ Single r q ∧ 0 ≤ q * x := by
  have vv : ∀ q, validateValue [q] [x] = .ok () ↔ 0 ≤ q * x := by
    intro q
    simp only [validateValue, ge_iff_le]
    split <;> simp_all
  unfold validateScalar
  cases hf : f [y] (.row [x]) n with
  | error e => simp
  | ok r =>
    have hrw : (∃ r' q, Except.ok (ε := Err) r = .ok r' ∧ Single r' q ∧ 0 ≤ q * x) ↔ ∃ q, Single r q ∧ 0 ≤ q * x := by
      constructor
      · rintro ⟨r', q, h, hp⟩
        simp only [Except.ok.injEq] at h
        subst h
        exact ⟨q, hp⟩
      · rintro ⟨q, hp⟩
        exact ⟨r, q, rfl, hp⟩
    rw [hrw]
    cases r with
    | num q =>
      simp only
      rw [vv]
      constructor
      · exact fun h => ⟨q, ⟨.num q, by simp⟩, h⟩
      · rintro ⟨q', ⟨hc, -⟩, h⟩
        cases hc
        exact h
    | list l =>
      simp only [reduceCtorEq, false_iff]
      rintro ⟨q', ⟨hc, hn⟩, -⟩
      cases hc
      exact hn rfl
    | text k =>
      simp only
      constructor
      · intro h; split at h <;> simp at h
      · rintro ⟨q, ⟨hc, -⟩, -⟩; cases hc
    | arr1 l =>
      simp only [FRet.entries]
      constructor
      · intro h
        split at h
        · rename_i q
          exact ⟨q, ⟨.arr1 _, by simp⟩, (vv q).mp h⟩
        · simp at h
      · rintro ⟨q, ⟨hc, -⟩, h⟩
        cases hc
        exact (vv q).mpr h
    | arr2 rows =>
      simp only [FRet.entries]
      constructor
      · intro h
        split at h
        · rename_i q hq
          exact ⟨q, ⟨by rw [← hq]; exact .arr2 _, by simp⟩, (vv q).mp h⟩
        · simp at h
      · rintro ⟨q, ⟨hc, -⟩, h⟩
        have he := (carries_entries.mp hc).1
        simp only [FRet.entries] at he
        rw [he]
        exact (vv q).mpr h

theorem column_take (zs : List ℚ) (n : Nat) : (column zs).take n = column (zs.take n) := by
  simp [column, List.map_take]

theorem sample_column (ys : List ℚ) (i : Nat) (fs : Int) : sample (column ys) i fs = column (inRange ys i fs) := by
  unfold sample inRange column
  split
  · rw [List.length_map, List.take_of_length_le (by simp), List.map_drop]
  · rw [List.map_drop, List.map_take]

/-- What an accepted callable has done. -/
theorem validate_inv {f : Callable} {zs : List ℚ} {u : Nat} {v cast : Bool}
    (h : validate f (column zs) u = .ok (v, cast)) :
    3 ≤ zs.length ∧ ∃ y x, (trial u zs).head? = some y ∧ (trial u zs).getLast? = some x ∧
      ((v = true ∧ ∃ r l, f [y] (.vec (column (trial u zs))) (trial u zs).length = .ok r ∧ Carries r l ∧
          l.length = (trial u zs).length ∧ cast = r.castNeeded ∧
          ∀ (j : Nat) (q z : ℚ), l[j]? = some q → (trial u zs)[j]? = some z → 0 ≤ q * z) ∨
        (v = false ∧ cast = false ∧ (∃ e, f [y] (.vec (column (trial u zs))) (trial u zs).length = .error e) ∧
          ∃ r q, f [y] (.row [x]) (trial u zs).length = .ok r ∧ Single r q ∧ 0 ≤ q * x)) := by
  cases zs with
  | nil => simp [validate, column] at h
  | cons y zs =>
    simp only [column, List.map_cons, validate] at h
    split at h
    · simp at h
    rename_i n hn
    unfold randint at hn
    split at hn
    · simp at hn
    rename_i hlen
    simp only [Except.ok.injEq] at hn
    simp only [List.length_cons, List.length_map] at hlen hn
    have h3 : 3 ≤ (y :: zs).length := by simp only [List.length_cons]; omega
    have hn' : n.toNat = 2 + u % ((y :: zs).length - 2) := by
      simp only [List.length_cons]
      rw [← hn]
      have : ((zs.length + 1 : Nat) : Int) - 2 = ((zs.length + 1 - 2 : Nat) : Int) := by omega
      rw [this, ← Int.natCast_mod]
      omega
    have hmod : u % ((y :: zs).length - 2) < (y :: zs).length - 2 := Nat.mod_lt _ (by omega)
    have htl : (trial u (y :: zs)).length = n.toNat := by
      unfold trial
      rw [List.length_take, hn']
      omega
    have hcol : ([y] :: zs.map fun y => [y]).take n.toNat = column (trial u (y :: zs)) := by
      rw [trial, ← hn', ← column_take]
      rfl
    have hhead : (trial u (y :: zs)).head? = some y := by
      unfold trial
      rw [Nat.add_comm, List.take_succ_cons]
      rfl
    obtain ⟨x, hx⟩ : ∃ x, (trial u (y :: zs)).getLast? = some x := by
      cases hl : (trial u (y :: zs)).getLast? with
      | none => rw [List.getLast?_eq_none_iff] at hl; rw [hl] at hhead; simp at hhead
      | some x => exact ⟨x, rfl⟩
    have hlast : (column (trial u (y :: zs))).getLastD [] = [x] := by
      rw [List.getLastD_eq_getLast?, column, List.getLast?_map, hx]
      rfl
    rw [hcol, ← htl] at h
    refine ⟨h3, y, x, hhead, hx, ?_⟩
    split at h
    · rename_i cast' hv
      simp only [Except.ok.injEq, Prod.mk.injEq] at h
      obtain ⟨rfl, rfl⟩ := h
      exact .inl ⟨rfl, validateVector_iff.mp hv⟩
    · rename_i hv
      split at h
      · simp at h
      · rename_i hs
        rw [hlast] at hs
        simp only [Except.ok.injEq, Prod.mk.injEq] at h
        obtain ⟨rfl, rfl⟩ := h
        exact .inr ⟨rfl, rfl, validateVector_notImplemented hv, validateScalar_iff.mp hs⟩
    · simp at h

/-- When vectorised callables are accepted. -/
theorem validate_vector {f : Callable} {zs : List ℚ} {u : Nat} {y : ℚ} {r : FRet} {l : List ℚ} (h3 : 3 ≤ zs.length)
    (hy : zs.head? = some y) (hf : f [y] (.vec (column (trial u zs))) (trial u zs).length = .ok r) (hc : Carries r l)
    (hl : l.length = (trial u zs).length)
    (hs : ∀ (j : Nat) (q z : ℚ), l[j]? = some q → (trial u zs)[j]? = some z → 0 ≤ q * z) :
    validate f (column zs) u = .ok (true, r.castNeeded) := by
  cases zs with
  | nil => simp at h3
  | cons y' zs =>
    simp only [List.head?_cons, Option.some.injEq] at hy
    subst hy
    have hmod : u % ((y' :: zs).length - 2) < (y' :: zs).length - 2 := Nat.mod_lt _ (by omega)
    have htl : (trial u (y' :: zs)).length = 2 + u % ((y' :: zs).length - 2) := by
      unfold trial
      rw [List.length_take]
      omega
    simp only [List.length_cons] at h3
    have hr : randint u 2 ((([y'] :: zs.map fun y => [y]).length : Nat) : Int) =
        .ok ((2 + u % ((y' :: zs).length - 2) : Nat) : Int) := by
      unfold randint
      simp only [List.length_cons, List.length_map]
      rw [if_neg (by omega)]
      have : ((zs.length + 1 : Nat) : Int) - 2 = ((zs.length + 1 - 2 : Nat) : Int) := by omega
      rw [this, ← Int.natCast_mod]
      push_cast
      rfl
    have hcol : ([y'] :: zs.map fun y => [y]).take (2 + u % ((y' :: zs).length - 2)) = column (trial u (y' :: zs)) := by
      rw [trial, ← column_take]
      rfl
    have hv : validateVector f [y'] (column (trial u (y' :: zs))) (trial u (y' :: zs)).length = .ok r.castNeeded :=
      validateVector_iff.mpr ⟨r, l, hf, hc, hl, rfl, hs⟩
    simp only [column, List.map_cons, validate]
    rw [hr]
    simp only [Int.toNat_natCast]
    rw [hcol, ← htl, hv]

end Callable

/-- A module built with a callable. -/
theorem BuiltWith.start {f : Callable} {u horizon i : Nat} {fs : Int} {r : Bool} {m : Module} {ys : List ℚ}
    (h : BuiltWith f u horizon i fs r m ys) :
    ∃ v cast, Callable.validate f (column (inRange ys i fs)) u = .ok (v, cast) ∧
      BuiltSeries (Callable.kind f v cast) horizon i fs r m (column ys) 1 ∧
      ∃ t comp lo hi, Spans ys lo hi ∧
        TS.Same (TS.blank (column ys) [comp] [lo] [hi] (Callable.kind f v cast) horizon fs) t ∧ m.TSWF t ∧ t.Fresh i ∧
        m.currentStep = i := by
  have sp : ∀ {zs : List ℚ} {lo hi : ℚ}, getBounds zs = .ok (lo, hi) → Spans zs lo hi := by
    intro zs lo hi hb
    obtain ⟨-, h1, h2, h3, h4, h5⟩ := getBounds_spec hb
    exact ⟨h2, h3, h1, h4, h5⟩
  cases h with
  | @load xs m h =>
    unfold Module.mkLoadWith at h
    split at h
    · simp at h
    rename_i zs hs
    obtain ⟨rfl, -⟩ := signCheck_sink hs
    split at h
    · simp at h
    split at h
    · simp at h
    rename_i v cast hv
    have hcol : (xs.map fun x => -|x|).map (fun x => [x]) = column (xs.map fun x => -|x|) := rfl
    rw [hcol, Callable.sample_column] at hv
    have hb := BuiltSeries.load h
    have he : (xs.map fun x => [-|x|]) = column (xs.map fun x => -|x|) := by simp [column]
    rw [he] at hb
    obtain ⟨t, mn, mx, wf, hf, hbd, hsm, -, -, h2, -⟩ := Module.mkLoad_inv h
    rw [he] at hsm
    exact ⟨v, cast, hv, hb, t, _, mn, mx, sp hbd, hsm, wf.ts, hf, h2⟩
  | @renewable xs m h =>
    unfold Module.mkRenewableWith at h
    split at h
    · simp at h
    rename_i zs hs
    obtain ⟨rfl, -⟩ := signCheck_source hs
    split at h
    · simp at h
    split at h
    · simp at h
    rename_i v cast hv
    have hcol : (xs.map fun x => |x|).map (fun x => [x]) = column (xs.map fun x => |x|) := rfl
    rw [hcol, Callable.sample_column] at hv
    have hb := BuiltSeries.renewable h
    have he : (xs.map fun x => [|x|]) = column (xs.map fun x => |x|) := by simp [column]
    rw [he] at hb
    obtain ⟨t, mn, mx, wf, hf, hbd, hsm, -, -, h2, -⟩ := Module.mkRenewable_inv h
    rw [he] at hsm
    exact ⟨v, cast, hv, hb, t, _, mn, mx, sp hbd, hsm, wf.ts, hf, h2⟩

theorem column_getElem? (ys : List ℚ) (j : Nat) : (column ys)[j]? = (ys[j]?).map fun y => [y] := by
  simp [column]

theorem window_column {t : TS} {ys : List ℚ} (hr : t.rows = column ys) (c : Nat) :
    t.window c = column (ahead ys c t.horizon) := by
  unfold TS.window ahead column
  rw [hr, column, List.map_take, List.map_drop, Nat.add_comm]

theorem midpoints_single (lo hi : ℚ) : midpoints [lo] [hi] = [(lo + hi) / 2] := rfl

/-- A forecast of one number per row. -/
theorem presented_column {lo hi : ℚ} (h : lo ≤ hi) (n : Nat) (out : List ℚ) :
    (column out).map (Forecaster.clipRow [lo] [hi]) ++ List.replicate (n - (column out).length) (midpoints [lo] [hi]) =
      column (presented lo hi n out) := by
  unfold presented
  rw [column, List.length_map, midpoints_single, List.map_map]
  simp only [column, List.map_append, List.map_map, List.map_replicate]
  congr 1
  apply List.map_congr_left
  intro q _
  simp only [Function.comp, Forecaster.clipRow, mapBounds]
  rw [clip1_eq h]

/-- The range of a series is not longer than what remains of it. -/
theorem inRange_length (ys : List ℚ) (i : Nat) (fs : Int) : (inRange ys i fs).length ≤ ys.length - i := by
  unfold inRange
  split
  · simp
  · rw [List.length_drop, List.length_take]
    omega

end Pymgrid
