import Verif.Lemmas.Callable
import Verif.Props.Setters

set_option autoImplicit false

/-!
# User-defined forecasters (C82)

A callable passed as `forecaster` is tried on the first values in range when the module is built; `u` is the random number
that decides on how many.
-/

namespace Pymgrid

open Module

section
variable {f : Callable} {u horizon i : Nat} {fs : Int} {r : Bool} {m : Module} {ys : List ℚ}

/-- C82: a module with a callable exists only if there are at least three steps in range and the callable, tried on the
    first two or more of them, returned as many numbers, none with the wrong sign. -/
theorem C82_tried (hb : BuiltWith f u horizon i fs r m ys) :
    3 ≤ (inRange ys i fs).length ∧ Tried f (trial u (inRange ys i fs)) := by
  obtain ⟨v, cast, hv, -⟩ := hb.start
  obtain ⟨h3, y, x, hy, hx, h⟩ := Callable.validate_inv hv
  refine ⟨h3, y, x, hy, hx, ?_⟩
  rcases h with ⟨-, r, l, h1, h2, h4, -, h5⟩ | ⟨-, -, h1, h2⟩
  · exact .inl ⟨r, l, h1, h2, h4, h5⟩
  · exact .inr ⟨h1, h2⟩

/-- C82: a callable that returns a number of the wrong sign for one of the first two values is refused, whatever is drawn. -/
theorem C82_wrong_sign_refused (hbad : ∃ (j : Nat) (z : ℚ), j < 2 ∧ (inRange ys i fs)[j]? = some z ∧
      ∀ (y : ℚ) (n : Nat), 2 ≤ n → ∃ (ret : FRet) (l : List ℚ) (q : ℚ),
        f [y] (.vec (column ((inRange ys i fs).take n))) n = .ok ret ∧ Carries ret l ∧ l[j]? = some q ∧ q * z < 0) :
    ¬ BuiltWith f u horizon i fs r m ys := by
  intro hb
  obtain ⟨h3, y, x, -, -, h⟩ := C82_tried hb
  obtain ⟨j, z, hj, hz, hbad⟩ := hbad
  have hlen : (trial u (inRange ys i fs)).length = 2 + u % ((inRange ys i fs).length - 2) := by
    have := Nat.mod_lt u (show 0 < (inRange ys i fs).length - 2 by omega)
    unfold trial
    rw [List.length_take]
    omega
  obtain ⟨ret, l, q, hf, hc, hq, hqz⟩ := hbad y (trial u (inRange ys i fs)).length (by omega)
  have ht : (inRange ys i fs).take (trial u (inRange ys i fs)).length = trial u (inRange ys i fs) := by
    rw [hlen]; rfl
  rw [ht] at hf
  rcases h with ⟨ret', l', hf', hc', -, hs⟩ | ⟨⟨e, he⟩, -⟩
  · rw [hf] at hf'
    simp only [Except.ok.injEq] at hf'
    subst hf'
    have h1 := (Callable.carries_entries.mp hc).1
    have h2 := (Callable.carries_entries.mp hc').1
    rw [h1] at h2
    subst h2
    have := hs j q z hq (by
      unfold trial
      rw [List.getElem?_take_of_lt (by omega)]
      exact hz)
    linarith
  · rw [hf] at he
    simp at he

/-- C82: a callable that returns another number of predictions than it was given values is refused. -/
theorem C82_wrong_number_refused (hbad : ∀ (y : ℚ) (zs : List ℚ), 2 ≤ zs.length →
      ∃ (ret : FRet) (l : List ℚ), f [y] (.vec (column zs)) zs.length = .ok ret ∧ Carries ret l ∧ l.length ≠ zs.length) :
    ¬ BuiltWith f u horizon i fs r m ys := by
  intro hb
  obtain ⟨h3, y, x, -, -, h⟩ := C82_tried hb
  have hlen : 2 ≤ (trial u (inRange ys i fs)).length := by
    have := Nat.mod_lt u (show 0 < (inRange ys i fs).length - 2 by omega)
    unfold trial
    rw [List.length_take]
    omega
  obtain ⟨ret, l, hf, hc, hl⟩ := hbad y _ hlen
  rcases h with ⟨ret', l', hf', hc', hl', -⟩ | ⟨⟨e, he⟩, -⟩
  · rw [hf] at hf'
    simp only [Except.ok.injEq] at hf'
    subst hf'
    have h1 := (Callable.carries_entries.mp hc).1
    have h2 := (Callable.carries_entries.mp hc').1
    rw [h1] at h2
    subst h2
    exact hl hl'
  · rw [hf] at he
    simp at he

theorem Honest.works (hf : Honest f) (h : Nat) : (Callable.kind f true false).Works 1 h := by
  simp only [Callable.kind, if_true, FKind.Works]
  intro c win hc hw hr
  obtain ⟨y, rfl⟩ := List.length_eq_one_iff.mp hc
  obtain ⟨zs, rfl⟩ : ∃ zs, win = column zs := by
    refine ⟨win.flatten, ?_⟩
    clear hw
    induction win with
    | nil => rfl
    | cons a win ih =>
      obtain ⟨z, rfl⟩ := List.length_eq_one_iff.mp (hr a (by simp))
      rw [List.flatten_cons]
      simp only [column, List.singleton_append, List.map_cons, List.cons.injEq, true_and]
      exact ih (fun r hr' => hr r (by simp [hr']))
  obtain ⟨out, ho, hl, -⟩ := hf y zs h
  rw [ho]
  refine ⟨column out, by simp, ?_, ?_⟩
  · rw [Callable.column_length] at hw ⊢
    omega
  · intro r hr
    obtain ⟨q, -, rfl⟩ := List.mem_map.mp hr
    rfl

theorem column_flatten (l : List ℚ) : (column l).flatten = l := by
  induction l with
  | nil => rfl
  | cons a l ih =>
    unfold column at ih
    simp only [column, List.map_cons, List.flatten_cons, ih, List.singleton_append]

theorem Honest.validated (hf : Honest f) {zs : List ℚ} (h3 : 3 ≤ zs.length) :
    Callable.validate f (column zs) u = .ok (true, false) := by
  cases hz : zs.head? with
  | none => rw [List.head?_eq_none_iff] at hz; subst hz; simp at h3
  | some y =>
    obtain ⟨out, ho, hl, hs⟩ := hf y (trial u zs) (trial u zs).length
    have := Callable.validate_vector h3 hz ho (.arr2 _) (by rw [column_flatten, hl])
      (by rw [column_flatten]; exact hs)
    exact this

/-- C82: a callable that does what is asked of it is accepted by loads and renewables with any series of one sign that has
    at least three steps in range, whatever is drawn. -/
theorem C82_honest_accepted (hf : Honest f) {xs : List ℚ} (hs : (∀ x ∈ xs, x ≤ 0) ∨ ∀ x ∈ xs, 0 ≤ x)
    (h3 : 3 ≤ (inRange xs i fs).length) :
    (∃ m, mkLoadWith xs f u horizon i fs r = .ok m) ∧ ∃ m, mkRenewableWith xs f u horizon i fs r = .ok m := by
  have hne : xs ≠ [] := by
    rintro rfl
    have := inRange_length [] i fs
    rw [List.length_nil] at this
    omega
  have hmap : ∀ g : ℚ → ℚ, (inRange (xs.map g) i fs).length = (inRange xs i fs).length := by
    intro g
    unfold inRange
    split <;> simp
  have hcol : ∀ l : List ℚ, l.map (fun x => [x]) = column l := fun _ => rfl
  constructor
  · unfold mkLoadWith
    obtain ⟨mn, mx, hb⟩ := getBounds_ok (xs := xs.map fun x => -|x|) (by simpa using hne)
    have hsc : signCheck false xs = .ok (xs.map fun x => -|x|) := by
      unfold signCheck
      rw [if_neg (not_not.mpr hs)]
      rfl
    rw [hsc]
    simp only [hb]
    rw [hcol, Callable.sample_column, hf.validated (by rw [hmap]; exact h3)]
    exact (C46_load_accepted_iff (hf.works horizon)).mpr ⟨hne, hs⟩
  · unfold mkRenewableWith
    obtain ⟨mn, mx, hb⟩ := getBounds_ok (xs := xs.map fun x => |x|) (by simpa using hne)
    have hsc : signCheck true xs = .ok (xs.map fun x => |x|) := by
      unfold signCheck
      rw [if_neg (not_not.mpr hs)]
      rfl
    rw [hsc]
    simp only [hb]
    rw [hcol, Callable.sample_column, hf.validated (by rw [hmap]; exact h3)]
    exact (C46_renewable_accepted_iff (hf.works horizon)).mpr ⟨hne, hs⟩

/-- C82: after any history the forecast that a module stores is what the callable returns for the current value, the true
    values ahead and the horizon, moved into the bounds of the series; where the series has ended it is filled up with the
    middle of the bounds. -/
theorem C82_forecast (hf : Honest f) (hb : BuiltWith f u horizon i fs r m ys) (ops : List MOp) :
    ∃ t lo hi, (runOps m ops).series? = some t ∧ Spans ys lo hi ∧ t.minRow = [lo] ∧ t.maxRow = [hi] ∧
      ∀ c, c = (runOps m ops).currentStep →
        (∀ (y : ℚ) (out : List ℚ), ys[c]? = some y →
          f [y] (.vec (column (ahead ys c horizon))) horizon = .ok (.arr2 (column out)) →
          t.cur = some (column (presented lo hi horizon out))) ∧
        (ys[c]? = none → t.cur = some (column (List.replicate horizon ((lo + hi) / 2)))) := by
  obtain ⟨h3, -⟩ := C82_tried hb
  obtain ⟨v, cast, hv, -, t₀, comp, lo, hi, hsp, hs₀, wf₀, hf₀, hc⟩ := hb.start
  rw [hf.validated h3] at hv
  simp only [Except.ok.injEq, Prod.mk.injEq] at hv
  obtain ⟨rfl, rfl⟩ := hv
  have hks : (Callable.kind f true false).isSome = true := rfl
  have hhor : t₀.horizon = horizon := by rw [hs₀.horizon]; simp [TS.blank, hks]
  have hw : t₀.forecaster.kind.Works t₀.comps.length t₀.horizon := by
    rw [hhor, hs₀.forecaster, hs₀.comps]
    exact hf.works horizon
  obtain ⟨t, hs, wf, hfr⟩ := wf₀.fresh_ops (by rw [hc]; exact hf₀) hw ops
  have hrows : t.rows = column ys := by rw [hs.rows, hs₀.rows]; rfl
  have hh : t.horizon = horizon := by rw [hs.horizon, hhor]
  have hmn : t.minRow = [lo] := by rw [hs.minRow, hs₀.minRow]; rfl
  have hmx : t.maxRow = [hi] := by rw [hs.maxRow, hs₀.maxRow]; rfl
  have hk : t.forecaster.kind = Callable.kind f true false := by rw [hs.forecaster, hs₀.forecaster]; rfl
  refine ⟨t, lo, hi, wf.series, hsp, hmn, hmx, ?_⟩
  rintro c rfl
  obtain ⟨d, hd⟩ := hfr
  have hval : ({ t with draws := d } : TS).Valid := (TS.Same.mk' t t.cur d).valid wf.valid
  constructor
  · intro y out hy ho
    obtain ⟨out', ho', hl, -⟩ := hf y (ahead ys (runOps m ops).currentStep horizon) horizon
    rw [ho] at ho'
    simp only [Except.ok.injEq, FRet.arr2.injEq] at ho'
    have hol : out.length = (ahead ys (runOps m ops).currentStep horizon).length := by
      rw [← hl, ← Callable.column_length out, ho', Callable.column_length]
    have hal : (ahead ys (runOps m ops).currentStep horizon).length ≤ horizon := by
      unfold ahead
      rw [List.length_take]
      exact min_le_left _ _
    have hwin : ({ t with draws := d } : TS).window (runOps m ops).currentStep =
        column (ahead ys (runOps m ops).currentStep horizon) := by
      rw [window_column (t := { t with draws := d }) hrows]
      simp only [hh]
    have key := hval.forecast_of_raw (c := (runOps m ops).currentStep) (row := [y]) (out := column out)
      (by simp only [hrows, column_getElem?, hy, Option.map_some])
      (by
        rw [hwin]
        simp only [Forecaster.raw, hk, hh, Callable.kind, if_true]
        rw [ho]
        simp)
      (by rw [Callable.column_length]; simp only [hh]; omega)
      (by
        intro r hr
        obtain ⟨q, -, rfl⟩ := List.mem_map.mp hr
        simp [hmn])
    rw [hd] at key
    simp only [Except.ok.injEq, hmn, hmx, hh] at key
    rw [key, presented_column (hsp.1.trans hsp.2.1)]
  · intro hy
    have hnone : t.rows[(runOps m ops).currentStep]? = none := by
      rw [hrows, column_getElem?, hy]; rfl
    have key : ({ t with draws := d } : TS).forecastValue (runOps m ops).currentStep =
        .ok (some (List.replicate t.horizon (midpoints t.minRow t.maxRow))) := by
      unfold TS.forecastValue
      simp only [hnone]
      have := hval.fullPad t.horizon (Nat.le_add_left _ 1)
      simp only at this
      rw [this]
    rw [hd] at key
    simp only [Except.ok.injEq, hmn, hmx, hh, midpoints_single] at key
    rw [key]
    simp [column]

/-! ### Callables that only take single values -/

/-- A callable that does not accept arrays of several rows. -/
def ScalarOnly (f : Callable) : Prop := ∀ (y : ℚ) (zs : List ℚ) (n : Nat), ∃ e, f [y] (.vec (column zs)) n = .error e

theorem ScalarOnly.start (hf : ScalarOnly f) (hb : BuiltWith f u horizon i fs r m ys) (ops : List MOp) :
    ∃ t lo hi, (runOps m ops).TSWF t ∧ Spans ys lo hi ∧ t.minRow = [lo] ∧ t.maxRow = [hi] ∧ t.rows = column ys ∧
      t.horizon = horizon ∧ t.forecaster.kind = Callable.kind f false false := by
  obtain ⟨v, cast, hv, -, t₀, comp, lo, hi, hsp, hs₀, wf₀, hf₀, hc⟩ := hb.start
  have hvc : v = false ∧ cast = false := by
    obtain ⟨-, y, x, -, -, h⟩ := Callable.validate_inv hv
    rcases h with ⟨-, r, l, h1, -⟩ | ⟨h1, h2, -⟩
    · obtain ⟨e, he⟩ := hf y (trial u (inRange ys i fs)) (trial u (inRange ys i fs)).length
      rw [he] at h1
      simp at h1
    · exact ⟨h1, h2⟩
  obtain ⟨rfl, rfl⟩ := hvc
  have hks : (Callable.kind f false false).isSome = true := rfl
  obtain ⟨t, hs, wf, -⟩ := wf₀.ops ops
  refine ⟨t, lo, hi, wf, hsp, ?_, ?_, ?_, ?_, ?_⟩
  · rw [hs.minRow, hs₀.minRow]; rfl
  · rw [hs.maxRow, hs₀.maxRow]; rfl
  · rw [hs.rows, hs₀.rows]; rfl
  · rw [hs.horizon, hs₀.horizon]; simp [TS.blank, hks]
  · rw [hs.forecaster, hs₀.forecaster]; rfl

theorem mapScalar_column {g : List ℚ → List ℚ → Nat → Except Err (List ℚ)} {y : ℚ} : ∀ (zs out : List ℚ) (k : Nat),
    out.length = zs.length →
    (∀ (j : Nat) (z q : ℚ), zs[j]? = some z → out[j]? = some q → g [y] [z] (k + j) = .ok [q]) →
    Forecaster.mapScalar g [y] k (column zs) = .ok (column out)
  | [], [], _, _, _ => rfl
  | [], _ :: _, _, h, _ => by simp at h
  | _ :: _, [], _, h, _ => by simp at h
  | z :: zs, q :: out, k, h, hg => by
    have ih := mapScalar_column zs out (k + 1) (by simpa using h) (by
      intro j z' q' hz hq
      rw [Nat.add_assoc, Nat.add_comm 1 j]
      exact hg (j + 1) z' q' (by simpa using hz) (by simpa using hq))
    unfold column at ih
    have h0 := hg 0 z q rfl rfl
    rw [Nat.add_zero] at h0
    simp only [column, List.map_cons, Forecaster.mapScalar, h0, ih]

/-- C82 (partial; missing: the last steps of the series, see `C82_scalar_end_fails`, and the right number of steps, see
    `C82_steps_ahead_fails`): while the series is long enough, the forecast that a module with a callable for single values
    computes at step `c` consists of the results for the true values one by one, moved into the bounds.  The values at the
    steps `c + 1`, `c + 2`, … are passed along with 0, 1, …. -/
theorem C82_scalar_forecast_partial (hf : ScalarOnly f) (hb : BuiltWith f u horizon i fs r m ys) (ops : List MOp) {c : Nat}
    {y : ℚ} {out : List ℚ} (hy : ys[c]? = some y) (hc : c + horizon < ys.length) (hl : out.length = horizon)
    (ho : ∀ (j : Nat) (z q : ℚ), ys[c + 1 + j]? = some z → out[j]? = some q →
      ∃ ret, f [y] (.row [z]) j = .ok ret ∧ Carries ret [q]) :
    ∃ t lo hi, (runOps m ops).series? = some t ∧ Spans ys lo hi ∧
      t.forecastValue c = .ok (some (column (out.map (clampTo lo hi)))) := by
  obtain ⟨t, lo, hi, wf, hsp, hmn, hmx, hrows, hh, hk⟩ := hf.start hb ops
  refine ⟨t, lo, hi, wf.series, hsp, ?_⟩
  have hal : (ahead ys c horizon).length = horizon := by
    unfold ahead
    rw [List.length_take, List.length_drop]
    omega
  have hwin : t.window c = column (ahead ys c horizon) := by rw [window_column hrows, hh]
  have key := wf.valid.forecast_of_raw (c := c) (row := [y]) (out := column out)
    (by rw [hrows, column_getElem?, hy]; rfl)
    (by
      rw [hwin]
      simp only [Forecaster.raw, hk, hh, Callable.kind, Bool.false_eq_true, if_false]
      rw [if_neg (by rw [Callable.column_length]; omega), mapScalar_column (ahead ys c horizon) out 0 (by omega)]
      intro j z q hz hq
      have hj : j < horizon := by
        have := (List.getElem?_eq_some_iff.mp hq).1
        omega
      have hz' : ys[c + 1 + j]? = some z := by
        unfold ahead at hz
        rw [List.getElem?_take_of_lt hj, List.getElem?_drop] at hz
        exact hz
      obtain ⟨ret, hr, hca⟩ := ho j z q hz' hq
      rw [Nat.zero_add, hr]
      obtain ⟨he, ht⟩ := Callable.carries_entries.mp hca
      cases ret with
      | text k => exact absurd rfl (ht k)
      | num q' => simp only; rw [he]
      | list q' => simp only; rw [he]
      | arr1 q' => simp only; rw [he]
      | arr2 q' => simp only; rw [he])
    (by rw [Callable.column_length]; omega)
    (by
      intro r hr
      obtain ⟨q, -, rfl⟩ := List.mem_map.mp hr
      simp [hmn])
  rw [key, hmn, hmx, hh, presented_column (hsp.1.trans hsp.2.1)]
  simp [presented, hl]

/-- C82 does not hold at the end of a series: with a callable for single values no step succeeds that leads to a point
    from which fewer values remain than are to be forecast.  Such a module cannot be used up to its last step. -/
theorem C82_scalar_end_fails (hf : ScalarOnly f) (hb : BuiltWith f u horizon i fs r m ys) (ops : List MOp)
    (h1 : (runOps m ops).currentStep + 1 < ys.length) (h2 : ys.length ≤ (runOps m ops).currentStep + 1 + horizon)
    (a : Act) (n : Bool) : ((runOps m ops).step a n).2.isOk = false := by
  obtain ⟨t, lo, hi, wf, hsp, hmn, hmx, hrows, hh, hk⟩ := hf.start hb ops
  have herr : t.forecastValue ((runOps m ops).currentStep + 1) = .error .value := by
    have hy : t.rows[(runOps m ops).currentStep + 1]? = some [ys[(runOps m ops).currentStep + 1]] := by
      rw [hrows, column_getElem?, List.getElem?_eq_getElem h1]; rfl
    refine wf.valid.forecast_error hy ?_
    rw [window_column hrows, hh]
    simp only [Forecaster.raw, hk, Callable.kind, Bool.false_eq_true, if_false]
    rw [if_pos]
    rw [Callable.column_length]
    unfold ahead
    rw [List.length_take, List.length_drop]
    omega
  rw [wf.step_eq]
  cases (runOps m ops).request a n with
  | error e => rfl
  | ok q =>
    rcases wf.stepEnergy q with ⟨e, he⟩ | ⟨u, pre, row, -, -, -, ⟨f, hv, -⟩ | ⟨e, hv, he⟩⟩
    · simp only [he]; rfl
    · rw [herr] at hv; simp at hv
    · simp only [he]; rfl

/-! ### Results of other shapes, and grids -/

theorem refused_of_raw (hb : BuiltWith f u horizon i fs r m ys) {v cast : Bool}
    (hv : Callable.validate f (column (inRange ys i fs)) u = .ok (v, cast))
    (herr : ∀ (y : ℚ) (zs : List ℚ) (n : Nat), ∃ e, (match Callable.kind f v cast with
      | .user g => g [y] (column zs) n | _ => .ok []) = .error e) (hvt : v = true) : False := by
  obtain ⟨h3, -⟩ := C82_tried hb
  obtain ⟨v', cast', hv', -, t, comp, lo, hi, hsp, hs, wf, ⟨d, hd⟩, hc⟩ := hb.start
  rw [hv] at hv'
  simp only [Except.ok.injEq, Prod.mk.injEq] at hv'
  obtain ⟨rfl, rfl⟩ := hv'
  subst hvt
  have hi' : i < ys.length := by
    have := inRange_length ys i fs
    omega
  have hrows : t.rows = column ys := by rw [hs.rows]; rfl
  have hk : t.forecaster.kind = Callable.kind f true cast := by rw [hs.forecaster]; rfl
  have hval : ({ t with draws := d } : TS).Valid := (TS.Same.mk' t t.cur d).valid wf.valid
  obtain ⟨e, he⟩ := herr ys[i] (ahead ys i t.horizon) t.horizon
  have := hval.forecast_error (c := i) (row := [ys[i]]) (e := e)
    (by simp only [hrows, column_getElem?, List.getElem?_eq_getElem hi', Option.map_some])
    (by
      rw [window_column (t := { t with draws := d }) hrows]
      simp only [Callable.kind, if_true] at he
      simp only [Forecaster.raw, hk, Callable.kind, if_true]
      rw [he])
  rw [hd] at this
  simp at this

/-- C82 does not hold for callables that return lists or plain numbers: they pass the trial, and the constructor then
    fails when it computes the first forecast. -/
theorem C82_lists_fail (hl : ∀ (y : ℚ) (zs : List ℚ) (n : Nat), ∃ ret, f [y] (.vec (column zs)) n = .ok ret ∧
      ((∃ l, ret = .list l) ∨ ∃ q, ret = .num q)) : ¬ BuiltWith f u horizon i fs r m ys := by
  intro hb
  obtain ⟨v, cast, hv, -⟩ := hb.start
  have hvt : v = true := by
    obtain ⟨-, y, x, -, -, h⟩ := Callable.validate_inv hv
    rcases h with ⟨h1, -⟩ | ⟨-, -, ⟨e, he⟩, -⟩
    · exact h1
    · obtain ⟨ret, hr, -⟩ := hl y (trial u (inRange ys i fs)) (trial u (inRange ys i fs)).length
      rw [hr] at he
      simp at he
  refine refused_of_raw hb hv ?_ hvt
  intro y zs n
  subst hvt
  simp only [Callable.kind, if_true]
  obtain ⟨ret, hr, ⟨l, rfl⟩ | ⟨q, rfl⟩⟩ := hl y zs n <;> rw [hr] <;> exact ⟨_, rfl⟩

/-- C82 does not hold for callables that return arrays with one dimension either. -/
theorem C82_flat_arrays_fail (hl : ∀ (y : ℚ) (zs : List ℚ) (n : Nat), ∃ l, f [y] (.vec (column zs)) n = .ok (.arr1 l)) :
    ¬ BuiltWith f u horizon i fs r m ys := by
  intro hb
  obtain ⟨v, cast, hv, -⟩ := hb.start
  have hvt : v = true ∧ cast = false := by
    obtain ⟨-, y, x, -, -, h⟩ := Callable.validate_inv hv
    obtain ⟨l, hr⟩ := hl y (trial u (inRange ys i fs)) (trial u (inRange ys i fs)).length
    rcases h with ⟨h1, r, l', h2, -, -, h3, -⟩ | ⟨-, -, ⟨e, he⟩, -⟩
    · rw [hr] at h2
      simp only [Except.ok.injEq] at h2
      subst h2
      exact ⟨h1, h3⟩
    · rw [hr] at he
      simp at he
  obtain ⟨rfl, rfl⟩ := hvt
  refine refused_of_raw hb hv ?_ rfl
  intro y zs n
  simp only [Callable.kind, if_true]
  obtain ⟨l, hr⟩ := hl y zs n
  rw [hr]
  exact ⟨_, rfl⟩

theorem validateRows_wide {o t : List ℚ} (os : List (List ℚ)) (ts : List (List ℚ)) (h : t.length = 4) :
    Callable.validateRows (o :: os) (t :: ts) = .error .value := by
  have : Callable.validateValue o t = .error .value := by
    unfold Callable.validateValue
    split
    · simp at h
    · rfl
  simp only [Callable.validateRows, this]

theorem validateScalar_wide {c row : List ℚ} {n : Nat} (h : row.length = 4) :
    ∃ e, Callable.validateScalar f c row n = .error e := by
  have hv : ∀ q, Callable.validateValue [q] row = .error .value := by
    intro q
    unfold Callable.validateValue
    split
    · simp at h
    · rfl
  unfold Callable.validateScalar
  split
  · exact ⟨_, rfl⟩
  · exact ⟨_, hv _⟩
  · exact ⟨_, rfl⟩
  · split <;> exact ⟨_, rfl⟩
  · split
    · exact ⟨_, hv _⟩
    · exact ⟨_, rfl⟩

theorem validate_wide {rows : List (List ℚ)} (h4 : ∀ r ∈ rows, r.length = 4) :
    ∃ e, Callable.validate f rows u = .error e := by
  cases rows with
  | nil => exact ⟨_, rfl⟩
  | cons c rows =>
    simp only [Callable.validate]
    split
    · exact ⟨_, rfl⟩
    · rename_i n hn
      have hn2 : 2 ≤ n.toNat := by
        unfold randint at hn
        split at hn
        · simp at hn
        · rename_i hlt
          simp only [Except.ok.injEq] at hn
          have := Int.emod_nonneg (u : Int) (b := ((c :: rows).length : Int) - 2) (by omega)
          omega
      obtain ⟨k, hk⟩ : ∃ k, n.toNat = k + 1 := ⟨n.toNat - 1, by omega⟩
      have hc : c.length = 4 := h4 c (by simp)
      have hvec : ∀ cast, Callable.validateVector f c ((c :: rows).take n.toNat) n.toNat ≠ .ok cast := by
        intro cast hv
        have hrow : ∀ ret : FRet, (if ret.entries.length ≠ ((c :: rows).take n.toNat).length * c.length
            then (.error .value : Except Err Bool)
            else match Callable.validateRows
                (Callable.reshape ((c :: rows).take n.toNat).length c.length ret.entries) ((c :: rows).take n.toNat) with
              | .error e => .error e
              | .ok () => .ok ret.castNeeded) ≠ .ok cast := by
          intro ret
          split
          · simp
          · have : ∃ o os, Callable.reshape ((c :: rows).take n.toNat).length c.length ret.entries = o :: os := by
              rw [hk, List.take_succ_cons, List.length_cons]
              exact ⟨_, _, by rw [Callable.reshape, List.range_succ_eq_map, List.map_cons]⟩
            obtain ⟨o, os, ho⟩ := this
            rw [ho, hk, List.take_succ_cons, validateRows_wide _ _ hc]
            simp
        unfold Callable.validateVector at hv
        split at hv
        · simp at hv
        · split at hv <;> simp at hv
        · exact hrow _ hv
      split
      · rename_i cast hv
        exact absurd hv (hvec cast)
      · have hlast : (((c :: rows).take n.toNat).getLastD []).length = 4 := by
          rw [hk, List.take_succ_cons, List.getLastD_cons]
          have : ∀ (l : List (List ℚ)) (a : List ℚ), a.length = 4 → (∀ r ∈ l, r.length = 4) → (l.getLastD a).length = 4 := by
            intro l
            induction l with
            | nil => intro a ha _; exact ha
            | cons b l ih =>
              intro a _ hl
              rw [List.getLastD_cons]
              exact ih b (hl b (by simp)) (fun r hr => hl r (by simp [hr]))
          exact this _ _ hc (fun r hr => h4 r (by simp [List.mem_of_mem_take hr]))
        obtain ⟨e, he⟩ := validateScalar_wide (f := f) (c := c) (n := n.toNat) hlast
        rw [he]
        exact ⟨_, rfl⟩
      · exact ⟨_, rfl⟩

/-- C82 does not hold for grid modules: no callable is accepted, whatever it does, although the documentation of the
    module offers it. -/
theorem C82_grid_fails {mi me cc : ℚ} {ncols : Nat} {rows : List (List ℚ)} (hrect : ∀ r ∈ rows, r.length = ncols) :
    ∃ e, mkGridWith mi me ncols rows f u horizon i fs cc r = .error e := by
  unfold mkGridWith
  split
  · exact ⟨_, rfl⟩
  · rename_i rows' hr
    obtain ⟨-, -, hn, -, -, rfl⟩ := (gridCheckParams_iff hrect).mp hr
    have h4 : ∀ r ∈ gridRows ncols rows, r.length = 4 := by
      intro r hr
      unfold gridRows at hr
      split at hr
      · rename_i h; rw [hrect r hr, h]
      · rename_i h
        obtain ⟨r', hr', rfl⟩ := List.mem_map.mp hr
        have := hrect r' hr'
        simp
        omega
    obtain ⟨e, he⟩ := validate_wide (f := f) (u := u) (rows := Callable.sample (gridRows ncols rows) i fs)
      (fun r hr => h4 r (List.mem_of_mem_take (List.mem_of_mem_drop hr)))
    rw [he]
    exact ⟨_, rfl⟩

/-- C82: nor does `set_forecaster` accept one for a grid that is in use. -/
theorem C82_grid_setter_fails {param : FKind} {mi me cc : ℚ} {ncols : Nat} {rows : List (List ℚ)}
    (hrect : ∀ r ∈ rows, r.length = ncols) (hm : mkGrid mi me ncols rows param horizon i fs cc r = .ok m)
    (ops : List MOp) (h : Nat) : ∃ e, ((runOps m ops).setForecasterWith f u h).2 = .error e := by
  obtain ⟨t₀, mn, mx, wf₀, -⟩ := mkGrid_inv hrect hm
  obtain ⟨t, -, wf⟩ := wf₀.ops ops
  unfold setForecasterWith
  rw [wf.kind]
  simp only
  have h4 : ∀ r ∈ t.rows, r.length = 4 := by
    intro r hr
    have := (wf.ts.valid.inBox r hr).1
    rw [this, wf.ts.valid.minLen, wf.four]
  obtain ⟨e, he⟩ := validate_wide (f := f) (u := u)
    (rows := Callable.sample t.rows (runOps m ops).initialStep t.finalStep)
    (fun r hr => h4 r (List.mem_of_mem_take (List.mem_of_mem_drop hr)))
  rw [he]
  exact ⟨_, rfl⟩

/-! ### The setter -/

/-- C82: `set_forecaster` puts a callable to the same test, on the values between the first and the last step of the
    module. -/
theorem C82_set_tried {param : FKind} {k : Nat} (hb : BuiltSeries param horizon i fs r m (column ys) k) (ops : List MOp) {h : Nat}
    (hs : ((runOps m ops).setForecasterWith f u h).2 = .ok ()) :
    3 ≤ (inRange ys i fs).length ∧ Tried f (trial u (inRange ys i fs)) := by
  obtain ⟨t₀, comps, mn, mx, hs₀, wf₀, -, -, -, hi, -⟩ := hb.start
  obtain ⟨t, hst, wf, -⟩ := wf₀.ops ops
  have hii : (runOps m ops).initialStep = i := by
    rw [← hi]
    exact (frame_runOps m ops).init
  have hrows : t.rows = column ys := by rw [hst.rows, hs₀.rows]; rfl
  have hfin : t.finalStep = if fs ≤ 0 then ys.length else fs.toNat := by
    rw [hst.finalStep, hs₀.finalStep]
    simp [TS.blank, column]
  have hsam : Callable.sample t.rows (runOps m ops).initialStep t.finalStep = column (inRange ys i fs) := by
    rw [hrows, hii, Callable.sample_column, hfin]
    congr 1
    unfold inRange
    by_cases h0 : fs ≤ 0
    · rw [if_pos h0, if_pos h0]
      split
      · rfl
      · rw [Int.toNat_natCast, List.take_length]
    · rw [if_neg h0, if_neg h0, if_neg (by omega), Int.toNat_natCast]
  have hv : ∃ v cast, Callable.validate f (column (inRange ys i fs)) u = .ok (v, cast) := by
    rw [← hsam]
    have hser := wf.series
    unfold series? at hser
    unfold setForecasterWith at hs
    cases hk : (runOps m ops).kind <;> rw [hk] at hser hs <;> simp only [Option.some.injEq, reduceCtorEq] at hser hs
    all_goals
      subst hser
      split at hs
      · simp at hs
      · rename_i v cast hv
        exact ⟨v, cast, hv⟩
  obtain ⟨v, cast, hv⟩ := hv
  obtain ⟨h3, y, x, hy, hx, h⟩ := Callable.validate_inv hv
  refine ⟨h3, y, x, hy, hx, ?_⟩
  rcases h with ⟨-, r, l, h1, h2, h4, -, h5⟩ | ⟨-, -, h1, h2⟩
  · exact .inl ⟨r, l, h1, h2, h4, h5⟩
  · exact .inr ⟨h1, h2⟩

/-- C82: a callable that is accepted forecasts as many steps as was asked for, and the observation space is made for them. -/
theorem C82_set_horizon {param : FKind} {rows : List (List ℚ)} {k : Nat}
    (hb : BuiltSeries param horizon i fs r m rows k) (ops : List MOp) {h : Nat}
    (hs : ((runOps m ops).setForecasterWith f u h).2 = .ok ()) :
    ((runOps m ops).setForecasterWith f u h).1.series?.map (·.horizon) = some h ∧
      ((runOps m ops).setForecasterWith f u h).1.obsSpace.dim = (1 + h) * k := by
  obtain ⟨t₀, comps, mn, mx, hs₀, wf₀, -, hk', -⟩ := hb.start
  obtain ⟨t, hst, wf, -⟩ := wf₀.ops ops
  have hl : t.minRow.length = k := by
    rw [wf.valid.minLen, hst.comps, hs₀.comps]
    exact hk'
  have hsome : ∀ v cast, (Callable.kind f v cast).isSome = true := by intro v cast; cases v <;> rfl
  have hd : ∀ v cast, (t.setForecaster (Callable.kind f v cast) h).obsSpace.dim = (1 + h) * k := by
    intro v cast
    simp [TS.setForecaster, TS.setHorizon, TS.obsSpace, Space.dim, TS.minObs, hl, hsome]
  have hser := wf.series
  unfold series? at hser
  unfold setForecasterWith at hs ⊢
  cases hk : (runOps m ops).kind <;> rw [hk] at hser hs <;> simp only [Option.some.injEq, reduceCtorEq] at hser hs
  all_goals
    subst hser
    split at hs
    · simp at hs
    · rename_i v cast he
      simp only [he, setForecaster, hk, putTS]
      exact ⟨by simp [series?, TS.setForecaster, TS.setHorizon, hsome], hd _ _⟩

/-- C82 does not hold in that a callable which is refused leaves the module as it was: the horizon and the observation space
    are already the new ones. -/
theorem C82_refused_setter_fails {param : FKind} {rows : List (List ℚ)} {k : Nat}
    (hb : BuiltSeries param horizon i fs r m rows k) (ops : List MOp) {h : Nat} {e : Err}
    (hs : ((runOps m ops).setForecasterWith f u h).2 = .error e) :
    ((runOps m ops).setForecasterWith f u h).1.series?.map (·.horizon) = some h ∧
      ((runOps m ops).setForecasterWith f u h).1.obsSpace.dim = (1 + h) * k := by
  obtain ⟨t₀, comps, mn, mx, hs₀, wf₀, -, hk', -⟩ := hb.start
  obtain ⟨t, hst, wf, -⟩ := wf₀.ops ops
  have hl : t.minRow.length = k := by
    rw [wf.valid.minLen, hst.comps, hs₀.comps]
    exact hk'
  have hd : (t.setHorizon h).obsSpace.dim = (1 + h) * k := by
    simp [TS.setHorizon, TS.obsSpace, Space.dim, TS.minObs, hl]
  have hser := wf.series
  unfold series? at hser
  unfold setForecasterWith at hs ⊢
  cases hk : (runOps m ops).kind <;> rw [hk] at hser hs <;> simp only [Option.some.injEq, reduceCtorEq] at hser hs
  all_goals
    subst hser
    split at hs
    · rename_i e' he
      simp only [he, setHorizon, hk, putTS]
      exact ⟨by simp [series?, TS.setHorizon], hd⟩
    · simp at hs

end

/-! ### Examples -/

/-- Half of the true values. -/
def halved : Callable := fun _ a _ =>
  match a with
  | .vec rows => .ok (.arr2 (rows.map fun r => r.map (· / 2)))
  | .row _ => .error .type

/-- The true values with the opposite sign. -/
def flipped : Callable := fun _ a _ =>
  match a with
  | .vec rows => .ok (.arr2 (rows.map fun r => r.map (-1 * ·)))
  | .row _ => .error .type

/-- Half of the true values, as a list. -/
def halvedList : Callable := fun _ a _ =>
  match a with
  | .vec rows => .ok (.list (rows.flatten.map (· / 2)))
  | .row _ => .error .type

/-- The number of steps; for single values only. -/
def stepsAhead : Callable := fun _ a n =>
  match a with
  | .vec _ => .error .type
  | .row _ => .ok (.num n)

theorem honest_halved : Honest halved := by
  intro y zs n
  refine ⟨zs.map (· / 2), by simp [halved, column], by simp, ?_⟩
  intro j q z hq hz
  rw [List.getElem?_map, hz] at hq
  simp only [Option.map_some, Option.some.injEq] at hq
  subst hq
  have := mul_self_nonneg z
  linarith

theorem scalarOnly_stepsAhead : ScalarOnly stepsAhead := fun _ _ _ => ⟨_, rfl⟩

/-- A load with the callable `halved`, looking two steps ahead. -/
def halvedLoad : Module := okModule (mkLoadWith [10, 40, 20, 30] halved 5 2 0 (-1) false)

theorem built_halvedLoad : BuiltWith halved 5 2 0 (-1) false halvedLoad [-10, -40, -20, -30] := by
  have h : mkLoadWith [10, 40, 20, 30] halved 5 2 0 (-1) false = .ok halvedLoad := okModule_eq (by decide +kernel)
  simpa using BuiltWith.load h

example : (halvedLoad.series?.bind (·.cur)) = some [[-20], [-10]] := by decide +kernel
example : ((runOps halvedLoad [.step (.num 0) false, .step (.num 0) false]).series?.bind (·.cur)) = some [[-15], [-20]] := by
  decide +kernel
example : trial 5 (inRange [-10, -40, -20, -30] 0 (-1)) = [-10, -40, -20] := by decide +kernel
example : presented (-40) 0 2 [-15] = [-15, -20] := by decide +kernel
example : (mkLoadWith [10, 40, 20, 30] flipped 5 2 0 (-1) false).isOk = false := by decide +kernel
example : ∃ (j : Nat) (z : ℚ), j < 2 ∧ (inRange [-10, -40, -20, -30] 0 (-1))[j]? = some z ∧
    ∀ (y : ℚ) (n : Nat), 2 ≤ n → ∃ (ret : FRet) (l : List ℚ) (q : ℚ),
      flipped [y] (.vec (column ((inRange [-10, -40, -20, -30] 0 (-1)).take n))) n = .ok ret ∧ Carries ret l ∧
        l[j]? = some q ∧ q * z < 0 := by
  refine ⟨1, -40, by omega, by decide +kernel, ?_⟩
  intro y n hn
  obtain ⟨n, rfl⟩ : ∃ k, n = k + 2 := ⟨n - 2, by omega⟩
  refine ⟨_, _, 40, rfl, .arr2 _, ?_, by norm_num⟩
  simp [inRange, column]
example : (mkLoadWith [10, 40, 20, 30] halvedList 5 2 0 (-1) false).isOk = false := by decide +kernel
example : (Callable.validate halvedList (column [-10, -40, -20, -30]) 5).toOption = some (true, true) := by decide +kernel

/-- A renewable with the callable `stepsAhead`, looking two steps ahead. -/
def countedPV : Module := okModule (mkRenewableWith [5, 5, 5, 5, 5] stepsAhead 0 2 0 (-1) false)

theorem built_countedPV : BuiltWith stepsAhead 0 2 0 (-1) false countedPV [5, 5, 5, 5, 5] := by
  have h : mkRenewableWith [5, 5, 5, 5, 5] stepsAhead 0 2 0 (-1) false = .ok countedPV := okModule_eq (by decide +kernel)
  simpa using BuiltWith.renewable h

/-- C82 does not hold for the number of steps: a callable that predicts the number of steps it is asked to look ahead
    predicts 0 and 1 for the next two steps. -/
theorem C82_steps_ahead_fails : ∃ (f : Callable) (m : Module) (ys : List ℚ), BuiltWith f 0 2 0 (-1) false m ys ∧
    (∀ (y z : ℚ) (n : Nat), f [y] (.row [z]) n = .ok (.num n)) ∧ (∀ y ∈ ys, y = 5) ∧
    (m.series?.bind (·.cur)) = some [[0], [1]] :=
  ⟨stepsAhead, countedPV, _, built_countedPV, fun _ _ _ => rfl, by simp, by decide +kernel⟩

example : ((runOps countedPV [.step (.num 1) false]).step (.num 1) false).2.isOk = true := by decide +kernel
example : ((runOps countedPV [.step (.num 1) false, .step (.num 1) false]).step (.num 1) false).2.isOk = false := by decide +kernel
example : (runOps countedPV [.step (.num 1) false, .step (.num 1) false]).currentStep = 2 := by decide +kernel
example : (mkGridWith 10 5 3 [[1, 2, 3], [1, 2, 3], [1, 2, 3]] halved 0 2 0 (-1) 0 false).isOk = false := by decide +kernel
example : (Module.mkGrid 10 5 3 [[1, 2, 3], [1, 2, 3], [1, 2, 3]] .oracle 2 0 (-1) 0 false).isOk = true := by decide +kernel
example : (plainLoad.setForecasterWith halved 5 2).2.isOk = true := by decide +kernel
example : ((plainLoad.setForecasterWith halved 5 2).1.step (.num 0) false).1.series?.bind (·.cur) =
    some [[-10], [-15]] := by decide +kernel
example : (plainLoad.setForecasterWith flipped 5 2).2.isOk = false := by decide +kernel
example : (plainLoad.series?.map (·.horizon)) = some 0 := by decide +kernel
example : ((plainLoad.setForecasterWith flipped 5 2).1.series?.map (·.horizon)) = some 2 := by decide +kernel
example : (mkLoadWith [10, 40] halved 5 2 0 (-1) false).isOk = false := by decide +kernel

end Pymgrid
