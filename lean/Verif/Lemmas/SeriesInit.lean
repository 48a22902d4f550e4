import Verif.Lemmas.TSModule

set_option autoImplicit false

/-! Constructors of the time-series modules. -/

namespace Pymgrid

theorem foldl_min_le (xs : List ℚ) : ∀ x, xs.foldl min x ≤ x ∧ (∀ y ∈ xs, xs.foldl min x ≤ y) ∧
    (xs.foldl min x = x ∨ xs.foldl min x ∈ xs) := by
  induction xs with
  | nil => intro x; simp
  | cons y xs ih =>
    intro x
    obtain ⟨h₁, h₂, h₃⟩ := ih (min x y)
    simp only [List.foldl_cons, List.mem_cons]
    refine ⟨h₁.trans (min_le_left _ _), ?_, ?_⟩
    · rintro z (rfl | hz)
      · exact h₁.trans (min_le_right _ _)
      · exact h₂ z hz
    · rcases h₃ with h₃ | h₃
      · rw [h₃]
        rcases min_choice x y with h | h <;> rw [h] <;> simp
      · exact .inr (.inr h₃)

theorem foldl_max_ge (xs : List ℚ) : ∀ x, x ≤ xs.foldl max x ∧ (∀ y ∈ xs, y ≤ xs.foldl max x) ∧
    (xs.foldl max x = x ∨ xs.foldl max x ∈ xs) := by
  induction xs with
  | nil => intro x; simp
  | cons y xs ih =>
    intro x
    obtain ⟨h₁, h₂, h₃⟩ := ih (max x y)
    simp only [List.foldl_cons, List.mem_cons]
    refine ⟨(le_max_left _ _).trans h₁, ?_, ?_⟩
    · rintro z (rfl | hz)
      · exact (le_max_right _ _).trans h₁
      · exact h₂ z hz
    · rcases h₃ with h₃ | h₃
      · rw [h₃]
        rcases max_choice x y with h | h <;> rw [h] <;> simp
      · exact .inr (.inr h₃)

/-- What `_get_bounds` returns. -/
theorem getBounds_spec {xs : List ℚ} {mn mx : ℚ} (h : getBounds xs = .ok (mn, mx)) :
    xs ≠ [] ∧ (∀ x ∈ xs, mn ≤ x ∧ x ≤ mx) ∧ mn ≤ 0 ∧ 0 ≤ mx ∧ (mn = 0 ∨ mn ∈ xs) ∧ (mx = 0 ∨ mx ∈ xs) := by
  cases xs with
  | nil => simp [getBounds, listMin] at h
  | cons x xs =>
    obtain ⟨a₁, a₂, a₃⟩ := foldl_min_le xs x
    obtain ⟨b₁, b₂, b₃⟩ := foldl_max_ge xs x
    have ha : ∀ y ∈ x :: xs, xs.foldl min x ≤ y := by
      intro y hy
      rcases List.mem_cons.mp hy with rfl | hy
      · exact a₁
      · exact a₂ y hy
    have hb : ∀ y ∈ x :: xs, y ≤ xs.foldl max x := by
      intro y hy
      rcases List.mem_cons.mp hy with rfl | hy
      · exact b₁
      · exact b₂ y hy
    have ma : xs.foldl min x ∈ x :: xs := by simpa using a₃
    have mb : xs.foldl max x ∈ x :: xs := by simpa using b₃
    simp only [getBounds, listMin, listMax] at h
    refine ⟨by simp, ?_⟩
    split at h
    · rename_i hp
      simp only [Except.ok.injEq, Prod.mk.injEq] at h
      obtain ⟨rfl, rfl⟩ := h
      exact ⟨fun y hy => ⟨hp.le.trans (ha y hy), hb y hy⟩, le_rfl, hp.le.trans (ha _ mb), .inl rfl, .inr mb⟩
    · rename_i hp
      split at h
      · rename_i hn
        simp only [Except.ok.injEq, Prod.mk.injEq] at h
        obtain ⟨rfl, rfl⟩ := h
        exact ⟨fun y hy => ⟨ha y hy, (hb y hy).trans hn.le⟩, not_lt.mp hp, le_rfl, .inr ma, .inl rfl⟩
      · rename_i hn
        simp only [Except.ok.injEq, Prod.mk.injEq] at h
        obtain ⟨rfl, rfl⟩ := h
        exact ⟨fun y hy => ⟨ha y hy, hb y hy⟩, not_lt.mp hp, not_lt.mp hn, .inr ma, .inr mb⟩

/-- `_get_bounds` fails on empty series only. -/
theorem getBounds_ok {xs : List ℚ} (h : xs ≠ []) : ∃ mn mx, getBounds xs = .ok (mn, mx) := by
  cases xs with
  | nil => exact absurd rfl h
  | cons x xs =>
    simp only [getBounds, listMin, listMax]
    split
    · exact ⟨_, _, rfl⟩
    · split <;> exact ⟨_, _, rfl⟩

/-- The lower bound of a series without negative values is 0. -/
theorem getBounds_zero {xs : List ℚ} {mn mx : ℚ} (h : getBounds xs = .ok (mn, mx)) (h0 : ∀ x ∈ xs, 0 ≤ x) : mn = 0 := by
  obtain ⟨-, -, h1, -, h2, -⟩ := getBounds_spec h
  rcases h2 with h2 | h2
  · exact h2
  · exact le_antisymm h1 (h0 mn h2)

/-- The series that `TS.create` sets up before computing the first forecast. -/
def TS.blank (rows : List (List ℚ)) (comps : List String) (mn mx : List ℚ) (param : FKind)
    (horizon : Nat) (fs : Int) : TS :=
  { rows, comps, minRow := mn, maxRow := mx
    finalStep := if fs ≤ 0 then rows.length else fs.toNat
    horizon := if param.isSome then horizon else 0, param
    forecaster := Forecaster.get param mn mx (if param.isSome then horizon else 0), cur := none }

theorem TS.blank_valid {rows : List (List ℚ)} {comps : List String} {mn mx : List ℚ} (param : FKind)
    (horizon : Nat) (fs : Int) (hlen : mn.length = comps.length) (hbox : Within mn mx mn)
    (hin : ∀ r ∈ rows, Within mn mx r) : (TS.blank rows comps mn mx param horizon fs).Valid := by
  refine ⟨hlen, hbox, hin, rfl, rfl, rfl, rfl, ?_⟩
  intro hk
  cases param <;> simp_all [Forecaster.get, FKind.isSome, blank]

theorem TS.blank_works {rows : List (List ℚ)} {comps : List String} {mn mx : List ℚ} {param : FKind}
    {horizon : Nat} {fs : Int} (hw : param.Works comps.length horizon) :
    (TS.blank rows comps mn mx param horizon fs).forecaster.kind.Works comps.length
      (TS.blank rows comps mn mx param horizon fs).horizon := by
  cases param with
  | none => trivial
  | oracle => trivial
  | gaussian noise inc std =>
    simp only [blank, Forecaster.get, FKind.isSome, if_true, FKind.Works]
    cases inc <;> simp
  | user f => exact hw
  | userScalar f => exact hw

/-- The stored forecast is one the forecaster computed at the current step. -/
def TS.Fresh (t : TS) (c : Nat) : Prop := ∃ d, ({ t with draws := d } : TS).forecastValue c = .ok t.cur

/-- Everything `TS.create` guarantees. -/
theorem TS.create_inv {rows : List (List ℚ)} {comps : List String} {mn mx : List ℚ} {param : FKind}
    {horizon i : Nat} {fs : Int} {t : TS} (hc : TS.create rows comps mn mx param horizon i fs = .ok t)
    (hlen : mn.length = comps.length) (hbox : Within mn mx mn) (hin : ∀ r ∈ rows, Within mn mx r) :
    TS.Same (TS.blank rows comps mn mx param horizon fs) t ∧ t.Valid ∧ t.Shaped t.cur ∧ t.Fresh i := by
  have hv := TS.blank_valid param horizon fs hlen hbox hin
  unfold TS.create at hc
  simp only at hc
  change (match (TS.blank rows comps mn mx param horizon fs).refresh i with
    | (t', .ok ()) => Except.ok t' | (_, .error e) => .error e) = .ok t at hc
  rcases hv.refresh i with ⟨f, hf, hr⟩ | ⟨e, hf, hr⟩
  · rw [hr] at hc
    simp only [Except.ok.injEq] at hc
    subst hc
    exact ⟨rfl, (TS.Same.mk' _ _ _).valid hv, hv.forecast_shaped hf, 0, hf⟩
  · rw [hr] at hc
    simp at hc

theorem TS.create_ok {rows : List (List ℚ)} {comps : List String} {mn mx : List ℚ} {param : FKind}
    {horizon i : Nat} {fs : Int} (hw : param.Works comps.length horizon)
    (hlen : mn.length = comps.length) (hbox : Within mn mx mn) (hin : ∀ r ∈ rows, Within mn mx r) :
    ∃ t, TS.create rows comps mn mx param horizon i fs = .ok t := by
  have hv := TS.blank_valid param horizon fs hlen hbox hin
  obtain ⟨f, hf⟩ := hv.forecast_ok (TS.blank_works hw) i
  rcases hv.refresh i with ⟨f, -, hr⟩ | ⟨e, he, -⟩
  · refine ⟨{ TS.blank rows comps mn mx param horizon fs with cur := f, draws := 0 + 1 }, ?_⟩
    unfold TS.create
    simp only
    change (match (TS.blank rows comps mn mx param horizon fs).refresh i with
      | (t', .ok ()) => Except.ok t' | (_, .error e) => .error e) = _
    rw [hr]
    rfl
  · rw [he] at hf; simp at hf

/-! ### One-column series -/

theorem signCheck_sink {xs ys : List ℚ} (h : signCheck false xs = .ok ys) :
    ys = xs.map (fun x => -|x|) ∧ ((∀ x ∈ xs, x ≤ 0) ∨ (∀ x ∈ xs, 0 ≤ x)) := by
  unfold signCheck at h
  split at h
  · simp at h
  · rename_i hs
    simp only [Bool.false_eq_true, if_false, Except.ok.injEq] at h
    exact ⟨h.symm, not_not.mp hs⟩

theorem signCheck_source {xs ys : List ℚ} (h : signCheck true xs = .ok ys) :
    ys = xs.map (fun x => |x|) ∧ ((∀ x ∈ xs, x ≤ 0) ∨ (∀ x ∈ xs, 0 ≤ x)) := by
  unfold signCheck at h
  split at h
  · simp at h
  · rename_i hs
    simp only [if_true, Except.ok.injEq] at h
    exact ⟨h.symm, not_not.mp hs⟩

theorem within_column {xs : List ℚ} {mn mx : ℚ} (h : ∀ x ∈ xs, mn ≤ x ∧ x ≤ mx) :
    ∀ r ∈ xs.map (fun x => [x]), Within [mn] [mx] r := by
  intro r hr
  obtain ⟨x, hx, rfl⟩ := List.mem_map.mp hr
  exact Within.single.mpr (h x hx)

theorem dim_obsSpace {t : TS} (h : t.minRow.length = t.comps.length) :
    t.obsSpace.dim = (1 + t.horizon) * t.comps.length := by
  simp [TS.obsSpace, Space.dim, TS.minObs, h]

namespace Module

/-- A load module in a consistent state. -/
structure LoadWF (m : Module) (t : TS) : Prop where
  kind : m.kind = .load t
  ts : m.TSWF t
  one : t.comps.length = 1
  ffc : m.ffc = .fixed
  prov : m.provName = none
  abs : m.absName = some (.str "load_met")
  sign : ∀ r ∈ t.rows, ∀ x ∈ r, x ≤ 0

/-- A renewable module in a consistent state. -/
structure RenWF (m : Module) (t : TS) : Prop where
  kind : m.kind = .renewable t
  ts : m.TSWF t
  one : t.comps.length = 1
  ffc : m.ffc = .flex
  prov : m.provName = some (.str "renewable_used")
  abs : m.absName = none
  sign : ∀ r ∈ t.rows, ∀ x ∈ r, 0 ≤ x
  low : t.minRow = [0]

/-- A grid module in a consistent state. -/
structure GridWF (m : Module) (p : GridParams) (t : TS) : Prop where
  kind : m.kind = .grid p t
  ts : m.TSWF t
  names : t.comps = gridComps
  ffc : m.ffc ≠ .fixed
  prov : m.provName = some (.str "grid_import")
  abs : m.absName = some (.str "grid_export")
  imp : 0 ≤ p.maxImport
  exp : 0 ≤ p.maxExport
  status : ∀ r ∈ t.rows, r[3]? = some 0 ∨ r[3]? = some 1
  nonneg : ∀ r ∈ t.rows, ∀ x ∈ r, 0 ≤ x

theorem GridWF.four {m : Module} {p : GridParams} {t : TS} (h : m.GridWF p t) : t.comps.length = 4 := by
  rw [h.names]; rfl

theorem mkLoad_inv {xs : List ℚ} {param : FKind} {horizon i : Nat} {fs : Int} {r : Bool} {m : Module}
    (hm : mkLoad xs param horizon i fs r = .ok m) :
    ∃ t mn mx, m.LoadWF t ∧ t.Fresh i ∧ getBounds (xs.map (fun x => -|x|)) = .ok (mn, mx) ∧
      TS.Same (TS.blank (xs.map (fun x => [-|x|])) ["load"] [mn] [mx] param horizon fs) t ∧
      ((∀ x ∈ xs, x ≤ 0) ∨ (∀ x ∈ xs, 0 ≤ x)) ∧
      m.initialStep = i ∧ m.currentStep = i ∧ m.raiseErrors = r ∧ m.logger = {} ∧
      m.actSpace = some ⟨[], []⟩ ∧ m.obsSpace = t.obsSpace := by
  unfold mkLoad at hm
  split at hm
  · simp at hm
  rename_i ys hs
  obtain ⟨rfl, hsign⟩ := signCheck_sink hs
  split at hm
  · simp at hm
  rename_i mn mx hb
  obtain ⟨-, hbd, -⟩ := getBounds_spec hb
  split at hm
  · simp at hm
  rename_i t ht
  simp only [Except.ok.injEq] at hm
  subst hm
  have hbox : Within [mn] [mx] [mn] := by
    obtain ⟨h1, h2, h3, h4, -⟩ := getBounds_spec hb
    exact Within.single.mpr ⟨le_rfl, h3.trans h4⟩
  obtain ⟨hsame, hv, hsh, hfr⟩ := TS.create_inv ht rfl hbox (within_column hbd)
  refine ⟨t, mn, mx, ⟨rfl, ⟨rfl, hv, hsh, dim_obsSpace hv.minLen⟩, by rw [hsame.comps]; rfl, rfl, rfl, rfl, ?_⟩,
    hfr, hb, ?_, hsign, rfl, rfl, rfl, rfl, rfl, rfl⟩
  · intro r hr x hx
    rw [hsame.rows] at hr
    simp only [TS.blank, List.map_map, List.mem_map, Function.comp] at hr
    obtain ⟨y, -, rfl⟩ := hr
    simp only [List.mem_singleton] at hx
    subst hx
    exact neg_nonpos.mpr (abs_nonneg y)
  · rw [List.map_map] at hsame
    exact hsame

theorem mkRenewable_inv {xs : List ℚ} {param : FKind} {horizon i : Nat} {fs : Int} {r : Bool} {m : Module}
    (hm : mkRenewable xs param horizon i fs r = .ok m) :
    ∃ t mn mx, m.RenWF t ∧ t.Fresh i ∧ getBounds (xs.map (fun x => |x|)) = .ok (mn, mx) ∧
      TS.Same (TS.blank (xs.map (fun x => [|x|])) ["renewable"] [mn] [mx] param horizon fs) t ∧
      ((∀ x ∈ xs, x ≤ 0) ∨ (∀ x ∈ xs, 0 ≤ x)) ∧
      m.initialStep = i ∧ m.currentStep = i ∧ m.raiseErrors = r ∧ m.logger = {} ∧
      m.actSpace = some ⟨[mn], [mx]⟩ ∧ m.obsSpace = t.obsSpace := by
  unfold mkRenewable at hm
  split at hm
  · simp at hm
  rename_i ys hs
  obtain ⟨rfl, hsign⟩ := signCheck_source hs
  split at hm
  · simp at hm
  rename_i mn mx hb
  obtain ⟨-, hbd, -⟩ := getBounds_spec hb
  split at hm
  · simp at hm
  rename_i t ht
  simp only [Except.ok.injEq] at hm
  subst hm
  have hbox : Within [mn] [mx] [mn] := by
    obtain ⟨h1, h2, h3, h4, -⟩ := getBounds_spec hb
    exact Within.single.mpr ⟨le_rfl, h3.trans h4⟩
  obtain ⟨hsame, hv, hsh, hfr⟩ := TS.create_inv ht rfl hbox (within_column hbd)
  refine ⟨t, mn, mx, ⟨rfl, ⟨rfl, hv, hsh, dim_obsSpace hv.minLen⟩, by rw [hsame.comps]; rfl, rfl, rfl, rfl, ?_, ?_⟩,
    hfr, hb, ?_, hsign, rfl, rfl, rfl, rfl, rfl, rfl⟩
  · intro r hr x hx
    rw [hsame.rows] at hr
    simp only [TS.blank, List.map_map, List.mem_map, Function.comp] at hr
    obtain ⟨y, -, rfl⟩ := hr
    simp only [List.mem_singleton] at hx
    subst hx
    exact abs_nonneg y
  · rw [hsame.minRow]
    exact congrArg (fun x => [x]) (getBounds_zero hb (by simp))
  · rw [List.map_map] at hsame
    exact hsame

end Module

/-! ### Grid series -/

theorem foldl_zipWith_bounds (rs : List (List ℚ)) : ∀ (r : List ℚ), (∀ s ∈ rs, s.length = r.length) →
    (rs.foldl (List.zipWith min) r).length = r.length ∧ (rs.foldl (List.zipWith max) r).length = r.length ∧
    ∀ s, (s = r ∨ s ∈ rs) → Within (rs.foldl (List.zipWith min) r) (rs.foldl (List.zipWith max) r) s := by
  have gen : ∀ (rs : List (List ℚ)) (lo hi : List ℚ), lo.length = hi.length →
      (∀ s ∈ rs, s.length = lo.length) →
      (rs.foldl (List.zipWith min) lo).length = lo.length ∧ (rs.foldl (List.zipWith max) hi).length = hi.length ∧
      (∀ s, Within lo hi s → Within (rs.foldl (List.zipWith min) lo) (rs.foldl (List.zipWith max) hi) s) ∧
      (∀ s ∈ rs, Within (rs.foldl (List.zipWith min) lo) (rs.foldl (List.zipWith max) hi) s) := by
    intro rs
    induction rs with
    | nil => intro lo hi _ _; exact ⟨rfl, rfl, fun s hs => hs, by simp⟩
    | cons r rs ih =>
      intro lo hi hl hs
      have hr : r.length = lo.length := hs r (by simp)
      have l1 : (List.zipWith min lo r).length = lo.length := by simp [hr]
      have l2 : (List.zipWith max hi r).length = hi.length := by simp [hr, hl]
      obtain ⟨a, b, c, d⟩ := ih (List.zipWith min lo r) (List.zipWith max hi r) (by rw [l1, l2, hl])
        (fun s hs' => by rw [l1]; exact hs s (by simp [hs']))
      simp only [List.foldl_cons]
      refine ⟨a.trans l1, b.trans l2, fun s hw => c s ?_, ?_⟩
      · refine ⟨by rw [l1]; exact hw.1, by rw [l2]; exact hw.2.1, ?_⟩
        intro j l h v e1 e2 e3
        rw [List.getElem?_zipWith] at e1 e2
        cases h1 : lo[j]? with
        | none => simp [h1] at e1
        | some l0 =>
          cases h2 : hi[j]? with
          | none => simp [h2] at e2
          | some h0 =>
            cases h3 : r[j]? with
            | none => simp [h1, h3] at e1
            | some x0 =>
              simp only [h1, h3, Option.some.injEq] at e1
              simp only [h2, h3, Option.some.injEq] at e2
              have := hw.2.2 j l0 h0 v h1 h2 e3
              subst e1 e2
              exact ⟨(min_le_left _ _).trans this.1, this.2.trans (le_max_left _ _)⟩
      · intro s hs'
        rcases List.mem_cons.mp hs' with rfl | hs'
        · refine c s ⟨by rw [l1]; exact hr, by rw [l2, ← hl]; exact hr, ?_⟩
          intro j l h v e1 e2 e3
          rw [List.getElem?_zipWith] at e1 e2
          cases h1 : lo[j]? with
          | none => simp [h1] at e1
          | some l0 =>
            cases h2 : hi[j]? with
            | none => simp [h2] at e2
            | some h0 =>
              simp only [h1, e3, Option.some.injEq] at e1
              simp only [h2, e3, Option.some.injEq] at e2
              subst e1 e2
              exact ⟨min_le_right _ _, le_max_right _ _⟩
        · exact d s hs'
  intro r hs
  obtain ⟨a, b, c, d⟩ := gen rs r r rfl hs
  refine ⟨a, b, ?_⟩
  have hself : Within r r r := ⟨rfl, rfl, by
    intro j l h v e1 e2 e3
    rw [e1] at e2 e3
    simp only [Option.some.injEq] at e2 e3
    subst e2 e3
    exact ⟨le_rfl, le_rfl⟩⟩
  rintro s (rfl | hs')
  · exact c s hself
  · exact d s hs'

/-- The rows a grid module stores: with the status column filled in. -/
def gridRows (ncols : Nat) (rows : List (List ℚ)) : List (List ℚ) :=
  if ncols = 4 then rows else rows.map (fun r => r ++ [1])

/-- When `_check_params` accepts. -/
theorem gridCheckParams_iff {mi me : ℚ} {ncols : Nat} {rows rows' : List (List ℚ)}
    (hrect : ∀ r ∈ rows, r.length = ncols) :
    gridCheckParams mi me ncols rows = .ok rows' ↔
      0 ≤ mi ∧ 0 ≤ me ∧ (ncols = 3 ∨ ncols = 4) ∧ (∀ r ∈ rows, ∀ x ∈ r, 0 ≤ x) ∧
        (ncols = 4 → ∀ r ∈ rows, r[3]? = some 0 ∨ r[3]? = some 1) ∧ rows' = gridRows ncols rows := by
  unfold gridCheckParams gridRows
  by_cases h1 : mi < 0
  · simp [h1]
  rw [if_neg h1]
  by_cases h2 : me < 0
  · simp [h2]
  rw [if_neg h2]
  by_cases h3 : ncols ≠ 3 ∧ ncols ≠ 4
  · rw [if_pos h3]
    simp only [reduceCtorEq, false_iff, not_and]
    intro _ _ h; omega
  rw [if_neg h3]
  have h3' : ncols = 3 ∨ ncols = 4 := by omega
  by_cases h4 : ncols = 4
  · rw [if_pos h4]
    have hlast : ∀ r ∈ rows, r.getLast? = r[3]? := by
      intro r hr
      rw [List.getLast?_eq_getElem?, hrect r hr, h4]
    by_cases h5 : ∀ r ∈ rows, r.getLast? = some 0 ∨ r.getLast? = some 1
    · rw [if_neg (not_not.mpr h5)]
      have h5' : ∀ r ∈ rows, r[3]? = some 0 ∨ r[3]? = some 1 := fun r hr => hlast r hr ▸ h5 r hr
      by_cases h6 : ∃ r ∈ rows, ∃ x ∈ r, x < 0
      · rw [if_pos h6]
        simp only [reduceCtorEq, false_iff]
        rintro ⟨-, -, -, h, -⟩
        obtain ⟨r, hr, x, hx, hlt⟩ := h6
        exact absurd (h r hr x hx) (not_le.mpr hlt)
      · rw [if_neg h6]
        simp only [Except.ok.injEq, h4, if_true]
        refine ⟨fun h => ⟨not_lt.mp h1, not_lt.mp h2, .inr trivial, ?_, fun _ => h5', h.symm⟩,
          fun h => h.2.2.2.2.2.symm⟩
        intro r hr x hx
        by_contra hlt
        exact h6 ⟨r, hr, x, hx, not_le.mp hlt⟩
    · rw [if_pos h5]
      simp only [reduceCtorEq, false_iff]
      rintro ⟨-, -, -, -, h, -⟩
      exact h5 (fun r hr => (hlast r hr).symm ▸ h h4 r hr)
  · rw [if_neg h4]
    simp only
    by_cases h6 : ∃ r ∈ rows.map (fun r => r ++ [1]), ∃ x ∈ r, x < 0
    · rw [if_pos h6]
      simp only [reduceCtorEq, false_iff]
      rintro ⟨-, -, -, h, -⟩
      obtain ⟨r, hr, x, hx, hlt⟩ := h6
      obtain ⟨r₁, hr₁, rfl⟩ := List.mem_map.mp hr
      rcases List.mem_append.mp hx with hx | hx
      · exact absurd (h r₁ hr₁ x hx) (not_le.mpr hlt)
      · simp only [List.mem_singleton] at hx
        subst hx
        exact absurd hlt (by norm_num)
    · rw [if_neg h6]
      simp only [Except.ok.injEq, h4, if_false]
      refine ⟨fun h => ⟨not_lt.mp h1, not_lt.mp h2, .inl (by omega), ?_, fun h => absurd h (by simp), h.symm⟩,
        fun h => h.2.2.2.2.2.symm⟩
      intro r hr x hx
      by_contra hlt
      exact h6 ⟨r ++ [1], List.mem_map.mpr ⟨r, hr, rfl⟩, x, by simp [hx], not_le.mp hlt⟩

theorem gridRows_spec {ncols : Nat} {rows : List (List ℚ)} (hrect : ∀ r ∈ rows, r.length = ncols)
    (h3 : ncols = 3 ∨ ncols = 4) (hpos : ∀ r ∈ rows, ∀ x ∈ r, 0 ≤ x)
    (h4 : ncols = 4 → ∀ r ∈ rows, r[3]? = some 0 ∨ r[3]? = some 1) :
    ∀ r ∈ gridRows ncols rows, r.length = 4 ∧ (r[3]? = some 0 ∨ r[3]? = some 1) ∧ ∀ x ∈ r, 0 ≤ x := by
  intro r hr
  unfold gridRows at hr
  split at hr
  · rename_i h
    exact ⟨by rw [hrect r hr, h], h4 h r hr, hpos r hr⟩
  · rename_i h
    obtain ⟨r₁, hr₁, rfl⟩ := List.mem_map.mp hr
    have hl : r₁.length = 3 := by have := hrect r₁ hr₁; omega
    refine ⟨by simp [hl], .inr ?_, ?_⟩
    · rw [List.getElem?_append_right (by omega)]; simp [hl]
    · intro x hx
      rcases List.mem_append.mp hx with hx | hx
      · exact hpos r₁ hr₁ x hx
      · simp only [List.mem_singleton] at hx; subst hx; norm_num

namespace Module

theorem mkGrid_inv {mi me cc : ℚ} {ncols : Nat} {rows : List (List ℚ)} {param : FKind} {horizon i : Nat}
    {fs : Int} {r : Bool} {m : Module} (hrect : ∀ r ∈ rows, r.length = ncols)
    (hm : mkGrid mi me ncols rows param horizon i fs cc r = .ok m) :
    ∃ t mn mx, m.GridWF ⟨mi, me, cc⟩ t ∧ t.Fresh i ∧ rows ≠ [] ∧
      TS.Same (TS.blank (gridRows ncols rows) gridComps mn mx param horizon fs) t ∧
      (ncols = 3 ∨ ncols = 4) ∧ m.ffc = .controllable ∧
      m.initialStep = i ∧ m.currentStep = i ∧ m.raiseErrors = r ∧ m.logger = {} ∧
      m.actSpace = some ⟨[-1 * me], [mi]⟩ ∧ m.obsSpace = t.obsSpace := by
  unfold mkGrid at hm
  split at hm
  · simp at hm
  rename_i rows' hc
  obtain ⟨hmi, hme, h34, hpos, h4, rfl⟩ := (gridCheckParams_iff hrect).mp hc
  have hspec := gridRows_spec hrect h34 hpos h4
  cases hrows : gridRows ncols rows with
  | nil => rw [hrows] at hm; simp [colFold] at hm
  | cons r₀ rs =>
    rw [hrows] at hm
    simp only [colFold] at hm
    rw [hrows] at hspec
    have hl₀ : r₀.length = 4 := (hspec r₀ (by simp)).1
    obtain ⟨l1, l2, hw⟩ := foldl_zipWith_bounds rs r₀ (fun s hs => by rw [hl₀]; exact (hspec s (by simp [hs])).1)
    split at hm
    · simp at hm
    rename_i t ht
    simp only [Except.ok.injEq] at hm
    subst hm
    have hin : ∀ s ∈ r₀ :: rs, Within (rs.foldl (List.zipWith min) r₀) (rs.foldl (List.zipWith max) r₀) s :=
      fun s hs => hw s (by simpa using hs)
    have hbox : Within (rs.foldl (List.zipWith min) r₀) (rs.foldl (List.zipWith max) r₀)
        (rs.foldl (List.zipWith min) r₀) := by
      have w := hin r₀ (by simp)
      refine ⟨rfl, by rw [l1, l2], ?_⟩
      intro j l h v e1 e2 e3
      rw [e1] at e3
      simp only [Option.some.injEq] at e3
      subst e3
      have hj : j < r₀.length := by
        have := (List.getElem?_eq_some_iff.mp e1).1
        rwa [l1] at this
      have := w.2.2 j l h r₀[j] e1 e2 (List.getElem?_eq_getElem hj)
      exact ⟨le_rfl, this.1.trans this.2⟩
    obtain ⟨hsame, hv, hsh, hfr⟩ := TS.create_inv ht (by rw [l1, hl₀]; rfl) hbox hin
    refine ⟨t, _, _, ⟨rfl, ⟨rfl, hv, hsh, dim_obsSpace hv.minLen⟩, by rw [hsame.comps]; rfl, by simp, rfl, rfl,
      hmi, hme, ?_, ?_⟩, hfr, ?_, hsame, h34, rfl, rfl, rfl, rfl, rfl, rfl, rfl⟩
    · intro r hr
      rw [hsame.rows] at hr
      exact (hspec r hr).2.1
    · intro r hr
      rw [hsame.rows] at hr
      exact (hspec r hr).2.2
    · rintro rfl
      simp [gridRows] at hrows

theorem mkGrid_ok {mi me cc : ℚ} {ncols : Nat} {rows rows' : List (List ℚ)} {param : FKind} {horizon i : Nat}
    {fs : Int} {r : Bool} (hrect : ∀ r ∈ rows, r.length = ncols) (hne : rows ≠ []) (hw : param.Works 4 horizon)
    (hc : gridCheckParams mi me ncols rows = .ok rows') :
    ∃ m, mkGrid mi me ncols rows param horizon i fs cc r = .ok m := by
  unfold mkGrid
  rw [hc]
  simp only
  obtain ⟨-, -, h34, hpos, h4, rfl⟩ := (gridCheckParams_iff hrect).mp hc
  have hspec := gridRows_spec hrect h34 hpos h4
  cases hrows : gridRows ncols rows with
  | nil =>
    unfold gridRows at hrows
    split at hrows
    · exact absurd hrows hne
    · exact absurd (List.map_eq_nil_iff.mp hrows) hne
  | cons r₀ rs =>
    simp only [colFold]
    rw [hrows] at hspec
    have hl₀ : r₀.length = 4 := (hspec r₀ (by simp)).1
    obtain ⟨l1, l2, hwb⟩ := foldl_zipWith_bounds rs r₀ (fun s hs => by rw [hl₀]; exact (hspec s (by simp [hs])).1)
    have hin : ∀ s ∈ r₀ :: rs, Within (rs.foldl (List.zipWith min) r₀) (rs.foldl (List.zipWith max) r₀) s :=
      fun s hs => hwb s (by simpa using hs)
    have hbox : Within (rs.foldl (List.zipWith min) r₀) (rs.foldl (List.zipWith max) r₀)
        (rs.foldl (List.zipWith min) r₀) := by
      have w := hin r₀ (by simp)
      refine ⟨rfl, by rw [l1, l2], ?_⟩
      intro j l h v e1 e2 e3
      rw [e1] at e3
      simp only [Option.some.injEq] at e3
      subst e3
      have hj : j < r₀.length := by
        have := (List.getElem?_eq_some_iff.mp e1).1
        rwa [l1] at this
      have := w.2.2 j l h r₀[j] e1 e2 (List.getElem?_eq_getElem hj)
      exact ⟨le_rfl, this.1.trans this.2⟩
    obtain ⟨t, ht⟩ := TS.create_ok (rows := r₀ :: rs) (comps := gridComps) (param := param) (horizon := horizon)
      (i := i) (fs := fs) hw (by rw [l1, hl₀]; rfl) hbox hin
    rw [ht]
    exact ⟨_, rfl⟩

end Module

end Pymgrid
