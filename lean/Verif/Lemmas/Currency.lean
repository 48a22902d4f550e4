import Verif.Lemmas.Rename
import Verif.Spec.Currency

set_option autoImplicit false

/-! Helper lemmas for C86. -/

namespace Pymgrid

/-! ### Rows -/

/-- Multiply the entries of a row by factors. -/
def scaleBy (s : Nat → ℚ) : List ℚ → List ℚ
  | [] => []
  | x :: l => s 0 * x :: scaleBy (fun j => s (j + 1)) l

/-- The factors of a row of grid data. -/
def priceUnit (k : ℚ) (j : Nat) : ℚ := if j < 2 then k else 1

theorem mapIdx_scaleBy (s : Nat → ℚ) (row : List ℚ) : row.mapIdx (fun j x => s j * x) = scaleBy s row := by
  induction row generalizing s with
  | nil => rfl
  | cons x l ih => rw [List.mapIdx_cons, scaleBy]; exact congrArg _ (ih fun j => s (j + 1))

theorem priceRow_eq (k : ℚ) (row : List ℚ) : priceRow k row = scaleBy (priceUnit k) row := by
  rw [← mapIdx_scaleBy]
  unfold priceRow priceUnit
  congr 1
  funext j x
  split <;> simp

theorem priceUnit_pos {k : ℚ} (hk : 0 < k) (j : Nat) : 0 < priceUnit k j := by
  unfold priceUnit; split
  · exact hk
  · exact one_pos

@[simp] theorem priceRow_length (k : ℚ) (row : List ℚ) : (priceRow k row).length = row.length := by simp [priceRow]

theorem priceRow_get (k : ℚ) (row : List ℚ) (j : Nat) :
    (priceRow k row)[j]? = row[j]?.map fun x => if j < 2 then k * x else x := by simp [priceRow]

theorem mapBounds_scaleBy {f : ℚ → ℚ → ℚ → ℚ} (hf : ∀ u a b c, 0 < u → f (u * a) (u * b) (u * c) = u * f a b c)
    (s : Nat → ℚ) (hs : ∀ j, 0 < s j) (a b c : List ℚ) :
    mapBounds f (scaleBy s a) (scaleBy s b) (scaleBy s c) = scaleBy s (mapBounds f a b c) := by
  induction a generalizing s b c with
  | nil => cases b <;> cases c <;> rfl
  | cons x a ih =>
    cases b with
    | nil => cases c <;> rfl
    | cons y b =>
      cases c with
      | nil => rfl
      | cons z c =>
        simp only [scaleBy, mapBounds]
        rw [hf _ _ _ _ (hs 0), ih _ fun j => hs (j + 1)]

theorem zipWith_scaleBy {f : ℚ → ℚ → ℚ} (hf : ∀ u a b, 0 < u → f (u * a) (u * b) = u * f a b)
    (s : Nat → ℚ) (hs : ∀ j, 0 < s j) (a b : List ℚ) :
    List.zipWith f (scaleBy s a) (scaleBy s b) = scaleBy s (List.zipWith f a b) := by
  induction a generalizing s b with
  | nil => cases b <;> rfl
  | cons x a ih =>
    cases b with
    | nil => rfl
    | cons y b =>
      simp only [scaleBy, List.zipWith_cons_cons]
      rw [hf _ _ _ (hs 0), ih _ fun j => hs (j + 1)]

theorem mul_lt_iff {u a b : ℚ} (hu : 0 < u) : u * a < u * b ↔ a < b := mul_lt_mul_iff_right₀ hu

theorem clip1_scale (u a b c : ℚ) (hu : 0 < u) :
    Forecaster.clip1 (u * a) (u * b) (u * c) = u * Forecaster.clip1 a b c := by
  unfold Forecaster.clip1
  simp only [gt_iff_lt, mul_lt_iff hu]
  split <;> split <;> rfl

theorem norm1_scale {u a b c : ℚ} (hu : 0 < u) (h1 : a ≤ c) (h2 : c ≤ b) : norm1 (u * a) (u * b) (u * c) = norm1 a b c := by
  unfold norm1 spread1
  have e : u * b - u * a = u * (b - a) := by ring
  have e' : u * c - u * a = u * (c - a) := by ring
  rw [e, e']
  by_cases h : b - a = 0
  · have : c - a = 0 := by linarith
    simp [h, this]
  · have : u * (b - a) ≠ 0 := mul_ne_zero hu.ne' h
    rw [if_neg this, if_neg h, mul_div_mul_left _ _ hu.ne']

theorem within_scaleBy {s : Nat → ℚ} (hs : ∀ j, 0 < s j) {a b c : List ℚ} (w : Within a b c) :
    Within (scaleBy s a) (scaleBy s b) (scaleBy s c) := by
  refine Within.rec' (motive := fun a b c => ∀ s : Nat → ℚ, (∀ j, 0 < s j) →
    Within (scaleBy s a) (scaleBy s b) (scaleBy s c)) ?_ ?_ a b c w s hs
  · intro s _; exact Within.nil
  · intro l h v lo hi row h1 h2 _ ih s hs
    exact Within.cons (mul_le_mul_of_nonneg_left h1 (hs 0).le) (mul_le_mul_of_nonneg_left h2 (hs 0).le)
      (ih _ fun j => hs (j + 1))

theorem mapBounds_norm_scale {s : Nat → ℚ} (hs : ∀ j, 0 < s j) {a b c : List ℚ} (w : Within a b c) :
    mapBounds norm1 (scaleBy s a) (scaleBy s b) (scaleBy s c) = mapBounds norm1 a b c := by
  refine Within.rec' (motive := fun a b c => ∀ s : Nat → ℚ, (∀ j, 0 < s j) →
    mapBounds norm1 (scaleBy s a) (scaleBy s b) (scaleBy s c) = mapBounds norm1 a b c) ?_ ?_ a b c w s hs
  · intro s _; rfl
  · intro l h v lo hi row h1 h2 _ ih s hs
    simp only [scaleBy, mapBounds]
    rw [norm1_scale (hs 0) h1 h2, ih _ fun j => hs (j + 1)]

theorem mapBounds_append (f : ℚ → ℚ → ℚ → ℚ) {a b c : List ℚ} (w : a.length = c.length) (w' : b.length = c.length)
    (a' b' c' : List ℚ) :
    mapBounds f (a ++ a') (b ++ b') (c ++ c') = mapBounds f a b c ++ mapBounds f a' b' c' := by
  induction c generalizing a b with
  | nil =>
    rw [List.length_nil, List.length_eq_zero_iff] at w w'
    subst w w'; rfl
  | cons z c ih =>
    cases a with
    | nil => simp at w
    | cons x a =>
      cases b with
      | nil => simp at w'
      | cons y b =>
        simp only [List.cons_append, mapBounds]
        rw [ih (by simpa using w) (by simpa using w')]

/-- Normalised rows do not depend on the currency. -/
theorem norm_rows {k : ℚ} (hk : 0 < k) {lo hi : List ℚ} (L : List (List ℚ)) (w : ∀ r ∈ L, Within lo hi r) :
    mapBounds norm1 (List.replicate L.length (priceRow k lo)).flatten (List.replicate L.length (priceRow k hi)).flatten
      (L.map (priceRow k)).flatten =
    mapBounds norm1 (List.replicate L.length lo).flatten (List.replicate L.length hi).flatten L.flatten := by
  induction L with
  | nil => rfl
  | cons r L ih =>
    have wr := w r (by simp)
    simp only [List.length_cons, List.replicate_succ, List.flatten_cons, List.map_cons]
    have h1 := wr.1
    have h2 := wr.2.1
    rw [mapBounds_append _ (by simp; omega) (by simp; omega), mapBounds_append _ (by omega) (by omega),
      ih fun r hr => w r (by simp [hr])]
    congr 1
    simp only [priceRow_eq]
    exact mapBounds_norm_scale (priceUnit_pos hk) wr

/-! ### Series -/

theorem SameForecast.isSome {k : ℚ} {p p' : FKind} (h : SameForecast k p p') : p'.isSome = p.isSome := by
  cases h <;> rfl

theorem SameForecast.get {k : ℚ} {p p' : FKind} (h : SameForecast k p p') (lo hi lo' hi' : List ℚ) (n : Nat) :
    SameForecast k (Forecaster.get p lo hi n).kind (Forecaster.get p' lo' hi' n).kind := by
  cases h with
  | none => exact .none
  | oracle => exact .oracle
  | gaussian inc std h => exact .gaussian inc _ h
  | user h => exact .user h
  | userScalar h => exact .userScalar h

/-- Two series in the two currencies. -/
structure TSPriced (k : ℚ) (t t' : TS) : Prop where
  rows : t'.rows = t.rows.map (priceRow k)
  comps : t'.comps = t.comps
  minRow : t'.minRow = priceRow k t.minRow
  maxRow : t'.maxRow = priceRow k t.maxRow
  finalStep : t'.finalStep = t.finalStep
  horizon : t'.horizon = t.horizon
  fkind : SameForecast k t.forecaster.kind t'.forecaster.kind
  cur : t'.cur = t.cur.map (List.map (priceRow k))
  draws : t'.draws = t.draws
  four : t.comps.length = 4
  valid : t.Valid
  valid' : t'.Valid

theorem addNoise_priced {k : ℚ} {n n' : Nat → Nat → ℚ} (h : ∀ i j, n' i j = if j < 2 then k * n i j else n i j)
    (w : List (List ℚ)) :
    Forecaster.addNoise n' (w.map (priceRow k)) = (Forecaster.addNoise n w).map (priceRow k) := by
  unfold Forecaster.addNoise
  apply List.ext_getElem?
  intro i
  simp only [List.getElem?_mapIdx, List.getElem?_map, Option.map_map]
  cases w[i]? with
  | none => rfl
  | some row =>
    simp only [Option.map_some, Option.some.injEq, Function.comp]
    apply List.ext_getElem?
    intro j
    simp only [priceRow_get, List.getElem?_mapIdx, Option.map_map]
    cases row[j]? with
    | none => rfl
    | some x =>
      simp only [Option.map_some, Option.some.injEq, Function.comp, h]
      split <;> ring

theorem mapScalar_priced {k : ℚ} {f f' : List ℚ → List ℚ → Nat → Except Err (List ℚ)}
    (h : ∀ c r n, f' (priceRow k c) (priceRow k r) n = (f c r n).map (priceRow k)) (c : List ℚ) (w : List (List ℚ)) :
    ∀ i, Forecaster.mapScalar f' (priceRow k c) i (w.map (priceRow k)) =
      (Forecaster.mapScalar f c i w).map (List.map (priceRow k)) := by
  induction w with
  | nil => intro i; rfl
  | cons r w ih =>
    intro i
    simp only [List.map_cons, Forecaster.mapScalar, h, ih]
    cases f c r i with
    | error e => rfl
    | ok v =>
      simp only [Except.map]
      cases Forecaster.mapScalar f c (i + 1) w <;> rfl

theorem raw_priced {k : ℚ} {f f' : Forecaster} (h : SameForecast k f.kind f'.kind) (d : Nat) (c : List ℚ)
    (w : List (List ℚ)) (n : Nat) :
    f'.raw d (priceRow k c) (w.map (priceRow k)) n = (f.raw d c w n).map (Option.map (List.map (priceRow k))) := by
  obtain ⟨kd, a, b, o, q⟩ := f
  obtain ⟨kd', a', b', o', q'⟩ := f'
  simp only at h
  cases h with
  | none => rfl
  | oracle => rfl
  | gaussian inc std h =>
    unfold Forecaster.raw
    simp only [addNoise_priced (h d), List.length_map]
    cases std with
    | none => rfl
    | some r => simp only; split <;> rfl
  | user h =>
    simp only [Forecaster.raw, h]
    rename_i g g'
    cases g c w n <;> rfl
  | userScalar h =>
    simp only [Forecaster.raw, List.length_map, mapScalar_priced h]
    split
    · rfl
    · rename_i g g' _
      cases Forecaster.mapScalar g c 0 w <;> rfl

section
variable {k : ℚ} {t t' : TS}

theorem midpoints_priced (hk : 0 < k) (a b : List ℚ) :
    midpoints (priceRow k a) (priceRow k b) = priceRow k (midpoints a b) := by
  unfold midpoints
  simp only [priceRow_eq]
  exact zipWith_scaleBy (fun u a b _ => by ring) _ (priceUnit_pos hk) a b

theorem clipRow_priced (hk : 0 < k) (a b c : List ℚ) :
    Forecaster.clipRow (priceRow k a) (priceRow k b) (priceRow k c) = priceRow k (Forecaster.clipRow a b c) := by
  unfold Forecaster.clipRow
  simp only [priceRow_eq]
  exact mapBounds_scaleBy (fun u a b c hu => clip1_scale u a b c hu) _ (priceUnit_pos hk) a b c

theorem TSPriced.window (h : TSPriced k t t') (c : Nat) : t'.window c = (t.window c).map (priceRow k) := by
  unfold TS.window
  rw [h.rows, h.horizon, List.map_take, List.map_drop]

theorem TSPriced.fill (h : TSPriced k t t') (hk : 0 < k) : t'.forecaster.fillRow = priceRow k t.forecaster.fillRow := by
  rw [Forecaster.fillRow_eq, Forecaster.fillRow_eq, h.valid.fMin, h.valid.fMax, h.valid'.fMin, h.valid'.fMax, h.minRow,
    h.maxRow, midpoints_priced hk]

theorem TSPriced.pad (h : TSPriced k t t') (hk : 0 < k) (fc : List (List ℚ)) (n : Nat) :
    t'.forecaster.pad (fc.map (priceRow k)) n = (t.forecaster.pad fc n).map (List.map (priceRow k)) := by
  unfold Forecaster.pad
  rw [h.fill hk, h.valid.fObs, h.valid'.fObs, h.horizon, List.length_map]
  split
  · rfl
  · split
    · rfl
    · split
      · rfl
      · simp [Except.map]

theorem TSPriced.clip (h : TSPriced k t t') (hk : 0 < k) (fc : List (List ℚ)) :
    t'.forecaster.clip (fc.map (priceRow k)) = (t.forecaster.clip fc).map (List.map (priceRow k)) := by
  have hall : ∀ fc : List (List ℚ), (fc.map (priceRow k)).all (fun r => decide (r.length = t'.minRow.length)) =
      fc.all (fun r => decide (r.length = t.minRow.length)) := by
    intro fc
    rw [h.minRow, priceRow_length, List.all_map]
    congr 1
    funext r
    simp
  unfold Forecaster.clip
  rw [h.valid.fMin, h.valid.fMax, h.valid'.fMin, h.valid'.fMax, h.valid.fRows, h.valid'.fRows, h.horizon, List.length_map,
    hall]
  split
  · rfl
  · split
    · rfl
    · simp only [Except.map, Except.ok.injEq, List.map_map]
      apply List.map_congr_left
      intro r _
      simp only [Function.comp, h.minRow, h.maxRow, clipRow_priced hk]

theorem TSPriced.forecastValue (h : TSPriced k t t') (hk : 0 < k) (c : Nat) :
    t'.forecastValue c = (t.forecastValue c).map (Option.map (List.map (priceRow k))) := by
  unfold TS.forecastValue
  rw [h.rows, List.getElem?_map, h.horizon, h.draws, h.window]
  cases t.rows[c]? with
  | none =>
    simp only [Option.map_none, Forecaster.fullPad]
    have := h.pad hk [] t.horizon
    simp only [List.map_nil] at this
    rw [this]
    cases t.forecaster.pad [] t.horizon <;> rfl
  | some row =>
    simp only [Option.map_some, Forecaster.call, raw_priced h.fkind, List.length_map, h.valid.fRows, h.valid'.fRows,
      h.horizon]
    split
    · rfl
    · cases t.forecaster.raw t.draws row (t.window c) t.horizon with
      | error e => rfl
      | ok o =>
        cases o with
        | none => rfl
        | some fc =>
          simp only [Except.map, Option.map_some, h.pad hk]
          cases t.forecaster.pad fc t.horizon with
          | error e => rfl
          | ok padded =>
            simp only [Except.map, h.clip hk]
            cases t.forecaster.clip padded with
            | error e => rfl
            | ok out =>
              have hall : (out.map (priceRow k)).all (fun r => decide (r.length = t'.forecaster.minRow.length)) =
                  out.all (fun r => decide (r.length = t.forecaster.minRow.length)) := by
                rw [h.valid.fMin, h.valid'.fMin, h.minRow, priceRow_length, List.all_map]
                congr 1
                funext r
                simp
              simp only [List.length_map, hall]
              split <;> rfl

/-- Refreshing the forecasts keeps the relation. -/
theorem TSPriced.refresh (h : TSPriced k t t') (hk : 0 < k) (c : Nat) :
    TSPriced k (t.refresh c).1 (t'.refresh c).1 ∧ (t'.refresh c).2 = (t.refresh c).2 := by
  have hf := h.forecastValue hk c
  rcases h.valid.refresh c with ⟨f, e1, e2⟩ | ⟨e, e1, e2⟩
  · rw [e1] at hf
    rcases h.valid'.refresh c with ⟨f', e1', e2'⟩ | ⟨e', e1', e2'⟩
    · rw [e1'] at hf
      simp only [Except.map, Except.ok.injEq] at hf
      rw [e2, e2']
      exact ⟨⟨h.rows, h.comps, h.minRow, h.maxRow, h.finalStep, h.horizon, h.fkind, hf, by simp [h.draws], h.four,
        (TS.Same.mk' _ _ _).valid h.valid, (TS.Same.mk' _ _ _).valid h.valid'⟩, rfl⟩
    · rw [e1'] at hf; simp [Except.map] at hf
  · rw [e1] at hf
    rcases h.valid'.refresh c with ⟨f', e1', e2'⟩ | ⟨e', e1', e2'⟩
    · rw [e1'] at hf; simp [Except.map] at hf
    · rw [e1'] at hf
      simp only [Except.map, Except.error.injEq] at hf
      rw [e2, e2', hf]
      exact ⟨⟨h.rows, h.comps, h.minRow, h.maxRow, h.finalStep, h.horizon, h.fkind, h.cur, by simp [h.draws], h.four,
        (TS.Same.mk' _ _ _).valid h.valid, (TS.Same.mk' _ _ _).valid h.valid'⟩, rfl⟩

theorem TSPriced.obsAt (h : TSPriced k t t') (hk : 0 < k) (c : Nat) : t'.obsAt c = priceRow k (t.obsAt c) := by
  unfold TS.obsAt
  rw [h.rows, List.getElem?_map, h.minRow, h.maxRow, midpoints_priced hk]
  cases t.rows[c]? <;> rfl

theorem TSPriced.shaped (h : TSPriced k t t') (hk : 0 < k) (hs : t.Shaped t.cur) : t'.Shaped t'.cur := by
  unfold TS.Shaped at *
  rw [h.cur, h.horizon]
  cases hc : t.cur with
  | none => rw [hc] at hs; exact hs
  | some f =>
    rw [hc] at hs
    refine ⟨by simpa using hs.1, ?_⟩
    intro r hr
    obtain ⟨r₀, hr₀, rfl⟩ := List.mem_map.mp hr
    rw [h.minRow, h.maxRow]
    simp only [priceRow_eq]
    exact within_scaleBy (priceUnit_pos hk) (hs.2 r₀ hr₀)

theorem TSPriced.flatCur (h : TSPriced k t t') :
    t'.flatCur = ((t.cur.getD []).map (priceRow k)).flatten := by
  unfold TS.flatCur
  rw [h.cur]
  cases t.cur <;> rfl

/-- Normalised observations do not depend on the currency. -/
theorem TSPriced.normalized (h : TSPriced k t t') (hk : 0 < k) (hs : t.Shaped t.cur) (c : Nat) :
    t'.obsSpace.normalize (.arr (t'.obsAt c ++ t'.flatCur)) = t.obsSpace.normalize (.arr (t.obsAt c ++ t.flatCur)) := by
  have hL : (t.cur.getD []).length = t.horizon ∧ ∀ r ∈ t.cur.getD [], Within t.minRow t.maxRow r := by
    unfold TS.Shaped at hs
    cases hc : t.cur with
    | none => rw [hc] at hs; exact ⟨hs.symm, by simp⟩
    | some f => rw [hc] at hs; exact hs
  have key := norm_rows hk (lo := t.minRow) (hi := t.maxRow) (t.obsAt c :: t.cur.getD []) (by
    intro r hr
    rcases List.mem_cons.mp hr with rfl | hr
    · exact h.valid.obsAt_within c
    · exact hL.2 r hr)
  simp only [List.length_cons, hL.1, List.map_cons, List.flatten_cons] at key
  unfold Space.normalize Space.apply
  simp only [TS.obsSpace, TS.minObs, TS.maxObs, Space.dim, h.obsAt hk, h.flatCur, h.minRow, h.maxRow, h.horizon,
    Nat.add_comm 1, key]
  have hlen : (priceRow k (t.obsAt c) ++ ((t.cur.getD []).map (priceRow k)).flatten).length =
      (t.obsAt c ++ t.flatCur).length := by
    simp only [List.length_append, priceRow_length, TS.flatCur, List.length_flatten, List.map_map]
    congr 3
    funext r
    simp
  have hlen' : (List.replicate (t.horizon + 1) (priceRow k t.minRow)).flatten.length =
      (List.replicate (t.horizon + 1) t.minRow).flatten.length := by simp
  rw [hlen, hlen']
  rfl

theorem TSPriced.entryAt (h : TSPriced k t t') (c j : Nat) :
    t'.entryAt c j = (t.entryAt c j).map fun x => if j < 2 then k * x else x := by
  unfold TS.entryAt
  rw [h.rows, List.getElem?_map]
  cases t.rows[c]? with
  | none => rfl
  | some row =>
    simp only [Option.map_some, priceRow_get]
    cases row[j]? <;> rfl

end

/-! ### Modules -/

/-- The class-specific parts and the observation spaces of two modules in the two currencies. -/
inductive KindPriced (k : ℚ) : Kind → Space → Kind → Space → Prop
  | battery (b : Battery) (s : Space) (h : b.transition = none) :
      KindPriced k (.battery b) s (.battery { b with costCycle := k * b.costCycle }) s
  | genset (g : Genset) (s : Space) :
      KindPriced k (.genset g) s (.genset { g with cost := g.cost.priced k, costPerCo2 := k * g.costPerCo2 }) s
  | grid (p : GridParams) (t t' : TS) (h : TSPriced k t t') (hs : t.Shaped t.cur) :
      KindPriced k (.grid p t) t.obsSpace (.grid { p with costPerCo2 := k * p.costPerCo2 } t') t'.obsSpace
  | load (t : TS) (s : Space) : KindPriced k (.load t) s (.load t) s
  | renewable (t : TS) (s : Space) : KindPriced k (.renewable t) s (.renewable t) s
  | balancing (u : Unbalanced) (s : Space) :
      KindPriced k (.balancing u) s
        (.balancing { lossLoadCost := k * u.lossLoadCost, overgenerationCost := k * u.overgenerationCost }) s

/-- Two modules in the two currencies; logs may differ. -/
structure ModPriced (k : ℚ) (m m' : Module) : Prop where
  raiseErrors : m'.raiseErrors = m.raiseErrors
  initialStep : m'.initialStep = m.initialStep
  currentStep : m'.currentStep = m.currentStep
  actSpace : m'.actSpace = m.actSpace
  provName : m'.provName = m.provName
  absName : m'.absName = m.absName
  ffc : m'.ffc = m.ffc
  kind : KindPriced k m.kind m.obsSpace m'.kind m'.obsSpace

/-- What `update` returns, with the reward multiplied. -/
def UpdateOut.priced (k : ℚ) (u : UpdateOut) : UpdateOut := { u with reward := k * u.reward }

/-- What `step` returns, with the reward multiplied. -/
def StepOut.priced (k : ℚ) (o : StepOut) : StepOut := { o with reward := k * o.reward }

section
variable {k : ℚ} {m m' : Module}

theorem ModPriced.isSource (h : ModPriced k m m') : m'.isSource = m.isSource := by
  have := h.kind
  unfold Module.isSource
  generalize m.kind = a at this ⊢
  generalize m'.kind = b at this ⊢
  generalize m.obsSpace = s at this
  generalize m'.obsSpace = s' at this
  cases this <;> rfl

theorem ModPriced.isSink (h : ModPriced k m m') : m'.isSink = m.isSink := by
  have := h.kind
  unfold Module.isSink
  generalize m.kind = a at this ⊢
  generalize m'.kind = b at this ⊢
  generalize m.obsSpace = s at this
  generalize m'.obsSpace = s' at this
  cases this <;> rfl

theorem ModPriced.energyPos (h : ModPriced k m m') : m'.energyPos = m.energyPos := by
  have := h.kind
  unfold Module.energyPos
  generalize m.kind = a at this ⊢
  generalize m'.kind = b at this ⊢
  generalize m.obsSpace = s at this
  generalize m'.obsSpace = s' at this
  cases this <;> rfl

theorem ModPriced.minProduction (h : ModPriced k m m') : m'.minProduction = m.minProduction := by
  have := h.kind
  unfold Module.minProduction
  generalize m.kind = a at this ⊢
  generalize m'.kind = b at this ⊢
  generalize m.obsSpace = s at this
  generalize m'.obsSpace = s' at this
  cases this <;> rfl

/-- State of a grid. -/
theorem state_grid {m : Module} {p : GridParams} {t : TS} (hk : m.kind = .grid p t) (hv : t.Valid)
    (hs : t.Shaped t.cur) : m.state = .ok (t.obsAt m.currentStep ++ t.flatCur) := by
  unfold Module.state Module.stateDict
  rw [hk]
  simp only [hv.stateDict]
  rw [hv.state_vals hs]

theorem TSPriced.state_get {t t' : TS} (h : TSPriced k t t') (hk : 0 < k) (c j : Nat) (hj : j < 4) :
    (t'.obsAt c ++ t'.flatCur)[j]? = (t.obsAt c ++ t.flatCur)[j]?.map fun x => if j < 2 then k * x else x := by
  have hl : (t.obsAt c).length = 4 := by rw [h.valid.width (h.valid.obsAt_within c), h.four]
  rw [List.getElem?_append_left (by rw [h.obsAt hk, priceRow_length, hl]; exact hj),
    List.getElem?_append_left (by rw [hl]; exact hj), h.obsAt hk, priceRow_get]

theorem ModPriced.gridState (h : ModPriced k m m') (hk : 0 < k) {p : GridParams} {t : TS} (hm : m.kind = .grid p t)
    (j : Nat) (hj : j < 4) : ∃ s s', m.state = .ok s ∧ m'.state = .ok s' ∧
      s'[j]? = s[j]?.map fun x => if j < 2 then k * x else x := by
  have hkind := h.kind
  rw [hm] at hkind
  generalize ha : m.obsSpace = a at hkind
  generalize hb : m'.kind = b at hkind
  generalize hc : m'.obsSpace = c at hkind
  cases hkind with
  | grid p t t' ht hs =>
    refine ⟨_, _, state_grid hm ht.valid hs, state_grid hb ht.valid' (ht.shaped hk hs), ?_⟩
    rw [h.currentStep]
    exact ht.state_get hk _ j hj

theorem ModPriced.gridStatus (h : ModPriced k m m') (hk : 0 < k) {p : GridParams} {t : TS} (hm : m.kind = .grid p t) :
    m'.gridStatus = m.gridStatus := by
  obtain ⟨s, s', e, e', q⟩ := h.gridState hk hm 3 (by omega)
  unfold Module.gridStatus
  rw [e, e']
  simp only [q]
  cases s[3]? <;> rfl

theorem ModPriced.maxProduction (h : ModPriced k m m') (hk : 0 < k) : m'.maxProduction = m.maxProduction := by
  have hg := fun p t => h.gridStatus hk (p := p) (t := t)
  have hkind := h.kind
  unfold Module.maxProduction
  rw [h.currentStep]
  generalize m.kind = a at hkind hg ⊢
  generalize m'.kind = b at hkind ⊢
  generalize m.obsSpace = s at hkind
  generalize m'.obsSpace = s' at hkind
  cases hkind with
  | grid p t t' ht hs => simp only [hg p t rfl]
  | _ => rfl

theorem ModPriced.maxConsumption (h : ModPriced k m m') (hk : 0 < k) : m'.maxConsumption = m.maxConsumption := by
  have hg := fun p t => h.gridStatus hk (p := p) (t := t)
  have hkind := h.kind
  unfold Module.maxConsumption
  rw [h.currentStep]
  generalize m.kind = a at hkind hg ⊢
  generalize m'.kind = b at hkind ⊢
  generalize m.obsSpace = s at hkind
  generalize m'.obsSpace = s' at hkind
  cases hkind with
  | grid p t t' ht hs => simp only [hg p t rfl]
  | _ => rfl

theorem ModPriced.marginalCost (h : ModPriced k m m') (hk : 0 < k) : m'.marginalCost = m.marginalCost.map (k * ·) := by
  have hg := fun p t (e : m.kind = .grid p t) => h.gridState hk e 0 (by omega)
  have hkind := h.kind
  unfold Module.marginalCost
  generalize m.kind = a at hkind hg ⊢
  generalize m'.kind = b at hkind ⊢
  generalize m.obsSpace = s at hkind
  generalize m'.obsSpace = s' at hkind
  cases hkind with
  | grid p t t' ht hs =>
    obtain ⟨s, s', e, e', q⟩ := hg p t rfl
    rw [e, e']
    simp only [q]
    cases s[0]? <;> rfl
  | genset g =>
    simp only [Genset.getCost, Genset.fuelCost, Genset.getCo2Cost, Genset.getCo2, Except.map]
    cases g.cost <;> simp only [GensetCost.priced] <;> congr 1 <;> ring
  | load t => simp [Except.map]
  | renewable t => simp [Except.map]
  | _ => rfl

theorem ModPriced.absorptionCost (h : ModPriced k m m') (hk : 0 < k) :
    m'.absorptionCost = m.absorptionCost.map (k * ·) := by
  have hg := fun p t (e : m.kind = .grid p t) => h.gridState hk e 1 (by omega)
  have hkind := h.kind
  unfold Module.absorptionCost
  generalize m.kind = a at hkind hg ⊢
  generalize m'.kind = b at hkind ⊢
  generalize m.obsSpace = s at hkind
  generalize m'.obsSpace = s' at hkind
  cases hkind with
  | grid p t t' ht hs =>
    obtain ⟨s, s', e, e', q⟩ := hg p t rfl
    rw [e, e']
    simp only [q]
    cases s[1]? <;> rfl
  | genset g => simp [Except.map]
  | load t => simp [Except.map]
  | renewable t => simp [Except.map]
  | _ => rfl

/-- Two modules with their own results. -/
def Alike (k : ℚ) (x x' : Module × Except Err UpdateOut) : Prop :=
  ModPriced k x.1 x'.1 ∧ x'.2 = x.2.map (UpdateOut.priced k)

theorem Battery.update_priced (b : Battery) (h : b.transition = none) (k : ℚ) (e : Option ℚ) (d : Dir) :
    ({ b with costCycle := k * b.costCycle } : Battery).update e d =
      ({ (b.update e d).1 with costCycle := k * b.costCycle }, (b.update e d).2.map (UpdateOut.priced k)) ∧
    (b.update e d).1.transition = none ∧ (b.update e d).1.costCycle = b.costCycle := by
  have ht : ∀ x, ({ b with costCycle := k * b.costCycle } : Battery).modelTransition x = b.modelTransition x := by
    intro x; unfold Battery.modelTransition; rw [h]
  have hu : ∀ x, ({ b with costCycle := k * b.costCycle } : Battery).updateState x =
      ({ (b.updateState x).1 with costCycle := k * b.costCycle }, (b.updateState x).2) ∧
      (b.updateState x).1.transition = none ∧ (b.updateState x).1.costCycle = b.costCycle := by
    intro x
    unfold Battery.updateState
    simp only
    split
    · split
      · exact ⟨rfl, h, rfl⟩
      · exact ⟨rfl, h, rfl⟩
    · exact ⟨rfl, h, rfl⟩
  unfold Battery.update
  cases e with
  | none => exact ⟨rfl, h, rfl⟩
  | some x =>
    cases d with
    | source =>
      simp only [ht]
      split
      · exact ⟨rfl, h, rfl⟩
      · obtain ⟨h1, h2, h3⟩ := hu (b.modelTransition (-1 * x))
        rw [h1]
        cases hs : b.updateState (b.modelTransition (-1 * x)) with
        | mk b' r =>
          rw [hs] at h2 h3
          cases r with
          | error e => exact ⟨rfl, h2, h3⟩
          | ok u =>
            refine ⟨?_, h2, h3⟩
            simp only [Except.map, UpdateOut.priced, Battery.getCost]
            congr 3
            ring
    | sink =>
      simp only [ht]
      split
      · exact ⟨rfl, h, rfl⟩
      · obtain ⟨h1, h2, h3⟩ := hu (b.modelTransition x)
        rw [h1]
        cases hs : b.updateState (b.modelTransition x) with
        | mk b' r =>
          rw [hs] at h2 h3
          cases r with
          | error e => exact ⟨rfl, h2, h3⟩
          | ok u =>
            refine ⟨?_, h2, h3⟩
            simp only [Except.map, UpdateOut.priced, Battery.getCost]
            congr 3
            ring

theorem Genset.update_priced (g : Genset) (k : ℚ) (e : Option ℚ) (d : Dir) :
    ({ g with cost := g.cost.priced k, costPerCo2 := k * g.costPerCo2 } : Genset).update e d =
      (g.update e d).map (UpdateOut.priced k) := by
  unfold Genset.update
  cases d with
  | sink => rfl
  | source =>
    cases e with
    | none => rfl
    | some x =>
      simp only [Except.map, UpdateOut.priced, Genset.getCost, Genset.fuelCost, Genset.getCo2Cost, Genset.getCo2]
      congr 2
      cases g.cost <;> simp only [GensetCost.priced] <;> ring

theorem gridUpdate_priced {t t' : TS} (h : TSPriced k t t') (p : GridParams) (c : Nat) (e : Option ℚ) (d : Dir) :
    Module.gridUpdate { p with costPerCo2 := k * p.costPerCo2 } t' c e d =
      (Module.gridUpdate p t c e d).map (UpdateOut.priced k) := by
  have hd : t'.done c = t.done c := by unfold TS.done; rw [h.finalStep]
  unfold Module.gridUpdate
  simp only [h.entryAt, hd]
  cases d with
  | source =>
    simp only
    cases t.entryAt c 0 with
    | error er => cases t.entryAt c 2 <;> rfl
    | ok price =>
      cases t.entryAt c 2 with
      | error er => rfl
      | ok co2 =>
        cases e with
        | none => rfl
        | some x =>
          simp only [Except.map, UpdateOut.priced]
          norm_num
          ring
  | sink =>
    simp only
    cases t.entryAt c 1 with
    | error er => rfl
    | ok price =>
      cases e with
      | none => rfl
      | some x =>
        simp only [Except.map, UpdateOut.priced]
        norm_num
        ring

theorem balancingUpdate_priced (hk : 0 < k) (u : Unbalanced) (e : Option ℚ) (d : Dir) :
    Module.balancingUpdate { lossLoadCost := k * u.lossLoadCost, overgenerationCost := k * u.overgenerationCost } e d =
      (Module.balancingUpdate u e d).map (UpdateOut.priced k) := by
  have key : ∀ a x : ℚ, -1 * (k * a * x) = k * (-1 * (a * x)) := by intros; ring
  have sgn : ∀ a : ℚ, k * a ≤ 0 ↔ a ≤ 0 := fun a => by
    constructor
    · intro h; by_contra hc; exact absurd h (not_le.mpr (mul_pos hk (not_le.mp hc)))
    · intro h; exact mul_nonpos_of_nonneg_of_nonpos hk.le h
  unfold Module.balancingUpdate
  cases e with
  | none => rfl
  | some x =>
    cases d <;> simp only [key, sgn] <;> split <;> rfl

theorem ModPriced.update (h : ModPriced k m m') (hk : 0 < k) (e : Option ℚ) (d : Dir) :
    Alike k (m.update e d) (m'.update e d) := by
  have hkind := h.kind
  unfold Module.update
  rw [h.currentStep]
  generalize ha : m.kind = a at hkind ⊢
  generalize ho : m.obsSpace = s at hkind
  generalize hb : m'.kind = b at hkind ⊢
  generalize ho' : m'.obsSpace = s' at hkind
  cases hkind with
  | battery b s ht =>
    obtain ⟨h1, h2, h3⟩ := Battery.update_priced b ht k e d
    simp only [h1]
    cases hu : b.update e d with
    | mk b' r =>
      rw [hu] at h2 h3
      simp only at h2 h3 ⊢
      refine ⟨⟨h.raiseErrors, h.initialStep, rfl, h.actSpace, h.provName, h.absName, h.ffc, ?_⟩, rfl⟩
      rw [← h3]
      exact .battery b' s h2
  | genset g s => exact ⟨h, Genset.update_priced g k e d⟩
  | grid p t t' ht hs => exact ⟨h, gridUpdate_priced ht p _ e d⟩
  | load t s =>
    refine ⟨h, ?_⟩
    unfold Module.loadUpdate
    cases d with
    | source => rfl
    | sink => simp only; cases t.itemAt m.currentStep <;> simp [Except.map, UpdateOut.priced]
  | renewable t s =>
    refine ⟨h, ?_⟩
    unfold Module.renewableUpdate
    cases d with
    | sink => rfl
    | source =>
      simp only
      cases t.itemAt m.currentStep with
      | error er => rfl
      | ok q =>
        cases e with
        | none => rfl
        | some x => simp only; split <;> simp [Except.map, UpdateOut.priced]
  | balancing u s => exact ⟨h, balancingUpdate_priced hk u e d⟩

theorem ModPriced.asSource (h : ModPriced k m m') (hk : 0 < k) (x : ℚ) : Alike k (m.asSource x) (m'.asSource x) := by
  unfold Module.asSource
  rw [h.isSource, h.ffc, h.maxProduction hk, h.minProduction, h.raiseErrors]
  repeat' split
  all_goals first | exact ⟨h, rfl⟩ | exact h.update hk _ _

theorem ModPriced.asSink (h : ModPriced k m m') (hk : 0 < k) (x : ℚ) : Alike k (m.asSink x) (m'.asSink x) := by
  unfold Module.asSink
  rw [h.ffc, h.maxConsumption hk, h.raiseErrors]
  repeat' split
  all_goals first | exact ⟨h, rfl⟩ | exact h.update hk _ _

theorem ModPriced.unnormalizedStep (h : ModPriced k m m') (hk : 0 < k) (q : ℚ) :
    Alike k (m.unnormalizedStep q) (m'.unnormalizedStep q) := by
  unfold Module.unnormalizedStep
  rw [h.isSource, h.isSink]
  repeat' split
  all_goals first | exact ⟨h, rfl⟩ | exact h.asSource hk _ | exact h.asSink hk _

theorem ModPriced.stateDict (h : ModPriced k m m') :
    (∃ e, m.stateDict = .error e ∧ m'.stateDict = .error e) ∨ (∃ d d', m.stateDict = .ok d ∧ m'.stateDict = .ok d') := by
  have hkind := h.kind
  unfold Module.stateDict
  rw [h.currentStep]
  generalize m.kind = a at hkind ⊢
  generalize m'.kind = b at hkind ⊢
  generalize m.obsSpace = s at hkind
  generalize m'.obsSpace = s' at hkind
  cases hkind with
  | grid p t t' ht hs => exact .inr ⟨_, _, ht.valid.stateDict _, ht.valid'.stateDict _⟩
  | load t =>
    cases e : t.stateDict m.currentStep with
    | error x => exact .inl ⟨x, by simp [e]⟩
    | ok d => exact .inr ⟨d, d, by simp [e]⟩
  | renewable t =>
    cases e : t.stateDict m.currentStep with
    | error x => exact .inl ⟨x, by simp [e]⟩
    | ok d => exact .inr ⟨d, d, by simp [e]⟩
  | _ => exact .inr ⟨_, _, rfl, rfl⟩

theorem ModPriced.normalizedObs (h : ModPriced k m m') (hk : 0 < k) : m'.normalizedObs = m.normalizedObs := by
  have hkind := h.kind
  unfold Module.normalizedObs
  generalize ha : m.kind = a at hkind
  generalize ho : m.obsSpace = s at hkind ⊢
  generalize hb : m'.kind = b at hkind
  generalize ho' : m'.obsSpace = s' at hkind ⊢
  cases hkind with
  | grid p t t' ht hs =>
    rw [state_grid ha ht.valid hs, state_grid hb ht.valid' (ht.shaped hk hs), h.currentStep]
    exact ht.normalized hk hs _
  | _ =>
    have : m'.state = m.state := by
      unfold Module.state Module.stateDict
      rw [ha, hb, h.currentStep]
      try rfl
    rw [this]

theorem ModPriced.logRow (h : ModPriced k m m') (pre pre' : List (Key × ℚ)) (u : UpdateOut) :
    (∃ e, m.logRow pre u = .error e ∧ m'.logRow pre' (u.priced k) = .error e) ∨
      (∃ r r', m.logRow pre u = .ok r ∧ m'.logRow pre' (u.priced k) = .ok r') := by
  unfold Module.logRow
  rw [h.provName, h.absName]
  have e1 : (u.priced k).info = u.info := rfl
  rw [e1]
  cases m.provName <;> cases m.absName <;> cases u.info.provided <;> cases u.info.absorbed <;> simp

theorem ModPriced.withLogger (h : ModPriced k m m') (L L' : Logger) :
    ModPriced k { m with logger := L } { m' with logger := L' } :=
  ⟨h.raiseErrors, h.initialStep, h.currentStep, h.actSpace, h.provName, h.absName, h.ffc, h.kind⟩

theorem refresh_shaped {t : TS} (hv : t.Valid) (hs : t.Shaped t.cur) (c : Nat) :
    (t.refresh c).1.Shaped (t.refresh c).1.cur := by
  rcases hv.refresh c with ⟨f, e1, e2⟩ | ⟨e, e1, e2⟩
  · rw [e2]; exact hv.forecast_shaped e1
  · rw [e2]; exact hs

theorem refresh_obsSpace {t : TS} (hv : t.Valid) (c : Nat) : (t.refresh c).1.obsSpace = t.obsSpace := by
  rcases hv.refresh c with ⟨f, e1, e2⟩ | ⟨e, e1, e2⟩ <;> rw [e2] <;> rfl

theorem ModPriced.updateStep (h : ModPriced k m m') (hk : 0 < k) (r : Bool) :
    ModPriced k (m.updateStep r).1 (m'.updateStep r).1 ∧ (m'.updateStep r).2 = (m.updateStep r).2 := by
  have hkind := h.kind
  unfold Module.updateStep Module.refresh
  rw [h.currentStep, h.initialStep]
  simp only
  generalize (if r = true then m.initialStep else m.currentStep + 1) = c
  generalize ha : m.kind = a at hkind ⊢
  generalize ho : m.obsSpace = s at hkind
  generalize hb : m'.kind = b at hkind ⊢
  generalize ho' : m'.obsSpace = s' at hkind
  cases hkind with
  | grid p t t' ht hs =>
    obtain ⟨h1, h2⟩ := ht.refresh hk c
    refine ⟨⟨h.raiseErrors, rfl, rfl, h.actSpace, h.provName, h.absName, h.ffc, ?_⟩, h2⟩
    rw [← refresh_obsSpace ht.valid c, ← refresh_obsSpace ht.valid' c]
    exact .grid p _ _ h1 (refresh_shaped ht.valid hs c)
  | battery b s ht =>
    refine ⟨⟨h.raiseErrors, rfl, rfl, h.actSpace, h.provName, h.absName, h.ffc, ?_⟩, rfl⟩
    exact .battery b s ht
  | genset g s =>
    refine ⟨⟨h.raiseErrors, rfl, rfl, h.actSpace, h.provName, h.absName, h.ffc, ?_⟩, rfl⟩
    exact .genset g s
  | load t s =>
    refine ⟨⟨h.raiseErrors, rfl, rfl, h.actSpace, h.provName, h.absName, h.ffc, ?_⟩, rfl⟩
    exact .load _ s
  | renewable t s =>
    refine ⟨⟨h.raiseErrors, rfl, rfl, h.actSpace, h.provName, h.absName, h.ffc, ?_⟩, rfl⟩
    exact .renewable _ s
  | balancing u s =>
    refine ⟨⟨h.raiseErrors, rfl, rfl, h.actSpace, h.provName, h.absName, h.ffc, ?_⟩, rfl⟩
    exact .balancing u s

theorem ModPriced.stepEnergy (h : ModPriced k m m') (hk : 0 < k) (q : ℚ) :
    ModPriced k (m.stepEnergy q).1 (m'.stepEnergy q).1 ∧
      (m'.stepEnergy q).2 = (m.stepEnergy q).2.map (StepOut.priced k) := by
  unfold Module.stepEnergy
  rcases h.stateDict with ⟨e, e1, e2⟩ | ⟨d, d', e1, e2⟩
  · rw [e1, e2]; exact ⟨h, rfl⟩
  · rw [e1, e2]
    simp only
    have hu := h.unnormalizedStep hk q
    cases h1 : m.unnormalizedStep q with
    | mk m₁ r =>
    cases h1' : m'.unnormalizedStep q with
    | mk m₁' r' =>
    rw [h1, h1'] at hu
    obtain ⟨hm, hr⟩ := hu
    simp only at hm hr
    subst hr
    cases r with
    | error e => exact ⟨hm, rfl⟩
    | ok u =>
      simp only [Except.map, Module.log]
      rcases hm.logRow d d' u with ⟨e, e1, e2⟩ | ⟨row, row', e1, e2⟩
      · rw [e1, e2]; exact ⟨hm, rfl⟩
      · rw [e1, e2]
        simp only
        obtain ⟨h2, h3⟩ := (hm.withLogger (m₁.logger.log row) (m₁'.logger.log row')).updateStep hk false
        cases g1 : ({ m₁ with logger := m₁.logger.log row } : Module).updateStep false with
        | mk m₂ r =>
        cases g1' : ({ m₁' with logger := m₁'.logger.log row' } : Module).updateStep false with
        | mk m₂' r' =>
        rw [g1, g1'] at h2 h3
        simp only at h2 h3
        subst h3
        cases r' with
        | error e => exact ⟨h2, rfl⟩
        | ok x =>
          simp only [h2.normalizedObs hk]
          cases m₂.normalizedObs <;> exact ⟨h2, rfl⟩

theorem ModPriced.baseStep (h : ModPriced k m m') (hk : 0 < k) (a : Act) (n : Bool) :
    ModPriced k (m.baseStep a n).1 (m'.baseStep a n).1 ∧
      (m'.baseStep a n).2 = (m.baseStep a n).2.map (StepOut.priced k) := by
  unfold Module.baseStep Module.denormalizeAct
  rw [h.actSpace, h.energyPos]
  simp only
  split
  · exact ⟨h, rfl⟩
  · split
    · exact ⟨h, rfl⟩
    · exact h.stepEnergy hk _

/-- The genset with other prices. -/
def Genset.withCost (g : Genset) (c : GensetCost) (p : ℚ) : Genset := { g with cost := c, costPerCo2 := p }

theorem resetTimes_withCost (g : Genset) (c : GensetCost) (p : ℚ) :
    (g.withCost c p).resetTimes = g.resetTimes.map fun g' => g'.withCost c p := by
  unfold Genset.resetTimes Genset.withCost
  simp only
  split
  · rfl
  · split <;> rfl

theorem finish_withCost (g : Genset) (c : GensetCost) (p : ℚ) :
    (g.withCost c p).finishInProgress = g.finishInProgress.map fun x => (x.1.withCost c p, x.2) := by
  have h := fun s : Int => resetTimes_withCost { g with status := s } c p
  unfold Genset.withCost at h
  unfold Genset.finishInProgress Genset.withCost
  simp only at h ⊢
  split
  · rw [h]
    cases ({ g with status := 1 } : Genset).resetTimes <;> rfl
  · split
    · rw [h]
      cases ({ g with status := 0 } : Genset).resetTimes <;> rfl
    · rfl

theorem redirect_withCost (g : Genset) (c : GensetCost) (p : ℚ) (goal : Int) :
    (g.withCost c p).redirect goal = (g.redirect goal).map fun g' => g'.withCost c p := by
  have h := fun s : Int => resetTimes_withCost { g with goal := s } c p
  have h' := resetTimes_withCost g c p
  unfold Genset.withCost at h h'
  unfold Genset.redirect Genset.withCost
  simp only at h h' ⊢
  split
  · rw [h]
  · split
    · rw [h']
      cases g.resetTimes <;> rfl
    · rfl

theorem countDown_withCost (g : Genset) (c : GensetCost) (p : ℚ) :
    (g.withCost c p).countDown = g.countDown.map fun g' => g'.withCost c p := by
  have h : (g.withCost c p).updateTimes = g.updateTimes.withCost c p := by
    unfold Genset.updateTimes Genset.withCost
    simp only
    split <;> rfl
  have e1 : (g.withCost c p).goal = g.goal := rfl
  have e2 : (g.withCost c p).status = g.status := rfl
  have e3 : (g.withCost c p).untilDown = g.untilDown := rfl
  have e4 : (g.withCost c p).untilUp = g.untilUp := rfl
  unfold Genset.countDown
  rw [h, e1, e2, e3, e4]
  by_cases a1 : g.goal ≠ g.status
  · rw [if_pos a1, if_pos a1]
    by_cases a2 : g.goal ≠ 0
    · rw [if_pos a2, if_pos a2]
      split <;> rfl
    · rw [if_neg a2, if_neg a2]
      split <;> rfl
  · rw [if_neg a1, if_neg a1]
    rfl

theorem nonInstantaneous_withCost (g : Genset) (c : GensetCost) (p : ℚ) (goal : Int) :
    (g.withCost c p).nonInstantaneous goal = (g.nonInstantaneous goal).map fun g' => g'.withCost c p := by
  unfold Genset.nonInstantaneous
  rw [redirect_withCost]
  cases g.redirect goal with
  | error e => rfl
  | ok g' => exact countDown_withCost g' c p

theorem rounded_withCost (g : Genset) (c : GensetCost) (p : ℚ) (goal : Int) :
    (g.withCost c p).updateStatusRounded goal = (g.updateStatusRounded goal).map fun g' => g'.withCost c p := by
  have hn : (g.withCost c p).nextStatus goal = g.nextStatus goal := rfl
  unfold Genset.updateStatusRounded
  simp only [hn]
  have h1 : (if goal ≠ (g.withCost c p).goal ∧ ((g.withCost c p).allowAbortion ||
      decide ((g.withCost c p).startUpTime = 0 ∧ goal = 1) || decide ((g.withCost c p).windDownTime = 0 ∧ goal = 0)) = true
      then { g.withCost c p with goal := goal } else g.withCost c p) =
      (if goal ≠ g.goal ∧ (g.allowAbortion || decide (g.startUpTime = 0 ∧ goal = 1) ||
        decide (g.windDownTime = 0 ∧ goal = 0)) = true then { g with goal := goal } else g).withCost c p := by
    exact (apply_ite (fun x : Genset => x.withCost c p) _ { g with goal := goal } g).symm
  rw [h1]
  generalize (if goal ≠ g.goal ∧ (g.allowAbortion || decide (g.startUpTime = 0 ∧ goal = 1) ||
        decide (g.windDownTime = 0 ∧ goal = 0)) = true then { g with goal := goal } else g) = g₁
  rw [finish_withCost]
  have e1 : (g.withCost c p).status = g.status := rfl
  have e2 : (g.withCost c p).goal = g.goal := rfl
  have e3 : (g.withCost c p).untilDown = g.untilDown := rfl
  have e4 : (g.withCost c p).untilUp = g.untilUp := rfl
  rw [e1, e2, e3, e4]
  split
  · split <;> rfl
  · cases g₁.finishInProgress with
    | error e => rfl
    | ok x =>
      obtain ⟨g₂, fin⟩ := x
      simp only [Except.map]
      cases fin with
      | true =>
        simp only [if_true]
        have e5 : (g₂.withCost c p).status = g₂.status := rfl
        rw [e5]
        split <;> rfl
      | false =>
        simp only [Bool.false_eq_true, if_false]
        rw [nonInstantaneous_withCost]
        cases g₂.nonInstantaneous goal with
        | error e => rfl
        | ok g₃ =>
          simp only [Except.map]
          have e5 : (g₃.withCost c p).status = g₃.status := rfl
          rw [e5]
          split <;> rfl

theorem updateStatus_withCost (g : Genset) (c : GensetCost) (p : ℚ) (goal : ℚ) :
    (g.withCost c p).updateStatus goal = (g.updateStatus goal).map fun g' => g'.withCost c p := by
  unfold Genset.updateStatus
  rw [rounded_withCost]
  have e3 : (g.withCost c p).untilDown = g.untilDown := rfl
  have e4 : (g.withCost c p).untilUp = g.untilUp := rfl
  rw [e3, e4]
  split
  · rfl
  · split <;> rfl

theorem updateStatus_cost {g g' : Genset} {goal : ℚ} (h : g.updateStatus goal = .ok g') :
    g'.cost = g.cost ∧ g'.costPerCo2 = g.costPerCo2 := by
  have := updateStatus_withCost g g.cost g.costPerCo2 goal
  have e : g.withCost g.cost g.costPerCo2 = g := rfl
  rw [e, h] at this
  simp only [Except.map, Except.ok.injEq] at this
  rw [this]
  exact ⟨rfl, rfl⟩

theorem ModPriced.step (h : ModPriced k m m') (hk : 0 < k) (a : Act) (n : Bool) :
    ModPriced k (m.step a n).1 (m'.step a n).1 ∧ (m'.step a n).2 = (m.step a n).2.map (StepOut.priced k) := by
  have hbase := h.baseStep hk a n
  have hkind := h.kind
  unfold Module.step
  generalize ha : m.kind = x at hkind ⊢
  generalize ho : m.obsSpace = s at hkind
  generalize hb : m'.kind = y at hkind ⊢
  generalize ho' : m'.obsSpace = s' at hkind
  cases hkind with
  | genset g s =>
    simp only
    cases a with
    | num q => exact ⟨h, rfl⟩
    | arr l =>
      simp only
      cases l[0]? with
      | none => exact ⟨h, rfl⟩
      | some goal =>
        simp only
        split
        · exact ⟨h, rfl⟩
        · have hw := updateStatus_withCost g (g.cost.priced k) (k * g.costPerCo2) goal
          unfold Genset.withCost at hw
          rw [hw]
          cases hg : g.updateStatus goal with
          | error e => exact ⟨h, rfl⟩
          | ok g' =>
            simp only [Except.map]
            apply ModPriced.baseStep _ hk
            refine ⟨h.raiseErrors, h.initialStep, h.currentStep, h.actSpace, h.provName, h.absName, h.ffc, ?_⟩
            have hc := updateStatus_cost hg
            rw [← hc.1, ← hc.2]
            exact .genset g' s
  | _ => assumption

theorem ModPriced.reset (h : ModPriced k m m') (hk : 0 < k) :
    ModPriced k m.reset.1 m'.reset.1 ∧ m'.reset.2 = m.reset.2 := by
  obtain ⟨h2, h3⟩ := h.updateStep hk true
  unfold Module.reset
  cases g1 : m.updateStep true with
  | mk m₂ r =>
  cases g1' : m'.updateStep true with
  | mk m₂' r' =>
  rw [g1, g1'] at h2 h3
  simp only at h2 h3
  subst h3
  cases r' with
  | error e => exact ⟨h2, rfl⟩
  | ok x =>
    have h4 := h2.withLogger m₂.logger.flush m₂'.logger.flush
    exact ⟨h4, h4.normalizedObs hk⟩

theorem ModPriced.withInitial (h : ModPriced k m m') (v : Nat) :
    ModPriced k { m with initialStep := v } { m' with initialStep := v } :=
  ⟨h.raiseErrors, rfl, h.currentStep, h.actSpace, h.provName, h.absName, h.ffc, h.kind⟩

theorem ModPriced.setFinal (h : ModPriced k m m') (v : Int) :
    ModPriced k (Microgrid.setFinalOne m v).1 (Microgrid.setFinalOne m' v).1 ∧
      (Microgrid.setFinalOne m' v).2 = (Microgrid.setFinalOne m v).2 := by
  have hkind := h.kind
  unfold Microgrid.setFinalOne
  rw [h.initialStep]
  generalize ha : m.kind = x at hkind ⊢
  generalize ho : m.obsSpace = s at hkind
  generalize hb : m'.kind = y at hkind ⊢
  generalize ho' : m'.obsSpace = s' at hkind
  cases hkind with
  | grid p t t' ht hs =>
    have hl : t'.rows.length = t.rows.length := by rw [ht.rows, List.length_map]
    simp only [TS.setFinalStep, hl]
    generalize (if v ≤ 0 then t.rows.length else v.toNat) = f
    by_cases hx : f ≤ m.initialStep
    all_goals
      simp only [hx, if_true, if_false]
      refine ⟨⟨h.raiseErrors, rfl, h.currentStep, h.actSpace, h.provName, h.absName, h.ffc, ?_⟩, trivial⟩
      exact .grid p { t with finalStep := f } { t' with finalStep := f }
        ⟨ht.rows, ht.comps, ht.minRow, ht.maxRow, rfl, ht.horizon, ht.fkind, ht.cur, ht.draws, ht.four,
          ⟨ht.valid.minLen, ht.valid.box, ht.valid.inBox, ht.valid.fMin, ht.valid.fMax, ht.valid.fObs, ht.valid.fRows,
            ht.valid.noneH⟩,
          ⟨ht.valid'.minLen, ht.valid'.box, ht.valid'.inBox, ht.valid'.fMin, ht.valid'.fMax, ht.valid'.fObs,
            ht.valid'.fRows, ht.valid'.noneH⟩⟩ hs
  | load t s =>
    simp only [TS.setFinalStep]
    generalize (if v ≤ 0 then t.rows.length else v.toNat) = f
    by_cases hx : f ≤ m.initialStep
    all_goals
      simp only [hx, if_true, if_false]
      refine ⟨⟨h.raiseErrors, rfl, h.currentStep, h.actSpace, h.provName, h.absName, h.ffc, ?_⟩, trivial⟩
      exact .load _ s
  | renewable t s =>
    simp only [TS.setFinalStep]
    generalize (if v ≤ 0 then t.rows.length else v.toNat) = f
    by_cases hx : f ≤ m.initialStep
    all_goals
      simp only [hx, if_true, if_false]
      refine ⟨⟨h.raiseErrors, rfl, h.currentStep, h.actSpace, h.provName, h.absName, h.ffc, ?_⟩, trivial⟩
      exact .renewable _ s
  | _ => exact ⟨h, rfl⟩

end

end Pymgrid
