import Verif.Lemmas.Currency
import Verif.Lemmas.Grid
import Verif.Spec.Units

set_option autoImplicit false

/-! Helper lemmas for C92: rows and series. -/

namespace Pymgrid

/-! ### Rows -/

theorem rowIn_eq (σ : Nat → ℚ) (row : List ℚ) : rowIn σ row = scaleBy σ row := mapIdx_scaleBy σ row

@[simp] theorem rowIn_length (σ : Nat → ℚ) (row : List ℚ) : (rowIn σ row).length = row.length := by simp [rowIn]

theorem rowIn_get (σ : Nat → ℚ) (row : List ℚ) (j : Nat) : (rowIn σ row)[j]? = row[j]?.map fun x => σ j * x := by
  simp [rowIn]

/-- Normalised rows do not depend on the unit. -/
theorem norm_rows_scaled {σ : Nat → ℚ} (hσ : ∀ j, 0 < σ j) {lo hi : List ℚ} (L : List (List ℚ)) (w : ∀ r ∈ L, Within lo hi r) :
    mapBounds norm1 (List.replicate L.length (rowIn σ lo)).flatten (List.replicate L.length (rowIn σ hi)).flatten
      (L.map (rowIn σ)).flatten =
    mapBounds norm1 (List.replicate L.length lo).flatten (List.replicate L.length hi).flatten L.flatten := by
  induction L with
  | nil => rfl
  | cons r L ih =>
    have wr := w r (by simp)
    simp only [List.length_cons, List.replicate_succ, List.flatten_cons, List.map_cons]
    have h1 := wr.1
    have h2 := wr.2.1
    rw [mapBounds_append _ (by simp; omega) (by simp; omega), mapBounds_append _ (by omega) (by omega),
      ih fun r hr => w r (by simp [hr])]
    congr 1
    simp only [rowIn_eq]
    exact mapBounds_norm_scale (hσ) wr

/-! ### Series -/

theorem UnitForecast.isSome {σ : Nat → ℚ} {p p' : FKind} (h : UnitForecast σ p p') : p'.isSome = p.isSome := by
  cases h <;> rfl

theorem UnitForecast.get {σ : Nat → ℚ} {p p' : FKind} (h : UnitForecast σ p p') (lo hi lo' hi' : List ℚ) (n : Nat) :
    UnitForecast σ (Forecaster.get p lo hi n).kind (Forecaster.get p' lo' hi' n).kind := by
  cases h with
  | none => exact .none
  | oracle => exact .oracle
  | gaussian inc std h => exact .gaussian inc _ h
  | user h => exact .user h
  | userScalar h => exact .userScalar h

/-- Two series in two units. -/
structure TSScaled (σ : Nat → ℚ) (t t' : TS) : Prop where
  rows : t'.rows = t.rows.map (rowIn σ)
  comps : t'.comps = t.comps
  minRow : t'.minRow = rowIn σ t.minRow
  maxRow : t'.maxRow = rowIn σ t.maxRow
  finalStep : t'.finalStep = t.finalStep
  horizon : t'.horizon = t.horizon
  fkind : UnitForecast σ t.forecaster.kind t'.forecaster.kind
  cur : t'.cur = t.cur.map (List.map (rowIn σ))
  draws : t'.draws = t.draws
  valid : t.Valid
  valid' : t'.Valid

theorem addNoise_scaled {σ : Nat → ℚ} {n n' : Nat → Nat → ℚ} (h : ∀ i j, n' i j = σ j * n i j)
    (w : List (List ℚ)) :
    Forecaster.addNoise n' (w.map (rowIn σ)) = (Forecaster.addNoise n w).map (rowIn σ) := by
  unfold Forecaster.addNoise
  apply List.ext_getElem?
  intro i
  simp only [List.getElem?_mapIdx, List.getElem?_map, Option.map_map]
  cases w[i]? with
  | none => rfl
  | some row =>
    simp only [Option.map_some, Option.some.injEq, Function.comp]
    apply List.ext_getElem?
    intro j
    simp only [rowIn_get, List.getElem?_mapIdx, Option.map_map]
    cases row[j]? with
    | none => rfl
    | some x =>
      simp only [Option.map_some, Option.some.injEq, Function.comp, h]
      ring

theorem mapScalar_scaled {σ : Nat → ℚ} {f f' : List ℚ → List ℚ → Nat → Except Err (List ℚ)}
    (h : ∀ c r n, f' (rowIn σ c) (rowIn σ r) n = (f c r n).map (rowIn σ)) (c : List ℚ) (w : List (List ℚ)) :
    ∀ i, Forecaster.mapScalar f' (rowIn σ c) i (w.map (rowIn σ)) =
      (Forecaster.mapScalar f c i w).map (List.map (rowIn σ)) := by
  induction w with
  | nil => intro i; rfl
  | cons r w ih =>
    intro i
    simp only [List.map_cons, Forecaster.mapScalar, h, ih]
    cases f c r i with
    | error e => rfl
    | ok v =>
      simp only [Except.map]
      cases Forecaster.mapScalar f c (i + 1) w <;> rfl

theorem raw_scaled {σ : Nat → ℚ} {f f' : Forecaster} (h : UnitForecast σ f.kind f'.kind) (d : Nat) (c : List ℚ)
    (w : List (List ℚ)) (n : Nat) :
    f'.raw d (rowIn σ c) (w.map (rowIn σ)) n = (f.raw d c w n).map (Option.map (List.map (rowIn σ))) := by
  obtain ⟨kd, a, b, o, q⟩ := f
  obtain ⟨kd', a', b', o', q'⟩ := f'
  simp only at h
  cases h with
  | none => rfl
  | oracle => rfl
  | gaussian inc std h =>
    unfold Forecaster.raw
    simp only [addNoise_scaled (h d), List.length_map]
    cases std with
    | none => rfl
    | some r => simp only; split <;> rfl
  | user h =>
    simp only [Forecaster.raw, h]
    rename_i g g'
    cases g c w n <;> rfl
  | userScalar h =>
    simp only [Forecaster.raw, List.length_map, mapScalar_scaled h]
    split
    · rfl
    · rename_i g g' _
      cases Forecaster.mapScalar g c 0 w <;> rfl

section
variable {σ : Nat → ℚ} {t t' : TS}

theorem midpoints_scaled (hσ : ∀ j, 0 < σ j) (a b : List ℚ) :
    midpoints (rowIn σ a) (rowIn σ b) = rowIn σ (midpoints a b) := by
  unfold midpoints
  simp only [rowIn_eq]
  exact zipWith_scaleBy (fun u a b _ => by ring) _ (hσ) a b

theorem clipRow_scaled (hσ : ∀ j, 0 < σ j) (a b c : List ℚ) :
    Forecaster.clipRow (rowIn σ a) (rowIn σ b) (rowIn σ c) = rowIn σ (Forecaster.clipRow a b c) := by
  unfold Forecaster.clipRow
  simp only [rowIn_eq]
  exact mapBounds_scaleBy (fun u a b c hu => clip1_scale u a b c hu) _ (hσ) a b c

theorem TSScaled.window (h : TSScaled σ t t') (c : Nat) : t'.window c = (t.window c).map (rowIn σ) := by
  unfold TS.window
  rw [h.rows, h.horizon, List.map_take, List.map_drop]

theorem TSScaled.fill (h : TSScaled σ t t') (hσ : ∀ j, 0 < σ j) : t'.forecaster.fillRow = rowIn σ t.forecaster.fillRow := by
  rw [Forecaster.fillRow_eq, Forecaster.fillRow_eq, h.valid.fMin, h.valid.fMax, h.valid'.fMin, h.valid'.fMax, h.minRow,
    h.maxRow, midpoints_scaled hσ]

theorem TSScaled.pad (h : TSScaled σ t t') (hσ : ∀ j, 0 < σ j) (fc : List (List ℚ)) (n : Nat) :
    t'.forecaster.pad (fc.map (rowIn σ)) n = (t.forecaster.pad fc n).map (List.map (rowIn σ)) := by
  unfold Forecaster.pad
  rw [h.fill hσ, h.valid.fObs, h.valid'.fObs, h.horizon, List.length_map]
  split
  · rfl
  · split
    · rfl
    · split
      · rfl
      · simp [Except.map]

theorem TSScaled.clip (h : TSScaled σ t t') (hσ : ∀ j, 0 < σ j) (fc : List (List ℚ)) :
    t'.forecaster.clip (fc.map (rowIn σ)) = (t.forecaster.clip fc).map (List.map (rowIn σ)) := by
  have hall : ∀ fc : List (List ℚ), (fc.map (rowIn σ)).all (fun r => decide (r.length = t'.minRow.length)) =
      fc.all (fun r => decide (r.length = t.minRow.length)) := by
    intro fc
    rw [h.minRow, rowIn_length, List.all_map]
    congr 1
    funext r
    simp
  unfold Forecaster.clip
  rw [h.valid.fMin, h.valid.fMax, h.valid'.fMin, h.valid'.fMax, h.valid.fRows, h.valid'.fRows, h.horizon, List.length_map,
    hall]
  split
  · rfl
  · split
    · rfl
    · simp only [Except.map, Except.ok.injEq, List.map_map]
      apply List.map_congr_left
      intro r _
      simp only [Function.comp, h.minRow, h.maxRow, clipRow_scaled hσ]

theorem TSScaled.forecastValue (h : TSScaled σ t t') (hσ : ∀ j, 0 < σ j) (c : Nat) :
    t'.forecastValue c = (t.forecastValue c).map (Option.map (List.map (rowIn σ))) := by
  unfold TS.forecastValue
  rw [h.rows, List.getElem?_map, h.horizon, h.draws, h.window]
  cases t.rows[c]? with
  | none =>
    simp only [Option.map_none, Forecaster.fullPad]
    have := h.pad hσ [] t.horizon
    simp only [List.map_nil] at this
    rw [this]
    cases t.forecaster.pad [] t.horizon <;> rfl
  | some row =>
    simp only [Option.map_some, Forecaster.call, raw_scaled h.fkind, List.length_map, h.valid.fRows, h.valid'.fRows,
      h.horizon]
    split
    · rfl
    · cases t.forecaster.raw t.draws row (t.window c) t.horizon with
      | error e => rfl
      | ok o =>
        cases o with
        | none => rfl
        | some fc =>
          simp only [Except.map, Option.map_some, h.pad hσ]
          cases t.forecaster.pad fc t.horizon with
          | error e => rfl
          | ok padded =>
            simp only [Except.map, h.clip hσ]
            cases t.forecaster.clip padded with
            | error e => rfl
            | ok out =>
              have hall : (out.map (rowIn σ)).all (fun r => decide (r.length = t'.forecaster.minRow.length)) =
                  out.all (fun r => decide (r.length = t.forecaster.minRow.length)) := by
                rw [h.valid.fMin, h.valid'.fMin, h.minRow, rowIn_length, List.all_map]
                congr 1
                funext r
                simp
              simp only [List.length_map, hall]
              split <;> rfl

/-- Refreshing the forecasts keeps the relation. -/
theorem TSScaled.refresh (h : TSScaled σ t t') (hσ : ∀ j, 0 < σ j) (c : Nat) :
    TSScaled σ (t.refresh c).1 (t'.refresh c).1 ∧ (t'.refresh c).2 = (t.refresh c).2 := by
  have hf := h.forecastValue hσ c
  rcases h.valid.refresh c with ⟨f, e1, e2⟩ | ⟨e, e1, e2⟩
  · rw [e1] at hf
    rcases h.valid'.refresh c with ⟨f', e1', e2'⟩ | ⟨e', e1', e2'⟩
    · rw [e1'] at hf
      simp only [Except.map, Except.ok.injEq] at hf
      rw [e2, e2']
      exact ⟨⟨h.rows, h.comps, h.minRow, h.maxRow, h.finalStep, h.horizon, h.fkind, hf, by simp [h.draws],
        (TS.Same.mk' _ _ _).valid h.valid, (TS.Same.mk' _ _ _).valid h.valid'⟩, rfl⟩
    · rw [e1'] at hf; simp [Except.map] at hf
  · rw [e1] at hf
    rcases h.valid'.refresh c with ⟨f', e1', e2'⟩ | ⟨e', e1', e2'⟩
    · rw [e1'] at hf; simp [Except.map] at hf
    · rw [e1'] at hf
      simp only [Except.map, Except.error.injEq] at hf
      rw [e2, e2', hf]
      exact ⟨⟨h.rows, h.comps, h.minRow, h.maxRow, h.finalStep, h.horizon, h.fkind, h.cur, by simp [h.draws],
        (TS.Same.mk' _ _ _).valid h.valid, (TS.Same.mk' _ _ _).valid h.valid'⟩, rfl⟩

theorem TSScaled.obsAt (h : TSScaled σ t t') (hσ : ∀ j, 0 < σ j) (c : Nat) : t'.obsAt c = rowIn σ (t.obsAt c) := by
  unfold TS.obsAt
  rw [h.rows, List.getElem?_map, h.minRow, h.maxRow, midpoints_scaled hσ]
  cases t.rows[c]? <;> rfl

theorem TSScaled.shaped (h : TSScaled σ t t') (hσ : ∀ j, 0 < σ j) (hs : t.Shaped t.cur) : t'.Shaped t'.cur := by
  unfold TS.Shaped at *
  rw [h.cur, h.horizon]
  cases hc : t.cur with
  | none => rw [hc] at hs; exact hs
  | some f =>
    rw [hc] at hs
    refine ⟨by simpa using hs.1, ?_⟩
    intro r hr
    obtain ⟨r₀, hr₀, rfl⟩ := List.mem_map.mp hr
    rw [h.minRow, h.maxRow]
    simp only [rowIn_eq]
    exact within_scaleBy (hσ) (hs.2 r₀ hr₀)

theorem TSScaled.flatCur (h : TSScaled σ t t') :
    t'.flatCur = ((t.cur.getD []).map (rowIn σ)).flatten := by
  unfold TS.flatCur
  rw [h.cur]
  cases t.cur <;> rfl

/-- Normalised observations do not depend on the unit. -/
theorem TSScaled.normalized (h : TSScaled σ t t') (hσ : ∀ j, 0 < σ j) (hs : t.Shaped t.cur) (c : Nat) :
    t'.obsSpace.normalize (.arr (t'.obsAt c ++ t'.flatCur)) = t.obsSpace.normalize (.arr (t.obsAt c ++ t.flatCur)) := by
  have hL : (t.cur.getD []).length = t.horizon ∧ ∀ r ∈ t.cur.getD [], Within t.minRow t.maxRow r := by
    unfold TS.Shaped at hs
    cases hc : t.cur with
    | none => rw [hc] at hs; exact ⟨hs.symm, by simp⟩
    | some f => rw [hc] at hs; exact hs
  have key := norm_rows_scaled hσ (lo := t.minRow) (hi := t.maxRow) (t.obsAt c :: t.cur.getD []) (by
    intro r hr
    rcases List.mem_cons.mp hr with rfl | hr
    · exact h.valid.obsAt_within c
    · exact hL.2 r hr)
  simp only [List.length_cons, hL.1, List.map_cons, List.flatten_cons] at key
  unfold Space.normalize Space.apply
  simp only [TS.obsSpace, TS.minObs, TS.maxObs, Space.dim, h.obsAt hσ, h.flatCur, h.minRow, h.maxRow, h.horizon,
    Nat.add_comm 1, key]
  have hlen : (rowIn σ (t.obsAt c) ++ ((t.cur.getD []).map (rowIn σ)).flatten).length =
      (t.obsAt c ++ t.flatCur).length := by
    simp only [List.length_append, rowIn_length, TS.flatCur, List.length_flatten, List.map_map]
    congr 3
    funext r
    simp
  have hlen' : (List.replicate (t.horizon + 1) (rowIn σ t.minRow)).flatten.length =
      (List.replicate (t.horizon + 1) t.minRow).flatten.length := by simp
  rw [hlen, hlen']
  rfl

theorem TSScaled.entryAt (h : TSScaled σ t t') (c j : Nat) :
    t'.entryAt c j = (t.entryAt c j).map fun x => σ j * x := by
  unfold TS.entryAt
  rw [h.rows, List.getElem?_map]
  cases t.rows[c]? with
  | none => rfl
  | some row =>
    simp only [Option.map_some, rowIn_get]
    cases row[j]? <;> rfl

end

end Pymgrid
