import Verif.Lemmas.Step
import Verif.Spec.Series

set_option autoImplicit false

/-! Helper lemmas about forecasts and time series. -/

namespace Pymgrid

/-! ### Bounds -/

theorem Within.nil : Within [] [] [] := ⟨rfl, rfl, by simp⟩

theorem Within.cons {l h v : ℚ} {lo hi row : List ℚ} (h₁ : l ≤ v) (h₂ : v ≤ h) (h₃ : Within lo hi row) :
    Within (l :: lo) (h :: hi) (v :: row) := by
  refine ⟨by simp [h₃.1], by simp [h₃.2.1], ?_⟩
  intro j l' h' v' e₁ e₂ e₃
  cases j with
  | zero =>
    simp only [List.getElem?_cons_zero, Option.some.injEq] at e₁ e₂ e₃
    subst e₁ e₂ e₃; exact ⟨h₁, h₂⟩
  | succ j => exact h₃.2.2 j l' h' v' (by simpa using e₁) (by simpa using e₂) (by simpa using e₃)

theorem Within.head {l h v : ℚ} {lo hi row : List ℚ} (w : Within (l :: lo) (h :: hi) (v :: row)) :
    l ≤ v ∧ v ≤ h := w.2.2 0 l h v rfl rfl rfl

theorem Within.tail {l h v : ℚ} {lo hi row : List ℚ} (w : Within (l :: lo) (h :: hi) (v :: row)) :
    Within lo hi row :=
  ⟨by simpa using w.1, by simpa using w.2.1, fun j l' h' v' e₁ e₂ e₃ =>
    w.2.2 (j + 1) l' h' v' (by simpa using e₁) (by simpa using e₂) (by simpa using e₃)⟩

/-- Induction principle. -/
theorem Within.rec' {motive : List ℚ → List ℚ → List ℚ → Prop} (h0 : motive [] [] [])
    (h1 : ∀ l h v lo hi row, l ≤ v → v ≤ h → Within lo hi row → motive lo hi row →
      motive (l :: lo) (h :: hi) (v :: row)) :
    ∀ lo hi row, Within lo hi row → motive lo hi row
  | [], [], [], _ => h0
  | l :: lo, h :: hi, v :: row, w =>
    h1 l h v lo hi row w.head.1 w.head.2 w.tail (Within.rec' h0 h1 lo hi row w.tail)
  | [], _ :: _, [], w => by simp [Within] at w
  | [], _, _ :: _, w => by simp [Within] at w
  | _ :: _, _, [], w => by simp [Within] at w
  | _ :: _, [], _ :: _, w => by simp [Within] at w

theorem Within.single {l h v : ℚ} : Within [l] [h] [v] ↔ l ≤ v ∧ v ≤ h :=
  ⟨fun w => w.head, fun w => Within.cons w.1 w.2 Within.nil⟩

namespace Forecaster

theorem clip1_of {lo hi v : ℚ} (h₁ : lo ≤ v) (h₂ : v ≤ hi) : clip1 lo hi v = v := by
  unfold clip1; rw [if_neg (not_lt.mpr h₁), if_neg (not_lt.mpr h₂)]

theorem clip1_mem {lo hi : ℚ} (v : ℚ) (h : lo ≤ hi) : lo ≤ clip1 lo hi v ∧ clip1 lo hi v ≤ hi := by
  unfold clip1
  split
  · split <;> constructor <;> linarith
  · split <;> constructor <;> linarith

theorem clipRow_of {lo hi row : List ℚ} (w : Within lo hi row) : clipRow lo hi row = row := by
  refine Within.rec' (motive := fun lo hi row => clipRow lo hi row = row) rfl ?_ lo hi row w
  intro l h v lo hi row h₁ h₂ _ ih
  simp only [clipRow, mapBounds] at *
  rw [clip1_of h₁ h₂, ih]

theorem clipRow_within {lo hi row box : List ℚ} (w : Within lo hi box) (hl : row.length = lo.length) :
    Within lo hi (clipRow lo hi row) := by
  refine Within.rec' (motive := fun lo hi _ => ∀ row : List ℚ, row.length = lo.length →
    Within lo hi (clipRow lo hi row)) ?_ ?_ lo hi box w row hl
  · intro row hr
    have : row = [] := by simpa using hr
    subst this; exact Within.nil
  · intro l h v lo hi box h₁ h₂ _ ih row hr
    cases row with
    | nil => simp at hr
    | cons x row =>
      have := clip1_mem x (h₁.trans h₂)
      exact Within.cons this.1 this.2 (ih row (by simpa using hr))

theorem fillRow_eq (f : Forecaster) : f.fillRow = midpoints f.minRow f.maxRow := by
  unfold fillRow midpoints
  congr 1
  funext l h
  ring

end Forecaster

theorem midpoints_within {lo hi box : List ℚ} (w : Within lo hi box) : Within lo hi (midpoints lo hi) := by
  refine Within.rec' (motive := fun lo hi _ => Within lo hi (midpoints lo hi)) Within.nil ?_ lo hi box w
  intro l h v lo hi row h₁ h₂ _ ih
  exact Within.cons (by linarith) (by linarith) ih

/-! ### Time series -/

namespace TS

/-- Consistency of a time series with its bounds, horizon and forecaster. -/
structure Valid (t : TS) : Prop where
  minLen : t.minRow.length = t.comps.length
  box : Within t.minRow t.maxRow t.minRow
  inBox : ∀ r ∈ t.rows, Within t.minRow t.maxRow r
  fMin : t.forecaster.minRow = t.minRow
  fMax : t.forecaster.maxRow = t.maxRow
  fObs : t.forecaster.obsRows = 1 + t.horizon
  fRows : t.forecaster.fcRows = t.horizon
  noneH : t.forecaster.kind = .none → t.horizon = 0

/-- A stored forecast has one row of full width per step of the horizon. -/
def Shaped (t : TS) (f : Option (List (List ℚ))) : Prop :=
  match f with
  | none => t.horizon = 0
  | some f => f.length = t.horizon ∧ ∀ r ∈ f, Within t.minRow t.maxRow r

theorem Valid.width {t : TS} (h : t.Valid) {r : List ℚ} (hr : Within t.minRow t.maxRow r) :
    r.length = t.comps.length := hr.1.trans h.minLen

theorem window_sub (t : TS) (c : Nat) : ∀ r ∈ t.window c, r ∈ t.rows :=
  fun _ hr => List.mem_of_mem_drop (List.mem_of_mem_take hr)

theorem window_len (t : TS) (c : Nat) : (t.window c).length ≤ t.horizon := by
  simp [window]

theorem Valid.writeBack {t : TS} (h : t.Valid) (c : Nat) : t.writeBack c = t.rows := by
  unfold TS.writeBack
  split
  · rfl
  split
  · split
    · rfl
    split
    · have : (t.window c).map (Forecaster.clipRow t.forecaster.minRow t.forecaster.maxRow) = t.window c := by
        conv_rhs => rw [← List.map_id (t.window c)]
        apply List.map_congr_left
        intro r hr
        rw [h.fMin, h.fMax]
        exact Forecaster.clipRow_of (h.inBox r (window_sub t c r hr))
      rw [this]
      unfold window
      conv_rhs => rw [← List.take_append_drop (1 + c) t.rows, ← List.take_append_drop t.horizon (t.rows.drop (1 + c))]
      rw [List.drop_drop, List.append_assoc]
    · rfl
  · rfl

theorem Valid.fullPad {t : TS} (h : t.Valid) (n : Nat) (hn : n ≤ 1 + t.horizon) :
    t.forecaster.fullPad n = .ok (List.replicate n (midpoints t.minRow t.maxRow)) := by
  unfold Forecaster.fullPad Forecaster.pad
  by_cases h0 : n = 0
  · subst h0; simp
  · rw [if_neg (by simpa using Ne.symm h0), if_neg (by simp), h.fObs, if_neg (by simpa using hn)]
    rw [Forecaster.fillRow_eq, h.fMin, h.fMax]
    simp

theorem Valid.mid {t : TS} (h : t.Valid) : Within t.minRow t.maxRow (midpoints t.minRow t.maxRow) :=
  midpoints_within h.box

/-- Whatever a successful forecast returns has the right shape and stays in the bounds. -/
theorem Valid.forecast_shaped {t : TS} (h : t.Valid) {c : Nat} {f : Option (List (List ℚ))}
    (hf : t.forecastValue c = .ok f) : t.Shaped f := by
  unfold forecastValue at hf
  cases hr : t.rows[c]? with
  | none =>
    rw [hr] at hf
    simp only [h.fullPad _ (Nat.le_add_left _ 1)] at hf
    simp only [Except.ok.injEq] at hf
    subst hf
    exact ⟨by simp, fun r hr => by rw [List.eq_of_mem_replicate hr]; exact h.mid⟩
  | some row =>
    rw [hr] at hf
    simp only [Forecaster.call] at hf
    rw [if_neg (by rw [h.fRows]; exact not_lt.mpr (window_len t c))] at hf
    cases hraw : t.forecaster.raw t.draws row (t.window c) t.horizon with
    | error e => rw [hraw] at hf; simp at hf
    | ok o =>
      rw [hraw] at hf
      cases o with
      | none =>
        simp only [Except.ok.injEq] at hf
        subst hf
        refine h.noneH ?_
        unfold Forecaster.raw at hraw
        split at hraw <;> rename_i hk
        · exact hk
        · simp at hraw
        · split at hraw
          · simp at hraw
          · split at hraw <;> simp at hraw
        · split at hraw <;> simp at hraw
        · split at hraw
          · simp at hraw
          · split at hraw <;> simp at hraw
      | some fc =>
        simp only at hf
        cases hp : t.forecaster.pad fc t.horizon with
        | error e => rw [hp] at hf; simp at hf
        | ok padded =>
          rw [hp] at hf
          simp only [Forecaster.clip] at hf
          split at hf
          · simp at hf
          · rename_i out hout
            split at hout
            · simp at hout
            split at hout
            · simp at hout
            rename_i hall
            simp only [Except.ok.injEq] at hout
            split at hf
            · rename_i hl
              simp only [Except.ok.injEq] at hf
              subst hf
              refine ⟨hl.1, fun r hr => ?_⟩
              subst hout
              obtain ⟨r₀, hr₀, rfl⟩ := List.mem_map.mp hr
              rw [Bool.not_eq_false, List.all_eq_true] at hall
              have hw := hall r₀ hr₀
              rw [h.fMin] at hw
              rw [h.fMin, h.fMax]
              exact Forecaster.clipRow_within h.box (by simpa using hw)
            · simp at hf

/-- A working forecaster never fails. -/
theorem Valid.forecast_ok {t : TS} (h : t.Valid) (hw : t.forecaster.kind.Works t.comps.length t.horizon)
    (c : Nat) : ∃ f, t.forecastValue c = .ok f := by
  unfold forecastValue
  cases hr : t.rows[c]? with
  | none => exact ⟨_, by rw [h.fullPad _ (Nat.le_add_left _ 1)]⟩
  | some row =>
    have hrow : Within t.minRow t.maxRow row := h.inBox row (List.mem_of_getElem? hr)
    have hwin : ∀ r ∈ t.window c, r.length = t.comps.length :=
      fun r hr => h.width (h.inBox r (window_sub t c r hr))
    simp only [Forecaster.call]
    rw [if_neg (by rw [h.fRows]; exact not_lt.mpr (window_len t c))]
    have key : t.forecaster.raw t.draws row (t.window c) t.horizon = .ok none ∨
        ∃ fc, t.forecaster.raw t.draws row (t.window c) t.horizon = .ok (some fc) ∧
          fc.length ≤ t.horizon ∧ ∀ r ∈ fc, r.length = t.comps.length := by
      have hnoise : ∀ n : Nat → Nat → ℚ, (Forecaster.addNoise n (t.window c)).length ≤ t.horizon ∧
          ∀ r ∈ Forecaster.addNoise n (t.window c), r.length = t.comps.length := by
        intro n
        constructor
        · simpa [Forecaster.addNoise] using window_len t c
        · intro r hr
          obtain ⟨i, hi, rfl⟩ := List.mem_mapIdx.mp hr
          simpa using hwin _ (List.getElem_mem hi)
      unfold Forecaster.raw
      cases hk : t.forecaster.kind with
      | none => exact .inl rfl
      | oracle => exact .inr ⟨_, rfl, window_len t c, hwin⟩
      | gaussian noise inc std =>
        rw [hk] at hw
        cases std with
        | none => exact .inr ⟨_, rfl, hnoise _⟩
        | some r =>
          have hr' : t.horizon ≤ r := hw r rfl
          simp only
          rw [if_neg (by have := window_len t c; omega)]
          exact .inr ⟨_, rfl, hnoise _⟩
      | user f =>
        rw [hk] at hw
        obtain ⟨out, ho, hl, hall⟩ := hw row (t.window c) (h.width hrow) (window_len t c) hwin
        simp only [ho]
        exact .inr ⟨out, rfl, hl, hall⟩
      | userScalar f =>
        rw [hk] at hw
        have h0 : t.horizon = 0 := hw
        have hwn : t.window c = [] := by
          have := window_len t c
          rw [h0] at this
          exact List.length_eq_zero_iff.mp (Nat.le_zero.mp this)
        simp only [hwn, h0, List.length_nil, ne_eq, not_true, if_false, Forecaster.mapScalar]
        exact .inr ⟨[], rfl, by simp, by simp⟩
    rcases key with hraw | ⟨fc, hraw, hl, hall⟩
    · exact ⟨none, by rw [hraw]⟩
    · rw [hraw]
      simp only
      have hpad : ∃ p, t.forecaster.pad fc t.horizon = .ok p ∧ p.length = t.horizon ∧
          ∀ r ∈ p, r.length = t.comps.length := by
        unfold Forecaster.pad
        by_cases he : fc.length = t.horizon
        · exact ⟨fc, by rw [if_pos he], he, hall⟩
        · refine ⟨fc ++ List.replicate (t.horizon - fc.length) t.forecaster.fillRow, ?_, ?_, ?_⟩
          · rw [if_neg he, if_neg (by omega), h.fObs, if_neg (by omega)]
          · simp only [List.length_append, List.length_replicate]; omega
          · intro r hr
            rcases List.mem_append.mp hr with hr | hr
            · exact hall r hr
            · rw [List.eq_of_mem_replicate hr, Forecaster.fillRow_eq, h.fMin, h.fMax]
              exact h.width h.mid
      obtain ⟨p, hp, hpl, hpw⟩ := hpad
      rw [hp]
      simp only [Forecaster.clip]
      rw [if_neg (by rw [h.fRows, hpl]; exact lt_irrefl _), if_neg ?_]
      · simp only
        rw [if_pos ?_]
        · exact ⟨_, rfl⟩
        · refine ⟨by simpa using hpl, ?_⟩
          rw [List.all_eq_true]
          intro r hr
          obtain ⟨r₀, hr₀, rfl⟩ := List.mem_map.mp hr
          rw [h.fMin, h.fMax]
          have := Forecaster.clipRow_within h.box ((hpw r₀ hr₀).trans h.minLen.symm)
          simpa using this.1
      · rw [Bool.not_eq_false, List.all_eq_true]
        intro r hr
        rw [h.fMin]
        simpa using (hpw r hr).trans h.minLen.symm

/-- Two series modules that differ in the stored forecast only. -/
def Same (t t' : TS) : Prop := t' = { t with cur := t'.cur, draws := t'.draws }

theorem Same.refl (t : TS) : Same t t := rfl

theorem Same.trans {t t' t'' : TS} (h : Same t t') (h' : Same t' t'') : Same t t'' := by
  unfold Same at *
  rw [h'] at *
  rw [h]

theorem Same.mk' (t : TS) (c : Option (List (List ℚ))) (d : Nat) : Same t { t with cur := c, draws := d } := rfl

theorem Same.valid {t t' : TS} (s : Same t t') (h : t.Valid) : t'.Valid := by
  rw [s]; exact ⟨h.minLen, h.box, h.inBox, h.fMin, h.fMax, h.fObs, h.fRows, h.noneH⟩

theorem Same.shaped {t t' : TS} (s : Same t t') (f : Option (List (List ℚ))) : t'.Shaped f ↔ t.Shaped f := by
  rw [s]; rfl

theorem Same.rows {t t' : TS} (s : Same t t') : t'.rows = t.rows := by rw [s]
theorem Same.comps {t t' : TS} (s : Same t t') : t'.comps = t.comps := by rw [s]
theorem Same.horizon {t t' : TS} (s : Same t t') : t'.horizon = t.horizon := by rw [s]
theorem Same.finalStep {t t' : TS} (s : Same t t') : t'.finalStep = t.finalStep := by rw [s]
theorem Same.forecaster {t t' : TS} (s : Same t t') : t'.forecaster = t.forecaster := by rw [s]
theorem Same.minRow {t t' : TS} (s : Same t t') : t'.minRow = t.minRow := by rw [s]
theorem Same.maxRow {t t' : TS} (s : Same t t') : t'.maxRow = t.maxRow := by rw [s]
theorem Same.param {t t' : TS} (s : Same t t') : t'.param = t.param := by rw [s]
theorem Same.done {t t' : TS} (s : Same t t') (c : Nat) : t'.done c = t.done c := by rw [s]; rfl

/-- `refresh` replaces the stored forecast and nothing else. -/
theorem Valid.refresh {t : TS} (h : t.Valid) (c : Nat) :
    (∃ f, t.forecastValue c = .ok f ∧
      t.refresh c = ({ t with cur := f, draws := t.draws + 1 }, .ok ())) ∨
    (∃ e, t.forecastValue c = .error e ∧ t.refresh c = ({ t with draws := t.draws + 1 }, .error e)) := by
  unfold TS.refresh
  rw [h.writeBack]
  cases hf : t.forecastValue c with
  | ok f => exact .inl ⟨f, rfl, rfl⟩
  | error e => exact .inr ⟨e, rfl, rfl⟩

theorem Valid.refresh_same {t : TS} (h : t.Valid) (c : Nat) : Same t (t.refresh c).1 := by
  rcases h.refresh c with ⟨f, -, e⟩ | ⟨e', -, e⟩ <;> rw [e] <;> rfl

/-! ### Observations -/

/-- The observation at a step: the row of the series, or the mid-points past its end. -/
def obsAt (t : TS) (c : Nat) : List ℚ := (t.rows[c]?).getD (midpoints t.minRow t.maxRow)

theorem Valid.currentObs {t : TS} (h : t.Valid) (c : Nat) : t.currentObs c = .ok (t.obsAt c) := by
  unfold TS.currentObs obsAt
  cases t.rows[c]? with
  | some r => rfl
  | none => simp [h.fullPad 1 (Nat.le_add_right 1 _)]

theorem Valid.obsAt_within {t : TS} (h : t.Valid) (c : Nat) : Within t.minRow t.maxRow (t.obsAt c) := by
  unfold obsAt
  cases hr : t.rows[c]? with
  | some r => exact h.inBox r (List.mem_of_getElem? hr)
  | none => exact h.mid

/-- The numbers of a stored forecast. -/
def flatCur (t : TS) : List ℚ := (t.cur.getD []).flatten

theorem Shaped.flat_length {t : TS} (h : t.Valid) (hs : t.Shaped t.cur) :
    t.flatCur.length = t.horizon * t.comps.length := by
  unfold flatCur
  cases hc : t.cur with
  | none => rw [hc] at hs; have h0 : t.horizon = 0 := hs; simp [h0]
  | some f =>
    rw [hc] at hs
    obtain ⟨h₁, h₂⟩ := hs
    have : (f.map List.length).sum = f.length * t.comps.length := by
      clear hc h₁
      induction f with
      | nil => simp
      | cons r f ih =>
        simp only [List.map_cons, List.sum_cons, List.length_cons]
        rw [ih (fun r hr => h₂ r (by simp [hr])), h.width (h₂ r (by simp))]
        ring
    simp [List.length_flatten, this, h₁]

theorem forecastKeys_length (t : TS) : t.forecastKeys.length = t.horizon * t.comps.length := by
  unfold forecastKeys
  rw [List.length_flatMap]
  simp

/-- The state of a time-series module: the observation followed by the stored forecast. -/
theorem Valid.stateDict {t : TS} (h : t.Valid) (c : Nat) :
    t.stateDict c = .ok (t.currentKeys.zip (t.obsAt c) ++ t.forecastKeys.zip t.flatCur) := by
  unfold TS.stateDict flatCur
  rw [h.currentObs]
  cases t.cur with
  | none => simp
  | some f => simp

theorem Valid.state_vals {t : TS} (h : t.Valid) (hs : t.Shaped t.cur) (c : Nat) :
    (t.currentKeys.zip (t.obsAt c) ++ t.forecastKeys.zip t.flatCur).map Prod.snd = t.obsAt c ++ t.flatCur := by
  rw [List.map_append, List.map_snd_zip, List.map_snd_zip]
  · rw [forecastKeys_length, hs.flat_length h]
  · simp [currentKeys, h.width (h.obsAt_within c)]

end TS

end Pymgrid
