import Verif.Lemmas.SeriesStep

set_option autoImplicit false

/-! Time-series modules reachable from their constructors. -/

namespace Pymgrid

namespace Module

theorem LoadWF.ops {m : Module} {t : TS} (h : m.LoadWF t) (ops : List MOp) :
    ∃ t', TS.Same t t' ∧ (runOps m ops).LoadWF t' := by
  obtain ⟨t', hs, hw, hk⟩ := h.ts.ops ops
  have hf := frame_runOps m ops
  refine ⟨t', hs, by rw [hk, h.kind]; rfl, hw, hs.comps ▸ h.one, hf.ffc.trans h.ffc, hf.prov.trans h.prov,
    hf.abs.trans h.abs, by rw [hs.rows]; exact h.sign⟩

theorem RenWF.ops {m : Module} {t : TS} (h : m.RenWF t) (ops : List MOp) :
    ∃ t', TS.Same t t' ∧ (runOps m ops).RenWF t' := by
  obtain ⟨t', hs, hw, hk⟩ := h.ts.ops ops
  have hf := frame_runOps m ops
  refine ⟨t', hs, by rw [hk, h.kind]; rfl, hw, hs.comps ▸ h.one, hf.ffc.trans h.ffc, hf.prov.trans h.prov,
    hf.abs.trans h.abs, by rw [hs.rows]; exact h.sign, hs.minRow.trans h.low⟩

theorem GridWF.ops {m : Module} {p : GridParams} {t : TS} (h : m.GridWF p t) (ops : List MOp) :
    ∃ t', TS.Same t t' ∧ (runOps m ops).GridWF p t' := by
  obtain ⟨t', hs, hw, hk⟩ := h.ts.ops ops
  have hf := frame_runOps m ops
  refine ⟨t', hs, by rw [hk, h.kind]; rfl, hw, hs.comps.trans h.names, by rw [hf.ffc]; exact h.ffc, hf.prov.trans h.prov,
    hf.abs.trans h.abs, h.imp, h.exp, by rw [hs.rows]; exact h.status, by rw [hs.rows]; exact h.nonneg⟩

theorem BalWF.op {m : Module} {u : Unbalanced} (h : m.BalWF u) (op : MOp) : (op.apply m).BalWF u := by
  have key : ∀ L c, BalWF { m with logger := L, currentStep := c } u := fun L c =>
    ⟨h.kind, h.ffc, h.prov, h.abs, h.dim, h.loss, h.over, h.space⟩
  cases op with
  | step a n =>
    simp only [MOp.apply, h.step_eq]
    cases m.request a n with
    | error e => exact h
    | ok q =>
      obtain ⟨row, -, he⟩ := h.stepEnergy q
      simp only [he]
      exact key _ _
  | reset => simp only [MOp.apply, h.reset]; exact key _ _
  | setSoc v => simp only [MOp.apply, assign, h.kind]; exact h
  | setCharge v => simp only [MOp.apply, assign, h.kind]; exact h

theorem BalWF.ops {m : Module} {u : Unbalanced} (h : m.BalWF u) (ops : List MOp) : (runOps m ops).BalWF u := by
  induction ops generalizing m with
  | nil => exact h
  | cons op ops ih => exact ih (h.op op)

/-- With a working forecaster the stored forecast always belongs to the current step. -/
theorem TSWF.fresh_op {m : Module} {t : TS} (h : m.TSWF t) (hf : t.Fresh m.currentStep)
    (hw : t.forecaster.kind.Works t.comps.length t.horizon) (op : MOp) :
    ∃ t', TS.Same t t' ∧ (op.apply m).TSWF t' ∧ t'.Fresh (op.apply m).currentStep := by
  have self : ∃ t', TS.Same t t' ∧ m.TSWF t' ∧ t'.Fresh m.currentStep := ⟨t, rfl, h, hf⟩
  have mv : ∀ L c f, t.Shaped f → t.forecastValue c = .ok f →
      ∃ t', TS.Same t t' ∧ (m.moved t L c f).TSWF t' ∧ t'.Fresh (m.moved t L c f).currentStep :=
    fun L c f hf hv => ⟨_, TS.Same.mk' t _ _, h.moved L c hf, t.draws, hv⟩
  have asg : ∀ f, m.assign f = m := by
    intro f
    have := h.series
    unfold series? at this
    unfold assign
    cases hk : m.kind <;> simp_all
  cases op with
  | step a n =>
    simp only [MOp.apply, h.step_eq]
    cases m.request a n with
    | error e => exact self
    | ok q =>
      rcases h.stepEnergy q with ⟨e, he⟩ | ⟨u, pre, row, -, -, -, ⟨f, hv, hf, obs, he⟩ | ⟨e, hv, he⟩⟩
      · simp only [he]; exact self
      · simp only [he]; exact mv _ _ _ hf hv
      · obtain ⟨f, hf⟩ := h.valid.forecast_ok hw (m.currentStep + 1)
        rw [hv] at hf; simp at hf
  | reset =>
    rcases h.reset with ⟨f, obs, hv, hf, he⟩ | ⟨e, hv, he⟩
    · simp only [MOp.apply, he]; exact mv _ _ _ hf hv
    · obtain ⟨f, hf⟩ := h.valid.forecast_ok hw m.initialStep
      rw [hv] at hf; simp at hf
  | setSoc v => simp only [MOp.apply, asg]; exact self
  | setCharge v => simp only [MOp.apply, asg]; exact self

theorem TSWF.fresh_ops {m : Module} {t : TS} (h : m.TSWF t) (hf : t.Fresh m.currentStep)
    (hw : t.forecaster.kind.Works t.comps.length t.horizon) (ops : List MOp) :
    ∃ t', TS.Same t t' ∧ (runOps m ops).TSWF t' ∧ t'.Fresh (runOps m ops).currentStep := by
  induction ops generalizing m t with
  | nil => exact ⟨t, rfl, h, hf⟩
  | cons op ops ih =>
    obtain ⟨t₁, s₁, h₁, k₁⟩ := h.fresh_op hf hw op
    obtain ⟨t₂, s₂, h₂, k₂⟩ := ih h₁ k₁ (by rw [s₁.forecaster, s₁.comps, s₁.horizon]; exact hw)
    exact ⟨t₂, s₁.trans s₂, h₂, k₂⟩

end Module

/-- A module built by a constructor is consistent. -/
theorem BuiltSeries.start {param : FKind} {horizon i : Nat} {fs : Int} {r : Bool} {m : Module}
    {rows : List (List ℚ)} {k : Nat} (h : BuiltSeries param horizon i fs r m rows k) :
    ∃ t comps mn mx, TS.Same (TS.blank rows comps mn mx param horizon fs) t ∧ m.TSWF t ∧ t.Fresh i ∧
      comps.length = k ∧ m.currentStep = i ∧ m.initialStep = i ∧ m.raiseErrors = r ∧
      m.obsSpace = t.obsSpace ∧ m.logger = {} := by
  cases h with
  | load hm =>
    obtain ⟨t, mn, mx, wf, hf, -, hs, -, h1, h2, h3, h4, -, h6⟩ := Module.mkLoad_inv hm
    exact ⟨t, _, _, _, hs, wf.ts, hf, rfl, h2, h1, h3, h6, h4⟩
  | renewable hm =>
    obtain ⟨t, mn, mx, wf, hf, -, hs, -, h1, h2, h3, h4, -, h6⟩ := Module.mkRenewable_inv hm
    exact ⟨t, _, _, _, hs, wf.ts, hf, rfl, h2, h1, h3, h6, h4⟩
  | grid hrect hm =>
    obtain ⟨t, mn, mx, wf, hf, -, hs, -, -, h1, h2, h3, h4, -, h6⟩ := Module.mkGrid_inv hrect hm
    exact ⟨t, _, _, _, hs, wf.ts, hf, rfl, h2, h1, h3, h6, h4⟩

/-- The oracle's forecast. -/
theorem TS.Valid.oracle {t : TS} (h : t.Valid) (hk : t.forecaster.kind = .oracle) (c : Nat) :
    t.forecastValue c = .ok (some (trueFuture t.rows (midpoints t.minRow t.maxRow) c t.horizon)) := by
  unfold forecastValue
  cases hr : t.rows[c]? with
  | none =>
    simp only [h.fullPad _ (Nat.le_add_left _ 1)]
    congr 2
    unfold trueFuture
    apply List.ext_getElem?
    intro j
    have hlen : t.rows.length ≤ c := List.getElem?_eq_none_iff.mp hr
    by_cases hj : j < t.horizon
    · rw [List.getElem?_replicate, if_pos hj, List.getElem?_map, List.getElem?_range hj]
      simp [List.getElem?_eq_none_iff.mpr (by omega : t.rows.length ≤ c + 1 + j)]
    · rw [List.getElem?_replicate, if_neg hj, List.getElem?_eq_none_iff.mpr (by simpa using hj)]
  | some row =>
    have hw : t.forecaster.kind.Works t.comps.length t.horizon := by rw [hk]; trivial
    simp only [Forecaster.call]
    rw [if_neg (by rw [h.fRows]; exact not_lt.mpr (window_len t c))]
    have hraw : t.forecaster.raw t.draws row (t.window c) t.horizon = .ok (some (t.window c)) := by
      simp [Forecaster.raw, hk]
    rw [hraw]
    simp only
    have hall : ∀ r ∈ t.window c, Within t.minRow t.maxRow r := fun r hr => h.inBox r (window_sub t c r hr)
    have hpad : t.forecaster.pad (t.window c) t.horizon =
        .ok (trueFuture t.rows (midpoints t.minRow t.maxRow) c t.horizon) := by
      have hget : ∀ j, j < t.horizon → (t.window c)[j]? = t.rows[c + 1 + j]? := by
        intro j hj
        unfold window
        rw [List.getElem?_take_of_lt hj, List.getElem?_drop]
        congr 1
        omega
      have hl := window_len t c
      have hwl : (t.window c).length = min t.horizon (t.rows.length - (1 + c)) := by simp [window]
      unfold Forecaster.pad
      by_cases he : (t.window c).length = t.horizon
      · rw [if_pos he]
        congr 1
        apply List.ext_getElem?
        intro j
        by_cases hj : j < t.horizon
        · unfold trueFuture
          rw [List.getElem?_map, List.getElem?_range hj, hget j hj]
          have : c + 1 + j < t.rows.length := by omega
          simp [this]
        · rw [List.getElem?_eq_none_iff.mpr (by omega), List.getElem?_eq_none_iff.mpr]
          simp [trueFuture]; omega
      · rw [if_neg he, if_neg (by omega), h.fObs, if_neg (by omega)]
        congr 1
        apply List.ext_getElem?
        intro j
        rw [Forecaster.fillRow_eq, h.fMin, h.fMax]
        by_cases hj : j < t.horizon
        · unfold trueFuture
          rw [List.getElem?_map, List.getElem?_range hj]
          by_cases hj2 : j < (t.window c).length
          · rw [List.getElem?_append_left hj2, hget j hj]
            have : c + 1 + j < t.rows.length := by omega
            simp [this]
          · rw [List.getElem?_append_right (by omega), List.getElem?_replicate, if_pos (by omega)]
            have : t.rows.length ≤ c + 1 + j := by omega
            simp [this]
        · rw [List.getElem?_eq_none_iff.mpr (by simp; omega), List.getElem?_eq_none_iff.mpr]
          simp [trueFuture]; omega
    have hwf : ∀ r ∈ trueFuture t.rows (midpoints t.minRow t.maxRow) c t.horizon, Within t.minRow t.maxRow r := by
      intro r hr
      unfold trueFuture at hr
      obtain ⟨j, -, rfl⟩ := List.mem_map.mp hr
      cases hx : t.rows[c + 1 + j]? with
      | none => simpa using h.mid
      | some x => simpa using h.inBox x (List.mem_of_getElem? hx)
    have hclip : (trueFuture t.rows (midpoints t.minRow t.maxRow) c t.horizon).map
        (Forecaster.clipRow t.minRow t.maxRow) = trueFuture t.rows (midpoints t.minRow t.maxRow) c t.horizon := by
      conv_rhs => rw [← List.map_id (trueFuture t.rows (midpoints t.minRow t.maxRow) c t.horizon)]
      exact List.map_congr_left (fun r hr => Forecaster.clipRow_of (hwf r hr))
    have hlen : (trueFuture t.rows (midpoints t.minRow t.maxRow) c t.horizon).length = t.horizon := by
      simp [trueFuture]
    rw [hpad]
    simp only [Forecaster.clip]
    rw [if_neg (by rw [h.fRows, hlen]; exact lt_irrefl _), if_neg ?_]
    · have hal : (trueFuture t.rows (midpoints t.minRow t.maxRow) c t.horizon).all
          (fun r => decide (r.length = t.minRow.length)) = true := by
        rw [List.all_eq_true]
        intro r hr
        simpa using (hwf r hr).1
      simp only
      rw [h.fMin, h.fMax, hclip, if_pos ⟨hlen, hal⟩]
    · rw [Bool.not_eq_false, List.all_eq_true]
      intro r hr
      rw [h.fMin]
      simpa using (hwf r hr).1

theorem Within.append {lo hi row lo' hi' row' : List ℚ} (h : Within lo hi row) (h' : Within lo' hi' row') :
    Within (lo ++ lo') (hi ++ hi') (row ++ row') :=
  Within.rec' (motive := fun lo hi row => Within (lo ++ lo') (hi ++ hi') (row ++ row')) h'
    (fun _ _ _ _ _ _ h₁ h₂ _ ih => Within.cons h₁ h₂ ih) lo hi row h

theorem Within.flatten {lo hi : List ℚ} (f : List (List ℚ)) (h : ∀ r ∈ f, Within lo hi r) :
    Within (List.replicate f.length lo).flatten (List.replicate f.length hi).flatten f.flatten := by
  induction f with
  | nil => exact Within.nil
  | cons r f ih =>
    simp only [List.length_cons, List.replicate_succ, List.flatten_cons]
    exact (h r (by simp)).append (ih (fun r hr => h r (by simp [hr])))

/-- The observation vector of a consistent time-series module lies in its observation space. -/
theorem Module.TSWF.state_within {m : Module} {t : TS} (h : m.TSWF t) :
    Within t.obsSpace.low t.obsSpace.high (t.obsAt m.currentStep ++ t.flatCur) := by
  have hflat : Within (List.replicate t.horizon t.minRow).flatten (List.replicate t.horizon t.maxRow).flatten
      t.flatCur := by
    have hs := h.shaped
    unfold TS.flatCur
    cases hc : t.cur with
    | none =>
      rw [hc] at hs
      have h0 : t.horizon = 0 := hs
      rw [h0]
      exact Within.nil
    | some f =>
      rw [hc] at hs
      rw [← hs.1]
      exact Within.flatten f hs.2
  have := (h.valid.obsAt_within m.currentStep).append hflat
  simpa [TS.obsSpace, TS.minObs, TS.maxObs, Nat.add_comm 1, List.replicate_succ] using this

end Pymgrid
