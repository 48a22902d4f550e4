import Verif.Lemmas.Flex

set_option autoImplicit false

/-! A consistent module never raises `RuntimeError`. -/

namespace Pymgrid

theorem TS.itemAt_nr (t : TS) (c : Nat) : t.itemAt c ≠ .error .runtime := by
  unfold TS.itemAt
  split <;> simp

theorem TS.entryAt_nr (t : TS) (c j : Nat) : t.entryAt c j ≠ .error .runtime := by
  unfold TS.entryAt
  repeat' split
  all_goals simp

namespace Module

theorem update_nr (m : Module) (e : Option ℚ) (d : Dir) : (m.update e d).2 ≠ .error .runtime := by
  unfold update
  cases m.kind with
  | battery b =>
    have hs : ∀ de, (b.updateState de).2 ≠ .error .runtime := by
      intro de
      unfold Battery.updateState
      simp only
      repeat' split
      all_goals simp
    have key : (b.update e d).2 ≠ .error .runtime := by
      unfold Battery.update
      cases e with
      | none => simp
      | some x =>
        cases d with
        | source =>
          simp only
          have h1 := hs (b.modelTransition (-1 * x))
          split
          · simp
          · rcases h : b.updateState (b.modelTransition (-1 * x)) with ⟨b', _ | _⟩
            · rw [h] at h1; simpa using h1
            · simp
        | sink =>
          simp only
          have h1 := hs (b.modelTransition x)
          split
          · simp
          · rcases h : b.updateState (b.modelTransition x) with ⟨b', _ | _⟩
            · rw [h] at h1; simpa using h1
            · simp
    exact key
  | genset g =>
    simp only [Genset.update]
    repeat' split
    all_goals simp
  | grid p t =>
    simp only [gridUpdate]
    have := t.entryAt_nr m.currentStep
    cases d with
    | source =>
      have h0 := this 0
      have h2 := this 2
      clear this
      cases g0 : t.entryAt m.currentStep 0 <;> cases g2 : t.entryAt m.currentStep 2 <;> cases e <;> simp_all
    | sink =>
      have h1 := this 1
      clear this
      cases g1 : t.entryAt m.currentStep 1 <;> cases e <;> simp_all
  | load t =>
    simp only [loadUpdate]
    have := t.itemAt_nr m.currentStep
    cases d <;> cases gi : t.itemAt m.currentStep <;> simp_all
  | renewable t =>
    simp only [renewableUpdate]
    have := t.itemAt_nr m.currentStep
    cases d
    · cases gi : t.itemAt m.currentStep with
      | error e' => rw [gi] at this; simpa using this
      | ok q =>
        cases e with
        | none => simp
        | some x => simp only; split <;> simp
    · simp
  | balancing u =>
    simp only [balancingUpdate]
    repeat' split
    all_goals simp

theorem gridStatus_nr {m : Module} {pre : List (Key × ℚ)} (hs : m.stateDict = .ok pre) :
    m.gridStatus ≠ .error .runtime := by
  unfold gridStatus state
  rw [hs]
  simp only
  split <;> simp

theorem maxProduction_nr {m : Module} {pre : List (Key × ℚ)} (hs : m.stateDict = .ok pre) :
    m.maxProduction ≠ .error .runtime := by
  unfold maxProduction
  have h1 := gridStatus_nr hs
  cases m.kind with
  | grid p t => simp only; cases gi : m.gridStatus <;> simp_all
  | renewable t => simp only; have := t.itemAt_nr m.currentStep; cases gi : t.itemAt m.currentStep <;> simp_all
  | _ => simp

theorem maxConsumption_nr {m : Module} {pre : List (Key × ℚ)} (hs : m.stateDict = .ok pre) :
    m.maxConsumption ≠ .error .runtime := by
  unfold maxConsumption
  have h1 := gridStatus_nr hs
  cases m.kind with
  | grid p t => simp only; cases gi : m.gridStatus <;> simp_all
  | load t => simp only; have := t.itemAt_nr m.currentStep; cases gi : t.itemAt m.currentStep <;> simp_all
  | _ => simp

theorem unnormalizedStep_nr {m : Module} {pre : List (Key × ℚ)} (hs : m.stateDict = .ok pre) (q : ℚ) :
    (m.unnormalizedStep q).2 ≠ .error .runtime := by
  have hsrc : ∀ x, (m.asSource x).2 ≠ .error .runtime := by
    intro x
    unfold asSource
    have := maxProduction_nr hs
    split; · simp
    split; · simp
    split; · exact update_nr _ _ _
    cases hm : m.maxProduction with
    | error e => rw [hm] at this; simpa using this
    | ok v =>
      cases v <;> simp only <;> repeat' split
      all_goals first | exact update_nr _ _ _ | simp
  have hsnk : ∀ x, (m.asSink x).2 ≠ .error .runtime := by
    intro x
    unfold asSink
    have := maxConsumption_nr hs
    split; · simp
    split; · exact update_nr _ _ _
    cases hm : m.maxConsumption with
    | error e => rw [hm] at this; simpa using this
    | ok v =>
      cases v <;> simp only <;> repeat' split
      all_goals first | exact update_nr _ _ _ | simp
  unfold unnormalizedStep
  repeat' split
  all_goals first | exact hsrc _ | exact hsnk _ | simp

theorem logRow_nr (m : Module) (pre : List (Key × ℚ)) (u : UpdateOut) : m.logRow pre u ≠ .error .runtime := by
  unfold logRow
  simp only
  by_cases h1 : u.info.provided = none <;> by_cases h2 : u.info.absorbed = none <;> cases m.provName <;>
    cases m.absName <;> simp [h1, h2]

theorem request_nr (m : Module) (a : Act) (n : Bool) : m.request a n ≠ .error .runtime := by
  unfold request
  have hd : m.denormalizeAct a ≠ .error .runtime := by
    unfold denormalizeAct
    split
    · unfold Space.denormalize Space.apply
      repeat' split
      all_goals simp
    · simp
  have he : ∀ a', energyOf m.energyPos a' ≠ .error .runtime := by
    intro a'
    unfold energyOf
    repeat' split
    all_goals simp
  cases n with
  | false => simpa using he a
  | true =>
    simp only [if_true]
    cases h : m.denormalizeAct a with
    | error e => rw [h] at hd; simpa using hd
    | ok a' => exact he a'

theorem TSWF.stepEnergy_nr {m : Module} {t : TS} (h : m.TSWF t) (w : t.Works) (q : ℚ) :
    (m.stepEnergy q).2 ≠ .error .runtime := by
  have hu := unnormalizedStep_nr h.stateDict q
  have hun := h.unnormalizedStep q
  rcases hu' : m.unnormalizedStep q with ⟨m₁, e | u⟩
  · rw [hu'] at hu
    unfold Module.stepEnergy
    simpa [h.stateDict, hu'] using hu
  · rw [hu'] at hun
    simp only at hun
    subst hun
    have hl := logRow_nr m₁ (t.currentKeys.zip (t.obsAt m₁.currentStep) ++ t.forecastKeys.zip t.flatCur) u
    cases hl' : m₁.logRow (t.currentKeys.zip (t.obsAt m₁.currentStep) ++ t.forecastKeys.zip t.flatCur) u with
    | error e =>
      rw [hl'] at hl
      unfold Module.stepEnergy
      simpa [h.stateDict, hu', log, hl'] using hl
    | ok row =>
      rcases h.stepEnergy q with ⟨e, he⟩ | ⟨u', pre, row', hu2, hp, hr, ⟨f, -, -, obs, he⟩ | ⟨e, hf, -⟩⟩
      · obtain ⟨f, hf⟩ := h.valid.forecast_ok w (m₁.currentStep + 1)
        exfalso
        have hup := updateStep_ts (h.withLogger (m₁.logger.log row)).series false
        simp only [Bool.false_eq_true, if_false] at hup
        rcases h.valid.refresh (m₁.currentStep + 1) with ⟨f', hf', hrf⟩ | ⟨e', hf', -⟩
        · rw [hrf] at hup
          obtain ⟨obs, hobs⟩ :=
            (h.moved (m₁.logger.log row) (m₁.currentStep + 1) (h.valid.forecast_shaped hf')).normalizedObs
          rw [stepEnergy_of m₁ m₁ _ q _ row u obs h.stateDict hu' hl' hup hobs] at he
          simp at he
        · rw [hf'] at hf; simp at hf
      · rw [he]; simp
      · obtain ⟨f, hf'⟩ := h.valid.forecast_ok w (m₁.currentStep + 1)
        rw [hf] at hf'; simp at hf'

theorem WF.step_nr {m : Module} (h : m.WF) (a : Act) (n : Bool) : (m.step a n).2 ≠ .error .runtime := by
  have hreq := request_nr m a n
  have hts : ∀ {t : TS}, m.TSWF t → t.Works → (m.step a n).2 ≠ .error .runtime := by
    intro t h w
    rw [h.step_eq]
    cases hq : m.request a n with
    | error e => rw [hq] at hreq; simpa using hreq
    | ok q => exact h.stepEnergy_nr w q
  cases h with
  | battery b h =>
    rw [h.step_eq]
    cases hq : m.request a n with
    | error e => rw [hq] at hreq; simpa using hreq
    | ok q =>
      have := h.stepEnergy q
      simp only
      split at this
      · split at this
        · rw [this]; simp
        · obtain ⟨m', o, h1, -⟩ := this; rw [h1]; simp
      · split at this
        · rw [this]; simp
        · obtain ⟨m', o, h1, -⟩ := this; rw [h1]; simp
  | genset g h =>
    rw [h.step_eq]
    cases a with
    | num q => simp
    | arr l =>
      simp only
      cases l[0]? with
      | none => simp
      | some goal =>
        simp only
        split
        · simp
        · rename_i hg
          obtain ⟨h0, h1⟩ := not_not.mp hg
          obtain ⟨p, hp⟩ := h.phase
          obtain ⟨g', e, hp', hs, -⟩ := hp.update h0 h1
          rw [e]
          have wf := h.withStatus ⟨_, hp'⟩ hs
          simp only
          cases hq : m.request (.arr l) n with
          | error e => rw [hq] at hreq; simpa using hreq
          | ok q =>
            have := wf.stepEnergy q
            simp only
            split at this
            · rw [this]; simp
            · split at this
              · rw [this]; simp
              · obtain ⟨m', o, e, -⟩ := this; rw [e]; simp
  | grid p t h w => exact hts h.ts w
  | load t h w => exact hts h.ts w
  | renewable t h w => exact hts h.ts w
  | balancing u h =>
    rw [h.step_eq]
    cases hq : m.request a n with
    | error e => rw [hq] at hreq; simpa using hreq
    | ok q => obtain ⟨row, -, he⟩ := h.stepEnergy q; simp only; rw [he]; simp

end Module

end Pymgrid
