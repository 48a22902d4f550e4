import Verif.Lemmas.WF
import Verif.Spec.Strict

set_option autoImplicit false

/-! `raise_errors` only matters when a request is out of bounds. -/

namespace Pymgrid

namespace Module

/-- Change the flag in the module part of a result. -/
def flag {α : Type} (r : Bool) (p : Module × α) : Module × α := (p.1.withRaise r, p.2)

variable (m : Module) (r : Bool)

theorem update_flag (e : Option ℚ) (d : Dir) : (m.withRaise r).update e d = flag r (m.update e d) := by
  unfold update
  cases hk : m.kind with
  | battery b => simp [withRaise, hk, flag]
  | _ => simp [withRaise, hk, flag]

@[simp] theorem stateDict_flag : (m.withRaise r).stateDict = m.stateDict := rfl
@[simp] theorem maxProduction_flag : (m.withRaise r).maxProduction = m.maxProduction := rfl
@[simp] theorem maxConsumption_flag : (m.withRaise r).maxConsumption = m.maxConsumption := rfl
@[simp] theorem minProduction_flag : (m.withRaise r).minProduction = m.minProduction := rfl
@[simp] theorem isSource_flag : (m.withRaise r).isSource = m.isSource := rfl
@[simp] theorem isSink_flag : (m.withRaise r).isSink = m.isSink := rfl
@[simp] theorem ffc_flag : (m.withRaise r).ffc = m.ffc := rfl

theorem asSource_flag {x : ℚ} (hmx : m.ffc ≠ .fixed → ∀ mx, m.maxProduction = .ok (.fin mx) → x ≤ mx)
    (hmn : m.ffc ≠ .fixed → m.minProduction ≤ x) : (m.withRaise r).asSource x = flag r (m.asSource x) := by
  unfold asSource
  simp only [isSource_flag, ffc_flag, maxProduction_flag, minProduction_flag, update_flag]
  split
  · rfl
  split
  · rfl
  split
  · rfl
  rename_i hf
  split
  · rfl
  · rw [if_neg (not_lt.mpr (hmn hf)), if_neg (not_lt.mpr (hmn hf))]
  · rename_i mx hx
    rw [if_neg (not_lt.mpr (hmx hf mx hx)), if_neg (not_lt.mpr (hmx hf mx hx)), if_neg (not_lt.mpr (hmn hf)),
      if_neg (not_lt.mpr (hmn hf))]

theorem asSink_flag {x : ℚ} (hmx : m.ffc ≠ .fixed → ∀ mx, m.maxConsumption = .ok (.fin mx) → x ≤ mx) :
    (m.withRaise r).asSink x = flag r (m.asSink x) := by
  unfold asSink
  simp only [ffc_flag, maxConsumption_flag, update_flag]
  split
  · rfl
  split
  · rfl
  rename_i hf
  split
  · rfl
  · rfl
  · rename_i mx hx
    rw [if_neg (not_lt.mpr (hmx hf mx hx)), if_neg (not_lt.mpr (hmx hf mx hx))]

theorem unnormalizedStep_flag {q : ℚ}
    (hs : m.ffc ≠ .fixed → 0 ≤ q → m.isSource = true →
      (∀ mx, m.maxProduction = .ok (.fin mx) → q ≤ mx) ∧ m.minProduction ≤ q)
    (ha : m.ffc ≠ .fixed → q ≤ 0 → ∀ mx, m.maxConsumption = .ok (.fin mx) → -q ≤ mx) :
    (m.withRaise r).unnormalizedStep q = flag r (m.unnormalizedStep q) := by
  have key : 0 ≤ q → (m.withRaise r).asSource q = flag r (m.asSource q) := by
    intro hq
    by_cases hsrc : m.isSource = true
    · exact asSource_flag m r (fun hf => (hs hf hq hsrc).1) (fun hf => (hs hf hq hsrc).2)
    · unfold asSource
      simp [hsrc, flag, hq]
  unfold unnormalizedStep
  split
  · rename_i hq; exact key hq.le
  split
  · rename_i hq
    exact asSink_flag m r fun hf mx hx => by have := ha hf hq.le mx hx; linarith
  have hq : q = 0 := by linarith
  by_cases h1 : m.isSource = true
  · rw [if_pos h1, if_pos (by exact h1)]; exact key hq.ge
  rw [if_neg h1, if_neg (by exact h1)]
  by_cases h2 : m.isSink = true
  · rw [if_pos h2, if_pos (by exact h2)]
    exact asSink_flag m r fun hf mx hx => by have := ha hf hq.le mx hx; linarith
  · rw [if_neg h2, if_neg (by exact h2)]; rfl

theorem log_flag (pre : List (Key × ℚ)) (u : UpdateOut) : (m.withRaise r).log pre u = flag r (m.log pre u) := by
  have : (m.withRaise r).logRow pre u = m.logRow pre u := rfl
  unfold log
  rw [this]
  cases m.logRow pre u <;> rfl

theorem refresh_flag : (m.withRaise r).refresh = flag r m.refresh := by
  unfold refresh
  cases hk : m.kind <;> simp [withRaise, hk, flag]

theorem updateStep_flag (b : Bool) : (m.withRaise r).updateStep b = flag r (m.updateStep b) :=
  refresh_flag { m with currentStep := if b then m.initialStep else m.currentStep + 1 } r

theorem stepEnergy_flag {q : ℚ}
    (hs : m.ffc ≠ .fixed → 0 ≤ q → m.isSource = true →
      (∀ mx, m.maxProduction = .ok (.fin mx) → q ≤ mx) ∧ m.minProduction ≤ q)
    (ha : m.ffc ≠ .fixed → q ≤ 0 → ∀ mx, m.maxConsumption = .ok (.fin mx) → -q ≤ mx) :
    (m.withRaise r).stepEnergy q = flag r (m.stepEnergy q) := by
  unfold stepEnergy
  rw [stateDict_flag, unnormalizedStep_flag m r hs ha]
  cases m.stateDict with
  | error e => rfl
  | ok pre =>
    simp only
    rcases m.unnormalizedStep q with ⟨m₁, e | u⟩
    · rfl
    simp only [flag, log_flag]
    rcases m₁.log pre u with ⟨m₂, e | u⟩
    · rfl
    simp only [updateStep_flag, flag]
    rcases m₂.updateStep false with ⟨m₃, e | u⟩
    · rfl
    have : (m₃.withRaise r).normalizedObs = m₃.normalizedObs := rfl
    simp only [this]
    cases m₃.normalizedObs <;> rfl

theorem request_flag (a : Act) (n : Bool) : (m.withRaise r).request a n = m.request a n := rfl

theorem baseStep_flag {a : Act} {n : Bool}
    (h : ∀ q, m.request a n = .ok q → (m.withRaise r).stepEnergy q = flag r (m.stepEnergy q)) :
    (m.withRaise r).baseStep a n = flag r (m.baseStep a n) := by
  rw [baseStep_eq, baseStep_eq, request_flag]
  cases hq : m.request a n with
  | error e => rfl
  | ok q => exact h q hq

variable {m}

theorem GridWF.window {p : GridParams} {t : TS} (h : m.GridWF p t) {imp exp co2 st : ℚ}
    (hr : t.rows[m.currentStep]? = some [imp, exp, co2, st]) (hst : st = 0 ∨ st = 1) :
    m.window = some (-(p.maxExport * st), p.maxImport * st) := by
  rcases hst with rfl | rfl <;> simp [Module.window, h.kind, hr]

theorem GenWF.window {g : Genset} (h : m.GenWF g) : m.window = some (g.minProduction, g.maxProduction) := by
  obtain ⟨p, hp⟩ := h.phase
  rcases hp.1.status with e | e <;> simp [Module.window, h.kind, e, Genset.minProduction, Genset.maxProduction]

theorem RenWF.window {t : TS} (h : m.RenWF t) {x : ℚ} (hr : t.rows[m.currentStep]? = some [x]) :
    m.window = some (0, x) := by
  simp [Module.window, h.kind, hr]

/-- The bounds of the specification are those that the module checks. -/
theorem WF.in_window (h : m.WF) (hl : m.Live) {q : ℚ} (hw : ∀ lo hi, m.window = some (lo, hi) → lo ≤ q ∧ q ≤ hi) :
    (m.ffc ≠ .fixed → 0 ≤ q → m.isSource = true →
      (∀ mx, m.maxProduction = .ok (.fin mx) → q ≤ mx) ∧ m.minProduction ≤ q) ∧
    (m.ffc ≠ .fixed → q ≤ 0 → ∀ mx, m.maxConsumption = .ok (.fin mx) → -q ≤ mx) := by
  cases h with
  | battery b h =>
    simp only [window, h.kind, Option.some.injEq, Prod.mk.injEq] at hw
    obtain ⟨h1, h2⟩ := hw _ _ ⟨rfl, rfl⟩
    simp only [maxProduction, minProduction, maxConsumption, h.kind, Except.ok.injEq, ERat.fin.injEq]
    refine ⟨fun _ h0 _ => ⟨?_, h0⟩, ?_⟩
    · rintro mx rfl; exact h2
    · rintro - - mx rfl
      simp only [Battery.maxConsumption]; linarith
  | genset g h =>
    have := hw _ _ h.window
    simp only [maxProduction, minProduction, maxConsumption, h.kind, Except.ok.injEq, ERat.fin.injEq]
    refine ⟨fun _ h0 _ => ⟨?_, this.1⟩, ?_⟩
    · rintro mx rfl; exact this.2
    · simp
  | load t h w => simp [h.ffc]
  | balancing u h =>
    simp only [maxProduction, minProduction, maxConsumption, h.kind]
    exact ⟨fun _ h0 _ => ⟨by simp, h0⟩, by simp⟩
  | renewable t h w =>
    have hlt := hl t (by simp [series?, h.kind])
    have hr : t.rows[m.currentStep]? = some t.rows[m.currentStep] := List.getElem?_eq_getElem hlt
    obtain ⟨x, hx, -, hi⟩ := h.itemAt hr
    rw [hx] at hr
    obtain ⟨h1, h2⟩ := hw _ _ (h.window hr)
    simp only [maxProduction, minProduction, maxConsumption, h.kind, hi]
    simp [h1, h2]
  | grid p t h w =>
    have hlt := hl t (by simp [series?, h.kind])
    have hr : t.rows[m.currentStep]? = some t.rows[m.currentStep] := List.getElem?_eq_getElem hlt
    obtain ⟨imp, exp, co2, st, e, hst, -⟩ := h.row hr
    rw [e] at hr
    obtain ⟨h1, h2⟩ := hw _ _ (h.window hr hst)
    simp only [maxProduction, minProduction, maxConsumption, h.kind, h.gridStatus hr, Except.ok.injEq, ERat.fin.injEq]
    refine ⟨fun _ h0 _ => ⟨?_, h0⟩, ?_⟩
    · rintro mx rfl; exact h2
    · rintro - - mx rfl; linarith

/-- Out of bounds, a module that raises errors is left as it was. -/
theorem WF.out_of_window (h : m.WF) (hl : m.Live) (hr : m.raiseErrors = true) (hg : ∀ g, m.kind ≠ .genset g) {q : ℚ}
    {lo hi : ℚ} (hw : m.window = some (lo, hi)) (hq : q < lo ∨ hi < q) :
    ∃ e, m.stepEnergy q = (m, .error e) ∧ (e = .value ∨ e = .type ∧ q < 0 ∧ ∃ t, m.kind = .renewable t) := by
  have ts : ∀ {t : TS} {e : Err}, m.TSWF t → m.unnormalizedStep q = (m, .error e) →
      m.stepEnergy q = (m, .error e) := by
    intro t e ht hu
    unfold stepEnergy
    simp [ht.stateDict, hu]
  cases h with
  | battery b h =>
    simp only [window, h.kind, Option.some.injEq, Prod.mk.injEq] at hw
    have hs := h.stepEnergy q
    have hP := h.valid.maxProduction_nonneg
    have hC := h.valid.maxConsumption_nonneg
    refine ⟨.value, ?_, .inl rfl⟩
    have e1 : lo = -b.maxConsumption := hw.1.symm
    have e2 : hi = b.maxProduction := hw.2.symm
    rcases hq with hq | hq
    · rw [if_neg (by linarith), if_pos ⟨hr, by linarith⟩] at hs
      exact hs
    · rw [if_pos (by linarith), if_pos ⟨hr, by linarith⟩] at hs
      exact hs
  | genset g h => exact absurd h.kind (hg g)
  | load t h w => simp [window, h.kind] at hw
  | balancing u h => simp [window, h.kind] at hw
  | renewable t h w =>
    have hlt := hl t (by simp [series?, h.kind])
    have hr' : t.rows[m.currentStep]? = some t.rows[m.currentStep] := List.getElem?_eq_getElem hlt
    obtain ⟨x, hx, h0, -⟩ := h.itemAt hr'
    rw [hx] at hr'
    rw [h.window hr', Option.some.injEq, Prod.mk.injEq] at hw
    obtain ⟨rfl, rfl⟩ := hw
    rcases hq with hq | hq
    · refine ⟨.type, ts h.ts ?_, .inr ⟨rfl, hq, t, h.kind⟩⟩
      unfold Module.unnormalizedStep asSink
      rw [if_neg (not_lt.mpr hq.le), if_pos hq]
      simp [h.ffc, maxConsumption, h.kind, hq.le]
    · refine ⟨.value, ts h.ts ?_, .inl rfl⟩
      have := (h.unnormalizedStep q).2.2 x hr' (by linarith)
      rwa [if_pos ⟨hr, hq⟩] at this
  | grid p t h w =>
    have hlt := hl t (by simp [series?, h.kind])
    have hr' : t.rows[m.currentStep]? = some t.rows[m.currentStep] := List.getElem?_eq_getElem hlt
    obtain ⟨imp, exp, co2, st, e, hst, -⟩ := h.row hr'
    rw [e] at hr'
    rw [h.window hr' hst, Option.some.injEq, Prod.mk.injEq] at hw
    obtain ⟨rfl, rfl⟩ := hw
    have hs0 : 0 ≤ st := by rcases hst with rfl | rfl <;> norm_num
    have h1 := mul_nonneg h.imp hs0
    have h2 := mul_nonneg h.exp hs0
    refine ⟨.value, ts h.ts ?_, .inl rfl⟩
    obtain ⟨hp, hn⟩ := (h.unnormalizedStep q).2 imp exp co2 st hr'
    rcases hq with hq | hq
    · have := hn (by linarith)
      rwa [if_pos ⟨hr, by linarith⟩] at this
    · have := hp (by linarith)
      rwa [if_pos ⟨hr, hq⟩] at this

end Module

end Pymgrid
