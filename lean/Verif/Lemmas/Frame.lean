import Verif.Lemmas.Step

set_option autoImplicit false

/-! The configuration of a module is never changed by `step` or `reset`. -/

namespace Pymgrid

namespace Module

/-- Equal configuration: everything except counters, log and class-specific state. -/
structure Frame (m m' : Module) : Prop where
  raise : m'.raiseErrors = m.raiseErrors
  init : m'.initialStep = m.initialStep
  act : m'.actSpace = m.actSpace
  obs : m'.obsSpace = m.obsSpace
  prov : m'.provName = m.provName
  abs : m'.absName = m.absName
  ffc : m'.ffc = m.ffc

theorem Frame.refl (m : Module) : Frame m m := ⟨rfl, rfl, rfl, rfl, rfl, rfl, rfl⟩

theorem Frame.trans {m m' m'' : Module} (h : Frame m m') (h' : Frame m' m'') : Frame m m'' :=
  ⟨h'.raise.trans h.raise, h'.init.trans h.init, h'.act.trans h.act, h'.obs.trans h.obs,
    h'.prov.trans h.prov, h'.abs.trans h.abs, h'.ffc.trans h.ffc⟩

theorem frame_kind (m : Module) (k : Kind) : Frame m { m with kind := k } :=
  ⟨rfl, rfl, rfl, rfl, rfl, rfl, rfl⟩

theorem frame_update (m : Module) (e : Option ℚ) (d : Dir) : Frame m (m.update e d).1 := by
  unfold update
  split <;> first | exact Frame.refl m | exact ⟨rfl, rfl, rfl, rfl, rfl, rfl, rfl⟩

theorem frame_asSource (m : Module) (x : ℚ) : Frame m (m.asSource x).1 := by
  unfold asSource
  split; · exact Frame.refl m
  split; · exact Frame.refl m
  split; · exact frame_update _ _ _
  split
  · exact Frame.refl m
  · split
    · split
      · exact Frame.refl m
      · exact frame_update _ _ _
    · exact frame_update _ _ _
  · split
    · split
      · exact Frame.refl m
      · exact frame_update _ _ _
    · split
      · split
        · exact Frame.refl m
        · exact frame_update _ _ _
      · exact frame_update _ _ _

theorem frame_asSink (m : Module) (x : ℚ) : Frame m (m.asSink x).1 := by
  unfold asSink
  split; · exact Frame.refl m
  split; · exact frame_update _ _ _
  split
  · exact Frame.refl m
  · exact frame_update _ _ _
  · split
    · split
      · exact Frame.refl m
      · split
        · exact Frame.refl m
        · exact frame_update _ _ _
    · exact frame_update _ _ _

theorem frame_unnormalizedStep (m : Module) (a : ℚ) : Frame m (m.unnormalizedStep a).1 := by
  unfold unnormalizedStep
  split; · exact frame_asSource _ _
  split; · exact frame_asSink _ _
  split; · exact frame_asSource _ _
  split; · exact frame_asSink _ _
  exact Frame.refl m

theorem frame_log (m : Module) (pre : List (Key × ℚ)) (u : UpdateOut) : Frame m (m.log pre u).1 := by
  unfold log
  split
  · exact Frame.refl m
  · exact ⟨rfl, rfl, rfl, rfl, rfl, rfl, rfl⟩

theorem frame_refresh (m : Module) : Frame m m.refresh.1 := by
  unfold refresh
  split <;> first | exact Frame.refl m | exact ⟨rfl, rfl, rfl, rfl, rfl, rfl, rfl⟩

theorem frame_updateStep (m : Module) (r : Bool) : Frame m (m.updateStep r).1 := by
  unfold updateStep
  have h : Frame m { m with currentStep := if r = true then m.initialStep else m.currentStep + 1 } :=
    ⟨rfl, rfl, rfl, rfl, rfl, rfl, rfl⟩
  exact h.trans (frame_refresh _)

theorem frame_stepEnergy (m : Module) (a : ℚ) : Frame m (m.stepEnergy a).1 := by
  unfold stepEnergy
  cases m.stateDict with
  | error e => exact Frame.refl m
  | ok pre =>
    have h₁ := frame_unnormalizedStep m a
    rcases h : m.unnormalizedStep a with ⟨m₁, _ | u⟩
    · rw [h] at h₁; exact h₁
    rw [h] at h₁
    have h₂ := h₁.trans (frame_log m₁ pre u)
    rcases hl : m₁.log pre u with ⟨m₂, _ | _⟩
    · rw [hl] at h₂; simpa [hl] using h₂
    rw [hl] at h₂
    have h₃ := h₂.trans (frame_updateStep m₂ false)
    rcases hs : m₂.updateStep false with ⟨m₃, _ | _⟩
    · rw [hs] at h₃; simpa [hl, hs] using h₃
    rw [hs] at h₃
    cases ho : m₃.normalizedObs <;> simpa [hl, hs, ho] using h₃

theorem frame_baseStep (m : Module) (a : Act) (n : Bool) : Frame m (m.baseStep a n).1 := by
  rw [baseStep_eq]
  cases m.request a n with
  | error e => exact Frame.refl m
  | ok q => exact frame_stepEnergy m q

theorem frame_step (m : Module) (a : Act) (n : Bool) : Frame m (m.step a n).1 := by
  unfold step
  split
  · split
    · exact Frame.refl m
    split
    · exact Frame.refl m
    split
    · exact Frame.refl m
    split
    · exact Frame.refl m
    · exact (frame_kind m _).trans (frame_baseStep _ _ _)
  · exact frame_baseStep _ _ _

theorem frame_reset (m : Module) : Frame m m.reset.1 := by
  unfold reset
  have h := frame_updateStep m true
  split
  · rename_i m₁ e hh; rw [hh] at h; exact h
  · rename_i m₁ hh; rw [hh] at h; exact h.trans ⟨rfl, rfl, rfl, rfl, rfl, rfl, rfl⟩

theorem frame_op (m : Module) (op : MOp) : Frame m (op.apply m) := by
  cases op with
  | step a n => exact frame_step m a n
  | reset => exact frame_reset m
  | setSoc v => simp only [MOp.apply, assign]; split <;> first | exact Frame.refl m | exact frame_kind m _
  | setCharge v => simp only [MOp.apply, assign]; split <;> first | exact Frame.refl m | exact frame_kind m _

theorem frame_runOps (m : Module) (ops : List MOp) : Frame m (runOps m ops) := by
  induction ops generalizing m with
  | nil => exact Frame.refl m
  | cons op ops ih => exact (frame_op m op).trans (ih _)

end Module

end Pymgrid
