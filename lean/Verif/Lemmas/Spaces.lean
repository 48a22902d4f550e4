import Verif.Lemmas.WF
import Verif.Lemmas.Generic

set_option autoImplicit false

/-! The observation and action spaces of a module always fit its parameters. -/

namespace Pymgrid

/-- The observation bounds that the parameters of a module prescribe. -/
def Kind.obsBox : Kind → Space
  | .battery b => ⟨[b.minCapacity / b.maxCapacity, b.minCapacity], [1, b.maxCapacity]⟩
  | .genset g => ⟨g.minObs, g.maxObs⟩
  | .grid _ t | .load t | .renewable t => t.obsSpace
  | .balancing _ => ⟨[], []⟩

/-- The action bounds that the parameters of a module prescribe. -/
def Kind.actBox : Kind → Option Space
  | .battery b => some ⟨[b.minAct], [b.maxAct]⟩
  | .genset g => some ⟨g.minAct, g.maxAct⟩
  | .grid p _ => some ⟨[-1 * p.maxExport], [p.maxImport]⟩
  | .load _ => some ⟨[], []⟩
  | .renewable t => some ⟨t.minRow, t.maxRow⟩
  | .balancing _ => none

/-- The class of a module. -/
def Kind.tag : Kind → Nat
  | .battery _ => 0
  | .genset _ => 1
  | .grid _ _ => 2
  | .load _ => 3
  | .renewable _ => 4
  | .balancing _ => 5

namespace Module

/-- Equal prescribed bounds, and equal class. -/
structure SameBox (m m' : Module) : Prop where
  obs : m'.kind.obsBox = m.kind.obsBox
  act : m'.kind.actBox = m.kind.actBox
  tag : m'.kind.tag = m.kind.tag

theorem SameBox.refl (m : Module) : SameBox m m := ⟨rfl, rfl, rfl⟩

theorem SameBox.trans {m m' m'' : Module} (h : SameBox m m') (h' : SameBox m' m'') : SameBox m m'' :=
  ⟨h'.obs.trans h.obs, h'.act.trans h.act, h'.tag.trans h.tag⟩

theorem battery_update_box (b : Battery) (e : Option ℚ) (d : Dir) :
    Kind.obsBox (.battery (b.update e d).1) = Kind.obsBox (.battery b) ∧
      Kind.actBox (.battery (b.update e d).1) = Kind.actBox (.battery b) := by
  have key : ∀ de, Kind.obsBox (.battery (b.updateState de).1) = Kind.obsBox (.battery b) ∧
      Kind.actBox (.battery (b.updateState de).1) = Kind.actBox (.battery b) := by
    intro de
    unfold Battery.updateState
    simp only
    repeat' split
    all_goals exact ⟨rfl, rfl⟩
  unfold Battery.update
  cases e with
  | none => exact ⟨rfl, rfl⟩
  | some x =>
    cases d with
    | source =>
      simp only
      have := key (b.modelTransition (-1 * x))
      split
      · exact ⟨rfl, rfl⟩
      · cases hu : b.updateState (b.modelTransition (-1 * x)) with
        | mk b' r => rw [hu] at this; cases r <;> exact this
    | sink =>
      simp only
      have := key (b.modelTransition x)
      split
      · exact ⟨rfl, rfl⟩
      · cases hu : b.updateState (b.modelTransition x) with
        | mk b' r => rw [hu] at this; cases r <;> exact this

theorem box_update (m : Module) (e : Option ℚ) (d : Dir) : SameBox m (m.update e d).1 := by
  unfold update
  cases hk : m.kind with
  | battery b =>
    have := battery_update_box b e d
    exact ⟨by rw [hk]; exact this.1, by rw [hk]; exact this.2, by rw [hk]; rfl⟩
  | _ => exact SameBox.refl m

theorem box_asSource (m : Module) (x : ℚ) : SameBox m (m.asSource x).1 := by
  unfold asSource
  repeat' split
  all_goals first | exact SameBox.refl m | exact box_update _ _ _

theorem box_asSink (m : Module) (x : ℚ) : SameBox m (m.asSink x).1 := by
  unfold asSink
  repeat' split
  all_goals first | exact SameBox.refl m | exact box_update _ _ _

theorem box_unnormalizedStep (m : Module) (a : ℚ) : SameBox m (m.unnormalizedStep a).1 := by
  unfold unnormalizedStep
  repeat' split
  all_goals first | exact SameBox.refl m | exact box_asSource _ _ | exact box_asSink _ _

theorem refresh_bounds (t : TS) (c : Nat) :
    (t.refresh c).1.minRow = t.minRow ∧ (t.refresh c).1.maxRow = t.maxRow ∧ (t.refresh c).1.horizon = t.horizon := by
  unfold TS.refresh
  simp only
  split <;> exact ⟨rfl, rfl, rfl⟩

theorem refresh_obsSpace (t : TS) (c : Nat) : (t.refresh c).1.obsSpace = t.obsSpace := by
  obtain ⟨h1, h2, h3⟩ := refresh_bounds t c
  unfold TS.obsSpace TS.minObs TS.maxObs
  rw [h1, h2, h3]

theorem box_refresh (m : Module) : SameBox m m.refresh.1 := by
  unfold refresh
  cases hk : m.kind with
  | grid p t => exact ⟨by rw [hk]; exact refresh_obsSpace t _, by rw [hk]; rfl, by rw [hk]; rfl⟩
  | load t => exact ⟨by rw [hk]; exact refresh_obsSpace t _, by rw [hk]; rfl, by rw [hk]; rfl⟩
  | renewable t =>
    obtain ⟨h1, h2, -⟩ := refresh_bounds t m.currentStep
    exact ⟨by rw [hk]; exact refresh_obsSpace t _, by rw [hk]; simp only [Kind.actBox]; rw [h1, h2],
      by rw [hk]; rfl⟩
  | _ => exact SameBox.refl m

theorem box_updateStep (m : Module) (r : Bool) : SameBox m (m.updateStep r).1 := by
  have := box_refresh { m with currentStep := if r then m.initialStep else m.currentStep + 1 }
  exact ⟨this.obs, this.act, this.tag⟩

theorem box_log (m : Module) (pre : List (Key × ℚ)) (u : UpdateOut) : SameBox m (m.log pre u).1 := by
  unfold log
  split
  · exact SameBox.refl _
  · exact ⟨rfl, rfl, rfl⟩

theorem box_stepEnergy (m : Module) (q : ℚ) : SameBox m (m.stepEnergy q).1 := by
  unfold stepEnergy
  cases m.stateDict with
  | error e => exact SameBox.refl m
  | ok pre =>
    have hc := box_unnormalizedStep m q
    simp only
    cases hu : m.unnormalizedStep q with
    | mk m₁ r =>
      rw [hu] at hc
      simp only at hc
      cases r with
      | error e => exact hc
      | ok u =>
        simp only
        have hl := hc.trans (box_log m₁ pre u)
        cases hl' : m₁.log pre u with
        | mk m₂ r =>
          rw [hl'] at hl
          cases r with
          | error e => exact hl
          | ok _ =>
            simp only
            have hs := hl.trans (box_updateStep m₂ false)
            cases hs' : m₂.updateStep false with
            | mk m₃ r =>
              rw [hs'] at hs
              cases r with
              | error e => exact hs
              | ok _ => simp only; split <;> exact hs

theorem box_baseStep (m : Module) (a : Act) (n : Bool) : SameBox m (m.baseStep a n).1 := by
  rw [baseStep_eq]
  cases m.request a n with
  | error e => exact SameBox.refl m
  | ok q => exact box_stepEnergy m q

theorem updateStatus_box {g g' : Genset} {goal : ℚ} (h : g.updateStatus goal = .ok g') :
    Kind.obsBox (.genset g') = Kind.obsBox (.genset g) ∧ Kind.actBox (.genset g') = Kind.actBox (.genset g) := by
  have rt : ∀ {x y : Genset}, x.resetTimes = .ok y →
      (y.startUpTime = x.startUpTime ∧ y.windDownTime = x.windDownTime ∧ y.runMax = x.runMax) := by
    intro x y hxy
    unfold Genset.resetTimes at hxy
    split at hxy
    · simp at hxy
    · split at hxy <;> (injection hxy with hxy; subst hxy; exact ⟨rfl, rfl, rfl⟩)
  have fin : ∀ {x y : Genset} {b : Bool}, x.finishInProgress = .ok (y, b) →
      (y.startUpTime = x.startUpTime ∧ y.windDownTime = x.windDownTime ∧ y.runMax = x.runMax) := by
    intro x y b hxy
    unfold Genset.finishInProgress at hxy
    split at hxy
    · split at hxy
      · rename_i hr; simp only [Except.ok.injEq, Prod.mk.injEq] at hxy; rw [← hxy.1]; have := rt hr; exact this
      · simp at hxy
    · split at hxy
      · split at hxy
        · rename_i hr; simp only [Except.ok.injEq, Prod.mk.injEq] at hxy; rw [← hxy.1]; have := rt hr; exact this
        · simp at hxy
      · simp only [Except.ok.injEq, Prod.mk.injEq] at hxy; rw [← hxy.1]; exact ⟨rfl, rfl, rfl⟩
  have red : ∀ {x y : Genset} {i : Int}, x.redirect i = .ok y →
      (y.startUpTime = x.startUpTime ∧ y.windDownTime = x.windDownTime ∧ y.runMax = x.runMax) := by
    intro x y i hxy
    unfold Genset.redirect at hxy
    split at hxy
    · have := rt hxy; exact this
    · split at hxy
      · split at hxy
        · rename_i hr; injection hxy with hxy; subst hxy; have := rt hr; exact this
        · simp at hxy
      · injection hxy with hxy; subst hxy; exact ⟨rfl, rfl, rfl⟩
  have cd : ∀ {x y : Genset}, x.countDown = .ok y →
      (y.startUpTime = x.startUpTime ∧ y.windDownTime = x.windDownTime ∧ y.runMax = x.runMax) := by
    intro x y hxy
    have ut : x.updateTimes.startUpTime = x.startUpTime ∧ x.updateTimes.windDownTime = x.windDownTime ∧
        x.updateTimes.runMax = x.runMax := by
      unfold Genset.updateTimes; split <;> exact ⟨rfl, rfl, rfl⟩
    unfold Genset.countDown at hxy
    repeat' split at hxy
    all_goals first
      | (simp at hxy; done)
      | (injection hxy with hxy; subst hxy; first | exact ut | exact ⟨rfl, rfl, rfl⟩)
  have main : g'.startUpTime = g.startUpTime ∧ g'.windDownTime = g.windDownTime ∧ g'.runMax = g.runMax := by
    unfold Genset.updateStatus at h
    split at h
    · simp at h
    · split at h
      · simp at h
      · unfold Genset.updateStatusRounded at h
        simp only at h
        split at h
        · split at h
          · injection h with h; subst h; exact ⟨rfl, rfl, rfl⟩
          · simp at h
        · split at h
          · simp at h
          · rename_i g₂ fl hf
            have h0 := fin hf
            have h1 : g₂.startUpTime = g.startUpTime ∧ g₂.windDownTime = g.windDownTime ∧ g₂.runMax = g.runMax := by
              split at h0 <;> exact h0
            split at h
            · simp at h
            · rename_i g₃ hr
              have h2 : g₃.startUpTime = g₂.startUpTime ∧ g₃.windDownTime = g₂.windDownTime ∧
                  g₃.runMax = g₂.runMax := by
                split at hr
                · injection hr with hr; subst hr; exact ⟨rfl, rfl, rfl⟩
                · unfold Genset.nonInstantaneous at hr
                  split at hr
                  · rename_i x hx
                    obtain ⟨a1, a2, a3⟩ := red hx
                    obtain ⟨b1, b2, b3⟩ := cd hr
                    exact ⟨b1.trans a1, b2.trans a2, b3.trans a3⟩
                  · simp at hr
              split at h
              · injection h with h; subst h
                exact ⟨h2.1.trans h1.1, h2.2.1.trans h1.2.1, h2.2.2.trans h1.2.2⟩
              · simp at h
  simp only [Kind.obsBox, Kind.actBox, Genset.minObs, Genset.maxObs, Genset.minAct, Genset.maxAct]
  rw [main.1, main.2.1, main.2.2]
  exact ⟨rfl, rfl⟩

theorem box_step (m : Module) (a : Act) (n : Bool) : SameBox m (m.step a n).1 := by
  unfold step
  split
  · rename_i g hk
    split
    · exact SameBox.refl m
    · rename_i l
      split
      · exact SameBox.refl m
      · rename_i goal _
        split
        · exact SameBox.refl m
        · split
          · exact SameBox.refl m
          · rename_i g' hu
            have := updateStatus_box hu
            exact SameBox.trans (m' := { m with kind := .genset g' }) ⟨by rw [hk]; exact this.1, by rw [hk]; exact this.2, by rw [hk]; rfl⟩
              (box_baseStep _ _ _)
  · exact box_baseStep m a n

theorem box_reset (m : Module) : SameBox m m.reset.1 := by
  have h := box_updateStep m true
  unfold reset
  cases hs : m.updateStep true with
  | mk m₁ r =>
    rw [hs] at h
    cases r with
    | error e => exact h
    | ok _ => exact ⟨h.obs, h.act, h.tag⟩

theorem tag_op (m : Module) (op : MOp) : (op.apply m).kind.tag = m.kind.tag := by
  cases op with
  | step a n => exact (box_step m a n).tag
  | reset => exact (box_reset m).tag
  | setSoc v => simp only [MOp.apply, assign]; split <;> simp_all [Kind.tag]
  | setCharge v => simp only [MOp.apply, assign]; split <;> simp_all [Kind.tag]

theorem tag_runOps (m : Module) (ops : List MOp) : (runOps m ops).kind.tag = m.kind.tag := by
  induction ops generalizing m with
  | nil => rfl
  | cons op ops ih => exact (ih _).trans (tag_op m op)

/-- The spaces of the module are the prescribed ones. -/
structure Spaced (m : Module) : Prop where
  obs : m.obsSpace = m.kind.obsBox
  act : m.actSpace = m.kind.actBox

theorem Spaced.of {m m' : Module} (h : m.Spaced) (f : Frame m m') (b : SameBox m m') : m'.Spaced :=
  ⟨f.obs.trans (h.obs.trans b.obs.symm), f.act.trans (h.act.trans b.act.symm)⟩

theorem Spaced.step {m : Module} (h : m.Spaced) (a : Act) (n : Bool) : (m.step a n).1.Spaced :=
  h.of (frame_step m a n) (box_step m a n)

theorem Spaced.reset {m : Module} (h : m.Spaced) : m.reset.1.Spaced := h.of (frame_reset m) (box_reset m)

end Module

theorem LibraryModule.spaced {m : Module} (h : LibraryModule m) : m.Spaced := by
  induction h with
  | @battery minC maxC maxCh maxDis eff cost c s i r m hm good =>
    unfold Module.mkBattery at hm
    split at hm
    · simp at hm
    · rename_i b hb
      injection hm with hm
      subst hm
      have : b.minSoc = b.minCapacity / b.maxCapacity := by
        unfold Battery.init at hb
        split at hb
        · simp at hb
        · split at hb
          · simp at hb
          · split at hb
            · simp at hb
            · injection hb with hb; subst hb; rfl
      refine ⟨?_, rfl⟩
      simp only [Kind.obsBox, Battery.minObs, Battery.maxObs]
      rw [this]
  | @genset rmin rmax cost c1 c2 S W ab iu i r m hm h =>
    unfold Module.mkGenset at hm
    split at hm
    · simp at hm
    · injection hm with hm; subst hm; exact ⟨rfl, rfl⟩
  | @series param horizon i fs r m rows k hb hw =>
    cases hb with
    | load hm =>
      unfold Module.mkLoad at hm
      repeat' split at hm
      all_goals first | (simp at hm; done) | (injection hm with hm; subst hm; exact ⟨rfl, rfl⟩)
    | renewable hm =>
      obtain ⟨t, mn, mx, wf, -, -, hs, -, -, -, -, -, ha, ho⟩ := Module.mkRenewable_inv hm
      refine ⟨by rw [ho, wf.kind]; rfl, ?_⟩
      rw [ha, wf.kind]
      simp only [Kind.actBox]
      rw [hs.minRow, hs.maxRow]
      rfl
    | grid hrect hm =>
      obtain ⟨t, mn, mx, wf, -, -, hs, -, -, -, -, -, -, ha, ho⟩ := Module.mkGrid_inv hrect hm
      exact ⟨by rw [ho, wf.kind]; rfl, by rw [ha, wf.kind]; rfl⟩
  | balancing hl ho => exact ⟨rfl, rfl⟩
  | @flexGrid m p t _ hk ih => exact ⟨ih.obs, ih.act⟩
  | step _ a n ih => exact ih.step a n
  | reset _ ih => exact ih.reset

end Pymgrid
