import Verif.Lemmas.Spaces

set_option autoImplicit false

/-! The log and the count of random draws do not influence what a module does. -/

namespace Pymgrid

/-- The forecaster uses no random numbers. -/
def FKind.Deterministic : FKind → Prop
  | .gaussian _ _ _ => False
  | _ => True

def TS.still (t : TS) : TS := { t with draws := 0 }

def Kind.still : Kind → Kind
  | .grid p t => .grid p t.still
  | .load t => .load t.still
  | .renewable t => .renewable t.still
  | k => k

theorem TS.still_refresh (t : TS) (h : t.forecaster.kind.Deterministic) (c : Nat) :
    (t.still.refresh c).1.still = (t.refresh c).1.still ∧ (t.still.refresh c).2 = (t.refresh c).2 := by
  have hv : t.still.forecastValue c = t.forecastValue c := by
    unfold TS.forecastValue TS.still
    simp only
    cases t.rows[c]? with
    | none => rfl
    | some row =>
      simp only [Forecaster.call, Forecaster.raw]
      cases hk : t.forecaster.kind with
      | gaussian n i s => rw [hk] at h; exact h.elim
      | _ => rfl
  unfold TS.refresh
  simp only
  rw [hv]
  cases t.forecastValue c <;> exact ⟨rfl, rfl⟩

namespace Module

/-- The module without log and count of draws. -/
def core (m : Module) : Module := { m with logger := {}, kind := m.kind.still }

/-- The module uses no random numbers. -/
def Deterministic (m : Module) : Prop := ∀ t, m.series? = some t → t.forecaster.kind.Deterministic

theorem core_idem (m : Module) : m.core.core = m.core := by
  unfold core
  cases hk : m.kind <;> rfl

theorem core_stateDict (m : Module) : m.core.stateDict = m.stateDict := by
  unfold stateDict core
  cases hk : m.kind <;> rfl

theorem core_state (m : Module) : m.core.state = m.state := by
  unfold state; rw [core_stateDict]

theorem core_gridStatus (m : Module) : m.core.gridStatus = m.gridStatus := by
  unfold gridStatus; rw [core_state]

theorem core_isSource (m : Module) : m.core.isSource = m.isSource := by
  unfold isSource core
  cases hk : m.kind <;> rfl

theorem core_isSink (m : Module) : m.core.isSink = m.isSink := by
  unfold isSink core
  cases hk : m.kind <;> rfl

theorem core_maxProduction (m : Module) : m.core.maxProduction = m.maxProduction := by
  have := core_gridStatus m
  unfold maxProduction
  cases hk : m.kind <;> simp only [core, hk, Kind.still] <;> simp only [core, hk, Kind.still] at this <;>
    first | rfl | rw [this]

theorem core_maxConsumption (m : Module) : m.core.maxConsumption = m.maxConsumption := by
  have := core_gridStatus m
  unfold maxConsumption
  cases hk : m.kind <;> simp only [core, hk, Kind.still] <;> simp only [core, hk, Kind.still] at this <;>
    first | rfl | rw [this]

theorem core_minProduction (m : Module) : m.core.minProduction = m.minProduction := by
  unfold minProduction core
  cases hk : m.kind <;> rfl

/-- `f` treats a module and its core alike. -/
def Blind {α : Type} (f : Module → Module × α) (m : Module) : Prop :=
  (f m.core).1.core = (f m).1.core ∧ (f m.core).2 = (f m).2

theorem core_update (e : Option ℚ) (d : Dir) (m : Module) : Blind (fun m => m.update e d) m := by
  cases hk : m.kind <;> simp only [Blind, update, core, hk, Kind.still, true_and] <;> exact ⟨rfl, rfl⟩

theorem blind_refl {α : Type} (m : Module) (x : α) : Blind (fun m => (m, x)) m := ⟨core_idem m, rfl⟩

theorem core_asSource (x : ℚ) (m : Module) : Blind (fun m => m.asSource x) m := by
  unfold Blind asSource
  simp only [core_isSource, core_maxProduction, core_minProduction]
  have h1 : m.core.ffc = m.ffc := rfl
  have h2 : m.core.raiseErrors = m.raiseErrors := rfl
  rw [h1, h2]
  repeat' split
  all_goals first | exact blind_refl m _ | exact core_update _ _ m

theorem core_asSink (x : ℚ) (m : Module) : Blind (fun m => m.asSink x) m := by
  unfold Blind asSink
  simp only [core_maxConsumption]
  have h1 : m.core.ffc = m.ffc := rfl
  have h2 : m.core.raiseErrors = m.raiseErrors := rfl
  rw [h1, h2]
  repeat' split
  all_goals first | exact blind_refl m _ | exact core_update _ _ m

theorem core_unnormalizedStep (q : ℚ) (m : Module) : Blind (fun m => m.unnormalizedStep q) m := by
  unfold Blind unnormalizedStep
  simp only [core_isSource, core_isSink]
  repeat' split
  all_goals first | exact blind_refl m _ | exact core_asSource _ m | exact core_asSink _ m

theorem core_normalizedObs (m : Module) : m.core.normalizedObs = m.normalizedObs := by
  unfold normalizedObs
  rw [core_state]
  rfl

theorem core_refresh (m : Module) (h : m.Deterministic) : Blind refresh m := by
  unfold Deterministic at h
  have key : ∀ {t : TS}, m.series? = some t → _ := fun {t} ht => TS.still_refresh t (h t ht) m.currentStep
  have other : (∀ t, m.series? ≠ some t) → Blind refresh m := by
    intro hn
    have h1 : m.refresh = (m, .ok ()) := by
      unfold refresh
      cases hk : m.kind <;> simp only [series?, hk] at hn <;> first | rfl | exact absurd rfl (hn _)
    have h2 : m.core.refresh = (m.core, .ok ()) := by
      unfold refresh
      cases hk : m.kind <;> simp only [series?, hk] at hn <;> simp only [core, hk, Kind.still] <;> exact absurd rfl (hn _)
    unfold Blind
    rw [h1, h2]
    exact ⟨core_idem m, rfl⟩
  cases hk : m.kind with
  | grid p t =>
    obtain ⟨h1, h2⟩ := key (t := t) (by simp [series?, hk])
    have e1 : m.refresh = ({ m with kind := .grid p (t.refresh m.currentStep).1 }, (t.refresh m.currentStep).2) := by
      unfold refresh; rw [hk]
    have e2 : m.core.refresh =
        ({ m.core with kind := .grid p (t.still.refresh m.currentStep).1 }, (t.still.refresh m.currentStep).2) := by
      unfold refresh; simp only [core, hk, Kind.still]
    unfold Blind
    rw [e1, e2]
    refine ⟨?_, h2⟩
    simp only [core, Kind.still, h1]
  | load t =>
    obtain ⟨h1, h2⟩ := key (t := t) (by simp [series?, hk])
    have e1 : m.refresh = ({ m with kind := .load (t.refresh m.currentStep).1 }, (t.refresh m.currentStep).2) := by
      unfold refresh; rw [hk]
    have e2 : m.core.refresh =
        ({ m.core with kind := .load (t.still.refresh m.currentStep).1 }, (t.still.refresh m.currentStep).2) := by
      unfold refresh; simp only [core, hk, Kind.still]
    unfold Blind
    rw [e1, e2]
    refine ⟨?_, h2⟩
    simp only [core, Kind.still, h1]
  | renewable t =>
    obtain ⟨h1, h2⟩ := key (t := t) (by simp [series?, hk])
    have e1 : m.refresh = ({ m with kind := .renewable (t.refresh m.currentStep).1 }, (t.refresh m.currentStep).2) := by
      unfold refresh; rw [hk]
    have e2 : m.core.refresh =
        ({ m.core with kind := .renewable (t.still.refresh m.currentStep).1 }, (t.still.refresh m.currentStep).2) := by
      unfold refresh; simp only [core, hk, Kind.still]
    unfold Blind
    rw [e1, e2]
    refine ⟨?_, h2⟩
    simp only [core, Kind.still, h1]
  | _ => exact other (by simp [series?, hk])

theorem core_updateStep (r : Bool) (m : Module) (h : m.Deterministic) : Blind (fun m => m.updateStep r) m :=
  core_refresh { m with currentStep := if r then m.initialStep else m.currentStep + 1 } h

theorem core_withLogger (m : Module) (l : Logger) : core { m with logger := l } = m.core := rfl

theorem core_logRow (m : Module) (pre : List (Key × ℚ)) (u : UpdateOut) : m.core.logRow pre u = m.logRow pre u := rfl

/-- Determinism depends on the core only, and steps keep it. -/
theorem deterministic_core (m : Module) : m.core.Deterministic ↔ m.Deterministic := by
  unfold Deterministic series? core
  cases hk : m.kind <;> simp [Kind.still, TS.still]

theorem deterministic_of_core {m m' : Module} (h : m.core = m'.core) (hd : m.Deterministic) : m'.Deterministic := by
  rw [← deterministic_core, ← h, deterministic_core]; exact hd

theorem det_update (m : Module) (e : Option ℚ) (d : Dir) (h : m.Deterministic) : (m.update e d).1.Deterministic := by
  unfold update
  cases hk : m.kind with
  | battery b => intro t ht; simp [series?] at ht
  | _ => exact h

theorem det_unnormalizedStep (m : Module) (q : ℚ) (h : m.Deterministic) : (m.unnormalizedStep q).1.Deterministic := by
  unfold unnormalizedStep asSource asSink
  repeat' split
  all_goals first | exact h | exact det_update _ _ _ h

theorem det_refresh (m : Module) (h : m.Deterministic) : m.refresh.1.Deterministic := by
  have hf : ∀ (t : TS) (c : Nat), (t.refresh c).1.forecaster = t.forecaster := by
    intro t c; unfold TS.refresh; simp only; split <;> rfl
  unfold refresh
  unfold Deterministic at *
  cases hk : m.kind with
  | grid p t =>
    have := h t (by simp [series?, hk])
    intro t' ht'
    simp only [series?, Option.some.injEq] at ht'
    rw [← ht', hf]; exact this
  | load t =>
    have := h t (by simp [series?, hk])
    intro t' ht'
    simp only [series?, Option.some.injEq] at ht'
    rw [← ht', hf]; exact this
  | renewable t =>
    have := h t (by simp [series?, hk])
    intro t' ht'
    simp only [series?, Option.some.injEq] at ht'
    rw [← ht', hf]; exact this
  | _ => exact h

/-- Blindness in terms of two modules with the same core. -/
theorem Blind.twin {α : Type} {f : Module → Module × α} {m m' : Module} (h : m.core = m'.core) (b : Blind f m)
    (b' : Blind f m') : (f m).1.core = (f m').1.core ∧ (f m).2 = (f m').2 := by
  unfold Blind at *
  rw [h] at b
  exact ⟨b.1.symm.trans b'.1, b.2.symm.trans b'.2⟩

theorem twin_stepEnergy {m m' : Module} (h : m.core = m'.core) (hd : m.Deterministic) (q : ℚ) :
    (m.stepEnergy q).1.core = (m'.stepEnergy q).1.core ∧ (m.stepEnergy q).2 = (m'.stepEnergy q).2 ∧
      (m.stepEnergy q).1.Deterministic := by
  unfold stepEnergy
  have hs : m.stateDict = m'.stateDict := by rw [← core_stateDict, h, core_stateDict]
  rw [hs]
  cases m'.stateDict with
  | error e => exact ⟨h, rfl, hd⟩
  | ok pre =>
    simp only
    have hu := Blind.twin h (core_unnormalizedStep q m) (core_unnormalizedStep q m')
    have hdu := det_unnormalizedStep m q hd
    cases h1 : m.unnormalizedStep q with
    | mk m₁ r =>
    cases h1' : m'.unnormalizedStep q with
    | mk m₁' r' =>
    rw [h1, h1'] at hu
    rw [h1] at hdu
    obtain ⟨hc, rfl⟩ := hu
    simp only at hc hdu
    cases r with
    | error e => exact ⟨hc, rfl, hdu⟩
    | ok u =>
      simp only [log]
      have hl : m₁.logRow pre u = m₁'.logRow pre u := by rw [← core_logRow, hc, core_logRow]
      rw [hl]
      cases m₁'.logRow pre u with
      | error e => exact ⟨hc, rfl, hdu⟩
      | ok row =>
        simp only
        have hc' : core { m₁ with logger := m₁.logger.log row } = core { m₁' with logger := m₁'.logger.log row } := hc
        have hd2 : Deterministic { m₁ with logger := m₁.logger.log row } := hdu
        have hu := Blind.twin hc' (core_updateStep false _ hd2)
          (core_updateStep false _ (deterministic_of_core hc' hd2))
        have hd3 : (({ m₁ with logger := m₁.logger.log row } : Module).updateStep false).1.Deterministic :=
          det_refresh { m₁ with logger := m₁.logger.log row, currentStep := m₁.currentStep + 1 } hd2
        cases h2 : ({ m₁ with logger := m₁.logger.log row } : Module).updateStep false with
        | mk m₂ r =>
        cases h2' : ({ m₁' with logger := m₁'.logger.log row } : Module).updateStep false with
        | mk m₂' r' =>
        rw [h2, h2'] at hu
        rw [h2] at hd3
        obtain ⟨hc, rfl⟩ := hu
        simp only at hc hd3
        cases r with
        | error e => exact ⟨hc, rfl, hd3⟩
        | ok _ =>
          simp only
          have : m₂.normalizedObs = m₂'.normalizedObs := by rw [← core_normalizedObs, hc, core_normalizedObs]
          rw [this]
          cases m₂'.normalizedObs <;> exact ⟨hc, rfl, hd3⟩

theorem core_request (m : Module) (a : Act) (n : Bool) : m.core.request a n = m.request a n := by
  have : m.core.energyPos = m.energyPos := by
    unfold energyPos core
    cases hk : m.kind <;> rfl
  unfold request
  rw [this]
  rfl

theorem twin_baseStep {m m' : Module} (h : m.core = m'.core) (hd : m.Deterministic) (a : Act) (n : Bool) :
    (m.baseStep a n).1.core = (m'.baseStep a n).1.core ∧ (m.baseStep a n).2 = (m'.baseStep a n).2 ∧
      (m.baseStep a n).1.Deterministic := by
  rw [baseStep_eq, baseStep_eq]
  have : m.request a n = m'.request a n := by rw [← core_request, h, core_request]
  rw [this]
  cases m'.request a n with
  | error e => exact ⟨h, rfl, hd⟩
  | ok q => exact twin_stepEnergy h hd q

theorem core_genset {m m' : Module} (h : m.core = m'.core) (g : Genset) : m.kind = .genset g ↔ m'.kind = .genset g := by
  have := congrArg Module.kind h
  unfold core at this
  simp only at this
  cases hk : m.kind <;> cases hk' : m'.kind <;> rw [hk, hk'] at this <;> simp_all [Kind.still]

/-- Modules that agree up to log and draws behave alike. -/
theorem twin_step {m m' : Module} (h : m.core = m'.core) (hd : m.Deterministic) (a : Act) (n : Bool) :
    (m.step a n).1.core = (m'.step a n).1.core ∧ (m.step a n).2 = (m'.step a n).2 ∧ (m.step a n).1.Deterministic := by
  by_cases hg : ∃ g, m.kind = .genset g
  · obtain ⟨g, hg⟩ := hg
    have hg' := (core_genset h g).mp hg
    unfold step
    rw [hg, hg']
    simp only
    cases a with
    | num q => exact ⟨h, rfl, hd⟩
    | arr l =>
      simp only
      cases l[0]? with
      | none => exact ⟨h, rfl, hd⟩
      | some goal =>
        simp only
        split
        · exact ⟨h, rfl, hd⟩
        · cases g.updateStatus goal with
          | error e => exact ⟨h, rfl, hd⟩
          | ok g' =>
            simp only
            apply twin_baseStep
            · unfold core at h ⊢
              simp only [Module.mk.injEq] at h ⊢
              obtain ⟨h1, h2, h3, h4, h5, h6, h7, h8, h9, -⟩ := h
              exact ⟨h1, h2, h3, h4, h5, h6, h7, h8, h9, trivial⟩
            · intro t ht; simp [series?] at ht
  · have hg1 : ∀ g, m.kind ≠ .genset g := fun g e => hg ⟨g, e⟩
    have hg2 : ∀ g, m'.kind ≠ .genset g := fun g e => hg ⟨g, (core_genset h g).mpr e⟩
    rw [step_eq_baseStep m a n hg1, step_eq_baseStep m' a n hg2]
    exact twin_baseStep h hd a n

theorem twin_reset {m m' : Module} (h : m.core = m'.core) (hd : m.Deterministic) :
    m.reset.1.core = m'.reset.1.core ∧ m.reset.2 = m'.reset.2 ∧ m.reset.1.Deterministic := by
  have hu := Blind.twin h (core_updateStep true m hd) (core_updateStep true m' (deterministic_of_core h hd))
  have hd3 : (m.updateStep true).1.Deterministic := det_refresh { m with currentStep := m.initialStep } hd
  unfold reset
  cases h2 : m.updateStep true with
  | mk m₂ r =>
  cases h2' : m'.updateStep true with
  | mk m₂' r' =>
  rw [h2, h2'] at hu
  rw [h2] at hd3
  obtain ⟨hc, rfl⟩ := hu
  simp only at hc hd3
  cases r with
  | error e => exact ⟨hc, rfl, hd3⟩
  | ok _ =>
    simp only
    refine ⟨hc, ?_, hd3⟩
    have h1 : ({ m₂ with logger := m₂.logger.flush } : Module).normalizedObs = m₂.core.normalizedObs :=
      (core_normalizedObs { m₂ with logger := m₂.logger.flush }).symm
    have h2 : ({ m₂' with logger := m₂'.logger.flush } : Module).normalizedObs = m₂'.core.normalizedObs :=
      (core_normalizedObs { m₂' with logger := m₂'.logger.flush }).symm
    rw [h1, h2, hc]

theorem twin_assign {m m' : Module} (h : m.core = m'.core) (hd : m.Deterministic) (f : Battery → Battery) :
    (m.assign f).core = (m'.assign f).core ∧ (m.assign f).Deterministic := by
  have hk := congrArg Module.kind h
  unfold assign core at *
  simp only [Module.mk.injEq] at h ⊢
  cases hm : m.kind with
  | battery b =>
    cases hm' : m'.kind with
    | battery b' =>
      rw [hm, hm'] at hk
      simp only [Kind.still, Kind.battery.injEq] at hk
      subst hk
      simp only
      obtain ⟨h1, h2, h3, h4, h5, h6, h7, h8, h9, -⟩ := h
      exact ⟨⟨h1, h2, h3, h4, h5, h6, h7, h8, h9, trivial⟩, by intro t ht; simp [series?] at ht⟩
    | _ => rw [hm, hm'] at hk; simp [Kind.still] at hk
  | _ =>
    cases hm' : m'.kind with
    | battery b' => rw [hm, hm'] at hk; simp [Kind.still] at hk
    | _ => exact ⟨h, hd⟩

theorem twin_op {m m' : Module} (h : m.core = m'.core) (hd : m.Deterministic) (op : MOp) :
    (op.apply m).core = (op.apply m').core ∧ (op.apply m).Deterministic := by
  cases op with
  | step a n => obtain ⟨h1, -, h3⟩ := twin_step h hd a n; exact ⟨h1, h3⟩
  | reset => obtain ⟨h1, -, h3⟩ := twin_reset h hd; exact ⟨h1, h3⟩
  | setSoc v => exact twin_assign h hd _
  | setCharge v => exact twin_assign h hd _

theorem twin_outputs (ops : List MOp) : ∀ {m m' : Module}, m.core = m'.core → m.Deterministic →
    outputs m ops = outputs m' ops ∧ (runOps m ops).core = (runOps m' ops).core := by
  induction ops with
  | nil => intro m m' h hd; exact ⟨rfl, h⟩
  | cons op ops ih =>
    intro m m' h hd
    obtain ⟨h1, h2⟩ := twin_op h hd op
    obtain ⟨i1, i2⟩ := ih h1 h2
    refine ⟨?_, i2⟩
    cases op with
    | step a n =>
      obtain ⟨-, h3, -⟩ := twin_step h hd a n
      simp only [outputs]
      rw [h3, i1]
    | _ => simpa only [outputs] using i1

end Module

end Pymgrid
