import Verif.Lemmas.Step
import Mathlib.Data.Rat.Floor

set_option autoImplicit false
set_option linter.unusedSimpArgs false

/-! Helper lemmas about the genset status machine. -/

namespace Pymgrid

theorem pyRound_zero {q : ℚ} (h₀ : 0 ≤ q) (h : q ≤ 1/2) : pyRound q = 0 := by
  have hf : q.floor = 0 := by
    have : ⌊q⌋ = 0 := Int.floor_eq_zero_iff.mpr ⟨h₀, by linarith⟩
    exact this
  unfold pyRound
  simp only [hf, Int.cast_zero, sub_zero]
  split
  · rfl
  · split
    · linarith
    · rfl

theorem pyRound_one {q : ℚ} (h : 1/2 < q) (h₁ : q ≤ 1) : pyRound q = 1 := by
  rcases eq_or_lt_of_le h₁ with rfl | hlt
  · decide +kernel
  · have hf : q.floor = 0 := by
      have : ⌊q⌋ = 0 := Int.floor_eq_zero_iff.mpr ⟨by linarith, hlt⟩
      exact this
    unfold pyRound
    simp only [hf, Int.cast_zero, sub_zero]
    rw [if_neg (by linarith), if_pos h]
    rfl

/-- What the genset is doing, as a user sees it. -/
inductive GPhase
  | off
  | on
  | starting (left : Nat)
  | stopping (left : Nat)
  deriving DecidableEq, Repr

/-- The documented machine with abortion: the successor phase for a request to run or to stop. -/
def GPhase.next (S W : Nat) : GPhase → Bool → GPhase
  | .off, false => .off
  | .off, true => if S = 0 then .on else .starting (S - 1)
  | .on, true => .on
  | .on, false => if W = 0 then .off else .stopping (W - 1)
  | .starting 0, true => .on
  | .starting (k + 1), true => .starting k
  | .starting _, false => .off
  | .stopping 0, false => .off
  | .stopping (k + 1), false => .stopping k
  | .stopping _, true => .on

/-- What the code does when abortion is not allowed. -/
def GPhase.nextNA (S W : Nat) : GPhase → Bool → GPhase
  | .off, true => if S = 0 then .on else .off
  | .on, false => if W = 0 then .off else .on
  | p, _ => p

namespace Genset

/-- The registers that represent a phase. -/
def InPhase (g : Genset) (p : GPhase) : Prop :=
  match p with
    | .off => g.status = 0 ∧ g.goal = 0 ∧ g.untilUp = g.startUpTime ∧ g.untilDown = 0
    | .on => g.status = 1 ∧ g.goal = 1 ∧ g.untilUp = 0 ∧ g.untilDown = g.windDownTime
    | .starting k => g.status = 0 ∧ g.goal = 1 ∧ g.untilUp = k ∧ g.untilDown = 0 ∧ k < g.startUpTime
    | .stopping k => g.status = 1 ∧ g.goal = 0 ∧ g.untilUp = 0 ∧ g.untilDown = k ∧ k < g.windDownTime

/-- Same parameters. -/
structure SameParams (g g' : Genset) : Prop where
  runMin : g'.runMin = g.runMin
  runMax : g'.runMax = g.runMax
  cost : g'.cost = g.cost
  co2 : g'.co2PerUnit = g.co2PerUnit
  cco2 : g'.costPerCo2 = g.costPerCo2
  up : g'.startUpTime = g.startUpTime
  down : g'.windDownTime = g.windDownTime
  abort : g'.allowAbortion = g.allowAbortion
  initUp : g'.initStartUp = g.initStartUp

theorem SameParams.refl (g : Genset) : SameParams g g := ⟨rfl, rfl, rfl, rfl, rfl, rfl, rfl, rfl, rfl⟩

theorem SameParams.trans {g g' g'' : Genset} (h : SameParams g g') (h' : SameParams g' g'') :
    SameParams g g'' :=
  ⟨h'.runMin.trans h.runMin, h'.runMax.trans h.runMax, h'.cost.trans h.cost, h'.co2.trans h.co2,
    h'.cco2.trans h.cco2, h'.up.trans h.up, h'.down.trans h.down, h'.abort.trans h.abort,
    h'.initUp.trans h.initUp⟩

/-- The integer a request is rounded to. -/
def reqInt (on : Bool) : Int := if on then 1 else 0

theorem sameParams_iff (g g' : Genset) : SameParams g g' ↔
    g'.runMin = g.runMin ∧ g'.runMax = g.runMax ∧ g'.cost = g.cost ∧ g'.co2PerUnit = g.co2PerUnit ∧
    g'.costPerCo2 = g.costPerCo2 ∧ g'.startUpTime = g.startUpTime ∧ g'.windDownTime = g.windDownTime ∧
    g'.allowAbortion = g.allowAbortion ∧ g'.initStartUp = g.initStartUp :=
  ⟨fun ⟨a, b, c, d, e, f, g, h, i⟩ => ⟨a, b, c, d, e, f, g, h, i⟩,
    fun ⟨a, b, c, d, e, f, g, h, i⟩ => ⟨a, b, c, d, e, f, g, h, i⟩⟩

private theorem succ_eq_zero (k : Nat) : ((k : Int) + 1 = 0) = False := by simp; omega
private theorem succ_pos (k : Nat) : ((0 : Int) < k + 1) = True := by simp

theorem updateStatusRounded_spec {g : Genset} {p : GPhase} (h : g.InPhase p) (ha : g.allowAbortion = true)
    (on : Bool) :
    ∃ g', g.updateStatusRounded (reqInt on) = .ok g' ∧
      g'.InPhase (p.next g.startUpTime g.windDownTime on) ∧ SameParams g g' ∧
      g'.status = g.nextStatus (reqInt on) := by
  cases p with
  | off =>
    obtain ⟨h1, h2, h3, h4⟩ := h
    cases on
    · simp [updateStatusRounded, reqInt, GPhase.next, InPhase, sameParams_iff, nextStatus, *]
    · rcases hS : g.startUpTime with _ | S
      · simp [updateStatusRounded, reqInt, finishInProgress, resetTimes, GPhase.next, InPhase,
          sameParams_iff, nextStatus, *]
      · simp [updateStatusRounded, reqInt, finishInProgress, nonInstantaneous, redirect, countDown,
          updateTimes, GPhase.next, InPhase, sameParams_iff, nextStatus, succ_eq_zero, succ_pos, *]
  | on =>
    obtain ⟨h1, h2, h3, h4⟩ := h
    cases on
    · rcases hW : g.windDownTime with _ | W
      · simp [updateStatusRounded, reqInt, finishInProgress, resetTimes, GPhase.next, InPhase,
          sameParams_iff, nextStatus, *]
      · simp [updateStatusRounded, reqInt, finishInProgress, nonInstantaneous, redirect, countDown,
          updateTimes, GPhase.next, InPhase, sameParams_iff, nextStatus, succ_eq_zero, succ_pos, *]
    · simp [updateStatusRounded, reqInt, GPhase.next, InPhase, sameParams_iff, nextStatus, *]
  | starting k =>
    obtain ⟨h1, h2, h3, h4, h5⟩ := h
    cases on
    · simp [updateStatusRounded, reqInt, finishInProgress, resetTimes, GPhase.next, InPhase,
          sameParams_iff, nextStatus, *]
    · rcases k with _ | k
      · simp [updateStatusRounded, reqInt, finishInProgress, resetTimes, GPhase.next, InPhase,
          sameParams_iff, nextStatus, *]
      · simp [updateStatusRounded, reqInt, finishInProgress, nonInstantaneous, redirect, countDown,
          updateTimes, GPhase.next, InPhase, sameParams_iff, nextStatus, succ_eq_zero, succ_pos, *]
        omega
  | stopping k =>
    obtain ⟨h1, h2, h3, h4, h5⟩ := h
    cases on
    · rcases k with _ | k
      · simp [updateStatusRounded, reqInt, finishInProgress, resetTimes, GPhase.next, InPhase,
          sameParams_iff, nextStatus, *]
      · simp [updateStatusRounded, reqInt, finishInProgress, nonInstantaneous, redirect, countDown,
          updateTimes, GPhase.next, InPhase, sameParams_iff, nextStatus, succ_eq_zero, succ_pos, *]
        omega
    · simp [updateStatusRounded, reqInt, finishInProgress, resetTimes, GPhase.next, InPhase,
          sameParams_iff, nextStatus, *]

theorem updateStatusRounded_specNA {g : Genset} {p : GPhase} (h : g.InPhase p)
    (ha : g.allowAbortion = false) (hp : p = .on ∨ p = .off) (on : Bool) :
    ∃ g', g.updateStatusRounded (reqInt on) = .ok g' ∧
      g'.InPhase (p.nextNA g.startUpTime g.windDownTime on) ∧ SameParams g g' ∧
      g'.status = g.nextStatus (reqInt on) := by
  rcases hp with rfl | rfl
  · obtain ⟨h1, h2, h3, h4⟩ := h
    cases on
    · rcases hW : g.windDownTime with _ | W
      · simp [updateStatusRounded, reqInt, finishInProgress, resetTimes, GPhase.nextNA, InPhase,
          sameParams_iff, nextStatus, *]
      · simp [updateStatusRounded, reqInt, finishInProgress, resetTimes, nonInstantaneous, redirect, countDown,
          updateTimes, GPhase.nextNA, InPhase, sameParams_iff, nextStatus, succ_eq_zero, succ_pos, *]
    · simp [updateStatusRounded, reqInt, GPhase.nextNA, InPhase, sameParams_iff, nextStatus, *]
  · obtain ⟨h1, h2, h3, h4⟩ := h
    cases on
    · simp [updateStatusRounded, reqInt, GPhase.nextNA, InPhase, sameParams_iff, nextStatus, *]
    · rcases hS : g.startUpTime with _ | S
      · simp [updateStatusRounded, reqInt, finishInProgress, resetTimes, GPhase.nextNA, InPhase,
          sameParams_iff, nextStatus, *]
      · simp [updateStatusRounded, reqInt, finishInProgress, resetTimes, nonInstantaneous, redirect, countDown,
          updateTimes, GPhase.nextNA, InPhase, sameParams_iff, nextStatus, succ_eq_zero, succ_pos, *]

theorem InPhase.counters {g : Genset} {p : GPhase} (h : g.InPhase p) :
    0 ≤ g.untilUp ∧ g.untilUp ≤ g.startUpTime ∧ 0 ≤ g.untilDown ∧ g.untilDown ≤ g.windDownTime := by
  cases p <;> simp only [InPhase] at h <;> omega

theorem InPhase.status {g : Genset} {p : GPhase} (h : g.InPhase p) : g.status = 0 ∨ g.status = 1 := by
  cases p <;> simp only [InPhase] at h <;> omega

/-- Whether a goal request in `[0,1]` asks the genset to run. -/
def asksOn (q : ℚ) : Bool := decide (1/2 < q)

theorem pyRound_asksOn {q : ℚ} (h₀ : 0 ≤ q) (h₁ : q ≤ 1) : pyRound q = reqInt (asksOn q) := by
  unfold asksOn reqInt
  by_cases h : 1/2 < q
  · rw [pyRound_one h h₁, decide_eq_true h]; rfl
  · rw [pyRound_zero h₀ (not_lt.mp h), decide_eq_false h]; rfl

theorem InPhase.updateStatus_eq {g : Genset} {p : GPhase} (h : g.InPhase p) {q : ℚ} (h₀ : 0 ≤ q)
    (h₁ : q ≤ 1) : g.updateStatus q = g.updateStatusRounded (reqInt (asksOn q)) := by
  have := h.counters
  unfold updateStatus
  rw [if_neg (by simp; omega), if_neg (by simp [h₀, h₁]), pyRound_asksOn h₀ h₁]

/-- The phase in which a genset is constructed. -/
def startPhase (initStartUp : Bool) : GPhase := if initStartUp then .on else .off

/-- Successor phase, for both values of `allow_abortion`. -/
def nextPhase (g : Genset) (p : GPhase) (on : Bool) : GPhase :=
  if g.allowAbortion then p.next g.startUpTime g.windDownTime on
  else p.nextNA g.startUpTime g.windDownTime on

/-- A phase the genset can be in: without abortion, only the resting ones. -/
def PhaseOK (g : Genset) (p : GPhase) : Prop := g.InPhase p ∧ (g.allowAbortion = false → p = .on ∨ p = .off)

theorem nextNA_rest {S W : Nat} {p : GPhase} (h : p = .on ∨ p = .off) (on : Bool) :
    p.nextNA S W on = .on ∨ p.nextNA S W on = .off := by
  rcases h with rfl | rfl <;> cases on <;> simp only [GPhase.nextNA] <;> (try split) <;> simp

theorem PhaseOK.update {g : Genset} {p : GPhase} (h : g.PhaseOK p) {q : ℚ} (h₀ : 0 ≤ q) (h₁ : q ≤ 1) :
    ∃ g', g.updateStatus q = .ok g' ∧ g'.PhaseOK (g.nextPhase p (asksOn q)) ∧ SameParams g g' ∧
      g'.status = g.nextStatus (reqInt (asksOn q)) := by
  rw [h.1.updateStatus_eq h₀ h₁]
  by_cases ha : g.allowAbortion = true
  · obtain ⟨g', e, h1, h2, h3⟩ := updateStatusRounded_spec h.1 ha (asksOn q)
    refine ⟨g', e, ⟨?_, ?_⟩, h2, h3⟩
    · simpa [nextPhase, ha] using h1
    · intro h'; rw [h2.abort, ha] at h'; simp at h'
  · have ha' : g.allowAbortion = false := by simpa using ha
    obtain ⟨g', e, h1, h2, h3⟩ := updateStatusRounded_specNA h.1 ha' (h.2 ha') (asksOn q)
    refine ⟨g', e, ⟨?_, ?_⟩, h2, h3⟩
    · simpa [nextPhase, ha'] using h1
    · intro _
      rw [nextPhase, ha']
      exact nextNA_rest (h.2 ha') _

theorem nextPhase_congr {g g' : Genset} (h : SameParams g g') (p : GPhase) (on : Bool) :
    g'.nextPhase p on = g.nextPhase p on := by
  unfold nextPhase; rw [h.abort, h.up, h.down]

theorem init_inv {rmin rmax : ℚ} {cost : GensetCost} {c1 c2 : ℚ} {S W : Nat} {ab iu : Bool} {g : Genset}
    (h : init rmin rmax cost c1 c2 S W ab iu = .ok g) :
    rmin ≤ rmax ∧ g.PhaseOK (startPhase iu) ∧ g.runMin = rmin ∧ g.runMax = rmax ∧ g.cost = cost ∧
      g.co2PerUnit = c1 ∧ g.costPerCo2 = c2 ∧ g.startUpTime = S ∧ g.windDownTime = W ∧
      g.allowAbortion = ab ∧ g.initStartUp = iu := by
  unfold init at h
  split at h
  · simp at h
  · rename_i hle
    cases iu <;> simp only [resetTimes] at h <;> simp at h <;> subst h
    · exact ⟨not_lt.mp hle, ⟨⟨rfl, rfl, rfl, rfl⟩, fun _ => .inr rfl⟩, rfl, rfl, rfl, rfl, rfl, rfl, rfl, rfl, rfl⟩
    · exact ⟨not_lt.mp hle, ⟨⟨rfl, rfl, rfl, rfl⟩, fun _ => .inl rfl⟩, rfl, rfl, rfl, rfl, rfl, rfl, rfl, rfl, rfl⟩

theorem init_ok {rmin rmax : ℚ} (cost : GensetCost) (c1 c2 : ℚ) (S W : Nat) (ab iu : Bool) (h : rmin ≤ rmax) :
    ∃ g, init rmin rmax cost c1 c2 S W ab iu = .ok g := by
  unfold init
  rw [if_neg (not_lt.mpr h)]
  cases iu <;> exact ⟨_, rfl⟩

end Genset

namespace Module

/-- A genset module in a consistent state. -/
structure GenWF (m : Module) (g : Genset) : Prop where
  kind : m.kind = .genset g
  phase : ∃ p, g.PhaseOK p
  min_nonneg : 0 ≤ g.runMin
  min_le : g.runMin ≤ g.runMax
  ffc : m.ffc = .controllable
  prov : m.provName = some (.str "genset_production")
  abs : m.absName = none
  dim : m.obsSpace.dim = 4

/-- The production closest to the request that the genset can deliver. -/
def clamp (lo hi q : ℚ) : ℚ := if hi < q then hi else if q < lo then lo else q

/-- What a successful energy step of a genset module does. -/
structure GenStep (m : Module) (g : Genset) (q : ℚ) (m' : Module) (o : StepOut) : Prop where
  wf : m'.GenWF g
  step : m'.currentStep = m.currentStep + 1
  init : m'.initialStep = m.initialStep
  raise : m'.raiseErrors = m.raiseErrors
  space : m'.actSpace = m.actSpace
  provided : o.info.provided = some (clamp g.minProduction g.maxProduction q)
  absorbed : o.info.absorbed = none
  extra : o.info.extra = [(.str "co2_production", g.co2PerUnit * clamp g.minProduction g.maxProduction q)]
  reward : o.reward = -(g.getCost (clamp g.minProduction g.maxProduction q))
  done : o.done = false

theorem GenWF.updateStep {m : Module} {g : Genset} (h : m.GenWF g) (r : Bool) :
    m.updateStep r =
      ({ m with currentStep := if r then m.initialStep else m.currentStep + 1 }, .ok ()) := by
  unfold Module.updateStep refresh
  simp [h.kind]

theorem GenWF.limits {m : Module} {g : Genset} (h : m.GenWF g) :
    0 ≤ g.minProduction ∧ g.minProduction ≤ g.maxProduction := by
  obtain ⟨p, hp⟩ := h.phase
  have := h.min_nonneg
  have := h.min_le
  rcases hp.1.status with hs | hs <;> simp [Genset.minProduction, Genset.maxProduction, hs, *]

theorem GenWF.stepEnergy {m : Module} {g : Genset} (h : m.GenWF g) (q : ℚ) :
    if q < 0 then m.stepEnergy q = (m, .error .type)
    else if m.raiseErrors = true ∧ (g.maxProduction < q ∨ q < g.minProduction) then
      m.stepEnergy q = (m, .error .value)
    else ∃ m' o, m.stepEnergy q = (m', .ok o) ∧ m.GenStep g q m' o := by
  have hs : m.stateDict = .ok g.stateDict := by simp [stateDict, h.kind]
  have hmp : m.maxProduction = .ok (.fin g.maxProduction) := by simp [maxProduction, h.kind]
  have hmc : m.maxConsumption = .error .type := by simp [maxConsumption, h.kind]
  have hmin : m.minProduction = g.minProduction := by simp [minProduction, h.kind]
  have hsrc : m.isSource = true := by simp [isSource, h.kind]
  have hlim := h.limits
  split
  · rename_i hq
    have hun : m.unnormalizedStep q = (m, .error .type) := by
      unfold unnormalizedStep
      simp [hq, not_lt.mpr hq.le, asSink, h.ffc, hmc, hq.le]
    unfold Module.stepEnergy
    simp only [hs, hun]
  rename_i hq
  have hq := not_lt.mp hq
  have hun : m.unnormalizedStep q = m.asSource q := by
    unfold unnormalizedStep
    by_cases h0 : q > 0
    · simp [h0]
    · simp [h0, not_lt.mpr hq, hsrc]
  split
  · rename_i hr
    have : m.asSource q = (m, .error .value) := by
      by_cases hgt : g.maxProduction < q
      · simp [asSource, hq, hsrc, h.ffc, hmp, hgt, hr.1]
      · simp [asSource, hq, hsrc, h.ffc, hmp, hgt, hr.1, hmin, hr.2.resolve_left hgt]
    unfold Module.stepEnergy
    simp only [hs, hun, this]
  · rename_i hr
    have hupd : m.asSource q = (m, .ok
        { reward := -1 * g.getCost (clamp g.minProduction g.maxProduction q), done := false,
          info := { provided := some (clamp g.minProduction g.maxProduction q),
                    extra := [(.str "co2_production",
                      g.getCo2 (clamp g.minProduction g.maxProduction q))] } }) := by
      have hu : ∀ x, m.update (some x) .source = (m, .ok
        { reward := -1 * g.getCost x, done := false,
          info := { provided := some x, extra := [(.str "co2_production", g.getCo2 x)] } }) := by
        intro x; simp [update, h.kind, Genset.update]
      unfold clamp
      by_cases hgt : g.maxProduction < q
      · have hr' : m.raiseErrors = false := by
          by_contra hh; exact hr ⟨by simpa using hh, .inl hgt⟩
        simp only [if_pos hgt, ← hu]
        simp [asSource, hq, hsrc, h.ffc, hmp, hgt, hr']
      · by_cases hlt : q < g.minProduction
        · have hr' : m.raiseErrors = false := by
            by_contra hh; exact hr ⟨by simpa using hh, .inr hlt⟩
          simp only [if_neg hgt, if_pos hlt, ← hu]
          simp [asSource, hq, hsrc, h.ffc, hmp, hgt, hlt, hmin, hr']
        · simp only [if_neg hgt, if_neg hlt, ← hu]
          simp [asSource, hq, hsrc, h.ffc, hmp, hgt, hlt, hmin]
    obtain ⟨row, hrow⟩ := logRow_ok m g.stateDict
      { reward := -1 * g.getCost (clamp g.minProduction g.maxProduction q), done := false,
          info := { provided := some (clamp g.minProduction g.maxProduction q),
                    extra := [(.str "co2_production",
                      g.getCo2 (clamp g.minProduction g.maxProduction q))] } }
      (by simp [h.prov]) (fun _ => rfl)
    let m₂ : Module := { m with logger := m.logger.log row }
    have wf₂ : m₂.GenWF g := ⟨h.kind, h.phase, h.min_nonneg, h.min_le, h.ffc, h.prov, h.abs, h.dim⟩
    let m₃ : Module := { m₂ with currentStep := m.currentStep + 1 }
    have wf₃ : m₃.GenWF g := ⟨h.kind, h.phase, h.min_nonneg, h.min_le, h.ffc, h.prov, h.abs, h.dim⟩
    obtain ⟨obs, hobs⟩ := m₃.normalizedObs_ok g.stateDict (by simp [stateDict, wf₃.kind])
      (by rw [wf₃.dim]; rfl)
    refine ⟨m₃, _, stepEnergy_of m m m₃ q _ row _ obs hs (hun.trans hupd) hrow (wf₂.updateStep false) hobs,
      wf₃, rfl, rfl, rfl, rfl, rfl, rfl, rfl, ?_, rfl⟩
    simp

/-- Every genset step: bad requests have no effect, otherwise the status machine moves and then the
    energy is exchanged. -/
theorem GenWF.step_eq {m : Module} {g : Genset} (h : m.GenWF g) (a : Act) (n : Bool) :
    m.step a n =
      match a with
      | .num _ => (m, .error .type)
      | .arr l =>
        match l[0]? with
        | none => (m, .error .index)
        | some goal =>
          if ¬ (0 ≤ goal ∧ goal ≤ 1) then (m, .error .assertion)
          else
            match g.updateStatus goal with
            | .error e => (m, .error e)
            | .ok g' =>
              match m.request a n with
              | .error e => ({ m with kind := .genset g' }, .error e)
              | .ok q => Module.stepEnergy { m with kind := .genset g' } q := by
  unfold step
  simp only [h.kind]
  cases a with
  | num q => rfl
  | arr l =>
    simp only
    cases l[0]? with
    | none => rfl
    | some goal =>
      simp only
      split
      · rfl
      · cases g.updateStatus goal with
        | error e => rfl
        | ok g' =>
          simp only [baseStep_eq]
          have : ({ m with kind := .genset g' } : Module).request (.arr l) n = m.request (.arr l) n := by
            unfold request denormalizeAct
            simp [energyPos, h.kind]
          rw [this]
          cases m.request (.arr l) n <;> rfl

theorem GenWF.withStatus {m : Module} {g : Genset} (h : m.GenWF g) {g' : Genset} (hp : ∃ p, g'.PhaseOK p)
    (hs : g.SameParams g') : ({ m with kind := .genset g' } : Module).GenWF g' :=
  ⟨rfl, hp, by rw [hs.runMin]; exact h.min_nonneg, by rw [hs.runMin, hs.runMax]; exact h.min_le, h.ffc,
    h.prov, h.abs, h.dim⟩

theorem GenWF.reset {m : Module} {g : Genset} (h : m.GenWF g) :
    ∃ m' obs, m.reset = (m', .ok obs) ∧ m'.GenWF g ∧ m'.currentStep = m.initialStep ∧
      m'.initialStep = m.initialStep ∧ m'.raiseErrors = m.raiseErrors ∧ m'.actSpace = m.actSpace ∧
      m'.logger = {} := by
  let m' : Module := { m with currentStep := m.initialStep, logger := {} }
  have wf : m'.GenWF g := ⟨h.kind, h.phase, h.min_nonneg, h.min_le, h.ffc, h.prov, h.abs, h.dim⟩
  obtain ⟨obs, hobs⟩ := m'.normalizedObs_ok g.stateDict (by simp [stateDict, wf.kind])
    (by rw [wf.dim]; rfl)
  refine ⟨m', obs, ?_, wf, rfl, rfl, rfl, rfl, rfl⟩
  unfold Module.reset
  rw [h.updateStep]
  simp only [Logger.flush]
  exact Prod.ext rfl hobs

theorem mkGenset_inv {rmin rmax : ℚ} {cost : GensetCost} {c1 c2 : ℚ} {S W : Nat} {ab iu : Bool} {i : Nat}
    {r : Bool} {m : Module} (hm : mkGenset rmin rmax cost c1 c2 S W ab iu i r = .ok m) :
    ∃ g, Genset.init rmin rmax cost c1 c2 S W ab iu = .ok g ∧ m.kind = .genset g ∧ m.ffc = .controllable ∧
      m.provName = some (.str "genset_production") ∧ m.absName = none ∧ m.obsSpace.dim = 4 ∧ m.initialStep = i ∧
      m.currentStep = i ∧ m.raiseErrors = r ∧
      m.logger = {} ∧ m.actSpace = some ⟨[0, 0], [1, g.runMax]⟩ := by
  unfold mkGenset at hm
  split at hm
  · simp at hm
  · rename_i g hg
    injection hm with hm
    subst hm
    exact ⟨g, hg, rfl, rfl, by simp, rfl, rfl, rfl, rfl, rfl, rfl, rfl⟩

end Module

end Pymgrid
