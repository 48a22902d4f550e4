import Verif.Lemmas.Step

/-! Helper lemmas about batteries. -/

namespace Pymgrid

namespace Battery

/-- A battery with sensible parameters, the default transition model and a charge in its window. -/
structure Valid (b : Battery) : Prop where
  eff_pos : 0 < b.efficiency
  eff_le : b.efficiency ≤ 1
  maxCharge_nonneg : 0 ≤ b.maxCharge
  maxDischarge_nonneg : 0 ≤ b.maxDischarge
  cap_ne : b.maxCapacity ≠ 0
  transition : b.transition = none
  low : b.minCapacity ≤ b.charge
  high : b.charge ≤ b.maxCapacity
  soc_eq : b.soc = b.charge / b.maxCapacity

/-- The battery after its charge became `c`. -/
def withCharge (b : Battery) (c : ℚ) : Battery := { b with charge := c, soc := c / b.maxCapacity }

/-- Stored energy that moves when `x` units flow through the terminals. -/
def moved (b : Battery) (d : Dir) (x : ℚ) : ℚ :=
  match d with
  | .source => x / b.efficiency
  | .sink => x * b.efficiency

/-- Charge after `x` units have been exchanged. -/
def chargeAfter (b : Battery) (d : Dir) (x : ℚ) : ℚ :=
  match d with
  | .source => b.charge - x / b.efficiency
  | .sink => b.charge + x * b.efficiency

/-- Momentary limit of the exchange. -/
def limit (b : Battery) (d : Dir) : ℚ :=
  match d with
  | .source => b.maxProduction
  | .sink => b.maxConsumption

/-- Energy reported provided. -/
def _root_.Pymgrid.Dir.out (d : Dir) (x : ℚ) : Option ℚ :=
  match d with
  | .source => some x
  | .sink => none

/-- Energy reported absorbed. -/
def _root_.Pymgrid.Dir.into (d : Dir) (x : ℚ) : Option ℚ :=
  match d with
  | .source => none
  | .sink => some x

theorem Valid.withCharge {b : Battery} (h : b.Valid) {c : ℚ} (h₁ : b.minCapacity ≤ c)
    (h₂ : c ≤ b.maxCapacity) : (b.withCharge c).Valid :=
  ⟨h.eff_pos, h.eff_le, h.maxCharge_nonneg, h.maxDischarge_nonneg, h.cap_ne, h.transition, h₁, h₂, rfl⟩

theorem Valid.maxProduction_nonneg {b : Battery} (h : b.Valid) : 0 ≤ b.maxProduction :=
  mul_nonneg (le_min h.maxDischarge_nonneg (by linarith [h.low])) h.eff_pos.le

theorem Valid.maxConsumption_nonneg {b : Battery} (h : b.Valid) : 0 ≤ b.maxConsumption :=
  div_nonneg (le_min h.maxCharge_nonneg (by linarith [h.high])) h.eff_pos.le

theorem Valid.discharge_low {b : Battery} (h : b.Valid) {x : ℚ} (hx : x ≤ b.maxProduction) :
    b.minCapacity ≤ b.charge - x / b.efficiency := by
  have : x / b.efficiency ≤ min b.maxDischarge (b.charge - b.minCapacity) := by
    rw [div_le_iff₀ h.eff_pos]; exact hx
  linarith [min_le_right b.maxDischarge (b.charge - b.minCapacity)]

theorem Valid.charge_high {b : Battery} (h : b.Valid) {x : ℚ} (hx : x ≤ b.maxConsumption) :
    b.charge + x * b.efficiency ≤ b.maxCapacity := by
  have : x * b.efficiency ≤ min b.maxCharge (b.maxCapacity - b.charge) := by
    rw [← le_div_iff₀ h.eff_pos]; exact hx
  linarith [min_le_right b.maxCharge (b.maxCapacity - b.charge)]

theorem Valid.update_source {b : Battery} (h : b.Valid) {x : ℚ} (h₀ : 0 ≤ x)
    (hx : x ≤ b.maxProduction) :
    b.update (some x) .source = (b.withCharge (b.charge - x / b.efficiency),
      .ok { reward := -(b.costCycle * (x / b.efficiency)), done := false,
            info := { provided := some x } }) := by
  have hd : b.modelTransition (-1 * x) = -(x / b.efficiency) := by
    simp only [modelTransition, h.transition, defaultTransition]
    split
    · ring
    · have : x = 0 := by linarith
      simp [this]
  have hn : 0 ≤ x / b.efficiency := div_nonneg h₀ h.eff_pos.le
  have hlow := h.discharge_low hx
  have e : b.charge + -(x / b.efficiency) = b.charge - x / b.efficiency := by ring
  simp only [update, hd, updateState, e, getCost, abs_neg, abs_of_nonneg hn]
  rw [if_neg (by simpa using hn), if_neg (not_lt.mpr hlow)]
  refine Prod.ext rfl (congrArg Except.ok ?_)
  simp only [UpdateOut.mk.injEq, and_true]
  ring

theorem Valid.update_sink {b : Battery} (h : b.Valid) {x : ℚ} (h₀ : 0 ≤ x) :
    b.update (some x) .sink = (b.withCharge (b.charge + x * b.efficiency),
      .ok { reward := -(b.costCycle * (x * b.efficiency)), done := false,
            info := { absorbed := some x } }) := by
  have hd : b.modelTransition x = x * b.efficiency := by
    simp only [modelTransition, h.transition, defaultTransition]
    rw [if_neg (by linarith)]
  have hn : 0 ≤ x * b.efficiency := mul_nonneg h₀ h.eff_pos.le
  have hlow := h.low
  simp only [update, hd, updateState, getCost, abs_of_nonneg hn]
  rw [if_neg (by simpa using hn), if_neg (not_lt.mpr (by linarith))]
  refine Prod.ext rfl (congrArg Except.ok ?_)
  simp only [UpdateOut.mk.injEq, and_true]
  ring

end Battery

namespace Module

/-- A battery module in a valid state. -/
structure BattWF (m : Module) (b : Battery) : Prop where
  kind : m.kind = .battery b
  valid : b.Valid
  ffc : m.ffc = .controllable
  prov : m.provName = some (.str "discharge_amount")
  abs : m.absName = some (.str "charge_amount")
  dim : m.obsSpace.dim = 2

/-- What a successful battery step does: `x` units flow out of (`source`) or into (`sink`) the
    battery. -/
structure BattStep (m : Module) (b : Battery) (d : Dir) (x : ℚ) (m' : Module) (o : StepOut) : Prop where
  kind : m'.kind = .battery (b.withCharge (b.chargeAfter d x))
  wf : m'.BattWF (b.withCharge (b.chargeAfter d x))
  step : m'.currentStep = m.currentStep + 1
  init : m'.initialStep = m.initialStep
  raise : m'.raiseErrors = m.raiseErrors
  space : m'.actSpace = m.actSpace
  nonneg : 0 ≤ x
  bound : x ≤ b.limit d
  provided : o.info.provided = d.out x
  absorbed : o.info.absorbed = d.into x
  extra : o.info.extra = []
  reward : o.reward = -(b.costCycle * b.moved d x)
  done : o.done = false

theorem BattWF.updateStep {m : Module} {b : Battery} (h : m.BattWF b) (r : Bool) :
    m.updateStep r =
      ({ m with currentStep := if r then m.initialStep else m.currentStep + 1 }, .ok ()) := by
  unfold Module.updateStep refresh
  simp [h.kind]

theorem BattWF.after {m : Module} {b : Battery} (h : m.BattWF b) {q x : ℚ} {d : Dir} {c : ℚ}
    {rw : ℚ} {inf : Info}
    (hu : m.unnormalizedStep q = ({ m with kind := .battery (b.withCharge c) },
      .ok { reward := rw, done := false, info := inf }))
    (hc : c = b.chargeAfter d x)
    (h₁ : b.minCapacity ≤ c) (h₂ : c ≤ b.maxCapacity) (h₀ : 0 ≤ x)
    (hb : x ≤ b.limit d)
    (hp : inf.provided = d.out x)
    (ha : inf.absorbed = d.into x)
    (hx : inf.extra = [])
    (hr : rw = -(b.costCycle * b.moved d x)) :
    ∃ m' o, m.stepEnergy q = (m', .ok o) ∧ m.BattStep b d x m' o := by
  have hs : m.stateDict = .ok b.stateDict := by simp [stateDict, h.kind]
  obtain ⟨row, hrow⟩ := logRow_ok { m with kind := .battery (b.withCharge c) } b.stateDict
    { reward := rw, done := false, info := inf } (by simp [h.prov]) (by simp [h.abs])
  let m₂ : Module := { m with kind := .battery (b.withCharge c), logger := m.logger.log row }
  have wf₂ : m₂.BattWF (b.withCharge c) := ⟨rfl, h.valid.withCharge h₁ h₂, h.ffc, h.prov, h.abs, h.dim⟩
  let m₃ : Module := { m₂ with currentStep := m.currentStep + 1 }
  have wf₃ : m₃.BattWF (b.withCharge c) := ⟨rfl, h.valid.withCharge h₁ h₂, h.ffc, h.prov, h.abs, h.dim⟩
  obtain ⟨obs, hobs⟩ := m₃.normalizedObs_ok (b.withCharge c).stateDict (by simp [stateDict, wf₃.kind])
    (by rw [wf₃.dim]; rfl)
  refine ⟨m₃, _, stepEnergy_of m _ m₃ q _ row _ obs hs hu hrow (wf₂.updateStep false) hobs, ?_⟩
  subst hc
  exact ⟨rfl, wf₃, rfl, rfl, rfl, rfl, h₀, hb, hp, ha, hx, hr, rfl⟩

/-- Complete description of a battery step for an energy request. -/
theorem BattWF.stepEnergy {m : Module} {b : Battery} (h : m.BattWF b) (q : ℚ) :
    if 0 ≤ q then
      if m.raiseErrors = true ∧ b.maxProduction < q then m.stepEnergy q = (m, .error .value)
      else ∃ m' o, m.stepEnergy q = (m', .ok o) ∧ m.BattStep b .source (min q b.maxProduction) m' o
    else
      if m.raiseErrors = true ∧ b.maxConsumption < -q then m.stepEnergy q = (m, .error .value)
      else ∃ m' o, m.stepEnergy q = (m', .ok o) ∧ m.BattStep b .sink (min (-q) b.maxConsumption) m' o := by
  have hs : m.stateDict = .ok b.stateDict := by simp [stateDict, h.kind]
  have hmp : m.maxProduction = .ok (.fin b.maxProduction) := by simp [maxProduction, h.kind]
  have hmc : m.maxConsumption = .ok (.fin b.maxConsumption) := by simp [maxConsumption, h.kind]
  have hmin : m.minProduction = 0 := by simp [minProduction, h.kind]
  have hsrc : m.isSource = true := by simp [isSource, h.kind]
  have hP := h.valid.maxProduction_nonneg
  have hC := h.valid.maxConsumption_nonneg
  split
  · rename_i hq
    have hun : m.unnormalizedStep q = m.asSource q := by
      unfold unnormalizedStep
      by_cases h0 : q > 0
      · simp [h0]
      · simp [h0, not_lt.mpr hq, hsrc]
    have hcap : ∀ x, 0 ≤ x → x ≤ b.maxProduction →
        m.update (some x) .source = ({ m with kind := .battery (b.withCharge (b.charge - x / b.efficiency)) },
          .ok { reward := -(b.costCycle * (x / b.efficiency)), done := false, info := { provided := some x } }) := by
      intro x h₀ hx
      simp only [update, h.kind, h.valid.update_source h₀ hx]
    have hfin : ∀ x, 0 ≤ x → x ≤ b.maxProduction → m.asSource q = m.update (some x) .source →
        ∃ m' o, m.stepEnergy q = (m', .ok o) ∧ m.BattStep b .source x m' o := by
      intro x h₀ hx he
      refine h.after (d := .source) (x := x) (hun.trans (he.trans (hcap x h₀ hx))) rfl
        (h.valid.discharge_low hx) ?_ h₀ hx rfl rfl rfl rfl
      have := div_nonneg h₀ h.valid.eff_pos.le
      linarith [h.valid.high]
    by_cases hgt : b.maxProduction < q
    · by_cases hr : m.raiseErrors = true
      · rw [if_pos ⟨hr, hgt⟩]
        unfold Module.stepEnergy
        simp [hs, hun, asSource, hq, hsrc, h.ffc, hmp, hgt, hr]
      · rw [if_neg (by simp [hr])]
        rw [min_eq_right hgt.le]
        refine hfin _ hP le_rfl ?_
        simp [asSource, hq, hsrc, h.ffc, hmp, hgt, hr]
    · rw [if_neg (fun hh => hgt hh.2)]
      rw [min_eq_left (not_lt.mp hgt)]
      refine hfin _ hq (not_lt.mp hgt) ?_
      simp [asSource, hq, hsrc, h.ffc, hmp, hgt, hmin, not_lt.mpr hq]
  · rename_i hq
    have hq' : q < 0 := not_le.mp hq
    have hnq : 0 ≤ -q := by linarith
    have hun : m.unnormalizedStep q = m.asSink (-q) := by
      unfold unnormalizedStep
      simp [hq', not_lt.mpr hq'.le]
    have hcap : ∀ x, 0 ≤ x →
        m.update (some x) .sink = ({ m with kind := .battery (b.withCharge (b.charge + x * b.efficiency)) },
          .ok { reward := -(b.costCycle * (x * b.efficiency)), done := false, info := { absorbed := some x } }) := by
      intro x h₀
      simp only [update, h.kind, h.valid.update_sink h₀]
    have hfin : ∀ x, 0 ≤ x → x ≤ b.maxConsumption → m.asSink (-q) = m.update (some x) .sink →
        ∃ m' o, m.stepEnergy q = (m', .ok o) ∧ m.BattStep b .sink x m' o := by
      intro x h₀ hx he
      refine h.after (d := .sink) (x := x) (hun.trans (he.trans (hcap x h₀))) rfl
        ?_ (h.valid.charge_high hx) h₀ hx rfl rfl rfl rfl
      have := mul_nonneg h₀ h.valid.eff_pos.le
      linarith [h.valid.low]
    by_cases hgt : b.maxConsumption < -q
    · by_cases hr : m.raiseErrors = true
      · rw [if_pos ⟨hr, hgt⟩]
        unfold Module.stepEnergy
        simp [hs, hun, asSink, hq'.le, h.ffc, hmc, hgt, hr]
      · rw [if_neg (by simp [hr])]
        rw [min_eq_right hgt.le]
        refine hfin _ hC le_rfl ?_
        simp [asSink, hq'.le, h.ffc, hmc, hgt, hr, hC]
    · rw [if_neg (fun hh => hgt hh.2)]
      rw [min_eq_left (not_lt.mp hgt)]
      refine hfin _ hnq (not_lt.mp hgt) ?_
      simp [asSink, hq'.le, h.ffc, hmc, hgt]

theorem BattWF.step_eq {m : Module} {b : Battery} (h : m.BattWF b) (a : Act) (n : Bool) :
    m.step a n = match m.request a n with
      | .error e => (m, .error e)
      | .ok q => m.stepEnergy q := by
  rw [step_eq_baseStep m a n (by intro g; simp [h.kind]), baseStep_eq]
  cases m.request a n <;> rfl

/-- Every battery step either raises without any effect or exchanges some energy. -/
theorem BattWF.step_cases {m : Module} {b : Battery} (h : m.BattWF b) (a : Act) (n : Bool) :
    (∃ e, m.step a n = (m, .error e)) ∨
      ∃ d x m' o, m.step a n = (m', .ok o) ∧ m.BattStep b d x m' o := by
  rw [h.step_eq]
  cases m.request a n with
  | error e => exact .inl ⟨e, rfl⟩
  | ok q =>
    have := h.stepEnergy q
    simp only
    split at this
    · split at this
      · exact .inl ⟨_, this⟩
      · obtain ⟨m', o, h1, h2⟩ := this; exact .inr ⟨_, _, m', o, h1, h2⟩
    · split at this
      · exact .inl ⟨_, this⟩
      · obtain ⟨m', o, h1, h2⟩ := this; exact .inr ⟨_, _, m', o, h1, h2⟩

theorem BattWF.reset {m : Module} {b : Battery} (h : m.BattWF b) :
    ∃ m' obs, m.reset = (m', .ok obs) ∧ m'.BattWF b ∧ m'.currentStep = m.initialStep ∧
      m'.initialStep = m.initialStep ∧ m'.raiseErrors = m.raiseErrors ∧ m'.actSpace = m.actSpace ∧
      m'.logger = {} := by
  let m' : Module := { m with currentStep := m.initialStep, logger := {} }
  have wf : m'.BattWF b := ⟨h.kind, h.valid, h.ffc, h.prov, h.abs, h.dim⟩
  obtain ⟨obs, hobs⟩ := m'.normalizedObs_ok b.stateDict (by simp [stateDict, wf.kind])
    (by rw [wf.dim]; rfl)
  refine ⟨m', obs, ?_, wf, rfl, rfl, rfl, rfl, rfl⟩
  unfold Module.reset
  rw [h.updateStep]
  simp only [Logger.flush]
  exact Prod.ext rfl hobs

/-- Shape of a battery built by the constructor with the default transition model. -/
theorem mkBattery_inv {minC maxC maxCh maxDis eff cost : ℚ} {tr : Option (ℚ → TransitionArgs → ℚ)}
    {c s : Option ℚ} {i : Nat} {r : Bool}
    {m : Module} (hm : mkBattery minC maxC maxCh maxDis eff cost tr c s i r = .ok m) :
    ∃ b : Battery, m.kind = .battery b ∧ 0 < eff ∧ eff ≤ 1 ∧ maxC ≠ 0 ∧
      b.minCapacity = minC ∧ b.maxCapacity = maxC ∧ b.maxCharge = maxCh ∧ b.maxDischarge = maxDis ∧
      b.efficiency = eff ∧ b.costCycle = cost ∧ b.transition = tr ∧ b.minSoc = minC / maxC ∧
      b.soc = b.charge / maxC ∧ (match c with | some c => b.charge = c | none => ∃ s', s = some s' ∧ b.charge = s' * maxC) ∧
      m.ffc = .controllable ∧ m.provName = some (.str "discharge_amount") ∧ m.absName = some (.str "charge_amount") ∧ m.obsSpace.dim = 2 ∧
      m.initialStep = i ∧ m.currentStep = i ∧ m.raiseErrors = r ∧ m.logger = {} ∧
      m.actSpace = some ⟨[-maxDis / eff], [maxCh * eff]⟩ := by
  unfold mkBattery Battery.init at hm
  by_cases he : 0 < eff ∧ eff ≤ 1
  · by_cases hz : maxC = 0
    · simp [he, hz] at hm
    · cases c with
      | some c =>
        simp only [he, hz, Battery.initBattery] at hm
        simp only [and_self, not_true, if_false, Except.ok.injEq] at hm
        subst hm
        exact ⟨_, rfl, he.1, he.2, hz, rfl, rfl, rfl, rfl, rfl, rfl, rfl, rfl, rfl, rfl, rfl,
          by simp, by simp, rfl, rfl, rfl, rfl, rfl, rfl⟩
      | none =>
        cases s with
        | none => simp [he, hz, Battery.initBattery] at hm
        | some s =>
          simp only [he, hz, Battery.initBattery] at hm
          simp only [and_self, not_true, if_false, Except.ok.injEq] at hm
          subst hm
          exact ⟨_, rfl, he.1, he.2, hz, rfl, rfl, rfl, rfl, rfl, rfl, rfl, rfl, by field_simp, ⟨s, rfl, rfl⟩, rfl,
            by simp, by simp, rfl, rfl, rfl, rfl, rfl, rfl⟩
  · rw [if_pos he] at hm
    simp at hm

end Module

end Pymgrid
