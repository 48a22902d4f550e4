import Verif.Lemmas.Battery
import Verif.Spec.CustomBattery

/-! Batteries with a transition model of the user. -/

set_option autoImplicit false

namespace Pymgrid

open Module

section
variable {minC maxC maxCh maxDis eff cost : ℚ} {f : ℚ → TransitionArgs → ℚ} {c s : Option ℚ} {i : Nat} {r : Bool} {m : Module}
  {b : Battery}

/-- States reachable from the constructor by anything. -/
structure CustomAt (minC maxC maxCh maxDis eff cost : ℚ) (f : ℚ → TransitionArgs → ℚ) (r : Bool) (m : Module) (b : Battery) :
    Prop where
  pos : 0 < eff
  cap : maxC ≠ 0
  kind : m.kind = .battery b
  tr : b.transition = some f
  minC : b.minCapacity = minC
  maxC : b.maxCapacity = maxC
  maxCh : b.maxCharge = maxCh
  maxDis : b.maxDischarge = maxDis
  eff : b.efficiency = eff
  cost : b.costCycle = cost
  ffc : m.ffc = .controllable
  prov : m.provName = some (.str "discharge_amount")
  abs : m.absName = some (.str "charge_amount")
  dim : m.obsSpace.dim = 2
  raise : m.raiseErrors = r

theorem CustomAt.start (hm : mkBattery minC maxC maxCh maxDis eff cost (some f) c s i r = .ok m) :
    ∃ b, CustomAt minC maxC maxCh maxDis eff cost f r m b ∧ b.soc = b.charge / maxC := by
  obtain ⟨b, hk, h1, h2, h3, h4, h5, h6, h7, h8, h9, h10, h11, h12, -, h14, h15, h16, h17, h18, -, h20, -, h22⟩ :=
    mkBattery_inv hm
  exact ⟨b, ⟨h1, h3, hk, h10, h4, h5, h6, h7, h8, h9, h14, h15, h16, h17, h20⟩, h12⟩

theorem CustomAt.charge (h : CustomAt minC maxC maxCh maxDis eff cost f r m b) : m.charge? = some b.charge := by
  simp [charge?, h.kind]

theorem CustomAt.soc (h : CustomAt minC maxC maxCh maxDis eff cost f r m b) : m.soc? = some b.soc := by
  simp [soc?, h.kind]

theorem CustomAt.args (h : CustomAt minC maxC maxCh maxDis eff cost f r m b) :
    b.transitionArgs = documentedArgs minC maxC maxCh maxDis eff cost b.charge b.soc := by
  simp only [Battery.transitionArgs, documentedArgs, Battery.maxProduction, Battery.maxConsumption, h.minC, h.maxC, h.maxCh,
    h.maxDis, h.eff, h.cost, mul_comm]

theorem CustomAt.transition (h : CustomAt minC maxC maxCh maxDis eff cost f r m b) (x : ℚ) :
    b.modelTransition x = f x (documentedArgs minC maxC maxCh maxDis eff cost b.charge b.soc) := by
  rw [← h.args, Battery.modelTransition, h.tr]

theorem CustomAt.production (h : CustomAt minC maxC maxCh maxDis eff cost f r m b) :
    b.maxProduction = eff * min maxDis (b.charge - minC) := by
  rw [Battery.maxProduction, h.maxDis, h.minC, h.eff, mul_comm]

theorem CustomAt.consumption (h : CustomAt minC maxC maxCh maxDis eff cost f r m b) :
    b.maxConsumption = min maxCh (maxC - b.charge) / eff := by
  rw [Battery.maxConsumption, h.maxCh, h.maxC, h.eff]

/-- Anything that keeps the parameters. -/
theorem CustomAt.keep (h : CustomAt minC maxC maxCh maxDis eff cost f r m b) {m' : Module} {b' : Battery}
    (hk : m'.kind = .battery b') (hb : b' = { b with charge := b'.charge, soc := b'.soc })
    (hf : m'.ffc = m.ffc) (hp : m'.provName = m.provName) (ha : m'.absName = m.absName) (hd : m'.obsSpace = m.obsSpace)
    (hr : m'.raiseErrors = m.raiseErrors) : CustomAt minC maxC maxCh maxDis eff cost f r m' b' := by
  refine ⟨h.pos, h.cap, hk, ?_, ?_, ?_, ?_, ?_, ?_, ?_, hf.trans h.ffc, hp.trans h.prov, ha.trans h.abs, hd ▸ h.dim, hr.trans h.raise⟩ <;>
    rw [hb]
  exacts [h.tr, h.minC, h.maxC, h.maxCh, h.maxDis, h.eff, h.cost]

/-- The request within the limits. -/
theorem CustomAt.unnormalized (h : CustomAt minC maxC maxCh maxDis eff cost f r m b) (q : ℚ) :
    m.unnormalizedStep q =
      if 0 ≤ q then
        if r = true ∧ b.maxProduction < q then (m, .error .value) else m.update (some (min q b.maxProduction)) .source
      else
        if r = true ∧ b.maxConsumption < -q then (m, .error .value)
        else if min (-q) b.maxConsumption < 0 then (m, .error .assertion)
        else m.update (some (min (-q) b.maxConsumption)) .sink := by
  have hmp : m.maxProduction = .ok (.fin b.maxProduction) := by simp [maxProduction, h.kind]
  have hmc : m.maxConsumption = .ok (.fin b.maxConsumption) := by simp [maxConsumption, h.kind]
  have hmin : m.minProduction = 0 := by simp [minProduction, h.kind]
  have hsrc : m.isSource = true := by simp [isSource, h.kind]
  have hr := h.raise
  by_cases hq : 0 ≤ q
  · have hun : m.unnormalizedStep q = m.asSource q := by
      unfold unnormalizedStep
      by_cases h0 : q > 0
      · simp [h0]
      · simp [h0, not_lt.mpr hq, hsrc]
    rw [hun, if_pos hq]
    by_cases hgt : b.maxProduction < q
    · cases r <;> simp [asSource, hq, hsrc, h.ffc, hmp, hgt, hr, min_eq_right hgt.le]
    · simp [asSource, hq, hsrc, h.ffc, hmp, hgt, hmin, not_lt.mpr hq, min_eq_left (not_lt.mp hgt)]
  · have hq' : q < 0 := not_le.mp hq
    have hun : m.unnormalizedStep q = m.asSink (-q) := by
      unfold unnormalizedStep
      simp [hq', not_lt.mpr hq'.le]
    rw [hun, if_neg hq]
    by_cases hgt : b.maxConsumption < -q
    · cases r
      · by_cases h0 : b.maxConsumption < 0
        · simp [asSink, hq'.le, h.ffc, hmc, hgt, hr, min_eq_right hgt.le, h0]
        · simp [asSink, hq'.le, h.ffc, hmc, hgt, hr, min_eq_right hgt.le, h0]
      · simp [asSink, hq'.le, h.ffc, hmc, hgt, hr]
    · have : ¬ -q < 0 := by linarith
      simp [asSink, hq'.le, h.ffc, hmc, hgt, min_eq_left (not_lt.mp hgt), this]

theorem CustomAt.updateStep (h : CustomAt minC maxC maxCh maxDis eff cost f r m b) (rs : Bool) :
    m.updateStep rs = ({ m with currentStep := if rs then m.initialStep else m.currentStep + 1 }, .ok ()) := by
  unfold Module.updateStep refresh
  simp [h.kind]

/-- Once the update has succeeded, so does the step. -/
theorem CustomAt.stepEnergy_ok (h : CustomAt minC maxC maxCh maxDis eff cost f r m b) {q : ℚ} {b' : Battery} {u : UpdateOut}
    (hb : b' = { b with charge := b'.charge, soc := b'.soc })
    (hu : m.unnormalizedStep q = ({ m with kind := .battery b' }, .ok u)) :
    ∃ m' o, m.stepEnergy q = (m', .ok o) ∧ CustomAt minC maxC maxCh maxDis eff cost f r m' b' ∧
      o.info = u.info ∧ o.reward = u.reward ∧ o.done = u.done := by
  have hs : m.stateDict = .ok b.stateDict := by simp [stateDict, h.kind]
  obtain ⟨row, hrow⟩ := logRow_ok { m with kind := .battery b' } b.stateDict u (by simp [h.prov]) (by simp [h.abs])
  let m₂ : Module := { m with kind := .battery b', logger := m.logger.log row }
  have wf₂ : CustomAt minC maxC maxCh maxDis eff cost f r m₂ b' := h.keep rfl hb rfl rfl rfl rfl rfl
  let m₃ : Module := { m₂ with currentStep := m.currentStep + 1 }
  have wf₃ : CustomAt minC maxC maxCh maxDis eff cost f r m₃ b' := wf₂.keep rfl rfl rfl rfl rfl rfl rfl
  obtain ⟨obs, hobs⟩ := m₃.normalizedObs_ok b'.stateDict (by simp [stateDict, wf₃.kind]) (by rw [wf₃.dim]; rfl)
  exact ⟨m₃, _, stepEnergy_of m _ m₃ q _ row _ obs hs hu hrow (wf₂.updateStep false) hobs, wf₃, rfl, rfl, rfl⟩

/-- A failing update is a failing step. -/
theorem CustomAt.stepEnergy_error (h : CustomAt minC maxC maxCh maxDis eff cost f r m b) {q : ℚ} {m₁ : Module} {e : Err}
    (hu : m.unnormalizedStep q = (m₁, .error e)) : m.stepEnergy q = (m₁, .error e) := by
  have hs : m.stateDict = .ok b.stateDict := by simp [stateDict, h.kind]
  unfold Module.stepEnergy
  simp [hs, hu]

theorem CustomAt.step_eq (h : CustomAt minC maxC maxCh maxDis eff cost f r m b) (a : Act) (n : Bool) :
    m.step a n = match m.request a n with
      | .error e => (m, .error e)
      | .ok q => m.stepEnergy q := by
  rw [step_eq_baseStep m a n (by intro g; simp [h.kind]), baseStep_eq]
  cases m.request a n <;> rfl

/-- What the update of the state does. -/
theorem updateState_cases (b : Battery) (de : ℚ) :
    (∃ c, Landed b.minCapacity b.charge de c ∧ b.updateState de = (b.withCharge c, .ok ())) ∨
      (b.charge + de < b.minCapacity ∧ 1/100000000 + 1/100000 * |b.minCapacity| < b.minCapacity - (b.charge + de) ∧
        b.updateState de = ({ b with charge := b.charge + de }, .error .assertion)) := by
  by_cases hl : b.charge + de < b.minCapacity
  · have ha : |b.charge + de - b.minCapacity| = b.minCapacity - (b.charge + de) := by
      rw [abs_of_neg (by linarith)]; ring
    by_cases hc : isclose (b.charge + de) b.minCapacity = true
    · refine .inl ⟨_, .snapped hl ?_, by simp [Battery.updateState, hl, hc, Battery.withCharge]⟩
      simpa only [isclose, decide_eq_true_eq, ha] using hc
    · refine .inr ⟨hl, ?_, by simp [Battery.updateState, hl, hc]⟩
      simpa only [isclose, decide_eq_true_eq, ha, not_le] using hc
  · exact .inl ⟨_, .inside (not_lt.mp hl), by simp [Battery.updateState, hl, Battery.withCharge]⟩

theorem Landed.unique {mn ch de x y : ℚ} (h : Landed mn ch de x) (h' : Landed mn ch de y) : x = y := by
  cases h <;> cases h' <;> first | rfl | linarith

/-- The sign that the internal change must have. -/
def Dir.signed (d : Dir) (x : ℚ) : ℚ :=
  match d with
  | .source => -x
  | .sink => x

/-- The update for an amount of energy. -/
theorem CustomAt.update (h : CustomAt minC maxC maxCh maxDis eff cost f r m b) (d : Dir) (x : ℚ) {de : ℚ}
    (hde : f (d.signed x) (documentedArgs minC maxC maxCh maxDis eff cost b.charge b.soc) = de) :
    (d.signed de < 0 ∧ m.update (some x) d = (m, .error .assertion)) ∨
    (0 ≤ d.signed de ∧ ∃ c, Landed minC b.charge de c ∧ m.update (some x) d = ({ m with kind := .battery (b.withCharge c) },
      .ok { reward := -cost * |de|, done := false, info := { provided := d.out x, absorbed := d.into x } })) ∨
    (0 ≤ d.signed de ∧ b.charge + de < minC ∧ m.update (some x) d =
      ({ m with kind := .battery { b with charge := b.charge + de } }, .error .assertion)) := by
  have hm : m = { m with kind := .battery b } := by rw [← h.kind]
  have hc : -1 * b.getCost de = -cost * |de| := by rw [Battery.getCost, h.cost]; ring
  cases d with
  | source =>
    have ht : b.modelTransition (-x) = de := by rw [h.transition]; exact hde
    simp only [Dir.signed, Dir.out, Dir.into, neg_nonneg, neg_lt_zero]
    by_cases hs : de ≤ 0
    · rcases updateState_cases b de with ⟨c, hl, hu⟩ | ⟨hlow, -, hu⟩
      · refine .inr (.inl ⟨hs, c, h.minC ▸ hl, ?_⟩)
        simp [Module.update, h.kind, Battery.update, ht, not_lt.mpr hs, hu, ← hc]
      · refine .inr (.inr ⟨hs, h.minC ▸ hlow, ?_⟩)
        simp [Module.update, h.kind, Battery.update, ht, not_lt.mpr hs, hu]
    · refine .inl ⟨not_le.mp hs, ?_⟩
      have : m.update (some x) .source = ({ m with kind := .battery b }, .error .assertion) := by
        simp [Module.update, h.kind, Battery.update, ht, not_le.mp hs]
      rw [this, ← hm]
  | sink =>
    have ht : b.modelTransition x = de := by rw [h.transition]; exact hde
    simp only [Dir.signed, Dir.out, Dir.into]
    by_cases hs : 0 ≤ de
    · rcases updateState_cases b de with ⟨c, hl, hu⟩ | ⟨hlow, -, hu⟩
      · refine .inr (.inl ⟨hs, c, h.minC ▸ hl, ?_⟩)
        simp [Module.update, h.kind, Battery.update, ht, hs, hu, ← hc]
      · refine .inr (.inr ⟨hs, h.minC ▸ hlow, ?_⟩)
        simp [Module.update, h.kind, Battery.update, ht, hs, hu]
    · refine .inl ⟨not_le.mp hs, ?_⟩
      have : m.update (some x) .sink = ({ m with kind := .battery b }, .error .assertion) := by
        simp [Module.update, h.kind, Battery.update, ht, hs]
      rw [this, ← hm]

/-- What a step can do: fail without effect, fail with the charge moved below the minimum, or move the charge as the model says. -/
inductive CustomStep (minC maxC maxCh maxDis eff cost : ℚ) (f : ℚ → TransitionArgs → ℚ) (r : Bool) (m : Module) (b : Battery)
    (q : ℚ) : Module → Except Err StepOut → Prop
  | refused (e : Err) (why : (r = true ∧ if 0 ≤ q then b.maxProduction < q else b.maxConsumption < -q) ∨
      (q < 0 ∧ min (-q) b.maxConsumption < 0) ∨
      ∃ (d : Dir) (x : ℚ), (d = .source ∧ 0 ≤ q ∧ x = min q b.maxProduction ∨ d = .sink ∧ q < 0 ∧ x = min (-q) b.maxConsumption) ∧
        d.signed (f (d.signed x) (documentedArgs minC maxC maxCh maxDis eff cost b.charge b.soc)) < 0) :
      CustomStep minC maxC maxCh maxDis eff cost f r m b q m (.error e)
  | broke (d : Dir) (x de : ℚ)
      (ask : d = .source ∧ 0 ≤ q ∧ x = min q b.maxProduction ∨ d = .sink ∧ q < 0 ∧ x = min (-q) b.maxConsumption)
      (eq : f (d.signed x) (documentedArgs minC maxC maxCh maxDis eff cost b.charge b.soc) = de)
      (low : b.charge + de < minC) :
      CustomStep minC maxC maxCh maxDis eff cost f r m b q { m with kind := .battery { b with charge := b.charge + de } }
        (.error .assertion)
  | moved (d : Dir) (x de c : ℚ) (m' : Module) (o : StepOut)
      (free : ¬ (r = true ∧ if 0 ≤ q then b.maxProduction < q else b.maxConsumption < -q))
      (ask : d = .source ∧ 0 ≤ q ∧ x = min q b.maxProduction ∨ d = .sink ∧ q < 0 ∧ x = min (-q) b.maxConsumption ∧ 0 ≤ x)
      (eq : f (d.signed x) (documentedArgs minC maxC maxCh maxDis eff cost b.charge b.soc) = de)
      (sign : 0 ≤ d.signed de) (land : Landed minC b.charge de c)
      (next : CustomAt minC maxC maxCh maxDis eff cost f r m' (b.withCharge c))
      (provided : o.info.provided = d.out x) (absorbed : o.info.absorbed = d.into x) (reward : o.reward = -cost * |de|)
      (done : o.done = false) :
      CustomStep minC maxC maxCh maxDis eff cost f r m b q m' (.ok o)

theorem CustomAt.stepEnergy (h : CustomAt minC maxC maxCh maxDis eff cost f r m b) (q : ℚ) :
    CustomStep minC maxC maxCh maxDis eff cost f r m b q (m.stepEnergy q).1 (m.stepEnergy q).2 := by
  have hu := h.unnormalized q
  by_cases hq : 0 ≤ q
  · rw [if_pos hq] at hu
    by_cases hr : r = true ∧ b.maxProduction < q
    · rw [if_pos hr] at hu
      rw [h.stepEnergy_error hu]
      exact .refused _ (.inl ⟨hr.1, by rw [if_pos hq]; exact hr.2⟩)
    · rw [if_neg hr] at hu
      rcases h.update .source (min q b.maxProduction) rfl with ⟨hs, he⟩ | ⟨hs, c, hl, he⟩ | ⟨hs, hl, he⟩
      · rw [h.stepEnergy_error (hu.trans he)]
        exact .refused _ (.inr (.inr ⟨.source, _, .inl ⟨rfl, hq, rfl⟩, hs⟩))
      · obtain ⟨m', o, h1, h2, h3, h4, h5⟩ := h.stepEnergy_ok (b' := b.withCharge c) rfl (hu.trans he)
        rw [h1]
        exact .moved .source _ _ c m' o (by rw [if_pos hq]; exact hr) (.inl ⟨rfl, hq, rfl⟩) rfl hs hl h2 (by rw [h3]) (by rw [h3]) h4 h5
      · rw [h.stepEnergy_error (hu.trans he)]
        exact .broke .source _ _ (.inl ⟨rfl, hq, rfl⟩) rfl hl
  · rw [if_neg hq] at hu
    have hq' := not_le.mp hq
    by_cases hr : r = true ∧ b.maxConsumption < -q
    · rw [if_pos hr] at hu
      rw [h.stepEnergy_error hu]
      exact .refused _ (.inl ⟨hr.1, by rw [if_neg hq]; exact hr.2⟩)
    · rw [if_neg hr] at hu
      by_cases hn : min (-q) b.maxConsumption < 0
      · rw [if_pos hn] at hu
        rw [h.stepEnergy_error hu]
        exact .refused _ (.inr (.inl ⟨hq', hn⟩))
      rw [if_neg hn] at hu
      rcases h.update .sink (min (-q) b.maxConsumption) rfl with ⟨hs, he⟩ | ⟨hs, c, hl, he⟩ | ⟨hs, hl, he⟩
      · rw [h.stepEnergy_error (hu.trans he)]
        exact .refused _ (.inr (.inr ⟨.sink, _, .inr ⟨rfl, hq', rfl⟩, hs⟩))
      · obtain ⟨m', o, h1, h2, h3, h4, h5⟩ := h.stepEnergy_ok (b' := b.withCharge c) rfl (hu.trans he)
        rw [h1]
        exact .moved .sink _ _ c m' o (by rw [if_neg hq]; exact hr) (.inr ⟨rfl, hq', rfl, not_lt.mp hn⟩) rfl hs hl h2 (by rw [h3]) (by rw [h3]) h4 h5
      · rw [h.stepEnergy_error (hu.trans he)]
        exact .broke .sink _ _ (.inr ⟨rfl, hq', rfl⟩) rfl hl

theorem CustomAt.reset (h : CustomAt minC maxC maxCh maxDis eff cost f r m b) :
    CustomAt minC maxC maxCh maxDis eff cost f r m.reset.1 b := by
  unfold Module.reset
  rw [h.updateStep]
  exact h.keep h.kind rfl rfl rfl rfl rfl rfl

theorem CustomAt.op (h : CustomAt minC maxC maxCh maxDis eff cost f r m b) (op : MOp) :
    ∃ b', CustomAt minC maxC maxCh maxDis eff cost f r (op.apply m) b' := by
  cases op with
  | step a n =>
    simp only [MOp.apply, h.step_eq]
    cases m.request a n with
    | error e => exact ⟨b, h⟩
    | ok q =>
      have hc := h.stepEnergy q
      simp only
      generalize (m.stepEnergy q).1 = m', (m.stepEnergy q).2 = res at hc
      cases hc with
      | refused => exact ⟨b, h⟩
      | broke => exact ⟨_, h.keep rfl rfl rfl rfl rfl rfl rfl⟩
      | moved => exact ⟨_, ‹_›⟩
  | reset => exact ⟨b, h.reset⟩
  | setSoc v =>
    simp only [MOp.apply, assign, h.kind]
    exact ⟨_, h.keep rfl rfl rfl rfl rfl rfl rfl⟩
  | setCharge v =>
    simp only [MOp.apply, assign, h.kind]
    refine ⟨_, h.keep rfl ?_ rfl rfl rfl rfl rfl⟩
    simp only [Battery.setCharge, Battery.initBattery]
    split <;> rfl

theorem CustomAt.ops (h : CustomAt minC maxC maxCh maxDis eff cost f r m b) (ops : List MOp) :
    ∃ b', CustomAt minC maxC maxCh maxDis eff cost f r (runOps m ops) b' := by
  induction ops generalizing m b with
  | nil => exact ⟨b, h⟩
  | cons op ops ih =>
    obtain ⟨b', h'⟩ := h.op op
    exact ih h'

/-- A sound model keeps the charge in its window. -/
theorem CustomAt.window_op (hf : SoundModel minC maxC maxCh maxDis eff cost f) (hch : 0 ≤ maxCh) (hdis : 0 ≤ maxDis)
    (h : CustomAt minC maxC maxCh maxDis eff cost f r m b) (hlo : minC ≤ b.charge) (hhi : b.charge ≤ maxC)
    (hs : b.soc = b.charge / maxC) (op : MOp) (hop : op.isCall) :
    ∃ b', CustomAt minC maxC maxCh maxDis eff cost f r (op.apply m) b' ∧ minC ≤ b'.charge ∧ b'.charge ≤ maxC ∧
      b'.soc = b'.charge / maxC := by
  have hP : 0 ≤ b.maxProduction := by
    rw [h.production]; exact mul_nonneg h.pos.le (le_min hdis (by linarith))
  have hC : 0 ≤ b.maxConsumption := by
    rw [h.consumption]; exact div_nonneg (le_min hch (by linarith)) h.pos.le
  have key : ∀ (d : Dir) (x q de : ℚ), (d = .source ∧ 0 ≤ q ∧ x = min q b.maxProduction ∨ d = .sink ∧ q < 0 ∧ x = min (-q) b.maxConsumption) →
      f (d.signed x) (documentedArgs minC maxC maxCh maxDis eff cost b.charge b.soc) = de →
      minC ≤ b.charge + de ∧ b.charge + de ≤ maxC := by
    rintro d x q de (⟨rfl, hq, rfl⟩ | ⟨rfl, hq, rfl⟩) rfl
    · have hh := hf.discharge b.charge (min q b.maxProduction) hlo hhi (le_min hq hP)
        (le_trans (min_le_right _ _) (le_of_eq h.production))
      rw [← hs] at hh
      exact ⟨hh.2, by simp only [Dir.signed]; linarith [hh.1]⟩
    · have hh := hf.charge b.charge (min (-q) b.maxConsumption) hlo hhi (le_min (by linarith) hC)
        (le_trans (min_le_right _ _) (le_of_eq h.consumption))
      rw [← hs] at hh
      exact ⟨by simp only [Dir.signed]; linarith [hh.1], hh.2⟩
  cases op with
  | step a n =>
    simp only [MOp.apply, h.step_eq]
    cases m.request a n with
    | error e => exact ⟨b, h, hlo, hhi, hs⟩
    | ok q =>
      have hc := h.stepEnergy q
      simp only
      generalize (m.stepEnergy q).1 = m', (m.stepEnergy q).2 = res at hc
      cases hc with
      | refused => exact ⟨b, h, hlo, hhi, hs⟩
      | broke d x de ask eq low => exact absurd (key d x q de ask eq).1 (not_le.mpr low)
      | moved d x de c m' o free ask eq sign land next =>
        have hk := key d x q de (ask.imp id fun ⟨h1, h2, h3, _⟩ => ⟨h1, h2, h3⟩) eq
        cases land with
        | inside hin => exact ⟨_, next, hk.1, hk.2, by simp [Battery.withCharge, h.maxC]⟩
        | snapped hl => exact absurd hk.1 (not_le.mpr hl)
  | reset => exact ⟨b, h.reset, hlo, hhi, hs⟩
  | setSoc v => simp [MOp.isCall] at hop
  | setCharge v => simp [MOp.isCall] at hop

theorem CustomAt.window (hf : SoundModel minC maxC maxCh maxDis eff cost f) (hch : 0 ≤ maxCh) (hdis : 0 ≤ maxDis)
    (h : CustomAt minC maxC maxCh maxDis eff cost f r m b) (hlo : minC ≤ b.charge) (hhi : b.charge ≤ maxC)
    (hs : b.soc = b.charge / maxC) (ops : List MOp) (hops : ∀ op ∈ ops, op.isCall) :
    ∃ b', CustomAt minC maxC maxCh maxDis eff cost f r (runOps m ops) b' ∧ minC ≤ b'.charge ∧ b'.charge ≤ maxC ∧
      b'.soc = b'.charge / maxC := by
  induction ops generalizing m b with
  | nil => exact ⟨b, h, hlo, hhi, hs⟩
  | cons op ops ih =>
    obtain ⟨b', h', h1, h2, h3⟩ := h.window_op hf hch hdis hlo hhi hs op (hops op (by simp))
    exact ih h' h1 h2 h3 (fun o ho => hops o (by simp [ho]))

end

/-! ### The default model passed explicitly -/

/-- The same battery without its transition model. -/
def Battery.plain (b : Battery) : Battery := { b with transition := none }

/-- The same module without the transition model of the battery. -/
def Module.plain (m : Module) : Module :=
  match m.kind with
  | .battery b => { m with kind := .battery b.plain }
  | _ => m

/-- A battery whose model is the default one. -/
structure SameAsDefault (m : Module) (b : Battery) : Prop where
  kind : m.kind = .battery b
  tr : b.transition = some fun x A => if x < 0 then x / A.efficiency else x * A.efficiency

theorem SameAsDefault.model {m : Module} {b : Battery} (h : SameAsDefault m b) (x : ℚ) :
    b.plain.modelTransition x = b.modelTransition x := by
  simp [Battery.modelTransition, h.tr, Battery.plain, Battery.defaultTransition, Battery.transitionArgs]

theorem Battery.plain_updateState (b : Battery) (de : ℚ) :
    b.plain.updateState de = ((b.updateState de).1.plain, (b.updateState de).2) := by
  by_cases h : b.charge + de < b.minCapacity
  · cases h' : isclose (b.charge + de) b.minCapacity <;> simp [updateState, plain, h, h']
  · simp [updateState, plain, h]

theorem Battery.updateState_tr (b : Battery) (de : ℚ) : (b.updateState de).1.transition = b.transition := by
  simp only [updateState]
  split
  · split <;> rfl
  · rfl

theorem SameAsDefault.update_battery {m : Module} {b : Battery} (h : SameAsDefault m b) (e : Option ℚ) (d : Dir) :
    b.plain.update e d = ((b.update e d).1.plain, (b.update e d).2) ∧ (b.update e d).1.transition = b.transition := by
  cases e with
  | none => exact ⟨rfl, rfl⟩
  | some x =>
    cases d <;>
    · simp only [Battery.update, h.model, Battery.plain_updateState]
      have ht := Battery.updateState_tr b
      split
      · exact ⟨rfl, rfl⟩
      · generalize hg : b.updateState _ = out
        have := hg ▸ ht _
        obtain ⟨b', res⟩ := out
        cases res <;> exact ⟨rfl, this⟩

theorem SameAsDefault.plain {m : Module} {b : Battery} (h : SameAsDefault m b) :
    m.plain = { m with kind := .battery b.plain } := by
  simp [Module.plain, h.kind]

/-- The result of a call on the plain module, given the result on the other one. -/
def Module.Agrees {α : Type} (x x₀ : Module × α) : Prop := (∃ b, SameAsDefault x.1 b) ∧ x₀ = (x.1.plain, x.2)

theorem SameAsDefault.agrees {α : Type} {m : Module} {b : Battery} (h : SameAsDefault m b) (e : α) :
    Agrees (m, e) (m.plain, e) := ⟨⟨b, h⟩, rfl⟩

theorem SameAsDefault.update {m : Module} {b : Battery} (h : SameAsDefault m b) (e : Option ℚ) (d : Dir) :
    Agrees (m.update e d) (m.plain.update e d) := by
  obtain ⟨h1, h2⟩ := h.update_battery e d
  have e1 : m.update e d = ({ m with kind := .battery (b.update e d).1 }, (b.update e d).2) := by
    simp [Module.update, h.kind]
  have e2 : m.plain.update e d = ({ m with kind := .battery (b.plain.update e d).1 }, (b.plain.update e d).2) := by
    rw [h.plain]; simp [Module.update]
  rw [e1, e2, h1]
  exact ⟨⟨_, rfl, h2.trans h.tr⟩, by simp [Module.plain]⟩

theorem SameAsDefault.asSource {m : Module} {b : Battery} (h : SameAsDefault m b) (x : ℚ) :
    Agrees (m.asSource x) (m.plain.asSource x) := by
  have h1 : m.plain.isSource = m.isSource := by simp [h.plain, isSource, h.kind]
  have h2 : m.plain.ffc = m.ffc := by rw [h.plain]
  have h3 : m.plain.maxProduction = m.maxProduction := by simp [h.plain, maxProduction, h.kind, Battery.maxProduction, Battery.plain]
  have h4 : m.plain.minProduction = m.minProduction := by simp [h.plain, minProduction, h.kind]
  have h5 : m.plain.raiseErrors = m.raiseErrors := by rw [h.plain]
  unfold Module.asSource
  rw [h1, h2, h3, h4, h5]
  repeat' split
  all_goals first | exact h.agrees _ | exact h.update _ _

theorem SameAsDefault.asSink {m : Module} {b : Battery} (h : SameAsDefault m b) (x : ℚ) :
    Agrees (m.asSink x) (m.plain.asSink x) := by
  have h2 : m.plain.ffc = m.ffc := by rw [h.plain]
  have h3 : m.plain.maxConsumption = m.maxConsumption := by
    simp [h.plain, maxConsumption, h.kind, Battery.maxConsumption, Battery.plain]
  have h5 : m.plain.raiseErrors = m.raiseErrors := by rw [h.plain]
  unfold Module.asSink
  rw [h2, h3, h5]
  repeat' split
  all_goals first | exact h.agrees _ | exact h.update _ _

theorem SameAsDefault.unnormalized {m : Module} {b : Battery} (h : SameAsDefault m b) (x : ℚ) :
    Agrees (m.unnormalizedStep x) (m.plain.unnormalizedStep x) := by
  have h1 : m.plain.isSource = m.isSource := by simp [h.plain, isSource, h.kind]
  have h2 : m.plain.isSink = m.isSink := by simp [h.plain, isSink, h.kind]
  unfold Module.unnormalizedStep
  rw [h1, h2]
  repeat' split
  all_goals first | exact h.agrees _ | exact h.asSource _ | exact h.asSink _

theorem SameAsDefault.log {m : Module} {b : Battery} (h : SameAsDefault m b) (pre : List (Key × ℚ)) (u : UpdateOut) :
    Agrees (m.log pre u) (m.plain.log pre u) := by
  have h1 : m.plain.logRow pre u = m.logRow pre u := by rw [h.plain]; rfl
  unfold Module.log
  rw [h1]
  split
  · exact h.agrees _
  · exact ⟨⟨b, h.kind, h.tr⟩, by simp [Module.plain, h.kind]⟩

theorem SameAsDefault.updateStep {m : Module} {b : Battery} (h : SameAsDefault m b) (rs : Bool) :
    Agrees (m.updateStep rs) (m.plain.updateStep rs) := by
  have e : m.updateStep rs = ({ m with currentStep := if rs then m.initialStep else m.currentStep + 1 }, .ok ()) := by
    unfold Module.updateStep refresh
    simp [h.kind]
  rw [e, h.plain]
  refine ⟨⟨b, h.kind, h.tr⟩, ?_⟩
  unfold Module.updateStep refresh
  simp [Module.plain, h.kind]

theorem SameAsDefault.obs {m : Module} {b : Battery} (h : SameAsDefault m b) : m.plain.normalizedObs = m.normalizedObs := by
  simp [normalizedObs, state, stateDict, h.plain, h.kind, Battery.stateDict, Battery.plain]

theorem SameAsDefault.stepEnergy {m : Module} {b : Battery} (h : SameAsDefault m b) (q : ℚ) :
    Agrees (m.stepEnergy q) (m.plain.stepEnergy q) := by
  have h1 : m.plain.stateDict = m.stateDict := by simp [stateDict, h.plain, h.kind, Battery.stateDict, Battery.plain]
  unfold Module.stepEnergy
  rw [h1]
  split
  · exact h.agrees _
  · rename_i pre hpre
    obtain ⟨⟨b₁, hb₁⟩, hu⟩ := h.unnormalized q
    rw [hu]
    generalize m.unnormalizedStep q = out at hb₁
    obtain ⟨m₁, res⟩ := out
    cases res with
    | error e => exact hb₁.agrees _
    | ok u =>
      obtain ⟨⟨b₂, hb₂⟩, hl⟩ := hb₁.log pre u
      simp only
      rw [hl]
      generalize m₁.log pre u = out at hb₂
      obtain ⟨m₂, res⟩ := out
      cases res with
      | error e => exact hb₂.agrees _
      | ok _ =>
        obtain ⟨⟨b₃, hb₃⟩, hs⟩ := hb₂.updateStep false
        simp only
        rw [hs]
        generalize m₂.updateStep false = out at hb₃
        obtain ⟨m₃, res⟩ := out
        cases res with
        | error e => exact hb₃.agrees _
        | ok _ =>
          simp only
          rw [hb₃.obs]
          cases m₃.normalizedObs with
          | error e => exact hb₃.agrees _
          | ok o => exact hb₃.agrees _

theorem SameAsDefault.step {m : Module} {b : Battery} (h : SameAsDefault m b) (a : Act) (n : Bool) :
    Agrees (m.step a n) (m.plain.step a n) := by
  rw [step_eq_baseStep m a n (by intro g; simp [h.kind]), step_eq_baseStep m.plain a n (by intro g; simp [h.plain]), baseStep_eq,
    baseStep_eq]
  have : m.plain.request a n = m.request a n := by
    have h1 : m.plain.energyPos = m.energyPos := by simp [h.plain, energyPos, h.kind]
    have h2 : m.plain.actSpace = m.actSpace := by rw [h.plain]
    unfold request denormalizeAct
    rw [h1, h2]
  rw [this]
  cases m.request a n with
  | error e => exact h.agrees _
  | ok q => exact h.stepEnergy q

theorem SameAsDefault.op {m : Module} {b : Battery} (h : SameAsDefault m b) (op : MOp) :
    (∃ b', SameAsDefault (op.apply m) b') ∧ op.apply m.plain = (op.apply m).plain := by
  cases op with
  | step a n =>
    obtain ⟨h1, h2⟩ := h.step a n
    exact ⟨h1, by simp only [MOp.apply]; rw [h2]⟩
  | reset =>
    obtain ⟨⟨b', hb'⟩, h2⟩ := h.updateStep true
    simp only [MOp.apply, Module.reset]
    rw [h2]
    generalize m.updateStep true = out at hb'
    obtain ⟨m₁, res⟩ := out
    cases res with
    | error e => exact ⟨⟨_, hb'⟩, rfl⟩
    | ok _ =>
      have hk : m₁.kind = .battery b' := hb'.kind
      exact ⟨⟨b', hk, hb'.tr⟩, by simp [Module.plain, hk]⟩
  | setSoc v =>
    refine ⟨⟨(b.setSoc v).1, by simp [MOp.apply, assign, h.kind], ?_⟩, ?_⟩
    · rw [← h.tr]; rfl
    · simp [MOp.apply, assign, h.kind, Module.plain, Battery.setSoc, Battery.initBattery, Battery.plain]
  | setCharge v =>
    refine ⟨⟨(b.setCharge v).1, by simp [MOp.apply, assign, h.kind], ?_⟩, ?_⟩
    · rw [← h.tr]; simp only [Battery.setCharge, Battery.initBattery]; split <;> rfl
    · simp only [MOp.apply, assign, h.kind, Module.plain, Battery.setCharge, Battery.initBattery, Battery.plain]
      split <;> simp

theorem SameAsDefault.ops {m : Module} {b : Battery} (h : SameAsDefault m b) (ops : List MOp) :
    (∃ b', SameAsDefault (runOps m ops) b') ∧ runOps m.plain ops = (runOps m ops).plain ∧ outputs m.plain ops = outputs m ops := by
  induction ops generalizing m b with
  | nil => exact ⟨⟨b, h⟩, rfl, rfl⟩
  | cons op ops ih =>
    obtain ⟨⟨b', hb'⟩, h2⟩ := h.op op
    obtain ⟨h3, h4, h5⟩ := ih hb'
    refine ⟨h3, ?_, ?_⟩
    · simp only [runOps, List.foldl_cons] at h4 ⊢
      rw [h2, h4]
    · cases op with
      | step a n =>
        obtain ⟨-, hs⟩ := h.step a n
        simp only [outputs]
        rw [h2, h5, hs]
      | reset => simp only [outputs]; rw [h2, h5]
      | setSoc v => simp only [outputs]; rw [h2, h5]
      | setCharge v => simp only [outputs]; rw [h2, h5]

end Pymgrid
