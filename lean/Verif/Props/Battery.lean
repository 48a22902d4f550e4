import Verif.Lemmas.BatteryHist

/-!
# C01–C06, C50: batteries

A history is a list of `step`/`reset` calls with arbitrary arguments; failing calls are part of it.
`charge?` and `soc?` read the attributes `current_charge` and `soc`.
-/

namespace Pymgrid

open Module

section
variable {minC maxC maxCh maxDis eff cost : ℚ} {c s : Option ℚ} {i : Nat} {r : Bool} {m : Module}

/-- C01: the charge of a battery stays in `[min_capacity, max_capacity]` after every history. -/
theorem C01_charge_in_window (hm : mkBattery minC maxC maxCh maxDis eff cost none c s i r = .ok m)
    (hg : GoodBattery minC maxC maxCh maxDis m) (ops : List MOp) (hops : ∀ op ∈ ops, op.isCall) :
    ∃ q, (runOps m ops).charge? = some q ∧ minC ≤ q ∧ q ≤ maxC := by
  obtain ⟨b, h⟩ := BattAt.start hm hg
  obtain ⟨b', h'⟩ := h.ops ops hops
  exact ⟨_, h'.charge, by rw [← h'.minC]; exact h'.wf.valid.low, by rw [← h'.maxC]; exact h'.wf.valid.high⟩

/-- C02: over every history the change of the charge is `efficiency` times the energy reported
    absorbed minus the energy reported provided divided by `efficiency`. -/
theorem C02_energy_accounting (hm : mkBattery minC maxC maxCh maxDis eff cost none c s i r = .ok m)
    (hg : GoodBattery minC maxC maxCh maxDis m) (ops : List MOp) (hops : ∀ op ∈ ops, op.isCall) :
    ∃ q₀ q₁, m.charge? = some q₀ ∧ (runOps m ops).charge? = some q₁ ∧
      q₁ - q₀ = eff * totalAbsorbed (outputs m ops) - totalProvided (outputs m ops) / eff := by
  obtain ⟨b, h⟩ := BattAt.start hm hg
  obtain ⟨b', h', heq⟩ := h.account ops hops
  exact ⟨_, _, h.charge, h'.charge, heq⟩

/-- C03: no history extracts more than `efficiency²` times what it fed in plus `efficiency` times
    the usable initial charge. -/
theorem C03_no_free_energy (hm : mkBattery minC maxC maxCh maxDis eff cost none c s i r = .ok m)
    (hg : GoodBattery minC maxC maxCh maxDis m) (ops : List MOp) (hops : ∀ op ∈ ops, op.isCall) :
    ∃ q₀, m.charge? = some q₀ ∧
      totalProvided (outputs m ops) ≤ eff ^ 2 * totalAbsorbed (outputs m ops) + eff * (q₀ - minC) := by
  obtain ⟨b, h⟩ := BattAt.start hm hg
  obtain ⟨b', h', heq⟩ := h.account ops hops
  refine ⟨_, h.charge, ?_⟩
  have hpos : 0 < eff := by rw [← h.eff]; exact h.wf.valid.eff_pos
  have hlow : minC ≤ b'.charge := by rw [← h'.minC]; exact h'.wf.valid.low
  have h2 : totalProvided (outputs m ops) / eff
      ≤ eff * totalAbsorbed (outputs m ops) + (b.charge - minC) := by linarith
  rw [div_le_iff₀ hpos] at h2
  nlinarith [h2]

/-- C04, discharging: with `raise_errors=False` a request `q ≥ 0` provides exactly
    `min(q, efficiency * min(max_discharge, charge - min_capacity))` in every reachable state. -/
theorem C04_discharge (hm : mkBattery minC maxC maxCh maxDis eff cost none c s i false = .ok m)
    (hg : GoodBattery minC maxC maxCh maxDis m) (ops : List MOp) (hops : ∀ op ∈ ops, op.isCall)
    (q : ℚ) (hq : 0 ≤ q) :
    ∃ ch ch' m' o, (runOps m ops).charge? = some ch ∧ (runOps m ops).step (.num q) false = (m', .ok o) ∧
      m'.charge? = some ch' ∧
      o.info.provided = some (min q (eff * min maxDis (ch - minC))) ∧ o.info.absorbed = none ∧
      ch' = ch - min q (eff * min maxDis (ch - minC)) / eff ∧ ch' ≤ ch ∧ ch - ch' ≤ maxDis := by
  obtain ⟨b₀, h₀⟩ := BattAt.start hm hg
  obtain ⟨b, h⟩ := h₀.ops ops hops
  have hs := h.wf.stepEnergy q
  have hlim : b.maxProduction = eff * min maxDis (b.charge - minC) := by
    rw [Battery.maxProduction, h.maxDis, h.minC, h.eff]; ring
  rw [if_pos hq, if_neg (by simp [h.raise]), hlim] at hs
  obtain ⟨m', o, he, hst⟩ := hs
  have hpos : 0 < eff := by rw [← h.eff]; exact h.wf.valid.eff_pos
  refine ⟨b.charge, _, m', o, h.charge, ?_, (h.ofStep hst).charge, hst.provided, hst.absorbed, ?_, ?_, ?_⟩
  · rw [h.wf.step_eq]; simpa [request, energyOf, energyPos, h.wf.kind] using he
  · simp only [Battery.withCharge, Battery.chargeAfter, h.eff]
  · simp only [Battery.withCharge, Battery.chargeAfter, h.eff]
    have := div_nonneg hst.nonneg hpos.le
    linarith
  · simp only [Battery.withCharge, Battery.chargeAfter, h.eff]
    have h1 : min q (eff * min maxDis (b.charge - minC)) / eff ≤ min maxDis (b.charge - minC) := by
      rw [div_le_iff₀ hpos, mul_comm]; exact min_le_right _ _
    linarith [min_le_left maxDis (b.charge - minC)]

/-- C04, charging: with `raise_errors=False` a charge request of `q > 0` (action `-q`) absorbs exactly
    `min(q, min(max_charge, max_capacity - charge) / efficiency)` in every reachable state. -/
theorem C04_charge (hm : mkBattery minC maxC maxCh maxDis eff cost none c s i false = .ok m)
    (hg : GoodBattery minC maxC maxCh maxDis m) (ops : List MOp) (hops : ∀ op ∈ ops, op.isCall)
    (q : ℚ) (hq : 0 < q) :
    ∃ ch ch' m' o, (runOps m ops).charge? = some ch ∧ (runOps m ops).step (.num (-q)) false = (m', .ok o) ∧
      m'.charge? = some ch' ∧
      o.info.absorbed = some (min q (min maxCh (maxC - ch) / eff)) ∧ o.info.provided = none ∧
      ch' = ch + min q (min maxCh (maxC - ch) / eff) * eff ∧ ch ≤ ch' ∧ ch' - ch ≤ maxCh := by
  obtain ⟨b₀, h₀⟩ := BattAt.start hm hg
  obtain ⟨b, h⟩ := h₀.ops ops hops
  have hs := h.wf.stepEnergy (-q)
  have hlim : b.maxConsumption = min maxCh (maxC - b.charge) / eff := by
    rw [Battery.maxConsumption, h.maxCh, h.maxC, h.eff]
  rw [if_neg (by linarith), if_neg (by simp [h.raise]), hlim, neg_neg] at hs
  obtain ⟨m', o, he, hst⟩ := hs
  have hpos : 0 < eff := by rw [← h.eff]; exact h.wf.valid.eff_pos
  refine ⟨b.charge, _, m', o, h.charge, ?_, (h.ofStep hst).charge, hst.absorbed, hst.provided, ?_, ?_, ?_⟩
  · rw [h.wf.step_eq]; simpa [request, energyOf, energyPos, h.wf.kind] using he
  · simp only [Battery.withCharge, Battery.chargeAfter, h.eff]
  · simp only [Battery.withCharge, Battery.chargeAfter, h.eff]
    have := mul_nonneg hst.nonneg hpos.le
    linarith
  · simp only [Battery.withCharge, Battery.chargeAfter, h.eff]
    have h1 : min q (min maxCh (maxC - b.charge) / eff) * eff ≤ min maxCh (maxC - b.charge) := by
      rw [← le_div_iff₀ hpos]; exact min_le_right _ _
    linarith [min_le_left maxCh (maxC - b.charge)]

/-- C05 (partial): `soc * max_capacity = current_charge` and `min_capacity/max_capacity ≤ soc ≤ 1`
    after every history of steps, resets and assignments of values *inside the window*.
    Missing: assignments outside the window, for which the claim is false (`C05_violated`). -/
theorem C05_soc_consistent_partial (hm : mkBattery minC maxC maxCh maxDis eff cost none c s i r = .ok m)
    (hg : GoodBattery minC maxC maxCh maxDis m) (hpos : 0 < maxC) (ops : List MOp)
    (hops : ∀ op ∈ ops, match op with
      | .setSoc v => minC / maxC ≤ v ∧ v ≤ 1
      | .setCharge v => minC ≤ v ∧ v ≤ maxC
      | _ => True) :
    ∃ soc ch, (runOps m ops).soc? = some soc ∧ (runOps m ops).charge? = some ch ∧
      soc * maxC = ch ∧ minC / maxC ≤ soc ∧ soc ≤ 1 := by
  obtain ⟨b, h⟩ := BattAt.start hm hg
  have key : ∃ b', BattAt minC maxC maxCh maxDis eff cost i r (runOps m ops) b' := by
    clear hm hg
    induction ops generalizing m b with
    | nil => exact ⟨b, h⟩
    | cons op ops ih =>
      have hops' := fun o (ho : o ∈ ops) => hops o (List.mem_cons_of_mem _ ho)
      have hop := hops op (by simp)
      cases op with
      | step a n => obtain ⟨b', h'⟩ := h.op (.step a n) rfl; exact ih hops' b' h'
      | reset => obtain ⟨b', h'⟩ := h.op .reset rfl; exact ih hops' b' h'
      | setSoc v =>
        simp only at hop
        refine ih hops' (b.withCharge (v * maxC)) ?_
        have e : MOp.apply m (.setSoc v) = { m with kind := .battery (b.withCharge (v * maxC)) } := by
          simp only [MOp.apply, assign, h.wf.kind, Battery.setSoc, Battery.initBattery,
            Battery.withCharge, h.maxC]
          congr 3
          field_simp
        rw [e]
        exact h.assign (by rw [div_le_iff₀ hpos] at hop; exact hop.1) (by nlinarith [hop.2])
      | setCharge v =>
        simp only at hop
        refine ih hops' (b.withCharge v) ?_
        have e : MOp.apply m (.setCharge v) = { m with kind := .battery (b.withCharge v) } := by
          simp [MOp.apply, assign, h.wf.kind, Battery.setCharge, Battery.initBattery,
            Battery.withCharge, h.wf.valid.cap_ne]
        rw [e]
        exact h.assign hop.1 hop.2
  obtain ⟨b', h'⟩ := key
  have hv := h'.wf.valid
  refine ⟨b'.soc, b'.charge, by simp [soc?, h'.wf.kind], h'.charge, ?_, ?_, ?_⟩
  · rw [hv.soc_eq, h'.maxC]; field_simp
  · rw [hv.soc_eq, h'.maxC, div_le_div_iff_of_pos_right hpos, ← h'.minC]; exact hv.low
  · rw [hv.soc_eq, h'.maxC, div_le_one hpos, ← h'.maxC]; exact hv.high

/-- C06: the reward of every successful step of a reachable battery is `-battery_cost_cycle` times the
    absolute change of the charge; with a non-negative cost it is at most 0, and it is 0 iff the cost
    is 0 or the charge did not change. -/
theorem C06_reward (hm : mkBattery minC maxC maxCh maxDis eff cost none c s i r = .ok m)
    (hg : GoodBattery minC maxC maxCh maxDis m) (ops : List MOp) (hops : ∀ op ∈ ops, op.isCall)
    (a : Act) (n : Bool) (m' : Module) (o : StepOut) (he : (runOps m ops).step a n = (m', .ok o)) :
    ∃ ch ch', (runOps m ops).charge? = some ch ∧ m'.charge? = some ch' ∧
      o.reward = -cost * |ch' - ch| ∧ (0 ≤ cost → o.reward ≤ 0) ∧ (o.reward = 0 ↔ cost = 0 ∨ ch' = ch) := by
  obtain ⟨b₀, h₀⟩ := BattAt.start hm hg
  obtain ⟨b, h⟩ := h₀.ops ops hops
  rcases h.wf.step_cases a n with ⟨e, he'⟩ | ⟨d, x, m'', o', he', hs⟩
  · rw [he'] at he; simp at he
  · rw [he'] at he
    simp only [Prod.mk.injEq, Except.ok.injEq] at he
    obtain ⟨rfl, rfl⟩ := he
    have hr : o'.reward = -cost * |b.chargeAfter d x - b.charge| := by
      rw [hs.reward, h.cost]
      cases d with
      | source =>
        have := div_nonneg hs.nonneg h.wf.valid.eff_pos.le
        simp only [Battery.chargeAfter, Battery.moved, sub_sub_cancel_left, abs_neg, abs_of_nonneg this]
        ring
      | sink =>
        have := mul_nonneg hs.nonneg h.wf.valid.eff_pos.le
        simp only [Battery.chargeAfter, Battery.moved, add_sub_cancel_left, abs_of_nonneg this]
        ring
    refine ⟨_, _, h.charge, (h.ofStep hs).charge, hr, ?_, ?_⟩
    · intro hc; rw [hr]; nlinarith [abs_nonneg (b.chargeAfter d x - b.charge)]
    · rw [hr]
      simp only [Battery.withCharge, mul_eq_zero, neg_eq_zero, abs_eq_zero, sub_eq_zero]

/-- C50 (partial): for efficiency 1 and equal limits the action space is right: the requests denoted by
    the normalised actions in `[0,1]` are exactly those within the rate limits.
    Missing: every other battery; there the claim is false (`C50_violated`). -/
theorem C50_action_space_partial
    (hm : mkBattery minC maxC maxDis maxDis 1 cost none c s i r = .ok m) (hpos : 0 < maxDis) (e : ℚ) :
    ∃ sp, m.actSpace = some sp ∧
      ((-maxDis ≤ e ∧ e ≤ maxDis) ↔ ∃ x : ℚ, 0 ≤ x ∧ x ≤ 1 ∧ sp.denormalize (.num x) = .ok (.num e)) := by
  obtain ⟨b, -, -, -, -, -, -, -, -, -, -, -, -, -, -, -, -, -, -, -, -, -, -, h⟩ := mkBattery_inv hm
  refine ⟨_, h, ?_⟩
  have hsp : spread1 (-maxDis / 1) (maxDis * 1) = 2 * maxDis := by
    rw [spread1_pos_of_lt (by linarith)]; ring
  have hd : ∀ x : ℚ, (⟨[-maxDis / 1], [maxDis * 1]⟩ : Space).denormalize (.num x)
      = .ok (.num (-maxDis + 2 * maxDis * x)) := by
    intro x
    simp only [Space.denormalize, Space.apply, Space.dim, List.length_singleton, mapBounds, Space.item,
      denorm1]
    simp only [div_one, mul_one] at hsp
    simp [hsp]
  simp only [hd, Except.ok.injEq, Act.num.injEq]
  constructor
  · rintro ⟨h1, h2⟩
    refine ⟨(e + maxDis) / (2 * maxDis), div_nonneg (by linarith) (by linarith), ?_, by field_simp; ring⟩
    rw [div_le_one (by linarith)]; linarith
  · rintro ⟨x, h0, h1, rfl⟩
    constructor <;> nlinarith

end

/-! ### Non-vacuity and counterexamples -/

/-- A battery of 100 kWh, 10 kWh reserved, efficiency 1/2, starting at 60 kWh. -/
def sampleBattery : Module := okModule (mkBattery 10 100 20 30 (1/2) 3 none (some 60) none 0 false)

theorem sampleBattery_ok :
    mkBattery 10 100 20 30 (1/2) 3 none (some 60) none 0 false = .ok sampleBattery :=
  okModule_eq (by decide +kernel)

/-- Non-vacuity of the hypotheses of C01–C06. -/
theorem sampleBattery_good : GoodBattery 10 100 20 30 sampleBattery :=
  ⟨by norm_num, by norm_num, 60, by decide +kernel, by norm_num, by norm_num⟩

/-- Non-vacuity: a history with clipped and unclipped requests in both directions and a reset. -/
example : (runOps sampleBattery [.step (.num 1000) false, .step (.num (-1000)) false, .step (.num 3) false,
      .reset]).charge? = some 44 ∧
    (outputs sampleBattery [.step (.num 1000) false, .step (.num (-1000)) false, .step (.num 3) false,
      .reset]).map (fun o => (o.info.provided, o.info.absorbed, o.reward))
      = [(some 15, none, -90), (none, some 40, -60), (some 3, none, -18)] := by
  decide +kernel

/-- Non-vacuity of C50 (partial). -/
example : ∃ m, mkBattery 0 10 5 5 1 0 none (some 4) none 0 false = .ok m ∧ (0 : ℚ) < 5 :=
  ⟨_, okModule_eq (by decide +kernel), by norm_num⟩

/-- C05 fails when a charge below `min_capacity` is assigned: the next (failing) charging step moves
    `current_charge` without moving `soc`. -/
theorem C05_violated :
    ∃ ops : List MOp, (runOps sampleBattery ops).charge? = some 2 ∧
      (runOps sampleBattery ops).soc? = some (1/100) ∧ (1/100 : ℚ) * 100 ≠ 2 :=
  ⟨[.setCharge 1, .step (.num (-2)) false], by decide +kernel, by decide +kernel, by norm_num⟩

/-- C50 is violated by the code.  The sample battery (`max_charge = 20`, `max_discharge = 30`,
    efficiency 1/2) can deliver 15 units in a step, but no normalised action in `[0,1]` makes it deliver
    more than 10; and the normalised action 0 asks it to absorb 60, although it can absorb only 40. -/
theorem C50_violated :
    (sampleBattery.step (.num 15) false).2.toOption.map (·.info.provided) = some (some 15) ∧
    (∀ x : ℚ, 0 ≤ x → x ≤ 1 → ∀ m' o p, sampleBattery.step (.num x) true = (m', .ok o) →
        o.info.provided = some p → p ≤ 10) ∧
    (∃ sp, sampleBattery.actSpace = some sp ∧ sp.denormalize (.num 0) = .ok (.num (-60))) ∧
    (sampleBattery.step (.num (-60)) false).2.toOption.map (·.info.absorbed) = some (some 40) := by
  refine ⟨by decide +kernel, ?_, ⟨⟨[-60], [10]⟩, by decide +kernel, by decide +kernel⟩, by decide +kernel⟩
  intro x h0 h1 m' o p he hp
  obtain ⟨b, h⟩ := BattAt.start sampleBattery_ok sampleBattery_good
  rw [h.wf.step_eq] at he
  have hreq : sampleBattery.request (.num x) true = .ok (-60 + 70 * x) := by
    have hsp : sampleBattery.actSpace = some ⟨[-60], [10]⟩ := by decide +kernel
    have hpos : sampleBattery.energyPos = 0 := by simp [energyPos, h.wf.kind]
    simp [request, denormalizeAct, hsp, Space.denormalize, Space.apply, Space.dim, mapBounds, denorm1,
      spread1, Space.item, energyOf]
    norm_num
  rw [hreq] at he
  have hs := h.wf.stepEnergy (-60 + 70 * x)
  simp only at he
  have hr : sampleBattery.raiseErrors = false := by decide +kernel
  split at hs
  · rw [if_neg (by simp [hr])] at hs
    obtain ⟨m'', o', he', hst⟩ := hs
    rw [he'] at he
    simp only [Prod.mk.injEq, Except.ok.injEq] at he
    obtain ⟨rfl, rfl⟩ := he
    rw [hst.provided] at hp
    simp only [Dir.out, Option.some.injEq] at hp
    have := min_le_left (-60 + 70 * x) b.maxProduction
    linarith
  · rw [if_neg (by simp [hr])] at hs
    obtain ⟨m'', o', he', hst⟩ := hs
    rw [he'] at he
    simp only [Prod.mk.injEq, Except.ok.injEq] at he
    obtain ⟨rfl, rfl⟩ := he
    rw [hst.provided] at hp
    simp [Dir.out] at hp

end Pymgrid
