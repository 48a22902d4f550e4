import Verif.Lemmas.CustomBattery

/-!
# C100: batteries with a transition model of the user

A history is a list of `step`, `reset` calls and assignments to `soc` or `current_charge`, with arbitrary arguments; failing calls
are part of it. The transition model is an arbitrary function of the requested energy and of the keyword arguments.
-/

set_option autoImplicit false

namespace Pymgrid

open Module

section
variable {minC maxC maxCh maxDis eff cost : ℚ} {f : ℚ → TransitionArgs → ℚ} {c s : Option ℚ} {i : Nat} {r : Bool} {m : Module}

/-- C100, discharging: a successful step after any history that asks for `q ≥ 0` provides the smaller of `q` and the momentary
    limit, `x`. The charge changes by what the model returns for `-x` and the documented arguments, the state of charge follows,
    and the reward is minus the cost of that change. -/
theorem C100_discharge (hm : mkBattery minC maxC maxCh maxDis eff cost (some f) c s i r = .ok m) (ops : List MOp) (q : ℚ)
    (hq : 0 ≤ q) (m' : Module) (o : StepOut) (he : (runOps m ops).step (.num q) false = (m', .ok o)) :
    ∃ ch soc ch' x de, (runOps m ops).charge? = some ch ∧ (runOps m ops).soc? = some soc ∧
      x = min q (eff * min maxDis (ch - minC)) ∧
      de = f (-x) (documentedArgs minC maxC maxCh maxDis eff cost ch soc) ∧ de ≤ 0 ∧
      Landed minC ch de ch' ∧ m'.charge? = some ch' ∧ m'.soc? = some (ch' / maxC) ∧
      o.info.provided = some x ∧ o.info.absorbed = none ∧ o.reward = -cost * |de| ∧ o.done = false := by
  obtain ⟨b₀, h₀, -⟩ := CustomAt.start hm
  obtain ⟨b, h⟩ := h₀.ops ops
  have hs := h.stepEnergy q
  have hr : (runOps m ops).request (.num q) false = .ok q := by simp [request, energyOf]
  rw [h.step_eq, hr] at he
  simp only at he
  rw [he] at hs
  cases hs with
  | moved d x de c m' o free ask eq sign land next prov abs rew done =>
    rcases ask with ⟨rfl, -, hx⟩ | ⟨-, hq', -⟩
    · refine ⟨b.charge, b.soc, _, x, de, h.charge, h.soc, by rw [hx, h.production], eq.symm, by simpa [Dir.signed] using sign, land,
        next.charge, ?_, prov, abs, rew, done⟩
      rw [next.soc]; simp [Battery.withCharge, h.maxC]
    · exact absurd hq' (not_lt.mpr hq)

/-- C100, charging: likewise for a successful step that asks the battery to absorb `q > 0`. -/
theorem C100_charge (hm : mkBattery minC maxC maxCh maxDis eff cost (some f) c s i r = .ok m) (ops : List MOp) (q : ℚ)
    (hq : 0 < q) (m' : Module) (o : StepOut) (he : (runOps m ops).step (.num (-q)) false = (m', .ok o)) :
    ∃ ch soc ch' x de, (runOps m ops).charge? = some ch ∧ (runOps m ops).soc? = some soc ∧
      x = min q (min maxCh (maxC - ch) / eff) ∧ 0 ≤ x ∧
      de = f x (documentedArgs minC maxC maxCh maxDis eff cost ch soc) ∧ 0 ≤ de ∧
      Landed minC ch de ch' ∧ m'.charge? = some ch' ∧ m'.soc? = some (ch' / maxC) ∧
      o.info.absorbed = some x ∧ o.info.provided = none ∧ o.reward = -cost * |de| ∧ o.done = false := by
  obtain ⟨b₀, h₀, -⟩ := CustomAt.start hm
  obtain ⟨b, h⟩ := h₀.ops ops
  have hs := h.stepEnergy (-q)
  have hr : (runOps m ops).request (.num (-q)) false = .ok (-q) := by simp [request, energyOf]
  rw [h.step_eq, hr] at he
  simp only at he
  rw [he] at hs
  cases hs with
  | moved d x de c m' o free ask eq sign land next prov abs rew done =>
    rcases ask with ⟨-, hq', -⟩ | ⟨rfl, -, hx, h0⟩
    · linarith
    · rw [neg_neg] at hx
      refine ⟨b.charge, b.soc, _, x, de, h.charge, h.soc, by rw [hx, h.consumption], h0, eq.symm, sign, land,
        next.charge, ?_, abs, prov, rew, done⟩
      rw [next.soc]; simp [Battery.withCharge, h.maxC]

/-- C100, discharging succeeds: unless the request exceeds the limit of a strict battery, it is enough that the model answers with
    a discharge that leaves `min_capacity`. -/
theorem C100_discharge_succeeds (hm : mkBattery minC maxC maxCh maxDis eff cost (some f) c s i r = .ok m) (ops : List MOp) (q : ℚ)
    (hq : 0 ≤ q) {ch soc : ℚ} (hc : (runOps m ops).charge? = some ch) (hsoc : (runOps m ops).soc? = some soc)
    (hr : r = true → q ≤ eff * min maxDis (ch - minC))
    (hd : f (-min q (eff * min maxDis (ch - minC))) (documentedArgs minC maxC maxCh maxDis eff cost ch soc) ≤ 0)
    (hl : minC ≤ ch + f (-min q (eff * min maxDis (ch - minC))) (documentedArgs minC maxC maxCh maxDis eff cost ch soc)) :
    ∃ m' o, (runOps m ops).step (.num q) false = (m', .ok o) := by
  obtain ⟨b₀, h₀, -⟩ := CustomAt.start hm
  obtain ⟨b, h⟩ := h₀.ops ops
  obtain rfl : b.charge = ch := Option.some.inj (h.charge.symm.trans hc)
  obtain rfl : b.soc = soc := Option.some.inj (h.soc.symm.trans hsoc)
  have hs := h.stepEnergy q
  have hreq : (runOps m ops).request (.num q) false = .ok q := by simp [request, energyOf]
  rw [← h.production] at hr hd hl
  rw [h.step_eq, hreq]
  simp only
  generalize hg : (runOps m ops).stepEnergy q = out at hs
  obtain ⟨m', res⟩ := out
  simp only at hs
  cases hs with
  | refused e why =>
    exfalso
    rcases why with ⟨h1, h2⟩ | ⟨h1, -⟩ | ⟨d, x, ⟨rfl, -, rfl⟩ | ⟨-, h1, -⟩, h2⟩
    · rw [if_pos hq] at h2; exact absurd (hr h1) (not_le.mpr h2)
    · linarith
    · simp only [Dir.signed] at h2; linarith
    · linarith
  | broke d x de ask eq low =>
    exfalso
    rcases ask with ⟨rfl, -, rfl⟩ | ⟨-, h1, -⟩
    · rw [← eq] at low; simp only [Dir.signed] at low; linarith
    · linarith
  | moved => exact ⟨_, _, rfl⟩

/-- C100, charging succeeds: likewise, as long as the model answers with a charge and the charge is inside its window. -/
theorem C100_charge_succeeds (hm : mkBattery minC maxC maxCh maxDis eff cost (some f) c s i r = .ok m) (ops : List MOp) (q : ℚ)
    (hq : 0 < q) {ch soc : ℚ} (hc : (runOps m ops).charge? = some ch) (hsoc : (runOps m ops).soc? = some soc)
    (hlo : minC ≤ ch) (hhi : ch ≤ maxC) (hch : 0 ≤ maxCh)
    (hr : r = true → q ≤ min maxCh (maxC - ch) / eff)
    (hd : 0 ≤ f (min q (min maxCh (maxC - ch) / eff)) (documentedArgs minC maxC maxCh maxDis eff cost ch soc)) :
    ∃ m' o, (runOps m ops).step (.num (-q)) false = (m', .ok o) := by
  obtain ⟨b₀, h₀, -⟩ := CustomAt.start hm
  obtain ⟨b, h⟩ := h₀.ops ops
  obtain rfl : b.charge = ch := Option.some.inj (h.charge.symm.trans hc)
  obtain rfl : b.soc = soc := Option.some.inj (h.soc.symm.trans hsoc)
  have hs := h.stepEnergy (-q)
  have hreq : (runOps m ops).request (.num (-q)) false = .ok (-q) := by simp [request, energyOf]
  have hC : 0 ≤ b.maxConsumption := by
    rw [h.consumption]; exact div_nonneg (le_min hch (by linarith)) h.pos.le
  rw [← h.consumption] at hr hd
  rw [h.step_eq, hreq]
  simp only
  generalize hg : (runOps m ops).stepEnergy (-q) = out at hs
  obtain ⟨m', res⟩ := out
  simp only at hs
  cases hs with
  | refused e why =>
    exfalso
    rcases why with ⟨h1, h2⟩ | ⟨-, h1⟩ | ⟨d, x, ⟨-, h1, -⟩ | ⟨rfl, -, rfl⟩, h2⟩
    · rw [if_neg (by linarith), neg_neg] at h2; exact absurd (hr h1) (not_le.mpr h2)
    · rw [neg_neg] at h1; exact absurd (le_min hq.le hC) (not_le.mpr h1)
    · linarith
    · simp only [Dir.signed, neg_neg] at h2; linarith
  | broke d x de ask eq low =>
    exfalso
    rcases ask with ⟨-, h1, -⟩ | ⟨rfl, -, rfl⟩
    · linarith
    · rw [← eq] at low; simp only [Dir.signed, neg_neg] at low; linarith
  | moved => exact ⟨_, _, rfl⟩

/-- C100: a model that answers a request to discharge with an increase of the charge, or a request to charge with a decrease, is
    caught: the step raises `AssertionError` and changes nothing. -/
theorem C100_wrong_sign_refused (hm : mkBattery minC maxC maxCh maxDis eff cost (some f) c s i false = .ok m) (ops : List MOp)
    {ch soc : ℚ} (hc : (runOps m ops).charge? = some ch) (hsoc : (runOps m ops).soc? = some soc) (q : ℚ) :
    (0 ≤ q → 0 < f (-min q (eff * min maxDis (ch - minC))) (documentedArgs minC maxC maxCh maxDis eff cost ch soc) →
      (runOps m ops).step (.num q) false = (runOps m ops, .error .assertion)) ∧
    (0 < q → f (min q (min maxCh (maxC - ch) / eff)) (documentedArgs minC maxC maxCh maxDis eff cost ch soc) < 0 →
      (runOps m ops).step (.num (-q)) false = (runOps m ops, .error .assertion)) := by
  obtain ⟨b₀, h₀, -⟩ := CustomAt.start hm
  obtain ⟨b, h⟩ := h₀.ops ops
  obtain rfl : b.charge = ch := Option.some.inj (h.charge.symm.trans hc)
  obtain rfl : b.soc = soc := Option.some.inj (h.soc.symm.trans hsoc)
  have hreq : ∀ q : ℚ, (runOps m ops).request (.num q) false = .ok q := fun q => by
    simp [request, energyOf]
  have hu := fun q => h.unnormalized q
  constructor
  · intro hq hw
    rw [h.step_eq, hreq]
    simp only
    apply h.stepEnergy_error
    rw [hu, if_pos hq, if_neg (by simp)]
    rcases h.update .source (min q b.maxProduction) rfl with ⟨-, he⟩ | ⟨hs, -⟩ | ⟨hs, -⟩
    · exact he
    all_goals
      rw [← h.production] at hw
      simp only [Dir.signed] at hs
      linarith
  · intro hq hw
    rw [h.step_eq, hreq]
    simp only
    apply h.stepEnergy_error
    rw [hu, if_neg (by linarith), if_neg (by simp), neg_neg]
    split
    · rfl
    · rcases h.update .sink (min q b.maxConsumption) rfl with ⟨-, he⟩ | ⟨hs, -⟩ | ⟨hs, -⟩
      · exact he
      all_goals
        rw [← h.consumption] at hw
        simp only [Dir.signed] at hs
        linarith

/-- C100: with a sound transition model the charge stays in `[min_capacity, max_capacity]` and the state of charge is the charge
    divided by `max_capacity`, after any history of steps and resets. -/
theorem C100_window (hm : mkBattery minC maxC maxCh maxDis eff cost (some f) c s i r = .ok m)
    (hf : SoundModel minC maxC maxCh maxDis eff cost f) (hch : 0 ≤ maxCh) (hdis : 0 ≤ maxDis)
    (hstart : ∃ q, m.charge? = some q ∧ minC ≤ q ∧ q ≤ maxC) (ops : List MOp) (hops : ∀ op ∈ ops, op.isCall) :
    ∃ ch, (runOps m ops).charge? = some ch ∧ minC ≤ ch ∧ ch ≤ maxC ∧ (runOps m ops).soc? = some (ch / maxC) := by
  obtain ⟨b, h, hs⟩ := CustomAt.start hm
  obtain ⟨q, hq, hlo, hhi⟩ := hstart
  obtain rfl : b.charge = q := Option.some.inj (h.charge.symm.trans hq)
  obtain ⟨b', h', h1, h2, h3⟩ := h.window hf hch hdis hlo hhi hs ops hops
  exact ⟨_, h'.charge, h1, h2, by rw [h'.soc, h3]⟩

/-- C100: passing the documented default model explicitly makes no difference: every history has the same outputs, the same charge,
    state of charge and log as with `battery_transition_model=None`. -/
theorem C100_default (hm : mkBattery minC maxC maxCh maxDis eff cost
      (some fun x A => if x < 0 then x / A.efficiency else x * A.efficiency) c s i r = .ok m) :
    ∃ m₀, mkBattery minC maxC maxCh maxDis eff cost none c s i r = .ok m₀ ∧ ∀ ops : List MOp,
      outputs m₀ ops = outputs m ops ∧ (runOps m₀ ops).charge? = (runOps m ops).charge? ∧
      (runOps m₀ ops).soc? = (runOps m ops).soc? ∧ (runOps m₀ ops).logger = (runOps m ops).logger := by
  obtain ⟨b, hk, -, -, -, -, -, -, -, -, -, htr, -⟩ := mkBattery_inv hm
  have h : SameAsDefault m b := ⟨hk, htr⟩
  refine ⟨m.plain, ?_, fun ops => ?_⟩
  · unfold mkBattery Battery.init at hm ⊢
    by_cases he : 0 < eff ∧ eff ≤ 1
    · by_cases hz : maxC = 0
      · simp [he, hz] at hm
      · cases c with
        | some c =>
          simp only [he, hz, Battery.initBattery, and_self, not_true, if_false, Except.ok.injEq] at hm ⊢
          subst hm
          rfl
        | none =>
          cases s with
          | none => simp [he, hz, Battery.initBattery] at hm
          | some s =>
            simp only [he, hz, Battery.initBattery, and_self, not_true, if_false, Except.ok.injEq] at hm ⊢
            subst hm
            rfl
    · rw [if_pos he] at hm
      simp at hm
  · obtain ⟨⟨b', h'⟩, h1, h2⟩ := h.ops ops
    rw [h1, h'.plain]
    exact ⟨h2, by simp [charge?, h'.kind, Battery.plain], by simp [soc?, h'.kind, Battery.plain], rfl⟩

end

/-! ### Non-vacuity and findings -/

/-- A model whose losses when charging grow with the state of charge. -/
def tiringModel (x : ℚ) (A : TransitionArgs) : ℚ :=
  if x < 0 then x / A.efficiency else x * A.efficiency * (1 - A.soc / 2)

/-- A battery with this model. -/
def tiringBattery : Module := okModule (mkBattery 10 100 20 30 (1/2) 3 (some tiringModel) (some 60) none 0 false)

theorem tiringBattery_ok : mkBattery 10 100 20 30 (1/2) 3 (some tiringModel) (some 60) none 0 false = .ok tiringBattery :=
  okModule_eq (by decide +kernel)

/-- The model is sound, the hypothesis of `C100_window`. -/
theorem tiringModel_sound : SoundModel 10 100 20 30 (1/2) 3 tiringModel where
  discharge := by
    intro ch x hlo hhi h0 hx
    have h1 := min_le_right (30 : ℚ) (ch - 10)
    simp only [tiringModel, documentedArgs]
    split
    · constructor <;> linarith
    · obtain rfl : x = 0 := by linarith
      simp; exact hlo
  charge := by
    intro ch x hlo hhi h0 hx
    have h1 := min_le_right (20 : ℚ) (100 - ch)
    simp only [tiringModel, documentedArgs]
    rw [if_neg (by linarith)]
    have h2 : x * (1/2) ≤ 100 - ch := by linarith
    constructor
    · have : 0 ≤ x * (1/2) := by linarith
      have h3 : (0 : ℚ) ≤ 1 - ch / 100 / 2 := by linarith
      exact mul_nonneg this h3
    · have : x * (1/2) * (1 - ch / 100 / 2) ≤ x * (1/2) * 1 := by
        apply mul_le_mul_of_nonneg_left <;> linarith
      linarith

/-- A history in both directions, with clipped requests. -/
example : (runOps tiringBattery [.step (.num 1000) false, .step (.num (-1000)) false, .step (.num 3) false, .reset]).charge? =
      some 41 ∧
    (outputs tiringBattery [.step (.num 1000) false, .step (.num (-1000)) false, .step (.num 3) false, .reset]).map
      (fun o => (o.info.provided, o.info.absorbed, o.reward)) = [(some 15, none, -90), (none, some 40, -51), (some 3, none, -18)] := by
  decide +kernel

/-- Non-vacuity of `C100_default`. -/
example : ∃ m, mkBattery 10 100 20 30 (1/2) 3 (some fun x A => if x < 0 then x / A.efficiency else x * A.efficiency) (some 60) none 0
    false = .ok m ∧ (runOps m [.step (.num 1000) false, .step (.num (-1000)) false]).charge? = some 50 :=
  ⟨_, okModule_eq (by decide +kernel), by decide +kernel⟩

/-- A model that stores everything twice. -/
def doublingModel (x : ℚ) (_ : TransitionArgs) : ℚ := 2 * x

/-- C100: nothing stops a model from charging a battery beyond `max_capacity`. The step succeeds; every later request to charge
    the battery raises `AssertionError`. -/
theorem C100_overfull : ∃ m, mkBattery 0 100 20 20 1 0 (some doublingModel) (some 90) none 0 false = .ok m ∧
    (m.step (.num (-10)) false).1.charge? = some 110 ∧ (m.step (.num (-10)) false).2.isOk = true ∧
    ((m.step (.num (-10)) false).1.step (.num (-1)) false).2 matches .error .assertion :=
  ⟨_, okModule_eq (by decide +kernel), by decide +kernel, by decide +kernel, by decide +kernel⟩

/-- C100: if a model discharges the battery below `min_capacity`, the step raises `AssertionError` but has already changed the
    charge; the state of charge is left as it was. -/
theorem C100_failed_step_discharges : ∃ m, mkBattery 10 100 20 20 1 0 (some doublingModel) (some 30) none 0 false = .ok m ∧
    (m.step (.num 15) false).2 matches .error .assertion ∧ (m.step (.num 15) false).1.charge? = some 0 ∧
    (m.step (.num 15) false).1.soc? = some (3/10) :=
  ⟨_, okModule_eq (by decide +kernel), by decide +kernel, by decide +kernel, by decide +kernel⟩

end Pymgrid
