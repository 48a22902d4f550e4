import Verif.Model.AgentVectors
import Verif.Props.AgentActions
import Mathlib.Tactic.FieldSimp
import Mathlib.Tactic.NormNum

set_option autoImplicit false

/-!
# C118: action vectors of the deprecated environments
-/

namespace Pymgrid.Legacy

/-- Specification: all entries lie between 0 and 1, as the description of continuous actions says. -/
def Unit01 (a : Nat → ℚ) : Prop := ∀ i, 0 ≤ a i ∧ a i ≤ 1

section
variable {v : AgentView} {a : Nat → ℚ}

private theorem scaled {x y z u : ℚ} (hx : 0 ≤ x) (hx1 : x ≤ 1) (hy : 0 ≤ y) (hz : 0 ≤ z) (hu : 0 ≤ u) :
    0 ≤ max 0 (x * min (min y z) u) ∧ max 0 (x * min (min y z) u) ≤ z ∧ max 0 (x * min (min y z) u) ≤ u ∧
    max 0 (x * min (min y z) u) ≤ y := by
  have h0 : 0 ≤ min (min y z) u := le_min (le_min hy hz) hu
  have h1 : x * min (min y z) u ≤ min (min y z) u := by nlinarith
  rw [max_eq_right (mul_nonneg hx h0)]
  exact ⟨mul_nonneg hx h0, h1.trans ((min_le_left _ _).trans (min_le_right _ _)), h1.trans (min_le_right _ _),
    h1.trans ((min_le_left _ _).trans (min_le_left _ _))⟩

private theorem scaled2 {x y u : ℚ} (hx : 0 ≤ x) (hx1 : x ≤ 1) (hy : 0 ≤ y) (hu : 0 ≤ u) :
    0 ≤ max 0 (x * min (y * u) u) ∧ max 0 (x * min (y * u) u) ≤ u := by
  have h0 : 0 ≤ min (y * u) u := le_min (mul_nonneg hy hu) hu
  have h1 : x * min (y * u) u ≤ min (y * u) u := by nlinarith
  rw [max_eq_right (mul_nonneg hx h0)]
  exact ⟨mul_nonneg hx h0, h1.trans (min_le_right _ _)⟩

/-- C118: every continuous action gives a complete control within the limits of battery, line and rated power. -/
theorem C118_continuous_partial (h : v.Sound) (hr : 0 ≤ v.params.rated) (ha : Unit01 a) {c : Control} (hc : v.continuous a = .ok c) :
    c.Complete v.arch ∧
    (∀ x, c.charge = some x → 0 ≤ x ∧ x ≤ v.capaCharge ∧ x ≤ v.params.pCharge) ∧
    (∀ x, c.discharge = some x → 0 ≤ x ∧ x ≤ v.capaDischarge ∧ x ≤ v.params.pDischarge) ∧
    (∀ x, c.imp = some x → 0 ≤ x ∧ x ≤ v.params.pImport ∧ (v.status = 0 → x = 0)) ∧
    (∀ x, c.exp = some x → 0 ≤ x ∧ x ≤ v.params.pExport ∧ (v.status = 0 → x = 0)) ∧
    (∀ x, c.genset = some x → 0 ≤ x ∧ x ≤ v.params.rated) := by
  have hcap := h.params.capacity.le
  have z : ∀ i, 0 ≤ 1 - a i ∧ 1 - a i ≤ 1 := fun i => ⟨by linarith [(ha i).2], by linarith [(ha i).1]⟩
  unfold AgentView.continuous at hc
  split at hc
  · injection hc with hc
    subst hc
    refine ⟨⟨by simp, fun hg => by simp [hg], fun hn => by simp [hn]⟩, ?_, ?_, ?_, ?_, ?_⟩
    · rintro x hx
      injection hx with hx
      subst hx
      obtain ⟨s1, s2, s3, -⟩ := scaled (ha 0).1 (ha 0).2 (mul_nonneg (ha 1).1 hcap) h.charge h.params.charge
      exact ⟨s1, s2, s3⟩
    · rintro x hx
      injection hx with hx
      subst hx
      obtain ⟨s1, s2, s3, -⟩ := scaled (z 0).1 (z 0).2 (mul_nonneg (ha 1).1 hcap) h.discharge h.params.discharge
      exact ⟨s1, s2, s3⟩
    · intro x hx
      simp only at hx
      split at hx
      · injection hx with hx
        subst hx
        obtain ⟨s1, s2⟩ := scaled2 (ha 2).1 (ha 2).2 (ha 3).1 h.params.imp
        rcases h.status with hs | hs <;> simp only [hs]
        · norm_num; exact h.params.imp
        · norm_num at s1 s2 ⊢; exact s2
      · simp at hx
    · intro x hx
      simp only at hx
      split at hx
      · injection hx with hx
        subst hx
        obtain ⟨s1, s2⟩ := scaled2 (z 2).1 (z 2).2 (ha 3).1 h.params.exp
        rcases h.status with hs | hs <;> simp only [hs]
        · norm_num; exact h.params.exp
        · norm_num at s1 s2 ⊢; exact s2
      · simp at hx
    · intro x hx
      simp only at hx
      split at hx
      · injection hx with hx
        subst hx
        exact scaled2 (ha 4).1 (ha 4).2 (ha 5).1 hr
      · simp at hx
  · simp at hc

/-- C118: if the switches of battery and grid are 0 or 1, the battery works in one direction and the grid too. -/
theorem C118_exclusive (h0 : a 0 = 0 ∨ a 0 = 1) (h2 : a 2 = 0 ∨ a 2 = 1) {c : Control} (hc : v.continuous a = .ok c) :
    (c.charge = some 0 ∨ c.discharge = some 0) ∧ (v.arch.grid = true → c.imp = some 0 ∨ c.exp = some 0) := by
  unfold AgentView.continuous at hc
  split at hc
  · injection hc with hc
    subst hc
    constructor
    · rcases h0 with e | e <;> simp [e]
    · intro hg
      by_cases hs : v.status = 1 <;> rcases h2 with e | e <;> simp [e, hg, hs]
  · simp at hc

/-- C118: with a switch between 0 and 1 the battery is charged and discharged at once, unless it is full, empty or not asked for
    anything. -/
theorem C118_both (hb : v.arch.battery = true) (hp : v.params.Good) (h0 : 0 < a 0) (h1 : a 0 < 1) (ha : 0 < a 1) (hc : 0 < v.capaCharge)
    (hd : 0 < v.capaDischarge) (hpc : 0 < v.params.pCharge) (hpd : 0 < v.params.pDischarge) :
    ∃ c x y, v.continuous a = .ok c ∧ c.charge = some x ∧ c.discharge = some y ∧ 0 < x ∧ 0 < y := by
  have hcap := hp.capacity
  refine ⟨_, _, _, if_pos hb, rfl, rfl, lt_max_of_lt_right (mul_pos h0 ?_), lt_max_of_lt_right (mul_pos (by linarith) ?_)⟩
  · exact lt_min (lt_min (mul_pos ha hcap) hc) hpc
  · exact lt_min (lt_min (mul_pos ha hcap) hd) hpd

/-- C118 is violated: a full action asks the generator for its rated power, beyond its maximum. -/
theorem C118_genset_beyond (hb : v.arch.battery = true) (hn : v.arch.genset = true) (hr : 0 < v.params.rated) (hm : v.params.pmax < 1)
    (h4 : a 4 = 1) (h5 : a 5 = 1) : ∃ c x, v.continuous a = .ok c ∧ c.genset = some x ∧ v.params.rated * v.params.pmax < x := by
  refine ⟨_, _, if_pos hb, if_pos hn, ?_⟩
  rw [h4, h5, one_mul, one_mul, min_self, max_eq_right hr.le]
  nlinarith

/-- C118: every amount of charge and of discharge that the battery can take or give is the control of some action. -/
theorem C118_reachable (h : v.Sound) (hb : v.arch.battery = true) {x : ℚ} (hx : 0 ≤ x) (hcap : x ≤ v.params.capacity) :
    (x ≤ v.capaCharge → x ≤ v.params.pCharge → ∃ a, Unit01 a ∧ ∃ c, v.continuous a = .ok c ∧ c.charge = some x ∧ c.discharge = some 0) ∧
    (x ≤ v.capaDischarge → x ≤ v.params.pDischarge →
      ∃ a, Unit01 a ∧ ∃ c, v.continuous a = .ok c ∧ c.charge = some 0 ∧ c.discharge = some x) := by
  have hk := h.params.capacity
  have hq : 0 ≤ x / v.params.capacity ∧ x / v.params.capacity ≤ 1 := ⟨div_nonneg hx hk.le, (div_le_one hk).mpr hcap⟩
  have hm : x / v.params.capacity * v.params.capacity = x := by field_simp
  constructor
  · intro h1 h2
    refine ⟨fun i => if i = 0 then 1 else x / v.params.capacity, fun i => ?_, _, if_pos hb, ?_, ?_⟩
    · by_cases hi : i = 0 <;> simp [hi, hq.1, hq.2]
    · simp only [if_true, one_mul, Nat.one_ne_zero, if_false, hm]
      rw [min_eq_left h1, min_eq_left h2, max_eq_right hx]
    · simp
  · intro h1 h2
    refine ⟨fun i => if i = 0 then 0 else x / v.params.capacity, fun i => ?_, _, if_pos hb, ?_, ?_⟩
    · by_cases hi : i = 0 <;> simp [hi, hq.1, hq.2]
    · simp
    · simp only [if_true, sub_zero, one_mul, Nat.one_ne_zero, if_false, hm]
      rw [min_eq_left h1, min_eq_left h2, max_eq_right hx]

/-- Specification: a discrete action, entry by entry one of the values `0, …, n - 1`. -/
def InSpace (limits : List Int) (a : Nat → ℚ) : Prop := ∀ i n, limits[i]? = some n → ∃ k : Int, a i = k ∧ 0 ≤ k ∧ k < n

private theorem floor_bound {y : ℚ} {x : ℚ} (h : ∃ k : Int, x = k ∧ 0 ≤ k ∧ k < ⌊y⌋) : 0 ≤ x ∧ x < y := by
  obtain ⟨k, rfl, h0, h1⟩ := h
  exact ⟨by exact_mod_cast h0, lt_of_lt_of_le (by exact_mod_cast h1) (Int.floor_le y)⟩

private theorem switch {x : ℚ} (h : ∃ k : Int, x = k ∧ 0 ≤ k ∧ k < 2) : x = 0 ∨ x = 1 := by
  obtain ⟨k, rfl, h0, h1⟩ := h
  have : k = 0 ∨ k = 1 := by omega
  rcases this with rfl | rfl <;> simp

private theorem switched {s x y p q : ℚ} (hs : s = 0 ∨ s = 1) (hx : 0 ≤ x ∧ x < p) (hy : 0 ≤ y ∧ y < q) :
    (0 ≤ x * s ∧ x * s < p) ∧ (0 ≤ y * (1 - s) ∧ y * (1 - s) < q) ∧ (x * s = 0 ∨ y * (1 - s) = 0) := by
  rcases hs with rfl | rfl
  · simp only [mul_zero, sub_zero, mul_one]; exact ⟨⟨le_rfl, by linarith⟩, hy, .inl trivial⟩
  · simp only [mul_one, sub_self, mul_zero]; exact ⟨hx, ⟨le_rfl, by linarith⟩, .inr trivial⟩

/-- C118: every discrete action gives a complete control below the rates of battery, lines and generator, and neither the battery nor
    the grid works in both directions. -/
theorem C118_discrete {maxPv : ℚ} (ha : InSpace (v.limits maxPv) a) :
    (v.discrete a).Complete v.arch ∧
    (v.arch.battery = true → ∃ x y, (v.discrete a).charge = some x ∧ (v.discrete a).discharge = some y ∧ (0 ≤ x ∧ x < v.params.pCharge) ∧
      (0 ≤ y ∧ y < v.params.pDischarge) ∧ (x = 0 ∨ y = 0)) ∧
    (v.arch.grid = true → ∃ x y, (v.discrete a).imp = some x ∧ (v.discrete a).exp = some y ∧ (0 ≤ x ∧ x < v.params.pImport) ∧
      (0 ≤ y ∧ y < v.params.pExport) ∧ (x = 0 ∨ y = 0)) ∧
    (v.arch.genset = true → ∃ x, (v.discrete a).genset = some x ∧ 0 ≤ x ∧ x < v.params.rated * v.params.pmax) := by
  have b1 := floor_bound (ha 1 ⌊v.params.pCharge⌋ (by simp [AgentView.limits]))
  have b2 := floor_bound (ha 2 ⌊v.params.pDischarge⌋ (by simp [AgentView.limits]))
  have b3 := switch (ha 3 2 (by simp [AgentView.limits]))
  have B := switched b3 b1 b2
  refine ⟨?_, ?_, ?_, ?_⟩
  · cases hb : v.arch.battery <;> cases hn : v.arch.genset <;> cases hg : v.arch.grid <;>
      simp [AgentView.discrete, Control.Complete, hb, hn, hg]
  · intro hb
    refine ⟨_, _, ?_, ?_, B⟩ <;> cases hn : v.arch.genset <;> cases hg : v.arch.grid <;> simp [AgentView.discrete, hb, hn, hg]
  · intro hg
    cases hn : v.arch.genset with
    | false =>
      have c1 := floor_bound (ha 4 ⌊v.params.pImport⌋ (by simp [AgentView.limits, hn, hg]))
      have c2 := floor_bound (ha 5 ⌊v.params.pExport⌋ (by simp [AgentView.limits, hn, hg]))
      have c3 := switch (ha 6 2 (by simp [AgentView.limits, hn, hg]))
      refine ⟨_, _, ?_, ?_, switched c3 c1 c2⟩ <;> simp [AgentView.discrete, hn, hg]
    | true =>
      have c1 := floor_bound (ha 5 ⌊v.params.pImport⌋ (by simp [AgentView.limits, hn, hg]))
      have c2 := floor_bound (ha 6 ⌊v.params.pExport⌋ (by simp [AgentView.limits, hn, hg]))
      have c3 := switch (ha 7 2 (by simp [AgentView.limits, hn, hg]))
      refine ⟨_, _, ?_, ?_, switched c3 c1 c2⟩ <;> simp [AgentView.discrete, hn, hg]
  · intro hn
    have c1 := floor_bound (ha 4 ⌊v.params.rated * v.params.pmax⌋ (by simp [AgentView.limits, hn]))
    refine ⟨a 4, ?_, c1⟩
    cases hg : v.arch.grid <;> simp [AgentView.discrete, hn, hg]

/-- C118 is violated: the action space of the continuous environment is the one of the discrete environment.  If the battery can be
    charged at its rate, an action of it asks for twice the rate. -/
theorem C118_wrong_space (hb : v.arch.battery = true) (hp : v.params.Good) {maxPv : ℚ} (hpv : 3 ≤ maxPv) (hc : 2 ≤ v.params.pCharge)
    (hd : 1 ≤ v.params.pDischarge) (hcap : v.params.pCharge ≤ v.params.capacity) (hcc : v.params.pCharge ≤ v.capaCharge)
    (hr : 1 ≤ v.params.rated * v.params.pmax) (hi : 1 ≤ v.params.pImport) (he : 1 ≤ v.params.pExport) :
    ∃ a, InSpace (v.limits maxPv) a ∧ ∃ c, v.continuous a = .ok c ∧ c.charge = some (2 * v.params.pCharge) := by
  have hf : ∀ {k : Int} {x : ℚ}, (k : ℚ) ≤ x → k ≤ ⌊x⌋ := fun h => Int.le_floor.mpr h
  have f1 : (3 : Int) ≤ ⌊maxPv⌋ := hf (by exact_mod_cast hpv)
  have f2 : (2 : Int) ≤ ⌊v.params.pCharge⌋ := hf (by exact_mod_cast hc)
  have f3 : (1 : Int) ≤ ⌊v.params.pDischarge⌋ := hf (by exact_mod_cast hd)
  have f4 : (1 : Int) ≤ ⌊v.params.rated * v.params.pmax⌋ := hf (by exact_mod_cast hr)
  have f5 : (1 : Int) ≤ ⌊v.params.pImport⌋ := hf (by exact_mod_cast hi)
  have f6 : (1 : Int) ≤ ⌊v.params.pExport⌋ := hf (by exact_mod_cast he)
  refine ⟨fun i => if i = 0 then 2 else if i = 1 then 1 else 0, fun i n hn => ?_, _, if_pos hb, ?_⟩
  · rcases i with _ | _ | i
    · simp only [AgentView.limits, List.cons_append, List.getElem?_cons_zero, Option.some.injEq] at hn
      exact ⟨2, by simp, by omega, by omega⟩
    · simp only [AgentView.limits, List.cons_append, zero_add, List.getElem?_cons_succ, List.getElem?_cons_zero, Option.some.injEq] at hn
      exact ⟨1, by simp, by omega, by omega⟩
    · refine ⟨0, by simp, le_rfl, ?_⟩
      have hall : ∀ n ∈ v.limits maxPv, 0 < n := by
        intro n hn
        cases hg : v.arch.grid <;> cases hn' : v.arch.genset <;> simp [AgentView.limits, hg, hn'] at hn <;> omega
      exact hall n (List.mem_of_getElem? hn)
  · have h0 := hp.charge
    simp only [if_true, Nat.one_ne_zero, if_false, one_mul]
    rw [min_eq_right (le_min hcap hcc), max_eq_right (by linarith)]

end

/-- Hypotheses of `C118_continuous_partial`, `C118_both` and `C118_genset_beyond`: charging and discharging at once, and more than 90. -/
example : (demoView true true 60 30 1).Sound ∧ Unit01 (fun i => if i < 4 then 1/2 else 1) ∧
    (match (demoView true true 60 30 1).continuous (fun i => if i < 4 then 1/2 else 1) with
    | .ok c => decide (c = ⟨some (25/2), some (25/2), some 50, some 50, some 100⟩)
    | .error _ => false) = true := by
  refine ⟨(demoView_sound true true).1, fun i => ?_, by decide +kernel⟩
  by_cases hi : i < 4 <;> simp [hi]
  norm_num

/-- Hypotheses of `C118_wrong_space`. -/
example : let v := demoView true true 60 30 1
    2 ≤ v.params.pCharge ∧ v.params.pCharge ≤ v.params.capacity ∧ v.params.pCharge ≤ v.capaCharge ∧ 1 ≤ v.params.rated * v.params.pmax := by
  decide +kernel

/-- Hypotheses of `C118_discrete`. -/
example : InSpace ((demoView true true 60 30 1).limits 50) (fun i => if i = 3 ∨ i = 7 then 1 else 20) ∧
    (demoView true true 60 30 1).discrete (fun i => if i = 3 ∨ i = 7 then 1 else 20) = ⟨some 20, some 0, some 20, some 0, some 20⟩ := by
  constructor
  · have : (demoView true true 60 30 1).limits 50 = [50, 25, 25, 2, 90, 200, 200, 2] := by decide +kernel
    rw [this]
    intro i n hn
    have hi : i < 8 := (List.getElem?_eq_some_iff.mp hn).1
    interval_cases i <;> simp at hn <;> subst hn <;> 
      first | (refine ⟨20, ?_, ?_, ?_⟩ <;> norm_num; done) | (refine ⟨1, ?_, ?_, ?_⟩ <;> norm_num)
  · decide +kernel

end Pymgrid.Legacy
