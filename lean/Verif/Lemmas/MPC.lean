import Mathlib.Algebra.BigOperators.Intervals
import Mathlib.Tactic.IntervalCases
import Mathlib.Tactic.Linarith
import Mathlib.Tactic.FieldSimp
import Mathlib.Tactic.Ring
import Verif.Spec.MPC

set_option autoImplicit false

/-! The matrices of the optimisation problem, read as equations between energies. -/

namespace Pymgrid.MPC

/-- A row that is non-zero on a block of columns. -/
theorem sum_block (N s n : Nat) (h : s + n ≤ N) (f p : Nat → ℚ) :
    ∑ k ∈ Finset.range N, (if s ≤ k ∧ k < s + n then f (k - s) else 0) * p k = ∑ k ∈ Finset.range n, f k * p (s + k) := by
  obtain ⟨m, rfl⟩ := Nat.exists_eq_add_of_le h
  rw [Finset.sum_range_add, Finset.sum_range_add]
  have h1 : ∑ k ∈ Finset.range s, (if s ≤ k ∧ k < s + n then f (k - s) else 0) * p k = 0 := by
    apply Finset.sum_eq_zero
    intro k hk
    have := Finset.mem_range.mp hk
    rw [if_neg (by omega), zero_mul]
  have h2 : ∑ k ∈ Finset.range n, (if s ≤ s + k ∧ s + k < s + n then f (s + k - s) else 0) * p (s + k) =
      ∑ k ∈ Finset.range n, f k * p (s + k) := by
    apply Finset.sum_congr rfl
    intro k hk
    have := Finset.mem_range.mp hk
    rw [if_pos (by omega), Nat.add_sub_cancel_left]
  have h3 : ∑ k ∈ Finset.range m, (if s ≤ s + n + k ∧ s + n + k < s + n then f (s + n + k - s) else 0) * p (s + n + k) = 0 := by
    apply Finset.sum_eq_zero
    intro k hk
    rw [if_neg (by omega), zero_mul]
  rw [h1, h2, h3]
  ring

/-- A sum over all variables, step by step. -/
theorem sum_steps (w h : Nat) (f : Nat → ℚ) :
    ∑ k ∈ Finset.range (w * h), f k = ∑ j ∈ Finset.range h, ∑ k ∈ Finset.range w, f (w * j + k) := by
  induction h with
  | zero => simp
  | succ h ih => rw [Nat.mul_succ, Finset.sum_range_add, ih, Finset.sum_range_succ]

theorem width_pos (P : Problem) : 0 < P.width := by unfold Problem.width; split <;> decide
theorem height_pos (P : Problem) : 0 < P.height := by unfold Problem.height; split <;> decide

theorem block_fits {w h j : Nat} (hj : j < h) : j * w + w ≤ w * h := by
  have : (j + 1) * w ≤ h * w := Nat.mul_le_mul_right w hj
  rw [Nat.mul_comm w h]
  linarith

theorem row_X (P : Problem) (x : Point) {j : Nat} (hj : j < P.horizon) :
    ∑ k ∈ Finset.range (P.width * P.horizon), P.X j k * x.p k = ∑ k ∈ Finset.range P.width, P.alpha k * x.p (j * P.width + k) :=
  sum_block _ _ _ (block_fits hj) _ _

theorem row_Y_succ (P : Problem) (x : Point) {j : Nat} (hj : j + 1 < P.horizon) :
    ∑ k ∈ Finset.range (P.width * P.horizon), P.Y (j + 1) k * x.p k =
      ∑ k ∈ Finset.range (2 * P.width), P.gamma k * x.p (j * P.width + k) := by
  have := sum_block (P.width * P.horizon) (j * P.width) (2 * P.width)
    (by have := block_fits (w := P.width) hj; rw [Nat.add_mul] at this; linarith) P.gamma x.p
  rw [← this]
  apply Finset.sum_congr rfl
  intro k _
  simp [Problem.Y]

theorem row_Y_zero (P : Problem) (x : Point) (hj : 0 < P.horizon) :
    ∑ k ∈ Finset.range (P.width * P.horizon), P.Y 0 k * x.p k = ∑ k ∈ Finset.range P.width, P.Y 0 k * x.p k := by
  have := sum_block (P.width * P.horizon) 0 P.width (by have := block_fits (w := P.width) hj; linarith) (P.Y 0) x.p
  simp only [Nat.zero_add] at this
  rw [← this]
  apply Finset.sum_congr rfl
  intro k _
  by_cases hk : k < P.width
  · rw [if_pos ⟨Nat.zero_le _, hk⟩, Nat.sub_zero]
  · rw [if_neg (fun h => hk h.2)]
    congr 1
    have hw : 7 ≤ k := le_trans (by unfold Problem.width; split <;> decide) (not_lt.mp hk)
    unfold Problem.Y
    cases hg : P.genset with
    | true =>
      have : 8 ≤ k := by have := not_lt.mp hk; simpa [Problem.width, hg] using this
      simp only [if_true]
      rw [if_neg (by omega), if_neg (by omega), if_neg (by omega)]
    | false =>
      simp only [if_true, Bool.false_eq_true, if_false]
      rw [if_neg (by omega), if_neg (by omega), if_neg (by omega)]

theorem row_C (P : Problem) (x : Point) {j i : Nat} (hj : j < P.horizon) (hi : i < P.height) :
    ∑ k ∈ Finset.range (P.width * P.horizon), P.C (j * P.height + i) k * x.p k =
      ∑ k ∈ Finset.range P.width, P.block i k * x.p (j * P.width + k) := by
  have := sum_block (P.width * P.horizon) (j * P.width) P.width (block_fits hj) (P.block i) x.p
  rw [← this]
  apply Finset.sum_congr rfl
  intro k _
  congr 1
  have h0 := height_pos P
  have w0 := width_pos P
  have d1 : (j * P.height + i) / P.height = j := by
    rw [Nat.mul_comm, Nat.mul_add_div h0, Nat.div_eq_of_lt hi, Nat.add_zero]
  have m1 : (j * P.height + i) % P.height = i := by
    rw [Nat.mul_comm, Nat.mul_add_mod, Nat.mod_eq_of_lt hi]
  unfold Problem.C
  rw [d1, m1]
  by_cases hk : j * P.width ≤ k ∧ k < j * P.width + P.width
  · obtain ⟨d, rfl⟩ := Nat.exists_eq_add_of_le hk.1
    have hd : d < P.width := by omega
    have d2 : (j * P.width + d) / P.width = j := by
      rw [Nat.mul_comm, Nat.mul_add_div w0, Nat.div_eq_of_lt hd, Nat.add_zero]
    have m2 : (j * P.width + d) % P.width = d := by
      rw [Nat.mul_comm, Nat.mul_add_mod, Nat.mod_eq_of_lt hd]
    rw [if_pos hk, d2, m2, if_pos rfl, Nat.add_sub_cancel_left]
  · rw [if_neg hk, if_neg]
    intro he
    apply hk
    have := Nat.div_add_mod k P.width
    have hm := Nat.mod_lt k w0
    rw [← he, Nat.mul_comm] at this
    omega

/-- The constraints, step by step. -/
theorem feasible_rows (P : Problem) (x : Point) : Feasible P x ↔
    (∀ k < P.width * P.horizon, 0 ≤ x.p k) ∧
    (∀ j < P.horizon, ∑ k ∈ Finset.range P.width, P.alpha k * x.p (j * P.width + k) =
      P.inputs.load.getD j 0 - P.inputs.pv.getD j 0) ∧
    (0 < P.horizon → ∑ k ∈ Finset.range P.width, P.Y 0 k * x.p k = P.inputs.soc) ∧
    (∀ j, j + 1 < P.horizon → ∑ k ∈ Finset.range (2 * P.width), P.gamma k * x.p (j * P.width + k) = 0) ∧
    (∀ j < P.horizon, ∀ i < P.height, ∑ k ∈ Finset.range P.width, P.block i k * x.p (j * P.width + k) ≤
      P.inequalityRhs (j * P.height + i)) ∧
    (P.genset = true → ∀ j < P.horizon, (x.u j = 0 ∨ x.u j = 1) ∧ P.static.gensetMin * x.u j ≤ x.p (8 * j) ∧
      x.p (8 * j) ≤ P.static.gensetMax * x.u j) := by
  constructor
  · intro h
    refine ⟨h.pos, fun j hj => ?_, fun h0 => ?_, fun j hj => ?_, fun j hj i hi => ?_, fun hg j hj => ⟨h.bool hg j hj, h.min hg j hj, h.max hg j hj⟩⟩
    · have := h.eq j (by omega)
      simp only [Problem.A, Problem.equalityRhs, if_pos hj] at this
      rw [row_X P x hj] at this
      exact this
    · have := h.eq P.horizon (by omega)
      simp only [Problem.A, Problem.equalityRhs, if_neg (lt_irrefl _), Nat.sub_self] at this
      rw [row_Y_zero P x h0] at this
      exact this
    · have := h.eq (P.horizon + (j + 1)) (by omega)
      simp only [Problem.A, Problem.equalityRhs, if_neg (show ¬ (P.horizon + (j + 1) < P.horizon) by omega),
        Nat.add_sub_cancel_left, if_neg (show ¬ (P.horizon + (j + 1) = P.horizon) by omega)] at this
      rw [row_Y_succ P x hj] at this
      exact this
    · have := h.le (j * P.height + i) (by have := block_fits (w := P.height) hj; omega)
      rw [row_C P x hj hi] at this
      exact this
  · rintro ⟨h1, h2, h3, h4, h5, h6⟩
    refine ⟨h1, fun r hr => ?_, fun r hr => ?_, fun hg j hj => (h6 hg j hj).1, fun hg j hj => (h6 hg j hj).2.1,
      fun hg j hj => (h6 hg j hj).2.2⟩
    · by_cases hj : r < P.horizon
      · simp only [Problem.A, Problem.equalityRhs, if_pos hj]
        rw [row_X P x hj]
        exact h2 r hj
      · obtain ⟨j, rfl⟩ := Nat.exists_eq_add_of_le (not_lt.mp hj)
        simp only [Problem.A, Problem.equalityRhs, if_neg hj, Nat.add_sub_cancel_left]
        cases j with
        | zero =>
          rw [row_Y_zero P x (by omega), if_pos (by omega)]
          exact h3 (by omega)
        | succ j =>
          rw [row_Y_succ P x (by omega), if_neg (by omega)]
          exact h4 j (by omega)
    · have h0 := height_pos P
      have hj : r / P.height < P.horizon := Nat.div_lt_of_lt_mul hr
      have hi : r % P.height < P.height := Nat.mod_lt r h0
      have he : r / P.height * P.height + r % P.height = r := Nat.div_add_mod' r P.height
      have := h5 _ hj _ hi
      rw [← row_C P x hj hi, he] at this
      exact this

theorem rhs_row (P : Problem) (j : Nat) {i : Nat} (hi : i < P.height) : P.inequalityRhs (j * P.height + i) =
    (let i := if P.genset then i else i + 1
     if i = 0 then P.static.gensetMax
     else if i = 1 then P.inputs.eMax
     else if i = 2 then -P.inputs.eMin
     else if i = 3 then P.inputs.pCharge
     else if i = 4 then P.inputs.pDischarge
     else if i = 5 then P.inputs.pImport * P.inputs.grid.getD j 0
     else if i = 6 then P.inputs.pExport * P.inputs.grid.getD j 0
     else if i = 7 then P.inputs.pv.getD j 0
     else P.inputs.load.getD j 0) := by
  have h0 := height_pos P
  have d1 : (j * P.height + i) / P.height = j := by
    rw [Nat.mul_comm, Nat.mul_add_div h0, Nat.div_eq_of_lt hi, Nat.add_zero]
  have m1 : (j * P.height + i) % P.height = i := by
    rw [Nat.mul_comm, Nat.mul_add_mod, Nat.mod_eq_of_lt hi]
  unfold Problem.inequalityRhs
  rw [d1, m1]

/-- All rows of the block of one step, with a genset. -/
theorem all_nine (q : Nat → Prop) : (∀ i < 9, q i) ↔ q 0 ∧ q 1 ∧ q 2 ∧ q 3 ∧ q 4 ∧ q 5 ∧ q 6 ∧ q 7 ∧ q 8 := by
  constructor
  · intro h
    exact ⟨h _ (by omega), h _ (by omega), h _ (by omega), h _ (by omega), h _ (by omega), h _ (by omega), h _ (by omega),
      h _ (by omega), h _ (by omega)⟩
  · rintro ⟨h0, h1, h2, h3, h4, h5, h6, h7, h8⟩ i hi
    interval_cases i <;> assumption

@[inherit_doc all_nine]
theorem all_eight (q : Nat → Prop) : (∀ i < 8, q i) ↔ q 0 ∧ q 1 ∧ q 2 ∧ q 3 ∧ q 4 ∧ q 5 ∧ q 6 ∧ q 7 := by
  constructor
  · intro h
    exact ⟨h _ (by omega), h _ (by omega), h _ (by omega), h _ (by omega), h _ (by omega), h _ (by omega), h _ (by omega),
      h _ (by omega)⟩
  · rintro ⟨h0, h1, h2, h3, h4, h5, h6, h7⟩ i hi
    interval_cases i <;> assumption

@[inherit_doc all_nine]
theorem all_seven (q : Nat → Prop) : (∀ i < 7, q i) ↔ q 0 ∧ q 1 ∧ q 2 ∧ q 3 ∧ q 4 ∧ q 5 ∧ q 6 := by
  constructor
  · intro h
    exact ⟨h _ (by omega), h _ (by omega), h _ (by omega), h _ (by omega), h _ (by omega), h _ (by omega), h _ (by omega)⟩
  · rintro ⟨h0, h1, h2, h3, h4, h5, h6⟩ i hi
    interval_cases i <;> assumption

theorem all_vars (w h : Nat) (q : Nat → Prop) (hw : 0 < w) :
    (∀ k < w * h, q k) ↔ ∀ j < h, ∀ i < w, q (w * j + i) := by
  constructor
  · intro hq j hj i hi
    have := block_fits (w := w) hj
    exact hq _ (by rw [Nat.mul_comm w j]; omega)
  · intro hq k hk
    have := hq (k / w) (Nat.div_lt_of_lt_mul hk) (k % w) (Nat.mod_lt k hw)
    rwa [Nat.div_add_mod] at this

/-- The conditions on one step, `before` being the state of charge at its start. -/
theorem step_true {P : Problem} (hg : P.genset = true) (j : Nat) (before on : ℚ) (q : Nat → ℚ) :
    StepOK P j before on ⟨q 0, q 1, q 2, q 3, q 4, q 5, q 6, q 7⟩ ↔
      (∀ i < 8, 0 ≤ q i) ∧ ∑ k ∈ Finset.range P.width, P.alpha k * q k = P.inputs.load.getD j 0 - P.inputs.pv.getD j 0 ∧
      ∑ k ∈ Finset.range P.width, P.Y 0 k * q k = before ∧
      (∀ i < P.height, ∑ k ∈ Finset.range P.width, P.block i k * q k ≤ P.inequalityRhs (j * P.height + i)) ∧
      (on = 0 ∨ on = 1) ∧ P.static.gensetMin * on ≤ q 0 ∧ q 0 ≤ P.static.gensetMax * on := by
  have hw : P.width = 8 := by simp [Problem.width, hg]
  have hh : P.height = 9 := by simp [Problem.height, hg]
  have e1 : ∑ k ∈ Finset.range P.width, P.alpha k * q k = q 0 + q 1 - q 2 - q 3 + q 4 - q 5 + q 6 := by
    rw [hw]
    simp [Finset.sum_range_succ, Problem.alpha, hg]
    ring
  have e2 : ∑ k ∈ Finset.range P.width, P.Y 0 k * q k =
      q 7 - (P.static.eta * q 3 - q 4 / P.static.eta) / P.static.capacity := by
    rw [hw]
    simp only [Finset.sum_range_succ, Finset.sum_range_zero, Problem.Y, hg, if_true]
    simp
    ring
  have e3 : ∀ i, ∑ k ∈ Finset.range P.width, P.block i k * q k = ∑ k ∈ Finset.range 8, Problem.fullBlock i k * q k := by
    intro i
    rw [hw]
    simp [Problem.block, hg]
  have e4 : (∀ i < P.height, ∑ k ∈ Finset.range P.width, P.block i k * q k ≤ P.inequalityRhs (j * P.height + i)) ↔
      q 0 ≤ P.static.gensetMax ∧ q 7 ≤ P.inputs.eMax ∧ -q 7 ≤ -P.inputs.eMin ∧ q 3 ≤ P.inputs.pCharge ∧
        q 4 ≤ P.inputs.pDischarge ∧ q 1 ≤ P.inputs.pImport * P.inputs.grid.getD j 0 ∧
        q 2 ≤ P.inputs.pExport * P.inputs.grid.getD j 0 ∧ q 5 ≤ P.inputs.pv.getD j 0 ∧ q 6 ≤ P.inputs.load.getD j 0 := by
    have : (∀ i < P.height, ∑ k ∈ Finset.range P.width, P.block i k * q k ≤ P.inequalityRhs (j * P.height + i)) ↔
        ∀ i < 9, ∑ k ∈ Finset.range 8, Problem.fullBlock i k * q k ≤
          (if i = 0 then P.static.gensetMax
           else if i = 1 then P.inputs.eMax
           else if i = 2 then -P.inputs.eMin
           else if i = 3 then P.inputs.pCharge
           else if i = 4 then P.inputs.pDischarge
           else if i = 5 then P.inputs.pImport * P.inputs.grid.getD j 0
           else if i = 6 then P.inputs.pExport * P.inputs.grid.getD j 0
           else if i = 7 then P.inputs.pv.getD j 0
           else P.inputs.load.getD j 0) := by
      constructor
      · intro h i hi
        have := h i (by omega)
        rw [e3, rhs_row P j (by omega)] at this
        simpa only [hg, if_true] using this
      · intro h i hi
        have := h i (by omega)
        rw [e3, rhs_row P j hi]
        simpa only [hg, if_true] using this
    rw [this, all_nine]
    simp [Problem.fullBlock]
  rw [e1, e2, e4, all_eight]
  constructor
  · intro h
    have hn := h.genset
    rw [if_pos hg] at hn
    simp only at hn
    have := h.balance
    have := h.dynamics
    have := h.window
    have := h.charge
    have := h.discharge
    have := h.imp
    have := h.exp
    have := h.curtailed
    have := h.loss
    have := h.soc
    simp only at *
    rcases hn with ⟨rfl, h0, h1⟩ | ⟨rfl, h0, h1, h2⟩
    · exact ⟨⟨by linarith, by tauto, by tauto, by tauto, by tauto, by tauto, by tauto, by tauto⟩, by linarith, by linarith,
        ⟨by linarith, by tauto, by linarith, by tauto, by tauto, by tauto, by tauto, by tauto, by tauto⟩, .inl rfl, by linarith,
        by linarith⟩
    · exact ⟨⟨by linarith, by tauto, by tauto, by tauto, by tauto, by tauto, by tauto, by tauto⟩, by linarith, by linarith,
        ⟨by linarith, by tauto, by linarith, by tauto, by tauto, by tauto, by tauto, by tauto, by tauto⟩, .inr rfl, by linarith,
        by linarith⟩
  · rintro ⟨⟨n0, n1, n2, n3, n4, n5, n6, n7⟩, hb, hd, ⟨l0, l1, l2, l3, l4, l5, l6, l7, l8⟩, hu, hmin, hmax⟩
    refine ⟨by simp only; linarith, by simp only; linarith, ⟨by simp only; linarith, l1⟩, ⟨n3, l3⟩, ⟨n4, l4⟩, ⟨n1, l5⟩, ⟨n2, l6⟩,
      ⟨n5, l7⟩, ⟨n6, l8⟩, n7, ?_⟩
    rw [if_pos hg]
    simp only
    rcases hu with rfl | rfl
    · exact .inl ⟨rfl, by linarith, by linarith⟩
    · exact .inr ⟨rfl, n0, by linarith, by linarith⟩

@[inherit_doc step_true]
theorem step_false {P : Problem} (hg : P.genset = false) (j : Nat) (before on : ℚ) (q : Nat → ℚ) :
    StepOK P j before on ⟨0, q 0, q 1, q 2, q 3, q 4, q 5, q 6⟩ ↔
      (∀ i < 7, 0 ≤ q i) ∧ ∑ k ∈ Finset.range P.width, P.alpha k * q k = P.inputs.load.getD j 0 - P.inputs.pv.getD j 0 ∧
      ∑ k ∈ Finset.range P.width, P.Y 0 k * q k = before ∧
      (∀ i < P.height, ∑ k ∈ Finset.range P.width, P.block i k * q k ≤ P.inequalityRhs (j * P.height + i)) := by
  have hw : P.width = 7 := by simp [Problem.width, hg]
  have hh : P.height = 8 := by simp [Problem.height, hg]
  have e1 : ∑ k ∈ Finset.range P.width, P.alpha k * q k = q 0 - q 1 - q 2 + q 3 - q 4 + q 5 := by
    rw [hw]
    simp [Finset.sum_range_succ, Problem.alpha, hg]
    ring
  have e2 : ∑ k ∈ Finset.range P.width, P.Y 0 k * q k =
      q 6 - (P.static.eta * q 2 - q 3 / P.static.eta) / P.static.capacity := by
    rw [hw]
    simp only [Finset.sum_range_succ, Finset.sum_range_zero, Problem.Y, hg, if_true]
    simp
    ring
  have e3 : ∀ i, ∑ k ∈ Finset.range P.width, P.block i k * q k =
      ∑ k ∈ Finset.range 7, Problem.fullBlock (i + 1) (k + 1) * q k := by
    intro i
    rw [hw]
    simp [Problem.block, hg]
  have e4 : (∀ i < P.height, ∑ k ∈ Finset.range P.width, P.block i k * q k ≤ P.inequalityRhs (j * P.height + i)) ↔
      q 6 ≤ P.inputs.eMax ∧ -q 6 ≤ -P.inputs.eMin ∧ q 2 ≤ P.inputs.pCharge ∧
        q 3 ≤ P.inputs.pDischarge ∧ q 0 ≤ P.inputs.pImport * P.inputs.grid.getD j 0 ∧
        q 1 ≤ P.inputs.pExport * P.inputs.grid.getD j 0 ∧ q 4 ≤ P.inputs.pv.getD j 0 ∧ q 5 ≤ P.inputs.load.getD j 0 := by
    have : (∀ i < P.height, ∑ k ∈ Finset.range P.width, P.block i k * q k ≤ P.inequalityRhs (j * P.height + i)) ↔
        ∀ i < 8, ∑ k ∈ Finset.range 7, Problem.fullBlock (i + 1) (k + 1) * q k ≤
          (if i + 1 = 0 then P.static.gensetMax
           else if i + 1 = 1 then P.inputs.eMax
           else if i + 1 = 2 then -P.inputs.eMin
           else if i + 1 = 3 then P.inputs.pCharge
           else if i + 1 = 4 then P.inputs.pDischarge
           else if i + 1 = 5 then P.inputs.pImport * P.inputs.grid.getD j 0
           else if i + 1 = 6 then P.inputs.pExport * P.inputs.grid.getD j 0
           else if i + 1 = 7 then P.inputs.pv.getD j 0
           else P.inputs.load.getD j 0) := by
      constructor
      · intro h i hi
        have := h i (by omega)
        rw [e3, rhs_row P j (by omega)] at this
        simpa only [hg, Bool.false_eq_true, if_false] using this
      · intro h i hi
        have := h i (by omega)
        rw [e3, rhs_row P j hi]
        simpa only [hg, Bool.false_eq_true, if_false] using this
    rw [this, all_eight]
    simp [Problem.fullBlock]
  rw [e1, e2, e4, all_seven]
  constructor
  · intro h
    have := h.balance
    have := h.dynamics
    have := h.window
    have := h.charge
    have := h.discharge
    have := h.imp
    have := h.exp
    have := h.curtailed
    have := h.loss
    have := h.soc
    simp only at *
    exact ⟨⟨by tauto, by tauto, by tauto, by tauto, by tauto, by tauto, by tauto⟩, by linarith, by linarith,
        ⟨by tauto, by linarith, by tauto, by tauto, by tauto, by tauto, by tauto, by tauto⟩⟩
  · rintro ⟨⟨n1, n2, n3, n4, n5, n6, n7⟩, hb, hd, ⟨l1, l2, l3, l4, l5, l6, l7, l8⟩⟩
    exact ⟨by simp only; linarith, by simp only; linarith, ⟨by simp only; linarith, l1⟩, ⟨n3, l3⟩, ⟨n4, l4⟩, ⟨n1, l5⟩, ⟨n2, l6⟩,
      ⟨n5, l7⟩, ⟨n6, l8⟩, n7, by simp [hg]⟩

/-- A later row of the battery dynamics, in terms of the first one. -/
theorem gamma_sum (P : Problem) (q : Nat → ℚ) : ∑ k ∈ Finset.range (2 * P.width), P.gamma k * q k =
    ∑ k ∈ Finset.range P.width, P.Y 0 k * q (P.width + k) - q (P.width - 1) := by
  cases hg : P.genset with
  | true =>
    have hw : P.width = 8 := by simp [Problem.width, hg]
    rw [hw]
    simp [Finset.sum_range_succ, Problem.gamma, Problem.Y, hg]
    ring
  | false =>
    have hw : P.width = 7 := by simp [Problem.width, hg]
    rw [hw]
    simp [Finset.sum_range_succ, Problem.gamma, Problem.Y, hg]
    ring

/-- The constraints of the matrices are those of physically possible plans. -/
theorem feasible_iff (P : Problem) (x : Point) : Feasible P x ↔ Admissible P (x.flow P.genset) x.u := by
  rw [feasible_rows, all_vars _ _ _ (width_pos P)]
  have dyn : ((0 < P.horizon → ∑ k ∈ Finset.range P.width, P.Y 0 k * x.p k = P.inputs.soc) ∧
      (∀ j, j + 1 < P.horizon → ∑ k ∈ Finset.range (2 * P.width), P.gamma k * x.p (j * P.width + k) = 0)) ↔
      ∀ j < P.horizon, ∑ k ∈ Finset.range P.width, P.Y 0 k * x.p (P.width * j + k) = socBefore P (x.flow P.genset) j := by
    have last : ∀ j, (x.flow P.genset j).soc = x.p (P.width * j + (P.width - 1)) := by
      intro j
      cases hg : P.genset <;> simp [Point.flow, Problem.width, hg]
    have each : ∀ j, ∑ k ∈ Finset.range (2 * P.width), P.gamma k * x.p (j * P.width + k) =
        ∑ k ∈ Finset.range P.width, P.Y 0 k * x.p (P.width * (j + 1) + k) - (x.flow P.genset j).soc := by
      intro j
      rw [gamma_sum P fun k => x.p (j * P.width + k), last, Nat.mul_comm j]
      simp only [Nat.mul_succ, Nat.add_assoc]
    constructor
    · rintro ⟨h0, h1⟩ j hj
      cases j with
      | zero => simpa [socBefore] using h0 hj
      | succ j =>
        have := h1 j hj
        rw [each] at this
        simp only [socBefore]
        linarith
    · intro h
      refine ⟨fun h0 => by simpa [socBefore] using h 0 h0, fun j hj => ?_⟩
      rw [each]
      have := h (j + 1) hj
      simp only [socBefore] at this
      linarith
  have c : ∀ j, j * P.width = P.width * j := fun j => Nat.mul_comm _ _
  simp only [c] at dyn ⊢
  cases hg : P.genset with
  | true =>
    have hw : P.width = 8 := by simp [Problem.width, hg]
    have e : ∀ j, x.flow true j = ⟨x.p (P.width * j + 0), x.p (P.width * j + 1), x.p (P.width * j + 2), x.p (P.width * j + 3),
          x.p (P.width * j + 4), x.p (P.width * j + 5), x.p (P.width * j + 6), x.p (P.width * j + 7)⟩ := by
      intro j; rw [hw]; rfl
    have key : ∀ j, StepOK P j (socBefore P (x.flow true) j) (x.u j) ⟨x.p (P.width * j + 0), x.p (P.width * j + 1), x.p (P.width * j + 2), x.p (P.width * j + 3),
          x.p (P.width * j + 4), x.p (P.width * j + 5), x.p (P.width * j + 6), x.p (P.width * j + 7)⟩ ↔ _ := fun j =>
      step_true hg j (socBefore P (x.flow true) j) (x.u j) fun k => x.p (P.width * j + k)
    have w0 : ∀ j, P.width * j + 0 = 8 * j := fun j => by rw [hw]; rfl
    rw [hg] at dyn
    constructor
    · rintro ⟨h1, h2, h3, h4, h5, h6⟩ j hj
      rw [e, key, w0]
      exact ⟨fun i hi => h1 j hj i (by omega), h2 j hj, dyn.mp ⟨h3, h4⟩ j hj, h5 j hj, h6 rfl j hj⟩
    · intro h
      have hk := fun j hj => (key j).mp (e j ▸ h j hj)
      have hd := dyn.mpr fun j hj => (hk j hj).2.2.1
      refine ⟨fun j hj i hi => (hk j hj).1 i (by omega), fun j hj => (hk j hj).2.1, hd.1, hd.2,
        fun j hj => (hk j hj).2.2.2.1, fun _ j hj => ?_⟩
      have := (hk j hj).2.2.2.2
      rwa [w0] at this
  | false =>
    have hw : P.width = 7 := by simp [Problem.width, hg]
    have e : ∀ j, x.flow false j = ⟨0, x.p (P.width * j + 0), x.p (P.width * j + 1), x.p (P.width * j + 2), x.p (P.width * j + 3),
          x.p (P.width * j + 4), x.p (P.width * j + 5), x.p (P.width * j + 6)⟩ := by
      intro j; rw [hw]; rfl
    have key : ∀ j, StepOK P j (socBefore P (x.flow false) j) (x.u j) ⟨0, x.p (P.width * j + 0), x.p (P.width * j + 1), x.p (P.width * j + 2), x.p (P.width * j + 3),
          x.p (P.width * j + 4), x.p (P.width * j + 5), x.p (P.width * j + 6)⟩ ↔ _ := fun j =>
      step_false hg j (socBefore P (x.flow false) j) (x.u j) fun k => x.p (P.width * j + k)
    rw [hg] at dyn
    constructor
    · rintro ⟨h1, h2, h3, h4, h5, -⟩ j hj
      rw [e, key]
      exact ⟨fun i hi => h1 j hj i (by omega), h2 j hj, dyn.mp ⟨h3, h4⟩ j hj, h5 j hj⟩
    · intro h
      have hk := fun j hj => (key j).mp (e j ▸ h j hj)
      have hd := dyn.mpr fun j hj => (hk j hj).2.2.1
      exact ⟨fun j hj i hi => (hk j hj).1 i (by omega), fun j hj => (hk j hj).2.1, hd.1, hd.2,
        fun j hj => (hk j hj).2.2.2, fun hf => by simp at hf⟩

/-- A point with given energies. -/
def ofFlows (genset : Bool) (f : Nat → Flow) (on : Nat → ℚ) : Point :=
  { p := fun k =>
      let v : Flow → List ℚ := fun f => [f.genset, f.imp, f.exp, f.charge, f.discharge, f.curtailed, f.loss, f.soc]
      if genset then (v (f (k / 8))).getD (k % 8) 0 else (v (f (k / 7))).getD (k % 7 + 1) 0
    u := on }

theorem ofFlows_flow (genset : Bool) (f : Nat → Flow) (on : Nat → ℚ) (j : Nat) (h : genset = false → (f j).genset = 0) :
    (ofFlows genset f on).flow genset j = f j := by
  have d8 : ∀ i < 8, (8 * j + i) / 8 = j ∧ (8 * j + i) % 8 = i := by intro i hi; omega
  have d7 : ∀ i < 7, (7 * j + i) / 7 = j ∧ (7 * j + i) % 7 = i := by intro i hi; omega
  cases genset with
  | true =>
    simp only [ofFlows, Point.flow, if_true]
    have e0 : 8 * j / 8 = j ∧ 8 * j % 8 = 0 := d8 0 (by omega)
    rw [e0.1, e0.2, (d8 1 (by omega)).1, (d8 1 (by omega)).2, (d8 2 (by omega)).1, (d8 2 (by omega)).2, (d8 3 (by omega)).1,
      (d8 3 (by omega)).2, (d8 4 (by omega)).1, (d8 4 (by omega)).2, (d8 5 (by omega)).1, (d8 5 (by omega)).2,
      (d8 6 (by omega)).1, (d8 6 (by omega)).2, (d8 7 (by omega)).1, (d8 7 (by omega)).2]
    rfl
  | false =>
    simp only [ofFlows, Point.flow, Bool.false_eq_true, if_false]
    have e0 : 7 * j / 7 = j ∧ 7 * j % 7 = 0 := d7 0 (by omega)
    rw [e0.1, e0.2, (d7 1 (by omega)).1, (d7 1 (by omega)).2, (d7 2 (by omega)).1, (d7 2 (by omega)).2, (d7 3 (by omega)).1,
      (d7 3 (by omega)).2, (d7 4 (by omega)).1, (d7 4 (by omega)).2, (d7 5 (by omega)).1, (d7 5 (by omega)).2,
      (d7 6 (by omega)).1, (d7 6 (by omega)).2]
    have := h rfl
    generalize f j = y at this ⊢
    rcases y with ⟨g, i, e, c, d, k, l, s⟩
    simp only at this
    subst this
    rfl

theorem socBefore_congr {P : Problem} {f f' : Nat → Flow} (h : ∀ j < P.horizon, f j = f' j) {j : Nat} (hj : j < P.horizon) :
    socBefore P f j = socBefore P f' j := by
  cases j with
  | zero => rfl
  | succ j => simp only [socBefore, h j (by omega)]

/-- Every physically possible plan is a feasible point. -/
theorem admissible_feasible {P : Problem} {f : Nat → Flow} {on : Nat → ℚ} (h : Admissible P f on) :
    Feasible P (ofFlows P.genset f on) ∧ ∀ j < P.horizon, (ofFlows P.genset f on).flow P.genset j = f j := by
  have he : ∀ j < P.horizon, (ofFlows P.genset f on).flow P.genset j = f j := by
    intro j hj
    apply ofFlows_flow
    intro hg
    have := (h j hj).genset
    simpa [hg] using this
  refine ⟨(feasible_iff P _).mpr fun j hj => ?_, he⟩
  rw [he j hj, socBefore_congr he hj]
  exact h j hj

/-- The objective, step by step. -/
theorem objective_eq (P : Problem) (x : Point) : objective P x =
    ∑ j ∈ Finset.range P.horizon, (billed P j (x.flow P.genset j) +
      2 * (P.inputs.exportPrice.getD j 0 * (x.flow P.genset j).exp)) := by
  unfold objective
  rw [sum_steps]
  apply Finset.sum_congr rfl
  intro j _
  cases hg : P.genset with
  | true =>
    have hw : P.width = 8 := by simp [Problem.width, hg]
    have hc : ∀ i < 8, P.costs (8 * j + i) =
        (if i = 0 then P.static.fuel + P.static.costCo2 * P.static.gensetCo2
         else if i = 1 then P.inputs.importPrice.getD j 0 + P.inputs.gridCo2.getD j 0 * P.inputs.costCo2
         else if i = 2 then P.inputs.exportPrice.getD j 0 else if i = 3 then P.static.cycle else if i = 4 then P.static.cycle
         else if i = 6 then P.static.lossLoad else 0) := by
      intro i hi
      have h1 : (8 * j + i) / 8 = j := by omega
      have h2 : (8 * j + i) % 8 = i := by omega
      simp only [Problem.costs, hw, hg, if_true, h1, h2]
    have : ∑ k ∈ Finset.range P.width, P.costs (P.width * j + k) * x.p (P.width * j + k) =
        ∑ k ∈ Finset.range 8, (if k = 0 then P.static.fuel + P.static.costCo2 * P.static.gensetCo2
         else if k = 1 then P.inputs.importPrice.getD j 0 + P.inputs.gridCo2.getD j 0 * P.inputs.costCo2
         else if k = 2 then P.inputs.exportPrice.getD j 0 else if k = 3 then P.static.cycle else if k = 4 then P.static.cycle
         else if k = 6 then P.static.lossLoad else 0) * x.p (8 * j + k) := by
      rw [hw]
      apply Finset.sum_congr rfl
      intro k hk
      rw [hc k (Finset.mem_range.mp hk)]
    rw [this]
    simp only [Finset.sum_range_succ, Finset.sum_range_zero, billed, Point.flow, if_true]
    simp
    ring
  | false =>
    have hw : P.width = 7 := by simp [Problem.width, hg]
    have hc : ∀ i < 7, P.costs (7 * j + i) =
        (if i + 1 = 0 then P.static.fuel + P.static.costCo2 * P.static.gensetCo2
         else if i + 1 = 1 then P.inputs.importPrice.getD j 0 + P.inputs.gridCo2.getD j 0 * P.inputs.costCo2
         else if i + 1 = 2 then P.inputs.exportPrice.getD j 0 else if i + 1 = 3 then P.static.cycle
         else if i + 1 = 4 then P.static.cycle
         else if i + 1 = 6 then P.static.lossLoad else 0) := by
      intro i hi
      have h1 : (7 * j + i) / 7 = j := by omega
      have h2 : (7 * j + i) % 7 = i := by omega
      simp only [Problem.costs, hw, hg, Bool.false_eq_true, if_false, h1, h2]
    have : ∑ k ∈ Finset.range P.width, P.costs (P.width * j + k) * x.p (P.width * j + k) =
        ∑ k ∈ Finset.range 7, (if k + 1 = 0 then P.static.fuel + P.static.costCo2 * P.static.gensetCo2
         else if k + 1 = 1 then P.inputs.importPrice.getD j 0 + P.inputs.gridCo2.getD j 0 * P.inputs.costCo2
         else if k + 1 = 2 then P.inputs.exportPrice.getD j 0 else if k + 1 = 3 then P.static.cycle
         else if k + 1 = 4 then P.static.cycle
         else if k + 1 = 6 then P.static.lossLoad else 0) * x.p (7 * j + k) := by
      rw [hw]
      apply Finset.sum_congr rfl
      intro k hk
      rw [hc k (Finset.mem_range.mp hk)]
    rw [this]
    simp only [Finset.sum_range_succ, Finset.sum_range_zero, billed, Point.flow, Bool.false_eq_true, if_false]
    simp
    ring

/-- Doing nothing is a plan. -/
theorem exists_feasible {P : Problem} (hp : P.Good) (hs : P.inputs.eMin ≤ P.inputs.soc ∧ P.inputs.soc ≤ P.inputs.eMax) :
    ∃ y, Feasible P y := by
  let f : Nat → Flow := fun j => { curtailed := P.inputs.pv.getD j 0, loss := P.inputs.load.getD j 0, soc := P.inputs.soc }
  have hb : ∀ j, socBefore P f j = P.inputs.soc := by
    intro j
    cases j <;> rfl
  have h : Admissible P f fun _ => 0 := by
    intro j hj
    have hst : 0 ≤ P.inputs.grid.getD j 0 := by rcases hp.grid j hj with h | h <;> rw [h]; exact zero_le_one
    rw [hb]
    refine ⟨by simp only [f]; ring, by simp [f], hs, ⟨le_rfl, hp.pCharge⟩, ⟨le_rfl, hp.pDischarge⟩,
      ⟨le_rfl, mul_nonneg hp.pImport hst⟩, ⟨le_rfl, mul_nonneg hp.pExport hst⟩, ⟨hp.pv j hj, le_rfl⟩, ⟨hp.load j hj, le_rfl⟩,
      le_trans hp.window hs.1, ?_⟩
    split
    · exact .inl ⟨rfl, rfl, le_trans hp.gensetMin hp.gensetMax⟩
    · rfl
  exact ⟨_, (admissible_feasible h).1⟩

end Pymgrid.MPC
