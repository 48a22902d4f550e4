import Verif.Spec.Foresight
import Verif.Lemmas.PlanCarried
import Verif.Lemmas.Ledger
import Verif.Lemmas.GridSetters
import Verif.Props.MPC

set_option autoImplicit false

/-! Runs on plans made with perfect forecasts, against arbitrary runs. -/

namespace Pymgrid.MPC

/-- One step with less (or more) energy in the store than in some other step: never export, take from the store what is there,
    and never store what is not produced or imported. -/
theorem follow_step {pD pC pI W L gam lam pri lo hi S S' bp ba gp ga w up ua : ℚ} (hlam : 0 ≤ lam) (hgam : 0 ≤ gam)
    (hpri : 0 ≤ pri) (hL : 0 ≤ L)
    (h1 : 0 ≤ bp) (h2 : bp ≤ pD) (h3 : 0 ≤ ba) (h4 : ba ≤ pC) (h5 : bp = 0 ∨ ba = 0) (h6 : 0 ≤ gp) (h7 : gp ≤ pI) (h8 : 0 ≤ ga)
    (h9 : 0 ≤ w) (h10 : w ≤ W) (h11 : 0 ≤ up) (h12 : 0 ≤ ua) (bal : bp + gp + w + up = L + ba + ga + ua)
    (hw : lo ≤ S + ba - bp) (hw' : S + ba - bp ≤ hi) (hs : lo ≤ S') (hs' : S' ≤ hi) :
    ∃ b c i v l : ℚ, 0 ≤ b ∧ b ≤ pD ∧ 0 ≤ c ∧ c ≤ pC ∧ 0 ≤ i ∧ i ≤ pI ∧ 0 ≤ v ∧ v ≤ W ∧ 0 ≤ l ∧ l ≤ L ∧
      b + i + v + l = L + c ∧ lo ≤ S' + c - b ∧ S' + c - b ≤ hi ∧
      pri * i + gam * (b + c) + lam * l + lam * max 0 (S + ba - bp - (S' + c - b)) ≤
        pri * gp + gam * (bp + ba) + lam * up + lam * max 0 (S - S') := by
  have fin : ∀ b c i l : ℚ, i ≤ gp → b + c ≤ bp + ba → l + max 0 (S + ba - bp - (S' + c - b)) ≤ up + max 0 (S - S') →
      pri * i + gam * (b + c) + lam * l + lam * max 0 (S + ba - bp - (S' + c - b)) ≤
        pri * gp + gam * (bp + ba) + lam * up + lam * max 0 (S - S') := by
    intro b c i l a1 a2 a3
    have b1 := mul_le_mul_of_nonneg_left a1 hpri
    have b2 := mul_le_mul_of_nonneg_left a2 hgam
    have b3 := mul_le_mul_of_nonneg_left a3 hlam
    rw [mul_add, mul_add] at b3
    linarith
  have mx : ∀ y z : ℚ, 0 ≤ z → y ≤ z → max 0 y ≤ z := fun y z h1 h2 => max_le h1 h2
  have m1 := le_max_left 0 (S - S')
  have m2 := le_max_right 0 (S - S')
  by_cases hba : ba = 0
  · subst hba
    obtain ⟨b0, e0, f1, f2, f3⟩ : ∃ b0, (b0 = bp ∨ b0 = S' - lo) ∧ b0 ≤ bp ∧ b0 ≤ S' - lo ∧ 0 ≤ b0 := by
      by_cases hh : bp ≤ S' - lo
      · exact ⟨bp, .inl rfl, le_refl _, hh, h1⟩
      · exact ⟨S' - lo, .inr rfl, by linarith, le_refl _, by linarith⟩
    by_cases c1 : b0 + gp + w ≤ L
    · refine ⟨b0, 0, gp, w, L - b0 - gp - w, f3, by linarith, le_refl _, by linarith, h6, h7, h9, h10, by linarith, by linarith,
        by ring, by linarith, by linarith, fin _ _ _ _ (le_refl _) (by linarith) ?_⟩
      have := mx (S + 0 - bp - (S' + 0 - b0)) (up + max 0 (S - S') - (L - b0 - gp - w))
        (by rcases e0 with e | e <;> subst e <;> linarith) (by rcases e0 with e | e <;> subst e <;> linarith)
      linarith
    · by_cases c2 : gp + w ≤ L
      · refine ⟨L - gp - w, 0, gp, w, 0, by linarith, by linarith, le_refl _, by linarith, h6, h7, h9, h10, le_refl _, hL,
          by ring, by linarith, by linarith, fin _ _ _ _ (le_refl _) (by linarith) ?_⟩
        have := mx (S + 0 - bp - (S' + 0 - (L - gp - w))) (up + max 0 (S - S'))
          (by linarith) (by linarith)
        linarith
      · have key : (0 : ℚ) + max 0 (S + 0 - bp - (S' + 0 - 0)) ≤ up + max 0 (S - S') := by
          have := mx (S + 0 - bp - (S' + 0 - 0)) (up + max 0 (S - S')) (by linarith) (by linarith)
          linarith
        by_cases c3 : w ≤ L
        · exact ⟨0, 0, L - w, w, 0, le_refl _, by linarith, le_refl _, by linarith, by linarith, by linarith, h9, h10, le_refl _, hL,
            by ring, by linarith, by linarith, fin _ _ _ _ (by linarith) (by linarith) key⟩
        · exact ⟨0, 0, 0, L, 0, le_refl _, by linarith, le_refl _, by linarith, le_refl _, by linarith, hL, by linarith, le_refl _, hL,
            by ring, by linarith, by linarith, fin _ _ _ _ h6 (by linarith) key⟩
  · have hbp : bp = 0 := h5.resolve_right hba
    subst hbp
    by_cases c1 : gp + w ≤ L
    · refine ⟨0, 0, gp, w, L - gp - w, le_refl _, h2, le_refl _, by linarith, h6, h7, h9, h10, by linarith, by linarith,
        by ring, by linarith, by linarith, fin _ _ _ _ (le_refl _) (by linarith) ?_⟩
      have := mx (S + ba - 0 - (S' + 0 - 0)) (up + max 0 (S - S') - (L - gp - w)) (by linarith) (by linarith)
      linarith
    · obtain ⟨c, e, f1, f2, f3, f4⟩ : ∃ c, (c = ba ∨ c = hi - S' ∨ c = gp + w - L) ∧ c ≤ ba ∧ c ≤ hi - S' ∧ c ≤ gp + w - L ∧ 0 ≤ c := by
        refine ⟨min ba (min (hi - S') (gp + w - L)), ?_, min_le_left _ _, (min_le_right _ _).trans (min_le_left _ _),
          (min_le_right _ _).trans (min_le_right _ _), le_min h3 (le_min (by linarith) (by linarith))⟩
        rcases min_choice ba (min (hi - S') (gp + w - L)) with e | e
        · exact .inl e
        · rcases min_choice (hi - S') (gp + w - L) with e' | e' <;> rw [e, e']
          · exact .inr (.inl rfl)
          · exact .inr (.inr rfl)
      have key : (0 : ℚ) + max 0 (S + ba - 0 - (S' + c - 0)) ≤ up + max 0 (S - S') := by
        have := mx (S + ba - 0 - (S' + c - 0)) (up + max 0 (S - S')) (by linarith)
          (by rcases e with e | e | e <;> linarith)
        linarith
      by_cases c2 : w ≤ L + c
      · exact ⟨0, c, L + c - w, w, 0, le_refl _, h2, f4, by linarith, by linarith, by linarith, h9, h10, le_refl _, hL,
          by ring, by linarith, by linarith, fin _ _ _ _ (by linarith) (by linarith) key⟩
      · exact ⟨0, c, 0, L + c, 0, le_refl _, h2, f4, by linarith, le_refl _, by linarith, by linarith, by linarith, le_refl _, hL,
          by ring, by linarith, by linarith, fin _ _ _ _ h6 (by linarith) key⟩

/-! ### Courses of events on known data -/

/-- The data of a microgrid, with those of each step. -/
structure Day where
  cap : ℚ
  eMin : ℚ
  pCharge : ℚ
  pDischarge : ℚ
  pImport : ℚ
  pExport : ℚ
  cycle : ℚ
  lossLoad : ℚ
  co2 : ℚ
  load : Nat → ℚ
  pv : Nat → ℚ
  price : Nat → ℚ
  co2s : Nat → ℚ

/-- The planning problem of step `c` alone. -/
def Day.at (D : Day) (c : Nat) : Problem where
  genset := false
  horizon := 1
  static := ⟨1, D.cap, 0, D.cycle, D.lossLoad, 0, 0, 0, 0⟩
  inputs := ⟨[D.load c], [D.pv c], [1], [D.price c], [0], 1, D.eMin, D.pCharge, D.pDischarge, D.pImport, D.pExport, 0, D.co2,
    [D.co2s c]⟩

/-- A course of events from step `c` and state of charge `s`. -/
def Path (D : Day) : Nat → ℚ → List Flow → Prop
  | _, _, [] => True
  | c, s, f :: fs => StepOK (D.at c) 0 s 0 f ∧ Path D (c + 1) f.soc fs

def pathCost (D : Day) : Nat → List Flow → ℚ
  | _, [] => 0
  | c, f :: fs => billed (D.at c) 0 f + pathCost D (c + 1) fs

/-- The problem shows the data from step `k` on. -/
structure Shows (D : Day) (k : Nat) (P : Problem) : Prop where
  genset : P.genset = false
  eta : P.static.eta = 1
  cap : P.static.capacity = D.cap
  cycle : P.static.cycle = D.cycle
  lossLoad : P.static.lossLoad = D.lossLoad
  eMax : P.inputs.eMax = 1
  eMin : P.inputs.eMin = D.eMin
  pCharge : P.inputs.pCharge = D.pCharge
  pDischarge : P.inputs.pDischarge = D.pDischarge
  pImport : P.inputs.pImport = D.pImport
  pExport : P.inputs.pExport = D.pExport
  co2 : P.inputs.costCo2 = D.co2
  rows : ∀ j < P.horizon, P.inputs.load.getD j 0 = D.load (k + j) ∧ P.inputs.pv.getD j 0 = D.pv (k + j) ∧
    P.inputs.grid.getD j 0 = 1 ∧ P.inputs.importPrice.getD j 0 = D.price (k + j) ∧ P.inputs.exportPrice.getD j 0 = 0 ∧
    P.inputs.gridCo2.getD j 0 = D.co2s (k + j)

/-- Nothing costs less than nothing, from step `a` to before step `b`. -/
structure Day.Fair (D : Day) (a b : Nat) : Prop where
  cap : 0 < D.cap
  eMin : 0 ≤ D.eMin
  pCharge : 0 ≤ D.pCharge
  pDischarge : 0 ≤ D.pDischarge
  pImport : 0 ≤ D.pImport
  pExport : 0 ≤ D.pExport
  cycle : 0 ≤ D.cycle
  lossLoad : 0 ≤ D.lossLoad
  rows : ∀ c, a ≤ c → c < b → 0 ≤ D.load c ∧ 0 ≤ D.pv c ∧ 0 ≤ D.price c + D.co2 * D.co2s c

theorem Day.Fair.mono {D : Day} {a b a' b' : Nat} (h : D.Fair a b) (ha : a ≤ a') (hb : b' ≤ b) : D.Fair a' b' :=
  ⟨h.cap, h.eMin, h.pCharge, h.pDischarge, h.pImport, h.pExport, h.cycle, h.lossLoad,
    fun c h1 h2 => h.rows c (by omega) (by omega)⟩

section
variable {D : Day} {k : Nat} {P : Problem}

theorem Shows.step (h : Shows D k P) {j : Nat} (hj : j < P.horizon) (s on : ℚ) (f : Flow) :
    StepOK P j s on f ↔ StepOK (D.at (k + j)) 0 s 0 f := by
  obtain ⟨r1, r2, r3, -, -, -⟩ := h.rows j hj
  have hg := h.genset
  constructor
  · rintro ⟨a1, a2, a3, a4, a5, a6, a7, a8, a9, a10, a11⟩
    rw [r1, r2] at a1
    rw [h.eta, h.cap] at a2
    rw [h.eMin, h.eMax] at a3
    rw [h.pCharge] at a4
    rw [h.pDischarge] at a5
    rw [h.pImport, r3] at a6
    rw [h.pExport, r3] at a7
    rw [r2] at a8
    rw [r1] at a9
    rw [hg] at a11
    exact ⟨a1, a2, a3, a4, a5, a6, a7, a8, a9, a10, a11⟩
  · rintro ⟨a1, a2, a3, a4, a5, a6, a7, a8, a9, a10, a11⟩
    refine ⟨?_, ?_, ?_, ?_, ?_, ?_, ?_, ?_, ?_, a10, ?_⟩
    · rw [r1, r2]; exact a1
    · rw [h.eta, h.cap]; exact a2
    · rw [h.eMin, h.eMax]; exact a3
    · rw [h.pCharge]; exact a4
    · rw [h.pDischarge]; exact a5
    · rw [h.pImport, r3]; exact a6
    · rw [h.pExport, r3]; exact a7
    · rw [r2]; exact a8
    · rw [r1]; exact a9
    · rw [hg]; exact a11

theorem billed_at (D : Day) (c : Nat) (f : Flow) : billed (D.at c) 0 f =
    (D.price c + D.co2 * D.co2s c) * f.imp + D.cycle * (f.charge + f.discharge) + D.lossLoad * f.loss := by
  simp only [billed, Day.at, List.getD_cons_zero]
  ring

theorem Shows.billed (h : Shows D k P) {j : Nat} (hj : j < P.horizon) {f : Flow} (hf : f.genset = 0) :
    billed P j f = billed (D.at (k + j)) 0 f := by
  obtain ⟨-, -, -, r4, r5, r6⟩ := h.rows j hj
  rw [billed_at]
  unfold MPC.billed
  rw [h.cycle, h.lossLoad, h.co2, r4, r5, r6, hf]
  ring

theorem Day.Fair.billed_nonneg {a b : Nat} (fair : D.Fair a b) {c : Nat} (h1 : a ≤ c) (h2 : c < b) {s : ℚ} {f : Flow}
    (hf : StepOK (D.at c) 0 s 0 f) : 0 ≤ billed (D.at c) 0 f := by
  rw [billed_at]
  have e1 := mul_nonneg (fair.rows c h1 h2).2.2 hf.imp.1
  have e2 := mul_nonneg fair.cycle (add_nonneg hf.charge.1 hf.discharge.1)
  have e3 := mul_nonneg fair.lossLoad hf.loss.1
  linarith

/-- The state of charge before step `j` of a list. -/
def before (s : ℚ) (fs : List Flow) : Nat → ℚ
  | 0 => s
  | j + 1 => (fs.getD j {}).soc

theorem Path.get {fs : List Flow} {c : Nat} {s : ℚ} (h : Path D c s fs) :
    ∀ j < fs.length, StepOK (D.at (c + j)) 0 (before s fs j) 0 (fs.getD j {}) := by
  induction fs generalizing c s with
  | nil => intro j hj; simp at hj
  | cons f fs ih =>
    intro j hj
    cases j with
    | zero => exact h.1
    | succ j =>
      have := ih h.2 j (by simpa using hj)
      rw [show c + (j + 1) = c + 1 + j by omega]
      cases j <;> exact this

theorem pathCost_sum (D : Day) (c : Nat) (fs : List Flow) :
    pathCost D c fs = ∑ j ∈ Finset.range fs.length, billed (D.at (c + j)) 0 (fs.getD j {}) := by
  induction fs generalizing c with
  | nil => rfl
  | cons f fs ih =>
    simp only [pathCost, List.length_cons, Finset.sum_range_succ', List.getD_cons_zero, List.getD_cons_succ, ih, Nat.add_zero]
    rw [add_comm]
    congr 1
    exact Finset.sum_congr rfl fun j _ => by rw [show c + 1 + j = c + (j + 1) by omega]

/-- A course of events is a plan. -/
theorem Path.admissible (h : Shows D k P) {fs : List Flow} (hp : Path D k P.inputs.soc fs) (hl : fs.length = P.horizon) :
    Admissible P (fun j => fs.getD j {}) (fun _ => 0) ∧ totalBilled P (fun j => fs.getD j {}) = pathCost D k fs := by
  have each := hp.get
  constructor
  · intro j hj
    rw [h.step hj]
    have := each j (by omega)
    cases j <;> exact this
  · unfold totalBilled
    rw [pathCost_sum, hl]
    exact Finset.sum_congr rfl fun j hj => h.billed (Finset.mem_range.mp hj) (each j (by rw [hl]; exact Finset.mem_range.mp hj)).genset

/-- The first steps of a plan. -/
def firstSteps (f : Nat → Flow) : Nat → List Flow
  | 0 => []
  | n + 1 => f 0 :: firstSteps (fun j => f (j + 1)) n

theorem firstSteps_length (f : Nat → Flow) (n : Nat) : (firstSteps f n).length = n := by
  induction n generalizing f with
  | zero => rfl
  | succ n ih => simp [firstSteps, ih]

theorem firstSteps_path {f : Nat → Flow} {n c : Nat} {s : ℚ} (h0 : 0 < n → StepOK (D.at c) 0 s 0 (f 0))
    (h : ∀ j, j + 1 < n → StepOK (D.at (c + (j + 1))) 0 (f j).soc 0 (f (j + 1))) : Path D c s (firstSteps f n) := by
  induction n generalizing f c s with
  | zero => trivial
  | succ n ih =>
    refine ⟨h0 (by omega), ih (fun hn => h 0 (by omega)) fun j hj => ?_⟩
    have := h (j + 1) (by omega)
    rwa [show c + (j + 1 + 1) = c + 1 + (j + 1) by omega] at this

theorem firstSteps_cost (D : Day) (f : Nat → Flow) (n c : Nat) :
    pathCost D c (firstSteps f n) = ∑ j ∈ Finset.range n, billed (D.at (c + j)) 0 (f j) := by
  induction n generalizing f c with
  | zero => rfl
  | succ n ih =>
    simp only [firstSteps, pathCost, ih, Finset.sum_range_succ', Nat.add_zero]
    rw [add_comm]
    congr 1
    exact Finset.sum_congr rfl fun j _ => by rw [show c + 1 + j = c + (j + 1) by omega]

/-- When nothing more is needed, a course of events can go on without cost. -/
theorem Path.extend {fs : List Flow} {c : Nat} {s : ℚ} (hp : Path D c s fs) {m : Nat} (fair : D.Fair c (c + m))
    (hm : fs.length ≤ m) (hs : D.eMin ≤ s) (hs' : s ≤ 1)
    (rest : ∀ j, c + fs.length ≤ j → j < c + m → D.load j ≤ D.pv j) :
    ∃ fs', Path D c s fs' ∧ fs'.length = m ∧ pathCost D c fs' = pathCost D c fs := by
  induction fs generalizing c s m with
  | cons f fs ih =>
    obtain ⟨m, rfl⟩ : ∃ m', m = m' + 1 := ⟨m - 1, by simp at hm; omega⟩
    obtain ⟨fs', p, l, q⟩ := ih hp.2 (m := m) (fair.mono (by omega) (by omega)) (by simpa using hm) hp.1.window.1 hp.1.window.2
      (fun j h1 h2 => rest j (by simp; omega) (by omega))
    exact ⟨f :: fs', ⟨hp.1, p⟩, by simp [l], by simp [pathCost, q]⟩
  | nil =>
    clear hm hp
    induction m generalizing c with
    | zero => exact ⟨[], trivial, rfl, rfl⟩
    | succ m ih =>
      obtain ⟨fs', p, l, q⟩ := ih (c := c + 1) (fair.mono (by omega) (by omega)) (fun j h1 h2 => rest j (by simp at h1 ⊢; omega) (by omega))
      have hr := rest c (by simp) (by omega)
      obtain ⟨r1, r2, -⟩ := fair.rows c (le_refl _) (by omega)
      refine ⟨{ curtailed := D.pv c - D.load c, soc := s } :: fs', ⟨⟨?_, ?_, ⟨hs, hs'⟩, ⟨le_refl _, fair.pCharge⟩,
        ⟨le_refl _, fair.pDischarge⟩, ⟨le_refl _, ?_⟩, ⟨le_refl _, ?_⟩, ⟨?_, ?_⟩, ⟨le_refl _, r1⟩, fair.eMin.trans hs, rfl⟩, p⟩,
        by simp [l], ?_⟩
      · simp [Day.at]
      · simp [Day.at]
      · simpa [Day.at] using fair.pImport
      · simpa [Day.at] using fair.pExport
      · simpa using hr
      · simpa [Day.at] using r1
      · simp only [pathCost, q, billed_at]
        simp

/-- A step of a solution, and the rest of it, cost no more than any course of events. -/
theorem Optimal.best {x : Point} (opt : Optimal P x) (sh : Shows D k P) (fair : D.Fair k (k + P.horizon))
    (hs : D.eMin ≤ P.inputs.soc) (hs' : P.inputs.soc ≤ 1) {fs : List Flow} {n : Nat} (hp : Path D k P.inputs.soc fs)
    (hl : fs.length = n + 1) (hn : n + 1 ≤ P.horizon) (rest : ∀ j, k + (n + 1) ≤ j → j < k + P.horizon → D.load j ≤ D.pv j) :
    StepOK (D.at k) 0 P.inputs.soc 0 (x.flow false 0) ∧ ∃ fs', Path D (k + 1) (x.flow false 0).soc fs' ∧ fs'.length = n ∧
      billed (D.at k) 0 (x.flow false 0) + pathCost D (k + 1) fs' ≤ pathCost D k fs := by
  obtain ⟨fs₁, p₁, l₁, q₁⟩ := hp.extend fair (by omega) hs hs' (fun j h1 h2 => rest j (by omega) h2)
  obtain ⟨ad, tb⟩ := p₁.admissible sh l₁
  have hmin := C66_minimal_partial opt (fun j hj => (sh.rows j hj).2.2.2.2.1) ad
  have adx := (feasible_iff P x).mp opt.1
  rw [sh.genset] at adx hmin
  have ok : ∀ j < P.horizon, StepOK (D.at (k + j)) 0 (socBefore P (x.flow false) j) 0 (x.flow false j) :=
    fun j hj => (sh.step hj _ _ _).mp (adx j hj)
  have okS : ∀ j, j + 1 < P.horizon → StepOK (D.at (k + (j + 1))) 0 (x.flow false j).soc 0 (x.flow false (j + 1)) :=
    fun j hj => ok (j + 1) hj
  refine ⟨ok 0 (by omega), firstSteps (fun j => x.flow false (j + 1)) n, firstSteps_path (fun hn => okS 0 (by omega)) (fun j hj => ?_),
    firstSteps_length _ _, ?_⟩
  · have := okS (j + 1) (by omega)
    rwa [show k + (j + 1 + 1) = k + 1 + (j + 1) by omega] at this
  · have e : billed (D.at k) 0 (x.flow false 0) + pathCost D (k + 1) (firstSteps (fun j => x.flow false (j + 1)) n) =
        ∑ j ∈ Finset.range (n + 1), billed (D.at (k + j)) 0 (x.flow false j) := by
      rw [← firstSteps_cost]; rfl
    rw [e, ← q₁, ← tb]
    refine le_trans ?_ hmin
    unfold totalBilled
    rw [Finset.sum_congr rfl fun j hj => sh.billed (Finset.mem_range.mp hj) (ok j (Finset.mem_range.mp hj)).genset]
    refine Finset.sum_le_sum_of_subset_of_nonneg (by simpa using hn) fun j hj _ => ?_
    have hj := Finset.mem_range.mp hj
    exact fair.billed_nonneg (by omega) (by omega) (ok j hj)

/-! ### Charging and discharging at the same time -/

/-- The step with charging and discharging set off against each other. -/
def Flow.netted (f : Flow) : Flow :=
  { f with charge := max 0 (f.charge - f.discharge), discharge := max 0 (f.discharge - f.charge) }

theorem Flow.netted_diff (f : Flow) : f.netted.discharge - f.netted.charge = f.discharge - f.charge := by
  simp only [Flow.netted]
  rcases le_total f.charge f.discharge with h | h
  · rw [max_eq_right (by linarith), max_eq_left (by linarith)]; ring
  · rw [max_eq_left (by linarith), max_eq_right (by linarith)]; ring

theorem Flow.netted_one (f : Flow) : f.netted.charge = 0 ∨ f.netted.discharge = 0 := by
  simp only [Flow.netted]
  rcases le_total f.charge f.discharge with h | h
  · left; rw [max_eq_left (by linarith)]
  · right; rw [max_eq_left (by linarith)]

theorem StepOK.netted {c : Nat} {s : ℚ} {f : Flow} (h : StepOK (D.at c) 0 s 0 f) : StepOK (D.at c) 0 s 0 f.netted := by
  have d := f.netted_diff
  obtain ⟨a1, a2, a3, a4, a5, a6, a7, a8, a9, a10, a11⟩ := h
  refine ⟨?_, ?_, a3, ⟨le_max_left _ _, max_le (a4.1.trans a4.2) (by linarith [a5.1, a4.2])⟩,
    ⟨le_max_left _ _, max_le (a5.1.trans a5.2) (by linarith [a4.1, a5.2])⟩, a6, a7, a8, a9, a10, a11⟩
  · have e : f.netted.genset = f.genset ∧ f.netted.imp = f.imp ∧ f.netted.curtailed = f.curtailed ∧ f.netted.loss = f.loss ∧
      f.netted.exp = f.exp := ⟨rfl, rfl, rfl, rfl, rfl⟩
    rw [e.1, e.2.1, e.2.2.1, e.2.2.2.1, e.2.2.2.2]
    linarith
  · have e : f.netted.soc = f.soc := rfl
    rw [e, a2]
    simp only [Day.at, one_mul, div_one]
    congr 2
    linarith

/-- Carrying out a step costs no more than planned. -/
theorem charged_le (sh : Shows D k P) (hh : 0 < P.horizon) (fair : D.Fair k (k + 1)) {s : ℚ} {f : Flow}
    (h : StepOK (D.at k) 0 s 0 f) : charged P D.co2 f.netted ≤ billed (D.at k) 0 f := by
  obtain ⟨-, -, -, r4, r5, r6⟩ := sh.rows 0 hh
  have hg : f.netted.genset = 0 := h.genset
  rw [billed_at]
  unfold charged
  rw [sh.cycle, sh.lossLoad, sh.eta, r4, r5, r6, hg]
  have e1 : (D.price k + D.co2 * D.co2s k) * max 0 (f.imp - f.exp) ≤ (D.price k + D.co2 * D.co2s k) * f.imp :=
    mul_le_mul_of_nonneg_left (max_le h.imp.1 (by linarith [h.exp.1])) (fair.rows k (le_refl _) (by omega)).2.2
  have e2 : D.lossLoad * max 0 (f.loss - f.curtailed) ≤ D.lossLoad * f.loss :=
    mul_le_mul_of_nonneg_left (max_le h.loss.1 (by linarith [h.curtailed.1])) fair.lossLoad
  have e3 : D.cycle * (f.netted.charge + f.netted.discharge) ≤ D.cycle * (f.charge + f.discharge) := by
    refine mul_le_mul_of_nonneg_left ?_ fair.cycle
    have h1 := h.charge.1
    have h2 := h.discharge.1
    simp only [Flow.netted]
    rcases le_total f.charge f.discharge with hle | hle
    · rw [max_eq_left (by linarith), max_eq_right (by linarith)]; linarith
    · rw [max_eq_right (by linarith), max_eq_left (by linarith)]; linarith
  have hi : f.netted.imp = f.imp := rfl
  have he : f.netted.exp = f.exp := rfl
  have hl : f.netted.loss = f.loss := rfl
  have hc : f.netted.curtailed = f.curtailed := rfl
  rw [hi, he, hl, hc]
  simp only [mul_zero, zero_mul, zero_add, add_zero, sub_zero, one_mul, div_one]
  linarith

end

/-! ### In a microgrid -/

open Module

/-- What series modules with perfect forecasts show. -/
theorem outlook_ahead {m : Module} {t : TS} (wf : m.TSWF t) (fresh : t.Fresh m.currentStep)
    (hk : t.horizon = 0 ∨ t.forecaster.kind = .oracle) (live : m.currentStep < t.rows.length) (k : Nat) {j : Nat} (hj : j ≤ t.horizon) :
    (m.outlook t k).getD j 0 = t.ahead (m.currentStep + j) k := by
  cases j with
  | zero =>
    rw [outlook_zero]
    unfold TS.ahead
    simp [live]
  | succ j =>
    have ho := hk.resolve_left (by omega)
    obtain ⟨d, hd⟩ := fresh
    have hv := wf.valid
    have := TS.Valid.oracle (t := { t with draws := d }) ⟨hv.minLen, hv.box, hv.inBox, hv.fMin, hv.fMax, hv.fObs, hv.fRows, hv.noneH⟩
      ho m.currentStep
    rw [hd] at this
    have hc : t.cur = some (trueFuture t.rows (midpoints t.minRow t.maxRow) m.currentStep t.horizon) := by simpa using this
    unfold Module.outlook TS.ahead
    rw [hc]
    simp only [Option.getD_some, List.map_cons, List.getD_cons_succ, trueFuture, List.map_map]
    have hj' : j < t.horizon := by omega
    rw [List.getD_eq_getElem?_getD, List.getElem?_map, List.getElem?_range hj']
    simp only [Option.map_some, Option.getD_some, Function.comp]
    rw [show m.currentStep + 1 + j = m.currentStep + (j + 1) by omega]

/-- The modules of a microgrid with one load, one renewable module, one battery, one grid and one balancing module. -/
structure Plant (h : Heap) (mods : List (String × Nat)) (nl np nb ng nu : String × Nat) (tl tp tg : TS) (b : Battery)
    (p : GridParams) (u : Unbalanced) : Prop where
  ml : nl ∈ mods
  mp : np ∈ mods
  mb : nb ∈ mods
  mg : ng ∈ mods
  mu : nu ∈ mods
  kl : (h nl.2).kind = .load tl
  kp : (h np.2).kind = .renewable tp
  kb : (h nb.2).kind = .battery b
  kg : (h ng.2).kind = .grid p tg
  ku : (h nu.2).kind = .balancing u
  genset : ∀ nm ∈ mods, ∀ x, (h nm.2).kind ≠ .genset x
  uniq : ∀ x ∈ mods, ∀ y ∈ mods, (h x.2).kind.cls = (h y.2).kind.cls → x = y
  ids : (mods.map Prod.snd).Nodup
  names : (mods.map Prod.fst).Nodup

/-- The data of the microgrid. -/
def day (tl tp tg : TS) (b : Battery) (p : GridParams) (u : Unbalanced) : Day where
  cap := b.maxCapacity
  eMin := b.minSoc
  pCharge := b.maxCharge
  pDischarge := b.maxDischarge
  pImport := p.maxImport
  pExport := p.maxExport
  cycle := b.costCycle
  lossLoad := u.lossLoadCost
  co2 := p.costPerCo2
  load c := -tl.ahead c 0
  pv c := tp.ahead c 0
  price c := tg.ahead c 0
  co2s c := tg.ahead c 2

section
variable {h : Heap} {mods : List (String × Nat)} {nl np nb ng nu : String × Nat} {tl tp tg : TS} {b : Battery} {p : GridParams}
  {u : Unbalanced} {g g' : Microgrid} {k : Nat}

theorem Plant.sum (pt : Plant h mods nl np nb ng nu tl tp tg b p u) (F : String × Nat → ℚ) :
    (mods.map F).sum = F nl + F np + F nb + F ng + F nu := by
  have nd := List.Nodup.of_map _ pt.ids
  have one : ∀ {x : String × Nat}, x ∈ mods → clsSum h mods F (h x.2).kind.cls = F x :=
    fun {x} hx => clsSum_one nd F hx fun y hy e => pt.uniq y hy x hx e
  have e1 := one pt.ml
  have e2 := one pt.mp
  have e3 := one pt.mb
  have e4 := one pt.mg
  have e5 := one pt.mu
  rw [pt.kl] at e1
  rw [pt.kp] at e2
  rw [pt.kb] at e3
  rw [pt.kg] at e4
  rw [pt.ku] at e5
  simp only [Kind.cls] at e1 e2 e3 e4 e5
  rw [clsSum_all h mods F, e1, e2, e3, e4, e5, clsSum_none (c := .genset)]
  · ring
  · intro nm hm hc
    cases hk : (h nm.2).kind <;> rw [hk] at hc <;> simp [Kind.cls] at hc
    exact pt.genset nm hm _ hk

theorem cell_ahead {t : TS} {c : Nat} (hc : c < t.rows.length) (j : Nat) : t.ahead c j = t.cell c j := by
  simp [TS.ahead, TS.cell, hc]

/-- The battery of a later state. -/
theorem battery_later (f : Follows h mods none g) (pt : Plant h mods nl np nb ng nu tl tp tg b p u) :
    ∃ b', (g.heap nb.2).kind = .battery b' ∧ b'.maxCapacity = b.maxCapacity ∧ b'.minCapacity = b.minCapacity ∧ b'.Valid ∧
      b'.efficiency = b.efficiency ∧ b'.minSoc = b.minSoc ∧ b'.maxCharge = b.maxCharge ∧ b'.maxDischarge = b.maxDischarge ∧
      b'.costCycle = b.costCycle := by
  have hcore := f.core nb pt.mb
  rw [pt.kb] at hcore
  have hcls : (g.heap nb.2).kind.cls = .battery := by rw [← Kind.core_cls, hcore]; rfl
  obtain ⟨b', wb⟩ := (f.ok.wf nb pt.mb).batWF hcls
  rw [wb.kind] at hcore
  simp only [Kind.core, Kind.battery.injEq] at hcore
  have c := fun {α : Type} (F : Battery → α) => congrArg F hcore
  exact ⟨b', wb.kind, c Battery.maxCapacity, c Battery.minCapacity, wb.valid, c Battery.efficiency, c Battery.minSoc,
    c Battery.maxCharge, c Battery.maxDischarge, c Battery.costCycle⟩

/-- Any course of events can be followed with another state of charge. -/
theorem runs_path (pt : Plant h mods nl np nb ng nu tl tp tg b p u) (hsane : b.minSoc = b.minCapacity / b.maxCapacity)
    {a n H : Nat} (fs : Foreseen h mods a n H) (fair : (day tl tp tg b p u).Fair a (a + n + H))
    {cs : List (List (String × Ctrl) × Bool)} {os : List RunOut} (hr : Runs g cs os g')
    (hs : ∀ cn ∈ cs, Supplies h mods cn.1) (f : Follows h mods none g) (hl : LockStep mods g k) (hk : a ≤ k)
    (hn : k + os.length ≤ a + n) {b' : Battery} (hb : (g.heap nb.2).kind = .battery b') {s : ℚ} (s1 : b.minSoc ≤ s) (s2 : s ≤ 1) :
    ∃ l, Path (day tl tp tg b p u) k s l ∧ l.length = os.length ∧ pathCost (day tl tp tg b p u) k l ≤
      (os.map fun o => -o.reward).sum + u.lossLoadCost * max 0 (b'.charge - b.maxCapacity * s) := by
  induction hr generalizing k s b' with
  | nil g =>
    refine ⟨[], trivial, rfl, ?_⟩
    have := mul_nonneg fair.lossLoad (le_max_left 0 (b'.charge - b.maxCapacity * s))
    simpa [pathCost, day] using this
  | @cons g g₁ g' ctl nn o cs os hrun ht ih =>
    simp only [List.length_cons] at hn
    obtain ⟨acc, hl₁, mv⟩ := f.account pt.ids pt.names hl (hs (ctl, nn) (by simp)) hrun
    have f₁ := f.run hrun
    obtain ⟨b₁, hb₁, c1, c2, v₁, -⟩ := battery_later f₁ pt
    have hcap : 0 < b.maxCapacity := fair.cap
    have heff : b.efficiency = 1 := (fs.battery nb pt.mb b pt.kb).1
    obtain ⟨lam, kap⟩ := fs.balancing nu pt.mu u pt.ku
    obtain ⟨-, on, prc⟩ := fs.tariff ng pt.mg p tg pt.kg
    have pl := acc.possible nl pt.ml
    have pp := acc.possible np pt.mp
    have pb := acc.possible nb pt.mb
    have pg := acc.possible ng pt.mg
    have pu := acc.possible nu pt.mu
    rw [pt.kl] at pl
    rw [pt.kp] at pp
    rw [pt.kb] at pb
    rw [pt.kg] at pg
    rw [pt.ku] at pu
    simp only [Kind.Possible, heff, mul_one, div_one] at pl pp pb pg pu
    rw [on k hk (by omega), mul_one, mul_one] at pg
    have bal := acc.balance ⟨nu, pt.mu, by rw [pt.ku]; rfl⟩
    rw [pt.sum, pt.sum] at bal
    have rew := acc.reward rfl
    rw [pt.sum] at rew
    simp only [pt.kl, pt.kp, pt.kb, pt.kg, pt.ku, Kind.dues, heff, one_mul, div_one] at rew
    have mvb := mv nb pt.mb
    rw [pt.kb, hb, hb₁] at mvb
    simp only [Moved, Kind.stock, Kind.lost, Kind.cls, heff] at mvb
    have rows : ∀ nm ∈ mods, ∀ t, (h nm.2).series? = some t → k < t.rows.length := by
      intro nm hm t ht
      have := (fs.forecast nm hm t ht).1
      omega
    have rl : k < tl.rows.length := rows nl pt.ml tl (by simp [series?, pt.kl])
    have rp : k < tp.rows.length := rows np pt.mp tp (by simp [series?, pt.kp])
    have rg : k < tg.rows.length := rows ng pt.mg tg (by simp [series?, pt.kg])
    obtain ⟨d1, d2, d3⟩ := fair.rows k hk (by omega)
    obtain ⟨ex, -⟩ := prc k hk (by omega)
    simp only [day] at d1 d2 d3
    rw [cell_ahead rl] at d1
    rw [cell_ahead rp] at d2
    rw [cell_ahead rg, cell_ahead rg] at d3
    rw [cell_ahead rg] at ex
    rw [abs_of_nonpos (by linarith)] at pl
    rw [ex] at rew
    have lo₁ : b.minCapacity ≤ b₁.charge := c2 ▸ v₁.low
    have hi₁ : b₁.charge ≤ b.maxCapacity := c1 ▸ v₁.high
    have ebal : o.provBy nb.1 + o.provBy ng.1 + o.provBy np.1 + o.provBy nu.1 =
        -tl.cell k 0 + o.absBy nb.1 + o.absBy ng.1 + o.absBy nu.1 := by
      linarith [pl.1, pl.2, pp.2.2]
    have emv : b₁.charge = b'.charge + o.absBy nb.1 - o.provBy nb.1 := by
      simp at mvb
      linarith
    have slo : b.minCapacity ≤ b.maxCapacity * s := by
      rw [hsane, div_le_iff₀ hcap] at s1
      linarith
    have shi : b.maxCapacity * s ≤ b.maxCapacity := by nlinarith
    obtain ⟨x, c, i, v, l, x1, x2, x3, x4, x5, x6, x7, x8, x9, x10, x11, x12, x13, x14⟩ :=
      follow_step (S := b'.charge) (S' := b.maxCapacity * s) (lo := b.minCapacity) (hi := b.maxCapacity) lam fair.cycle d3 d1
        pb.1 pb.2.1 pb.2.2.1 pb.2.2.2.1 pb.2.2.2.2 pg.1 pg.2.1 pg.2.2.1 pp.1 pp.2.1 pu.1 pu.2.1 ebal
        (by rw [← emv]; exact lo₁) (by rw [← emv]; exact hi₁) slo shi
    rw [← emv] at x14
    have esoc : b.maxCapacity * (s + (c - x) / b.maxCapacity) = b.maxCapacity * s + c - x := by
      field_simp
      ring
    have w1 : b.minSoc ≤ s + (c - x) / b.maxCapacity := by
      rw [hsane, div_le_iff₀ hcap, mul_comm, esoc]
      exact x12
    have w2 : s + (c - x) / b.maxCapacity ≤ 1 := by
      have : b.maxCapacity * (s + (c - x) / b.maxCapacity) ≤ b.maxCapacity * 1 := by rw [esoc, mul_one]; exact x13
      exact le_of_mul_le_mul_left this hcap
    obtain ⟨ls, q1, q2, q3⟩ := ih (fun cn hcn => hs cn (by simp [hcn])) f₁ hl₁ (by omega) (by omega) hb₁ w1 w2
    rw [esoc] at q3
    refine ⟨{ imp := i, charge := c, discharge := x, curtailed := tp.cell k 0 - v, loss := l, soc := s + (c - x) / b.maxCapacity } :: ls,
      ⟨⟨?_, ?_, ⟨w1, w2⟩, ⟨x3, x4⟩, ⟨x1, x2⟩, ⟨x5, ?_⟩, ⟨le_refl _, ?_⟩, ⟨?_, ?_⟩, ⟨x9, ?_⟩, fair.eMin.trans w1, rfl⟩, q1⟩,
      by simp [q2], ?_⟩
    · simp only [Day.at, day, List.getD_cons_zero]
      rw [cell_ahead rl, cell_ahead rp]
      linarith
    · simp [Day.at, day]
    · simpa [Day.at, day] using x6
    · simpa [Day.at, day] using fair.pExport
    · simpa using x8
    · simp only [Day.at, day, List.getD_cons_zero]
      rw [cell_ahead rp]
      linarith
    · simp only [Day.at, day, List.getD_cons_zero]
      rw [cell_ahead rl]
      exact x10
    · simp only [pathCost, billed_at, List.map_cons, List.sum_cons]
      simp only [day] at q3 x14 ⊢
      rw [cell_ahead rg, cell_ahead rg]
      have := mul_nonneg kap pu.2.1
      rw [rew]
      linarith

theorem ahead_congr {t t' : TS} (e : ({ t' with finalStep := 0, cur := none, draws := 0 } : TS) =
    { t with finalStep := 0, cur := none, draws := 0 }) :
    t'.rows = t.rows ∧ t'.horizon = t.horizon ∧ t'.forecaster = t.forecaster ∧ t'.ahead = t.ahead := by
  have c := fun {α : Type} (F : TS → α) => congrArg F e
  have h1 : t'.rows = t.rows := c TS.rows
  have h2 : t'.minRow = t.minRow := c TS.minRow
  have h3 : t'.maxRow = t.maxRow := c TS.maxRow
  refine ⟨h1, c TS.horizon, c TS.forecaster, ?_⟩
  funext i j
  simp only [TS.ahead, h1, h2, h3]

/-- The problem of a step shows the data. -/
theorem plant_shows (pt : Plant h mods nl np nb ng nu tl tp tg b p u) {a n H : Nat} (fs : Foreseen h mods a n H)
    (f : Follows h mods none g) (fr : GridFresh mods g) (hl : LockStep mods g k) (hk : a ≤ k) (hn : k < a + n) {P : Problem}
    (poses : Poses g.heap mods P) : Shows (day tl tp tg b p u) k P ∧ P.horizon = H + 1 ∧
      ∀ b', (g.heap nb.2).kind = .battery b' → P.inputs.soc = b'.soc := by
  obtain ⟨b', hb, b1, b2, -, b3, b4, b5, b6, b7⟩ := battery_later f pt
  have heff := (fs.battery nb pt.mb b pt.kb).1
  -- the series
  have cl := f.core nl pt.ml
  have cp := f.core np pt.mp
  have cg := f.core ng pt.mg
  have cu := f.core nu pt.mu
  rw [pt.kl] at cl
  rw [pt.kp] at cp
  rw [pt.kg] at cg
  rw [pt.ku] at cu
  obtain ⟨tl', wl⟩ := (f.ok.wf nl pt.ml).loadWF (by rw [← Kind.core_cls, cl]; rfl)
  obtain ⟨tp', wp⟩ := (f.ok.wf np pt.mp).renWF (by rw [← Kind.core_cls, cp]; rfl)
  obtain ⟨p', tg', wg⟩ := (f.ok.wf ng pt.mg).gridWF (by rw [← Kind.core_cls, cg]; rfl)
  have ku : (g.heap nu.2).kind = .balancing u := by
    cases hku : (g.heap nu.2).kind <;> rw [hku] at cu <;> simp [Kind.core] at cu
    rw [cu]
  rw [wl.kind] at cl
  rw [wp.kind] at cp
  rw [wg.kind] at cg
  simp only [Kind.core, Kind.load.injEq, Kind.renewable.injEq, Kind.grid.injEq] at cl cp cg
  obtain ⟨rfl, cg⟩ := cg
  obtain ⟨l1, l2, l3, l4⟩ := ahead_congr cl
  obtain ⟨q1, q2, q3, q4⟩ := ahead_congr cp
  obtain ⟨g1, g2, g3, g4⟩ := ahead_congr cg
  obtain ⟨fl1, fl2, fl3⟩ := fs.forecast nl pt.ml tl (by simp [series?, pt.kl])
  obtain ⟨fp1, fp2, fp3⟩ := fs.forecast np pt.mp tp (by simp [series?, pt.kp])
  obtain ⟨fg1, fg2, fg3⟩ := fs.forecast ng pt.mg tg (by simp [series?, pt.kg])
  have ol : ∀ i j, j ≤ H → ((g.heap nl.2).outlook tl' i).getD j 0 = tl.ahead (k + j) i := by
    intro i j hj
    rw [outlook_ahead wl.ts (fr.fresh nl pt.ml tl' wl.ts.series) (by rw [l2, l3, fl2]; exact fl3)
      (by rw [hl nl pt.ml, l1]; omega) i (by rw [l2, fl2]; exact hj), hl nl pt.ml, l4]
  have op : ∀ i j, j ≤ H → ((g.heap np.2).outlook tp' i).getD j 0 = tp.ahead (k + j) i := by
    intro i j hj
    rw [outlook_ahead wp.ts (fr.fresh np pt.mp tp' wp.ts.series) (by rw [q2, q3, fp2]; exact fp3)
      (by rw [hl np pt.mp, q1]; omega) i (by rw [q2, fp2]; exact hj), hl np pt.mp, q4]
  have og : ∀ i j, j ≤ H → ((g.heap ng.2).outlook tg' i).getD j 0 = tg.ahead (k + j) i := by
    intro i j hj
    rw [outlook_ahead wg.ts (fr.fresh ng pt.mg tg' wg.ts.series) (by rw [g2, g3, fg2]; exact fg3)
      (by rw [hl ng pt.mg, g1]; omega) i (by rw [g2, fg2]; exact hj), hl ng pt.mg, g4]
  -- the problem
  obtain ⟨pl1, pl2⟩ := poses.load nl pt.ml tl' wl.kind
  have pp := poses.pv np pt.mp tp' wp.kind
  obtain ⟨pb1, pb2, pb3, pb4, pb5, pb6, pb7, pb8⟩ := poses.battery nb pt.mb b' hb
  obtain ⟨pg1, pg2, pg3, pg4, pg5, pg6⟩ := poses.grid ng pt.mg p' tg' wg.kind
  have noGen : ∀ nm ∈ mods, ∀ x, (g.heap nm.2).kind ≠ .genset x := by
    intro nm hm x hx
    have := f.core nm hm
    rw [hx] at this
    cases hk : (h nm.2).kind <;> rw [hk] at this <;> simp [Kind.core] at this
    exact pt.genset nm hm _ hk
  have hco2 : meanCo2 g.heap mods = p'.costPerCo2 := by
    unfold meanCo2
    rw [filterMap_unique (List.Nodup.of_map _ pt.ids) pt.mg (b := p'.costPerCo2)]
    · simp
    · rw [wg.kind]
    · intro y hy hsome
      refine pt.uniq y hy ng pt.mg ?_
      rw [← Kind.core_cls, ← f.core y hy, Kind.core_cls, pt.kg]
      cases hky : (g.heap y.2).kind <;> rw [hky] at hsome <;> simp at hsome
      · exact absurd hky (noGen y hy _)
      · rfl
  have hH : P.horizon = H + 1 := by rw [pl1, l2, fl2]
  obtain ⟨-, -, ex⟩ := fs.tariff ng pt.mg p' tg pt.kg
  refine ⟨⟨poses.noGenset noGen, by rw [pb1, b3, heff], by rw [pb2, b1]; rfl, by rw [pb3, b7]; rfl, poses.balancing nu pt.mu u ku, pb6,
    by rw [pb5, b4]; rfl, by rw [pb7, b5]; rfl, by rw [pb8, b6]; rfl, pg2, pg3, by rw [poses.co2, hco2]; rfl, fun j hj => ?_⟩, hH, ?_⟩
  · have hj' : j ≤ H := by omega
    refine ⟨?_, ?_, ?_, ?_, ?_, ?_⟩
    · rw [pl2, List.getD_eq_getElem?_getD, List.getElem?_map]
      have := ol 0 j hj'
      rw [List.getD_eq_getElem?_getD] at this
      simp only [day]
      rw [← this]
      cases ((g.heap nl.2).outlook tl' 0)[j]? <;> simp
    · rw [pp]; exact op 0 j hj'
    · rw [pg1, List.getD_eq_getElem?_getD, List.getElem?_replicate, if_pos hj]; rfl
    · rw [pg4]; exact og 0 j hj'
    · rw [pg5, og 1 j hj']
      exact (ex (k + j) (by omega) (by omega)).1
    · rw [pg6]; exact og 2 j hj'
  · intro b'' hb''
    rw [hb] at hb''
    obtain rfl := Kind.battery.inj hb''
    exact pb4

/-- Runs on plans cost no more than any course of events. -/
theorem plans_best (pt : Plant h mods nl np nb ng nu tl tp tg b p u)
    {a n H : Nat} (fs : Foreseen h mods a n H) (fair : (day tl tp tg b p u).Fair a (a + n + H)) {solve : Solver}
    (cov : CoveredAfter h mods a n H)
    (opt : ∀ P x, solve P = some x → Optimal P x) {pl : Planner} {os : List RunOut} (hr : PlanRuns solve mods g os g')
    (r : Ready mods pl g) (f : Follows h mods none g) (fr : GridFresh mods g) (hl : LockStep mods g k) (hk : a ≤ k)
    (hn : k + os.length = a + n) {b' : Battery} (hb : (g.heap nb.2).kind = .battery b') {l : List Flow}
    (hp : Path (day tl tp tg b p u) k b'.soc l) (hlen : l.length = os.length) :
    (os.map fun o => -o.reward).sum ≤ pathCost (day tl tp tg b p u) k l := by
  induction hr generalizing k b' l with
  | nil g =>
    obtain rfl := List.length_eq_zero_iff.mp hlen
    exact le_refl _
  | @cons g g₁ g' P x c o os poses solved carries run rest ih =>
    simp only [List.length_cons] at hn hlen
    obtain ⟨sh, hH, hsoc⟩ := plant_shows pt fs f fr hl hk (by omega) poses
    have ox := opt P x solved
    have hs := hsoc b' hb
    obtain ⟨b'', hb'', b1, b2, v, -, b4, -, b6, -⟩ := battery_later f pt
    rw [hb] at hb''
    obtain rfl := Kind.battery.inj hb''
    have hcap : 0 < b'.maxCapacity := by rw [b1]; exact fair.cap
    have w1 : b.minSoc ≤ b'.soc := by
      have := r.sane nb pt.mb
      rw [hb] at this
      rw [← b4, show b'.minSoc = b'.minCapacity / b'.maxCapacity from this, v.soc_eq]
      exact div_le_div_of_nonneg_right v.low hcap.le
    have w2 : b'.soc ≤ 1 := by rw [v.soc_eq, div_le_one hcap]; exact v.high
    have hreach := fs.reach
    obtain ⟨ok0, l', p', len', hle⟩ := ox.best sh (fair.mono hk (by omega)) (by rw [hs]; exact w1) (by rw [hs]; exact w2)
      (by rw [hs]; exact hp) hlen (by omega) (by
        intro j h1 h2
        exact cov nl pt.ml tl pt.kl np pt.mp tp pt.kp j (by omega) (by omega))
    -- the step with the battery's energies set off
    have adx := (feasible_iff P x).mp ox.1
    rw [sh.genset] at adx
    let fl : Nat → Flow := fun j => if j = 0 then (x.flow false 0).netted else x.flow false j
    have fl_soc : ∀ j, (fl j).soc = (x.flow false j).soc := by
      intro j
      by_cases h0 : j = 0
      · subst h0; rfl
      · simp [fl, h0]
    have ad : Admissible P fl x.u := by
      intro j hj
      have hbef : socBefore P fl j = socBefore P (x.flow false) j := by
        cases j with
        | zero => rfl
        | succ j => exact fl_soc j
      rw [hbef]
      by_cases h0 : j = 0
      · subst h0
        exact (sh.step hj _ _ _).mpr ok0.netted
      · simpa [fl, h0] using adx j hj
    obtain ⟨feas, hfl⟩ := admissible_feasible ad
    have hpos : 0 < P.horizon := by omega
    have hf0 := hfl 0 hpos
    have e0 : fl 0 = (x.flow false 0).netted := rfl
    rw [e0] at hf0
    generalize hy : ofFlows P.genset fl x.u = y at feas hf0
    have hyf : y.flow P.genset 0 = (x.flow false 0).netted := hf0
    have carries' : Carries g.heap mods P y c := by
      have hxg : x.flow P.genset 0 = x.flow false 0 := by rw [sh.genset]
      refine ⟨fun nm hm bb hbb => ?_, fun nm hm pp tt hpp => ?_, fun nm hm xx hxx => ?_⟩
      · rw [hyf, Flow.netted_diff, ← hxg]
        exact carries.battery nm hm bb hbb
      · have := carries.grid nm hm pp tt hpp
        rw [hxg] at this
        rw [hyf]
        exact this
      · exact absurd (poses.genset nm hm xx hxx).1 (by rw [sh.genset]; simp)
    have live : ∀ nm ∈ mods, (g.heap nm.2).Live := by
      intro nm hm t ht
      rw [hl nm hm]
      have hc := f.core nm hm
      have : ∃ t₀, (h nm.2).series? = some t₀ ∧ t.rows = t₀.rows := by
        unfold series? at ht ⊢
        cases hk₁ : (g.heap nm.2).kind <;> cases hk₂ : (h nm.2).kind <;> rw [hk₁, hk₂] at hc <;> rw [hk₁] at ht <;>
          simp [Kind.core] at hc ht ⊢
        all_goals subst ht
        · exact hc.2.1
        · exact hc.1
        · exact hc.1
      obtain ⟨t₀, h₀, e⟩ := this
      have := (fs.forecast nm hm t₀ h₀).1
      rw [e]; omega
    have ex : Executable g.heap mods (y.u 0) (y.flow P.genset 0) := by
      rw [hyf]
      refine ⟨fun nm hm pp tt hpp => ?_, fun nm hm bb hbb => ?_, fun nm hm xx hxx => ?_⟩
      · have e : nm = ng := by
          refine pt.uniq nm hm ng pt.mg ?_
          rw [← Kind.core_cls, ← f.core nm hm, Kind.core_cls, hpp, pt.kg]; rfl
        subst e
        have hc := f.core nm hm
        rw [hpp, pt.kg] at hc
        simp only [Kind.core, Kind.grid.injEq] at hc
        obtain ⟨t1, t2, -⟩ := fs.tariff nm hm p tg pt.kg
        refine ⟨by rw [(f.alike nm.2).ffc]; exact t1, .inl ?_⟩
        rw [hl nm hm, (ahead_congr hc.2).1]
        exact t2 k hk (by omega)
      · have e : nm = nb := by
          refine pt.uniq nm hm nb pt.mb ?_
          rw [← Kind.core_cls, ← f.core nm hm, Kind.core_cls, hbb, pt.kb]; rfl
        subst e
        rw [hb] at hbb
        obtain rfl := Kind.battery.inj hbb
        refine ⟨?_, Flow.netted_one _⟩
        have heff : b'.efficiency = 1 := by
          rw [← (poses.battery nm hm b' hb).1, sh.eta]
        rw [heff, mul_one, b6]
        exact ok0.netted.discharge.2
      · exact absurd (poses.genset nm hm xx hxx).1 (by rw [sh.genset]; simp)
    have cost := r.charges pt.ids live poses feas hpos ex carries' run f.shaper (c := p.costPerCo2) (by
      intro nm hm pp tt hpp
      have e : nm = ng := by
        refine pt.uniq nm hm ng pt.mg ?_
        rw [← Kind.core_cls, ← f.core nm hm, Kind.core_cls, hpp, pt.kg]; rfl
      subst e
      have hc := f.core nm hm
      rw [hpp, pt.kg] at hc
      simp only [Kind.core, Kind.grid.injEq] at hc
      rw [hc.1])
    have done := r.as_planned pt.ids live poses feas hpos ex carries' run
    obtain ⟨-, b₁, hb₁, soc₁⟩ := done.battery nb pt.mb b' hb
    rw [hyf] at cost soc₁
    have hle₁ := charged_le sh hpos (fair.mono hk (by omega)) ok0
    -- the rest
    have er : g₁ = runG g [.run c false] := by simp [runG, GOp.apply, run]
    have self : Follows g.heap mods none g := ⟨f.ok, fun j => Alike.refl _, fun _ _ => rfl, f.shaper⟩
    obtain ⟨-, hl₁, -⟩ := self.account pt.ids pt.names hl (r.supplies poses feas hpos carries') run
    have := ih (er ▸ r.runG _) (f.run run) (er ▸ fr.runG _) hl₁ (by omega) (by omega) hb₁ (l := l')
      (by rw [soc₁]; exact p') (by omega)
    simp only [List.map_cons, List.sum_cons]
    rw [cost]
    have e2 : (day tl tp tg b p u).co2 = p.costPerCo2 := rfl
    rw [e2] at hle₁
    linarith

/-- The modules of a microgrid for which there is a planner. -/
theorem Ready.plant {pl : Planner} (r : Ready mods pl g) (hid : (mods.map Prod.snd).Nodup) (f : Follows h mods none g)
    {a n H : Nat} (fs : Foreseen h mods a n H) :
    ∃ nl np nb ng nu tl tp tg b p u, Plant h mods nl np nb ng nu tl tp tg b p u := by
  have cls : ∀ nm ∈ mods, (g.heap nm.2).kind.cls = (h nm.2).kind.cls :=
    fun nm hm => by rw [← Kind.core_cls, f.core nm hm, Kind.core_cls]
  obtain ⟨nl, ml, -, cl⟩ := r.placed.load
  obtain ⟨np, mp, -, cp⟩ := r.placed.pv
  obtain ⟨nb, mb, -, -, cb⟩ := r.placed.battery
  obtain ⟨nu, mu, cu⟩ := r.placed.balancing
  obtain ⟨ng, mg, p, tg, kg⟩ := fs.grid
  rw [cls _ ml] at cl
  rw [cls _ mp] at cp
  rw [cls _ mb] at cb
  rw [cls _ mu] at cu
  obtain ⟨tl, kl⟩ : ∃ t, (h nl.2).kind = .load t := by
    cases hk : (h nl.2).kind <;> rw [hk] at cl <;> simp [Kind.cls] at cl ⊢
  obtain ⟨tp, kp⟩ : ∃ t, (h np.2).kind = .renewable t := by
    cases hk : (h np.2).kind <;> rw [hk] at cp <;> simp [Kind.cls] at cp ⊢
  obtain ⟨b, kb⟩ : ∃ t, (h nb.2).kind = .battery t := by
    cases hk : (h nb.2).kind <;> rw [hk] at cb <;> simp [Kind.cls] at cb ⊢
  obtain ⟨u, ku⟩ : ∃ t, (h nu.2).kind = .balancing t := by
    cases hk : (h nu.2).kind <;> rw [hk] at cu <;> simp [Kind.cls] at cu ⊢
  exact ⟨nl, np, nb, ng, nu, tl, tp, tg, b, p, u, ml, mp, mb, mg, mu, kl, kp, kb, kg, ku, fs.genset,
    fun x hx y hy e => r.placed.uniq x hx y hy (by rw [cls x hx, cls y hy]; exact e), hid, r.placed.names⟩

theorem load_ahead {m : Module} {t : TS} (wf : m.LoadWF t) (hs : t.maxRow = [0]) (c : Nat) : t.ahead c 0 ≤ 0 := by
  unfold TS.ahead
  cases hr : t.rows[c]? with
  | some r =>
    obtain ⟨x, rfl, hx, -⟩ := wf.itemAt hr
    simpa using hx
  | none =>
    have hlen := wf.ts.valid.minLen.trans wf.one
    obtain ⟨x, hx⟩ := List.length_eq_one_iff.mp hlen
    have := (wf.ts.valid.box.2.2 0 x 0 x (by simp [hx]) (by simp [hs]) (by simp [hx])).2
    rw [hx, hs]
    simp only [midpoints, List.zipWith_cons_cons, Option.getD_none, List.getD_cons_zero]
    linarith

theorem Plant.fair (pt : Plant h mods nl np nb ng nu tl tp tg b p u) (wf : ∀ nm ∈ mods, (h nm.2).WF)
    (sane : ∀ nm ∈ mods, (h nm.2).kind.Sane) (room : 0 ≤ b.minCapacity ∧ 0 < b.maxCapacity) {a n H : Nat}
    (fs : Foreseen h mods a n H) (cov : CoveredAfter h mods a n H) : (day tl tp tg b p u).Fair a (a + n + H) := by
  obtain ⟨b', wb⟩ := (wf nb pt.mb).batWF (by rw [pt.kb]; rfl)
  have e := wb.kind
  rw [pt.kb] at e
  obtain rfl := Kind.battery.inj e
  obtain ⟨tl', wl⟩ := (wf nl pt.ml).loadWF (by rw [pt.kl]; rfl)
  have e := wl.kind
  rw [pt.kl] at e
  obtain rfl := Kind.load.inj e
  obtain ⟨tp', wp⟩ := (wf np pt.mp).renWF (by rw [pt.kp]; rfl)
  have e := wp.kind
  rw [pt.kp] at e
  obtain rfl := Kind.renewable.inj e
  obtain ⟨p', tg', wg⟩ := (wf ng pt.mg).gridWF (by rw [pt.kg]; rfl)
  have e := wg.kind
  rw [pt.kg] at e
  obtain ⟨rfl, rfl⟩ := Kind.grid.inj e
  have sb := sane nb pt.mb
  rw [pt.kb] at sb
  have sl := sane nl pt.ml
  rw [pt.kl] at sl
  refine ⟨room.2, ?_, wb.valid.maxCharge_nonneg, wb.valid.maxDischarge_nonneg, wg.imp, wg.exp, (fs.battery nb pt.mb b pt.kb).2,
    (fs.balancing nu pt.mu u pt.ku).1, fun c h1 h2 => ⟨?_, ?_, ?_⟩⟩
  · simp only [day]
    rw [show b.minSoc = b.minCapacity / b.maxCapacity from sb]
    exact div_nonneg room.1 room.2.le
  · have := load_ahead wl sl c
    simp only [day]
    linarith
  · have hl := load_ahead wl sl c
    simp only [day]
    by_cases hc : c < a + n
    · have := (fs.forecast np pt.mp tp (by simp [series?, pt.kp])).1
      have hlt : c < tp.rows.length := by omega
      obtain ⟨x, hx, h0, -⟩ := wp.itemAt (List.getElem?_eq_getElem hlt)
      simp [TS.ahead, hlt, hx, h0]
    · have := cov nl pt.ml tl pt.kl np pt.mp tp pt.kp c (by omega) h2
      linarith
  · exact ((fs.tariff ng pt.mg p tg pt.kg).2.2 c h1 h2).2
end

end Pymgrid.MPC
