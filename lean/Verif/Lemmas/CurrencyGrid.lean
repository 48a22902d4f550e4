import Verif.Lemmas.Currency

set_option autoImplicit false

/-! Lemmas for C86: microgrids in two currencies. -/

namespace Pymgrid

/-- What a step has collected, with the reward multiplied. -/
def StepAcc.priced (k : ℚ) (a : StepAcc) : StepAcc := { a with reward := k * a.reward }

/-- Marginal costs multiplied by `k`. -/
def pricedInfo (k : ℚ) (ci : CostInfo) : CostInfo := ci.map fun x => (x.1, x.2.map fun c => (k * c.1, k * c.2))

/-- The modules `ids` of the two heaps. -/
def Priced (k : ℚ) (ids : List Nat) (h h' : Heap) : Prop := ∀ i ∈ ids, ModPriced k (h i) (h' i)

section
variable {k : ℚ} {ids : List Nat} {h h' : Heap}

theorem append_priced (a : StepAcc) (name : String) (o : StepOut) :
    (a.priced k).append name (o.priced k) = (a.append name o).priced k := by
  unfold StepAcc.append StepAcc.priced StepOut.priced
  simp only [mul_add]

theorem empty_priced : StepAcc.priced k {} = {} := by
  unfold StepAcc.priced
  simp

theorem Priced.set (t : Priced k ids h h') (i : Nat) {m m' : Module} (hm : ModPriced k m m') :
    Priced k ids (h.set i m) (h'.set i m') := by
  intro j hj
  unfold Heap.set
  split
  · exact hm
  · exact t j hj

/-- Two results of a loop in the two currencies. -/
def PricedRun (k : ℚ) (ids : List Nat) (x y : RunSt × Except Err Unit) : Prop :=
  Priced k ids x.1.heap y.1.heap ∧ y.1.acc = x.1.acc.priced k ∧ y.2 = x.2

theorem Priced.stepOne (t : Priced k ids h h') (hk : 0 < k) {i : Nat} (hi : i ∈ ids) (acc : StepAcc) (name : String)
    (a : Act) (n : Bool) :
    PricedRun k ids (RunSt.stepOne ⟨h, acc⟩ name i a n) (RunSt.stepOne ⟨h', acc.priced k⟩ name i a n) := by
  obtain ⟨h1, h2⟩ := (t i hi).step hk a n
  unfold RunSt.stepOne
  simp only
  cases hs : (h i).step a n with
  | mk m r =>
  cases hs' : (h' i).step a n with
  | mk m' r' =>
  rw [hs, hs'] at h1 h2
  simp only at h1 h2
  subst h2
  cases r with
  | error e => exact ⟨t.set i h1, rfl, rfl⟩
  | ok o => exact ⟨t.set i h1, append_priced acc name o, rfl⟩

theorem Priced.stepMany (hk : 0 < k) {l : List (String × Nat × Act)} (hl : ∀ x ∈ l, x.2.1 ∈ ids) (n : Bool) :
    ∀ {h h' : Heap} (_ : Priced k ids h h') (acc : StepAcc), PricedRun k ids (RunSt.stepMany l n ⟨h, acc⟩)
      (RunSt.stepMany l n ⟨h', acc.priced k⟩) := by
  induction l with
  | nil => intro h h' t acc; exact ⟨t, rfl, rfl⟩
  | cons x l ih =>
    intro h h' t acc
    obtain ⟨name, i, a⟩ := x
    have hs := t.stepOne hk (hl (name, i, a) (by simp)) acc name a n
    simp only [RunSt.stepMany]
    cases h1 : RunSt.stepOne ⟨h, acc⟩ name i a n with
    | mk s r =>
    cases h2 : RunSt.stepOne ⟨h', acc.priced k⟩ name i a n with
    | mk s' r' =>
    simp only at hs
    rw [h1, h2] at hs
    obtain ⟨hh, acc₁⟩ := s
    obtain ⟨hh', acc₁'⟩ := s'
    obtain ⟨t', e1, e2⟩ := hs
    simp only at t' e1 e2
    subst e1 e2
    cases r' with
    | error e => exact ⟨t', rfl, rfl⟩
    | ok u => exact ih (fun x hx => hl x (by simp [hx])) t' acc₁

theorem Priced.stepControls (hk : 0 < k) {d : ModDict} (control : List (String × Ctrl)) (n : Bool)
    (hd : ∀ x ∈ d, ∀ i ∈ x.2, i ∈ ids) :
    ∀ {h h' : Heap} (_ : Priced k ids h h') (acc : StepAcc), PricedRun k ids (RunSt.stepControls control n d ⟨h, acc⟩)
      (RunSt.stepControls control n d ⟨h', acc.priced k⟩) := by
  induction d with
  | nil => intro h h' t acc; exact ⟨t, rfl, rfl⟩
  | cons x d ih =>
    intro h h' t acc
    obtain ⟨name, is⟩ := x
    simp only [RunSt.stepControls]
    cases dictGet? control name with
    | none => exact ⟨t, rfl, rfl⟩
    | some c =>
      simp only
      have hs := Priced.stepMany hk (l := (is.zip c.acts).map fun ia => (name, ia.1, ia.2)) (ids := ids) (by
        intro y hy
        obtain ⟨ia, hia, rfl⟩ := List.mem_map.mp hy
        exact hd (name, is) (by simp) _ (List.of_mem_zip hia).1) n t acc
      cases h1 : RunSt.stepMany ((is.zip c.acts).map fun ia => (name, ia.1, ia.2)) n ⟨h, acc⟩ with
      | mk s r =>
      cases h2 : RunSt.stepMany ((is.zip c.acts).map fun ia => (name, ia.1, ia.2)) n ⟨h', acc.priced k⟩ with
      | mk s' r' =>
      rw [h1, h2] at hs
      obtain ⟨hh, acc₁⟩ := s
      obtain ⟨hh', acc₁'⟩ := s'
      obtain ⟨t', e1, e2⟩ := hs
      simp only at t' e1 e2
      subst e1 e2
      cases r' with
      | error e => exact ⟨t', rfl, rfl⟩
      | ok u => exact ih (fun x hx => hd x (by simp [hx])) t' acc₁

theorem ModPriced.sinkAmount {m m' : Module} (t : ModPriced k m m') (hk : 0 < k) (x : ℚ) :
    sinkAmount m' x = Pymgrid.sinkAmount m x := by
  unfold Pymgrid.sinkAmount
  rw [t.isSink, t.maxConsumption hk]

theorem ModPriced.sourceAmount {m m' : Module} (t : ModPriced k m m') (hk : 0 < k) (x : ℚ) :
    sourceAmount m' x = Pymgrid.sourceAmount m x := by
  unfold Pymgrid.sourceAmount
  rw [t.isSource, t.maxProduction hk]

theorem Priced.absorbExcess (hk : 0 < k) {l : List (String × Nat)} (hl : ∀ x ∈ l, x.2 ∈ ids) :
    ∀ {h h' : Heap} (_ : Priced k ids h h') (acc : StepAcc) (x : ℚ), PricedRun k ids (RunSt.absorbExcess l x ⟨h, acc⟩)
      (RunSt.absorbExcess l x ⟨h', acc.priced k⟩) := by
  induction l with
  | nil => intro h h' t acc x; exact ⟨t, rfl, rfl⟩
  | cons y l ih =>
    intro h h' t acc x
    obtain ⟨name, i⟩ := y
    have hi : i ∈ ids := hl (name, i) (by simp)
    simp only [RunSt.absorbExcess, (t i hi).sinkAmount hk]
    cases sinkAmount (h i) x with
    | error e => exact ⟨t, rfl, rfl⟩
    | ok amt =>
      simp only
      have hs := t.stepOne hk hi acc name (.num (-1 * amt)) false
      cases h1 : RunSt.stepOne ⟨h, acc⟩ name i (.num (-1 * amt)) false with
      | mk s r =>
      cases h2 : RunSt.stepOne ⟨h', acc.priced k⟩ name i (.num (-1 * amt)) false with
      | mk s' r' =>
      rw [h1, h2] at hs
      obtain ⟨hh, acc₁⟩ := s
      obtain ⟨hh', acc₁'⟩ := s'
      obtain ⟨t', e1, e2⟩ := hs
      simp only at t' e1 e2
      subst e1 e2
      cases r' with
      | error e => exact ⟨t', rfl, rfl⟩
      | ok u => exact ih (fun x hx => hl x (by simp [hx])) t' acc₁ _

theorem Priced.coverNeed (hk : 0 < k) {l : List (String × Nat)} (hl : ∀ x ∈ l, x.2 ∈ ids) :
    ∀ {h h' : Heap} (_ : Priced k ids h h') (acc : StepAcc) (x : ℚ), PricedRun k ids (RunSt.coverNeed l x ⟨h, acc⟩)
      (RunSt.coverNeed l x ⟨h', acc.priced k⟩) := by
  induction l with
  | nil => intro h h' t acc x; exact ⟨t, rfl, rfl⟩
  | cons y l ih =>
    intro h h' t acc x
    obtain ⟨name, i⟩ := y
    have hi : i ∈ ids := hl (name, i) (by simp)
    simp only [RunSt.coverNeed, (t i hi).sourceAmount hk]
    cases sourceAmount (h i) x with
    | error e => exact ⟨t, rfl, rfl⟩
    | ok amt =>
      simp only
      have hs := t.stepOne hk hi acc name (.num amt) false
      cases h1 : RunSt.stepOne ⟨h, acc⟩ name i (.num amt) false with
      | mk s r =>
      cases h2 : RunSt.stepOne ⟨h', acc.priced k⟩ name i (.num amt) false with
      | mk s' r' =>
      rw [h1, h2] at hs
      obtain ⟨hh, acc₁⟩ := s
      obtain ⟨hh', acc₁'⟩ := s'
      obtain ⟨t', e1, e2⟩ := hs
      simp only at t' e1 e2
      subst e1 e2
      cases r' with
      | error e => exact ⟨t', rfl, rfl⟩
      | ok u => exact ih (fun x hx => hl x (by simp [hx])) t' acc₁ _

theorem Priced.costInfo (t : Priced k ids h h') (hk : 0 < k) {d : ModDict} (hd : ∀ x ∈ d, ∀ i ∈ x.2, i ∈ ids) :
    costInfo h' d = (Pymgrid.costInfo h d).map (pricedInfo k) := by
  have one : ∀ l : List Nat, (∀ i ∈ l, i ∈ ids) →
      costInfoOf h' l = (costInfoOf h l).map (List.map fun c => (k * c.1, k * c.2)) := by
    intro l
    induction l with
    | nil => intro _; rfl
    | cons i l ih =>
      intro hl
      simp only [costInfoOf]
      have hc := t i (hl i (by simp))
      rw [hc.marginalCost hk, hc.absorptionCost hk, ih fun j hj => hl j (by simp [hj])]
      cases (h i).marginalCost <;> cases (h i).absorptionCost <;> cases costInfoOf h l <;> rfl
  induction d with
  | nil => rfl
  | cons x d ih =>
    obtain ⟨n, l⟩ := x
    have := ih fun y hy => hd y (by simp [hy])
    simp only [Pymgrid.costInfo] at this ⊢
    rw [one l (hd (n, l) (by simp)), this]
    cases costInfoOf h l <;> cases Pymgrid.costInfo h d <;> rfl

theorem Priced.resetMany (hk : 0 < k) {l : List Nat} (hl : ∀ i ∈ l, i ∈ ids) : ∀ {h h' : Heap} (_ : Priced k ids h h'),
    Priced k ids (Microgrid.resetMany h l).1 (Microgrid.resetMany h' l).1 ∧
      (Microgrid.resetMany h' l).2 = (Microgrid.resetMany h l).2 := by
  induction l with
  | nil => intro h h' t; exact ⟨t, rfl⟩
  | cons i l ih =>
    intro h h' t
    have hi := hl i (by simp)
    obtain ⟨h1, h2⟩ := (t i hi).reset hk
    simp only [Microgrid.resetMany]
    cases hs : (h i).reset with
    | mk m r =>
    cases hs' : (h' i).reset with
    | mk m' r' =>
    rw [hs, hs'] at h1 h2
    simp only at h1 h2
    subst h2
    cases r' with
    | error e => exact ⟨t.set i h1, rfl⟩
    | ok o => exact ih (fun j hj => hl j (by simp [hj])) (t.set i h1)

theorem Priced.setInitial (v : Nat) {l : List Nat} (hl : ∀ i ∈ l, i ∈ ids) : ∀ {h h' : Heap} (_ : Priced k ids h h'),
    Priced k ids (Microgrid.setInitialMany h v l) (Microgrid.setInitialMany h' v l) := by
  induction l with
  | nil => intro h h' t; exact t
  | cons i l ih =>
    intro h h' t
    have hi := hl i (by simp)
    simp only [Microgrid.setInitialMany]
    exact ih (fun j hj => hl j (by simp [hj])) (t.set i ((t i hi).withInitial v))

theorem Priced.setFinal (v : Int) {l : List Nat} (hl : ∀ i ∈ l, i ∈ ids) : ∀ {h h' : Heap} (_ : Priced k ids h h')
    (any : Bool), Priced k ids (Microgrid.setFinalMany h v any l).1 (Microgrid.setFinalMany h' v any l).1 ∧
      (Microgrid.setFinalMany h' v any l).2 = (Microgrid.setFinalMany h v any l).2 := by
  induction l with
  | nil => intro h h' t any; exact ⟨t, rfl⟩
  | cons i l ih =>
    intro h h' t any
    have hi := hl i (by simp)
    obtain ⟨h1, h2⟩ := (t i hi).setFinal v
    simp only [Microgrid.setFinalMany]
    cases hs : Microgrid.setFinalOne (h i) v with
    | mk m r =>
    cases hs' : Microgrid.setFinalOne (h' i) v with
    | mk m' r' =>
    rw [hs, hs'] at h1 h2
    simp only at h1 h2
    subst h2
    cases r' with
    | error e => exact ⟨t.set i h1, rfl⟩
    | ok b => exact ih (fun j hj => hl j (by simp [hj])) (t.set i h1) _

end

theorem shapedReward_priced {k : ℚ} {sh sh' : Option Shaper} (hs : SameShaper k sh sh') (a : StepAcc) (ci : CostInfo) :
    (a.priced k).shapedReward sh' (pricedInfo k ci) = (a.shapedReward sh ci).map (k * ·) := by
  cases hs with
  | none => rfl
  | some h => exact h a.infos ci

theorem balance_priced {k : ℚ} {sh sh' : Option Shaper} (hs : SameShaper k sh sh') (a : StepAcc) (ci : CostInfo) :
    (a.priced k).balance sh' (pricedInfo k ci) =
      (a.balance sh ci).map fun x => (x.1, x.2.1, k * x.2.2.1, k * x.2.2.2) := by
  unfold StepAcc.balance
  rw [shapedReward_priced hs]
  cases a.shapedReward sh ci <;> rfl

/-- Two microgrids in the two currencies; logs may differ. -/
structure PricedGrid (k : ℚ) (g g' : Microgrid) : Prop where
  heap : Priced k g.cont.fullList g.heap g'.heap
  cont : g'.cont = g.cont
  initialStep : g'.initialStep = g.initialStep
  finalStep : g'.finalStep = g.finalStep
  shaper : SameShaper k g.shaper g'.shaper
  trajectory : g'.trajectory = g.trajectory
  calls : g'.calls = g.calls

section
variable {k : ℚ} {g g' : Microgrid}

theorem PricedGrid.run (t : PricedGrid k g g') (hk : 0 < k) (control : List (String × Ctrl)) (n : Bool) :
    PricedGrid k (g.run control n).1 (g'.run control n).1 ∧
      (g'.run control n).2 = (g.run control n).2.map (RunOut.priced k) := by
  obtain ⟨h', c', i', f', sh', tr', ca', bl', ol'⟩ := g'
  obtain ⟨th, q1, q2, q3, q4, q5, q6⟩ := t
  simp only at th q1 q2 q3 q4 q5 q6
  subst q1 q2 q3 q5 q6
  have t : PricedGrid k g ⟨h', g.cont, g.initialStep, g.finalStep, sh', g.trajectory, g.calls, bl', ol'⟩ :=
    ⟨th, rfl, rfl, rfl, q4, rfl, rfl⟩
  have withHeap : ∀ {h h' : Heap}, Priced k g.cont.fullList h h' →
      PricedGrid k { g with heap := h }
        ⟨h', g.cont, g.initialStep, g.finalStep, sh', g.trajectory, g.calls, bl', ol'⟩ := fun th =>
    ⟨th, rfl, rfl, rfl, q4, rfl, rfl⟩
  have hci : costInfo h' g.cont.fullDict = (costInfo g.heap g.cont.fullDict).map (pricedInfo k) :=
    th.costInfo hk fun x hx i hi => Container.full_fullList (toTuples_mem hx hi)
  unfold Microgrid.run
  simp only [hci]
  cases costInfo g.heap g.cont.fullDict with
  | error e => exact ⟨t, rfl⟩
  | ok ci =>
    simp only [Except.map]
    have hfix : (⟨h', g.cont, g.initialStep, g.finalStep, sh', g.trajectory, g.calls, bl', ol'⟩ : Microgrid).fixedSteps = g.fixedSteps := rfl
    rw [hfix]
    have s1 := Priced.stepMany hk (l := g.fixedSteps) (ids := g.cont.fullList) (by
      intro x hx
      obtain ⟨ni, hni, rfl⟩ := List.mem_map.mp hx
      exact Container.level_fullList hni) false t.heap {}
    rw [empty_priced] at s1
    cases e1 : RunSt.stepMany g.fixedSteps false ⟨g.heap, {}⟩ with
    | mk s r =>
    cases e1' : RunSt.stepMany g.fixedSteps false ⟨h', {}⟩ with
    | mk s' r' =>
    simp only at s1
    rw [e1, e1'] at s1
    obtain ⟨h₁, a₁⟩ := s
    obtain ⟨h₁', a₁'⟩ := s'
    obtain ⟨t₁, q1, q2⟩ := s1
    simp only at t₁ q1 q2
    subst q1 q2
    cases r' with
    | error e => exact ⟨withHeap t₁, rfl⟩
    | ok u =>
      simp only
      rw [balance_priced q4]
      cases a₁.balance g.shaper ci with
      | error e => exact ⟨withHeap t₁, rfl⟩
      | ok b =>
        obtain ⟨fp, fc, b3, b4⟩ := b
        simp only [Except.map]
        have s2 := Priced.stepControls hk (d := g.cont.levelDict .controllable) (ids := g.cont.fullList) control n
          (fun x hx i hi => Container.level_fullList (toTuples_mem hx hi)) t₁ a₁
        cases e2 : RunSt.stepControls control n (g.cont.levelDict .controllable) ⟨h₁, a₁⟩ with
        | mk s r =>
        cases e2' : RunSt.stepControls control n (g.cont.levelDict .controllable) ⟨h₁', a₁.priced k⟩ with
        | mk s' r' =>
        rw [e2, e2'] at s2
        obtain ⟨h₂, a₂⟩ := s
        obtain ⟨h₂', a₂'⟩ := s'
        obtain ⟨t₂, q1, q2⟩ := s2
        simp only at t₂ q1 q2
        subst q1 q2
        cases r' with
        | error e => exact ⟨withHeap t₂, rfl⟩
        | ok u =>
          simp only
          rw [balance_priced q4]
          cases a₂.balance g.shaper ci with
          | error e => exact ⟨withHeap t₂, rfl⟩
          | ok b =>
            obtain ⟨p, c, b3, b4⟩ := b
            simp only [Except.map]
            have hmem : ∀ x ∈ g.flexList, x.2 ∈ g.cont.fullList := fun x hx => Container.level_fullList hx
            have s3 : PricedRun k g.cont.fullList (g.dispatch (p - c) ⟨h₂, a₂⟩) ((⟨h', g.cont, g.initialStep, g.finalStep, sh', g.trajectory, g.calls, bl', ol'⟩ : Microgrid).dispatch (p - c) ⟨h₂', a₂.priced k⟩) := by
              unfold Microgrid.dispatch
              split
              · exact Priced.absorbExcess hk hmem t₂ a₂ _
              · exact Priced.coverNeed hk hmem t₂ a₂ _
            cases e3 : g.dispatch (p - c) ⟨h₂, a₂⟩ with
            | mk s r =>
            cases e3' : (⟨h', g.cont, g.initialStep, g.finalStep, sh', g.trajectory, g.calls, bl', ol'⟩ : Microgrid).dispatch (p - c) ⟨h₂', a₂.priced k⟩ with
            | mk s' r' =>
            rw [e3, e3'] at s3
            obtain ⟨h₃, a₃⟩ := s
            obtain ⟨h₃', a₃'⟩ := s'
            obtain ⟨t₃, q1, q2⟩ := s3
            simp only at t₃ q1 q2
            subst q1 q2
            cases r' with
            | error e => exact ⟨withHeap t₃, rfl⟩
            | ok u =>
              simp only
              unfold Microgrid.finish
              simp only
              have w := withHeap t₃
              rw [balance_priced q4, shapedReward_priced q4]
              cases a₃.balance g.shaper ci with
              | error e => exact ⟨w, rfl⟩
              | ok b =>
                obtain ⟨x1, x2, x3, x4⟩ := b
                simp only [Except.map]
                split
                · exact ⟨⟨t₃, rfl, rfl, rfl, q4, rfl, rfl⟩, rfl⟩
                · cases a₃.shapedReward g.shaper ci with
                  | error e => exact ⟨⟨t₃, rfl, rfl, rfl, q4, rfl, rfl⟩, rfl⟩
                  | ok q => exact ⟨⟨t₃, rfl, rfl, rfl, q4, rfl, rfl⟩, rfl⟩

theorem PricedGrid.setTrajectory (t : PricedGrid k g g') :
    PricedGrid k g.setTrajectory.1 g'.setTrajectory.1 ∧ g'.setTrajectory.2 = g.setTrajectory.2 := by
  obtain ⟨h, c, i₀, f₀, sh, tr, ca, bl, ol⟩ := g
  obtain ⟨h', c', i', f', sh', tr', ca', bl', ol'⟩ := g'
  obtain ⟨th, q1, q2, q3, q4, q5, q6⟩ := t
  simp only at th q1 q2 q3 q4 q5 q6
  subst q1 q2 q3 q5 q6
  unfold Microgrid.setTrajectory
  cases tr' with
  | none => exact ⟨⟨th, rfl, rfl, rfl, q4, rfl, rfl⟩, rfl⟩
  | some f =>
    simp only
    cases f ca' i' f' with
    | error e => exact ⟨⟨th, rfl, rfl, rfl, q4, rfl, rfl⟩, rfl⟩
    | ok x =>
      obtain ⟨i, fin⟩ := x
      simp only
      have s1 := Priced.setInitial i (l := c'.fullList) (fun _ h => h) th
      obtain ⟨s2, s3⟩ := Priced.setFinal fin (l := c'.fullList) (fun _ h => h) s1 false
      exact ⟨⟨s2, rfl, rfl, rfl, q4, rfl, rfl⟩, s3⟩

theorem PricedGrid.reset (t : PricedGrid k g g') (hk : 0 < k) :
    PricedGrid k g.reset.1 g'.reset.1 ∧ g'.reset.2 = g.reset.2 := by
  obtain ⟨t₁, e⟩ := t.setTrajectory
  have hcont : g.setTrajectory.1.cont = g.cont := by
    unfold Microgrid.setTrajectory
    repeat' split
    all_goals rfl
  unfold Microgrid.reset
  cases h1 : g.setTrajectory with
  | mk g₁ r =>
  cases h1' : g'.setTrajectory with
  | mk g₁' r' =>
  rw [h1, h1'] at t₁ e
  rw [h1] at hcont
  simp only at t₁ e hcont
  subst e
  cases r' with
  | error e => exact ⟨t₁, rfl⟩
  | ok u =>
    simp only
    rw [t.cont]
    obtain ⟨s1, s2⟩ := Priced.resetMany hk (l := (Container.toTuples g.cont.fullDict).map Prod.snd)
      (ids := g₁.cont.fullList) (by
        intro i hi
        obtain ⟨ni, hni, rfl⟩ := List.mem_map.mp hi
        rw [hcont]
        exact Container.full_fullList hni) t₁.heap
    cases h2 : Microgrid.resetMany g₁.heap ((Container.toTuples g.cont.fullDict).map Prod.snd) with
    | mk hh r =>
    cases h2' : Microgrid.resetMany g₁'.heap ((Container.toTuples g.cont.fullDict).map Prod.snd) with
    | mk hh' r' =>
    rw [h2, h2'] at s1 s2
    simp only at s1 s2
    subst s2
    cases r' with
    | error e => exact ⟨⟨s1, t₁.cont, t₁.initialStep, t₁.finalStep, t₁.shaper, t₁.trajectory, t₁.calls⟩, rfl⟩
    | ok u => exact ⟨⟨s1, t₁.cont, t₁.initialStep, t₁.finalStep, t₁.shaper, t₁.trajectory, t₁.calls⟩, rfl⟩

theorem PricedGrid.results (t : PricedGrid k g g') (hk : 0 < k) (ops : List GOp) :
    g'.results ops = (g.results ops).map (Except.map (Option.map (RunOut.priced k))) ∧
      PricedGrid k (Pymgrid.runG g ops) (Pymgrid.runG g' ops) := by
  induction ops generalizing g g' with
  | nil => exact ⟨rfl, t⟩
  | cons op ops ih =>
    cases op with
    | run c n =>
      obtain ⟨t', e⟩ := t.run hk c n
      obtain ⟨h1, h2⟩ := ih t'
      refine ⟨?_, h2⟩
      simp only [Microgrid.results, h1, e, List.map_cons, List.cons.injEq, and_true]
      cases (g.run c n).2 <;> rfl
    | reset =>
      obtain ⟨t', e⟩ := t.reset hk
      obtain ⟨h1, h2⟩ := ih t'
      refine ⟨?_, h2⟩
      simp only [Microgrid.results, h1, e, List.map_cons, List.cons.injEq, and_true]
      cases g.reset.2 <;> rfl

end

end Pymgrid
