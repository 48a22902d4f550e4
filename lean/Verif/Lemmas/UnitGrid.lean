import Verif.Lemmas.Units

set_option autoImplicit false

/-! Lemmas for C92: microgrids in two units. -/

namespace Pymgrid

/-- What a step has collected, with energies in another unit. -/
def StepAcc.inUnit (u : ℚ) (a : StepAcc) : StepAcc :=
  { a with infos := infosIn u a.infos, provided := a.provided.map (u * ·), absorbed := a.absorbed.map (u * ·) }

/-- The modules `ids` of the two heaps. -/
def Scaled (u : ℚ) (gen wide : Nat → Bool) (ids : List Nat) (h h' : Heap) : Prop :=
  ∀ i ∈ ids, ModScaled u (gen i) (wide i) (h i) (h' i)

theorem dictSet_mapped {β γ : Type} (f : β → γ) (d : List (String × β)) (k : String) (v : β) :
    dictSet (d.map fun x => (x.1, f x.2)) k (f v) = (dictSet d k v).map fun x => (x.1, f x.2) := by
  induction d with
  | nil => rfl
  | cons x d ih =>
    obtain ⟨k', v'⟩ := x
    simp only [List.map_cons, dictSet]
    split
    · rfl
    · rw [List.map_cons, ih]

theorem dictGet?_mapped {β γ : Type} (f : String → β → γ) (d : List (String × β)) (k : String) :
    dictGet? (d.map fun x => (x.1, f x.1 x.2)) k = (dictGet? d k).map (f k) := by
  induction d with
  | nil => rfl
  | cons x d ih =>
    obtain ⟨k', v'⟩ := x
    simp only [List.map_cons, dictGet?]
    split
    · rename_i h; rw [Option.map_some, h]
    · exact ih

theorem dictAppend_mapped {β γ : Type} (f : β → γ) (d : List (String × List β)) (k : String) (v : β) :
    dictAppend (d.map fun x => (x.1, x.2.map f)) k (f v) = (dictAppend d k v).map fun x => (x.1, x.2.map f) := by
  unfold dictAppend
  rw [dictGet?_mapped (fun _ l => List.map f l)]
  cases dictGet? d k with
  | none => exact dictSet_mapped (List.map f) d k [v]
  | some l =>
    simp only [Option.map_some]
    rw [← dictSet_mapped (List.map f), List.map_append]
    rfl

section
variable {u : ℚ} {gen wide : Nat → Bool} {ids : List Nat} {h h' : Heap}

theorem append_inUnit (a : StepAcc) (name : String) (o : StepOut) :
    (a.inUnit u).append name (o.inUnit u) = (a.append name o).inUnit u := by
  unfold StepAcc.append StepAcc.inUnit StepOut.inUnit
  simp only [infosIn, dictAppend_mapped]
  cases hp : o.info.provided <;> cases ha : o.info.absorbed <;> simp [Info.inUnit, hp, ha]

theorem empty_inUnit : StepAcc.inUnit u {} = {} := rfl

theorem Scaled.set (t : Scaled u gen wide ids h h') (i : Nat) {m m' : Module} (hm : ModScaled u (gen i) (wide i) m m') :
    Scaled u gen wide ids (h.set i m) (h'.set i m') := by
  intro j hj
  unfold Heap.set
  split
  · rename_i e; rw [e]; exact hm
  · exact t j hj

/-- Two results of a loop in the two currencies. -/
def ScaledRun (u : ℚ) (gen wide : Nat → Bool) (ids : List Nat) (x y : RunSt × Except Err Unit) : Prop :=
  Scaled u gen wide ids x.1.heap y.1.heap ∧ y.1.acc = x.1.acc.inUnit u ∧ y.2 = x.2

theorem Scaled.stepOne (t : Scaled u gen wide ids h h') (hu : 0 < u) {i : Nat} (hi : i ∈ ids) (acc : StepAcc) (name : String)
    (a : Act) (n : Bool) (hw : n = true → wide i = true) :
    ScaledRun u gen wide ids (RunSt.stepOne ⟨h, acc⟩ name i a n)
      (RunSt.stepOne ⟨h', acc.inUnit u⟩ name i (actIn u (gen i) n a) n) := by
  obtain ⟨h1, h2⟩ := (t i hi).step hu a n hw
  unfold RunSt.stepOne
  simp only
  cases hs : (h i).step a n with
  | mk m r =>
  cases hs' : (h' i).step (actIn u (gen i) n a) n with
  | mk m' r' =>
  rw [hs, hs'] at h1 h2
  simp only at h1 h2
  subst h2
  cases r with
  | error e => exact ⟨t.set i h1, rfl, rfl⟩
  | ok o => exact ⟨t.set i h1, append_inUnit acc name o, rfl⟩

theorem Scaled.stepMany (hu : 0 < u) {l : List (String × Nat × Act)} (hl : ∀ x ∈ l, x.2.1 ∈ ids) (n : Bool)
    (hw : n = true → ∀ x ∈ l, wide x.2.1 = true) :
    ∀ {h h' : Heap} (_ : Scaled u gen wide ids h h') (acc : StepAcc), ScaledRun u gen wide ids (RunSt.stepMany l n ⟨h, acc⟩)
      (RunSt.stepMany (l.map fun x => (x.1, x.2.1, actIn u (gen x.2.1) n x.2.2)) n ⟨h', acc.inUnit u⟩) := by
  induction l with
  | nil => intro h h' t acc; exact ⟨t, rfl, rfl⟩
  | cons x l ih =>
    intro h h' t acc
    obtain ⟨name, i, a⟩ := x
    have hs := t.stepOne hu (hl (name, i, a) (by simp)) acc name a n
      (fun e => hw e (name, i, a) (by simp))
    simp only [RunSt.stepMany, List.map_cons]
    cases h1 : RunSt.stepOne ⟨h, acc⟩ name i a n with
    | mk s r =>
    cases h2 : RunSt.stepOne ⟨h', acc.inUnit u⟩ name i (actIn u (gen i) n a) n with
    | mk s' r' =>
    simp only at hs
    rw [h1, h2] at hs
    obtain ⟨hh, acc₁⟩ := s
    obtain ⟨hh', acc₁'⟩ := s'
    obtain ⟨t', e1, e2⟩ := hs
    simp only at t' e1 e2
    subst e1 e2
    cases r' with
    | error e => exact ⟨t', rfl, rfl⟩
    | ok _ => exact ih (fun x hx => hl x (by simp [hx])) (fun e x hx => hw e x (by simp [hx])) t' acc₁

/-- The control of the second microgrid. -/
def ctrlIn (u : ℚ) (gs : String → Bool) (n : Bool) (c : List (String × Ctrl)) : List (String × Ctrl) :=
  if n = true then c else controlIn u gs c

theorem ctrlIn_get (u : ℚ) (gs : String → Bool) (n : Bool) (c : List (String × Ctrl)) (name : String) :
    (dictGet? (ctrlIn u gs n c) name).map Ctrl.acts =
      (dictGet? c name).map fun x => x.acts.map (actIn u (gs name) n) := by
  unfold ctrlIn
  cases n with
  | true =>
    have : actIn u (gs name) true = id := by funext a; rfl
    rw [this]
    simp
  | false =>
    simp only [Bool.false_eq_true, if_false]
    have e := dictGet?_mapped (fun (nm : String) (y : Ctrl) => y.inUnit u (gs nm)) c name
    unfold controlIn
    rw [e]
    cases dictGet? c name with
    | none => rfl
    | some y =>
      cases y with
      | scalar q => rfl
      | seq l => rfl

theorem Scaled.stepControls (hu : 0 < u) {gs : String → Bool} {d : ModDict} (control : List (String × Ctrl)) (n : Bool)
    (hd : ∀ x ∈ d, ∀ i ∈ x.2, i ∈ ids ∧ gen i = gs x.1 ∧ wide i = true) :
    ∀ {h h' : Heap} (_ : Scaled u gen wide ids h h') (acc : StepAcc),
      ScaledRun u gen wide ids (RunSt.stepControls control n d ⟨h, acc⟩)
        (RunSt.stepControls (ctrlIn u gs n control) n d ⟨h', acc.inUnit u⟩) := by
  induction d with
  | nil => intro h h' t acc; exact ⟨t, rfl, rfl⟩
  | cons x d ih =>
    intro h h' t acc
    obtain ⟨name, is⟩ := x
    simp only [RunSt.stepControls]
    have hg := ctrlIn_get u gs n control name
    cases hc : dictGet? control name with
    | none =>
      rw [hc] at hg
      cases hc' : dictGet? (ctrlIn u gs n control) name with
      | none => exact ⟨t, rfl, rfl⟩
      | some c' => rw [hc'] at hg; simp at hg
    | some c =>
      rw [hc] at hg
      cases hc' : dictGet? (ctrlIn u gs n control) name with
      | none => rw [hc'] at hg; simp at hg
      | some c' =>
      rw [hc'] at hg
      simp only [Option.map_some, Option.some.injEq] at hg
      simp only [hg]
      have hlist : (is.zip (c.acts.map (actIn u (gs name) n))).map (fun ia => (name, ia.1, ia.2)) =
          ((is.zip c.acts).map fun ia => (name, ia.1, ia.2)).map
            (fun x : String × Nat × Act => (x.1, x.2.1, actIn u (gen x.2.1) n x.2.2)) := by
        rw [List.zip_map_right, List.map_map, List.map_map]
        apply List.map_congr_left
        intro ia hia
        simp only [Function.comp, Prod.map, id]
        rw [(hd (name, is) (by simp) _ (List.of_mem_zip hia).1).2.1]
      rw [hlist]
      have hs := Scaled.stepMany hu (gen := gen) (wide := wide) (l := (is.zip c.acts).map fun ia => (name, ia.1, ia.2))
        (ids := ids) (by
        intro y hy
        obtain ⟨ia, hia, rfl⟩ := List.mem_map.mp hy
        exact (hd (name, is) (by simp) _ (List.of_mem_zip hia).1).1) n (by
        intro _ y hy
        obtain ⟨ia, hia, rfl⟩ := List.mem_map.mp hy
        exact (hd (name, is) (by simp) _ (List.of_mem_zip hia).1).2.2) t acc
      cases h1 : RunSt.stepMany ((is.zip c.acts).map fun ia => (name, ia.1, ia.2)) n ⟨h, acc⟩ with
      | mk s r =>
      cases h2 : RunSt.stepMany (((is.zip c.acts).map fun ia => (name, ia.1, ia.2)).map
            (fun x : String × Nat × Act => (x.1, x.2.1, actIn u (gen x.2.1) n x.2.2))) n ⟨h', acc.inUnit u⟩ with
      | mk s' r' =>
      rw [h1, h2] at hs
      obtain ⟨hh, acc₁⟩ := s
      obtain ⟨hh', acc₁'⟩ := s'
      obtain ⟨t', e1, e2⟩ := hs
      simp only at t' e1 e2
      subst e1 e2
      cases r' with
      | error e => exact ⟨t', rfl, rfl⟩
      | ok _ => exact ih (fun x hx => hd x (by simp [hx])) t' acc₁

theorem ModScaled.sinkAmount {a b : Bool} {m m' : Module} (t : ModScaled u a b m m') (hu : 0 < u) (x : ℚ) :
    sinkAmount m' (u * x) = (Pymgrid.sinkAmount m x).map (u * ·) := by
  unfold Pymgrid.sinkAmount
  rw [t.isSink, t.maxConsumption hu]
  split
  · simp [Except.map]
  · cases m.maxConsumption with
    | error e => rfl
    | ok y =>
      cases y with
      | inf => rfl
      | fin mx =>
        simp only [Except.map, ERat.inUnit, mul_lt_mul_iff_right₀ hu]
        split <;> rfl

theorem ModScaled.sourceAmount {a b : Bool} {m m' : Module} (t : ModScaled u a b m m') (hu : 0 < u) (x : ℚ) :
    sourceAmount m' (u * x) = (Pymgrid.sourceAmount m x).map (u * ·) := by
  unfold Pymgrid.sourceAmount
  rw [t.isSource, t.maxProduction hu]
  split
  · simp [Except.map]
  · cases m.maxProduction with
    | error e => rfl
    | ok y =>
      cases y with
      | inf => rfl
      | fin mx =>
        simp only [Except.map, ERat.inUnit, mul_lt_mul_iff_right₀ hu]
        split <;> rfl

theorem Scaled.absorbExcess (hu : 0 < u) {l : List (String × Nat)} (hl : ∀ x ∈ l, x.2 ∈ ids) :
    ∀ {h h' : Heap} (_ : Scaled u gen wide ids h h') (acc : StepAcc) (x : ℚ), ScaledRun u gen wide ids (RunSt.absorbExcess l x ⟨h, acc⟩)
      (RunSt.absorbExcess l (u * x) ⟨h', acc.inUnit u⟩) := by
  induction l with
  | nil => intro h h' t acc x; exact ⟨t, rfl, rfl⟩
  | cons y l ih =>
    intro h h' t acc x
    obtain ⟨name, i⟩ := y
    have hi : i ∈ ids := hl (name, i) (by simp)
    simp only [RunSt.absorbExcess, (t i hi).sinkAmount hu]
    cases sinkAmount (h i) x with
    | error e => exact ⟨t, rfl, rfl⟩
    | ok amt =>
      simp only [Except.map]
      have hs := t.stepOne hu hi acc name (.num (-1 * amt)) false (by simp)
      rw [show actIn u (gen i) false (.num (-1 * amt)) = .num (-1 * (u * amt)) from by
        show Act.num _ = Act.num _
        congr 1; try ring] at hs
      cases h1 : RunSt.stepOne ⟨h, acc⟩ name i (.num (-1 * amt)) false with
      | mk s r =>
      cases h2 : RunSt.stepOne ⟨h', acc.inUnit u⟩ name i (.num (-1 * (u * amt))) false with
      | mk s' r' =>
      rw [h1, h2] at hs
      obtain ⟨hh, acc₁⟩ := s
      obtain ⟨hh', acc₁'⟩ := s'
      obtain ⟨t', e1, e2⟩ := hs
      simp only at t' e1 e2
      subst e1 e2
      cases r' with
      | error e => exact ⟨t', rfl, rfl⟩
      | ok _ =>
        simp only
        rw [show (u * x + -1 * (u * amt)) = u * (x + -1 * amt) from by ring]
        exact ih (fun x hx => hl x (by simp [hx])) t' acc₁ _

theorem Scaled.coverNeed (hu : 0 < u) {l : List (String × Nat)} (hl : ∀ x ∈ l, x.2 ∈ ids) :
    ∀ {h h' : Heap} (_ : Scaled u gen wide ids h h') (acc : StepAcc) (x : ℚ), ScaledRun u gen wide ids (RunSt.coverNeed l x ⟨h, acc⟩)
      (RunSt.coverNeed l (u * x) ⟨h', acc.inUnit u⟩) := by
  induction l with
  | nil => intro h h' t acc x; exact ⟨t, rfl, rfl⟩
  | cons y l ih =>
    intro h h' t acc x
    obtain ⟨name, i⟩ := y
    have hi : i ∈ ids := hl (name, i) (by simp)
    simp only [RunSt.coverNeed, (t i hi).sourceAmount hu]
    cases sourceAmount (h i) x with
    | error e => exact ⟨t, rfl, rfl⟩
    | ok amt =>
      simp only [Except.map]
      have hs := t.stepOne hu hi acc name (.num amt) false (by simp)
      rw [show actIn u (gen i) false (.num amt) = .num (u * amt) from by
        show Act.num _ = Act.num _
        congr 1; try ring] at hs
      cases h1 : RunSt.stepOne ⟨h, acc⟩ name i (.num amt) false with
      | mk s r =>
      cases h2 : RunSt.stepOne ⟨h', acc.inUnit u⟩ name i (.num (u * amt)) false with
      | mk s' r' =>
      rw [h1, h2] at hs
      obtain ⟨hh, acc₁⟩ := s
      obtain ⟨hh', acc₁'⟩ := s'
      obtain ⟨t', e1, e2⟩ := hs
      simp only at t' e1 e2
      subst e1 e2
      cases r' with
      | error e => exact ⟨t', rfl, rfl⟩
      | ok _ =>
        simp only
        rw [show (u * x - u * amt) = u * (x - amt) from by ring]
        exact ih (fun x hx => hl x (by simp [hx])) t' acc₁ _

theorem Scaled.costInfo (t : Scaled u gen wide ids h h') (hu : 0 < u) {d : ModDict} (hd : ∀ x ∈ d, ∀ i ∈ x.2, i ∈ ids) :
    (∃ e, costInfo h d = .error e ∧ costInfo h' d = .error e) ∨
      ∃ c c', costInfo h d = .ok c ∧ costInfo h' d = .ok c' := by
  have both : ∀ {α β : Type} {x : Except Err α} {y : Except Err β}, (∀ e, x = .error e ↔ y = .error e) →
      (∃ e, x = .error e ∧ y = .error e) ∨ ∃ c c', x = .ok c ∧ y = .ok c' := by
    intro α β x y h
    cases x with
    | error e => exact .inl ⟨e, rfl, (h e).mp rfl⟩
    | ok c =>
      cases y with
      | error e => exact absurd ((h e).mpr rfl) (by simp)
      | ok c' => exact .inr ⟨c, c', rfl, rfl⟩
  have one : ∀ l : List Nat, (∀ i ∈ l, i ∈ ids) → (∃ e, costInfoOf h l = .error e ∧ costInfoOf h' l = .error e) ∨
      ∃ c c', costInfoOf h l = .ok c ∧ costInfoOf h' l = .ok c' := by
    intro l
    induction l with
    | nil => intro _; exact .inr ⟨_, _, rfl, rfl⟩
    | cons i l ih =>
      intro hl
      obtain ⟨-, -, c1, c2⟩ := (t i (hl i (by simp))).costs hu
      simp only [costInfoOf]
      rcases both c1 with ⟨e, e1, e2⟩ | ⟨_, _, e1, e2⟩
      · rw [e1, e2]; exact .inl ⟨e, rfl, rfl⟩
      · rcases both c2 with ⟨e, f1, f2⟩ | ⟨_, _, f1, f2⟩
        · rw [e1, e2, f1, f2]; exact .inl ⟨e, rfl, rfl⟩
        · rcases ih fun j hj => hl j (by simp [hj]) with ⟨e, g1, g2⟩ | ⟨_, _, g1, g2⟩
          · rw [e1, e2, f1, f2, g1, g2]; exact .inl ⟨e, rfl, rfl⟩
          · rw [e1, e2, f1, f2, g1, g2]; exact .inr ⟨_, _, rfl, rfl⟩
  induction d with
  | nil => exact .inr ⟨_, _, rfl, rfl⟩
  | cons x d ih =>
    obtain ⟨n, l⟩ := x
    have hi := ih fun y hy => hd y (by simp [hy])
    simp only [Pymgrid.costInfo]
    rcases one l (hd (n, l) (by simp)) with ⟨e, e1, e2⟩ | ⟨_, _, e1, e2⟩
    · rw [e1, e2]; exact .inl ⟨e, rfl, rfl⟩
    · rcases hi with ⟨e, f1, f2⟩ | ⟨_, _, f1, f2⟩
      · rw [e1, e2, f1, f2]; exact .inl ⟨e, rfl, rfl⟩
      · rw [e1, e2, f1, f2]; exact .inr ⟨_, _, rfl, rfl⟩

theorem Scaled.resetMany (hu : 0 < u) {l : List Nat} (hl : ∀ i ∈ l, i ∈ ids) : ∀ {h h' : Heap} (_ : Scaled u gen wide ids h h'),
    Scaled u gen wide ids (Microgrid.resetMany h l).1 (Microgrid.resetMany h' l).1 ∧
      (Microgrid.resetMany h' l).2 = (Microgrid.resetMany h l).2 := by
  induction l with
  | nil => intro h h' t; exact ⟨t, rfl⟩
  | cons i l ih =>
    intro h h' t
    have hi := hl i (by simp)
    obtain ⟨h1, h2⟩ := (t i hi).reset hu
    simp only [Microgrid.resetMany]
    cases hs : (h i).reset with
    | mk m r =>
    cases hs' : (h' i).reset with
    | mk m' r' =>
    rw [hs, hs'] at h1 h2
    simp only at h1 h2
    subst h2
    cases r' with
    | error e => exact ⟨t.set i h1, rfl⟩
    | ok o => exact ih (fun j hj => hl j (by simp [hj])) (t.set i h1)

theorem Scaled.setInitial (v : Nat) {l : List Nat} (hl : ∀ i ∈ l, i ∈ ids) : ∀ {h h' : Heap} (_ : Scaled u gen wide ids h h'),
    Scaled u gen wide ids (Microgrid.setInitialMany h v l) (Microgrid.setInitialMany h' v l) := by
  induction l with
  | nil => intro h h' t; exact t
  | cons i l ih =>
    intro h h' t
    have hi := hl i (by simp)
    simp only [Microgrid.setInitialMany]
    exact ih (fun j hj => hl j (by simp [hj])) (t.set i ((t i hi).withInitial v))

theorem Scaled.setFinal (v : Int) {l : List Nat} (hl : ∀ i ∈ l, i ∈ ids) : ∀ {h h' : Heap} (_ : Scaled u gen wide ids h h')
    (any : Bool), Scaled u gen wide ids (Microgrid.setFinalMany h v any l).1 (Microgrid.setFinalMany h' v any l).1 ∧
      (Microgrid.setFinalMany h' v any l).2 = (Microgrid.setFinalMany h v any l).2 := by
  induction l with
  | nil => intro h h' t any; exact ⟨t, rfl⟩
  | cons i l ih =>
    intro h h' t any
    have hi := hl i (by simp)
    obtain ⟨h1, h2⟩ := (t i hi).setFinal v
    simp only [Microgrid.setFinalMany]
    cases hs : Microgrid.setFinalOne (h i) v with
    | mk m r =>
    cases hs' : Microgrid.setFinalOne (h' i) v with
    | mk m' r' =>
    rw [hs, hs'] at h1 h2
    simp only at h1 h2
    subst h2
    cases r' with
    | error e => exact ⟨t.set i h1, rfl⟩
    | ok b => exact ih (fun j hj => hl j (by simp [hj])) (t.set i h1) _

end

theorem shapedReward_inUnit {u : ℚ} {sh sh' : Option Shaper} (hs : UnitShaper u sh sh') (a : StepAcc) (ci ci' : CostInfo) :
    (a.inUnit u).shapedReward sh' ci' = a.shapedReward sh ci := by
  cases hs with
  | none => rfl
  | some h => exact h a.infos ci ci'

theorem balance_inUnit {u : ℚ} {sh sh' : Option Shaper} (hs : UnitShaper u sh sh') (a : StepAcc) (ci ci' : CostInfo) :
    (a.inUnit u).balance sh' ci' =
      (a.balance sh ci).map fun x => (u * x.1, u * x.2.1, x.2.2.1, x.2.2.2) := by
  unfold StepAcc.balance
  rw [shapedReward_inUnit hs a ci ci']
  have e : ∀ l : List ℚ, (l.map (u * ·)).sum = u * l.sum := fun l => by
    induction l with
    | nil => simp
    | cons x l ih => rw [List.map_cons, List.sum_cons, List.sum_cons, ih]; ring
  cases a.shapedReward sh ci with
  | error e => rfl
  | ok r =>
    simp only [Except.map, StepAcc.inUnit, e]

/-- Two microgrids in the two units; logs may differ.  `gs` tells which names belong to gensets. -/
structure ScaledGrid (u : ℚ) (gs : String → Bool) (gen wide : Nat → Bool) (g g' : Microgrid) : Prop where
  names : ∀ x ∈ g.cont.levelDict .controllable, ∀ i ∈ x.2, gen i = gs x.1 ∧ wide i = true
  heap : Scaled u gen wide g.cont.fullList g.heap g'.heap
  cont : g'.cont = g.cont
  initialStep : g'.initialStep = g.initialStep
  finalStep : g'.finalStep = g.finalStep
  shaper : UnitShaper u g.shaper g'.shaper
  trajectory : g'.trajectory = g.trajectory
  calls : g'.calls = g.calls

section
variable {u : ℚ} {gs : String → Bool} {gen wide : Nat → Bool} {g g' : Microgrid}

theorem ScaledGrid.run (t : ScaledGrid u gs gen wide g g') (hu : 0 < u) (control : List (String × Ctrl)) (n : Bool) :
    ScaledGrid u gs gen wide (g.run control n).1 (g'.run (ctrlIn u gs n control) n).1 ∧
      ((g'.run (ctrlIn u gs n control) n).2 = (g.run control n).2.map (RunOut.inUnit u) ∨
        (g.run control n).2 = .error .runtime ∨ (g'.run (ctrlIn u gs n control) n).2 = .error .runtime) := by
  obtain ⟨h', c', i', f', sh', tr', ca', bl', ol'⟩ := g'
  obtain ⟨nms, th, q1, q2, q3, q4, q5, q6⟩ := t
  simp only at th q1 q2 q3 q4 q5 q6
  subst q1 q2 q3 q5 q6
  have t : ScaledGrid u gs gen wide g ⟨h', g.cont, g.initialStep, g.finalStep, sh', g.trajectory, g.calls, bl', ol'⟩ :=
    ⟨nms, th, rfl, rfl, rfl, q4, rfl, rfl⟩
  have withHeap : ∀ {h h' : Heap}, Scaled u gen wide g.cont.fullList h h' →
      ScaledGrid u gs gen wide { g with heap := h }
        ⟨h', g.cont, g.initialStep, g.finalStep, sh', g.trajectory, g.calls, bl', ol'⟩ := fun th =>
    ⟨nms, th, rfl, rfl, rfl, q4, rfl, rfl⟩
  unfold Microgrid.run
  rcases th.costInfo hu (d := g.cont.fullDict)
    fun x hx i hi => Container.full_fullList (toTuples_mem hx hi) with ⟨e, e1, e2⟩ | ⟨ci, ci', e1, e2⟩
  · simp only [e1, e2]
    exact ⟨t, .inl rfl⟩
  · simp only [e1, e2]
    have hfix : (⟨h', g.cont, g.initialStep, g.finalStep, sh', g.trajectory, g.calls, bl', ol'⟩ : Microgrid).fixedSteps = g.fixedSteps := rfl
    rw [hfix]
    have s1 := Scaled.stepMany hu (gen := gen) (wide := wide) (l := g.fixedSteps) (ids := g.cont.fullList) (by
      intro x hx
      obtain ⟨ni, hni, rfl⟩ := List.mem_map.mp hx
      exact Container.level_fullList hni) false (by simp) t.heap {}
    have hzero : g.fixedSteps.map (fun x => (x.1, x.2.1, actIn u (gen x.2.1) false x.2.2)) = g.fixedSteps := by
      unfold Microgrid.fixedSteps
      rw [List.map_map]
      apply List.map_congr_left
      intro x hx
      simp [actIn, Act.inUnit]
    rw [empty_inUnit, hzero] at s1
    cases e1 : RunSt.stepMany g.fixedSteps false ⟨g.heap, {}⟩ with
    | mk s r =>
    cases e1' : RunSt.stepMany g.fixedSteps false ⟨h', {}⟩ with
    | mk s' r' =>
    simp only at s1
    rw [e1, e1'] at s1
    obtain ⟨h₁, a₁⟩ := s
    obtain ⟨h₁', a₁'⟩ := s'
    obtain ⟨t₁, q1, q2⟩ := s1
    simp only at t₁ q1 q2
    subst q1 q2
    cases r' with
    | error e => exact ⟨withHeap t₁, .inl rfl⟩
    | ok _ =>
      simp only
      rw [balance_inUnit q4 a₁ ci ci']
      cases a₁.balance g.shaper ci with
      | error e => exact ⟨withHeap t₁, .inl rfl⟩
      | ok b =>
        obtain ⟨fp, fc, b3, b4⟩ := b
        simp only [Except.map]
        have s2 := Scaled.stepControls hu (gs := gs) (gen := gen) (wide := wide) (d := g.cont.levelDict .controllable)
          (ids := g.cont.fullList) control n
          (fun x hx i hi => ⟨Container.level_fullList (toTuples_mem hx hi), nms x hx i hi⟩) t₁ a₁
        cases e2 : RunSt.stepControls control n (g.cont.levelDict .controllable) ⟨h₁, a₁⟩ with
        | mk s r =>
        cases e2' : RunSt.stepControls (ctrlIn u gs n control) n (g.cont.levelDict .controllable) ⟨h₁', a₁.inUnit u⟩ with
        | mk s' r' =>
        rw [e2, e2'] at s2
        obtain ⟨h₂, a₂⟩ := s
        obtain ⟨h₂', a₂'⟩ := s'
        obtain ⟨t₂, q1, q2⟩ := s2
        simp only at t₂ q1 q2
        subst q1 q2
        cases r' with
        | error e => exact ⟨withHeap t₂, .inl rfl⟩
        | ok _ =>
          simp only
          rw [balance_inUnit q4 a₂ ci ci']
          cases a₂.balance g.shaper ci with
          | error e => exact ⟨withHeap t₂, .inl rfl⟩
          | ok b =>
            obtain ⟨p, c, b3, b4⟩ := b
            simp only [Except.map]
            have hmem : ∀ x ∈ g.flexList, x.2 ∈ g.cont.fullList := fun x hx => Container.level_fullList hx
            have hd : u * p - u * c = u * (p - c) := by ring
            rw [hd]
            have s3 : ScaledRun u gen wide g.cont.fullList (g.dispatch (p - c) ⟨h₂, a₂⟩) ((⟨h', g.cont, g.initialStep, g.finalStep, sh', g.trajectory, g.calls, bl', ol'⟩ : Microgrid).dispatch (u * (p - c)) ⟨h₂', a₂.inUnit u⟩) := by
              unfold Microgrid.dispatch
              have hpos : u * (p - c) > 0 ↔ p - c > 0 := by
                simp only [gt_iff_lt]; exact mul_pos_iff_of_pos_left hu
              by_cases hq : p - c > 0
              · rw [if_pos hq, if_pos (hpos.mpr hq)]
                exact Scaled.absorbExcess hu hmem t₂ a₂ _
              · rw [if_neg hq, if_neg (fun x => hq (hpos.mp x)), ← mul_neg]
                exact Scaled.coverNeed hu hmem t₂ a₂ _
            cases e3 : g.dispatch (p - c) ⟨h₂, a₂⟩ with
            | mk s r =>
            cases e3' : (⟨h', g.cont, g.initialStep, g.finalStep, sh', g.trajectory, g.calls, bl', ol'⟩ : Microgrid).dispatch (u * (p - c)) ⟨h₂', a₂.inUnit u⟩ with
            | mk s' r' =>
            rw [e3, e3'] at s3
            obtain ⟨h₃, a₃⟩ := s
            obtain ⟨h₃', a₃'⟩ := s'
            obtain ⟨t₃, q1, q2⟩ := s3
            simp only at t₃ q1 q2
            subst q1 q2
            cases r' with
            | error e => exact ⟨withHeap t₃, .inl rfl⟩
            | ok _ =>
              simp only
              unfold Microgrid.finish
              simp only
              have w := withHeap t₃
              rw [balance_inUnit q4 a₃ ci ci', shapedReward_inUnit q4 a₃ ci ci']
              cases a₃.balance g.shaper ci with
              | error e => exact ⟨w, .inl rfl⟩
              | ok b =>
                obtain ⟨x1, x2, x3, x4⟩ := b
                simp only [Except.map]
                by_cases c1 : isclose x1 x2 = false
                · simp only [c1, if_true]
                  refine ⟨?_, .inr (.inl trivial)⟩
                  split
                  · exact ⟨nms, t₃, rfl, rfl, rfl, q4, rfl, rfl⟩
                  · cases a₃.shapedReward g.shaper ci <;> exact ⟨nms, t₃, rfl, rfl, rfl, q4, rfl, rfl⟩
                · by_cases c2 : isclose (u * x1) (u * x2) = false
                  · simp only [c2, if_true]
                    refine ⟨?_, .inr (.inr trivial)⟩
                    split
                    · exact ⟨nms, t₃, rfl, rfl, rfl, q4, rfl, rfl⟩
                    · cases a₃.shapedReward g.shaper ci <;> exact ⟨nms, t₃, rfl, rfl, rfl, q4, rfl, rfl⟩
                  · simp only [c1, c2]
                    cases a₃.shapedReward g.shaper ci with
                    | error e => exact ⟨⟨nms, t₃, rfl, rfl, rfl, q4, rfl, rfl⟩, .inl rfl⟩
                    | ok q => exact ⟨⟨nms, t₃, rfl, rfl, rfl, q4, rfl, rfl⟩, .inl rfl⟩

theorem ScaledGrid.setTrajectory (t : ScaledGrid u gs gen wide g g') :
    ScaledGrid u gs gen wide g.setTrajectory.1 g'.setTrajectory.1 ∧ g'.setTrajectory.2 = g.setTrajectory.2 := by
  obtain ⟨h, c, i₀, f₀, sh, tr, ca, bl, ol⟩ := g
  obtain ⟨h', c', i', f', sh', tr', ca', bl', ol'⟩ := g'
  obtain ⟨nms, th, q1, q2, q3, q4, q5, q6⟩ := t
  simp only at th q1 q2 q3 q4 q5 q6
  subst q1 q2 q3 q5 q6
  unfold Microgrid.setTrajectory
  cases tr' with
  | none => exact ⟨⟨nms, th, rfl, rfl, rfl, q4, rfl, rfl⟩, rfl⟩
  | some f =>
    simp only
    cases f ca' i' f' with
    | error e => exact ⟨⟨nms, th, rfl, rfl, rfl, q4, rfl, rfl⟩, rfl⟩
    | ok x =>
      obtain ⟨i, fin⟩ := x
      simp only
      have s1 := Scaled.setInitial i (l := c'.fullList) (fun _ h => h) th
      obtain ⟨s2, s3⟩ := Scaled.setFinal fin (l := c'.fullList) (fun _ h => h) s1 false
      exact ⟨⟨nms, s2, rfl, rfl, rfl, q4, rfl, rfl⟩, s3⟩

theorem ScaledGrid.reset (t : ScaledGrid u gs gen wide g g') (hu : 0 < u) :
    ScaledGrid u gs gen wide g.reset.1 g'.reset.1 ∧ g'.reset.2 = g.reset.2 := by
  obtain ⟨t₁, e⟩ := t.setTrajectory
  have hcont : g.setTrajectory.1.cont = g.cont := by
    unfold Microgrid.setTrajectory
    repeat' split
    all_goals rfl
  unfold Microgrid.reset
  cases h1 : g.setTrajectory with
  | mk g₁ r =>
  cases h1' : g'.setTrajectory with
  | mk g₁' r' =>
  rw [h1, h1'] at t₁ e
  rw [h1] at hcont
  simp only at t₁ e hcont
  subst e
  cases r' with
  | error e => exact ⟨t₁, rfl⟩
  | ok _ =>
    simp only
    rw [t.cont]
    obtain ⟨s1, s2⟩ := Scaled.resetMany hu (l := (Container.toTuples g.cont.fullDict).map Prod.snd)
      (ids := g₁.cont.fullList) (by
        intro i hi
        obtain ⟨ni, hni, rfl⟩ := List.mem_map.mp hi
        rw [hcont]
        exact Container.full_fullList hni) t₁.heap
    cases h2 : Microgrid.resetMany g₁.heap ((Container.toTuples g.cont.fullDict).map Prod.snd) with
    | mk hh r =>
    cases h2' : Microgrid.resetMany g₁'.heap ((Container.toTuples g.cont.fullDict).map Prod.snd) with
    | mk hh' r' =>
    rw [h2, h2'] at s1 s2
    simp only at s1 s2
    subst s2
    cases r' with
    | error e => exact ⟨⟨t₁.names, s1, t₁.cont, t₁.initialStep, t₁.finalStep, t₁.shaper, t₁.trajectory, t₁.calls⟩, rfl⟩
    | ok _ => exact ⟨⟨t₁.names, s1, t₁.cont, t₁.initialStep, t₁.finalStep, t₁.shaper, t₁.trajectory, t₁.calls⟩, rfl⟩

theorem ScaledGrid.results (t : ScaledGrid u gs gen wide g g') (hu : 0 < u)
    (nr : ∀ (ops : List GOp) c n, ((Pymgrid.runG g ops).run c n).2 ≠ .error .runtime)
    (nr' : ∀ (ops : List GOp) c n, ((Pymgrid.runG g' ops).run c n).2 ≠ .error .runtime) (ops : List GOp) :
    g'.results (ops.map (GOp.inUnit u gs)) = (g.results ops).map (Except.map (Option.map (RunOut.inUnit u))) ∧
      ScaledGrid u gs gen wide (Pymgrid.runG g ops) (Pymgrid.runG g' (ops.map (GOp.inUnit u gs))) := by
  induction ops generalizing g g' with
  | nil => exact ⟨rfl, t⟩
  | cons op ops ih =>
    cases op with
    | run c n =>
      obtain ⟨t', e⟩ := t.run hu c n
      have e' : (g'.run (ctrlIn u gs n c) n).2 = (g.run c n).2.map (RunOut.inUnit u) := by
        rcases e with e | e | e
        · exact e
        · exact absurd e (nr [] c n)
        · exact absurd e (nr' [] _ n)
      have hop : GOp.inUnit u gs (.run c n) = .run (ctrlIn u gs n c) n := by cases n <;> rfl
      obtain ⟨h1, h2⟩ := ih t' (fun l => nr (.run c n :: l)) (fun l => nr' (.run (ctrlIn u gs n c) n :: l))
      rw [List.map_cons, hop]
      refine ⟨?_, h2⟩
      simp only [Microgrid.results, h1, e', List.map_cons, List.cons.injEq, and_true]
      cases (g.run c n).2 <;> rfl
    | reset =>
      obtain ⟨t', e⟩ := t.reset hu
      obtain ⟨h1, h2⟩ := ih t' (fun l => nr (.reset :: l)) (fun l => nr' (.reset :: l))
      refine ⟨?_, h2⟩
      simp only [Microgrid.results, GOp.inUnit, h1, e, List.map_cons, List.cons.injEq, and_true]
      cases g.reset.2 <;> rfl

end

end Pymgrid
