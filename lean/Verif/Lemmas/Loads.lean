import Verif.Spec.Loads
import Verif.Lemmas.Sunnier

set_option autoImplicit false

/-! Two microgrids with the same total demand in each step. -/

namespace Pymgrid

open Module

/-! ### Dictionaries -/

section
variable {β : Type} {S : String → Prop}

theorem SameOff.refl (d : List (String × β)) : SameOff S d d := by
  induction d with
  | nil => exact .nil
  | cons x d ih => exact .cons ⟨rfl, fun _ => rfl⟩ ih

theorem SameOff.get {d d' : List (String × β)} (h : SameOff S d d') (k : String) :
    (dictGet? d k = none ∧ dictGet? d' k = none) ∨ ∃ v v', dictGet? d k = some v ∧ dictGet? d' k = some v' ∧ (¬ S k → v' = v) := by
  induction h with
  | nil => exact .inl ⟨rfl, rfl⟩
  | @cons x x' d d' hx _ ih =>
    obtain ⟨n, v⟩ := x
    obtain ⟨n', v'⟩ := x'
    obtain ⟨h1, h2⟩ := hx
    simp only at h1 h2
    subst h1
    simp only [dictGet?]
    by_cases hk : n' = k
    · subst hk
      simp only [if_true]
      exact .inr ⟨v, v', rfl, rfl, h2⟩
    · simp only [hk, if_false]
      exact ih

theorem SameOff.set {d d' : List (String × β)} (h : SameOff S d d') (k : String) {v v' : β} (hv : ¬ S k → v' = v) :
    SameOff S (dictSet d k v) (dictSet d' k v') := by
  induction h with
  | nil => exact .cons ⟨rfl, hv⟩ .nil
  | @cons x x' d d' hx hd ih =>
    obtain ⟨n, w⟩ := x
    obtain ⟨n', w'⟩ := x'
    obtain ⟨h1, h2⟩ := hx
    simp only at h1 h2
    subst h1
    simp only [dictSet]
    by_cases hk : n' = k
    · simp only [hk, if_true]
      exact .cons ⟨rfl, hv⟩ hd
    · simp only [hk, if_false]
      exact .cons ⟨rfl, h2⟩ ih

theorem SameOff.append {d d' : List (String × List β)} (h : SameOff S d d') (k : String) {v v' : β} (hv : ¬ S k → v' = v) :
    SameOff S (dictAppend d k v) (dictAppend d' k v') := by
  unfold dictAppend
  rcases h.get k with ⟨h1, h2⟩ | ⟨l, l', h1, h2, h3⟩
  · rw [h1, h2]
    exact h.set k fun hk => by rw [hv hk]
  · rw [h1, h2]
    exact h.set k fun hk => by rw [hv hk, h3 hk]

end

/-! ### Modules -/

/-- Two loads with the series `R` and `R'`, initial step `i` and current step `k`. -/
inductive LoadPair (R R' : List (List ℚ)) (i k : Nat) (m m' : Module) : Prop
  | mk {t t' : TS} (kind : m.kind = .load t) (kind' : m'.kind = .load t') (initialStep : m.initialStep = i)
      (initialStep' : m'.initialStep = i) (currentStep : m.currentStep = k) (currentStep' : m'.currentStep = k)
      (finalStep : t'.finalStep = t.finalStep) (rows : t.rows = R) (rows' : t'.rows = R') (length : R'.length = R.length)

/-- The same module, or two loads. -/
structure ShiftMod (f : FFC) (R R' : List (List ℚ)) (i k : Nat) (m m' : Module) : Prop where
  ffc : m.ffc = f
  wf : m.WF
  wf' : m'.WF
  same : (f ≠ .fixed ∧ m' = m) ∨ (f = .fixed ∧ LoadPair R R' i k m m')

theorem Module.WF.load_inv {m : Module} (h : m.WF) {t : TS} (hk : m.kind = .load t) : m.LoadWF t ∧ t.Works := by
  cases h with
  | load t' h w =>
    have := h.kind
    rw [hk] at this
    injection this with this
    subst this
    exact ⟨h, w⟩
  | battery b h => rw [h.kind] at hk; simp at hk
  | genset g h => rw [h.kind] at hk; simp at hk
  | renewable t' h w => rw [h.kind] at hk; simp at hk
  | grid p t' h w => rw [h.kind] at hk; simp at hk
  | balancing u h => rw [h.kind] at hk; simp at hk

theorem Module.WF.fixed_load {m : Module} (h : m.WF) (hf : m.ffc = .fixed) : ∃ t, m.kind = .load t := by
  cases h with
  | load t' h w => exact ⟨t', h.kind⟩
  | battery b h => rw [h.ffc] at hf; simp at hf
  | genset g h => rw [h.ffc] at hf; simp at hf
  | renewable t' h w => rw [h.ffc] at hf; simp at hf
  | grid p t' h w => exact absurd hf h.ffc
  | balancing u h => rw [h.ffc] at hf; simp at hf

/-- What a load with the series `R` demands in step `k`. -/
def need (R : List (List ℚ)) (k : Nat) : ℚ := -((R.getD k []).getD 0 0)

section
variable {f : FFC} {R R' : List (List ℚ)} {i k : Nat} {m m' : Module}

theorem LoadPair.moved (h : LoadPair R R' i k m m') {t t' : TS} (hk : m.kind = .load t) (hk' : m'.kind = .load t')
    (L L' : Logger) (c : Nat) (v v' : Option (List (List ℚ))) : LoadPair R R' i c (m.moved t L c v) (m'.moved t' L' c v') := by
  obtain ⟨k, k', h1, h2, h3, h4, h5, h6, h7, h8⟩ := h
  rw [hk] at k
  rw [hk'] at k'
  injection k with k
  injection k' with k'
  subst k k'
  refine .mk (t := { t with cur := v, draws := t.draws + 1 }) (t' := { t' with cur := v', draws := t'.draws + 1 }) ?_ ?_ h1 h2 rfl rfl
    h5 h6 h7 h8
  · simp only [Module.moved, hk, Kind.withTS]
  · simp only [Module.moved, hk', Kind.withTS]

/-- One load in its step. -/
theorem Module.LoadWF.step_zero {t : TS} (h : m.LoadWF t) (w : t.Works) (hl : m.currentStep < t.rows.length) :
    ∃ L f o, m.step (.num 0) false = (m.moved t L (m.currentStep + 1) f, .ok o) ∧ o.reward = 0 ∧
      o.done = t.done m.currentStep ∧ o.info.provided = none ∧ o.info.absorbed = some (need t.rows m.currentStep) := by
  have hr : t.rows[m.currentStep]? = some t.rows[m.currentStep] := List.getElem?_eq_getElem hl
  obtain ⟨x, hx, -, hi⟩ := h.itemAt hr
  have hu := (h.unnormalizedStep 0).2 le_rfl
  rw [hi] at hu
  simp only at hu
  obtain ⟨L, f, o, -, e1, e2, e3, e4⟩ := h.ts.step_moved w hu (by simp) (by simp [h.abs])
  refine ⟨L, f, o, e1, e3, e4, by rw [e2], ?_⟩
  rw [e2]
  simp only [need, Option.some.injEq]
  have : t.rows.getD m.currentStep [] = [x] := by rw [List.getD_eq_getElem?_getD, hr, hx]; rfl
  rw [this]
  simp

theorem ShiftMod.fixed (h : ShiftMod f R R' i k m m') (hf : f = .fixed) : LoadPair R R' i k m m' := by
  rcases h.same with ⟨h1, -⟩ | ⟨-, h1⟩
  · exact absurd hf h1
  · exact h1

theorem ShiftMod.other (h : ShiftMod f R R' i k m m') (hf : f ≠ .fixed) : m' = m := by
  rcases h.same with ⟨-, h1⟩ | ⟨h1, -⟩
  · exact h1
  · exact absurd h1 hf

theorem ShiftMod.step_other (h : ShiftMod f R R' i k m m') (hf : f ≠ .fixed) (a : Act) (n : Bool) :
    ShiftMod f R R' i k (m.step a n).1 (m'.step a n).1 := by
  have := h.other hf
  subst this
  exact ⟨(frame_step m' a n).ffc.trans h.ffc, h.wf.step a n, h.wf.step a n, .inl ⟨hf, rfl⟩⟩

theorem ShiftMod.step_live (h : ShiftMod f R R' i k m m') (hf : f = .fixed) (hl : k < R.length) :
    ∃ o o', (m.step (.num 0) false).2 = .ok o ∧ (m'.step (.num 0) false).2 = .ok o' ∧
      ShiftMod f R R' i (k + 1) (m.step (.num 0) false).1 (m'.step (.num 0) false).1 ∧ o'.reward = o.reward ∧ o'.done = o.done ∧
      o.info.provided = none ∧ o'.info.provided = none ∧ o.info.absorbed = some (need R k) ∧ o'.info.absorbed = some (need R' k) := by
  have p := h.fixed hf
  have p₀ := p
  obtain ⟨kk, kk', h1, h2, h3, h4, h5, h6, h7, h8⟩ := p
  rename_i t t'
  obtain ⟨w1, w2⟩ := h.wf.load_inv kk
  obtain ⟨w1', w2'⟩ := h.wf'.load_inv kk'
  obtain ⟨L, v, o, e1, e2, e3, e4, e5⟩ := w1.step_zero w2 (by rw [h3, h6]; exact hl)
  obtain ⟨L', v', o', e1', e2', e3', e4', e5'⟩ := w1'.step_zero w2' (by rw [h4, h7, h8]; exact hl)
  refine ⟨o, o', by rw [e1], by rw [e1'], ⟨(frame_step m _ _).ffc.trans h.ffc, h.wf.step _ _, h.wf'.step _ _, .inr ⟨hf, ?_⟩⟩,
    by rw [e2, e2'], ?_, e4, e4', by rw [e5, h6, h3], by rw [e5', h7, h4]⟩
  · rw [e1, e1', h3, h4]
    exact p₀.moved kk kk' _ _ _ _ _
  · rw [e3, e3']
    unfold TS.done
    rw [h3, h4, h5]

theorem ShiftMod.step_dead (h : ShiftMod f R R' i k m m') (hf : f = .fixed) (hl : R.length ≤ k) :
    (∃ e, m.step (.num 0) false = (m, .error e)) ∧ ∃ e, m'.step (.num 0) false = (m', .error e) := by
  obtain ⟨kk, kk', h1, h2, h3, h4, h5, h6, h7, h8⟩ := h.fixed hf
  obtain ⟨w1, w2⟩ := h.wf.load_inv kk
  obtain ⟨w1', w2'⟩ := h.wf'.load_inv kk'
  constructor
  · refine w1.ts.step_dead h.wf (fun hh => ?_) w2 0
    have := hh _ w1.ts.series
    rw [h3, h6] at this
    omega
  · refine w1'.ts.step_dead h.wf' (fun hh => ?_) w2' 0
    have := hh _ w1'.ts.series
    rw [h4, h7] at this
    omega

theorem ShiftMod.withInitial (h : ShiftMod f R R' i k m m') (v : Nat) :
    ShiftMod f R R' v k { m with initialStep := v } { m' with initialStep := v } := by
  refine ⟨h.ffc, h.wf.withInitial v, h.wf'.withInitial v, ?_⟩
  rcases h.same with ⟨h1, rfl⟩ | ⟨h0, ⟨kk, kk', h1, h2, h3, h4, h5, h6, h7, h8⟩⟩
  · exact .inl ⟨h1, rfl⟩
  · exact .inr ⟨h0, .mk kk kk' rfl rfl h3 h4 h5 h6 h7 h8⟩

theorem ShiftMod.setFinal (h : ShiftMod f R R' i k m m') (v : Int) :
    ShiftMod f R R' i k (Microgrid.setFinalOne m v).1 (Microgrid.setFinalOne m' v).1 ∧
      (Microgrid.setFinalOne m' v).2 = (Microgrid.setFinalOne m v).2 := by
  rcases h.same with ⟨h1, rfl⟩ | ⟨h0, ⟨hk, hk', h1, h2, h3, h4, h5, h6, h7, h8⟩⟩
  · exact ⟨⟨(kept_alike.final m' v).ffc.trans h.ffc, h.wf.setFinal v, h.wf'.setFinal v, .inl ⟨h1, rfl⟩⟩, rfl⟩
  · have key : ∀ {m : Module} {t : TS}, m.kind = .load t → Microgrid.setFinalOne m v =
        ({ m with kind := .load (t.setFinalStep m.initialStep v).1 },
          (t.setFinalStep m.initialStep v).2.map fun _ => true) := by
      intro m t hk
      unfold Microgrid.setFinalOne
      rw [hk]
      simp only
      cases hs : t.setFinalStep m.initialStep v with
      | mk t' r => cases r <;> rfl
    refine ⟨⟨(kept_alike.final m v).ffc.trans h.ffc, h.wf.setFinal v, h.wf'.setFinal v, .inr ⟨h0, ?_⟩⟩, ?_⟩
    · rw [key hk, key hk']
      refine .mk rfl rfl h1 h2 h3 h4 ?_ h6 h7 h8
      simp only [TS.setFinalStep, h6, h7, h8]
    · rw [key hk, key hk', h1, h2]
      simp only [TS.setFinalStep, h6, h7, h8]

theorem ShiftMod.reset (h : ShiftMod f R R' i k m m') :
    ShiftMod f R R' i i m.reset.1 m'.reset.1 := by
  refine ⟨(frame_reset m).ffc.trans h.ffc, h.wf.reset, h.wf'.reset, ?_⟩
  rcases h.same with ⟨h1, rfl⟩ | ⟨h0, p⟩
  · exact .inl ⟨h1, rfl⟩
  · have p₀ := p
    obtain ⟨hk, hk', h1, h2, h3, h4, h5, h6, h7, h8⟩ := p
    obtain ⟨r, w⟩ := h.wf.load_inv hk
    obtain ⟨r', w'⟩ := h.wf'.load_inv hk'
    obtain ⟨f, hf⟩ := r.ts.valid.forecast_ok w m.initialStep
    obtain ⟨f', hf'⟩ := r'.ts.valid.forecast_ok w' m'.initialStep
    rcases r.ts.reset with ⟨g, obs, -, -, e⟩ | ⟨e, he, -⟩
    swap
    · rw [hf] at he; simp at he
    rcases r'.ts.reset with ⟨g', obs', -, -, e'⟩ | ⟨e, he, -⟩
    swap
    · rw [hf'] at he; simp at he
    refine .inr ⟨h0, ?_⟩
    rw [e, e', h1, h2]
    exact p₀.moved hk hk' _ _ _ _ _

theorem ShiftMod.costs (h : ShiftMod f R R' i k m m') : m'.marginalCost = m.marginalCost ∧ m'.absorptionCost = m.absorptionCost := by
  rcases h.same with ⟨-, rfl⟩ | ⟨-, ⟨hk, hk', -, -, -, -, -, -, -, -⟩⟩
  · exact ⟨rfl, rfl⟩
  · unfold marginalCost absorptionCost
    rw [hk, hk']
    exact ⟨rfl, rfl⟩

end

/-! ### The loops of `run` -/

/-- The modules `ids` of the two heaps. -/
def Shift (F : Nat → FFC) (R R' : Nat → List (List ℚ)) (I K : Nat → Nat) (ids : List Nat) (h h' : Heap) : Prop :=
  ∀ i ∈ ids, ShiftMod (F i) (R i) (R' i) (I i) (K i) (h i) (h' i)

/-- The two steps have collected the same but for the loads, and `d` more has been absorbed in the second. -/
structure AccOff (S : String → Prop) (d : ℚ) (a a' : StepAcc) : Prop where
  reward : a'.reward = a.reward
  done : a'.done = a.done
  provided : a'.provided = a.provided
  absorbed : a'.absorbed.sum = a.absorbed.sum + d
  obs : SameOff S a.obs a'.obs
  infos : SameOff S a.infos a'.infos

section
variable {S : String → Prop} {F : Nat → FFC} {R R' : Nat → List (List ℚ)} {I K : Nat → Nat} {ids : List Nat} {d : ℚ}

theorem AccOff.append {a a' : StepAcc} (e : AccOff S d a a') (name : String) (o : StepOut) :
    AccOff S d (a.append name o) (a'.append name o) := by
  unfold StepAcc.append
  refine ⟨?_, ?_, ?_, ?_, e.obs.append name fun _ => rfl, e.infos.append name fun _ => rfl⟩
  · simp only [e.reward]
  · simp only [e.done]
  · simp only [e.provided]
  · cases o.info.absorbed with
    | none => exact e.absorbed
    | some x => simp only [List.sum_append, List.sum_singleton, e.absorbed]; ring

theorem AccOff.append_load {a a' : StepAcc} (e : AccOff S d a a') {name : String} (hS : S name) {o o' : StepOut} {x x' : ℚ}
    (h1 : o'.reward = o.reward) (h2 : o'.done = o.done) (h3 : o.info.provided = none) (h4 : o'.info.provided = none)
    (h5 : o.info.absorbed = some x) (h6 : o'.info.absorbed = some x') :
    AccOff S (d + (x' - x)) (a.append name o) (a'.append name o') := by
  unfold StepAcc.append
  refine ⟨?_, ?_, ?_, ?_, e.obs.append name fun h => absurd hS h, e.infos.append name fun h => absurd hS h⟩
  · simp only [e.reward, h1]
  · simp only [e.done, h2]
  · simp only [e.provided, h3, h4]
  · simp only [h5, h6, List.sum_append, List.sum_singleton, e.absorbed]; ring

theorem AccOff.balance {a a' : StepAcc} (e : AccOff S 0 a a') {sh : Option Shaper} (hs : LooksAway S sh) (ci : CostInfo) :
    a'.balance sh ci = a.balance sh ci ∧ a'.shapedReward sh ci = a.shapedReward sh ci := by
  have key : a'.shapedReward sh ci = a.shapedReward sh ci := by
    unfold StepAcc.shapedReward
    cases sh with
    | none => simp only [e.reward]
    | some f => exact hs f rfl _ _ _ e.infos
  refine ⟨?_, key⟩
  unfold StepAcc.balance
  rw [key, e.provided, e.absorbed, e.reward, add_zero]

theorem Shift.set {h h' : Heap} (t : Shift F R R' I K ids h h') (i : Nat) {m m' : Module} {k : Nat}
    (hm : ShiftMod (F i) (R i) (R' i) (I i) k m m') :
    Shift F R R' I (Function.update K i k) ids (h.set i m) (h'.set i m') := by
  intro j hj
  unfold Heap.set
  split
  · rename_i hji; rw [hji, Function.update_self]; exact hm
  · rename_i hji; rw [Function.update_of_ne hji]; exact t j hj

/-- Two results of a loop that does not touch the loads. -/
def ShiftRun (S : String → Prop) (F : Nat → FFC) (R R' : Nat → List (List ℚ)) (I K : Nat → Nat) (ids : List Nat) (d : ℚ)
    (x y : RunSt × Except Err Unit) : Prop :=
  Shift F R R' I K ids x.1.heap y.1.heap ∧ AccOff S d x.1.acc y.1.acc ∧ y.2 = x.2

theorem Shift.stepOne {h h' : Heap} (t : Shift F R R' I K ids h h') {i : Nat} (hi : i ∈ ids) (hf : F i ≠ .fixed)
    {acc acc' : StepAcc} (e : AccOff S d acc acc') (name : String) (a : Act) (n : Bool) :
    ShiftRun S F R R' I K ids d (RunSt.stepOne ⟨h, acc⟩ name i a n) (RunSt.stepOne ⟨h', acc'⟩ name i a n) := by
  have h1 := (t i hi).step_other hf a n
  have h2 := (t i hi).other hf
  have t' := t.set i h1
  rw [Function.update_eq_self] at t'
  unfold RunSt.stepOne
  simp only
  rw [h2] at t' ⊢
  cases hs : (h i).step a n with
  | mk m r =>
  rw [hs] at t'
  cases r with
  | error e' => exact ⟨t', e, rfl⟩
  | ok o => exact ⟨t', e.append name o, rfl⟩

theorem Shift.stepMany {l : List (String × Nat × Act)} (hl : ∀ x ∈ l, x.2.1 ∈ ids ∧ F x.2.1 ≠ .fixed) (n : Bool) :
    ∀ {h h' : Heap} (_ : Shift F R R' I K ids h h') {acc acc' : StepAcc} (_ : AccOff S d acc acc'),
      ShiftRun S F R R' I K ids d (RunSt.stepMany l n ⟨h, acc⟩) (RunSt.stepMany l n ⟨h', acc'⟩) := by
  induction l with
  | nil => intro h h' t acc acc' e; exact ⟨t, e, rfl⟩
  | cons x l ih =>
    intro h h' t acc acc' e
    obtain ⟨name, i, a⟩ := x
    obtain ⟨hi, hf⟩ := hl (name, i, a) (by simp)
    have hs := t.stepOne hi hf e name a n
    simp only [RunSt.stepMany]
    cases h1 : RunSt.stepOne ⟨h, acc⟩ name i a n with
    | mk s r =>
    cases h2 : RunSt.stepOne ⟨h', acc'⟩ name i a n with
    | mk s' r' =>
    rw [h1, h2] at hs
    obtain ⟨t', e', hr⟩ := hs
    simp only at hr
    subst hr
    cases r' with
    | ok u => exact ih (fun x hx => hl x (by simp [hx])) t' e'
    | error er => exact ⟨t', e', rfl⟩

theorem Shift.stepControls {dict : ModDict} (control : List (String × Ctrl)) (n : Bool)
    (hd : ∀ x ∈ dict, ∀ i ∈ x.2, i ∈ ids ∧ F i ≠ .fixed) :
    ∀ {h h' : Heap} (_ : Shift F R R' I K ids h h') {acc acc' : StepAcc} (_ : AccOff S d acc acc'),
      ShiftRun S F R R' I K ids d (RunSt.stepControls control n dict ⟨h, acc⟩) (RunSt.stepControls control n dict ⟨h', acc'⟩) := by
  induction dict with
  | nil => intro h h' t acc acc' e; exact ⟨t, e, rfl⟩
  | cons x dict ih =>
    intro h h' t acc acc' e
    obtain ⟨name, is⟩ := x
    simp only [RunSt.stepControls]
    cases dictGet? control name with
    | none => exact ⟨t, e, rfl⟩
    | some c =>
      simp only
      have hs := Shift.stepMany (S := S) (d := d) (F := F) (R := R) (R' := R') (I := I) (K := K)
        (l := (is.zip c.acts).map fun ia => (name, ia.1, ia.2)) (ids := ids) (by
        intro y hy
        obtain ⟨ia, hia, rfl⟩ := List.mem_map.mp hy
        exact hd (name, is) (by simp) _ (List.of_mem_zip hia).1) n t e
      cases h1 : RunSt.stepMany ((is.zip c.acts).map fun ia => (name, ia.1, ia.2)) n ⟨h, acc⟩ with
      | mk s r =>
      cases h2 : RunSt.stepMany ((is.zip c.acts).map fun ia => (name, ia.1, ia.2)) n ⟨h', acc'⟩ with
      | mk s' r' =>
      rw [h1, h2] at hs
      obtain ⟨t', e', hr⟩ := hs
      simp only at hr
      subst hr
      cases r' with
      | ok u => exact ih (fun x hx => hd x (by simp [hx])) t' e'
      | error er => exact ⟨t', e', rfl⟩

theorem Shift.absorbExcess {l : List (String × Nat)} (hl : ∀ x ∈ l, x.2 ∈ ids ∧ F x.2 ≠ .fixed) :
    ∀ {h h' : Heap} (_ : Shift F R R' I K ids h h') {acc acc' : StepAcc} (_ : AccOff S d acc acc') (x : ℚ),
      ShiftRun S F R R' I K ids d (RunSt.absorbExcess l x ⟨h, acc⟩) (RunSt.absorbExcess l x ⟨h', acc'⟩) := by
  induction l with
  | nil => intro h h' t acc acc' e x; exact ⟨t, e, rfl⟩
  | cons y l ih =>
    intro h h' t acc acc' e x
    obtain ⟨name, i⟩ := y
    obtain ⟨hi, hf⟩ := hl (name, i) (by simp)
    simp only [RunSt.absorbExcess, (t i hi).other hf]
    cases sinkAmount (h i) x with
    | error er => exact ⟨t, e, rfl⟩
    | ok amt =>
      simp only
      have hs := t.stepOne hi hf e name (.num (-1 * amt)) false
      cases h1 : RunSt.stepOne ⟨h, acc⟩ name i (.num (-1 * amt)) false with
      | mk s r =>
      cases h2 : RunSt.stepOne ⟨h', acc'⟩ name i (.num (-1 * amt)) false with
      | mk s' r' =>
      rw [h1, h2] at hs
      obtain ⟨t', e', hr⟩ := hs
      simp only at hr
      subst hr
      cases r' with
      | ok u => exact ih (fun x hx => hl x (by simp [hx])) t' e' _
      | error er => exact ⟨t', e', rfl⟩

theorem Shift.coverNeed {l : List (String × Nat)} (hl : ∀ x ∈ l, x.2 ∈ ids ∧ F x.2 ≠ .fixed) :
    ∀ {h h' : Heap} (_ : Shift F R R' I K ids h h') {acc acc' : StepAcc} (_ : AccOff S d acc acc') (x : ℚ),
      ShiftRun S F R R' I K ids d (RunSt.coverNeed l x ⟨h, acc⟩) (RunSt.coverNeed l x ⟨h', acc'⟩) := by
  induction l with
  | nil => intro h h' t acc acc' e x; exact ⟨t, e, rfl⟩
  | cons y l ih =>
    intro h h' t acc acc' e x
    obtain ⟨name, i⟩ := y
    obtain ⟨hi, hf⟩ := hl (name, i) (by simp)
    simp only [RunSt.coverNeed, (t i hi).other hf]
    cases sourceAmount (h i) x with
    | error er => exact ⟨t, e, rfl⟩
    | ok amt =>
      simp only
      have hs := t.stepOne hi hf e name (.num amt) false
      cases h1 : RunSt.stepOne ⟨h, acc⟩ name i (.num amt) false with
      | mk s r =>
      cases h2 : RunSt.stepOne ⟨h', acc'⟩ name i (.num amt) false with
      | mk s' r' =>
      rw [h1, h2] at hs
      obtain ⟨t', e', hr⟩ := hs
      simp only at hr
      subst hr
      cases r' with
      | ok u => exact ih (fun x hx => hl x (by simp [hx])) t' e' _
      | error er => exact ⟨t', e', rfl⟩

/-- The loads all have data. -/
theorem Shift.loads_live {l : List (String × Nat × Act)} (hnd : (l.map fun x => x.2.1).Nodup)
    (hl : ∀ x ∈ l, x.2.1 ∈ ids ∧ F x.2.1 = .fixed ∧ S x.1 ∧ x.2.2 = .num 0) :
    ∀ {K : Nat → Nat} (_ : ∀ x ∈ l, K x.2.1 < (R x.2.1).length) {h h' : Heap} (_ : Shift F R R' I K ids h h') {d : ℚ}
      {acc acc' : StepAcc} (_ : AccOff S d acc acc'),
      ∃ s s' K', RunSt.stepMany l false ⟨h, acc⟩ = (s, .ok ()) ∧ RunSt.stepMany l false ⟨h', acc'⟩ = (s', .ok ()) ∧
        Shift F R R' I K' ids s.heap s'.heap ∧ (∀ x ∈ l, K' x.2.1 = K x.2.1 + 1) ∧ (∀ i, i ∉ l.map (fun x => x.2.1) → K' i = K i) ∧
        AccOff S (d + (l.map fun x => need (R' x.2.1) (K x.2.1) - need (R x.2.1) (K x.2.1)).sum) s.acc s'.acc := by
  induction l with
  | nil =>
    intro K _ h h' t d acc acc' e
    exact ⟨_, _, K, rfl, rfl, t, by simp, fun _ _ => rfl, by simpa using e⟩
  | cons x l ih =>
    intro K hK h h' t d acc acc' e
    obtain ⟨name, i, a⟩ := x
    obtain ⟨hi, hf, hS, ha⟩ := hl (name, i, a) (by simp)
    simp only at hi hf hS ha
    subst ha
    rw [List.map_cons, List.nodup_cons] at hnd
    obtain ⟨hni, hnd⟩ := hnd
    have ne : ∀ x ∈ l, x.2.1 ≠ i := fun x hx he => hni (by rw [← he]; exact List.mem_map.mpr ⟨x, hx, rfl⟩)
    obtain ⟨o, o', s1, s2, s3, r1, r2, r3, r4, r5, r6⟩ := (t i hi).step_live hf (hK (name, i, .num 0) (by simp))
    have e' := e.append_load hS r1 r2 r3 r4 r5 r6
    have t' := t.set i s3
    obtain ⟨s, s', K', q1, q2, q3, q4, q5, q6⟩ := ih hnd (fun x hx => hl x (by simp [hx])) (K := Function.update K i (K i + 1))
      (by
        intro x hx
        rw [Function.update_of_ne (ne x hx)]
        exact hK x (by simp [hx])) t' e'
    refine ⟨s, s', K', ?_, ?_, q3, ?_, ?_, ?_⟩
    · simp only [RunSt.stepMany, RunSt.stepOne]
      cases p1 : (h i).step (.num 0) false with
      | mk m r =>
      rw [p1] at s1 q1
      simp only at s1
      subst s1
      exact q1
    · simp only [RunSt.stepMany, RunSt.stepOne]
      cases p1 : (h' i).step (.num 0) false with
      | mk m r =>
      rw [p1] at s2 q2
      simp only at s2
      subst s2
      exact q2
    · intro x hx
      rcases List.mem_cons.mp hx with rfl | hx
      · simp only
        rw [q5 i hni, Function.update_self]
      · rw [q4 x hx, Function.update_of_ne (ne x hx)]
    · intro j hj
      rw [List.map_cons, List.mem_cons, not_or] at hj
      rw [q5 j hj.2, Function.update_of_ne hj.1]
    · have : (l.map fun x => need (R' x.2.1) (Function.update K i (K i + 1) x.2.1) - need (R x.2.1) (Function.update K i (K i + 1) x.2.1)) =
          l.map fun x => need (R' x.2.1) (K x.2.1) - need (R x.2.1) (K x.2.1) :=
        List.map_congr_left fun x hx => by rw [Function.update_of_ne (ne x hx)]
      rw [this] at q6
      simp only [List.map_cons, List.sum_cons]
      rw [← add_assoc]
      exact q6

/-- One load has no data: both microgrids raise. -/
theorem Shift.loads_dead {l : List (String × Nat × Act)} 
    (hl : ∀ x ∈ l, x.2.1 ∈ ids ∧ F x.2.1 = .fixed ∧ S x.1 ∧ x.2.2 = .num 0) :
    ∀ {K : Nat → Nat} (_ : ∃ x ∈ l, (R x.2.1).length ≤ K x.2.1) {h h' : Heap} (_ : Shift F R R' I K ids h h')
      (acc acc' : StepAcc),
      ∃ s s' K' e e', RunSt.stepMany l false ⟨h, acc⟩ = (s, .error e) ∧ RunSt.stepMany l false ⟨h', acc'⟩ = (s', .error e') ∧
        Shift F R R' I K' ids s.heap s'.heap ∧ ∀ i, K i ≤ K' i := by
  induction l with
  | nil => intro K hK; simp at hK
  | cons x l ih =>
    intro K hK h h' t acc acc'
    obtain ⟨name, i, a⟩ := x
    obtain ⟨hi, hf, hS, ha⟩ := hl (name, i, a) (by simp)
    simp only at hi hf hS ha
    subst ha
    by_cases hlive : K i < (R i).length
    · obtain ⟨o, o', s1, s2, s3, -⟩ := (t i hi).step_live hf hlive
      have t' := t.set i s3
      have mono : ∀ j, K j ≤ Function.update K i (K i + 1) j := by
        intro j
        by_cases hj : j = i
        · rw [hj, Function.update_self]; omega
        · rw [Function.update_of_ne hj]
      have hK' : ∃ x ∈ l, (R x.2.1).length ≤ Function.update K i (K i + 1) x.2.1 := by
        obtain ⟨x, hx, hx'⟩ := hK
        rcases List.mem_cons.mp hx with rfl | hx
        · simp only at hx'; omega
        · exact ⟨x, hx, hx'.trans (mono _)⟩
      obtain ⟨s, s', K', e, e', q1, q2, q3, q4⟩ := ih (fun x hx => hl x (by simp [hx])) hK' t' (acc.append name o) (acc'.append name o')
      refine ⟨s, s', K', e, e', ?_, ?_, q3, fun j => (mono j).trans (q4 j)⟩
      · simp only [RunSt.stepMany, RunSt.stepOne]
        cases p1 : (h i).step (.num 0) false with
        | mk m r =>
        rw [p1] at s1 q1
        simp only at s1
        subst s1
        exact q1
      · simp only [RunSt.stepMany, RunSt.stepOne]
        cases p1 : (h' i).step (.num 0) false with
        | mk m r =>
        rw [p1] at s2 q2
        simp only at s2
        subst s2
        exact q2
    · obtain ⟨⟨e, h1⟩, ⟨e', h2⟩⟩ := (t i hi).step_dead hf (not_lt.mp hlive)
      refine ⟨⟨h, acc⟩, ⟨h', acc'⟩, K, e, e', ?_, ?_, t, fun _ => le_rfl⟩
      · simp only [RunSt.stepMany, RunSt.stepOne, h1, heapSet_self]
      · simp only [RunSt.stepMany, RunSt.stepOne, h2, heapSet_self]

theorem Shift.costInfo {h h' : Heap} (t : Shift F R R' I K ids h h') {dict : ModDict} (hd : ∀ x ∈ dict, ∀ i ∈ x.2, i ∈ ids) :
    costInfo h' dict = Pymgrid.costInfo h dict := by
  have one : ∀ l : List Nat, (∀ i ∈ l, i ∈ ids) → costInfoOf h' l = costInfoOf h l := by
    intro l
    induction l with
    | nil => intro _; rfl
    | cons i l ih =>
      intro hl
      obtain ⟨h1, h2⟩ := (t i (hl i (by simp))).costs
      simp only [costInfoOf]
      rw [h1, h2, ih fun j hj => hl j (by simp [hj])]
  induction dict with
  | nil => rfl
  | cons x d ih =>
    obtain ⟨n, l⟩ := x
    have := ih fun y hy => hd y (by simp [hy])
    simp only [Pymgrid.costInfo] at this ⊢
    rw [one l (hd (n, l) (by simp)), this]

theorem Shift.resetMany {l : List Nat} (hl : ∀ i ∈ l, i ∈ ids) : ∀ {K : Nat → Nat} {h h' : Heap} (_ : Shift F R R' I K ids h h'),
    ∃ h₁ h₁' K', Microgrid.resetMany h l = (h₁, .ok ()) ∧ Microgrid.resetMany h' l = (h₁', .ok ()) ∧
      Shift F R R' I K' ids h₁ h₁' ∧ (∀ i ∈ l, K' i = I i) ∧ ∀ i, i ∉ l → K' i = K i := by
  induction l with
  | nil => intro K h h' t; exact ⟨h, h', K, rfl, rfl, t, by simp, fun _ _ => rfl⟩
  | cons i l ih =>
    intro K h h' t
    have hi := hl i (by simp)
    have h1 := (t i hi).reset
    obtain ⟨o, ho⟩ := (t i hi).wf.reset_ok
    obtain ⟨o', ho'⟩ := (t i hi).wf'.reset_ok
    simp only [Microgrid.resetMany]
    cases hs : (h i).reset with
    | mk m r =>
    cases hs' : (h' i).reset with
    | mk m' r' =>
    rw [hs, hs'] at h1
    rw [hs] at ho
    rw [hs'] at ho'
    simp only at h1 ho ho'
    subst ho ho'
    obtain ⟨h₁, h₁', K', q1, q2, q3, q4, q5⟩ := ih (fun j hj => hl j (by simp [hj])) (t.set i h1)
    refine ⟨h₁, h₁', K', q1, q2, q3, ?_, ?_⟩
    · intro j hj
      by_cases hjl : j ∈ l
      · exact q4 j hjl
      · rcases List.mem_cons.mp hj with rfl | hj
        · rw [q5 j hjl, Function.update_self]
        · exact absurd hj hjl
    · intro j hj
      rw [List.mem_cons, not_or] at hj
      rw [q5 j hj.2, Function.update_of_ne hj.1]

theorem Shift.setI {h h' : Heap} (t : Shift F R R' I K ids h h') (i : Nat) {m m' : Module} {v : Nat}
    (hm : ShiftMod (F i) (R i) (R' i) v (K i) m m') :
    Shift F R R' (Function.update I i v) K ids (h.set i m) (h'.set i m') := by
  intro j hj
  unfold Heap.set
  split
  · rename_i hji; rw [hji, Function.update_self]; exact hm
  · rename_i hji; rw [Function.update_of_ne hji]; exact t j hj

theorem Shift.setInitial (v : Nat) {l : List Nat} (hl : ∀ i ∈ l, i ∈ ids) : ∀ {I : Nat → Nat} {h h' : Heap} (_ : Shift F R R' I K ids h h'),
    ∃ I', Shift F R R' I' K ids (Microgrid.setInitialMany h v l) (Microgrid.setInitialMany h' v l) ∧ (∀ i ∈ l, I' i = v) ∧
      ∀ i, i ∉ l → I' i = I i := by
  induction l with
  | nil => intro I h h' t; exact ⟨I, t, by simp, fun _ _ => rfl⟩
  | cons i l ih =>
    intro I h h' t
    have hi := hl i (by simp)
    simp only [Microgrid.setInitialMany]
    obtain ⟨I', q1, q2, q3⟩ := ih (fun j hj => hl j (by simp [hj])) (t.setI i ((t i hi).withInitial v))
    refine ⟨I', q1, ?_, ?_⟩
    · intro j hj
      by_cases hjl : j ∈ l
      · exact q2 j hjl
      · rcases List.mem_cons.mp hj with rfl | hj
        · rw [q3 j hjl, Function.update_self]
        · exact absurd hj hjl
    · intro j hj
      rw [List.mem_cons, not_or] at hj
      rw [q3 j hj.2, Function.update_of_ne hj.1]

theorem Shift.setFinal (v : Int) {l : List Nat} (hl : ∀ i ∈ l, i ∈ ids) : ∀ {h h' : Heap} (_ : Shift F R R' I K ids h h')
    (any : Bool), Shift F R R' I K ids (Microgrid.setFinalMany h v any l).1 (Microgrid.setFinalMany h' v any l).1 ∧
      (Microgrid.setFinalMany h' v any l).2 = (Microgrid.setFinalMany h v any l).2 := by
  induction l with
  | nil => intro h h' t any; exact ⟨t, rfl⟩
  | cons i l ih =>
    intro h h' t any
    have hi := hl i (by simp)
    obtain ⟨h1, h2⟩ := (t i hi).setFinal v
    have t' := t.set i h1
    rw [Function.update_eq_self] at t'
    simp only [Microgrid.setFinalMany]
    cases hs : Microgrid.setFinalOne (h i) v with
    | mk m r =>
    cases hs' : Microgrid.setFinalOne (h' i) v with
    | mk m' r' =>
    rw [hs, hs'] at t' h2
    simp only at t' h2
    subst h2
    cases r' with
    | error e => exact ⟨t', rfl⟩
    | ok b => exact ih (fun j hj => hl j (by simp [hj])) t' _

end

/-! ### Microgrids -/

/-- The loads are all at the same step, or one of them has no data any more. -/
def Synced (F : Nat → FFC) (R : Nat → List (List ℚ)) (K : Nat → Nat) (ids : List Nat) : Prop :=
  (∃ c, ∀ i ∈ ids, F i = .fixed → K i = c) ∨ ∃ i ∈ ids, F i = .fixed ∧ (R i).length ≤ K i

/-- Two heaps with loads at the same step. -/
def Shifted (F : Nat → FFC) (R R' : Nat → List (List ℚ)) (ids : List Nat) (h h' : Heap) : Prop :=
  ∃ I K, Shift F R R' I K ids h h' ∧ Synced F R K ids ∧ ∃ v, ∀ i ∈ ids, I i = v

/-- The loads of a container. -/
structure LoadsOf (S : String → Prop) (F : Nat → FFC) (R R' : Nat → List (List ℚ)) (c : Container) : Prop where
  level : ∀ f, ∀ x ∈ Container.toTuples (c.levelDict f), F x.2 = f
  cover : ∀ i ∈ c.fullList, F i = .fixed → i ∈ (Container.toTuples (c.levelDict .fixed)).map Prod.snd
  full : ∀ i ∈ c.fullList, i ∈ (Container.toTuples c.fullDict).map Prod.snd
  nodup : ((Container.toTuples (c.levelDict .fixed)).map Prod.snd).Nodup
  names : ∀ x ∈ Container.toTuples (c.levelDict .fixed), S x.1
  total : ∀ k, ((Container.toTuples (c.levelDict .fixed)).map fun x => need (R' x.2) k - need (R x.2) k).sum = 0

/-- Two microgrids that differ in the loads. -/
structure ShiftGrid (S : String → Prop) (F : Nat → FFC) (R R' : Nat → List (List ℚ)) (g g' : Microgrid) : Prop where
  heap : Shifted F R R' g.cont.fullList g.heap g'.heap
  cont : g'.cont = g.cont
  initialStep : g'.initialStep = g.initialStep
  finalStep : g'.finalStep = g.finalStep
  shaper : g'.shaper = g.shaper
  away : LooksAway S g.shaper
  trajectory : g'.trajectory = g.trajectory
  calls : g'.calls = g.calls
  balanceLog : g'.balanceLog = g.balanceLog
  loads : LoadsOf S F R R' g.cont

section
variable {S : String → Prop} {F : Nat → FFC} {R R' : Nat → List (List ℚ)} {g g' : Microgrid}

theorem ShiftGrid.run (t : ShiftGrid S F R R' g g') (control : List (String × Ctrl)) (n : Bool) :
    ShiftGrid S F R R' (g.run control n).1 (g'.run control n).1 ∧
      SameElse S ((g.run control n).2.map some) ((g'.run control n).2.map some) := by
  obtain ⟨h, c, i₀, f₀, sh, tr, ca, bl, ol⟩ := g
  obtain ⟨h', c', i', f', sh', tr', ca', bl', ol'⟩ := g'
  obtain ⟨th, q1, q2, q3, q4, away, q5, q6, q7, loads⟩ := t
  simp only at th q1 q2 q3 q4 away q5 q6 q7 loads
  subst q1 q2 q3 q4 q5 q6 q7
  have withHeap : ∀ {h h' : Heap} {L : Logger}, Shifted F R R' c'.fullList h h' →
      ShiftGrid S F R R' ⟨h, c', i', f', sh', tr', ca', L, ol⟩ ⟨h', c', i', f', sh', tr', ca', L, ol'⟩ := fun th =>
    ⟨th, rfl, rfl, rfl, rfl, away, rfl, rfl, rfl, loads⟩
  obtain ⟨I, K, tk, sync, hI⟩ := id th
  have hci : costInfo h' c'.fullDict = costInfo h c'.fullDict :=
    tk.costInfo fun x hx i hi => Container.full_fullList (toTuples_mem hx hi)
  unfold Microgrid.run
  simp only [hci]
  cases costInfo h c'.fullDict with
  | error e => exact ⟨withHeap th, .error e _⟩
  | ok ci =>
    simp only
    have hfix : (⟨h', c', i', f', sh', tr', ca', bl', ol'⟩ : Microgrid).fixedSteps =
      (⟨h, c', i', f', sh', tr', ca', bl', ol⟩ : Microgrid).fixedSteps := rfl
    rw [hfix]
    have hids : ((⟨h, c', i', f', sh', tr', ca', bl', ol⟩ : Microgrid).fixedSteps.map fun x => x.2.1) =
        (Container.toTuples (c'.levelDict .fixed)).map Prod.snd := by
      unfold Microgrid.fixedSteps
      rw [List.map_map]
      rfl
    have hall : ∀ x ∈ (⟨h, c', i', f', sh', tr', ca', bl', ol⟩ : Microgrid).fixedSteps,
        x.2.1 ∈ c'.fullList ∧ F x.2.1 = .fixed ∧ S x.1 ∧ x.2.2 = .num 0 := by
      intro x hx
      obtain ⟨ni, hni, rfl⟩ := List.mem_map.mp hx
      exact ⟨Container.level_fullList hni, loads.level .fixed ni hni, loads.names ni hni, rfl⟩
    by_cases hdead : ∃ x ∈ (⟨h, c', i', f', sh', tr', ca', bl', ol⟩ : Microgrid).fixedSteps, (R x.2.1).length ≤ K x.2.1
    · obtain ⟨s, s', K', e, e', p1, p2, p3, p4⟩ := Shift.loads_dead hall hdead tk {} {}
      rw [p1, p2]
      simp only
      obtain ⟨x, hx, hx'⟩ := hdead
      exact ⟨withHeap ⟨I, K', p3, .inr ⟨x.2.1, (hall x hx).1, (hall x hx).2.1, hx'.trans (p4 _)⟩, hI⟩, .error _ _⟩
    have hlive : ∀ x ∈ (⟨h, c', i', f', sh', tr', ca', bl', ol⟩ : Microgrid).fixedSteps, K x.2.1 < (R x.2.1).length := by
      intro x hx
      by_contra hc
      exact hdead ⟨x, hx, not_lt.mp hc⟩
    obtain ⟨s, s', K', p1, p2, p3, p4, p5, p6⟩ := Shift.loads_live (by rw [hids]; exact loads.nodup) hall hlive tk (d := 0)
      (acc := {}) (acc' := {}) ⟨rfl, rfl, rfl, by simp, .refl _, .refl _⟩
    have hc : ∃ c, ∀ i ∈ c'.fullList, F i = .fixed → K i = c := by
      rcases sync with hc | ⟨i, hi, hif, hil⟩
      · exact hc
      · have := loads.cover i hi hif
        rw [← hids] at this
        obtain ⟨x, hx, rfl⟩ := List.mem_map.mp this
        exact absurd (hlive x hx) (not_lt.mpr hil)
    obtain ⟨c₀, hc⟩ := hc
    have sync' : Synced F R K' c'.fullList := by
      refine .inl ⟨c₀ + 1, fun i hi hif => ?_⟩
      have := loads.cover i hi hif
      rw [← hids] at this
      obtain ⟨x, hx, rfl⟩ := List.mem_map.mp this
      rw [p4 x hx, hc _ hi hif]
    have hsum : ((⟨h, c', i', f', sh', tr', ca', bl', ol⟩ : Microgrid).fixedSteps.map fun x =>
        need (R' x.2.1) (K x.2.1) - need (R x.2.1) (K x.2.1)).sum = 0 := by
      rw [← loads.total c₀]
      unfold Microgrid.fixedSteps
      rw [List.map_map]
      congr 1
      apply List.map_congr_left
      intro x hx
      simp only [Function.comp]
      rw [hc _ (Container.level_fullList hx) (loads.level .fixed x hx)]
    rw [hsum, add_zero] at p6
    have mk : ∀ {h h' : Heap}, Shift F R R' I K' c'.fullList h h' → Shifted F R R' c'.fullList h h' := fun t => ⟨I, K', t, sync', hI⟩
    rw [p1, p2]
    simp only [(p6.balance away ci).1]
    cases s.acc.balance sh' ci with
    | error e => exact ⟨withHeap (mk p3), .error _ _⟩
    | ok b =>
    obtain ⟨fp, fc, b3, b4⟩ := b
    simp only
    have s2 := Shift.stepControls (S := S) (d := 0) (F := F) (dict := c'.levelDict .controllable) (ids := c'.fullList) control n
      (fun x hx i hi => ⟨Container.level_fullList (toTuples_mem hx hi),
        by rw [loads.level .controllable _ (toTuples_mem hx hi)]; decide⟩) p3 p6
    cases e2 : RunSt.stepControls control n (c'.levelDict .controllable) s with
    | mk s₂ r =>
    cases e2' : RunSt.stepControls control n (c'.levelDict .controllable) s' with
    | mk s₂' r' =>
    obtain ⟨hs, as⟩ := s
    obtain ⟨hs', as'⟩ := s'
    simp only at s2
    rw [e2, e2'] at s2
    obtain ⟨t₂, a₂, hr⟩ := s2
    simp only at hr
    subst hr
    cases r' with
    | error e => exact ⟨withHeap (mk t₂), .error _ _⟩
    | ok u =>
    simp only [(a₂.balance away ci).1]
    cases s₂.acc.balance sh' ci with
    | error e => exact ⟨withHeap (mk t₂), .error _ _⟩
    | ok b =>
    obtain ⟨p, cc, b3, b4⟩ := b
    simp only
    obtain ⟨h₂, b₂⟩ := s₂
    obtain ⟨h₂', b₂'⟩ := s₂'
    simp only at t₂ a₂ ⊢
    have hmem : ∀ x ∈ Container.toTuples (c'.levelDict .flex), x.2 ∈ c'.fullList ∧ F x.2 ≠ .fixed := fun x hx =>
      ⟨Container.level_fullList hx, by rw [loads.level .flex x hx]; decide⟩
    have s3 : ShiftRun S F R R' I K' c'.fullList 0 (Microgrid.dispatch ⟨h, c', i', f', sh', tr', ca', bl', ol⟩ (p - cc) ⟨h₂, b₂⟩)
        (Microgrid.dispatch ⟨h', c', i', f', sh', tr', ca', bl', ol'⟩ (p - cc) ⟨h₂', b₂'⟩) := by
      unfold Microgrid.dispatch Microgrid.flexList
      simp only
      split
      · exact Shift.absorbExcess hmem t₂ a₂ _
      · exact Shift.coverNeed hmem t₂ a₂ _
    cases e3 : Microgrid.dispatch ⟨h, c', i', f', sh', tr', ca', bl', ol⟩ (p - cc) ⟨h₂, b₂⟩ with
    | mk s₃ r =>
    cases e3' : Microgrid.dispatch ⟨h', c', i', f', sh', tr', ca', bl', ol'⟩ (p - cc) ⟨h₂', b₂'⟩ with
    | mk s₃' r' =>
    rw [e3, e3'] at s3
    obtain ⟨t₃, a₃, hr⟩ := s3
    simp only at hr
    subst hr
    cases r' with
    | error e => exact ⟨withHeap (mk t₃), .error _ _⟩
    | ok u =>
    obtain ⟨h₃, b₃⟩ := s₃
    obtain ⟨h₃', b₃'⟩ := s₃'
    simp only at t₃ a₃ ⊢
    obtain ⟨k1, k2⟩ := a₃.balance away ci
    unfold Microgrid.finish
    simp only [k1, k2]
    cases b₃.balance sh' ci with
    | error e => exact ⟨withHeap (mk t₃), .error _ _⟩
    | ok b =>
    obtain ⟨x1, x2, x3, x4⟩ := b
    simp only
    split
    · exact ⟨withHeap (mk t₃), .error _ _⟩
    · cases b₃.shapedReward sh' ci with
      | error e => exact ⟨withHeap (mk t₃), .error _ _⟩
      | ok r => exact ⟨withHeap (mk t₃), .run rfl a₃.done a₃.obs a₃.infos⟩

theorem ShiftGrid.setTrajectory (t : ShiftGrid S F R R' g g') :
    ShiftGrid S F R R' g.setTrajectory.1 g'.setTrajectory.1 ∧ g'.setTrajectory.2 = g.setTrajectory.2 := by
  obtain ⟨h, c, i₀, f₀, sh, tr, ca, bl, ol⟩ := g
  obtain ⟨h', c', i', f', sh', tr', ca', bl', ol'⟩ := g'
  obtain ⟨th, q1, q2, q3, q4, away, q5, q6, q7, loads⟩ := t
  simp only at th q1 q2 q3 q4 away q5 q6 q7 loads
  subst q1 q2 q3 q4 q5 q6 q7
  unfold Microgrid.setTrajectory
  cases tr' with
  | none => exact ⟨⟨th, rfl, rfl, rfl, rfl, away, rfl, rfl, rfl, loads⟩, rfl⟩
  | some f =>
    simp only
    cases f ca' i' f' with
    | error e => exact ⟨⟨th, rfl, rfl, rfl, rfl, away, rfl, rfl, rfl, loads⟩, rfl⟩
    | ok x =>
      obtain ⟨i, fin⟩ := x
      simp only
      obtain ⟨I, K, tk, sync, hI⟩ := th
      obtain ⟨I', s1, s2, -⟩ := Shift.setInitial i (l := c'.fullList) (fun _ h => h) tk
      obtain ⟨s3, s4⟩ := Shift.setFinal fin (l := c'.fullList) (fun _ h => h) s1 false
      exact ⟨⟨⟨I', K, s3, sync, i, s2⟩, rfl, rfl, rfl, rfl, away, rfl, rfl, rfl, loads⟩, s4⟩

theorem ShiftGrid.reset (t : ShiftGrid S F R R' g g') :
    ShiftGrid S F R R' g.reset.1 g'.reset.1 ∧ g'.reset.2 = g.reset.2 := by
  obtain ⟨t₁, e⟩ := t.setTrajectory
  have hcont : g.setTrajectory.1.cont = g.cont := by
    unfold Microgrid.setTrajectory
    repeat' split
    all_goals rfl
  unfold Microgrid.reset
  cases h1 : g.setTrajectory with
  | mk g₁ r =>
  cases h1' : g'.setTrajectory with
  | mk g₁' r' =>
  rw [h1, h1'] at t₁ e
  rw [h1] at hcont
  simp only at t₁ e hcont
  subst e
  cases r' with
  | error e => exact ⟨t₁, rfl⟩
  | ok u =>
    simp only
    rw [t.cont]
    obtain ⟨I, K, tk, sync, v, hI⟩ := t₁.heap
    obtain ⟨hh, hh', K', s1, s2, s3, s4, -⟩ := Shift.resetMany (l := (Container.toTuples g.cont.fullDict).map Prod.snd)
      (ids := g₁.cont.fullList) (by
        intro i hi
        obtain ⟨ni, hni, rfl⟩ := List.mem_map.mp hi
        rw [hcont]
        exact Container.full_fullList hni) tk
    rw [s1, s2]
    refine ⟨⟨⟨I, K', s3, .inl ⟨v, fun i hi _ => ?_⟩, v, hI⟩, t₁.cont, t₁.initialStep, t₁.finalStep, t₁.shaper, t₁.away, t₁.trajectory,
      t₁.calls, ?_, t₁.loads⟩, rfl⟩
    · have := t₁.loads.full i hi
      rw [hcont] at this
      rw [s4 i this, hI i hi]
    · simp only [t₁.balanceLog]

theorem ShiftGrid.results (t : ShiftGrid S F R R' g g') (ops : List GOp) :
    List.Forall₂ (SameElse S) (g.results ops) (g'.results ops) ∧ ShiftGrid S F R R' (Pymgrid.runG g ops) (Pymgrid.runG g' ops) := by
  induction ops generalizing g g' with
  | nil => exact ⟨.nil, t⟩
  | cons op ops ih =>
    cases op with
    | run c n =>
      obtain ⟨t', e⟩ := t.run c n
      obtain ⟨h1, h2⟩ := ih t'
      exact ⟨.cons e h1, h2⟩
    | reset =>
      obtain ⟨t', e⟩ := t.reset
      obtain ⟨h1, h2⟩ := ih t'
      refine ⟨.cons ?_ h1, h2⟩
      rw [e]
      cases g.reset.2 with
      | ok u => exact .reset
      | error er => exact .error _ _

/-! ### Building the two microgrids -/

theorem ShiftMod.alike {f : FFC} {R R' : List (List ℚ)} {i k : Nat} {m m' : Module} (h : ShiftMod f R R' i k m m') :
    m'.ffc = m.ffc ∧ m'.ss = m.ss ∧ m'.initialStep = m.initialStep ∧ m'.finalStep? = m.finalStep? := by
  obtain ⟨hf, wf, wf', ⟨-, rfl⟩ | ⟨-, hk, hk', h1, h2, h3, h4, h5, h6, h7, h8⟩⟩ := h
  · exact ⟨rfl, rfl, rfl, rfl⟩
  · refine ⟨(wf'.load_inv hk').1.ffc.trans (wf.load_inv hk).1.ffc.symm, ?_, h2.trans h1.symm, ?_⟩
    · unfold Module.ss Module.isSource Module.isSink
      rw [hk, hk']
    · unfold Module.finalStep?
      rw [hk, hk']
      simp [h5]

/-- The series of a load. -/
def seriesRows (m : Module) : List (List ℚ) :=
  match m.kind with
  | .load t => t.rows
  | _ => []

theorem demandAt_eq (m : Module) (c : Nat) : m.demandAt c = need (seriesRows m) c := by
  unfold Module.demandAt seriesRows need TS.cell
  cases m.kind <;> simp

theorem create_shift {h h' : Heap} {mods : List (String × Nat)} {K : Nat} (hl : ∀ nm ∈ mods, LibraryModule (h nm.2))
    (hl' : ∀ nm ∈ mods, LibraryModule (h' nm.2)) (hs : ∀ nm ∈ mods, h' nm.2 = h nm.2 ∨ OtherLoad (h nm.2) (h' nm.2))
    (hk : ∀ nm ∈ mods, ∀ t, (h nm.2).kind = .load t → (h nm.2).currentStep = K) (ht : ∀ c, totalDemand h' mods c = totalDemand h mods c)
    (hid : (mods.map Prod.snd).Nodup) (hd : DistinctNames h mods) {sh : Option Shaper} (hsh : LooksAway (LoadName h mods) sh)
    {tr : Option (Nat → Nat → Option Nat → Except Err (Nat × Nat))} {g : Microgrid}
    (hc : Microgrid.create h mods sh tr = .ok g) :
    ∃ g', Microgrid.create h' mods sh tr = .ok g' ∧
      ShiftGrid (LoadName h mods) (fun i => (h i).ffc) (fun i => seriesRows (h i)) (fun i => seriesRows (h' i)) g g' := by
  have t : ∀ nm ∈ mods, ShiftMod (h nm.2).ffc (seriesRows (h nm.2)) (seriesRows (h' nm.2)) (h nm.2).initialStep (h nm.2).currentStep
      (h nm.2) (h' nm.2) := by
    intro nm hn
    have wf := (hl nm hn).wf
    have wf' := (hl' nm hn).wf
    refine ⟨rfl, wf, wf', ?_⟩
    have pair : OtherLoad (h nm.2) (h' nm.2) → (h nm.2).ffc = .fixed ∧ LoadPair (seriesRows (h nm.2)) (seriesRows (h' nm.2))
        (h nm.2).initialStep (h nm.2).currentStep (h nm.2) (h' nm.2) := by
      rintro ⟨k, k', h1, h2, h3, h4⟩
      refine ⟨(wf.load_inv k).1.ffc, .mk k k' rfl h1 rfl h2 h3 ?_ ?_ ?_⟩
      · simp [seriesRows, k]
      · simp [seriesRows, k']
      · simp [seriesRows, k, k', h4]
    rcases hs nm hn with e | e
    · by_cases hf : (h nm.2).ffc = .fixed
      · obtain ⟨t, ht⟩ := wf.fixed_load hf
        refine .inr (pair ?_)
        rw [e]
        exact .mk ht ht rfl rfl rfl rfl
      · exact .inl ⟨hf, e⟩
    · exact .inr (pair e)
  have hb : Container.build h' mods = Container.build h mods :=
    Container.build_congr fun nm hn => ⟨(t nm hn).alike.1, (t nm hn).alike.2.1⟩
  have memfull : ∀ i ∈ (Container.build h mods).fullList, ∃ nm ∈ mods, nm.2 = i := by
    intro i hi
    obtain ⟨nm, hm, rfl⟩ := List.mem_map.mp ((Container.fullList_perm h mods).mem_iff.mp hi)
    exact ⟨nm, hm, rfl⟩
  have hlp := Container.level_perm (h := h) (mods := mods) (f := .fixed) (fun x hx y hy e _ _ => (hd x hx y hy e).2)
  have hfp := Container.full_perm hd
  have loads : LoadsOf (LoadName h mods) (fun i => (h i).ffc) (fun i => seriesRows (h i)) (fun i => seriesRows (h' i))
      (Container.build h mods) := by
    refine ⟨fun f x hx => (Container.mem_level (n := x.1) (i := x.2) hx).2, ?_, ?_, ?_, ?_, ?_⟩
    · intro i hi hif
      obtain ⟨nm, hm, rfl⟩ := memfull i hi
      exact List.mem_map.mpr ⟨nm, hlp.mem_iff.mpr (List.mem_filter.mpr ⟨hm, by simpa using hif⟩), rfl⟩
    · intro i hi
      obtain ⟨nm, hm, rfl⟩ := memfull i hi
      exact List.mem_map.mpr ⟨nm, hfp.mem_iff.mpr hm, rfl⟩
    · exact ((hlp.map Prod.snd).nodup_iff).mpr (hid.sublist (List.filter_sublist.map _))
    · intro x hx
      obtain ⟨h1, h2⟩ := List.mem_filter.mp (hlp.mem_iff.mp hx)
      exact ⟨x, h1, rfl, (hl x h1).wf.fixed_load (by simpa using h2)⟩
    · intro k
      have := ht k
      unfold totalDemand at this
      rw [(hlp.map _).sum_eq]
      have key : ∀ l : List (String × Nat), (∀ nm ∈ l, nm ∈ mods) →
          ((l.filter fun nm => decide ((h nm.2).ffc = .fixed)).map fun x => need (seriesRows (h' x.2)) k - need (seriesRows (h x.2)) k).sum =
          (l.map fun nm => (h' nm.2).demandAt k).sum - (l.map fun nm => (h nm.2).demandAt k).sum := by
        intro l
        induction l with
        | nil => intro _; simp
        | cons nm l ih =>
          intro hm
          have := ih fun x hx => hm x (by simp [hx])
          by_cases hf : (h nm.2).ffc = .fixed
          · rw [List.filter_cons_of_pos (by simpa using hf)]
            simp only [List.map_cons, List.sum_cons]
            rw [this, demandAt_eq, demandAt_eq]
            ring
          · rw [List.filter_cons_of_neg (by simpa using hf)]
            simp only [List.map_cons, List.sum_cons]
            rw [this, (t nm (hm nm (by simp))).other hf]
            ring
      rw [key mods (fun _ h => h), this, sub_self]
  have full : (∃ v, ∀ i ∈ (Container.build h mods).fullList, (h i).initialStep = v) →
      Shifted (fun i => (h i).ffc) (fun i => seriesRows (h i)) (fun i => seriesRows (h' i)) (Container.build h mods).fullList h h' := by
    intro hv
    refine ⟨fun i => (h i).initialStep, fun i => (h i).currentStep, ?_, .inl ⟨K, ?_⟩, hv⟩
    · intro i hi
      obtain ⟨nm, hm, rfl⟩ := memfull i hi
      exact t nm hm
    · intro i hi hif
      obtain ⟨nm, hm, rfl⟩ := memfull i hi
      obtain ⟨t, ht⟩ := (hl nm hm).wf.fixed_load hif
      exact hk nm hm t ht
  have check : ∀ (i0 : Nat) (f0 : Option Nat), (∃ v, ∀ i ∈ (Container.build h mods).fullList, (h i).initialStep = v) →
      Microgrid.checkTrajectory { heap := h, cont := Container.build h mods, initialStep := i0, finalStep := f0, shaper := sh } tr = .ok g →
      ∃ g', Microgrid.checkTrajectory { heap := h', cont := Container.build h mods, initialStep := i0, finalStep := f0, shaper := sh } tr = .ok g' ∧
        ShiftGrid (LoadName h mods) (fun i => (h i).ffc) (fun i => seriesRows (h i)) (fun i => seriesRows (h' i)) g g' := by
    intro i0 f0 hv hg
    unfold Microgrid.checkTrajectory at *
    cases tr with
    | none =>
      simp only [Except.ok.injEq] at hg ⊢
      subst hg
      exact ⟨_, rfl, full hv, rfl, rfl, rfl, rfl, hsh, rfl, rfl, rfl, loads⟩
    | some f =>
      simp only at hg ⊢
      cases hf : f 0 i0 f0 with
      | error e => rw [hf] at hg; simp at hg
      | ok x =>
        rw [hf] at hg
        simp only at hg ⊢
        split at hg
        · simp at hg
        · rename_i h1
          rw [if_neg h1]
          split at hg
          · simp at hg
          · rename_i h2
            rw [if_neg h2]
            split at hg
            · simp at hg
            · rename_i h3
              rw [if_neg h3]
              simp only [Except.ok.injEq] at hg ⊢
              subst hg
              exact ⟨_, rfl, full hv, rfl, rfl, rfl, rfl, hsh, rfl, rfl, rfl, loads⟩
  have mem : ∀ i ∈ (Container.toTuples (Container.build h mods).fullDict).map Prod.snd, (h' i).initialStep = (h i).initialStep ∧
      (h' i).finalStep? = (h i).finalStep? := by
    intro i hi
    obtain ⟨ni, hni, rfl⟩ := List.mem_map.mp hi
    exact (t ni (hfp.mem_iff.mp hni)).alike.2.2
  unfold Microgrid.create at *
  simp only [hb] at hc ⊢
  have e1 : ((Container.toTuples (Container.build h mods).fullDict).map Prod.snd).map (fun i => (h' i).initialStep) =
      ((Container.toTuples (Container.build h mods).fullDict).map Prod.snd).map (fun i => (h i).initialStep) :=
    List.map_congr_left fun i hi => (mem i hi).1
  have e2 : ((Container.toTuples (Container.build h mods).fullDict).map Prod.snd).filterMap (fun i => (h' i).finalStep?) =
      ((Container.toTuples (Container.build h mods).fullDict).map Prod.snd).filterMap (fun i => (h i).finalStep?) :=
    List.filterMap_congr fun i hi => (mem i hi).2
  rw [e1, e2]
  split
  · rename_i h0
    rw [if_pos h0] at hc
    refine check _ _ ⟨0, fun i hi => ?_⟩ hc
    obtain ⟨nm, hm, -⟩ := memfull i hi
    rw [List.isEmpty_iff] at h0
    rw [h0] at hm
    simp at hm
  · rename_i h0
    rw [if_neg h0] at hc
    cases u1 : uniqueVal (((Container.toTuples (Container.build h mods).fullDict).map Prod.snd).map (fun i => (h i).initialStep)) with
    | error e => rw [u1] at hc; simp at hc
    | ok i0 =>
      rw [u1] at hc
      simp only at hc ⊢
      cases u2 : uniqueVal (((Container.toTuples (Container.build h mods).fullDict).map Prod.snd).filterMap (fun i => (h i).finalStep?)) with
      | error e => rw [u2] at hc; simp at hc
      | ok f0 =>
        rw [u2] at hc
        simp only at hc ⊢
        refine check _ _ ?_ hc
        exact ⟨i0, fun i hi => (uniqueVal_ok u1).1 _ (List.mem_map.mpr ⟨i, loads.full i hi, rfl⟩)⟩

/-- Two loads from the constructor. -/
theorem mkLoad_other {xs xs' : List ℚ} {param param' : FKind} {hz hz' i : Nat} {fs : Int} {r r' : Bool}
    {m m' : Module} (hm : mkLoad xs param hz i fs r = .ok m) (hm' : mkLoad xs' param' hz' i fs r' = .ok m')
    (h : xs'.length = xs.length) : OtherLoad m m' := by
  obtain ⟨t, mn, mx, wf, -, -, s, -, hi, hc, -⟩ := mkLoad_inv hm
  obtain ⟨t', mn', mx', wf', -, -, s', -, hi', hc', -⟩ := mkLoad_inv hm'
  refine .mk (t := t) (t' := t') wf.kind wf'.kind (hi'.trans hi.symm) (hc'.trans hc.symm) ?_ ?_
  · rw [s.finalStep, s'.finalStep]; simp only [TS.blank, List.length_map, h]
  · rw [s.rows, s'.rows]; simp only [TS.blank, List.length_map, h]

theorem mkLoad_demand {xs : List ℚ} {param : FKind} {hz i : Nat} {fs : Int} {r : Bool}
    {m : Module} (hm : mkLoad xs param hz i fs r = .ok m) (c : Nat) : m.demandAt c = |xs.getD c 0| ∧ m.currentStep = i := by
  obtain ⟨t, mn, mx, wf, -, -, s, -, hi, hc, -⟩ := mkLoad_inv hm
  refine ⟨?_, hc⟩
  unfold demandAt TS.cell
  rw [wf.kind]
  simp only
  rw [s.rows]
  simp only [TS.blank]
  clear * -
  induction xs generalizing c with
  | nil => simp
  | cons x xs ih =>
    cases c with
    | zero => simp
    | succ c => simpa using ih c

end

end Pymgrid
