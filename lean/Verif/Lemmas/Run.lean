import Verif.Spec.Microgrid
import Verif.Lemmas.Frame

set_option autoImplicit false

/-! Decomposition of `Microgrid.run` into the module steps it makes. -/

namespace Pymgrid

theorem Exec.append {h h' h'' : Heap} {tr tr' : List Event} (e : Exec h tr h') (e' : Exec h' tr' h'') :
    Exec h (tr ++ tr') h'' := by
  induction e with
  | nil => exact e'
  | cons hs _ ih => exact .cons hs (ih e')

/-- Appending the results of a trace to the accumulator. -/
def StepAcc.run (a : StepAcc) (tr : List Event) : StepAcc := tr.foldl (fun a e => a.append e.name e.out) a

theorem StepAcc.run_append (a : StepAcc) (tr tr' : List Event) : a.run (tr ++ tr') = (a.run tr).run tr' := by
  simp [run]

theorem RunSt.stepOne_ok {s s' : RunSt} {name : String} {i : Nat} {a : Act} {n : Bool}
    (h : s.stepOne name i a n = (s', .ok ())) :
    ∃ m' o, (s.heap i).step a n = (m', .ok o) ∧ s'.heap = s.heap.set i m' ∧ s'.acc = s.acc.append name o := by
  unfold stepOne at h
  split at h
  · simp at h
  · rename_i m' o hs
    simp only [Prod.mk.injEq, and_true] at h
    subst h
    exact ⟨m', o, hs, rfl, rfl⟩

theorem RunSt.stepMany_ok {l : List (String × Nat × Act)} {n : Bool} {s s' : RunSt}
    (h : RunSt.stepMany l n s = (s', .ok ())) :
    ∃ tr, Exec s.heap tr s'.heap ∧ s'.acc = s.acc.run tr ∧
      tr.map (fun e => (e.name, e.id, e.act)) = l ∧ ∀ e ∈ tr, e.normalized = n := by
  induction l generalizing s with
  | nil =>
    simp only [stepMany, Prod.mk.injEq, and_true] at h
    subst h
    exact ⟨[], .nil _, rfl, rfl, by simp⟩
  | cons x l ih =>
    obtain ⟨name, i, a⟩ := x
    simp only [stepMany] at h
    split at h
    · simp at h
    · rename_i s₁ h₁
      obtain ⟨m', o, hs, hh, ha⟩ := stepOne_ok h₁
      obtain ⟨tr, e1, e2, e3, e4⟩ := ih h
      refine ⟨⟨name, i, a, n, o⟩ :: tr, .cons hs (hh ▸ e1), ?_, by simp [e3], ?_⟩
      · rw [e2, ha]; rfl
      · intro e he
        rcases List.mem_cons.mp he with rfl | he
        · rfl
        · exact e4 e he

/-- The steps a control asks for. -/
def controlSteps (control : List (String × Ctrl)) (d : ModDict) : List (String × Nat × Act) :=
  d.flatMap fun nl => (nl.2.zip (((dictGet? control nl.1).map Ctrl.acts).getD [])).map fun ia => (nl.1, ia.1, ia.2)

theorem RunSt.stepControls_ok {control : List (String × Ctrl)} {n : Bool} {d : ModDict} {s s' : RunSt}
    (h : RunSt.stepControls control n d s = (s', .ok ())) :
    ∃ tr, Exec s.heap tr s'.heap ∧ s'.acc = s.acc.run tr ∧
      tr.map (fun e => (e.name, e.id, e.act)) = controlSteps control d ∧ (∀ e ∈ tr, e.normalized = n) ∧
      ∀ nl ∈ d, (dictGet? control nl.1).isSome = true := by
  induction d generalizing s with
  | nil =>
    simp only [stepControls, Prod.mk.injEq, and_true] at h
    subst h
    exact ⟨[], .nil _, rfl, rfl, by simp, by simp⟩
  | cons x d ih =>
    obtain ⟨name, ids⟩ := x
    simp only [stepControls] at h
    split at h
    · simp at h
    · rename_i c hc
      split at h
      · simp at h
      · rename_i s₁ h₁
        obtain ⟨tr₁, a1, a2, a3, a4⟩ := stepMany_ok h₁
        obtain ⟨tr₂, b1, b2, b3, b4, b5⟩ := ih h
        refine ⟨tr₁ ++ tr₂, a1.append b1, ?_, ?_, ?_, ?_⟩
        · rw [b2, a2, StepAcc.run_append]
        · rw [List.map_append, a3, b3]
          simp [controlSteps, hc]
        · intro e he
          rcases List.mem_append.mp he with he | he
          · exact a4 e he
          · exact b4 e he
        · intro nl hnl
          rcases List.mem_cons.mp hnl with rfl | hnl
          · simp [hc]
          · exact b5 nl hnl

/-- The flexible modules of a trace are each given an amount computed from what is left. -/
inductive Chain (amount : Module → ℚ → Except Err ℚ) (act : ℚ → ℚ) : ℚ → Heap → List Event → Prop
  | nil (x : ℚ) (h : Heap) : Chain amount act x h []
  | cons {x amt : ℚ} {h : Heap} {e : Event} {tr : List Event} {m' : Module}
      (ha : amount (h e.id) x = .ok amt) (hact : e.act = .num (act amt)) (hn : e.normalized = false)
      (hs : (h e.id).step e.act e.normalized = (m', .ok e.out))
      (ht : Chain amount act (x - amt) (h.set e.id m') tr) : Chain amount act x h (e :: tr)

theorem RunSt.absorbExcess_ok {l : List (String × Nat)} {x : ℚ} {s s' : RunSt}
    (h : RunSt.absorbExcess l x s = (s', .ok ())) :
    ∃ tr, Exec s.heap tr s'.heap ∧ s'.acc = s.acc.run tr ∧ tr.map (fun e => (e.name, e.id)) = l ∧
      Chain sinkAmount (fun a => -1 * a) x s.heap tr := by
  induction l generalizing s x with
  | nil =>
    simp only [absorbExcess, Prod.mk.injEq, and_true] at h
    subst h
    exact ⟨[], .nil _, rfl, rfl, .nil _ _⟩
  | cons y l ih =>
    obtain ⟨name, i⟩ := y
    simp only [absorbExcess] at h
    split at h
    · simp at h
    · rename_i amt hamt
      split at h
      · simp at h
      · rename_i s₁ h₁
        obtain ⟨m', o, hs, hh, ha⟩ := stepOne_ok h₁
        obtain ⟨tr, e1, e2, e3, e4⟩ := ih h
        refine ⟨⟨name, i, .num (-1 * amt), false, o⟩ :: tr, .cons hs (hh ▸ e1), ?_, by simp [e3],
          .cons hamt rfl rfl hs ?_⟩
        · rw [e2, ha]; rfl
        · rw [← hh, show x - amt = x + -1 * amt by ring]; exact e4

theorem RunSt.coverNeed_ok {l : List (String × Nat)} {x : ℚ} {s s' : RunSt}
    (h : RunSt.coverNeed l x s = (s', .ok ())) :
    ∃ tr, Exec s.heap tr s'.heap ∧ s'.acc = s.acc.run tr ∧ tr.map (fun e => (e.name, e.id)) = l ∧
      Chain sourceAmount (fun a => a) x s.heap tr := by
  induction l generalizing s x with
  | nil =>
    simp only [coverNeed, Prod.mk.injEq, and_true] at h
    subst h
    exact ⟨[], .nil _, rfl, rfl, .nil _ _⟩
  | cons y l ih =>
    obtain ⟨name, i⟩ := y
    simp only [coverNeed] at h
    split at h
    · simp at h
    · rename_i amt hamt
      split at h
      · simp at h
      · rename_i s₁ h₁
        obtain ⟨m', o, hs, hh, ha⟩ := stepOne_ok h₁
        obtain ⟨tr, e1, e2, e3, e4⟩ := ih h
        refine ⟨⟨name, i, .num amt, false, o⟩ :: tr, .cons hs (hh ▸ e1), ?_, by simp [e3],
          .cons hamt rfl rfl hs ?_⟩
        · rw [e2, ha]; rfl
        · rw [← hh]; exact e4

/-- Everything a successful run went through. -/
structure RunInfo (g : Microgrid) (control : List (String × Ctrl)) (n : Bool) (g' : Microgrid) (o : RunOut)
    (trF trC trX : List Event) (h₁ h₂ : Heap) (ci : CostInfo) : Prop where
  costs : costInfo g.heap g.cont.fullDict = .ok ci
  fixed : Exec g.heap trF h₁
  ctrl : Exec h₁ trC h₂
  flex : Exec h₂ trX g'.heap
  fixedL : trF.map (fun e => (e.name, e.id, e.act)) = g.fixedSteps
  ctrlL : trC.map (fun e => (e.name, e.id, e.act)) = controlSteps control (g.cont.levelDict .controllable)
  flexL : trX.map (fun e => (e.name, e.id)) = g.flexList
  fixedN : ∀ e ∈ trF, e.normalized = false
  ctrlN : ∀ e ∈ trC, e.normalized = n
  named : ∀ nl ∈ g.cont.levelDict .controllable, (dictGet? control nl.1).isSome = true
  chain : let d := (({} : StepAcc).run (trF ++ trC)).provided.sum - (({} : StepAcc).run (trF ++ trC)).absorbed.sum
    if d > 0 then Chain sinkAmount (fun a => -1 * a) d h₂ trX else Chain sourceAmount (fun a => a) (-d) h₂ trX
  close : isclose (({} : StepAcc).run (trF ++ trC ++ trX)).provided.sum
    (({} : StepAcc).run (trF ++ trC ++ trX)).absorbed.sum = true
  obs : o.obs = (({} : StepAcc).run (trF ++ trC ++ trX)).obs
  infos : o.infos = (({} : StepAcc).run (trF ++ trC ++ trX)).infos
  reward : (({} : StepAcc).run (trF ++ trC ++ trX)).shapedReward g.shaper ci = .ok o.reward
  done : o.done = (({} : StepAcc).run (trF ++ trC ++ trX)).done
  state : g' = { g with heap := g'.heap, balanceLog := g'.balanceLog }
  log : g'.balanceLog = g.balanceLog.log (Microgrid.balanceRow (({} : StepAcc).run (trF ++ trC ++ trX)).reward o.reward
    (({} : StepAcc).run (trF ++ trC ++ trX)).provided.sum (({} : StepAcc).run (trF ++ trC ++ trX)).absorbed.sum
    ((({} : StepAcc).run (trF ++ trC)).provided.sum - (({} : StepAcc).run trF).provided.sum)
    ((({} : StepAcc).run (trF ++ trC)).absorbed.sum - (({} : StepAcc).run trF).absorbed.sum)
    (({} : StepAcc).run trF).provided.sum (({} : StepAcc).run trF).absorbed.sum)

theorem StepAcc.balance_ok {a : StepAcc} {sh : Option Shaper} {ci : CostInfo} {p c r s : ℚ}
    (h : a.balance sh ci = .ok (p, c, r, s)) :
    p = a.provided.sum ∧ c = a.absorbed.sum ∧ r = a.reward ∧ a.shapedReward sh ci = .ok s := by
  unfold balance at h
  split at h
  · simp at h
  · rename_i r' hr
    simp only [Except.ok.injEq, Prod.mk.injEq] at h
    obtain ⟨rfl, rfl, rfl, rfl⟩ := h
    exact ⟨rfl, rfl, rfl, hr⟩

theorem Microgrid.run_ok {g g' : Microgrid} {control : List (String × Ctrl)} {n : Bool} {o : RunOut}
    (h : g.run control n = (g', .ok o)) :
    ∃ trF trC trX h₁ h₂ ci, RunInfo g control n g' o trF trC trX h₁ h₂ ci := by
  unfold Microgrid.run at h
  split at h
  · simp at h
  rename_i ci hci
  split at h
  · simp at h
  rename_i s₁ h₁
  obtain ⟨trF, f1, f2, f3, f4⟩ := RunSt.stepMany_ok h₁
  split at h
  · simp at h
  rename_i fp fc _ _ hb₁
  obtain ⟨rfl, rfl, -, -⟩ := StepAcc.balance_ok hb₁
  split at h
  · simp at h
  rename_i s₂ h₂
  obtain ⟨trC, c1, c2, c3, c4, c5⟩ := RunSt.stepControls_ok h₂
  split at h
  · simp at h
  rename_i p c _ _ hb₂
  obtain ⟨rfl, rfl, -, -⟩ := StepAcc.balance_ok hb₂
  have ha : s₂.acc = ({} : StepAcc).run (trF ++ trC) := by rw [c2, f2, StepAcc.run_append]
  split at h
  · simp at h
  rename_i s₃ h₃
  have hx : ∃ trX, Exec s₂.heap trX s₃.heap ∧ s₃.acc = s₂.acc.run trX ∧
      trX.map (fun e => (e.name, e.id)) = g.flexList ∧
      (if s₂.acc.provided.sum - s₂.acc.absorbed.sum > 0 then
        Chain sinkAmount (fun a => -1 * a) (s₂.acc.provided.sum - s₂.acc.absorbed.sum) s₂.heap trX
       else Chain sourceAmount (fun a => a) (-(s₂.acc.provided.sum - s₂.acc.absorbed.sum)) s₂.heap trX) := by
    unfold Microgrid.dispatch at h₃
    split at h₃
    · rename_i hd
      obtain ⟨tr, e1, e2, e3, e4⟩ := RunSt.absorbExcess_ok h₃
      exact ⟨tr, e1, e2, e3, by rw [if_pos hd]; exact e4⟩
    · rename_i hd
      obtain ⟨tr, e1, e2, e3, e4⟩ := RunSt.coverNeed_ok h₃
      exact ⟨tr, e1, e2, e3, by rw [if_neg hd]; exact e4⟩
  obtain ⟨trX, x1, x2, x3, x4⟩ := hx
  have ha₃ : s₃.acc = ({} : StepAcc).run (trF ++ trC ++ trX) := by rw [x2, ha, StepAcc.run_append _ (trF ++ trC)]
  unfold Microgrid.finish at h
  simp only at h
  split at h
  · simp at h
  rename_i provided consumed reward shaped hb₃
  obtain ⟨rfl, rfl, rfl, hsr⟩ := StepAcc.balance_ok hb₃
  split at h
  · simp at h
  rename_i hcl
  rw [hsr] at h
  simp only [Prod.mk.injEq, Except.ok.injEq] at h
  obtain ⟨rfl, rfl⟩ := h
  refine ⟨trF, trC, trX, s₁.heap, s₂.heap, ci, ?_⟩
  rw [ha] at x4
  rw [ha₃] at hcl hsr
  exact
    { costs := hci, fixed := f1, ctrl := c1, flex := x1, fixedL := f3, ctrlL := c3, flexL := x3, fixedN := f4
      ctrlN := c4, named := c5, chain := x4, close := by simpa using hcl
      obs := by rw [← ha₃], infos := by rw [← ha₃], reward := hsr, done := by rw [← ha₃], state := rfl
      log := by rw [← ha₃, ← ha, ← f2] }

end Pymgrid
