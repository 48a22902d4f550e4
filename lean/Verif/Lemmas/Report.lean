import Verif.Lemmas.Sync

set_option autoImplicit false

/-! What the result of a run reports, and effects of failing runs. -/

namespace Pymgrid

theorem dictAppend_get {β : Type} (d : List (String × List β)) (k k' : String) (v : β) :
    (dictGet? (dictAppend d k v) k').getD [] = (dictGet? d k').getD [] ++ (if k = k' then [v] else []) := by
  unfold dictAppend
  cases h : dictGet? d k with
  | none =>
    by_cases hk : k = k'
    · subst hk; simp [dictGet?_dictSet, h]
    · simp [dictGet?_dictSet, hk]
  | some l =>
    by_cases hk : k = k'
    · subst hk; simp [dictGet?_dictSet, h]
    · simp [dictGet?_dictSet, hk]

theorem run_get (a : StepAcc) (tr : List Event) (name : String) :
    (dictGet? (a.run tr).infos name).getD [] =
      (dictGet? a.infos name).getD [] ++ (tr.filter fun e => decide (e.name = name)).map (·.out.info) ∧
    (dictGet? (a.run tr).obs name).getD [] =
      (dictGet? a.obs name).getD [] ++ (tr.filter fun e => decide (e.name = name)).map (·.out.obs) := by
  induction tr generalizing a with
  | nil => simp [StepAcc.run]
  | cons e tr ih =>
    obtain ⟨i1, i2⟩ := ih (a.append e.name e.out)
    simp only [StepAcc.run, List.foldl_cons] at i1 i2 ⊢
    rw [i1, i2]
    simp only [StepAcc.append, dictAppend_get]
    by_cases hn : e.name = name <;> simp [hn]

section
variable {mods : List (String × Nat)} {g g' : Microgrid} {control : List (String × Ctrl)} {n : Bool} {o : RunOut}
  {trF trC trX : List Event} {h₁ h₂ : Heap} {ci : CostInfo}

theorem RunInfo.reported (r : RunInfo g control n g' o trF trC trX h₁ h₂ ci) : Reported (trF ++ trC ++ trX) o := by
  intro name
  obtain ⟨h1, h2⟩ := run_get {} (trF ++ trC ++ trX) name
  rw [r.infos, r.obs, h1, h2]
  simp [dictGet?]

theorem greedy_max {cs : List (Option ℚ)} {x : ℚ} (hx : 0 ≤ x) (hc : ∀ c ∈ cs, ∀ q, c = some q → 0 ≤ q) :
    ∀ (i j : Nat) (c y : ℚ), i < j → cs[i]? = some (some c) → (greedy cs x)[j]? = some y → 0 < y →
      (greedy cs x)[i]? = some c := by
  induction cs generalizing x with
  | nil => intro i j c y _ h; simp at h
  | cons c₀ cs ih =>
    have hnn : 0 ≤ x - capMin c₀ x := by
      cases c₀ with
      | none => simp [capMin]
      | some q => simp [capMin]
    have key : ∀ (cs : List (Option ℚ)), (∀ c ∈ cs, ∀ q, c = some q → 0 ≤ q) → ∀ (j : Nat) (y : ℚ),
        (greedy cs 0)[j]? = some y → y ≤ 0 := by
      intro cs
      induction cs with
      | nil => intro _ j y h; simp [greedy] at h
      | cons c cs ih =>
        intro hc j y h
        have h0 : capMin c 0 = 0 := by
          cases c with
          | none => rfl
          | some q => exact min_eq_right (hc _ (by simp) q rfl)
        cases j with
        | zero => simp [greedy, h0] at h; linarith
        | succ j =>
          simp only [greedy, h0, sub_zero, List.getElem?_cons_succ] at h
          exact ih (fun c' hc' => hc c' (by simp [hc'])) j y h
    intro i j c y hij hci hj hy
    cases j with
    | zero => omega
    | succ j =>
      simp only [greedy, List.getElem?_cons_succ] at hj
      cases i with
      | zero =>
        simp only [List.getElem?_cons_zero, Option.some.injEq] at hci
        subst hci
        simp only [greedy, List.getElem?_cons_zero, Option.some.injEq]
        by_contra hne
        have hx' : capMin (some c) x = x := by
          simp only [capMin] at hne ⊢
          rcases le_total c x with h | h
          · exact absurd (min_eq_left h) hne
          · exact min_eq_right h
        rw [hx', sub_self] at hj
        have := key cs (fun c' hc' => hc c' (by simp [hc'])) j y hj
        linarith
      | succ i =>
        simp only [List.getElem?_cons_succ] at hci
        simp only [greedy, List.getElem?_cons_succ]
        exact ih hnn (fun c' hc' => hc c' (by simp [hc'])) i j c y (by omega) hci hj hy

/-- Capacities of consistent modules are not negative. -/
theorem Module.WF.canProvide_nonneg {m : Module} (h : m.WF) {q : ℚ} (hq : m.canProvide = some q) : 0 ≤ q := by
  unfold Module.canProvide at hq
  cases h with
  | battery b hb => simp [hb.kind] at hq; linarith
  | genset g hb => simp [hb.kind] at hq; linarith
  | load t hb w => simp [hb.kind] at hq; linarith
  | balancing u hb => simp [hb.kind] at hq
  | grid p t hb w =>
    simp only [hb.kind, Option.some.injEq] at hq
    rw [← hq]
    split
    · exact hb.imp
    · exact le_rfl
  | renewable t hb w =>
    simp only [hb.kind, Option.some.injEq] at hq
    rw [← hq]
    cases hr : t.rows[m.currentStep]? with
    | none => simp
    | some r =>
      obtain ⟨x, rfl, hx, -⟩ := hb.itemAt hr
      simpa using hx

/-! ### Failing runs -/

theorem stepOne_other {s : RunSt} {name : String} {i j : Nat} {a : Act} (hj : j ≠ i) :
    (s.stepOne name i a n).1.heap j = s.heap j := by
  unfold RunSt.stepOne
  split <;> simp [Heap.set, hj]

theorem stepMany_other {l : List (String × Nat × Act)} {s : RunSt} {j : Nat} (hj : ∀ x ∈ l, x.2.1 ≠ j) :
    (RunSt.stepMany l n s).1.heap j = s.heap j := by
  induction l generalizing s with
  | nil => rfl
  | cons x l ih =>
    obtain ⟨name, i, a⟩ := x
    have h1 := stepOne_other (n := n) (s := s) (name := name) (a := a) (Ne.symm (hj (name, i, a) (by simp)))
    simp only [RunSt.stepMany]
    split
    · rename_i he; rw [he] at h1; exact h1
    · rename_i s' he
      rw [he] at h1
      rw [ih fun x hx => hj x (by simp [hx]), h1]

theorem stepControls_other {d : ModDict} {s : RunSt} {j : Nat} (hj : ∀ nl ∈ d, j ∉ nl.2) :
    (RunSt.stepControls control n d s).1.heap j = s.heap j := by
  induction d generalizing s with
  | nil => rfl
  | cons x d ih =>
    obtain ⟨name, ids⟩ := x
    simp only [RunSt.stepControls]
    split
    · rfl
    · rename_i c hc
      have h1 := stepMany_other (n := n) (s := s) (j := j) (l := (ids.zip c.acts).map fun ia => (name, ia.1, ia.2)) (by
        intro x hx
        obtain ⟨ia, hia, rfl⟩ := List.mem_map.mp hx
        intro e
        subst e
        exact hj (name, ids) (by simp) (List.of_mem_zip hia).1)
      split
      · rename_i he; rw [he] at h1; exact h1
      · rename_i s' he
        rw [he] at h1
        rw [ih fun nl hnl => hj nl (by simp [hnl]), h1]

theorem stepControls_not_ok {d : ModDict} {s : RunSt} (hd : ∃ nl ∈ d, dictGet? control nl.1 = none) :
    (RunSt.stepControls control n d s).2 ≠ .ok () := by
  intro h
  obtain ⟨tr, -, -, -, -, h5⟩ := RunSt.stepControls_ok (s := s) (Prod.ext rfl h)
  obtain ⟨nl, hnl, hn⟩ := hd
  have := h5 nl hnl
  simp [hn] at this

/-- A run that lacks a control touches only fixed and controllable modules. -/
theorem GridOK.missing_effect (h : GridOK mods g) {nm : String × Nat} (hm : nm ∈ mods)
    (hf : (g.heap nm.2).ffc = .controllable) (hc : dictGet? control nm.1 = none) :
    (g.run control n).1.balanceLog = g.balanceLog ∧ (g.run control n).1.otherLog = g.otherLog ∧
      (g.run control n).1.calls = g.calls ∧
      ∀ j, (g.heap j).ffc = .flex → (g.run control n).1.heap j = g.heap j := by
  obtain ⟨ids, hids⟩ := Container.level_key (h := g.heap) hm
  rw [hf, ← h.cont] at hids
  have hF : ∀ j, (g.heap j).ffc = .flex →
      (RunSt.stepMany g.fixedSteps false { heap := g.heap, acc := {} }).1.heap j = g.heap j := by
    intro j hj
    apply stepMany_other
    intro x hx e
    simp only [Microgrid.fixedSteps, List.mem_map] at hx
    obtain ⟨ni, hni, rfl⟩ := hx
    rw [h.cont] at hni
    have := (Container.mem_level hni).2
    simp only at e
    rw [e, hj] at this
    simp at this
  have hC : ∀ (s : RunSt) (j : Nat), (g.heap j).ffc = .flex →
      (RunSt.stepControls control n (g.cont.levelDict .controllable) s).1.heap j = s.heap j := by
    intro s j hj
    apply stepControls_other
    intro nl hnl hin
    have := (h.mem_levelDict nl hnl j hin).2
    rw [hj] at this
    simp at this
  unfold Microgrid.run
  split
  · exact ⟨rfl, rfl, rfl, fun _ _ => rfl⟩
  · split
    · rename_i he; rw [he] at hF; exact ⟨rfl, rfl, rfl, hF⟩
    · rename_i s₁ he
      rw [he] at hF
      split
      · exact ⟨rfl, rfl, rfl, hF⟩
      · have hno := stepControls_not_ok (control := control) (n := n) (s := s₁) ⟨_, hids, hc⟩
        have hC₁ := hC s₁
        split
        · rename_i he₂
          rw [he₂] at hC₁
          exact ⟨rfl, rfl, rfl, fun j hj => (hC₁ j hj).trans (hF j hj)⟩
        · rename_i he₂
          rw [he₂] at hno
          simp at hno

end

end Pymgrid
