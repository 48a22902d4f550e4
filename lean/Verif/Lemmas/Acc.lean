import Verif.Lemmas.Dict
import Verif.Lemmas.NoRuntime

set_option autoImplicit false

/-! Sums over the steps of a run. -/

namespace Pymgrid

theorem provSum_append (a b : List Event) : provSum (a ++ b) = provSum a + provSum b := by simp [provSum]

theorem absSum_append (a b : List Event) : absSum (a ++ b) = absSum a + absSum b := by simp [absSum]

namespace StepAcc

theorem run_provided (a : StepAcc) (tr : List Event) : (a.run tr).provided.sum = a.provided.sum + provSum tr := by
  induction tr generalizing a with
  | nil => simp [run, provSum]
  | cons e tr ih =>
    have := ih (a.append e.name e.out)
    simp only [run, List.foldl_cons, provSum, List.map_cons, List.sum_cons] at this ⊢
    rw [this]
    cases h : e.out.info.provided <;> simp [append, h, add_assoc]

theorem run_absorbed (a : StepAcc) (tr : List Event) : (a.run tr).absorbed.sum = a.absorbed.sum + absSum tr := by
  induction tr generalizing a with
  | nil => simp [run, absSum]
  | cons e tr ih =>
    have := ih (a.append e.name e.out)
    simp only [run, List.foldl_cons, absSum, List.map_cons, List.sum_cons] at this ⊢
    rw [this]
    cases h : e.out.info.absorbed <;> simp [append, h, add_assoc]

theorem run_reward (a : StepAcc) (tr : List Event) :
    (a.run tr).reward = a.reward + (tr.map fun e => e.out.reward).sum := by
  induction tr generalizing a with
  | nil => simp [run]
  | cons e tr ih =>
    have := ih (a.append e.name e.out)
    simp only [run, List.foldl_cons, List.map_cons, List.sum_cons] at this ⊢
    rw [this]
    simp [append, add_assoc]

theorem run_done (a : StepAcc) (tr : List Event) :
    (a.run tr).done = (a.done || tr.any fun e => e.out.done) := by
  induction tr generalizing a with
  | nil => simp [run]
  | cons e tr ih =>
    have := ih (a.append e.name e.out)
    simp only [run, List.foldl_cons, List.any_cons] at this ⊢
    rw [this]
    cases h : e.out.done <;> simp [append, h]

end StepAcc

/-- Total over a dictionary of lists. -/
theorem dictAppend_total {β : Type} (μ : β → ℚ) (d : List (String × List β)) (k : String) (v : β) :
    ((dictAppend d k v).map fun kv => (kv.2.map μ).sum).sum = (d.map fun kv => (kv.2.map μ).sum).sum + μ v := by
  unfold dictAppend
  induction d with
  | nil => simp [dictGet?, dictSet]
  | cons x d ih =>
    obtain ⟨k', l⟩ := x
    by_cases h : k' = k
    · subst h
      simp only [dictGet?, if_true, dictSet, List.map_cons, List.sum_cons, List.map_append, List.sum_append,
        List.map_nil, List.sum_nil]
      ring
    · simp only [dictGet?, h, if_false]
      cases hd : dictGet? d k with
      | none =>
        rw [hd] at ih
        simp only [dictSet, h, if_false, List.map_cons, List.sum_cons]
        rw [ih]; ring
      | some l' =>
        rw [hd] at ih
        simp only [dictSet, h, if_false, List.map_cons, List.sum_cons]
        rw [ih]; ring

theorem run_infos_total (μ : Info → ℚ) (a : StepAcc) (tr : List Event) :
    ((a.run tr).infos.map fun kv => (kv.2.map μ).sum).sum =
      (a.infos.map fun kv => (kv.2.map μ).sum).sum + (tr.map fun e => μ e.out.info).sum := by
  induction tr generalizing a with
  | nil => simp [StepAcc.run]
  | cons e tr ih =>
    have := ih (a.append e.name e.out)
    simp only [StepAcc.run, List.foldl_cons, List.map_cons, List.sum_cons] at this ⊢
    rw [this]
    simp only [StepAcc.append, dictAppend_total]
    ring

theorem RunInfo.provided {g g' : Microgrid} {control : List (String × Ctrl)} {n : Bool} {o : RunOut}
    {trF trC trX : List Event} {h₁ h₂ : Heap} {ci : CostInfo}
    (r : RunInfo g control n g' o trF trC trX h₁ h₂ ci) : o.provided = provSum (trF ++ trC ++ trX) := by
  unfold RunOut.provided
  rw [r.infos, run_infos_total fun inf => inf.provided.getD 0]
  simp [provSum]

theorem RunInfo.absorbed {g g' : Microgrid} {control : List (String × Ctrl)} {n : Bool} {o : RunOut}
    {trF trC trX : List Event} {h₁ h₂ : Heap} {ci : CostInfo}
    (r : RunInfo g control n g' o trF trC trX h₁ h₂ ci) : o.absorbed = absSum (trF ++ trC ++ trX) := by
  unfold RunOut.absorbed
  rw [r.infos, run_infos_total fun inf => inf.absorbed.getD 0]
  simp [absSum]

/-! ### Executions -/

theorem Exec.other {h h' : Heap} {tr : List Event} (e : Exec h tr h') {i : Nat} (hi : i ∉ tr.map Event.id) :
    h' i = h i := by
  induction e with
  | nil => rfl
  | cons hs _ ih =>
    simp only [List.map_cons, List.mem_cons, not_or] at hi
    rw [ih hi.2]
    simp [Heap.set, hi.1]

/-- A module that is stepped once: its state afterwards is the result of that step from its state before. -/
theorem Exec.once {h h' : Heap} {tr : List Event} (e : Exec h tr h') (hn : (tr.map Event.id).Nodup) {x : Event}
    (hx : x ∈ tr) : (h x.id).step x.act x.normalized = (h' x.id, .ok x.out) := by
  induction e with
  | nil => simp at hx
  | @cons h h' y tr m' hs ht ih =>
    simp only [List.map_cons, List.nodup_cons] at hn
    rcases List.mem_cons.mp hx with rfl | hx
    · rw [hs, ht.other hn.1]
      simp [Heap.set]
    · have := ih hn.2 hx
      have hne : x.id ≠ y.id := fun e => hn.1 (e ▸ List.mem_map_of_mem hx)
      simpa [Heap.set, hne] using this

theorem Exec.wf {h h' : Heap} {tr : List Event} (e : Exec h tr h') {i : Nat} (hw : (h i).WF) : (h' i).WF := by
  induction e with
  | nil => exact hw
  | @cons h h' y tr m' hs ht ih =>
    apply ih
    have := kept_wf.step (h y.id) y.act y.normalized
    rw [hs] at this
    exact heapSet_rel (P := fun m m' => m.WF → m'.WF) kept_wf.refl this i hw

theorem Exec.alike {h h' : Heap} {tr : List Event} (e : Exec h tr h') (i : Nat) : (h i).Alike (h' i) := by
  induction e with
  | nil => exact .refl _
  | @cons h h' y tr m' hs ht ih =>
    refine .trans ?_ ih
    have := kept_alike.step (h y.id) y.act y.normalized
    rw [hs] at this
    exact heapSet_rel kept_alike.refl this i

/-! ### Dispatch -/

section
variable {h : Heap} {tr : List Event} {x : ℚ}

/-- Every event of a dispatch satisfies the conditions of the dispatch lemmas. -/
def FlexEvents (h : Heap) (tr : List Event) : Prop := ∀ e ∈ tr, (h e.id).WF ∧ (h e.id).ffc = .flex

theorem FlexEvents.tail {e : Event} {m' : Module} (hf : FlexEvents h (e :: tr))
    (hs : (h e.id).step e.act e.normalized = (m', .ok e.out)) : FlexEvents (h.set e.id m') tr := by
  intro y hy
  obtain ⟨hw, hx⟩ := hf y (List.mem_cons_of_mem _ hy)
  have h1 := kept_wf.step (h e.id) e.act e.normalized
  have h2 := kept_alike.step (h e.id) e.act e.normalized
  rw [hs] at h1 h2
  exact ⟨heapSet_rel (P := fun m m' => m.WF → m'.WF) kept_wf.refl h1 y.id hw,
    (heapSet_rel kept_alike.refl h2 y.id).ffc.trans hx⟩

/-- A balancing module stays one. -/
theorem canProvide_none_set {h : Heap} {i j : Nat} {a : Act} {n : Bool} {m' : Module} {o : StepOut}
    (hw : (h i).WF) (hs : (h j).step a n = (m', .ok o)) (hj : (h i).canProvide = none) :
    (h.set j m' i).canProvide = none := by
  unfold Heap.set
  split
  · rename_i e
    subst e
    cases hw with
    | balancing u hb =>
      have := hb.op (.step a n)
      simp only [MOp.apply, hs] at this
      simp [Module.canProvide, this.kind]
    | battery b hb => simp [Module.canProvide, hb.kind] at hj
    | genset g hb => simp [Module.canProvide, hb.kind] at hj
    | grid p t hb w => simp [Module.canProvide, hb.kind] at hj
    | load t hb w => simp [Module.canProvide, hb.kind] at hj
    | renewable t hb w => simp [Module.canProvide, hb.kind] at hj
  · exact hj

theorem canProvide_none_iff (m : Module) : m.canProvide = none ↔ m.canAbsorb = none := by
  unfold Module.canProvide Module.canAbsorb
  cases m.kind <;> simp

theorem Chain.source (hc : Chain sourceAmount (fun a => a) x h tr) (hf : FlexEvents h tr) (hx : 0 ≤ x) :
    (∀ e ∈ tr, e.out.info.absorbed = none ∧ ∃ p, e.out.info.provided = some p ∧ 0 ≤ p) ∧
      absSum tr = 0 ∧ 0 ≤ provSum tr ∧ provSum tr ≤ x ∧
      ((∃ e ∈ tr, (h e.id).canProvide = none) → provSum tr = x) := by
  induction hc with
  | nil x h => simp [absSum, provSum, hx]
  | @cons x amt h e tr m' ha hact hn hs ht ih =>
    obtain ⟨hw, hffc⟩ := hf e (by simp)
    obtain ⟨h1, h2, h3, m'', o, h4, h5, h6⟩ := hw.flex_source (hw.live_of_step hs) hffc hx
    rw [h1] at ha
    simp only [Except.ok.injEq] at ha
    subst ha
    have hs' := hs
    rw [hact, hn, h4] at hs'
    simp only [Prod.mk.injEq, Except.ok.injEq] at hs'
    obtain ⟨rfl, rfl⟩ := hs'
    obtain ⟨i1, i2, i3, i4, i5⟩ := ih (hf.tail hs) (by linarith)
    refine ⟨?_, ?_, ?_, ?_, ?_⟩
    · intro y hy
      rcases List.mem_cons.mp hy with rfl | hy
      · exact ⟨h6, _, h5, h2⟩
      · exact i1 y hy
    · simpa [absSum, h6] using i2
    · simp only [provSum, List.map_cons, List.sum_cons, h5, Option.getD_some] at i3 ⊢; linarith
    · simp only [provSum, List.map_cons, List.sum_cons, h5, Option.getD_some] at i4 ⊢; linarith
    · rintro ⟨y, hy, hb⟩
      simp only [provSum, List.map_cons, List.sum_cons, h5, Option.getD_some] at i3 i4 i5 ⊢
      rcases List.mem_cons.mp hy with rfl | hy
      · have : capMin (h y.id).canProvide x = x := by rw [hb]; rfl
        rw [this] at i4 ⊢
        linarith
      · have := i5 ⟨y, hy, canProvide_none_set (hf y (by simp [hy])).1 hs hb⟩
        rw [this]; ring

theorem Chain.sink (hc : Chain sinkAmount (fun a => -1 * a) x h tr) (hf : FlexEvents h tr) (hx : 0 ≤ x) :
    (∀ e ∈ tr, e.out.info.provided.getD 0 = 0 ∧ 0 ≤ e.out.info.absorbed.getD 0) ∧
      provSum tr = 0 ∧ 0 ≤ absSum tr ∧ absSum tr ≤ x ∧
      ((∃ e ∈ tr, (h e.id).canProvide = none) → absSum tr = x) := by
  induction hc with
  | nil x h => simp [absSum, provSum, hx]
  | @cons x amt h e tr m' ha hact hn hs ht ih =>
    obtain ⟨hw, hffc⟩ := hf e (by simp)
    obtain ⟨h1, h2, h3, m'', o, h4, h5, h6⟩ := hw.flex_sink (hw.live_of_step hs) hffc hx
    rw [h1] at ha
    simp only [Except.ok.injEq] at ha
    subst ha
    have hs' := hs
    rw [hact, hn, h4] at hs'
    simp only [Prod.mk.injEq, Except.ok.injEq] at hs'
    obtain ⟨rfl, rfl⟩ := hs'
    obtain ⟨i1, i2, i3, i4, i5⟩ := ih (hf.tail hs) (by linarith)
    refine ⟨?_, ?_, ?_, ?_, ?_⟩
    · intro y hy
      rcases List.mem_cons.mp hy with rfl | hy
      · exact ⟨h6, h5 ▸ h2⟩
      · exact i1 y hy
    · simpa [provSum, h6] using i2
    · simp only [absSum, List.map_cons, List.sum_cons, h5] at i3 ⊢; linarith
    · simp only [absSum, List.map_cons, List.sum_cons, h5] at i4 ⊢; linarith
    · rintro ⟨y, hy, hb⟩
      simp only [absSum, List.map_cons, List.sum_cons, h5] at i3 i4 i5 ⊢
      rcases List.mem_cons.mp hy with rfl | hy
      · have : capMin (h y.id).canAbsorb x = x := by rw [(canProvide_none_iff _).mp hb]; rfl
        rw [this] at i4 ⊢
        linarith
      · have := i5 ⟨y, hy, canProvide_none_set (hf y (by simp [hy])).1 hs hb⟩
        rw [this]; ring

/-- Distinct flexible modules are served greedily. -/
theorem Chain.source_greedy (hc : Chain sourceAmount (fun a => a) x h tr) (hf : FlexEvents h tr) (hx : 0 ≤ x)
    (hn : (tr.map Event.id).Nodup) :
    tr.map (fun e => e.out.info.provided.getD 0) = greedy (tr.map fun e => (h e.id).canProvide) x := by
  induction hc with
  | nil x h => rfl
  | @cons x amt h e tr m' ha hact hnorm hs ht ih =>
    obtain ⟨hw, hffc⟩ := hf e (by simp)
    obtain ⟨h1, h2, h3, m'', o, h4, h5, h6⟩ := hw.flex_source (hw.live_of_step hs) hffc hx
    rw [h1] at ha
    simp only [Except.ok.injEq] at ha
    subst ha
    have hs' := hs
    rw [hact, hnorm, h4] at hs'
    simp only [Prod.mk.injEq, Except.ok.injEq] at hs'
    obtain ⟨rfl, rfl⟩ := hs'
    simp only [List.map_cons, List.nodup_cons] at hn
    have := ih (hf.tail hs) (by linarith) hn.2
    simp only [List.map_cons, greedy, h5, Option.getD_some, this, List.cons.injEq, true_and]
    congr 1
    apply List.map_congr_left
    intro y hy
    have hne : y.id ≠ e.id := fun e' => hn.1 (e' ▸ List.mem_map_of_mem hy)
    simp [Heap.set, hne]

theorem Chain.sink_greedy (hc : Chain sinkAmount (fun a => -1 * a) x h tr) (hf : FlexEvents h tr) (hx : 0 ≤ x)
    (hn : (tr.map Event.id).Nodup) :
    tr.map (fun e => e.out.info.absorbed.getD 0) = greedy (tr.map fun e => (h e.id).canAbsorb) x := by
  induction hc with
  | nil x h => rfl
  | @cons x amt h e tr m' ha hact hnorm hs ht ih =>
    obtain ⟨hw, hffc⟩ := hf e (by simp)
    obtain ⟨h1, h2, h3, m'', o, h4, h5, h6⟩ := hw.flex_sink (hw.live_of_step hs) hffc hx
    rw [h1] at ha
    simp only [Except.ok.injEq] at ha
    subst ha
    have hs' := hs
    rw [hact, hnorm, h4] at hs'
    simp only [Prod.mk.injEq, Except.ok.injEq] at hs'
    obtain ⟨rfl, rfl⟩ := hs'
    simp only [List.map_cons, List.nodup_cons] at hn
    have := ih (hf.tail hs) (by linarith) hn.2
    simp only [List.map_cons, greedy, h5, this, List.cons.injEq, true_and]
    congr 1
    apply List.map_congr_left
    intro y hy
    have hne : y.id ≠ e.id := fun e' => hn.1 (e' ▸ List.mem_map_of_mem hy)
    simp [Heap.set, hne]

end

end Pymgrid
