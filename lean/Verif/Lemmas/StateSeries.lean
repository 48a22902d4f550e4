import Verif.Lemmas.EnvObs

set_option autoImplicit false

/-! Normalised state dictionaries and state series. -/

namespace Pymgrid

open Module

theorem readRow_val : ∀ lo hi row : List ℚ, row.length = lo.length → lo.length = hi.length →
    (readRow lo hi row).map Reading.val = row
  | [], [], [], _, _ => rfl
  | [], [], _ :: _, h, _ => by simp at h
  | _ :: _, [], _, _, h => by simp at h
  | [], _ :: _, _, _, h => by simp at h
  | _ :: _, _ :: _, [], h, _ => by simp at h
  | _ :: lo, _ :: hi, v :: row, h, h' => by
    simp only [readRow, List.map_cons]
    rw [readRow_val lo hi row (by simpa using h) (by simpa using h')]

namespace Module

theorem WF.stateKeys_nodup {m : Module} (h : m.WF) : m.stateKeys.Nodup := by
  have := h.logKeys_nodup
  unfold logKeys at this
  rw [List.nodup_cons] at this
  exact (List.nodup_append.mp this.2).2.1

theorem TSWF.readings_val {m : Module} {t : TS} (h : m.TSWF t) :
    ∃ d, m.stateDict = .ok d ∧ d.map Prod.snd = m.readings.map Reading.val := by
  refine ⟨_, h.stateDict, ?_⟩
  rw [h.valid.state_vals h.shaped, h.readings_row]
  have hw := h.state_within
  exact (readRow_val _ _ _ hw.1 (hw.1.symm.trans hw.2.1)).symm

/-- The values of the state are those of the quantities shown. -/
theorem WF.readings_val {m : Module} (h : m.WF) :
    ∃ d, m.stateDict = .ok d ∧ d.map Prod.snd = m.readings.map Reading.val := by
  cases h with
  | battery b h =>
    refine ⟨_, by simp only [stateDict, h.kind]; rfl, ?_⟩
    simp [Battery.stateDict, Module.readings, h.kind, h.valid.soc_eq]
  | genset g h =>
    refine ⟨_, by simp only [stateDict, h.kind]; rfl, ?_⟩
    simp [Genset.stateDict, Module.readings, h.kind]
  | grid p t h w => exact h.ts.readings_val
  | load t h w => exact h.ts.readings_val
  | renewable t h w => exact h.ts.readings_val
  | balancing u h =>
    refine ⟨_, by simp only [stateDict, h.kind]; rfl, ?_⟩
    simp [Module.readings, h.kind]

/-- The normalised state dictionary. -/
theorem WF.normStateDict {m : Module} (h : m.WF) (sp : m.Spaced) {d : List (Key × ℚ)} (hd : m.stateDict = .ok d) :
    m.normStateDict = if m.readings.length = 1 then .error .type
      else .ok ((d.map Prod.fst).zip (m.readings.map Reading.pos)) := by
  obtain ⟨⟨obs, ho, hv⟩, -⟩ := h.readings sp
  have hs := normalizedObs_shape ho
  unfold Module.normalizedObs Module.state at ho
  rw [hd] at ho
  simp only at ho
  unfold Module.normStateDict
  rw [hd]
  simp only
  rw [ho]
  rw [hs, hv]
  by_cases h1 : m.readings.length = 1
  · obtain ⟨r, hr⟩ := List.length_eq_one_iff.mp h1
    simp [hr, Space.item]
  · rw [if_neg h1]
    have : ∀ l : List ℚ, l.length ≠ 1 → Space.item l = .arr l := by
      intro l hl
      match l with
      | [] => rfl
      | [x] => simp at hl
      | x :: y :: l => rfl
    rw [this _ (by simpa using h1)]

end Module

/-! ### Series -/

section
variable {h : Heap} {nrm : Bool}

/-- The outcome for the modules of one name. -/
theorem seriesOf_get {name : String} {l : List Nat} {j : Nat} {s : List ((String × Nat × Key) × ℚ)}
    (hs : seriesOf h nrm name j l = .ok s) :
    (∀ i ∈ l, ∃ d, (h i).stateDictAs nrm = .ok d) ∧
    ∀ n k key v, ((n, k, key), v) ∈ s ↔ n = name ∧ ∃ i d, j ≤ k ∧ l[k - j]? = some i ∧ (h i).stateDictAs nrm = .ok d ∧ (key, v) ∈ d := by
  induction l generalizing j s with
  | nil =>
    simp only [seriesOf, Except.ok.injEq] at hs
    subst hs
    simp
  | cons i l ih =>
    unfold seriesOf at hs
    cases hd : (h i).stateDictAs nrm with
    | error e => rw [hd] at hs; simp at hs
    | ok d =>
      rw [hd] at hs
      simp only at hs
      cases hr : seriesOf h nrm name (j + 1) l with
      | error e => rw [hr] at hs; simp at hs
      | ok r =>
        rw [hr] at hs
        simp only [Except.ok.injEq] at hs
        subst hs
        obtain ⟨i1, i2⟩ := ih hr
        refine ⟨?_, ?_⟩
        · intro i' hi'
          rcases List.mem_cons.mp hi' with rfl | hi'
          · exact ⟨d, hd⟩
          · exact i1 i' hi'
        · intro n k key v
          rw [List.mem_append, i2]
          simp only [List.mem_map, Prod.mk.injEq]
          constructor
          · rintro (⟨⟨key', v'⟩, hm, ⟨rfl, rfl, rfl⟩, rfl⟩ | ⟨rfl, i', d', h1, h2, h3, h4⟩)
            · exact ⟨rfl, i, d, le_refl _, by simp, hd, hm⟩
            · refine ⟨rfl, i', d', by omega, ?_, h3, h4⟩
              rw [show k - j = (k - (j + 1)) + 1 by omega]
              simpa using h2
          · rintro ⟨rfl, i', d', h1, h2, h3, h4⟩
            by_cases hk : k = j
            · subst hk
              simp only [Nat.sub_self, List.getElem?_cons_zero, Option.some.injEq] at h2
              subst h2
              rw [hd] at h3
              obtain rfl := Except.ok.inj h3
              exact .inl ⟨(key, v), h4, ⟨rfl, rfl, rfl⟩, rfl⟩
            · refine .inr ⟨rfl, i', d', by omega, ?_, h3, h4⟩
              rw [show k - j = (k - (j + 1)) + 1 by omega] at h2
              simpa using h2

theorem stateSeriesOf_get {D : ModDict} {s : List ((String × Nat × Key) × ℚ)} (hs : stateSeriesOf h nrm D = .ok s) :
    (∀ nl ∈ D, ∀ i ∈ nl.2, ∃ d, (h i).stateDictAs nrm = .ok d) ∧
    ∀ n k key v, ((n, k, key), v) ∈ s ↔ ∃ l i d, (n, l) ∈ D ∧ l[k]? = some i ∧ (h i).stateDictAs nrm = .ok d ∧ (key, v) ∈ d := by
  induction D generalizing s with
  | nil =>
    simp only [stateSeriesOf, Except.ok.injEq] at hs
    subst hs
    simp
  | cons nl D ih =>
    obtain ⟨name, ids⟩ := nl
    unfold stateSeriesOf at hs
    cases h1 : seriesOf h nrm name 0 ids with
    | error e => rw [h1] at hs; simp at hs
    | ok s₁ =>
      rw [h1] at hs
      simp only at hs
      cases h2 : stateSeriesOf h nrm D with
      | error e => rw [h2] at hs; simp at hs
      | ok s₂ =>
        rw [h2] at hs
        simp only [Except.ok.injEq] at hs
        subst hs
        obtain ⟨i1, i2⟩ := ih h2
        obtain ⟨j1, j2⟩ := seriesOf_get h1
        refine ⟨?_, ?_⟩
        · intro nl hnl
          rcases List.mem_cons.mp hnl with rfl | hnl
          · exact j1
          · exact i1 nl hnl
        · intro n k key v
          rw [List.mem_append, i2, j2]
          constructor
          · rintro (⟨rfl, i, d, -, e1, e2, e3⟩ | ⟨l, i, d, e0, e1, e2, e3⟩)
            · exact ⟨ids, i, d, by simp, e1, e2, e3⟩
            · exact ⟨l, i, d, by simp [e0], e1, e2, e3⟩
          · rintro ⟨l, i, d, e0, e1, e2, e3⟩
            rcases List.mem_cons.mp e0 with e0 | e0
            · simp only [Prod.mk.injEq] at e0
              obtain ⟨rfl, rfl⟩ := e0
              exact .inl ⟨rfl, i, d, Nat.zero_le _, e1, e2, e3⟩
            · exact .inr ⟨l, i, d, e0, e1, e2, e3⟩

/-- The series is computed unless a module has no state dictionary; the error is then that of a module. -/
theorem seriesOf_error {name : String} {l : List Nat} {e : Err}
    (hl : ∀ i ∈ l, (∃ d, (h i).stateDictAs nrm = .ok d) ∨ (h i).stateDictAs nrm = .error e) (j : Nat) :
    (∃ s, seriesOf h nrm name j l = .ok s) ∧ (∀ i ∈ l, ∃ d, (h i).stateDictAs nrm = .ok d) ∨
      seriesOf h nrm name j l = .error e ∧ ∃ i ∈ l, (h i).stateDictAs nrm = .error e := by
  induction l generalizing j with
  | nil => exact .inl ⟨⟨_, rfl⟩, by simp⟩
  | cons i l ih =>
    unfold seriesOf
    rcases hl i (by simp) with ⟨d, hd⟩ | hd
    · rw [hd]
      rcases ih (fun i hi => hl i (by simp [hi])) (j + 1) with ⟨⟨s, hs⟩, h2⟩ | ⟨h1, h2⟩
      · refine .inl ⟨⟨_, by rw [hs]⟩, ?_⟩
        intro i' hi'
        rcases List.mem_cons.mp hi' with rfl | hi'
        · exact ⟨d, hd⟩
        · exact h2 i' hi'
      · right
        rw [h1]
        obtain ⟨i', hi', he⟩ := h2
        exact ⟨rfl, i', by simp [hi'], he⟩
    · right
      rw [hd]
      exact ⟨rfl, i, by simp, hd⟩

theorem stateSeriesOf_error {D : ModDict} {e : Err}
    (hl : ∀ nl ∈ D, ∀ i ∈ nl.2, (∃ d, (h i).stateDictAs nrm = .ok d) ∨ (h i).stateDictAs nrm = .error e) :
    (∃ s, stateSeriesOf h nrm D = .ok s) ∧ (∀ nl ∈ D, ∀ i ∈ nl.2, ∃ d, (h i).stateDictAs nrm = .ok d) ∨
      stateSeriesOf h nrm D = .error e ∧ ∃ nl ∈ D, ∃ i ∈ nl.2, (h i).stateDictAs nrm = .error e := by
  induction D with
  | nil => exact .inl ⟨⟨_, rfl⟩, by simp⟩
  | cons nl D ih =>
    obtain ⟨name, ids⟩ := nl
    unfold stateSeriesOf
    rcases seriesOf_error (name := name) (hl _ (List.mem_cons_self ..)) 0 with ⟨⟨s, hs⟩, h2⟩ | ⟨h1, i, hi, he⟩
    · rw [hs]
      rcases ih fun nl hnl => hl nl (by simp [hnl]) with ⟨⟨s', hs'⟩, h2'⟩ | ⟨h1, nl, hnl, h2'⟩
      · refine .inl ⟨⟨_, by rw [hs']⟩, ?_⟩
        intro nl hnl
        rcases List.mem_cons.mp hnl with rfl | hnl
        · exact h2
        · exact h2' nl hnl
      · right
        rw [h1]
        exact ⟨rfl, nl, by simp [hnl], h2'⟩
    · right
      rw [h1]
      exact ⟨rfl, (name, ids), by simp, i, hi, he⟩

/-! ### Selected keys -/

theorem filter_both {A B : List Key} (hA : A.Nodup) (hB : B.Nodup) :
    (A.filter fun k => decide (k ∈ B)).length = (B.filter fun k => decide (k ∈ A)).length := by
  apply List.Perm.length_eq
  rw [List.perm_ext_iff_of_nodup (hA.filter _) (hB.filter _)]
  intro k
  simp [and_comm]

theorem seriesOf_count {keys : List Key} {K : Nat → Nat} {name : String} {l : List Nat} {j : Nat}
    {s : List ((String × Nat × Key) × ℚ)} (hs : seriesOf h nrm name j l = .ok s)
    (hK : ∀ i ∈ l, ∀ d, (h i).stateDictAs nrm = .ok d → (d.filter fun kv => decide (kv.1 ∈ keys)).length = K i) :
    (s.filter fun e => decide (e.1.2.2 ∈ keys)).length = (l.map K).sum := by
  induction l generalizing j s with
  | nil =>
    simp only [seriesOf, Except.ok.injEq] at hs
    subst hs
    rfl
  | cons i l ih =>
    unfold seriesOf at hs
    cases hd : (h i).stateDictAs nrm with
    | error e => rw [hd] at hs; simp at hs
    | ok d =>
      rw [hd] at hs
      simp only at hs
      cases hr : seriesOf h nrm name (j + 1) l with
      | error e => rw [hr] at hs; simp at hs
      | ok r =>
        rw [hr] at hs
        simp only [Except.ok.injEq] at hs
        subst hs
        rw [List.filter_append, List.length_append, ih hr fun i hi => hK i (by simp [hi]), List.filter_map, List.length_map,
          List.map_cons, List.sum_cons, ← hK i (by simp) d hd]
        rfl

theorem stateSeriesOf_count {keys : List Key} {K : Nat → Nat} {D : ModDict}
    {s : List ((String × Nat × Key) × ℚ)} (hs : stateSeriesOf h nrm D = .ok s)
    (hK : ∀ nl ∈ D, ∀ i ∈ nl.2, ∀ d, (h i).stateDictAs nrm = .ok d → (d.filter fun kv => decide (kv.1 ∈ keys)).length = K i) :
    (s.filter fun e => decide (e.1.2.2 ∈ keys)).length = (D.map fun nl => (nl.2.map K).sum).sum := by
  induction D generalizing s with
  | nil =>
    simp only [stateSeriesOf, Except.ok.injEq] at hs
    subst hs
    rfl
  | cons nl D ih =>
    obtain ⟨name, ids⟩ := nl
    unfold stateSeriesOf at hs
    cases h1 : seriesOf h nrm name 0 ids with
    | error e => rw [h1] at hs; simp at hs
    | ok s₁ =>
      rw [h1] at hs
      simp only at hs
      cases h2 : stateSeriesOf h nrm D with
      | error e => rw [h2] at hs; simp at hs
      | ok s₂ =>
        rw [h2] at hs
        simp only [Except.ok.injEq] at hs
        subst hs
        rw [List.filter_append, List.length_append, ih h2 fun nl hnl => hK nl (by simp [hnl]),
          seriesOf_count h1 (hK _ (List.mem_cons_self ..)), List.map_cons, List.sum_cons]

theorem keyedDims_sum {keys : List Key} {K : Nat → Nat} {l : List Nat}
    (hK : ∀ i ∈ l, ∃ d, (h i).stateDict = .ok d ∧ (keys.filter fun k => decide (k ∈ d.map Prod.fst)).length = K i) :
    ∃ r, keyedDims h keys l = .ok r ∧ r.sum = (l.map K).sum := by
  induction l with
  | nil => exact ⟨_, rfl, rfl⟩
  | cons i l ih =>
    obtain ⟨d, hd, hk⟩ := hK i (by simp)
    obtain ⟨r, hr, hsum⟩ := ih fun i hi => hK i (by simp [hi])
    simp only [keyedDims, hd, hr, hk]
    refine ⟨_, rfl, ?_⟩
    split
    · rename_i h0; simp [hsum, h0]
    · simp [hsum]

theorem keyedSpace_sum {keys : List Key} {K : Nat → Nat} {D : ModDict}
    (hK : ∀ nl ∈ D, ∀ i ∈ nl.2, ∃ d, (h i).stateDict = .ok d ∧
      (keys.filter fun k => decide (k ∈ d.map Prod.fst)).length = K i) :
    ∃ r, keyedSpace h keys D = .ok r ∧ (r.map fun nl => nl.2.sum).sum = (D.map fun nl => (nl.2.map K).sum).sum := by
  induction D with
  | nil => exact ⟨_, rfl, rfl⟩
  | cons nl D ih =>
    obtain ⟨name, ids⟩ := nl
    obtain ⟨dims, hd, hk⟩ := keyedDims_sum (hK _ (List.mem_cons_self ..))
    obtain ⟨r, hr, hsum⟩ := ih fun nl hnl => hK nl (by simp [hnl])
    simp only [keyedSpace, hd, hr]
    refine ⟨_, rfl, ?_⟩
    simp only [List.map_cons, List.sum_cons]
    split
    · rename_i h0
      subst h0
      rw [hsum, ← hk]
      simp
    · rw [List.map_cons, List.sum_cons, hsum, hk]

end

end Pymgrid
