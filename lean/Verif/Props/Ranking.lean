import Verif.Model.Ranking
import Verif.Lemmas.Dict

set_option autoImplicit false

/-!
# C116: results are compared by their costs
-/

namespace Pymgrid.Rank

open Bench (Columns Cell Output outputOf)

/-- Specification: the list `l` is what an output holds as its costs, as numbers. -/
def HasCosts (o : Stored) (l : List ℚ) : Prop := dictGet? o "cost" = some (.numbers l)

/-- Specification: the output holds the records `c` of costs, column by column, as the outputs of all algorithms do. -/
def HasRecords (o : Stored) (c : Columns) : Prop := dictGet? o "cost" = some (.columns c)

private theorem sum_numbers {o : Stored} {l : List ℚ} (h : HasCosts o l) : npSum o = .ok (.number l.sum) := by
  unfold npSum; rw [h]

private theorem sum_columns {o : Stored} {c : Columns} (h : HasRecords o c) : npSum o = .ok (.columns c) := by
  unfold npSum; rw [h]

/-- C116: outputs whose costs are lists of numbers are compared by total cost: exactly one of `<`, `==` and `>` holds. -/
theorem C116_costs_partial {a b : Stored} {l l' : List ℚ} (ha : HasCosts a l) (hb : HasCosts b l') :
    a.eq b = .ok (decide (l.sum = l'.sum)) ∧ a.lt b = .ok (decide (l.sum < l'.sum)) ∧ a.gt b = .ok (decide (l'.sum < l.sum)) := by
  simp [Stored.eq, Stored.lt, Stored.gt, sum_numbers ha, sum_numbers hb, bind, Except.bind]

/-- C116 is violated for the outputs of all algorithms: they cannot be ordered, whatever their costs are. -/
theorem C116_raises {a b : Stored} {c c' : Columns} (ha : HasRecords a c) (hb : HasRecords b c') :
    a.lt b = .error .type ∧ a.gt b = .error .type := by
  simp [Stored.lt, Stored.gt, sum_columns ha, sum_columns hb, bind, Except.bind]

/-- Specification: the same values under the same key, or none in both. -/
inductive Same {β : Type} (R : β → β → Prop) : Option β → Option β → Prop
  | none : Same R none none
  | some {x y : β} (h : R x y) : Same R (some x) (some y)

private theorem dictEq_rel {β : Type} {eqv : β → β → Bool} {R : β → β → Prop} {a b : List (String × β)} (ha : (a.map Prod.fst).Nodup)
    (hb : (b.map Prod.fst).Nodup) (hR : ∀ x ∈ a, ∀ y ∈ b, (eqv x.2 y.2 = true ↔ R x.2 y.2)) :
    dictEq eqv a b = true ↔ ∀ k, Same R (dictGet? a k) (dictGet? b k) := by
  unfold dictEq
  rw [Bool.and_eq_true, beq_iff_eq, List.all_eq_true]
  constructor
  · rintro ⟨hl, hall⟩ k
    have sub : ∀ kv ∈ a, ∃ w, dictGet? b kv.1 = some w ∧ R kv.2 w := by
      intro kv hkv
      have := hall kv hkv
      split at this
      · rename_i w hw
        exact ⟨w, hw, (hR kv hkv _ (dictGet?_mem hw)).mp this⟩
      · simp at this
    cases hk : dictGet? a k with
    | some v =>
      obtain ⟨w, hw, hr⟩ := sub _ (dictGet?_mem hk)
      simp only at hw
      rw [hw]
      exact .some hr
    | none =>
      have : dictGet? b k = none := by
        rw [dictGet?_none] at hk ⊢
        intro hkb
        have hsub : a.map Prod.fst ⊆ b.map Prod.fst := by
          intro x hx
          obtain ⟨kv, hkv, rfl⟩ := List.mem_map.mp hx
          obtain ⟨w, hw, -⟩ := sub kv hkv
          exact List.mem_map.mpr ⟨_, dictGet?_mem hw, rfl⟩
        have hp := (List.subperm_of_subset ha hsub).perm_of_length_le (by simp [hl])
        exact hk (hp.mem_iff.mpr hkb)
      rw [this]
      exact .none
  · intro h
    have keys : ∀ k, k ∈ a.map Prod.fst ↔ k ∈ b.map Prod.fst := by
      intro k
      have := h k
      rw [← not_iff_not, ← dictGet?_none, ← dictGet?_none]
      cases hk : dictGet? a k <;> cases hk' : dictGet? b k <;> rw [hk, hk'] at this <;> first | (cases this; done) | simp
    refine ⟨?_, fun kv hkv => ?_⟩
    · have h1 := (List.subperm_of_subset ha (fun k hk => (keys k).mp hk)).length_le
      have h2 := (List.subperm_of_subset hb (fun k hk => (keys k).mpr hk)).length_le
      simp only [List.length_map] at h1 h2
      omega
    · have := h kv.1
      rw [dictGet?_of_mem ha (v := kv.2) hkv] at this
      cases hk : dictGet? b kv.1 with
      | none => rw [hk] at this; cases this
      | some w =>
        rw [hk] at this
        cases this with
        | some hr => exact (hR kv hkv _ (dictGet?_mem hk)).mpr hr

private theorem same_eq {β : Type} (x y : Option β) : Same (· = ·) x y ↔ x = y := by
  constructor
  · rintro (_ | h)
    · rfl
    · rw [h]
  · rintro rfl
    cases x with
    | none => exact .none
    | some x => exact .some rfl

private theorem columnsEq_iff {c c' : Columns} (hc : (c.map Prod.fst).Nodup) (hc' : (c'.map Prod.fst).Nodup) :
    columnsEq c c' = true ↔ ∀ k, dictGet? c k = dictGet? c' k := by
  rw [columnsEq, dictEq_rel (R := (· = ·)) hc hc' (by simp)]
  simp only [same_eq]

/-- C116: outputs of algorithms are equal exactly if their records of costs are the same, column by column and step by step. -/
theorem C116_equal {a b : Stored} {c c' : Columns} (ha : HasRecords a c) (hb : HasRecords b c') (hc : (c.map Prod.fst).Nodup)
    (hc' : (c'.map Prod.fst).Nodup) : ∃ r, a.eq b = .ok r ∧ (r = true ↔ ∀ k, dictGet? c k = dictGet? c' k) := by
  refine ⟨columnsEq c c', ?_, columnsEq_iff hc hc'⟩
  simp [Stored.eq, sum_columns ha, sum_columns hb, bind, Except.bind]

/-- C116: numbers are not equal to records and cannot be compared with them. -/
theorem C116_mixed {a b : Stored} {l : List ℚ} {c : Columns} (ha : HasCosts a l) (hb : HasRecords b c) :
    a.eq b = .ok false ∧ b.eq a = .ok false ∧ a.lt b = .error .type ∧ a.gt b = .error .type := by
  simp [Stored.eq, Stored.lt, Stored.gt, sum_numbers ha, sum_columns hb, bind, Except.bind]

/-- C116: `!=` of two outputs of algorithms does not look at the costs in particular: it holds exactly if some record of anything
    differs. -/
theorem C116_unequal {o o' : Output} (h : (o.map Prod.fst).Nodup) (h' : (o'.map Prod.fst).Nodup)
    (hi : ∀ x ∈ o, (x.2.map Prod.fst).Nodup) (hi' : ∀ x ∈ o', (x.2.map Prod.fst).Nodup) :
    (stored o).ne (stored o') = true ↔
      ¬ ∀ name, Same (fun c c' : Columns => ∀ k, dictGet? c k = dictGet? c' k) (dictGet? o name) (dictGet? o' name) := by
  have e : dictEq Value.eq (stored o) (stored o') = dictEq columnsEq o o' := by
    have get : ∀ (o : Output) k, dictGet? (stored o) k = (dictGet? o k).map Value.columns := by
      intro o k
      induction o with
      | nil => rfl
      | cons x o ih =>
        simp only [stored, List.map_cons, dictGet?] at ih ⊢
        split
        · rfl
        · exact ih
    unfold dictEq
    rw [show (stored o).length = o.length from List.length_map .., show (stored o').length = o'.length from List.length_map ..]
    congr 1
    rw [show stored o = o.map (fun x => (x.1, Value.columns x.2)) from rfl, List.all_map]
    congr 1
    funext kv
    simp only [Function.comp, get]
    cases dictGet? o' kv.1 <;> rfl
  unfold Stored.ne
  rw [e, Bool.not_eq_true', ← Bool.not_eq_true, dictEq_rel (R := fun c c' : Columns => ∀ k, dictGet? c k = dictGet? c' k) h h' (fun x hx y hy => columnsEq_iff (hi x hx) (hi' y hy))]

/-- The outputs of the algorithms hold records, so that `C116_raises` applies to any two of them: no two runs of MPC, the rule-based
    control or SAA can be ordered, and `min` of them raises. -/
theorem C116_library (b b' : Legacy.Baseline) :
    (stored (outputOf b)).lt (stored (outputOf b')) = .error .type ∧ (stored (outputOf b)).gt (stored (outputOf b')) = .error .type ∧
    pyMin Stored.lt [stored (outputOf b), stored (outputOf b')] = .error .type ∧
    ((stored (outputOf b)).eq (stored (outputOf b')) = .ok true ↔ b.costs.map (·.total) = b'.costs.map (·.total)) := by
  have recs : ∀ b : Legacy.Baseline, HasRecords (stored (outputOf b)) [("total_cost", b.costs.map fun r => some r.total)] := by
    intro b
    simp [HasRecords, stored, outputOf, dictGet?]
  have h := C116_raises (recs b) (recs b')
  have h' := C116_raises (recs b') (recs b)
  refine ⟨h.1, h.2, ?_, ?_⟩
  · simp [pyMin, minFrom, h'.1, bind, Except.bind]
  · obtain ⟨r, hr, hiff⟩ := C116_equal (recs b) (recs b') (by simp) (by simp)
    rw [hr, Except.ok.injEq, hiff]
    have inj : ∀ l l' : List Legacy.CostRow, l.map (fun r => some r.total) = l'.map (fun r => some r.total) ↔
        l.map (·.total) = l'.map (·.total) := by
      intro l l'
      have := List.map_inj_right (f := (some : ℚ → Option ℚ)) (l := l.map (·.total)) (l' := l'.map (·.total)) (fun _ _ h => Option.some.inj h)
      simpa [List.map_map, Function.comp_def] using this
    constructor
    · intro h
      have := h "total_cost"
      simp only [dictGet?, if_true, Option.some.injEq] at this
      exact (inj _ _).mp this
    · intro h k
      rw [(inj _ _).mpr h]

/-- C116 is violated: two outputs with the same total cost that are not equal, and two outputs that are equal and unequal at once, as
    `!=` compares everything. -/
theorem C116_violated :
    (∃ c c' : List ℚ, c.sum = c'.sum ∧
      Stored.eq [("cost", .columns [("total_cost", c.map some)])] [("cost", .columns [("total_cost", c'.map some)])] = .ok false) ∧
    (∃ a b : Stored, a.eq b = .ok true ∧ a.ne b = true) := by
  refine ⟨⟨[1, 2], [2, 1], by norm_num, by decide +kernel⟩, [("cost", .numbers [1, 2])], [("cost", .numbers [2, 1])], ?_, ?_⟩ <;> decide +kernel

/-- C116: `!=` of two parameter sets compares the parameters, `==` the mean errors, so they can hold together. -/
theorem C116_sets (a b : ArgSet) : (a.ne b = true ↔ a.params ≠ b.params) ∧ (a.eq b = true ↔ a.mean = b.mean) := by
  simp [ArgSet.ne, ArgSet.eq]

/-- C116: parameter sets are compared by the mean of the errors they were given, in whatever order these came. -/
theorem C116_errors (a b : ArgSet) (m m' : List ℚ) (ha : a.vals = []) (hb : b.vals = []) (hm : m ≠ []) (hm' : m' ≠ []) :
    let x := m.foldl ArgSet.update a
    let y := m'.foldl ArgSet.update b
    x.mean = some (m.sum / m.length) ∧ x.params = a.params ∧
    (x.eq y = true ↔ m.sum / m.length = m'.sum / m'.length) ∧
    x.lt y = .ok (decide (m.sum / m.length < m'.sum / m'.length)) ∧ x.gt y = .ok (decide (m'.sum / m'.length < m.sum / m.length)) := by
  have up : ∀ (m : List ℚ) (a : ArgSet), (m.foldl ArgSet.update a).vals = a.vals ++ m ∧ (m.foldl ArgSet.update a).params = a.params := by
    intro m
    induction m with
    | nil => intro a; simp
    | cons x m ih =>
      intro a
      obtain ⟨h1, h2⟩ := ih (a.update x)
      exact ⟨by rw [List.foldl_cons, h1]; simp [ArgSet.update], by rw [List.foldl_cons, h2]; rfl⟩
  have mean : ∀ (m : List ℚ) (a : ArgSet), a.vals = [] → m ≠ [] → (m.foldl ArgSet.update a).mean = some (m.sum / m.length) := by
    intro m a ha hm
    unfold ArgSet.mean
    rw [(up m a).1, ha, List.nil_append, if_neg hm]
  simp only
  refine ⟨mean m a ha hm, (up m a).2, ?_, ?_, ?_⟩
  · simp [ArgSet.eq, mean m a ha hm, mean m' b hb hm']
  · simp [ArgSet.lt, mean m a ha hm, mean m' b hb hm']
  · simp [ArgSet.gt, mean m a ha hm, mean m' b hb hm']

/-- C116: sets that were not tested are all equal and cannot be ordered. -/
theorem C116_untested (a b : ArgSet) (ha : a.vals = []) (hb : b.vals = []) :
    a.eq b = true ∧ a.lt b = .error .type ∧ a.gt b = .error .type := by
  have h1 : a.mean = none := by unfold ArgSet.mean; rw [if_pos ha]
  have h2 : b.mean = none := by unfold ArgSet.mean; rw [if_pos hb]
  simp [ArgSet.eq, ArgSet.lt, ArgSet.gt, h1, h2]

private theorem minFrom_spec {α : Type} (lt : α → α → Except Err Bool) (key : α → ℚ) (l : List α) :
    ∀ cur, (∀ x ∈ cur :: l, ∀ y ∈ cur :: l, lt x y = .ok (decide (key x < key y))) →
      ∃ i : Nat, ∃ r, (cur :: l)[i]? = some r ∧ minFrom lt cur l = .ok r ∧ (∀ x ∈ cur :: l, key r ≤ key x) ∧
        ∀ (j : Nat) (x : α), j < i → (cur :: l)[j]? = some x → key r < key x := by
  induction l with
  | nil => intro cur _; exact ⟨0, cur, rfl, rfl, by simp, by simp⟩
  | cons x l ih =>
    intro cur h
    by_cases hlt : key x < key cur
    · obtain ⟨i, r, h1, h2, h3, h4⟩ := ih x (fun y hy z hz => h y (List.mem_cons_of_mem _ hy) z (List.mem_cons_of_mem _ hz))
      have hx : key r ≤ key x := h3 x (by simp)
      refine ⟨i + 1, r, by simpa using h1, ?_, ?_, ?_⟩
      · simp [minFrom, h x (by simp) cur (by simp), hlt, bind, Except.bind, h2]
      · intro y hy
        rcases List.mem_cons.mp hy with rfl | hy
        · exact (hx.trans_lt hlt).le
        · exact h3 y hy
      · intro j y hj hy
        cases j with
        | zero => simp only [List.getElem?_cons_zero, Option.some.injEq] at hy; subst hy; exact hx.trans_lt hlt
        | succ j => exact h4 j y (by omega) (by simpa using hy)
    · obtain ⟨i, r, h1, h2, h3, h4⟩ := ih cur (fun y hy z hz => h y (by rcases List.mem_cons.mp hy with rfl | hy <;> simp [*]) z
        (by rcases List.mem_cons.mp hz with rfl | hz <;> simp [*]))
      have hc : key r ≤ key cur := h3 cur (by simp)
      have hm : minFrom lt cur (x :: l) = .ok r := by
        simp [minFrom, h x (by simp) cur (by simp), hlt, bind, Except.bind, h2]
      push Not at hlt
      have hall : ∀ y ∈ cur :: x :: l, key r ≤ key y := by
        intro y hy
        rcases List.mem_cons.mp hy with rfl | hy
        · exact hc
        · rcases List.mem_cons.mp hy with rfl | hy
          · exact hc.trans hlt
          · exact h3 y (List.mem_cons_of_mem _ hy)
      cases i with
      | zero =>
        exact ⟨0, r, by simpa using h1, hm, hall, by simp⟩
      | succ i =>
        have hrc : key r < key cur := h4 0 cur (by omega) (by simp)
        refine ⟨i + 2, r, by simpa using h1, hm, hall, ?_⟩
        intro j y hj hy
        match j, hj, hy with
        | 0, _, hy => simp only [List.getElem?_cons_zero, Option.some.injEq] at hy; subst hy; exact hrc
        | 1, _, hy =>
          simp only [List.getElem?_cons_succ, List.getElem?_cons_zero, Option.some.injEq] at hy; subst hy; exact hrc.trans_le hlt
        | j + 2, hj, hy => exact h4 (j + 1) y (by omega) (by simpa using hy)

/-- C116: `min` of parameter sets that were all tested is the first set with the smallest mean error. -/
theorem C116_best (sets : List ArgSet) (hne : sets ≠ []) (key : ArgSet → ℚ) (hk : ∀ a ∈ sets, a.mean = some (key a)) :
    ∃ i : Nat, ∃ r, sets[i]? = some r ∧ pyMin ArgSet.lt sets = .ok r ∧ (∀ a ∈ sets, key r ≤ key a) ∧
      ∀ (j : Nat) (a : ArgSet), j < i → sets[j]? = some a → key r < key a := by
  cases sets with
  | nil => exact absurd rfl hne
  | cons x l =>
    exact minFrom_spec ArgSet.lt key l x (fun a ha b hb => by simp [ArgSet.lt, hk a ha, hk b hb])

/-- C116: `min` of outputs whose costs are lists of numbers is the first one with the smallest total cost. -/
theorem C116_cheapest_partial (outputs : List Stored) (hne : outputs ≠ []) (costs : Stored → List ℚ)
    (hc : ∀ o ∈ outputs, HasCosts o (costs o)) :
    ∃ i : Nat, ∃ r, outputs[i]? = some r ∧ pyMin Stored.lt outputs = .ok r ∧ (∀ o ∈ outputs, (costs r).sum ≤ (costs o).sum) ∧
      ∀ (j : Nat) (o : Stored), j < i → outputs[j]? = some o → (costs r).sum < (costs o).sum := by
  cases outputs with
  | nil => exact absurd rfl hne
  | cons x l =>
    exact minFrom_spec Stored.lt (fun o => (costs o).sum) l x (fun a ha b hb => (C116_costs_partial (hc a ha) (hc b hb)).2.1)

/-- Hypotheses of `C116_costs_partial` and `C116_cheapest_partial`, with a tie. -/
example : HasCosts [("status", .columns []), ("cost", .numbers [3, 1])] [3, 1] ∧
    (match pyMin Stored.lt [[("cost", .numbers [5])], [("co2", .numbers [7]), ("cost", .numbers [3, 1])], [("cost", .numbers [4])]] with
    | .ok r => decide (r.length = 2)
    | .error _ => false) = true := by
  constructor
  · simp [HasCosts, dictGet?]
  · decide +kernel

/-- Hypotheses of `C116_errors` and `C116_best`: the second set has the smaller mean error, although its first error is larger. -/
example :
    let a := [1, 3].foldl ArgSet.update { params := (⟨0, 0, 0, 0, 1⟩, 2) }
    let b := [2, 1].foldl ArgSet.update { params := (⟨1, 0, 0, 0, 1⟩, 2) }
    a.mean = some 2 ∧ b.mean = some (3/2) ∧
    (match pyMin ArgSet.lt [a, b] with | .ok r => decide (r.params.1.individual = 1) | .error _ => false) = true := by
  decide +kernel

/-- Hypotheses of `C116_unequal`: equal costs, different emissions. -/
example :
    let o : Output := [("cost", [("total_cost", [some 1])]), ("co2", [("co2", [some 1])])]
    let o' : Output := [("cost", [("total_cost", [some 1])]), ("co2", [("co2", [some 2])])]
    (o.map Prod.fst).Nodup ∧ (∀ x ∈ o, (x.2.map Prod.fst).Nodup) ∧ (stored o).ne (stored o') = true := by
  decide +kernel

/-- Hypotheses of `C116_raises` and `C116_equal`. -/
example : HasRecords [("cost", .columns [("fuel", [some 1]), ("total_cost", [some 1])])] [("fuel", [some 1]), ("total_cost", [some 1])] ∧
    (([("fuel", [some 1]), ("total_cost", [some 1])] : Columns).map Prod.fst).Nodup := by
  constructor
  · simp [HasRecords, dictGet?]
  · decide

end Pymgrid.Rank
