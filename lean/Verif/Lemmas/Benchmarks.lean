import Verif.Lemmas.Legacy
import Verif.Lemmas.Dict
import Verif.Spec.Benchmarks

set_option autoImplicit false

/-!
# Lemmas about benchmarks
-/

namespace Pymgrid.Bench

open Legacy

theorem pyRound_near (x : ℚ) : |(pyRound x : ℚ) - x| ≤ 1/2 := by
  have h1 : ((x.floor : ℤ) : ℚ) ≤ x := Int.floor_le x
  have h2 : x < (x.floor : ℤ) + 1 := Int.lt_floor_add_one x
  unfold pyRound
  simp only
  split
  · rw [abs_le]; constructor <;> linarith
  · split
    · push_cast; rw [abs_le]; constructor <;> linarith
    · split <;> push_cast <;> rw [abs_le] <;> constructor <;> linarith

theorem roundTo_near {k : ℚ} (hk : 0 < k) (x : ℚ) : |roundTo k x - x| ≤ 1 / (2 * k) := by
  unfold roundTo
  have h := pyRound_near (k * x)
  have e : (pyRound (k * x) : ℚ) / k - x = ((pyRound (k * x) : ℚ) - k * x) / k := by field_simp
  rw [e, abs_div, abs_of_pos hk, div_le_div_iff₀ hk (by linarith)]
  nlinarith

theorem sumCells_some (l : List ℚ) : sumCells (l.map some) = some l.sum := by
  induction l with
  | nil => rfl
  | cons x l ih => simp [sumCells, ih]

theorem sumCells_nan {l : List Cell} (h : none ∈ l) : sumCells l = none := by
  induction l with
  | nil => simp at h
  | cons x l ih =>
    rcases List.mem_cons.mp h with h | h
    · subst h; rfl
    · unfold sumCells; rw [ih h]; cases x <;> rfl

theorem cents_round (x : ℚ) : Cents ((some x : Cell).map (roundTo 100)) x :=
  ⟨_, rfl, (roundTo_near (by norm_num) x).trans (by norm_num)⟩

theorem cents_sum (l : List ℚ) : Cents ((sumCells (l.map some)).map (roundTo 100)) l.sum := by
  rw [sumCells_some]; exact cents_round _

variable {outs : List (String × Output)} {costs : String → List ℚ} {T : Nat}

theorem totalCosts_of {o : Output} {c : Columns} {l : List Cell} (h : dictGet? o "cost" = some c) (h' : dictGet? c "total_cost" = some l) :
    totalCosts o = .ok l := by
  unfold totalCosts; rw [h]; simp only; rw [h']

theorem linesOf_ok {asked : List String} {f : String → List Cell → Line} {rec : String → List Cell}
    (h : ∀ a o, (a, o) ∈ outs → totalCosts o = .ok (rec a)) (as : List String) :
    linesOf outs asked f as =
      .ok ((as.filter fun a => decide (a ∈ outs.map Prod.fst) && asked.contains a).map fun a => f a (rec a)) := by
  induction as with
  | nil => rfl
  | cons a as ih =>
    unfold linesOf
    cases hg : dictGet? outs a with
    | none =>
      have := dictGet?_none.mp hg
      simp only [List.filter_cons, this, decide_false, Bool.false_and, Bool.false_eq_true, if_false]
      exact ih
    | some o =>
      have hm := dictGet?_mem hg
      have hm' : a ∈ outs.map Prod.fst := List.mem_map.mpr ⟨_, hm, rfl⟩
      simp only [List.filter_cons, hm', decide_true, Bool.true_and]
      split
      · rw [h a o hm, ih]; rfl
      · exact ih

theorem lengthsOf_ok {n : String × Output → Nat} (h : ∀ x ∈ outs, ∃ l, totalCosts x.2 = .ok l ∧ l.length = n x) :
    lengthsOf outs = .ok (outs.map n) := by
  induction outs with
  | nil => rfl
  | cons x outs ih =>
    obtain ⟨l, h1, h2⟩ := h x (by simp)
    unfold lengthsOf
    rw [h1, ih (fun y hy => h y (by simp [hy]))]
    simp [h2]

theorem Recorded.total (h : Recorded outs costs T) {a : String} {o : Output} (hm : (a, o) ∈ outs) :
    totalCosts o = .ok ((costs a).map some) := by
  obtain ⟨_, c, h1, h2⟩ := h.2 a o hm
  exact totalCosts_of h1 h2

theorem Recorded.lengths (h : Recorded outs costs T) : lengthsOf outs = .ok (outs.map fun _ => T) :=
  lengthsOf_ok fun x hx => ⟨_, h.total hx, by simpa using (h.2 x.1 x.2 hx).1⟩

theorem known_any {asked : Option (List String)} (h : Known asked) : (asked.getD []).any (fun a => !reported.contains a) = false := by
  cases asked with
  | none => rfl
  | some l =>
    simp only [Option.getD_some, List.any_eq_false]
    intro a ha
    have := h l rfl a ha
    simp only [reported]
    simp only [List.contains_eq_mem, Bool.not_eq_true', decide_eq_false_iff_not, not_not]
    exact this

theorem unknown_any {asked : Option (List String)} (h : ¬ Known asked) : (asked.getD []).any (fun a => !reported.contains a) = true := by
  cases asked with
  | none => exact absurd (fun l hl => by simp at hl) h
  | some l =>
    simp only [Option.getD_some, List.any_eq_true]
    by_contra hc
    refine h fun l' hl' a ha => ?_
    injection hl' with hl'
    subst hl'
    by_contra hn
    exact hc ⟨a, ha, by simpa [reported] using hn⟩

/-- With complete records of one length, describing is reporting. -/
theorem describe_eq (h : Recorded outs costs T) {asked : Option (List String)} (hk : Known asked) (split : Bool)
    (ratio : Option ℚ) (index : Option Int) :
    describe outs split ratio index asked = if split then
        match checkSplit T ratio index with
        | .error e => .error e
        | .ok () => report outs (asked.getD reported) T split ratio index
      else report outs (asked.getD reported) T split ratio index := by
  unfold describe
  rw [known_any hk, h.lengths]
  obtain ⟨x, rest, rfl⟩ := List.exists_cons_of_ne_nil h.1
  simp
  rfl

/-- The algorithms in the lines. -/
def names (outs : List (String × Output)) (asked : List String) : List String :=
  reported.filter fun a => decide (a ∈ outs.map Prod.fst) && asked.contains a

theorem selected_names (asked : Option (List String)) : Selected outs asked (names outs (asked.getD reported)) := by
  refine ⟨List.filter_sublist, fun a => ?_⟩
  unfold names
  rw [List.mem_filter]
  show a ∈ reported ∧ _ ↔ a ∈ reported ∧ _
  refine and_congr_right fun hr => ?_
  rw [Bool.and_eq_true, decide_eq_true_eq]
  refine and_congr ?_ ?_
  · simp
  · cases asked with
    | none => simp only [Option.getD_none]; simp [hr]
    | some l => simp

theorem lines_ok (h : Recorded outs costs T) (asked : List String) (f : String → List Cell → Line) :
    linesOf outs asked f reported = .ok ((names outs asked).map fun a => f a ((costs a).map some)) :=
  linesOf_ok (fun _ _ hm => h.total hm) _

theorem names_length (h : Recorded outs costs T) {asked : List String} {a : String} (ha : a ∈ names outs asked) : (costs a).length = T := by
  unfold names at ha
  rw [List.mem_filter, Bool.and_eq_true, decide_eq_true_eq, List.mem_map] at ha
  obtain ⟨-, ⟨x, hx, rfl⟩, -⟩ := ha
  exact (h.2 x.1 x.2 hx).1

/-! ### Records -/

theorem baselineStep_lengths {g : Grid} {b b' : Baseline} {i : Nat} (h : baselineStep g b i = .ok b') :
    b'.costs.length = b.costs.length + 1 ∧ b'.states.length = b.states.length + 1 := by
  unfold baselineStep at h
  split at h
  on_goal 2 => simp at h
  split at h
  on_goal 2 => simp at h
  on_goal 2 => simp at h
  split at h
  · simp at h
  dsimp only at h
  split at h
  · simp at h
  split at h
  · simp at h
  split at h
  · simp at h
  injection h with h; subst h; simp

theorem baselineFrom_lengths {g : Grid} (n : Nat) : ∀ (i : Nat) (b b' : Baseline), baselineFrom g i n b = .ok b' →
    b'.costs.length = b.costs.length + n ∧ b'.states.length = b.states.length + n := by
  induction n with
  | zero => intro i b b' h; unfold baselineFrom at h; injection h with h; subst h; simp
  | succ n ih =>
    intro i b b' h
    unfold baselineFrom at h
    split at h
    · simp at h
    · rename_i b₁ hb
      have h1 := baselineStep_lengths hb
      have h2 := ih _ _ _ h
      omega

theorem legacyStep_lengths {solve : MPC.Solver} {g : Grid} {b b' : Baseline} {i : Nat} (h : MPC.legacyStep solve g b i = .ok b') :
    b'.costs.length = b.costs.length + 1 ∧ b'.states.length = b.states.length + 1 := by
  unfold MPC.legacyStep at h
  split at h
  on_goal 2 => simp at h
  split at h
  on_goal 2 => simp at h
  on_goal 2 => simp at h
  dsimp only at h
  split at h
  · simp at h
  split at h
  · simp at h
  split at h
  · simp at h
  injection h with h; subst h; simp

theorem legacyFrom_lengths {solve : MPC.Solver} {g : Grid} (n : Nat) : ∀ (i : Nat) (b b' : Baseline),
    MPC.legacyFrom solve g i n b = .ok b' →
    b'.costs.length = b.costs.length + n ∧ b'.states.length = b.states.length + n := by
  induction n with
  | zero => intro i b b' h; unfold MPC.legacyFrom at h; injection h with h; subst h; simp
  | succ n ih =>
    intro i b b' h
    unfold MPC.legacyFrom at h
    split at h
    · simp at h
    · rename_i b₁ hb
      have h1 := legacyStep_lengths hb
      have h2 := ih _ _ _ h
      omega

theorem reset_costs (g : Grid) : g.reset.1.costs = [] := by
  unfold Grid.reset
  simp only
  have := ({ g with states := g.states.take 1, production := {}, costs := [], co2 := [], t := 0 } : Grid).updateVariables_frame.2
  split <;> rename_i hu <;> rw [hu] at this <;> exact this.costs

theorem reset_dataLength (g : Grid) : g.reset.1.dataLength = g.dataLength ∧ g.reset.1.horizon = g.horizon := by
  have := g.reset_frame
  unfold Grid.dataLength
  rw [this.loads, this.pvs, this.horizon]
  exact ⟨rfl, rfl⟩

/-- A run of MPC over all the data. -/
theorem runLegacy_lengths {solve : MPC.Solver} {g g' : Grid} {b : Baseline} (h : MPC.runLegacy solve g none = (g', .ok b)) :
    g' = g.reset.1 ∧ b.costs.length = g.dataLength - g.horizon ∧ b.states.length = (g.states.take 1).length + b.costs.length := by
  unfold MPC.runLegacy at h
  have hc := reset_costs g
  have hs := g.reset_states
  have hd := reset_dataLength g
  revert hc hs hd h
  generalize g.reset = x
  obtain ⟨g₁, r⟩ := x
  cases r with
  | error e => intro h; simp at h
  | ok u =>
    intro h hc hs hd
    simp only [Prod.mk.injEq] at h hc hs hd
    obtain ⟨rfl, h⟩ := h
    have := legacyFrom_lengths _ _ _ _ h
    simp only [hc, hs, List.length_nil, hd.1, hd.2] at this
    refine ⟨rfl, by omega, by omega⟩

theorem totalCosts_outputOf (b : Baseline) : totalCosts (outputOf b) = .ok (b.costs.map fun r => some r.total) := by
  unfold totalCosts outputOf
  simp [dictGet?]

end Pymgrid.Bench
