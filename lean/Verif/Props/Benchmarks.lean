import Verif.Lemmas.Benchmarks
import Verif.Props.LegacyMPC

set_option autoImplicit false

/-!
# C94: reports on benchmarks

`describe_benchmarks` for all recorded costs, and what it says after the benchmarks have been run.
-/

namespace Pymgrid.Bench

open Legacy

variable {outs : List (String × Output)} {costs : String → List ℚ} {T : Nat} {asked : Option (List String)}

theorem lines_of (h : Recorded outs costs T) {x : Except Err (List Line)} {f : String → List Cell → Line} {P : Line → Prop}
    (hx : x = linesOf outs (asked.getD reported) f reported) (hf : ∀ a l, (f a l).alg = a)
    (hP : ∀ a, (costs a).length = T → P (f a ((costs a).map some))) :
    ∃ lines, x = .ok lines ∧ Selected outs asked (lines.map Line.alg) ∧ ∀ l ∈ lines, P l := by
  refine ⟨_, hx.trans (lines_ok h _ _), ?_, ?_⟩
  · rw [List.map_map]
    convert selected_names asked using 1
    conv_rhs => rw [← List.map_id (names outs (asked.getD reported))]
    exact List.map_congr_left fun a _ => hf _ _
  · intro l hl
    obtain ⟨a, ha, rfl⟩ := List.mem_map.mp hl
    exact hP a (names_length h ha)

theorem lastLine {n : Nat} {r p : ℚ} {a : String} {s : Int} {c : Cell} (hs : s = n) (hp : |p - 100 * r| ≤ 1/20)
    (hc : Cents c (((costs a).drop ((costs a).length - n)).sum)) : LastLine costs n r (.last a s p c) := by
  subst hs
  exact ⟨p, c, rfl, hp, hc⟩

/-- C94: without a split each algorithm that was run and asked for is listed with the cost of all its steps, to the cent.
    Missing: outputs of different lengths (`C94_lengths_differ`), hence all three algorithms (`C94_run_benchmarks`). -/
theorem C94_all_partial (h : Recorded outs costs T) (hk : Known asked) (ratio : Option ℚ) (index : Option Int) :
    ∃ lines, describe outs false ratio index asked = .ok lines ∧ Selected outs asked (lines.map Line.alg) ∧
      ∀ l ∈ lines, LastLine costs T 1 l := by
  refine lines_of h (f := fun a l => .last a (T - ⌈(T : ℚ) * (1 - 1)⌉) (roundTo 10 (1 * 100))
    ((sumCells (l.drop (sliceAt l.length ⌈(T : ℚ) * (1 - 1)⌉))).map (roundTo 100))) ?_ ?_ ?_
  · rw [describe_eq h hk]
    unfold report
    simp only [Bool.false_eq_true, if_false, true_or, if_true]
  · intro a l; rfl
  · intro a hn
    refine lastLine ?_ ?_ ?_
    · simp
    · have := roundTo_near (k := 10) (by norm_num) (1 * 100)
      refine le_trans (le_of_eq ?_) (this.trans (by norm_num))
      norm_num
    · simp only [hn, Nat.sub_self, List.drop_zero, sliceAt, sub_self, mul_zero, Int.ceil_zero]
      simp only [lt_irrefl, if_false, Int.toNat_zero, List.drop_zero]
      exact cents_sum _

/-- C94: with a ratio `r` each line gives the number `⌊T r⌋` of steps and the cost of exactly that many last steps.
    Missing: as for `C94_all_partial`. -/
theorem C94_ratio_partial (h : Recorded outs costs T) (hk : Known asked) {r : ℚ} (h0 : 0 ≤ r) (h1 : r ≤ 1) :
    ∃ lines, describe outs true (some r) none asked = .ok lines ∧ Selected outs asked (lines.map Line.alg) ∧
      ∀ l ∈ lines, LastLine costs ⌊(T : ℚ) * r⌋₊ r l := by
  have hT : (0 : ℚ) ≤ T := Nat.cast_nonneg T
  have hfl : ((⌊(T : ℚ) * r⌋₊ : ℕ) : ℤ) = ⌊(T : ℚ) * r⌋ := by
    rw [Int.natCast_floor_eq_floor (mul_nonneg hT h0)]
  have hce : ⌈(T : ℚ) * (1 - r)⌉ = (T : ℤ) - ⌊(T : ℚ) * r⌋ := by
    have : (T : ℚ) * (1 - r) = -((T : ℚ) * r) + (T : ℕ) := by ring
    rw [this, Int.ceil_add_natCast, Int.ceil_neg]
    ring
  have hle : ⌊(T : ℚ) * r⌋₊ ≤ T := by
    refine Nat.floor_le_of_le ?_
    nlinarith
  refine lines_of h (f := fun a l => .last a (T - ⌈(T : ℚ) * (1 - r)⌉) (roundTo 10 (r * 100))
    ((sumCells (l.drop (sliceAt l.length ⌈(T : ℚ) * (1 - r)⌉))).map (roundTo 100))) ?_ ?_ ?_
  · rw [describe_eq h hk]
    have : checkSplit T (some r) none = .ok () := by
      unfold checkSplit
      simp [h0, h1]
    rw [if_pos rfl, this]
    unfold report
    simp only [Option.isSome_some, or_true, if_true, Option.getD_some]
  · intro a l; rfl
  · intro a hn
    refine lastLine ?_ ?_ ?_
    · rw [hce, hfl]
      ring
    · have := roundTo_near (k := 10) (by norm_num) (r * 100)
      refine le_trans (le_of_eq ?_) (this.trans (by norm_num))
      congr 1
      ring
    · simp only [hn, List.length_map, hce, ← hfl]
      have : sliceAt T ((T : ℤ) - (⌊(T : ℚ) * r⌋₊ : ℤ)) = T - ⌊(T : ℚ) * r⌋₊ := by
        unfold sliceAt
        split <;> omega
      rw [this, ← List.map_drop]
      exact cents_sum _

/-- C94: with an index the steps are split there, as by a slice; both parts are given, to the cent.
    Missing: as for `C94_all_partial`. -/
theorem C94_index_partial (h : Recorded outs costs T) (hk : Known asked) {i : Int} {k : Nat} (hi : i ≤ T)
    (hik : 0 ≤ i ∧ (k : Int) = i ∨ i < 0 ∧ (k : Int) = T + i ∨ i < -T ∧ k = 0) :
    ∃ lines, describe outs true none (some i) asked = .ok lines ∧ Selected outs asked (lines.map Line.alg) ∧
      ∀ l ∈ lines, SplitLine costs k l := by
  refine lines_of h (f := fun a l => .split a ((sumCells (l.drop (sliceAt l.length i))).map (roundTo 100))
    ((sumCells (l.take (sliceAt l.length i))).map (roundTo 100))) ?_ ?_ ?_
  · rw [describe_eq h hk]
    have : checkSplit T none (some i) = .ok () := by
      unfold checkSplit
      simp [hi]
    rw [if_pos rfl, this]
    unfold report
    simp only [Option.isSome_none, Bool.true_eq_false, Bool.false_eq_true, or_self, if_false]
  · intro a l; rfl
  · intro a hn
    have hs : sliceAt T i = k := by
      unfold sliceAt
      split <;> omega
    refine ⟨_, _, rfl, ?_, ?_⟩
    · simp only [Line.alg, List.length_map, hn, hs, ← List.map_take]
      exact cents_sum _
    · simp only [Line.alg, List.length_map, hn, hs, ← List.map_drop]
      exact cents_sum _

/-- C94: the two parts of a split add up to the cost of all steps, up to a cent. -/
theorem C94_parts {k : Nat} {a : String} {test train : Cell} (h : SplitLine costs k (.split a test train)) :
    ∃ x y, test = some x ∧ train = some y ∧ |x + y - (costs a).sum| ≤ 1/100 := by
  obtain ⟨t, t', he, ⟨y, rfl, hy⟩, x, rfl, hx⟩ := h
  simp only [Line.alg, Line.split.injEq, true_and] at he hx hy
  refine ⟨x, y, he.1, he.2, ?_⟩
  have := List.sum_take_add_sum_drop (costs a) k
  rw [abs_le] at *
  constructor <;> linarith [hx.1, hx.2, hy.1, hy.2]

/-- C94: a split is refused iff there is not exactly one of ratio and index, the ratio is not a share, or the index is beyond
    the record. -/
theorem C94_refused (h : Recorded outs costs T) (hk : Known asked) (ratio : Option ℚ) (index : Option Int) :
    (∃ lines, describe outs true ratio index asked = .ok lines) ↔
      (∃ r, ratio = some r ∧ index = none ∧ 0 ≤ r ∧ r ≤ 1) ∨ (∃ i, index = some i ∧ ratio = none ∧ i ≤ T) := by
  constructor
  · rintro ⟨lines, hd⟩
    rw [describe_eq h hk, if_pos rfl] at hd
    cases ratio with
    | none =>
      cases index with
      | none => simp [checkSplit] at hd
      | some i =>
        refine Or.inr ⟨i, rfl, rfl, ?_⟩
        by_contra hc
        simp [checkSplit, show (T : Int) < i by omega] at hd
    | some r =>
      cases index with
      | some i => simp [checkSplit] at hd
      | none =>
        refine Or.inl ⟨r, rfl, rfl, ?_⟩
        by_contra hc
        have : checkSplit T (some r) none = .error .value := by
          unfold checkSplit
          rw [if_neg (by simp), if_neg (by simp), if_pos ⟨r, rfl, hc⟩]
        rw [this] at hd
        simp at hd
  · rintro (⟨r, rfl, rfl, h0, h1⟩ | ⟨i, rfl, rfl, hi⟩)
    · obtain ⟨l, hl, -⟩ := C94_ratio_partial h hk h0 h1
      exact ⟨l, hl⟩
    · have : ∃ k : Nat, 0 ≤ i ∧ (k : Int) = i ∨ i < 0 ∧ (k : Int) = T + i ∨ i < -T ∧ k = 0 := by
        by_cases h0 : 0 ≤ i
        · exact ⟨i.toNat, Or.inl ⟨h0, by omega⟩⟩
        · by_cases h1 : i < -T
          · exact ⟨0, Or.inr (Or.inr ⟨h1, rfl⟩)⟩
          · exact ⟨((T : Int) + i).toNat, Or.inr (Or.inl ⟨by omega, by omega⟩)⟩
      obtain ⟨k, hk'⟩ := this
      obtain ⟨l, hl, -⟩ := C94_index_partial h hk hi hk'
      exact ⟨l, hl⟩

/-- C94: an unknown name is refused, whatever has been run. -/
theorem C94_unknown (hk : ¬ Known asked) (outs : List (String × Output)) (split : Bool) (ratio : Option ℚ) (index : Option Int) :
    describe outs split ratio index asked = .error .value := by
  unfold describe
  rw [if_pos (unknown_any hk)]

/-- C94, limit: if two records differ in length nothing is reported, also if only one of them is asked for. -/
theorem C94_lengths_differ (h : ∀ x ∈ outs, ∃ l, totalCosts x.2 = .ok l) {x y : String × Output} {l l' : List Cell}
    (hx : x ∈ outs) (hy : y ∈ outs) (hl : totalCosts x.2 = .ok l) (hl' : totalCosts y.2 = .ok l') (hne : l.length ≠ l'.length)
    (split : Bool) (ratio : Option ℚ) (index : Option Int) (asked : Option (List String)) :
    describe outs split ratio index asked = .error .value := by
  by_cases hk : Known asked
  swap
  · exact C94_unknown hk _ _ _ _
  let n : String × Output → Nat := fun x => match totalCosts x.2 with | .ok l => l.length | .error _ => 0
  have hn : ∀ x ∈ outs, ∃ l, totalCosts x.2 = .ok l ∧ l.length = n x := by
    intro x hx
    obtain ⟨l, hl⟩ := h x hx
    exact ⟨l, hl, by simp only [n, hl]⟩
  have hlen := lengthsOf_ok hn
  have nx : n x = l.length := by simp only [n, hl]
  have ny : n y = l'.length := by simp only [n, hl']
  unfold describe
  rw [known_any hk, hlen]
  cases outs with
  | nil => simp at hx
  | cons z rest =>
    simp only [Bool.false_eq_true, if_false, List.map_cons]
    rw [if_pos]
    rw [← Bool.not_eq_true, List.all_eq_true]
    intro hall
    have e : ∀ w ∈ z :: rest, n w = n z := by
      intro w hw
      rcases List.mem_cons.mp hw with rfl | hw
      · rfl
      · simpa using hall (n w) (List.mem_map.mpr ⟨w, hw, rfl⟩)
    exact hne (by rw [← nx, ← ny, e x hx, e y hy])

/-! ### After running -/

variable {b b₁ b₂ : Benchmarks} {solve : MPC.Solver}

theorem runMpc_ok (h : b.runMpc solve none = (b₁, .ok ())) :
    ∃ r, b₁ = ⟨b.grid.reset.1, dictSet b.outputs "mpc" (outputOf r)⟩ ∧ r.costs.length = b.grid.dataLength - b.grid.horizon ∧
      r.states.length = (b.grid.states.take 1).length + r.costs.length := by
  unfold Benchmarks.runMpc at h
  split at h
  · simp at h
  split at h
  · simp at h
  rename_i g r hr
  obtain ⟨rfl, h1, h2⟩ := runLegacy_lengths hr
  simp only [Prod.mk.injEq, and_true] at h
  exact ⟨r, h.symm, h1, h2⟩

theorem runRuleBased_ok (h : b.runRuleBased = (b₁, .ok ())) :
    ∃ r, b₁ = ⟨b.grid, dictSet b.outputs "rbc" (outputOf r)⟩ ∧
      r.costs.length = b.grid.costs.length + (b.grid.dataLength - 1 - b.grid.horizon) := by
  unfold Benchmarks.runRuleBased at h
  split at h
  · simp at h
  rename_i r hr
  unfold Legacy.runRuleBased at hr
  have := (baselineFrom_lengths _ _ _ _ hr).1
  simp only [Prod.mk.injEq, and_true] at h
  exact ⟨r, h.symm, this⟩

/-- C94, limit: once MPC and the rule-based control have both been run over all the data of a microgrid, nothing is reported
    any more, whatever is asked for: MPC makes one step more. -/
theorem C94_mpc_and_rbc (hb : b.outputs = []) (hh : b.grid.horizon < b.grid.dataLength) (h₁ : b.runMpc solve none = (b₁, .ok ()))
    (h₂ : b₁.runRuleBased = (b₂, .ok ())) (split : Bool) (ratio : Option ℚ) (index : Option Int) (asked : Option (List String)) :
    describe b₂.outputs split ratio index asked = .error .value := by
  obtain ⟨r, rfl, n, -⟩ := runMpc_ok h₁
  obtain ⟨r', rfl, n'⟩ := runRuleBased_ok h₂
  have hd := reset_dataLength b.grid
  simp only [reset_costs, hd.1, hd.2, List.length_nil] at n'
  have e : dictSet (dictSet b.outputs "mpc" (outputOf r)) "rbc" (outputOf r') = [("mpc", outputOf r), ("rbc", outputOf r')] := by
    rw [hb]; rfl
  simp only [e]
  refine C94_lengths_differ (x := ("mpc", outputOf r)) (y := ("rbc", outputOf r')) ?_ (by simp) (by simp)
    (totalCosts_outputOf r) (totalCosts_outputOf r') ?_ _ _ _ _
  · intro x hx
    simp only [List.mem_cons, List.not_mem_nil, or_false] at hx
    rcases hx with rfl | rfl <;> exact ⟨_, totalCosts_outputOf _⟩
  · simp only [List.length_map]
    omega

/-- C94, limit: `run_benchmarks(verbose=True)` always raises. -/
theorem C94_run_benchmarks (select : MPC.Selector) (hb : b.outputs = []) (hh : b.grid.horizon < b.grid.dataLength) (fresh : List MPC.Frame)
    (p : ℚ) : (b.runAll solve select fresh p true).2.isOk = false := by
  unfold Benchmarks.runAll
  rcases h₁ : b.runMpc solve none with ⟨b₁, e | u⟩
  · rfl
  simp only
  rcases h₂ : b₁.runRuleBased with ⟨b₂, e | u⟩
  · rfl
  simp only
  rcases h₃ : b₂.runSaa solve select fresh none p with ⟨b₃, e | u⟩
  · rfl
  simp only [if_true]
  unfold Benchmarks.runSaa at h₃
  split at h₃
  · simp at h₃
  rename_i r hr
  simp only [Prod.mk.injEq, and_true] at h₃
  subst h₃
  obtain ⟨r₁, rfl, n, -⟩ := runMpc_ok h₁
  obtain ⟨r₂, rfl, n'⟩ := runRuleBased_ok h₂
  have hd := reset_dataLength b.grid
  simp only [reset_costs, hd.1, hd.2, List.length_nil] at n'
  have e : dictSet (dictSet (dictSet b.outputs "mpc" (outputOf r₁)) "rbc" (outputOf r₂)) "saa" (outputOf r)
      = [("mpc", outputOf r₁), ("rbc", outputOf r₂), ("saa", outputOf r)] := by
    rw [hb]; rfl
  simp only [e]
  rw [C94_lengths_differ (x := ("mpc", outputOf r₁)) (y := ("rbc", outputOf r₂)) _ (by simp) (by simp)
    (totalCosts_outputOf r₁) (totalCosts_outputOf r₂) _]
  · rfl
  · intro x hx
    simp only [List.mem_cons, List.not_mem_nil, or_false] at hx
    rcases hx with rfl | rfl | rfl <;> exact ⟨_, totalCosts_outputOf _⟩
  · simp only [List.length_map]
    omega

/-- C94, limit: `print_benchmark_cost` always raises, because the benchmarks it describes are new. -/
theorem C94_print_benchmark_cost (g : Grid) (limit : Option Int) : printBenchmarkCost g limit = .error .index := by
  cases limit <;> rfl

/-! ### Frames -/

/-- C94: all columns of a frame have the length of the longest one and begin with what was recorded. -/
theorem C94_frame (o : Output) {k c : String} {l : List Cell} (h : ((k, c), l) ∈ (toFrame o).2) :
    l.length = maxLen o ∧ ∃ cols l₀, (k, cols) ∈ o ∧ (c, l₀) ∈ cols ∧ l₀ <+: l := by
  unfold toFrame at h
  simp only [List.mem_flatMap, List.mem_map] at h
  obtain ⟨x, ⟨y, hy, rfl⟩, c', hc', he⟩ := h
  simp only [List.mem_map] at hc'
  obtain ⟨c'', hc'', rfl⟩ := hc'
  simp only [Prod.mk.injEq] at he
  obtain ⟨⟨rfl, rfl⟩, rfl⟩ := he
  refine ⟨?_, y.2, c''.2, hy, hc'', List.prefix_append _ _⟩
  have hle : c''.2.length ≤ maxLen o := by
    have : ∀ (l : List Nat) (n : Nat), n ∈ l → n ≤ l.foldr max 0 := by
      intro l n hn
      induction l with
      | nil => simp at hn
      | cons m l ih =>
        rcases List.mem_cons.mp hn with rfl | hn
        · exact le_max_left _ _
        · exact (ih hn).trans (le_max_right _ _)
    unfold maxLen
    exact this _ _ (List.mem_map.mpr ⟨c'', List.mem_flatMap.mpr ⟨y, hy, hc''⟩, rfl⟩)
  unfold padTo
  simp only [List.length_append, List.length_replicate]
  omega

/-- C94, limit: making a frame of the output of a run destroys the costs in it.  There is one state more than there are costs,
    the column of the costs is extended by `nan`, and from then on the reported cost is `nan`, of more steps than were made. -/
theorem C94_frame_destroys (hs : b.grid.states ≠ []) (h : b.runMpc solve none = (b₁, .ok ())) :
    ∃ o n, dictGet? b₁.outputs "mpc" = some o ∧ b.grid.dataLength - b.grid.horizon < n ∧
      describe [("mpc", (toFrame o).1)] false none none none = .ok [.last "mpc" n 100 none] := by
  obtain ⟨r, rfl, n, n'⟩ := runMpc_ok h
  have h1 : (b.grid.states.take 1).length = 1 := by
    cases hst : b.grid.states with
    | nil => exact absurd hst hs
    | cons x l => simp
  have hm : r.states.length ≤ maxLen (outputOf r) := by
    unfold maxLen outputOf
    simp
  let N := maxLen (outputOf r)
  have htot : totalCosts (toFrame (outputOf r)).1 = .ok (padTo N (r.costs.map fun r => some r.total)) := by
    unfold toFrame totalCosts
    simp only [outputOf, List.map_cons, List.map_nil]
    simp [dictGet?, N, outputOf]
  have hlen : (padTo N (r.costs.map fun r => some r.total)).length = N := by
    unfold padTo
    simp only [List.length_append, List.length_map, List.length_replicate]
    omega
  have hnan : none ∈ padTo N (r.costs.map fun r => some r.total) := by
    unfold padTo
    refine List.mem_append_right _ (List.mem_replicate.mpr ⟨?_, rfl⟩)
    simp only [List.length_map]
    omega
  refine ⟨outputOf r, N, ?_, by omega, ?_⟩
  · rw [dictGet?_dictSet]; simp
  · unfold describe
    have hl : lengthsOf [("mpc", (toFrame (outputOf r)).1)] = .ok [N] := by
      simp only [lengthsOf, htot, hlen]
    rw [hl]
    simp only [Option.getD_none, List.any_nil, Bool.false_eq_true, if_false, List.all_nil, Bool.true_eq_false]
    unfold report
    simp only [Bool.false_eq_true, if_false, true_or, if_true, sub_self, mul_zero, Int.ceil_zero, sub_zero]
    have hr : roundTo 10 100 = 100 := by decide +kernel
    rw [linesOf_ok (rec := fun _ => padTo N (r.costs.map fun r => some r.total))]
    · have hf : (reported.filter fun a => decide (a ∈ [("mpc", (toFrame (outputOf r)).1)].map Prod.fst) && reported.contains a)
          = ["mpc"] := by
        simp [reported]
      rw [hf]
      simp [hr, sliceAt, sumCells_nan hnan]
    · intro a o ho
      simp only [List.mem_singleton, Prod.mk.injEq] at ho
      rw [ho.2]
      exact htot

/-! ### Examples -/

/-- A solver that plans nothing, and a microgrid that gets by with that. -/
def restful : MPC.Solver := fun _ => some ⟨fun _ => 0, fun _ => 0⟩

@[inherit_doc restful]
def calm : Benchmarks := ⟨MPC.island demoParams [10, 40, 30, 20] [10, 40, 10, 0] 1 (1/2), []⟩

example : calm.grid.horizon < calm.grid.dataLength ∧ (calm.runMpc restful none).2.isOk = true ∧
    (calm.runMpc restful none).1.runRuleBased.2.isOk = true ∧
    ((calm.runMpc restful none).1.runRuleBased.1.outputs.map fun x => (x.1, (totalCosts x.2).toOption)) =
      [("mpc", some [some 0, some 0, some 200]), ("rbc", some [some 0, some 0])] := by decide +kernel

/-- Two runs of four steps. -/
def twoRuns : List (String × Output) :=
  [("rbc", [("cost", [("total_cost", [some 1, some (7/2), some (1/3), some 2])])]),
   ("mpc", [("cost", [("total_cost", [some 1, some 3, some (1/4), some 2])])])]

def twoCosts (a : String) : List ℚ := if a = "rbc" then [1, 7/2, 1/3, 2] else [1, 3, 1/4, 2]

theorem twoRuns_recorded : Recorded twoRuns twoCosts 4 := by
  refine ⟨by simp [twoRuns], fun a o h => ?_⟩
  simp only [twoRuns, List.mem_cons, Prod.mk.injEq, List.not_mem_nil, or_false] at h
  rcases h with ⟨rfl, rfl⟩ | ⟨rfl, rfl⟩ <;> exact ⟨by decide +kernel, _, rfl, by decide +kernel⟩

example : (describe twoRuns false none none none).toOption =
    some [.last "mpc" 4 100 (some (25/4)), .last "rbc" 4 100 (some (683/100))] := by decide +kernel

example : (describe twoRuns true (some (1/3)) none none).toOption =
    some [.last "mpc" 1 (333/10) (some 2), .last "rbc" 1 (333/10) (some 2)] := by decide +kernel

example : (describe twoRuns true none (some (-1)) (some ["rbc", "saa"])).toOption =
    some [.split "rbc" (some 2) (some (483/100))] := by decide +kernel

end Pymgrid.Bench
