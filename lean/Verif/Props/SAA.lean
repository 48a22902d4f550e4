import Verif.Lemmas.SAA
import Verif.Props.LegacyMPC
import Mathlib.Data.List.Sort

set_option autoImplicit false

/-!
# C79: sample average approximation

`SampleAverageApproximation.run` for every solver that meets the constraints, every partition function, all samples, every number
of steps and every percentile.
-/

namespace Pymgrid.MPC

open Legacy

variable {solve : Solver} {select : Selector} {g : Grid} {p : ℚ} {b : Baseline} {j : Nat} {frames : List Frame}

/-- C79, one step: there is a plan for every sample, all of them with the actual data of the step; the one of rank
    `⌊n * percentile⌋` is chosen, and its first step is enacted, unless that step needs no PV although there is some, in which
    case `AssertionError` is raised.
    Missing: the latter case. -/
theorem C79_step_partial (hs : solve.Sound) (hsel : select.Sound) (h : Usual g) (h0 : 0 ≤ p) (h1 : p < 1) (hne : frames ≠ [])
    (hf : ∀ s ∈ frames, GoodFrame g s ∧ j + g.horizon < s.length)
    (hw : g.params.socMin ≤ b.soc ∧ b.soc ≤ g.params.socMax) :
    ∃ now s x, Actual g j now ∧ Chosen solve g (frames.map fun t => t.set j now) j b.soc ⌊(frames.length : ℚ) * p⌋.toNat s x ∧
      Admissible (sampleProblem g s j b.soc) (x.flow g.arch.genset) x.u ∧
      ((groupStep solve select g p frames b j = (frames.map fun t => t.set j now, .error .assertion) ∧
        NoPvNeeded g j b.soc (x.flow g.arch.genset 0)) ∨
      ∃ b' e row, groupStep solve select g p frames b j = (frames.map fun t => t.set j now, .ok b') ∧
        Enacted g j s b b' e now row (x.flow g.arch.genset 0) ∧ ¬ NoPvNeeded g j b.soc (x.flow g.arch.genset 0)) :=
  groupStep_enacted hs hsel h h0 h1 hne hf hw

theorem min?_of {l : List Nat} (hne : l ≠ []) : ∃ m, l.min? = some m ∧ m ∈ l ∧ ∀ x ∈ l, m ≤ x := by
  cases h : l.min? with
  | none => exact absurd (List.min?_eq_none_iff.mp h) hne
  | some m =>
    obtain ⟨a, c⟩ := List.min?_eq_some_iff.mp h
    exact ⟨m, rfl, a, c⟩

/-- C79, a whole run: it starts from the records of the microgrid, and unless `AssertionError` is raised every step enacts the plan
    of the chosen rank; the state of charge stays in its window.  The error is raised only if a chosen plan needs no PV in its first
    step although there is some.
    Missing: the runs that raise `AssertionError`, and the percentile 1 (`C79_percentile_one`). -/
theorem C79_run_partial (hs : solve.Sound) (hsel : select.Sound) (h : Usual g) (h0 : 0 ≤ p) (h1 : p < 1) (hne : frames ≠ []) {n : Nat}
    (hf : ∀ s ∈ frames, GoodFrame g s ∧ n + g.horizon ≤ s.length) (hst : g.states ≠ [])
    (hw : ∀ row ∈ g.states, g.params.socMin ≤ row.soc ∧ row.soc ≤ g.params.socMax) :
    ((runGroup solve select g frames (some n) p).2 = .error .assertion ∧ ∃ m frames₁ b₁ now s x, m < n ∧
      GroupRun solve g ⌊(frames.length : ℚ) * p⌋.toNat 0 m frames frames₁ ⟨g.states, g.production, g.costs, g.co2⟩ b₁ ∧
      Chosen solve g (frames₁.map fun t => t.set m now) m b₁.soc ⌊(frames.length : ℚ) * p⌋.toNat s x ∧
      NoPvNeeded g m b₁.soc (x.flow g.arch.genset 0)) ∨
    ∃ frames' b, runGroup solve select g frames (some n) p = (frames', .ok b) ∧
      GroupRun solve g ⌊(frames.length : ℚ) * p⌋.toNat 0 n frames frames' ⟨g.states, g.production, g.costs, g.co2⟩ b ∧
      b.states.length = g.states.length + n ∧ b.costs.length = g.costs.length + n ∧
      ∀ row ∈ b.states, g.params.socMin ≤ row.soc ∧ row.soc ≤ g.params.socMax := by
  obtain ⟨T, hT, hTm, hTl⟩ := min?_of (l := frames.map List.length) (by simpa using hne)
  have hrun : runGroup solve select g frames (some n) p =
      groupFrom solve select g p 0 n frames ⟨g.states, g.production, g.costs, g.co2⟩ := by
    unfold runGroup
    rw [hT]
    simp only
    rw [if_neg]
    obtain ⟨s, hs, rfl⟩ := List.mem_map.mp hTm
    have := (hf s hs).2
    omega
  rw [hrun]
  have hsoc : g.params.socMin ≤ (⟨g.states, g.production, g.costs, g.co2⟩ : Baseline).soc ∧
      (⟨g.states, g.production, g.costs, g.co2⟩ : Baseline).soc ≤ g.params.socMax := by
    unfold Baseline.soc
    rw [List.getLast?_eq_getLast_of_ne_nil hst]
    exact hw _ (List.getLast_mem hst)
  rcases groupFrom_run hs hsel h h0 h1 n 0 frames ⟨g.states, g.production, g.costs, g.co2⟩ hne
    (fun s hs => ⟨(hf s hs).1, by have := (hf s hs).2; omega⟩) hsoc with q | ⟨frames', b', q, r⟩
  · simpa only [Nat.zero_add] using Or.inl q
  · refine .inr ⟨frames', b', q, r, ?_⟩
    have key : ∀ {k j n : Nat} {fr fr' : List Frame} {b b' : Baseline}, GroupRun solve g k j n fr fr' b b' →
        (g.params.socMin ≤ b.soc ∧ b.soc ≤ g.params.socMax) →
        (∀ row ∈ b.states, g.params.socMin ≤ row.soc ∧ row.soc ≤ g.params.socMax) →
        b'.states.length = b.states.length + n ∧ b'.costs.length = b.costs.length + n ∧
        ∀ row ∈ b'.states, g.params.socMin ≤ row.soc ∧ row.soc ≤ g.params.socMax := by
      intro k j n fr fr' b b' hr
      induction hr with
      | none j fr b => intro _ hb; exact ⟨rfl, rfl, hb⟩
      | more c he t ih =>
        intro hwb hb
        obtain ⟨l1, l2, l3⟩ := ih (by rw [he.soc_eq]; exact he.window h hwb) (by
          intro r hr
          rw [he.states] at hr
          rcases List.mem_append.mp hr with hr | hr
          · exact hb r hr
          · rw [List.mem_singleton.mp hr]; exact he.window h hwb)
        obtain ⟨cr, hc, -⟩ := he.cost
        refine ⟨?_, ?_, l3⟩
        · rw [l1, he.states, List.length_append, List.length_singleton]; omega
        · rw [l2, hc, List.length_append, List.length_singleton]; omega
    exact key r hsoc hw

/-- C79: requests for no samples at all or for more steps than the samples allow are refused; with no request, as many steps as
    possible are made. -/
theorem C79_steps (n : Nat) :
    (runGroup solve select g [] (some n) p = ([], .error .value)) ∧
    ((∃ s ∈ frames, s.length < n + g.horizon) → runGroup solve select g frames (some n) p = (frames, .error .value)) ∧
    (∀ s ∈ frames, (∀ t ∈ frames, s.length ≤ t.length) → g.horizon ≤ s.length →
      runGroup solve select g frames none p = runGroup solve select g frames (some (s.length - g.horizon)) p) := by
  refine ⟨rfl, ?_, ?_⟩
  · rintro ⟨s, hs, hl⟩
    obtain ⟨T, hT, -, hTl⟩ := min?_of (l := frames.map List.length) (by simpa using List.ne_nil_of_mem hs)
    unfold runGroup
    rw [hT]
    simp only
    rw [if_pos]
    have := hTl _ (List.mem_map_of_mem hs)
    omega
  · intro s hs hmin hl
    obtain ⟨T, hT, hTm, hTl⟩ := min?_of (l := frames.map List.length) (by simpa using List.ne_nil_of_mem hs)
    obtain ⟨t, ht, rfl⟩ := List.mem_map.mp hTm
    have : t.length = s.length := le_antisymm (hTl _ (List.mem_map_of_mem hs)) (hmin t ht)
    unfold runGroup
    rw [hT]
    simp only
    rw [if_neg (by omega)]
    congr 1
    omega

/-- C79: the chosen plan.  With percentile 0 it is one with least cost; at most `k` plans are cheaper and at most the others are
    dearer. -/
theorem C79_cheapest {costs : List ℚ} {c : ℚ} (h : Rank costs 0 c) : ∀ x ∈ costs, c ≤ x := by
  intro x hx
  by_contra hlt
  have hm : x ∈ costs.filter fun y => decide (y < c) := List.mem_filter.mpr ⟨hx, by simpa using hlt⟩
  have := List.length_pos_of_mem hm
  have := h.1
  omega

@[inherit_doc C79_cheapest]
theorem C79_rank {costs : List ℚ} {k : Nat} {c : ℚ} (h : Rank costs k c) :
    (costs.filter fun x => decide (x < c)).length ≤ k ∧ (costs.filter fun x => decide (c < x)).length < costs.length - k := by
  refine ⟨h.1, ?_⟩
  have h2 := h.2
  have hsum : (costs.filter fun x => decide (x ≤ c)).length + (costs.filter fun x => decide (c < x)).length = costs.length := by
    clear h h2
    induction costs with
    | nil => rfl
    | cons a l ih =>
      simp only [List.filter_cons]
      by_cases ha : a ≤ c
      · have : ¬ c < a := not_lt.mpr ha
        simp only [ha, this, decide_true, decide_false, if_true, Bool.false_eq_true, if_false, List.length_cons]
        omega
      · have : c < a := not_le.mp ha
        simp only [ha, this, decide_true, decide_false, if_true, Bool.false_eq_true, if_false, List.length_cons]
        omega
  omega

/-- C79: what the samples look like after a run: the rows of the steps that were made hold the actual data, all others are as
    before. -/
theorem C79_samples {k n : Nat} {frames' : List Frame} {b' : Baseline} (h : GroupRun solve g k j n frames frames' b b') :
    List.Forall₂ (fun s s' => s'.length = s.length ∧
      (∀ i, j ≤ i → i < j + n → i < s.length → ∃ row, Actual g i row ∧ s'[i]? = some row) ∧
      ∀ i, i < j ∨ j + n ≤ i → s'[i]? = s[i]?) frames frames' := by
  induction h with
  | none j fr b =>
    exact List.forall₂_same.mpr fun s _ => ⟨rfl, fun i h1 h2 => by omega, fun _ _ => rfl⟩
  | @more j n fr fr' b b₁ b₂ s x e now row c he t ih =>
    rw [List.forall₂_map_left_iff] at ih
    refine ih.imp fun s s' ⟨h1, h2, h3⟩ => ?_
    rw [List.length_set] at h1 h2
    refine ⟨h1, fun i hi hi' hl => ?_, fun i hi => ?_⟩
    · rcases Nat.lt_or_ge j i with q | q
      · exact h2 i q (by omega) hl
      · obtain rfl : i = j := by omega
        refine ⟨now, he.actual, ?_⟩
        rw [h3 i (.inl (by omega)), List.getElem?_set_self hl]
    · rw [h3 i (by omega), List.getElem?_set_ne (by omega)]

/-- C79: the states on record.  Each new state shows the load and PV of the step just made. -/
theorem C79_states {k n : Nat} {frames' : List Frame} {b' : Baseline} (h : GroupRun solve g k j n frames frames' b b') {i : Nat}
    (hi : i < n) : ∃ row, b'.states[b.states.length + i]? = some row ∧ row.load = g.loads[j + i]? ∧ row.pv = g.pvs[j + i]? := by
  have pre : ∀ {k j n : Nat} {fr fr' : List Frame} {b b' : Baseline}, GroupRun solve g k j n fr fr' b b' →
      ∃ l, b'.states = b.states ++ l := by
    intro k j n fr fr' b b' h
    induction h with
    | none j fr b => exact ⟨[], by simp⟩
    | more c he t ih =>
      obtain ⟨l, hl⟩ := ih
      exact ⟨[_] ++ l, by rw [hl, he.states, List.append_assoc]⟩
  induction h generalizing i with
  | none j fr b => omega
  | @more j n fr fr' b b₁ b₂ s x e now row c he t ih =>
    cases i with
    | zero =>
      obtain ⟨l, hl⟩ := pre t
      refine ⟨row, ?_, by rw [he.shows.1, Nat.add_zero, he.actual.1], by rw [he.shows.2.1, Nat.add_zero, he.actual.2.1]⟩
      rw [hl, he.states]
      simp
    | succ i =>
      obtain ⟨row', q1, q2, q3⟩ := ih (i := i) (by omega)
      refine ⟨row', ?_, by rw [q2]; congr 1; omega, by rw [q3]; congr 1; omega⟩
      rw [← q1, he.states, List.length_append, List.length_singleton]
      congr 1
      omega

/-- C79: decisions do not depend on actual data of later steps.  If two microgrids differ only in load, PV and grid status from
    step `n` on, the first `n` steps are the same, given the same samples. -/
theorem C79_nonanticipative (loads pvs statuses : List ℚ) {n : Nat}
    (h : ∀ i < n, ∀ row, Actual { g with loads, pvs, statuses } i row ↔ Actual g i row) :
    runGroup solve select { g with loads, pvs, statuses } frames (some n) p = runGroup solve select g frames (some n) p := by
  set g' : Grid := { g with loads, pvs, statuses } with hg'
  have hall : ∀ (soc : ℚ) (j : Nat) (row : DataRow) (fr : List Frame), solveAll solve g' soc j row fr = solveAll solve g soc j row fr := by
    intro soc j row fr
    induction fr with
    | nil => rfl
    | cons s fr ih =>
      simp only [solveAll]
      rw [ih]
      rfl
  have hrow : ∀ i < n, actualRow g' i = actualRow g i := by
    intro i hi
    cases hq : actualRow g i with
    | some row => exact actualRow_iff.mpr ((h i hi row).mpr (actualRow_iff.mp hq))
    | none =>
      cases hq' : actualRow g' i with
      | none => rfl
      | some row =>
        have := actualRow_iff.mpr ((h i hi row).mp (actualRow_iff.mp hq'))
        rw [hq] at this
        simp at this
  have hloop : ∀ (m j : Nat) (fr : List Frame) (b : Baseline), j + m ≤ n →
      groupFrom solve select g' p j m fr b = groupFrom solve select g p j m fr b := by
    intro m
    induction m with
    | zero => intro j fr b _; rfl
    | succ m ih =>
      intro j fr b hm
      have hstep : groupStep solve select g' p fr b j = groupStep solve select g p fr b j := by
        unfold groupStep
        rw [hrow j (by omega)]
        simp only [hall]
        rfl
      unfold groupFrom
      rw [hstep]
      rcases groupStep solve select g p fr b j with ⟨fr', e | b'⟩
      · rfl
      · exact ih (j + 1) fr' b' (by omega)
  unfold runGroup
  cases (frames.map List.length).min? with
  | none => rfl
  | some T =>
    simp only
    split
    · rfl
    · exact hloop n 0 frames _ (by omega)

theorem slice_congr {l l' : List ℚ} {j h : Nat} (hl : ∀ i, j ≤ i → i < j + h → l[i]? = l'[i]?) : slice l j h = slice l' j h := by
  unfold slice
  apply List.ext_getElem?
  intro i
  rw [List.getElem?_take, List.getElem?_take]
  split
  · rw [List.getElem?_drop, List.getElem?_drop]
    exact hl _ (by omega) (by omega)
  · rfl

/-- C79 is violated by runs that reuse samples: the samples then hold the actual data, so that the problem posed for every sample is
    the one with perfect knowledge of the coming steps. -/
theorem C79_foresight {s : Frame} {n : Nat} (h : ∀ i < n, ∃ row, Actual g i row ∧ s[i]? = some row) {j : Nat} {soc : ℚ}
    (hj : j + g.horizon ≤ n) : sampleProblem g s j soc = legacyProblem g j soc := by
  have e1 : slice (s.map (·.load)) j g.horizon = slice g.loads j g.horizon := slice_congr fun i _ hi => by
    obtain ⟨row, hr, hs⟩ := h i (by omega)
    rw [List.getElem?_map, hs, hr.1]
    rfl
  have e2 : slice (s.map (·.pv)) j g.horizon = slice g.pvs j g.horizon := slice_congr fun i _ hi => by
    obtain ⟨row, hr, hs⟩ := h i (by omega)
    rw [List.getElem?_map, hs, hr.2.1]
    rfl
  have e3 : g.arch.grid = true → slice (s.map (·.grid)) j g.horizon = slice g.statuses j g.horizon := fun hg =>
    slice_congr fun i _ hi => by
      obtain ⟨row, hr, hs⟩ := h i (by omega)
      have := hr.2.2
      rw [if_pos hg] at this
      rw [List.getElem?_map, hs, this]
      rfl
  unfold sampleProblem legacyProblem
  simp only
  rw [e1, e2]
  cases hg : g.arch.grid with
  | false => rfl
  | true => rw [e3 hg]

/-- C79: `run` uses the samples of the last run if asked to and there are any, otherwise new ones; afterwards it has the samples it
    used, with the actual data written into them.  The microgrid is not changed. -/
theorem C79_reuse (a : SAA) (fresh : List Frame) (usePrevious : Bool) (steps : Option Nat) :
    let r := a.run solve select fresh usePrevious steps p
    let used := if usePrevious then a.samples.getD fresh else fresh
    r.1.grid = a.grid ∧ r.1.samples = some (runGroup solve select a.grid used steps p).1 ∧
      r.2 = (runGroup solve select a.grid used steps p).2 := by
  unfold SAA.run
  cases ha : a.samples with
  | none => cases usePrevious <;> exact ⟨rfl, rfl, rfl⟩
  | some old => cases usePrevious <;> exact ⟨rfl, rfl, rfl⟩

/-- C79 is violated for a second run with the same samples: the first run leaves the actual data of the steps it made in them, and
    all problems of the second run that stay within these steps are those of perfect foresight. -/
theorem C79_second_run {a : SAA} {fresh : List Frame} {k n : Nat} {frames' : List Frame} {b b' : Baseline}
    (h : GroupRun solve a.grid k 0 n fresh frames' b b') (hl : ∀ s ∈ fresh, n ≤ s.length) (ha : a.samples = none)
    (hr : runGroup solve select a.grid fresh (some n) p = (frames', .ok b')) :
    (a.run solve select fresh true (some n) p).1.samples = some frames' ∧
    ∀ s ∈ frames', ∀ j soc, j + a.grid.horizon ≤ n → sampleProblem a.grid s j soc = legacyProblem a.grid j soc := by
  refine ⟨?_, fun s hs j soc hj => ?_⟩
  · have := (C79_reuse (solve := solve) (select := select) (p := p) a fresh true (some n)).2.1
    rw [this, ha]
    simp only [if_true, Option.getD_none, hr]
  · obtain ⟨m, hm⟩ := List.getElem?_of_mem hs
    obtain ⟨s₀, h1, h2, h3, -⟩ := forall₂_get (C79_samples h) hm
    refine C79_foresight (n := n) (fun i hi => ?_) hj
    exact h3 i (Nat.zero_le _) (by omega) (by have := hl s₀ (List.mem_of_getElem? h1); omega)

/-- C79 is violated for the percentile 1: although it is accepted, there is no plan of that rank. -/
theorem C79_percentile_one (hs : solve.Sound) (h : Usual g) (hne : frames ≠ []) {n : Nat} (hn : 0 < n)
    (hf : ∀ s ∈ frames, GoodFrame g s ∧ n + g.horizon ≤ s.length) (hst : g.states ≠ [])
    (hw : ∀ row ∈ g.states, g.params.socMin ≤ row.soc ∧ row.soc ≤ g.params.socMax) :
    (runGroup solve select g frames (some n) 1).2 = .error .value := by
  obtain ⟨T, hT, hTm, hTl⟩ := min?_of (l := frames.map List.length) (by simpa using hne)
  obtain ⟨s₀, hs₀⟩ := List.exists_mem_of_ne_nil frames hne
  have hh := h.horizon
  have hsoc : g.params.socMin ≤ (⟨g.states, g.production, g.costs, g.co2⟩ : Baseline).soc ∧
      (⟨g.states, g.production, g.costs, g.co2⟩ : Baseline).soc ≤ g.params.socMax := by
    unfold Baseline.soc
    rw [List.getLast?_eq_getLast_of_ne_nil hst]
    exact hw _ (List.getLast_mem hst)
  obtain ⟨now, hnow⟩ := exists_actual h.series (j := 0) (by have := (hf s₀ hs₀).1.length; have := (hf s₀ hs₀).2; omega)
  obtain ⟨os, ho, h2⟩ := solveAll_ok hs h hnow hsoc frames fun s hs => ⟨(hf s hs).1, by have := (hf s hs).2; omega⟩
  obtain ⟨m, rfl⟩ : ∃ m, n = m + 1 := ⟨n - 1, by omega⟩
  unfold runGroup
  rw [hT]
  simp only
  rw [if_neg (by obtain ⟨s, hs, rfl⟩ := List.mem_map.mp hTm; have := (hf s hs).2; omega)]
  unfold groupFrom groupStep
  rw [actualRow_iff.mpr hnow]
  have hq : (g.states.getLast?.map (·.soc)).getD 0 = (⟨g.states, g.production, g.costs, g.co2⟩ : Baseline).soc := rfl
  simp only [hq, ho]
  have : determine select os 1 = .error .value := by
    unfold determine
    rw [if_neg (by norm_num)]
    simp
  rw [this]

/-- C79: percentiles below 0 and above 1 are refused with a `ValueError`. -/
theorem C79_percentile_refused (hs : solve.Sound) (h : Usual g) (hne : frames ≠ []) {n : Nat} (hn : 0 < n)
    (hp : p < 0 ∨ 1 < p)
    (hf : ∀ s ∈ frames, GoodFrame g s ∧ n + g.horizon ≤ s.length) (hst : g.states ≠ [])
    (hw : ∀ row ∈ g.states, g.params.socMin ≤ row.soc ∧ row.soc ≤ g.params.socMax) :
    (runGroup solve select g frames (some n) p).2 = .error .value := by
  obtain ⟨T, hT, hTm, hTl⟩ := min?_of (l := frames.map List.length) (by simpa using hne)
  obtain ⟨s₀, hs₀⟩ := List.exists_mem_of_ne_nil frames hne
  have hh := h.horizon
  have hsoc : g.params.socMin ≤ (⟨g.states, g.production, g.costs, g.co2⟩ : Baseline).soc ∧
      (⟨g.states, g.production, g.costs, g.co2⟩ : Baseline).soc ≤ g.params.socMax := by
    unfold Baseline.soc
    rw [List.getLast?_eq_getLast_of_ne_nil hst]
    exact hw _ (List.getLast_mem hst)
  obtain ⟨now, hnow⟩ := exists_actual h.series (j := 0) (by have := (hf s₀ hs₀).1.length; have := (hf s₀ hs₀).2; omega)
  obtain ⟨os, ho, h2⟩ := solveAll_ok hs h hnow hsoc frames fun s hs => ⟨(hf s hs).1, by have := (hf s hs).2; omega⟩
  obtain ⟨m, rfl⟩ : ∃ m, n = m + 1 := ⟨n - 1, by omega⟩
  unfold runGroup
  rw [hT]
  simp only
  rw [if_neg (by obtain ⟨s, hs, rfl⟩ := List.mem_map.mp hTm; have := (hf s hs).2; omega)]
  unfold groupFrom groupStep
  rw [actualRow_iff.mpr hnow]
  have hq : (g.states.getLast?.map (·.soc)).getD 0 = (⟨g.states, g.production, g.costs, g.co2⟩ : Baseline).soc := rfl
  simp only [hq, ho]
  have : determine select os p = .error .value := by
    unfold determine
    rw [if_pos hp]
  rw [this]

/-- C79, the costs that plans are compared by: those that are charged, without the wear of the battery and without emissions. -/
theorem C79_cost_partial (hg : g.arch.grid = true) (s : Frame) (soc : ℚ) (x : Point) :
    totalBilled (sampleProblem g s j soc) (x.flow g.arch.genset) = horizonCost g x j +
      ∑ k ∈ Finset.range g.horizon, (g.params.costCycle * ((x.flow g.arch.genset k).charge + (x.flow g.arch.genset k).discharge) +
        g.params.costCo2 * ((if g.arch.genset then g.params.gensetCo2 else 0) * (x.flow g.arch.genset k).genset +
          g.co2s.getD (j + k) 0 * (x.flow g.arch.genset k).imp)) := by
  rw [horizonCost_eq]
  unfold totalBilled planCost
  rw [← Finset.sum_add_distrib]
  refine Finset.sum_congr rfl fun k hk => ?_
  have hk : k < g.horizon := Finset.mem_range.mp hk
  unfold billed sampleProblem parseLegacy
  simp only [hg, if_true]
  rw [slice_getD _ _ hk, slice_getD _ _ hk, slice_getD _ _ hk]
  cases g.arch.genset <;> simp <;> ring

/-- Importing costs 1/2 in the first step. -/
def dearGrid : Grid := { demo true with importPrices := [1/2, 1/2, 1/2, 1/2] }

/-- C79 is violated: two plans for the same problem, of which the one with the lower cost is charged more. -/
theorem C79_misranked : ∃ x y, let P := sampleProblem dearGrid [⟨60, 30, 1⟩] 0 (1/2)
    Feasible P x ∧ Feasible P y ∧ horizonCost dearGrid x 0 < horizonCost dearGrid y 0 ∧
    totalBilled P (y.flow true) < totalBilled P (x.flow true) := by
  have hP : sampleProblem dearGrid [⟨60, 30, 1⟩] 0 (1/2) =
      { genset := true, horizon := 1
        static := { eta := 9/10, capacity := 100, fuel := 2/5, cycle := 1/50, lossLoad := 10, gensetMin := 5, gensetMax := 90
                    costCo2 := 1/10, gensetCo2 := 2 }
        inputs := { load := [60], pv := [30], grid := [1], importPrice := [1/2], exportPrice := [0], eMax := 1
                    eMin := 1/5, pCharge := 25, pDischarge := 25, pImport := 200, pExport := 200, soc := 1/2, costCo2 := 1/10
                    gridCo2 := [1/4] } } := by decide +kernel
  have a1 : Admissible (sampleProblem dearGrid [⟨60, 30, 1⟩] 0 (1/2)) (fun _ => { genset := 30, soc := 1/2 }) fun _ => 1 := by
    rw [hP]
    intro k hk
    obtain rfl : k = 0 := by simp only at hk; omega
    constructor <;> norm_num [socBefore]
  have a2 : Admissible (sampleProblem dearGrid [⟨60, 30, 1⟩] 0 (1/2)) (fun _ => { imp := 30, soc := 1/2 }) fun _ => 0 := by
    rw [hP]
    intro k hk
    obtain rfl : k = 0 := by simp only at hk; omega
    constructor <;> norm_num [socBefore]
  obtain ⟨f1, q1⟩ := admissible_feasible a1
  obtain ⟨f2, q2⟩ := admissible_feasible a2
  have q1 := q1 0 (by rw [hP]; decide)
  have q2 := q2 0 (by rw [hP]; decide)
  have hgen : (sampleProblem dearGrid [⟨60, 30, 1⟩] 0 (1/2)).genset = true := rfl
  rw [hgen] at q1 q2
  refine ⟨_, _, f1, f2, ?_, ?_⟩
  · rw [horizonCost_eq, horizonCost_eq]
    have hg : dearGrid.arch.genset = true := by decide +kernel
    have hgr : dearGrid.arch.grid = true := by decide +kernel
    have hh : dearGrid.horizon = 1 := by decide +kernel
    have c1 : dearGrid.params.fuelCost = 2/5 := by decide +kernel
    have c2 : dearGrid.importPrices.getD 0 0 = 1/2 := by decide +kernel
    unfold planCost
    rw [hh, hg, hgr, Finset.sum_range_one, Finset.sum_range_one, hgen, q1, q2]
    simp only [if_true, Nat.add_zero, c1, c2]
    norm_num
  · unfold totalBilled
    have hh : (sampleProblem dearGrid [⟨60, 30, 1⟩] 0 (1/2)).horizon = 1 := by rw [hP]
    rw [hh, Finset.sum_range_one, Finset.sum_range_one, hgen, q1, q2, hP]
    norm_num [billed]

/-- There is a sound partition function. -/
theorem exists_selector : ∃ select : Selector, select.Sound := by
  refine ⟨fun l k => l.idxOf ((l.mergeSort fun a b => decide (a ≤ b)).getD k 0), fun l k hk => ?_⟩
  set m := l.mergeSort fun a b => decide (a ≤ b) with hm
  have hp : m.Perm l := List.mergeSort_perm _ _
  have hsrt : m.Pairwise (· ≤ ·) := by
    have := List.pairwise_mergeSort (le := fun a b : ℚ => decide (a ≤ b)) (by intro a b c; simp only [decide_eq_true_eq]; exact le_trans)
      (by intro a b; simpa using le_total a b) l
    simpa using this
  have hkm : k < m.length := by rw [hp.length_eq]; exact hk
  have hget : m.getD k 0 = m[k] := by rw [List.getD_eq_getElem?_getD, List.getElem?_eq_getElem hkm, Option.getD_some]
  have hmem : m[k] ∈ l := hp.mem_iff.mp (List.getElem_mem hkm)
  refine ⟨m[k], ?_, ?_, ?_⟩
  · show l[l.idxOf (m.getD k 0)]? = _
    rw [hget, List.getElem?_eq_getElem (List.idxOf_lt_length_iff.mpr hmem), List.getElem_idxOf]
  · rw [← (hp.filter _).length_eq]
    have hsplit : (m.filter fun x => decide (x < m[k])) =
        ((m.take k).filter fun x => decide (x < m[k])) ++ (m.drop k).filter fun x => decide (x < m[k]) := by
      rw [← List.filter_append, List.take_append_drop]
    have : (m.drop k).filter (fun x => decide (x < m[k])) = [] := by
      rw [List.filter_eq_nil_iff]
      intro x hx
      obtain ⟨i, hi, rfl⟩ := List.mem_iff_getElem.mp hx
      rw [List.getElem_drop]
      simp only [decide_eq_true_eq, not_lt]
      rcases Nat.eq_zero_or_pos i with rfl | hpos
      · simp
      · exact List.pairwise_iff_getElem.mp hsrt k (k + i) hkm (by rw [List.length_drop] at hi; omega) (by omega)
    rw [hsplit, this, List.append_nil]
    exact (List.length_filter_le _ _).trans (List.length_take_le _ _)
  · rw [← (hp.filter _).length_eq]
    have h1 : ((m.take (k + 1)).filter fun x => decide (x ≤ m[k])).length = k + 1 := by
      rw [List.filter_eq_self.mpr, List.length_take, Nat.min_eq_left (by omega)]
      intro x hx
      obtain ⟨i, hi, rfl⟩ := List.mem_iff_getElem.mp hx
      rw [List.getElem_take]
      simp only [decide_eq_true_eq]
      rw [List.length_take] at hi
      rcases Nat.lt_or_ge i k with q | q
      · exact List.pairwise_iff_getElem.mp hsrt i k (by omega) hkm q
      · obtain rfl : i = k := by omega
        exact le_rfl
    have h2 := ((List.take_sublist (k + 1) m).filter fun x => decide (x ≤ m[k])).length_le
    omega

/-- A microgrid with two steps to plan ahead, and two samples for it that differ from its data and from each other. -/
def saaGrid (pvs : List ℚ) : Grid := { demo true with horizon := 2, pvs }

@[inherit_doc saaGrid]
def saaFrames : List Frame := [[⟨50, 20, 1⟩, ⟨50, 40, 1⟩, ⟨10, 10, 0⟩, ⟨20, 0, 1⟩], [⟨60, 30, 1⟩, ⟨30, 60, 0⟩, ⟨5, 0, 1⟩, ⟨30, 10, 1⟩]]

theorem saaGrid_usual : Usual (saaGrid [30, 50, 10, 0]) ∧ Usual (saaGrid [0, 0, 0, 0]) := by
  have hp : (demo true).params = demoParams := by decide +kernel
  constructor <;>
  exact ⟨by show (demo true).params.Good; rw [hp]; exact demoParams_good, by decide +kernel, fun _ => by decide +kernel, by decide +kernel, by decide +kernel,
    by decide +kernel, by decide +kernel, by decide +kernel⟩

theorem saaFrames_good (pvs : List ℚ) (h : pvs.length = 4) :
    ∀ s ∈ saaFrames, GoodFrame (saaGrid pvs) s ∧ 2 + (saaGrid pvs).horizon ≤ s.length := by
  have hl : (saaGrid pvs).dataLength = 4 := by
    have : (demo true).loads.length = 4 := by decide +kernel
    simp [Legacy.Grid.dataLength, this, saaGrid, h]
  intro s hs
  have hh : (saaGrid pvs).horizon = 2 := rfl
  simp only [saaFrames, List.mem_cons, List.not_mem_nil, or_false] at hs
  rcases hs with rfl | rfl <;> exact ⟨⟨by rw [hl]; decide, by decide +kernel, by decide +kernel, by decide +kernel⟩, by rw [hh]; decide⟩

/-- Non-vacuity of `C79_run_partial`, `C79_samples` and `C79_states`: without PV the run of two steps succeeds. -/
example : ∃ solve select, Solver.Sound solve ∧ Selector.Sound select ∧ ∃ frames' b,
    runGroup solve select (saaGrid [0, 0, 0, 0]) saaFrames (some 2) (1/2) = (frames', .ok b) ∧
    GroupRun solve (saaGrid [0, 0, 0, 0]) 1 0 2 saaFrames frames' ⟨(demo true).states, {}, [], []⟩ b := by
  obtain ⟨solve, hs⟩ := exists_sound
  obtain ⟨select, hsel⟩ := exists_selector
  refine ⟨solve, select, hs, hsel, ?_⟩
  rcases C79_run_partial hs hsel saaGrid_usual.2 (p := 1/2) (by norm_num) (by norm_num) (frames := saaFrames) (by decide)
    (saaFrames_good _ rfl) (by decide +kernel) (by decide +kernel) with ⟨-, m, -, -, -, -, -, hm, -, -, load, pv, -, h, hpv, -⟩ | ⟨frames', b, h1, h2, -⟩
  · rcases m with _ | _ | m
    · simp [saaGrid] at h; rw [← h] at hpv; norm_num at hpv
    · simp [saaGrid] at h; rw [← h] at hpv; norm_num at hpv
    · omega
  · have hfl : ⌊(saaFrames.length : ℚ) * (1/2)⌋.toNat = 1 := by decide +kernel
    rw [hfl] at h2
    refine ⟨frames', b, h1, ?_⟩
    have e : (⟨(saaGrid [0, 0, 0, 0]).states, (saaGrid [0, 0, 0, 0]).production, (saaGrid [0, 0, 0, 0]).costs,
        (saaGrid [0, 0, 0, 0]).co2⟩ : Baseline) = ⟨(demo true).states, {}, [], []⟩ := by decide +kernel
    rw [← e]
    exact h2

/-- Non-vacuity of `C79_step_partial` and `C79_percentile_one`: a microgrid with PV. -/
example : (∃ solve, Solver.Sound solve ∧ ∀ select, (runGroup solve select (saaGrid [30, 50, 10, 0]) saaFrames (some 2) 1).2 = .error .value) ∧
    (saaGrid [30, 50, 10, 0]).states.length = 1 := by
  refine ⟨?_, by decide +kernel⟩
  obtain ⟨solve, hs⟩ := exists_sound
  exact ⟨solve, hs, fun select => C79_percentile_one hs saaGrid_usual.1 (by decide) (by decide) (saaFrames_good _ rfl) (by decide +kernel) (by decide +kernel)⟩

/-- Non-vacuity of `C79_nonanticipative`: the load and the PV of the last two steps are others. -/
example : ∀ i < 2, ∀ row, Actual { saaGrid [30, 50, 10, 0] with loads := [60, 40, 7, 70], pvs := [30, 50, 0, 33], statuses := [1, 0, 0, 0] } i row ↔
    Actual (saaGrid [30, 50, 10, 0]) i row := by
  have hl : (demo true).loads = [60, 40, 0, 20] := by decide +kernel
  have hst : (demo true).statuses = [1, 0, 1, 1] := by decide +kernel
  intro i hi row
  unfold Actual saaGrid
  simp only [hl, hst]
  rcases i with _ | _ | i
  · simp
  · simp
  · omega

/-- Non-vacuity of `C79_rank`: of four costs 3 is the one of rank 2. -/
example : Rank [3, 1, 4, 1] 2 3 ∧ ¬ Rank [3, 1, 4, 1] 2 1 := by
  unfold Rank
  decide +kernel

end Pymgrid.MPC
