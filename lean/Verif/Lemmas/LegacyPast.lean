import Verif.Spec.LegacyPast
import Verif.Lemmas.LegacySplit

set_option autoImplicit false

namespace Pymgrid.Legacy

namespace SameStart

variable {N : Nat} {l l' : List ℚ}

theorem at_ (h : SameStart N l l') {i : Nat} (hi : i < N) : l'[i]? = l[i]? := by
  have := congrArg (·[i]?) h.same
  simpa [List.getElem?_take, hi] using this

theorem get (h : SameStart N l l') {i : Nat} (hi : i < N) : ∃ x, l[i]? = some x ∧ l'[i]? = some x := by
  have : i < l.length := lt_trans hi h.more
  exact ⟨l[i], List.getElem?_eq_getElem this, by rw [h.at_ hi, List.getElem?_eq_getElem this]⟩

theorem has (h : SameStart N l l') {i : Nat} (hi : i ≤ N) : ∃ x x', l[i]? = some x ∧ l'[i]? = some x' :=
  ⟨_, _, List.getElem?_eq_getElem (lt_of_le_of_lt hi h.more), List.getElem?_eq_getElem (lt_of_le_of_lt hi h.more')⟩

theorem slice (h : SameStart N l l') {i k : Nat} (hi : i + k ≤ N) : MPC.slice l' i k = MPC.slice l i k := by
  have := congrArg (fun x => (x.drop i).take k) h.same
  simp only [List.drop_take, List.take_take] at this
  rwa [Nat.min_eq_left (by omega)] at this

end SameStart

/-- Microgrids that differ in the rows from `N` on only. -/
structure Alike (N : Nat) (g g' : Grid) : Prop where
  arch : g'.arch = g.arch
  params : g'.params = g.params
  horizon : g'.horizon = g.horizon
  t : g'.t = g.t
  loads : SameStart N g.loads g'.loads
  pvs : SameStart N g.pvs g'.pvs
  statuses : g.arch.grid = true → SameStart N g.statuses g'.statuses
  importPrices : g.arch.grid = true → SameStart N g.importPrices g'.importPrices
  exportPrices : g.arch.grid = true → SameStart N g.exportPrices g'.exportPrices
  co2s : g.arch.grid = true → SameStart N g.co2s g'.co2s

namespace Alike

variable {N : Nat} {g g' : Grid}

theorem gridAt (h : Alike N g g') (hg : g.arch.grid = true) {i : Nat} (hi : i < N) : ∃ r, g.gridAt i = .ok r ∧ g'.gridAt i = .ok r := by
  obtain ⟨a, ha, ha'⟩ := (h.statuses hg).get hi
  obtain ⟨b, hb, hb'⟩ := (h.importPrices hg).get hi
  obtain ⟨c, hc, hc'⟩ := (h.exportPrices hg).get hi
  obtain ⟨d, hd, hd'⟩ := (h.co2s hg).get hi
  exact ⟨⟨a, b, c, d⟩, by unfold Grid.gridAt; rw [ha, hb, hc, hd], by unfold Grid.gridAt; rw [ha', hb', hc', hd']⟩

theorem gridHas (h : Alike N g g') (hg : g.arch.grid = true) {i : Nat} (hi : i ≤ N) : ∃ r r', g.gridAt i = .ok r ∧ g'.gridAt i = .ok r' := by
  obtain ⟨a, a', ha, ha'⟩ := (h.statuses hg).has hi
  obtain ⟨b, b', hb, hb'⟩ := (h.importPrices hg).has hi
  obtain ⟨c, c', hc, hc'⟩ := (h.exportPrices hg).has hi
  obtain ⟨d, d', hd, hd'⟩ := (h.co2s hg).has hi
  exact ⟨⟨a, b, c, d⟩, ⟨a', b', c', d'⟩, by unfold Grid.gridAt; rw [ha, hb, hc, hd], by unfold Grid.gridAt; rw [ha', hb', hc', hd']⟩

theorem dataLength (h : Alike N g g') : N < g.dataLength ∧ N < g'.dataLength :=
  ⟨lt_min h.loads.more h.pvs.more, lt_min h.loads.more' h.pvs.more'⟩

end Alike

/-- The state of charge of the next row does not depend on what is known about the next step. -/
theorem nextRow_soc (a : Arch) (p : Params) (soc c d : ℚ) (load pv load' pv' : Option ℚ) (t t' : Nat) (r r' : Option GridRow) :
    (nextRow a p soc c d load' pv' t' r').soc = (nextRow a p soc c d load pv t r).soc := rfl

theorem lastSoc_eq {l l' : List StateRow} (h : l'.map (·.soc) = l.map (·.soc)) :
    (l'.getLast?.map (·.soc)).getD 0 = (l.getLast?.map (·.soc)).getD 0 := by
  rw [← List.getLast?_map, ← List.getLast?_map, h]

theorem deeds_parts {b b' : Baseline} (h : b'.deeds = b.deeds) : b'.production = b.production ∧ b'.costs = b.costs ∧
    b'.co2 = b.co2 ∧ b'.states.map (·.soc) = b.states.map (·.soc) := by
  simpa only [Baseline.deeds, Deeds.mk.injEq] using h

/-- The rest of a turn, from the production on, is the same for both. -/
theorem rule_step {N : Nat} {g g' : Grid} (h : Alike N g g') {b b' : Baseline} (hb : b'.deeds = b.deeds) {i : Nat} (hi : i < N) :
    (baselineStep g' b' i).map Baseline.deeds = (baselineStep g b i).map Baseline.deeds := by
  obtain ⟨load, l1, l1'⟩ := h.loads.get hi
  obtain ⟨pv, p1, p1'⟩ := h.pvs.get hi
  obtain ⟨nl, nl', l2, l2'⟩ := h.loads.has (i := i + 1) hi
  obtain ⟨np, np', p2, p2'⟩ := h.pvs.has (i := i + 1) hi
  obtain ⟨hp, hc, he, hs⟩ := deeds_parts hb
  have hsoc := lastSoc_eq hs
  unfold baselineStep
  rw [l1, l1', p1, p1', l2, l2', p2, p2', h.arch, h.params, hsoc, hp, h.t, hc, he]
  cases hg : g.arch.grid
  · simp only [Bool.false_eq_true, if_false, false_and]
    split
    · rfl
    · split
      · rfl
      · split
        · rfl
        · simp [Except.map, Baseline.deeds, hs, nextRow]
  · obtain ⟨now, n1, n1'⟩ := h.gridAt hg hi
    obtain ⟨next, next', n2, n2'⟩ := h.gridHas hg (i := i + 1) hi
    simp only [n1, n1', n2, n2', if_true, true_and]
    split
    · rfl
    · split
      · rfl
      · split
        · rfl
        · split
          · rfl
          · simp [Except.map, Baseline.deeds, hs, nextRow]

theorem rule_from {N : Nat} {g g' : Grid} (h : Alike N g g') : ∀ (n i : Nat) {b b' : Baseline}, b'.deeds = b.deeds → i + n ≤ N →
    (baselineFrom g' i n b').map Baseline.deeds = (baselineFrom g i n b).map Baseline.deeds
  | 0, _, b, b', hb, _ => by simp [baselineFrom, Except.map, hb]
  | n + 1, i, b, b', hb, hi => by
    have e := rule_step h hb (i := i) (by omega)
    unfold baselineFrom
    cases h1 : baselineStep g b i with
    | error x =>
      cases h2 : baselineStep g' b' i with
      | error y => rw [h1, h2] at e; simpa [Except.map] using e
      | ok y => rw [h1, h2] at e; simp [Except.map] at e
    | ok x =>
      cases h2 : baselineStep g' b' i with
      | error y => rw [h1, h2] at e; simp [Except.map] at e
      | ok y =>
        rw [h1, h2] at e
        simp only [Except.map, Except.ok.injEq] at e
        exact rule_from h n (i + 1) e (by omega)

open MPC in
theorem mpc_problem {N : Nat} {g g' : Grid} (h : Alike N g g') {i : Nat} (hi : i + g.horizon ≤ N) (soc : ℚ) :
    legacyProblem g' i soc = legacyProblem g i soc := by
  unfold legacyProblem
  rw [h.horizon, h.arch, h.params, h.loads.slice hi, h.pvs.slice hi]
  cases hg : g.arch.grid
  · rfl
  · rw [(h.statuses hg).slice hi, (h.importPrices hg).slice hi, (h.exportPrices hg).slice hi, (h.co2s hg).slice hi]

open MPC in
theorem mpc_step (solve : Solver) {N : Nat} {g g' : Grid} (h : Alike N g g') {b b' : Baseline} (hb : b'.deeds = b.deeds) {i : Nat}
    (hi : i < N) (hh : i + g.horizon ≤ N) :
    (legacyStep solve g' b' i).map Baseline.deeds = (legacyStep solve g b i).map Baseline.deeds := by
  obtain ⟨load, l1, l1'⟩ := h.loads.get hi
  obtain ⟨pv, p1, p1'⟩ := h.pvs.get hi
  obtain ⟨nl, nl', l2, l2'⟩ := h.loads.has (i := i + 1) hi
  obtain ⟨np, np', p2, p2'⟩ := h.pvs.has (i := i + 1) hi
  obtain ⟨hp, hc, he, hs⟩ := deeds_parts hb
  have hsoc := lastSoc_eq hs
  unfold legacyStep
  simp only [mpc_problem h hh]
  rw [l1, l1', p1, p1', l2, l2', p2, p2', h.arch, h.params, hsoc, hp, h.t, hc, he]
  cases hg : g.arch.grid
  · simp only [Bool.false_eq_true, if_false]
    split
    · rfl
    · split
      · rfl
      · split
        · rfl
        · simp [Except.map, Baseline.deeds, hs, nextRow]
  · obtain ⟨now, n1, n1'⟩ := h.gridAt hg hi
    obtain ⟨next, next', n2, n2'⟩ := h.gridHas hg (i := i + 1) hi
    simp only [n1, n1', n2, n2', if_true]
    split
    · rfl
    · split
      · rfl
      · split
        · rfl
        · simp [Except.map, Baseline.deeds, hs, nextRow]

open MPC in
theorem mpc_from (solve : Solver) {N : Nat} {g g' : Grid} (h : Alike N g g') : ∀ (n i : Nat) {b b' : Baseline}, b'.deeds = b.deeds →
    i + n ≤ N → i + n + g.horizon ≤ N + 1 →
    (legacyFrom solve g' i n b').map Baseline.deeds = (legacyFrom solve g i n b).map Baseline.deeds
  | 0, _, b, b', hb, _, _ => by simp [legacyFrom, Except.map, hb]
  | n + 1, i, b, b', hb, hi, hh => by
    have e := mpc_step solve h hb (i := i) (by omega) (by omega)
    unfold legacyFrom
    cases h1 : legacyStep solve g b i with
    | error x =>
      cases h2 : legacyStep solve g' b' i with
      | error y => rw [h1, h2] at e; simpa [Except.map] using e
      | ok y => rw [h1, h2] at e; simp [Except.map] at e
    | ok x =>
      cases h2 : legacyStep solve g' b' i with
      | error y => rw [h1, h2] at e; simp [Except.map] at e
      | ok y =>
        rw [h1, h2] at e
        simp only [Except.map, Except.ok.injEq] at e
        exact mpc_from solve h n (i + 1) e (by omega) (by omega)

open MPC in
theorem sample_problem {N : Nat} {g g' : Grid} (h : Alike N g g') {j : Nat} (hj : j + g.horizon ≤ N) (s : Frame) (soc : ℚ) :
    sampleProblem g' s j soc = sampleProblem g s j soc := by
  unfold sampleProblem
  rw [h.horizon, h.arch, h.params]
  cases hg : g.arch.grid
  · rfl
  · rw [(h.importPrices hg).slice hj, (h.exportPrices hg).slice hj, (h.co2s hg).slice hj]

open MPC in
theorem single_step (solve : Solver) {N : Nat} {g g' : Grid} (h : Alike N g g') {j : Nat} (hj : j + g.horizon ≤ N) (s : Frame)
    (soc : ℚ) : singleStep solve g' s soc j = singleStep solve g s soc j := by
  have hc : ∀ x, horizonCost g' x j = horizonCost g x j := by
    intro x
    unfold horizonCost
    rw [h.horizon, h.arch, h.params]
    cases hg : g.arch.grid
    · rfl
    · rw [(h.importPrices hg).slice hj, (h.exportPrices hg).slice hj]
  unfold singleStep
  simp only [sample_problem h hj, hc, h.horizon]

open MPC in
theorem solve_all (solve : Solver) {N : Nat} {g g' : Grid} (h : Alike N g g') {j : Nat} (hj : j + g.horizon ≤ N) (soc : ℚ)
    (row : DataRow) : ∀ fs, solveAll solve g' soc j row fs = solveAll solve g soc j row fs
  | [] => rfl
  | s :: rest => by
    unfold solveAll
    simp only [single_step solve h hj, solve_all solve h hj soc row rest]

open MPC in
theorem single_at {solve : Solver} {g : Grid} {s : Frame} {soc : ℚ} {j : Nat} {o : HorizonOutput}
    (h : singleStep solve g s soc j = .ok o) : o.step = j := by
  unfold singleStep at h
  simp only at h
  split at h
  · cases h
  · split at h
    · cases h
    · cases h; rfl

open MPC in
theorem all_at {solve : Solver} {g : Grid} {soc : ℚ} {j : Nat} {row : DataRow} : ∀ {fs fs' : List Frame} {os : List HorizonOutput},
    solveAll solve g soc j row fs = (fs', .ok os) → ∀ o ∈ os, o.step = j
  | [], _, _, h, o, ho => by
    simp only [solveAll, Prod.mk.injEq, Except.ok.injEq] at h
    rw [← h.2] at ho
    cases ho
  | s :: rest, fs', os, h, o, ho => by
    unfold solveAll at h
    simp only at h
    split at h
    · simp at h
    · rename_i x hx
      split at h
      · simp at h
      · rename_i r' os' hr
        simp only [Prod.mk.injEq, Except.ok.injEq] at h
        rw [← h.2] at ho
        rcases List.mem_cons.mp ho with e | e
        · rw [e]; exact single_at hx
        · exact all_at hr o e

open MPC in
theorem determine_mem {select : Selector} {os : List HorizonOutput} {p : ℚ} {o : HorizonOutput}
    (h : determine select os p = .ok o) : o ∈ os := by
  unfold determine at h
  split at h
  · cases h
  · simp only at h
    split at h
    · cases h
    · split at h
      · rename_i x hx
        cases h
        exact List.mem_of_getElem? hx
      · cases h

open MPC in
theorem append_output {N : Nat} {g g' : Grid} (h : Alike N g g') {b b' : Baseline} (hb : b'.deeds = b.deeds) {o : HorizonOutput}
    (ho : o.step < N) (row : DataRow) :
    (appendOutput g' b' o row).map Baseline.deeds = (appendOutput g b o row).map Baseline.deeds := by
  obtain ⟨hp, hc, he, hs⟩ := deeds_parts hb
  have hsoc := lastSoc_eq hs
  unfold appendOutput
  rw [h.arch, h.params, hsoc, hp, h.t, hc, he]
  simp only
  split
  · rfl
  · split
    · rfl
    · cases hg : g.arch.grid
      · simp [Except.map, Baseline.deeds, hs, nextRow]
      · obtain ⟨a, a1, a1'⟩ := (h.co2s hg).get ho
        obtain ⟨c, c1, c1'⟩ := (h.importPrices hg).get ho
        obtain ⟨d, d1, d1'⟩ := (h.exportPrices hg).get ho
        obtain ⟨a2, a2', a3, a3'⟩ := (h.co2s hg).has (i := o.step + 1) ho
        obtain ⟨c2, c2', c3, c3'⟩ := (h.importPrices hg).has (i := o.step + 1) ho
        obtain ⟨d2, d2', d3, d3'⟩ := (h.exportPrices hg).has (i := o.step + 1) ho
        simp [a1, a1', a3, a3', c1, c1', c3, c3', d1, d1', d3, d3', Except.map, Baseline.deeds, hs, nextRow]

open MPC in
theorem actual_row {N : Nat} {g g' : Grid} (h : Alike N g g') {j : Nat} (hj : j < N) : actualRow g' j = actualRow g j := by
  unfold actualRow
  rw [h.loads.at_ hj, h.pvs.at_ hj, h.arch]
  cases hg : g.arch.grid
  · rfl
  · rw [(h.statuses hg).at_ hj]

open MPC in
theorem group_step (solve : Solver) (select : Selector) (p : ℚ) {N : Nat} {g g' : Grid} (h : Alike N g g') (fs : List Frame)
    {b b' : Baseline} (hb : b'.deeds = b.deeds) {j : Nat} (hj : j < N) (hh : j + g.horizon ≤ N) :
    (groupStep solve select g' p fs b' j).1 = (groupStep solve select g p fs b j).1 ∧
    (groupStep solve select g' p fs b' j).2.map Baseline.deeds = (groupStep solve select g p fs b j).2.map Baseline.deeds := by
  unfold groupStep
  rw [actual_row h hj, lastSoc_eq (deeds_parts hb).2.2.2]
  simp only [solve_all solve h hh]
  split
  · exact ⟨rfl, rfl⟩
  · rename_i row _
    split
    · exact ⟨rfl, rfl⟩
    · rename_i fs' os hs
      split
      · exact ⟨rfl, rfl⟩
      · rename_i o ho
        exact ⟨rfl, append_output h hb (by rw [all_at hs o (determine_mem ho)]; exact hj) row⟩

open MPC in
theorem group_from (solve : Solver) (select : Selector) (p : ℚ) {N : Nat} {g g' : Grid} (h : Alike N g g') :
    ∀ (n j : Nat) (fs : List Frame) {b b' : Baseline}, b'.deeds = b.deeds → j + n ≤ N → j + n + g.horizon ≤ N + 1 →
    (groupFrom solve select g' p j n fs b').1 = (groupFrom solve select g p j n fs b).1 ∧
    (groupFrom solve select g' p j n fs b').2.map Baseline.deeds = (groupFrom solve select g p j n fs b).2.map Baseline.deeds
  | 0, _, fs, b, b', hb, _, _ => by simp [groupFrom, Except.map, hb]
  | n + 1, j, fs, b, b', hb, hj, hh => by
    have e := group_step solve select p h fs hb (j := j) (by omega) (by omega)
    unfold groupFrom
    rcases h1 : groupStep solve select g p fs b j with ⟨f1, x | x⟩ <;>
      rcases h2 : groupStep solve select g' p fs b' j with ⟨f2, y | y⟩ <;> rw [h1, h2] at e <;>
      simp only [Except.map, Except.ok.injEq, Except.error.injEq, reduceCtorEq, and_false] at e
    · exact ⟨e.1, by simp [Except.map, e.2]⟩
    · simp only [e.1]
      exact group_from solve select p h n (j + 1) f1 e.2 (by omega) (by omega)

/-- The data of the present step are the same. -/
structure Now (g g' : Grid) : Prop where
  load : g'.load = g.load
  pv : g'.pv = g.pv
  cur : g.arch.grid = true → g'.cur = g.cur

theorem full_gridAt {g : Grid} (hf : g.FullSeries) (hg : g.arch.grid = true) {i : Nat} (hi : i < g.dataLength) :
    ∃ r, g.gridAt i = .ok r := by
  obtain ⟨a, b, c, d⟩ := hf hg
  unfold Grid.gridAt
  rw [List.getElem?_eq_getElem (lt_of_lt_of_le hi a), List.getElem?_eq_getElem (lt_of_lt_of_le hi b),
    List.getElem?_eq_getElem (lt_of_lt_of_le hi c), List.getElem?_eq_getElem (lt_of_lt_of_le hi d)]
  exact ⟨_, rfl⟩

/-- `update_variables` at a step with data: the records and the series stay, the data of the step are read. -/
theorem update_reads {g : Grid} (hf : g.FullSeries) (ht : g.t < g.dataLength) :
    ∃ x, g.updateVariables = (x, .ok ()) ∧ x.arch = g.arch ∧ x.params = g.params ∧ x.horizon = g.horizon ∧ x.t = g.t ∧
      x.loads = g.loads ∧ x.pvs = g.pvs ∧ x.statuses = g.statuses ∧ x.importPrices = g.importPrices ∧
      x.exportPrices = g.exportPrices ∧ x.co2s = g.co2s ∧ x.states = g.states ∧ x.production = g.production ∧ x.costs = g.costs ∧
      x.co2 = g.co2 ∧ g.loads[g.t]? = some x.load ∧ g.pvs[g.t]? = some x.pv ∧
      (g.arch.grid = true → g.gridAt g.t = .ok x.cur) := by
  have h1 := List.getElem?_eq_getElem (lt_of_lt_of_le ht (Nat.min_le_left _ _))
  have h2 := List.getElem?_eq_getElem (lt_of_lt_of_le ht (Nat.min_le_right _ _))
  rw [Grid.update_eq, h1, h2]
  cases hg : g.arch.grid
  · simp only [Bool.false_eq_true, if_false]
    exact ⟨_, rfl, by simp⟩
  · obtain ⟨r, hr⟩ := full_gridAt hf hg ht
    simp only [if_true, hr]
    by_cases hi : g.t + 1 < g.dataLength
    · obtain ⟨s, hs⟩ := full_gridAt hf hg hi
      simp only [hi, if_true, hs]
      exact ⟨_, rfl, by simp⟩
    · simp only [hi, if_false]
      exact ⟨_, rfl, by simp⟩

/-- Microgrids in the same situation, with enough data for the first `N` steps. -/
structure Going (N : Nat) (g g' : Grid) : Prop where
  alike : Alike N g g'
  full : g.FullSeries
  full' : g'.FullSeries
  room : N + g.horizon ≤ g.dataLength
  room' : N + g.horizon ≤ g'.dataLength
  deeds : g'.deeds = g.deeds
  now : g.t < N → Now g g'

theorem update_core {N : Nat} {g g' : Grid} (h : Alike N g g') (hf : g.FullSeries) (hf' : g'.FullSeries)
    (hd : g'.deeds = g.deeds) (ht : g.t ≤ N) :
    ∃ x x', g.updateVariables = (x, .ok ()) ∧ g'.updateVariables = (x', .ok ()) ∧ x.t = g.t ∧ x.horizon = g.horizon ∧ Alike N x x' ∧
      x.FullSeries ∧ x'.FullSeries ∧ x.dataLength = g.dataLength ∧ x'.dataLength = g'.dataLength ∧ x'.deeds = x.deeds ∧
      (x.t < N → Now x x') := by
  obtain ⟨x, e, a1, a2, a3, a4, a5, a6, a7, a8, a9, a10, a11, a12, a13, a14, a15, a16, a17⟩ :=
    update_reads hf (lt_of_le_of_lt ht h.dataLength.1)
  obtain ⟨x', e', b1, b2, b3, b4, b5, b6, b7, b8, b9, b10, b11, b12, b13, b14, b15, b16, b17⟩ :=
    update_reads hf' (by rw [h.t]; exact lt_of_le_of_lt ht h.dataLength.2)
  have hx : x.dataLength = g.dataLength := by unfold Grid.dataLength; rw [a5, a6]
  have hx' : x'.dataLength = g'.dataLength := by unfold Grid.dataLength; rw [b5, b6]
  refine ⟨x, x', e, e', a4, a3, ?_, ?_, ?_, hx, hx', ?_, fun hn => ?_⟩
  · exact
      { arch := by rw [a1, b1, h.arch]
        params := by rw [a2, b2, h.params]
        horizon := by rw [a3, b3, h.horizon]
        t := by rw [a4, b4, h.t]
        loads := by rw [a5, b5]; exact h.loads
        pvs := by rw [a6, b6]; exact h.pvs
        statuses := by rw [a1, a7, b7]; exact h.statuses
        importPrices := by rw [a1, a8, b8]; exact h.importPrices
        exportPrices := by rw [a1, a9, b9]; exact h.exportPrices
        co2s := by rw [a1, a10, b10]; exact h.co2s }
  · unfold Grid.FullSeries; rw [hx, a1, a7, a8, a9, a10]; exact hf
  · unfold Grid.FullSeries; rw [hx', b1, b7, b8, b9, b10]; exact hf'
  · unfold Grid.deeds at hd ⊢
    rw [a11, a12, a13, a14, b11, b12, b13, b14]
    exact hd
  rw [a4] at hn
  refine ⟨?_, ?_, fun hg => ?_⟩
  · rw [h.t, h.loads.at_ hn, a15] at b15
    exact (Option.some.inj b15).symm
  · rw [h.t, h.pvs.at_ hn, a16] at b16
    exact (Option.some.inj b16).symm
  · rw [a1] at hg
    obtain ⟨r, hr, hr'⟩ := h.gridAt hg hn
    have c := a17 hg
    have c' := b17 (by rw [h.arch]; exact hg)
    rw [hr] at c
    rw [h.t, hr'] at c'
    rw [← Except.ok.inj c, ← Except.ok.inj c']

theorem update_alike {N : Nat} {g g' : Grid} (h : Alike N g g') (hf : g.FullSeries) (hf' : g'.FullSeries)
    (hr : N + g.horizon ≤ g.dataLength) (hr' : N + g.horizon ≤ g'.dataLength) (hd : g'.deeds = g.deeds) (ht : g.t ≤ N) :
    ∃ x x', g.updateVariables = (x, .ok ()) ∧ g'.updateVariables = (x', .ok ()) ∧ x.t = g.t ∧ x.horizon = g.horizon ∧ Going N x x' := by
  obtain ⟨x, x', h1, h2, h3, h4, h5, h6, h7, h8, h9, h10, h11⟩ := update_core h hf hf' hd ht
  exact ⟨x, x', h1, h2, h3, h4, h5, h6, h7, by rw [h8, h4]; exact hr, by rw [h9, h4]; exact hr', h10, h11⟩

/-- `reset` of microgrids that have done the same. -/
theorem reset_alike {N : Nat} {g g' : Grid} (h : Alike N g g') (hf : g.FullSeries) (hf' : g'.FullSeries) (hd : g'.deeds = g.deeds) :
    ∃ x x', g.reset = (x, .ok ()) ∧ g'.reset = (x', .ok ()) ∧ x.horizon = g.horizon ∧ Alike N x x' ∧ x.dataLength = g.dataLength ∧
      x'.dataLength = g'.dataLength ∧ x'.deeds = x.deeds := by
  obtain ⟨x, x', h1, h2, _, h4, h5, _, _, h8, h9, h10, _⟩ := update_core (N := N)
    (g := { g with states := g.states.take 1, production := {}, costs := [], co2 := [], t := 0 })
    (g' := { g' with states := g'.states.take 1, production := {}, costs := [], co2 := [], t := 0 })
    ⟨h.arch, h.params, h.horizon, rfl, h.loads, h.pvs, h.statuses, h.importPrices, h.exportPrices, h.co2s⟩ hf hf'
    (by
      simp only [Grid.deeds, Deeds.mk.injEq] at hd
      simp only [Grid.deeds, List.map_take, hd.2.2.2])
    (Nat.zero_le _)
  refine ⟨{ x with done := false }, { x' with done := false }, ?_, ?_, h4,
    ⟨h5.arch, h5.params, h5.horizon, h5.t, h5.loads, h5.pvs, h5.statuses, h5.importPrices, h5.exportPrices, h5.co2s⟩, h8, h9, h10⟩
  · unfold Grid.reset
    simp only [h1]
  · unfold Grid.reset
    simp only [h2]

/-- The row that `run` adds to the states. -/
def stepRow (g : Grid) (c : Control) (l : Last) : StateRow :=
  if g.arch.grid then nextRow g.arch g.params g.soc l.charge l.discharge g.nextLoad g.nextPv g.t g.next
  else nextRow g.arch g.params g.soc (c.charge.getD 0) (c.discharge.getD 0) g.nextLoad g.nextPv g.t none

/-- The emissions that `run` records. -/
def stepCo2 (g : Grid) (l : Last) : ℚ := co2Of g.arch g.params l (if g.arch.grid then g.cur.co2 else 0)

/-- The costs that `run` records. -/
def stepCost (g : Grid) (l : Last) : CostRow :=
  costRow g.arch g.params l (stepCo2 g l) (if g.arch.grid then g.cur.priceImport else 0)
    (if g.arch.grid then g.cur.priceExport else 0)

/-- The microgrid in `run` before `update_variables`. -/
def stepped (g : Grid) (c : Control) (r : Production) (l : Last) : Grid :=
  { g with production := r, co2 := g.co2 ++ [stepCo2 g l], costs := g.costs ++ [stepCost g l]
           states := g.states ++ [stepRow g c l], t := g.t + 1 }

theorem run_stepped {g : Grid} {c : Control} {r : Production} {l : Last}
    (h1 : record g.arch g.params g.load g.pv g.soc c g.production = (r, .ok ())) (h2 : r.last g.arch = .ok l)
    (h3 : ¬ ((g.t : Int) = (g.dataLength : Int) - g.horizon ∨ (g.t : Int) = (g.dataLength : Int) - 1)) {x : Grid}
    (h4 : (stepped g c r l).updateVariables = (x, .ok ())) : g.run c = (x, .ok (stepRow g c l)) := by
  unfold Grid.run
  rw [h1]
  simp only [h2]
  refine (if_neg h3).trans ?_
  have h5 : Grid.updateVariables { g with production := r, co2 := g.co2 ++ [stepCo2 g l], costs := g.costs ++ [stepCost g l]
                                          states := g.states ++ [stepRow g c l], t := g.t + 1 } = (x, .ok ()) := h4
  change (match Grid.updateVariables { g with
      production := r, co2 := g.co2 ++ [stepCo2 g l], costs := g.costs ++ [stepCost g l]
      states := g.states ++ [stepRow g c l], t := g.t + 1 } with
    | (g, .error e) => (g, .error e)
    | (g', .ok ()) => (g', .ok (stepRow g c l)) : Grid × Except Err StateRow) = _
  rw [h5]

theorem run_failed_record {g : Grid} {c : Control} {r : Production} {e : Err}
    (h1 : record g.arch g.params g.load g.pv g.soc c g.production = (r, .error e)) :
    g.run c = ({ g with production := r }, .error e) := by
  unfold Grid.run
  rw [h1]

theorem run_failed_last {g : Grid} {c : Control} {r : Production} {e : Err}
    (h1 : record g.arch g.params g.load g.pv g.soc c g.production = (r, .ok ())) (h2 : r.last g.arch = .error e) :
    g.run c = ({ g with production := r }, .error e) := by
  unfold Grid.run
  rw [h1]
  simp only [h2]

theorem run_alike {N : Nat} {g g' : Grid} (h : Going N g g') (ht : g.t < N) (c : Control) :
    (∃ e, (g.run c).2 = .error e ∧ (g'.run c).2 = .error e ∧ (g'.run c).1.deeds = (g.run c).1.deeds) ∨
    (∃ r r', (g.run c).2 = .ok r ∧ (g'.run c).2 = .ok r' ∧ (g.run c).1.t = g.t + 1 ∧ Going N (g.run c).1 (g'.run c).1) := by
  obtain ⟨hp, hc, he, hs⟩ : g'.production = g.production ∧ g'.costs = g.costs ∧ g'.co2 = g.co2 ∧
      g'.states.map (·.soc) = g.states.map (·.soc) := by
    simpa only [Grid.deeds, Deeds.mk.injEq] using h.deeds
  have hn := h.now ht
  have hsoc : g'.soc = g.soc := lastSoc_eq hs
  have hl := h.alike.dataLength
  have hr := h.room
  have hr' := h.room'
  have e1 : ∀ l, stepCo2 g' l = stepCo2 g l := by
    intro l
    unfold stepCo2
    rw [h.alike.arch, h.alike.params]
    cases hg : g.arch.grid
    · rfl
    · rw [hn.cur hg]
  have e2 : ∀ l, stepCost g' l = stepCost g l := by
    intro l
    unfold stepCost
    rw [h.alike.arch, h.alike.params, e1]
    cases hg : g.arch.grid
    · rfl
    · rw [hn.cur hg]
  have e3 : ∀ l, (stepRow g' c l).soc = (stepRow g c l).soc := by
    intro l
    unfold stepRow
    rw [h.alike.arch, h.alike.params, hsoc]
    cases g.arch.grid <;> rfl
  have same : record g'.arch g'.params g'.load g'.pv g'.soc c g'.production =
      record g.arch g.params g.load g.pv g.soc c g.production := by
    rw [h.alike.arch, h.alike.params, hn.load, hn.pv, hsoc, hp]
  rcases h1 : record g.arch g.params g.load g.pv g.soc c g.production with ⟨r, e | u⟩
  · rw [run_failed_record h1, run_failed_record (same.trans h1)]
    exact .inl ⟨e, rfl, rfl, by simp [Grid.deeds, hc, he, hs]⟩
  · cases h2 : r.last g.arch with
    | error e =>
      rw [run_failed_last h1 h2, run_failed_last (same.trans h1) (by rw [h.alike.arch]; exact h2)]
      exact .inl ⟨e, rfl, rfl, by simp [Grid.deeds, hc, he, hs]⟩
    | ok l =>
      obtain ⟨x, x', k1, k2, k3, k4, k5⟩ := update_alike (N := N) (g := stepped g c r l) (g' := stepped g' c r l)
        ⟨h.alike.arch, h.alike.params, h.alike.horizon, congrArg (· + 1) h.alike.t, h.alike.loads, h.alike.pvs, h.alike.statuses,
          h.alike.importPrices, h.alike.exportPrices, h.alike.co2s⟩ h.full h.full' hr hr'
        (by simp only [Grid.deeds, stepped, hc, he, List.map_append, hs, List.map_cons, List.map_nil, e1, e2, e3])
        (by simp only [stepped]; omega)
      have ht' := h.alike.t
      have hh' := h.alike.horizon
      rw [run_stepped h1 h2 (by omega) k1, run_stepped (same.trans h1) (by rw [h.alike.arch]; exact h2) (by omega) k2]
      exact .inr ⟨_, _, rfl, rfl, k3, k5⟩

theorem runAll_alike {N : Nat} : ∀ (cs : List Control) {g g' : Grid}, Going N g g' → g.t + cs.length ≤ N →
    (g'.runAll cs).2 = (g.runAll cs).2 ∧ (g'.runAll cs).1.deeds = (g.runAll cs).1.deeds
  | [], g, g', h, _ => ⟨rfl, h.deeds⟩
  | c :: cs, g, g', h, hl => by
    simp only [List.length_cons] at hl
    unfold Grid.runAll
    rcases run_alike h (by omega) c with ⟨e, h1, h2, h3⟩ | ⟨r, r', h1, h2, h3, h4⟩
    · rcases k : g.run c with ⟨x, y⟩
      rcases k' : g'.run c with ⟨x', y'⟩
      rw [k] at h1 h3
      rw [k'] at h2 h3
      simp only at h1 h2 h3
      subst h1 h2
      exact ⟨rfl, h3⟩
    · rcases k : g.run c with ⟨x, y⟩
      rcases k' : g'.run c with ⟨x', y'⟩
      rw [k] at h1 h3 h4
      rw [k'] at h2 h4
      simp only at h1 h2 h3 h4
      subst h1 h2
      exact runAll_alike cs h4 (by omega)

/-- Microgrids made from series that start the same way. -/
theorem created_alike {N : Nat} {s s' : Series} {a : Arch} {p : Params} {k : Nat} {soc : ℚ} {row : StateRow} {g g' : Grid}
    (h : s.SameStart N a.grid s') (hc : s.create a p k soc row = .ok g) (hc' : s'.create a p k soc row = .ok g') :
    Alike N g g' ∧ g'.deeds = g.deeds ∧ g.t = 0 ∧ g.horizon = k ∧ g.dataLength = min s.loads.length s.pvs.length ∧
      g'.dataLength = min s'.loads.length s'.pvs.length ∧ (0 < N → Now g g') ∧ (s.Full a.grid → g.FullSeries) ∧
      (s'.Full a.grid → g'.FullSeries) := by
  have made : ∀ {s : Series} {g : Grid}, s.create a p k soc row = .ok g → g.arch = a ∧ g.params = p ∧ g.horizon = k ∧ g.t = 0 ∧
      g.loads = s.loads ∧ g.pvs = s.pvs ∧ g.statuses = s.statuses ∧ g.importPrices = s.importPrices ∧
      g.exportPrices = s.exportPrices ∧ g.co2s = s.co2s ∧ g.deeds = ⟨{}, [], [], [row.soc]⟩ ∧ s.loads[0]? = some g.load ∧
      s.pvs[0]? = some g.pv ∧ (a.grid = true → g.gridAt 0 = .ok g.cur) := by
    intro s g hc
    unfold Series.create create at hc
    split at hc
    · rename_i l v _ _ h1 h2 _ _
      simp only at hc
      split at hc
      · split at hc
        · cases hc
        · rename_i r hr
          cases hc
          exact ⟨rfl, rfl, rfl, rfl, rfl, rfl, rfl, rfl, rfl, rfl, rfl, h1, h2, fun _ => hr⟩
      · rename_i hg
        cases hc
        exact ⟨rfl, rfl, rfl, rfl, rfl, rfl, rfl, rfl, rfl, rfl, rfl, h1, h2, fun h => absurd h hg⟩
    · cases hc
  obtain ⟨a1, a2, a3, a4, a5, a6, a7, a8, a9, a10, a11, a12, a13, a14⟩ := made hc
  obtain ⟨b1, b2, b3, b4, b5, b6, b7, b8, b9, b10, b11, b12, b13, b14⟩ := made hc'
  have hA : Alike N g g' :=
    { arch := by rw [a1, b1]
      params := by rw [a2, b2]
      horizon := by rw [a3, b3]
      t := by rw [a4, b4]
      loads := by rw [a5, b5]; exact h.loads
      pvs := by rw [a6, b6]; exact h.pvs
      statuses := by rw [a1, a7, b7]; exact h.statuses
      importPrices := by rw [a1, a8, b8]; exact h.importPrices
      exportPrices := by rw [a1, a9, b9]; exact h.exportPrices
      co2s := by rw [a1, a10, b10]; exact h.co2s }
  refine ⟨hA, by rw [a11, b11], a4, a3, by unfold Grid.dataLength; rw [a5, a6], by unfold Grid.dataLength; rw [b5, b6],
    fun hn => ⟨?_, ?_, fun hg => ?_⟩, fun hf => ?_, fun hf => ?_⟩
  · rw [h.loads.at_ hn, a12] at b12
    exact (Option.some.inj b12).symm
  · rw [h.pvs.at_ hn, a13] at b13
    exact (Option.some.inj b13).symm
  · rw [a1] at hg
    obtain ⟨r, hr, hr'⟩ := hA.gridAt (by rw [a1]; exact hg) hn
    have c := a14 hg
    have c' := b14 hg
    rw [hr] at c
    rw [hr'] at c'
    rw [← Except.ok.inj c, ← Except.ok.inj c']
  · unfold Grid.FullSeries Grid.dataLength
    rw [a1, a5, a6, a7, a8, a9, a10]
    exact hf
  · unfold Grid.FullSeries Grid.dataLength
    rw [b1, b5, b6, b7, b8, b9, b10]
    exact hf

end Pymgrid.Legacy
