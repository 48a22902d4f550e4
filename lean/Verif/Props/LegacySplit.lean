import Verif.Lemmas.LegacySplit
import Verif.Props.Legacy

set_option autoImplicit false

/-!
# C85: training and testing data of the legacy microgrid

Whatever was called before, a microgrid that is reset on its training or testing data behaves as a microgrid constructed
with these rows alone.
-/

namespace Pymgrid.Legacy

section
variable {arch : Arch} {params : Params} {loads pvs statuses importPrices exportPrices co2s : List ℚ} {horizon : Nat}
  {socStart : ℚ} {status : StateRow} {g₀ g : Grid}

/-- C85: after any history of calls, `reset(testing)` chooses the rows of the split in force, and from then on the
    microgrid behaves as the one constructed with these rows alone and reset: the reset raises on both or on neither, all
    that can be read is the same, and so are the results of all runs and all that can be read after each of them.
    Missing: horizons of 1 (`C85_horizon_one`), parts shorter than the horizon (`C85_short_part`); and the split in force
    is not always the one asked for last (`C85_second_split`, `C85_cancel_splits`). -/
theorem C85_reset_partial
    (h₀ : create arch params loads pvs statuses importPrices exportPrices co2s horizon socStart status = .ok g₀)
    (ops : List SOp) (testing : Bool) {rows : List ℚ → List ℚ}
    (hr : rows = chosen (min loads.length pvs.length) (inForce ops) testing)
    (h : create arch params (rows loads) (rows pvs) (rows statuses) (rows importPrices) (rows exportPrices) (rows co2s)
      horizon socStart status = .ok g)
    (hh : inForce ops ≠ none → 2 ≤ horizon ∧ horizon ≤ min (rows loads).length (rows pvs).length) :
    let s := (afterS (SplitGrid.ofGrid g₀) ops).reset testing
    s.2 = g.reset.2 ∧
      (s.2 = .ok () → s.1.grid.view = g.reset.1.view ∧ ∀ cs, s.1.story cs = g.reset.1.story cs) := by
  obtain ⟨hk, hne⟩ := Known.create h₀
  have hk' := hk.after hne ops
  have dl : g₀.dataLength = min loads.length pvs.length := by
    obtain ⟨_, _, _, _, _, _, rfl, -⟩ := create_shape h₀
    rfl
  have dl' : g.dataLength = min (rows loads).length (rows pvs).length := by
    obtain ⟨_, _, _, _, _, _, rfl, -⟩ := create_shape h
    rfl
  rw [← dl] at hr
  subst hr
  obtain ⟨a, b⟩ := hk'.mode.settled.reset_sub (b := testing) h₀ hk'.data h (fun hi => by rw [dl']; exact hh hi)
  refine ⟨a, fun ok => ⟨?_, (b ok).2⟩⟩
  rw [← SplitGrid.sub_view, (b ok).1]

/-- C85 for the split itself: it ends with a reset on the training data, or on all data if it cancels. -/
theorem C85_split_partial
    (h₀ : create arch params loads pvs statuses importPrices exportPrices co2s horizon socStart status = .ok g₀)
    (ops : List SOp) (trainSize : ℚ) (cancel : Bool) {rows : List ℚ → List ℚ}
    (hr : rows = chosen (min loads.length pvs.length) (inForce (ops ++ [.split trainSize cancel])) false)
    (h : create arch params (rows loads) (rows pvs) (rows statuses) (rows importPrices) (rows exportPrices) (rows co2s)
      horizon socStart status = .ok g)
    (hh : inForce (ops ++ [.split trainSize cancel]) ≠ none →
      2 ≤ horizon ∧ horizon ≤ min (rows loads).length (rows pvs).length) :
    let s := (afterS (SplitGrid.ofGrid g₀) ops).trainTestSplit trainSize cancel
    s.2 = g.reset.2 ∧
      (s.2 = .ok () → s.1.grid.view = g.reset.1.view ∧ ∀ cs, s.1.story cs = g.reset.1.story cs) := by
  obtain ⟨hk, hne⟩ := Known.create h₀
  obtain ⟨s', e, hd, hm⟩ := (hk.after hne ops).split trainSize cancel
  have dl : g₀.dataLength = min loads.length pvs.length := by
    obtain ⟨_, _, _, _, _, _, rfl, -⟩ := create_shape h₀
    rfl
  have dl' : g.dataLength = min (rows loads).length (rows pvs).length := by
    obtain ⟨_, _, _, _, _, _, rfl, -⟩ := create_shape h
    rfl
  rw [← dl] at hr
  subst hr
  have hi : inForce (ops ++ [.split trainSize cancel]) = SOp.inForce (ops.foldl SOp.inForce none) (.split trainSize cancel) := by
    simp [inForce, List.foldl_append]
  rw [hi] at h dl' hh
  obtain ⟨a, b⟩ := hm.reset_sub (b := false) h₀ hd h (fun hi => by rw [dl']; exact hh hi)
  simp only [e]
  refine ⟨a, fun ok => ⟨?_, (b ok).2⟩⟩
  rw [← SplitGrid.sub_view, (b ok).1]

/-- C85: whatever part of the data is in use, the record of states begins with the state given to the constructor, which
    shows the first row of all data. -/
theorem C85_first_state
    (h₀ : create arch params loads pvs statuses importPrices exportPrices co2s horizon socStart status = .ok g₀)
    (ops : List SOp) (testing : Bool) :
    ((afterS (SplitGrid.ofGrid g₀) ops).reset testing).1.grid.states = [status] := by
  obtain ⟨hk, hne⟩ := Known.create h₀
  have hk' := hk.after hne ops
  obtain ⟨-, -, r3, -⟩ := reset_fields (afterS (SplitGrid.ofGrid g₀) ops) testing
  rw [r3]
  have := hk'.data.first
  obtain ⟨_, _, _, _, _, _, rfl, -⟩ := create_shape h₀
  exact this

/-- C85 is violated: while a split is in force another one changes nothing; it is a mere reset. -/
theorem C85_second_split
    (h₀ : create arch params loads pvs statuses importPrices exportPrices co2s horizon socStart status = .ok g₀)
    (ops : List SOp) (hi : inForce ops ≠ none) (trainSize : ℚ) :
    (afterS (SplitGrid.ofGrid g₀) ops).trainTestSplit trainSize false = (afterS (SplitGrid.ofGrid g₀) ops).reset false := by
  obtain ⟨hk, hne⟩ := Known.create h₀
  have hk' := hk.after hne ops
  have hs : (afterS (SplitGrid.ofGrid g₀) ops).hasSplit = true := by
    have hm := hk'.mode
    change Mode _ _ (inForce ops) at hm
    cases ho : inForce ops with
    | none => exact absurd ho hi
    | some p => rw [ho] at hm; exact hm.1
  unfold SplitGrid.trainTestSplit
  simp only [hs, Bool.true_eq_false, Bool.false_eq_true, ↓reduceIte]

/-- C85 is violated: cancelling when no split is in force splits. -/
theorem C85_cancel_splits
    (h₀ : create arch params loads pvs statuses importPrices exportPrices co2s horizon socStart status = .ok g₀)
    (ops : List SOp) (hi : inForce ops = none) (trainSize : ℚ) :
    (afterS (SplitGrid.ofGrid g₀) ops).trainTestSplit trainSize true =
      (afterS (SplitGrid.ofGrid g₀) ops).trainTestSplit trainSize false := by
  obtain ⟨hk, hne⟩ := Known.create h₀
  have hk' := hk.after hne ops
  have hs : (afterS (SplitGrid.ofGrid g₀) ops).hasSplit = false := by
    have hm := hk'.mode
    change Mode _ _ (inForce ops) at hm
    rw [hi] at hm
    exact hm.1
  unfold SplitGrid.trainTestSplit
  simp only [hs, ↓reduceIte]

end

/-- C85: without a split the data sets make no difference, which ties this model to the one of C51-C53. -/
theorem C85_unsplit (g : Grid) (cs : List Control) : (SplitGrid.ofGrid g).story cs = g.story cs :=
  SplitGrid.story_sub (s := SplitGrid.ofGrid g) rfl (fun h => absurd rfl h) cs

/-- A microgrid with seven hours of data; the first five are training data of a split at 3/5. -/
def demoSplit (horizon : Nat) (rows : List ℚ → List ℚ) : Except Err Grid :=
  create ⟨true, true, true⟩ demoParams (rows [60, 40, 0, 20, 35, 70, 10]) (rows [30, 50, 10, 0, 20, 60, 5])
    (rows [1, 0, 1, 1, 1, 0, 1]) (rows [1/5, 3/10, 1/5, 1/5, 2/5, 1/5, 1/10]) (rows [0, 0, 1/10, 0, 1/5, 0, 0])
    (rows [1/4, 1/3, 1/4, 1/4, 1/2, 1/4, 1/8]) horizon (1/2) demoStatus

/-- A microgrid out of a construction that succeeds. -/
def okSplit (x : Except Err Grid) : Grid :=
  match x with
  | .ok g => g
  | .error _ => demo true

theorem okSplit_eq {x : Except Err Grid} (h : x.isOk = true) : x = .ok (okSplit x) := by
  cases x with
  | ok g => rfl
  | error e => simp [Except.isOk, Except.toBool] at h

/-- A control of the examples. -/
def demoRun : Control := ⟨some 10, some 0, some 60, some 0, some 0⟩

/-- The history of the examples: a run, a split, a reset on testing data, two runs, a split at another size. -/
def demoOps : List SOp := [.run demoRun, .split (3/5) false, .reset true, .run demoRun, .run demoRun, .split (9/10) false]

example : inForce demoOps = some (3/5) ∧ trainRows 7 (3/5) = 5 := by decide +kernel

/-- C85 on the training data (five rows) with horizon 2. -/
example : ∀ cs, ((afterS (SplitGrid.ofGrid (okSplit (demoSplit 2 id))) demoOps).reset false).1.story cs =
    (okSplit (demoSplit 2 (List.take 5))).reset.1.story cs := by
  have h₀ : demoSplit 2 id = .ok (okSplit (demoSplit 2 id)) := okSplit_eq (by decide +kernel)
  have h : demoSplit 2 (List.take 5) = .ok (okSplit (demoSplit 2 (List.take 5))) := okSplit_eq (by decide +kernel)
  have hr : chosen (min 7 7) (inForce demoOps) false = List.take 5 := by
    have h1 : inForce demoOps = some (3/5) := by decide +kernel
    have h2 : trainRows (min 7 7) (3/5) = 5 := by decide +kernel
    rw [h1]
    simp only [chosen, h2]
  exact ((C85_reset_partial h₀ demoOps false hr.symm h (fun _ => by simp)).2 (by decide +kernel)).2

/-- C85 on the testing data (two rows) with horizon 2. -/
example : ∀ cs, ((afterS (SplitGrid.ofGrid (okSplit (demoSplit 2 id))) demoOps).reset true).1.story cs =
    (okSplit (demoSplit 2 (List.drop 5))).reset.1.story cs := by
  have h₀ : demoSplit 2 id = .ok (okSplit (demoSplit 2 id)) := okSplit_eq (by decide +kernel)
  have h : demoSplit 2 (List.drop 5) = .ok (okSplit (demoSplit 2 (List.drop 5))) := okSplit_eq (by decide +kernel)
  have hr : chosen (min 7 7) (inForce demoOps) true = List.drop 5 := by
    have h1 : inForce demoOps = some (3/5) := by decide +kernel
    have h2 : trainRows (min 7 7) (3/5) = 5 := by decide +kernel
    rw [h1]
    simp only [chosen, h2]
  exact ((C85_reset_partial h₀ demoOps true hr.symm h (fun _ => by simp)).2 (by decide +kernel)).2

/-- C85 for a split that cancels: all seven rows are back. -/
example : ∀ cs, ((afterS (SplitGrid.ofGrid (okSplit (demoSplit 2 id))) demoOps).trainTestSplit 0 true).1.story cs =
    (okSplit (demoSplit 2 id)).reset.1.story cs := by
  have h₀ : demoSplit 2 id = .ok (okSplit (demoSplit 2 id)) := okSplit_eq (by decide +kernel)
  have hr : chosen (min 7 7) (inForce (demoOps ++ [.split 0 true])) false = id := by
    have h1 : inForce (demoOps ++ [.split 0 true]) = none := by decide +kernel
    rw [h1]
    rfl
  refine ((C85_split_partial h₀ demoOps 0 true hr.symm h₀ (fun hi => ?_)).2 (by decide +kernel)).2
  exact absurd (by decide +kernel) hi

/-- The load of the testing data differs from the one the record of states begins with. -/
example : let s := ((afterS (SplitGrid.ofGrid (okSplit (demoSplit 2 id))) demoOps).reset true).1
    s.grid.states.map (·.load) = [some 60] ∧ s.grid.load = 70 := by decide +kernel

/-- C85 is violated for horizons of 1: the fourth of the five steps of the training data raises `IndexError`, which it does
    not in the microgrid constructed with these data. -/
theorem C85_horizon_one :
    let s := ((SplitGrid.ofGrid (okSplit (demoSplit 1 id))).trainTestSplit (3/5) false).1
    (demoSplit 1 (List.take 5)).isOk = true ∧
      (s.story (List.replicate 4 demoRun)).map (fun x => x.1.toOption.isSome) = [true, true, true, false] ∧
      ((okSplit (demoSplit 1 (List.take 5))).reset.1.story (List.replicate 4 demoRun)).map (fun x => x.1.toOption.isSome) =
        [true, true, true, true] := by
  decide +kernel

/-- C85 is violated for parts shorter than the horizon: the first of the two steps of the testing data raises
    `IndexError`, which it does not in the microgrid constructed with these data. -/
theorem C85_short_part :
    let s := (((SplitGrid.ofGrid (okSplit (demoSplit 3 id))).trainTestSplit (3/5) false).1.reset true).1
    (demoSplit 3 (List.drop 5)).isOk = true ∧
      (s.story [demoRun]).map (fun x => x.1.toOption.isSome) = [false] ∧
      ((okSplit (demoSplit 3 (List.drop 5))).reset.1.story [demoRun]).map (fun x => x.1.toOption.isSome) = [true] := by
  decide +kernel

end Pymgrid.Legacy
