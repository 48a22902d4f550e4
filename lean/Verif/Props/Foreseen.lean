import Verif.Lemmas.Foreseen
import Verif.Props.ModularMPC
import Verif.Props.NoLookahead

set_option autoImplicit false

/-!
# C108: model predictive control sees no further than its forecasts

Two microgrids whose series agree for `N` rows from their initial steps on (`SameWindow`), with forecasts of the oracle that
reach `H` steps, or without forecasts (`SameForesight`).  The rows after the window, and those before it, may differ.
-/

namespace Pymgrid

open Module MPC

section
variable {N H : Nat} {h h' : Heap} {mods : List (String × Nat)} {sh : Option Shaper} {g g' : Microgrid}

/-- C108: planners made after any calls that stay in the window are the same, if both microgrids accept one, and the problems
    that a planner poses are the same as long as the forecasts stay in the window. -/
theorem C108_problem (hl : ∀ nm ∈ mods, LibraryModule (h nm.2)) (hl' : ∀ nm ∈ mods, LibraryModule (h' nm.2))
    (hw : ∀ nm ∈ mods, SameWindow N (h nm.2) (h' nm.2)) (hf : ∀ nm ∈ mods, SameForesight H (h nm.2) (h' nm.2))
    (hid : (mods.map Prod.snd).Nodup) (hn : DistinctNames h mods)
    (hc : Microgrid.create h mods sh none = .ok g) (hc' : Microgrid.create h' mods sh none = .ok g')
    (ops : List GOp) {k : Nat} (hk : stepsLeft N N ops = some k) :
    (∀ pl pl', createModular (runG g ops) = .ok pl → createModular (runG g' ops) = .ok pl' → pl' = pl) ∧
      (H < k → ∀ pl, modularProblem pl (runG g' ops) = modularProblem pl (runG g ops)) := by
  have t := (MpcWin.created hl hl' hw hf hid hn hc hc').after ops hk
  exact ⟨fun pl pl' e e' => t.planner e e', fun hH pl => t.problem hH pl⟩

/-- C108: for every solver, what the control does is the same in every step of which the forecasts stay in the window: rewards,
    done flags, the energy that every module provides or absorbs, and errors. -/
theorem C108_steps (hl : ∀ nm ∈ mods, LibraryModule (h nm.2)) (hl' : ∀ nm ∈ mods, LibraryModule (h' nm.2))
    (hw : ∀ nm ∈ mods, SameWindow N (h nm.2) (h' nm.2)) (hf : ∀ nm ∈ mods, SameForesight H (h nm.2) (h' nm.2))
    (hid : (mods.map Prod.snd).Nodup) (hn : DistinctNames h mods)
    (hc : Microgrid.create h mods sh none = .ok g) (hc' : Microgrid.create h' mods sh none = .ok g')
    (ops : List GOp) {k n : Nat} (hk : stepsLeft N N ops = some k) (hnk : n + H ≤ k) (solve : Solver) (pl : Planner) :
    doings solve pl n (runG g' ops) = doings solve pl n (runG g ops) :=
  (((MpcWin.created hl hl' hw hf hid hn hc hc').after ops hk).doings hnk solve pl).1

/-- C108: runs of the control, whatever happened before in the window, for a number of steps such that the forecasts stay in
    the window: both runs succeed, or neither, and they do the same in every step. -/
theorem C108_run (hl : ∀ nm ∈ mods, LibraryModule (h nm.2)) (hl' : ∀ nm ∈ mods, LibraryModule (h' nm.2))
    (hw : ∀ nm ∈ mods, SameWindow N (h nm.2) (h' nm.2)) (hf : ∀ nm ∈ mods, SameForesight H (h nm.2) (h' nm.2))
    (hid : (mods.map Prod.snd).Nodup) (hn : DistinctNames h mods)
    (hc : Microgrid.create h mods sh none = .ok g) (hc' : Microgrid.create h' mods sh none = .ok g')
    (ops : List GOp) {k n : Nat} (hk : stepsLeft N N ops = some k) (hnN : n + H ≤ N) (solve : Solver) {pl pl' : Planner}
    (hp : createModular (runG g ops) = .ok pl) (hp' : createModular (runG g' ops) = .ok pl') :
    (runModular solve pl' (runG g' ops) (some n)).2 = (runModular solve pl (runG g ops) (some n)).2 ∧
      doings solve pl' n (runG g' ops).reset.1 = doings solve pl n (runG g ops).reset.1 := by
  have t := (MpcWin.created hl hl' hw hf hid hn hc hc').after ops hk
  have e := t.planner hp hp'
  subst e
  obtain ⟨ok, alike, -, -⟩ := user_grid hc hl ops
  obtain ⟨ok', -, -, -⟩ := user_grid hc' hl' ops
  have hd : DistinctNames (runG g ops).heap mods := by
    rw [← (Microgrid.create_ok hc).1] at hn
    exact hn.congr fun j => kept_alike.runG g ops j
  exact t.runs ok ok' (create_placed (GridOK.tuples ok hd) hp).has_series hnN solve pl'

end

/-- C108: which modules forecast alike: those without series, those built with the oracle and the same horizon, and those
    built without a forecaster, whatever horizon was asked for. -/
theorem C108_foresight :
    (∀ {m m' : Module}, m.series? = none → SameForesight 0 m m') ∧
    (∀ {hz i i' : Nat} {fs fs' : Int} {r r' : Bool} {m m' : Module} {rows rows' : List (List ℚ)} {k k' : Nat},
      BuiltSeries .oracle hz i fs r m rows k → BuiltSeries .oracle hz i' fs' r' m' rows' k' → SameForesight hz m m') ∧
    (∀ {hz hz' i i' : Nat} {fs fs' : Int} {r r' : Bool} {m m' : Module} {rows rows' : List (List ℚ)} {k k' : Nat},
      BuiltSeries .none hz i fs r m rows k → BuiltSeries .none hz' i' fs' r' m' rows' k' → SameForesight 0 m m') ∧
    ∀ {H H' : Nat} {m m' : Module}, H ≤ H' → SameForesight H m m' → SameForesight H' m m' := by
  refine ⟨fun hs t t' ht => (by rw [hs] at ht; cases ht), fun hb hb' t t' ht ht' => ?_, fun hb hb' t t' ht ht' => ?_,
    fun hH hf t t' ht ht' => ?_⟩
  · obtain ⟨u, comps, mn, mx, hs, hw, -⟩ := hb.start
    obtain ⟨u', comps', mn', mx', hs', hw', -⟩ := hb'.start
    rw [hw.series] at ht
    rw [hw'.series] at ht'
    cases ht
    cases ht'
    rw [hs.horizon, hs'.horizon, hs.forecaster, hs'.forecaster]
    exact ⟨rfl, le_rfl, .inr ⟨rfl, rfl⟩⟩
  · obtain ⟨u, comps, mn, mx, hs, hw, -⟩ := hb.start
    obtain ⟨u', comps', mn', mx', hs', hw', -⟩ := hb'.start
    rw [hw.series] at ht
    rw [hw'.series] at ht'
    cases ht
    cases ht'
    rw [hs.horizon, hs'.horizon]
    exact ⟨rfl, le_rfl, .inl rfl⟩
  · obtain ⟨h1, h2, h3⟩ := hf t t' ht ht'
    exact ⟨h1, h2.trans hH, h3⟩

/-! ### An example -/

/-- The demo microgrid with five rows and forecasts for one step; the fifth load is a parameter. -/
def peekLoad (last : ℚ) : Module := okModule (mkLoad [60, 40, 20, 30, last] .oracle 1 0 (-1) false)

/-- Its renewable module. -/
def peekPv (last : ℚ) : Module := okModule (mkRenewable [30, 50, 0, 10, last] .oracle 1 0 (-1) false)

/-- Its grid. -/
def peekUtility (price : ℚ) : Module := okModule (mkGrid 100 50 4
  [[1/5, 1/10, 1/2, 1], [3/10, 1/10, 1/2, 0], [2/5, 1/10, 1/2, 1], [1/5, 1/10, 1/2, 1], [price, 1/10, 1/2, 1]] .oracle 1 0 (-1)
  (1/10) false)

/-- The modules. -/
def peekHeap (load pv price : ℚ) : Heap
  | 0 => peekLoad load
  | 1 => peekPv pv
  | 4 => peekUtility price
  | i => demoHeap i

/-- The microgrid. -/
def peekGrid (load pv price : ℚ) : Microgrid := okGrid (Microgrid.create (peekHeap load pv price) demoMods none none)

/-- Two pairs of loads, suns and prices for the fifth row. -/
def peekA : Microgrid := peekGrid 10 20 (1/2)
@[inherit_doc peekA] def peekB : Microgrid := peekGrid 90 0 (3/2)

theorem peekA_ok : Microgrid.create (peekHeap 10 20 (1/2)) demoMods none none = .ok peekA := okGrid_eq (by decide +kernel)
theorem peekB_ok : Microgrid.create (peekHeap 90 0 (3/2)) demoMods none none = .ok peekB := okGrid_eq (by decide +kernel)

theorem peekLoadA : mkLoad [60, 40, 20, 30, 10] .oracle 1 0 (-1) false = .ok (peekLoad 10) := okModule_eq (by decide +kernel)
theorem peekLoadB : mkLoad [60, 40, 20, 30, 90] .oracle 1 0 (-1) false = .ok (peekLoad 90) := okModule_eq (by decide +kernel)
theorem peekPvA : mkRenewable [30, 50, 0, 10, 20] .oracle 1 0 (-1) false = .ok (peekPv 20) := okModule_eq (by decide +kernel)
theorem peekPvB : mkRenewable [30, 50, 0, 10, 0] .oracle 1 0 (-1) false = .ok (peekPv 0) := okModule_eq (by decide +kernel)
theorem peekUtilityA : mkGrid 100 50 4
    [[1/5, 1/10, 1/2, 1], [3/10, 1/10, 1/2, 0], [2/5, 1/10, 1/2, 1], [1/5, 1/10, 1/2, 1], [1/2, 1/10, 1/2, 1]] .oracle 1 0 (-1)
    (1/10) false = .ok (peekUtility (1/2)) := okModule_eq (by decide +kernel)
theorem peekUtilityB : mkGrid 100 50 4
    [[1/5, 1/10, 1/2, 1], [3/10, 1/10, 1/2, 0], [2/5, 1/10, 1/2, 1], [1/5, 1/10, 1/2, 1], [3/2, 1/10, 1/2, 1]] .oracle 1 0 (-1)
    (1/10) false = .ok (peekUtility (3/2)) := okModule_eq (by decide +kernel)

/-- The two agree on the first four rows, and both forecast one step. -/
theorem peek_alike : (∀ nm ∈ demoMods, LibraryModule (peekHeap 10 20 (1/2) nm.2)) ∧
    (∀ nm ∈ demoMods, LibraryModule (peekHeap 90 0 (3/2) nm.2)) ∧
    (∀ nm ∈ demoMods, SameWindow 4 (peekHeap 10 20 (1/2) nm.2) (peekHeap 90 0 (3/2) nm.2)) ∧
    ∀ nm ∈ demoMods, SameForesight 1 (peekHeap 10 20 (1/2) nm.2) (peekHeap 90 0 (3/2) nm.2) := by
  have r : ∀ p : ℚ, ∀ x ∈ ([[1/5, 1/10, 1/2, 1], [3/10, 1/10, 1/2, 0], [2/5, 1/10, 1/2, 1], [1/5, 1/10, 1/2, 1],
      [p, 1/10, 1/2, 1]] : List (List ℚ)), x.length = 4 := by
    intro p x hx
    simp only [List.mem_cons, List.not_mem_nil, or_false] at hx
    rcases hx with rfl | rfl | rfl | rfl | rfl <;> rfl
  obtain ⟨f0, f1, -, f2⟩ := C108_foresight
  refine ⟨?_, ?_, ?_, ?_⟩ <;> intro nm hm <;>
    simp only [demoMods, List.mem_cons, List.not_mem_nil, or_false] at hm <;>
    rcases hm with rfl | rfl | rfl | rfl | rfl | rfl
  · exact .series (.load peekLoadA) trivial
  · exact .series (.renewable peekPvA) trivial
  · exact demo_library ("battery", 2) (by simp [demoMods])
  · exact demo_library ("genset", 3) (by simp [demoMods])
  · exact .series (.grid (r _) peekUtilityA) trivial
  · exact demo_library ("balancing", 5) (by simp [demoMods])
  · exact .series (.load peekLoadB) trivial
  · exact .series (.renewable peekPvB) trivial
  · exact demo_library ("battery", 2) (by simp [demoMods])
  · exact demo_library ("genset", 3) (by simp [demoMods])
  · exact .series (.grid (r _) peekUtilityB) trivial
  · exact demo_library ("balancing", 5) (by simp [demoMods])
  · exact mkLoad_window peekLoadA peekLoadB ((C88_overlap _ 4 0).2 _ (by decide) (by decide) (by decide))
  · exact mkRenewable_window peekPvA peekPvB ((C88_overlap _ 4 0).2 _ (by decide) (by decide) (by decide))
  · exact mkBattery_window sampleBattery_ok sampleBattery_ok
  · exact mkGenset_window sampleGenset_ok sampleGenset_ok
  · exact mkGrid_window (r _) (r _) peekUtilityA peekUtilityB
      ((C88_overlap _ 4 0).2 _ (by decide) (by decide) (by decide +kernel))
  · exact .other rfl 0 rfl
  · exact f1 (.load peekLoadA) (.load peekLoadB)
  · exact f1 (.renewable peekPvA) (.renewable peekPvB)
  · exact f2 (Nat.zero_le 1) (f0 (Option.isNone_iff_eq_none.mp (by decide +kernel)))
  · exact f2 (Nat.zero_le 1) (f0 (Option.isNone_iff_eq_none.mp (by decide +kernel)))
  · exact f1 (.grid (r _) peekUtilityA) (.grid (r _) peekUtilityB)
  · exact f2 (Nat.zero_le 1) (f0 (Option.isNone_iff_eq_none.mp (by decide +kernel)))

/-- The problem of the control, as a user sees it. -/
def peekOutlook (g : Microgrid) : Option (List ℚ × List ℚ × List ℚ × ℚ) :=
  (createModular g).toOption.bind fun pl => (modularProblem pl g).toOption.map fun P =>
    (P.inputs.load, P.inputs.pv, P.inputs.importPrice, P.inputs.soc)

/-- Non-vacuity: the hypotheses hold (`peek_alike`), both microgrids accept a planner, and the problem of the third step - the
    last one whose forecast stays in the window - is the same and not trivial. -/
example : stepsLeft 4 4 [.run demoControl false, .run demoControl false] = some 2 ∧
    peekOutlook (runG peekA [.run demoControl false, .run demoControl false]) =
      peekOutlook (runG peekB [.run demoControl false, .run demoControl false]) ∧
    (peekOutlook (runG peekA [.run demoControl false, .run demoControl false])).map (fun x => (x.1, x.2.1, x.2.2.1)) =
      some ([20, 30], [0, 10], [2/5, 1/5]) := by
  exact ⟨rfl, by decide +kernel, by decide +kernel⟩

/-- Non-vacuity of `C108_run`: three steps, for any solver, after a run. -/
example (solve : Solver) {pl pl' : Planner} (hp : createModular (runG peekA [.run demoControl false]) = .ok pl)
    (hp' : createModular (runG peekB [.run demoControl false]) = .ok pl') :
    (runModular solve pl' (runG peekB [.run demoControl false]) (some 3)).2 =
        (runModular solve pl (runG peekA [.run demoControl false]) (some 3)).2 ∧
      doings solve pl' 3 (runG peekB [.run demoControl false]).reset.1 =
        doings solve pl 3 (runG peekA [.run demoControl false]).reset.1 := by
  obtain ⟨h1, h2, h3, h4⟩ := peek_alike
  exact C108_run h1 h2 h3 h4 demo_ids (by unfold DistinctNames; decide +kernel) peekA_ok peekB_ok [.run demoControl false] (k := 3) rfl (by decide)
    solve hp hp'

/-- C108, the limit: at the fourth step the forecast shows the fifth row, and the problems differ.  The condition that forecasts
    stay in the window cannot be dropped. -/
theorem C108_limit : ∃ pl, createModular peekA = .ok pl ∧ createModular peekB = .ok pl ∧
    let ops := List.replicate 3 (GOp.run demoControl false)
    stepsLeft 4 4 ops = some 1 ∧ modularProblem pl (runG peekB ops) ≠ modularProblem pl (runG peekA ops) := by
  have key : ∀ {x : Except Err Planner} {pl : Planner}, x.toOption = some pl → x = .ok pl := by
    intro x pl h
    cases x with
    | error e => simp [Except.toOption] at h
    | ok y => simp only [Except.toOption, Option.some.injEq] at h; rw [h]
  refine ⟨{ demoPlanner with horizon := 2 }, key (by decide +kernel), key (by decide +kernel), rfl, fun e => ?_⟩
  have h1 : (modularProblem { demoPlanner with horizon := 2 } (runG peekA
      (List.replicate 3 (GOp.run demoControl false)))).toOption.map (fun P => P.inputs.load) = some [30, 10] := by decide +kernel
  have h2 : (modularProblem { demoPlanner with horizon := 2 } (runG peekB
      (List.replicate 3 (GOp.run demoControl false)))).toOption.map (fun P => P.inputs.load) = some [30, 90] := by decide +kernel
  rw [e, h1] at h2
  revert h2
  decide +kernel

end Pymgrid
