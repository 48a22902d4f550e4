import Verif.Lemmas.Window
import Verif.Props.Microgrid

set_option autoImplicit false

/-!
# C88: rows outside the window of an episode do not matter

Two microgrids whose series agree from their initial steps on for `N` steps.  The user calls the same methods with the same
controls, at most `N` runs between resets.
-/

namespace Pymgrid

open Module

section
variable {N i i' : Nat} {r : Bool} {m m' : Module}

/-- C88: what `SameWindow` means for constructor calls.  Forecasters and horizons may differ. -/
theorem C88_constructors {fs fs' : Int} {param param' : FKind} {hz hz' : Nat} :
    (∀ xs xs', mkLoad xs param hz i fs r = .ok m → mkLoad xs' param' hz' i' fs' r = .ok m' →
      Overlap N i i' fs fs' xs xs' → SameWindow N m m') ∧
    (∀ xs xs', mkRenewable xs param hz i fs r = .ok m → mkRenewable xs' param' hz' i' fs' r = .ok m' →
      Overlap N i i' fs fs' xs xs' → SameWindow N m m') ∧
    (∀ mi me cc ncols xs xs', (∀ r ∈ xs, r.length = ncols) → (∀ r ∈ xs', r.length = ncols) →
      mkGrid mi me ncols xs param hz i fs cc r = .ok m → mkGrid mi me ncols xs' param' hz' i' fs' cc r = .ok m' →
      Overlap N i i' fs fs' xs xs' → SameWindow N m m') ∧
    (∀ a b c d e f tr x y, mkBattery a b c d e f tr x y i r = .ok m → mkBattery a b c d e f tr x y i' r = .ok m' →
      SameWindow N m m') ∧
    (∀ a b cost c d S W ab iu, mkGenset a b cost c d S W ab iu i r = .ok m → mkGenset a b cost c d S W ab iu i' r = .ok m' →
      SameWindow N m m') ∧
    (∀ l o, SameWindow N (mkBalancing r i l o) (mkBalancing r i' l o)) :=
  ⟨fun _ _ h h' o => mkLoad_window h h' o, fun _ _ h h' o => mkRenewable_window h h' o,
    fun _ _ _ _ _ _ e e' h h' o => mkGrid_window e e' h h' o, fun _ _ _ _ _ _ _ _ _ h h' => mkBattery_window h h',
    fun _ _ _ _ _ _ _ _ _ h h' => mkGenset_window h h', fun _ _ => .other rfl i' rfl⟩

end

/-- C88: two ways to get series that overlap.  The first one is another time origin: rows in front of and after the series,
    with the initial and the final step moved along.  The second one is another future: any other rows after the window. -/
theorem C88_overlap {α : Type} (xs : List α) (N i : Nat) :
    (∀ (pre post : List α) (fs : Int), i + N ≤ xs.length →
      Overlap N i (pre.length + i) fs ((pre.length + lastStep fs xs.length : Nat) : Int) xs (pre ++ xs ++ post)) ∧
    (∀ xs' : List α, i + N < xs.length → i + N < xs'.length → xs'.take (i + N) = xs.take (i + N) →
      Overlap N i i (-1) (-1) xs xs') :=
  ⟨fun pre post fs h => Overlap.padded pre xs post fs h, fun _ h h' e => Overlap.future h h' e⟩

/-- C88: whatever is called, in whatever order, with at most `N` runs between resets, the two microgrids return the same
    rewards, done flags, infos and errors, whatever the rows outside the window are. -/
theorem C88_window {h h' : Heap} {mods : List (String × Nat)} {sh : Option Shaper} {g g' : Microgrid} {N : Nat}
    (hl : ∀ nm ∈ mods, LibraryModule (h nm.2)) (hl' : ∀ nm ∈ mods, LibraryModule (h' nm.2))
    (hw : ∀ nm ∈ mods, SameWindow N (h nm.2) (h' nm.2)) (hid : (mods.map Prod.snd).Nodup) (hn : DistinctNames h mods)
    (hc : Microgrid.create h mods sh none = .ok g) (hc' : Microgrid.create h' mods sh none = .ok g')
    (ops : List GOp) (hf : fits N N ops) : deeds (g'.results ops) = deeds (g.results ops) :=
  (WinGrid.created hl hl' hw hid hn hc hc').results ops hf

/-! ### An example -/

/-- The series of the demo microgrid with other rows around them, without forecasts; they start at step 2. -/
def movedLoad : Module := okModule (mkLoad [90, 5, 60, 40, 20, 70] .none 0 2 5 false)
/-- The photovoltaics. -/
def movedPv : Module := okModule (mkRenewable [0, 75, 30, 50, 0, 1] .none 0 2 5 false)
/-- The grid. -/
def movedUtility : Module := okModule (mkGrid 100 50 4
  [[1, 1, 1, 0], [2, 1, 1, 0], [1/5, 1/10, 1/2, 1], [3/10, 1/10, 1/2, 0], [2/5, 1/10, 1/2, 1], [9, 9, 9, 1]] .none 0 2 5 (1/10) false)
/-- The battery. -/
def movedBattery : Module := okModule (mkBattery 10 100 20 30 (1/2) 3 none (some 60) none 2 false)
/-- The genset. -/
def movedGenset : Module := okModule (mkGenset 10 50 (.const (2/5)) 2 (1/10) 2 1 true true 2 false)

/-- The modules. -/
def movedHeap : Heap
  | 0 => movedLoad
  | 1 => movedPv
  | 2 => movedBattery
  | 3 => movedGenset
  | 4 => movedUtility
  | _ => mkBalancing false 2 10 5

/-- The microgrid. -/
def movedGrid : Microgrid := okGrid (Microgrid.create movedHeap demoMods none none)

theorem movedLoad_ok : mkLoad [90, 5, 60, 40, 20, 70] .none 0 2 5 false = .ok movedLoad := okModule_eq (by decide +kernel)
theorem movedPv_ok : mkRenewable [0, 75, 30, 50, 0, 1] .none 0 2 5 false = .ok movedPv := okModule_eq (by decide +kernel)
theorem movedUtility_ok : mkGrid 100 50 4
    [[1, 1, 1, 0], [2, 1, 1, 0], [1/5, 1/10, 1/2, 1], [3/10, 1/10, 1/2, 0], [2/5, 1/10, 1/2, 1], [9, 9, 9, 1]] .none 0 2 5 (1/10)
    false = .ok movedUtility := okModule_eq (by decide +kernel)
theorem movedBattery_ok : mkBattery 10 100 20 30 (1/2) 3 none (some 60) none 2 false = .ok movedBattery :=
  okModule_eq (by decide +kernel)
theorem movedGenset_ok : mkGenset 10 50 (.const (2/5)) 2 (1/10) 2 1 true true 2 false = .ok movedGenset :=
  okModule_eq (by decide +kernel)

theorem load_ok : mkLoad [60, 40, 20] .oracle 2 0 (-1) false = .ok exLoad := okModule_eq (by decide +kernel)
theorem sun_ok : mkRenewable [30, 50, 0] .oracle 2 0 (-1) false = .ok exPv := okModule_eq (by decide +kernel)
theorem utility_ok : mkGrid 100 50 4 [[1/5, 1/10, 1/2, 1], [3/10, 1/10, 1/2, 0], [2/5, 1/10, 1/2, 1]] .oracle 2 0 (-1) (1/10)
    false = .ok exGrid := okModule_eq (by decide +kernel)

theorem moved_window : ∀ nm ∈ demoMods, SameWindow 3 (demoHeap nm.2) (movedHeap nm.2) := by
  intro nm hm
  simp only [demoMods, List.mem_cons, List.not_mem_nil, or_false] at hm
  rcases hm with rfl | rfl | rfl | rfl | rfl | rfl
  · exact mkLoad_window load_ok movedLoad_ok ((C88_overlap [60, 40, 20] 3 0).1 [90, 5] [70] (-1) (by decide))
  · exact mkRenewable_window sun_ok movedPv_ok ((C88_overlap [30, 50, 0] 3 0).1 [0, 75] [1] (-1) (by decide))
  · exact mkBattery_window sampleBattery_ok movedBattery_ok
  · exact mkGenset_window sampleGenset_ok movedGenset_ok
  · exact mkGrid_window (by decide +kernel) (by decide +kernel) utility_ok movedUtility_ok
      ((C88_overlap [[1/5, 1/10, 1/2, 1], [3/10, 1/10, 1/2, 0], [2/5, 1/10, 1/2, 1]] 3 0).1
        [[1, 1, 1, 0], [2, 1, 1, 0]] [[9, 9, 9, 1]] (-1) (by decide))
  · exact .other rfl 2 rfl

/-- Non-vacuity of `C88_window`: the moved microgrid meets the hypotheses, with calls that succeed and whose rewards are not
    trivial; the last run of an episode is done. -/
example : (∀ nm ∈ demoMods, LibraryModule (movedHeap nm.2)) ∧
    Microgrid.create movedHeap demoMods none none = .ok movedGrid ∧
    fits 3 3 [.run demoControl false, .reset, .run demoControl false, .run demoControl false, .run demoControl false] ∧
    (movedGrid.results [.run demoControl false, .reset, .run demoControl false, .run demoControl false,
        .run demoControl false]).map (fun x => x.toOption.map (Option.map fun o => (decide (o.reward < 0), o.done))) =
      [some (some (true, false)), some none, some (some (true, false)), some (some (true, false)), some (some (true, true))] := by
  refine ⟨?_, okGrid_eq (by decide +kernel), by simp [fits], by decide +kernel⟩
  intro nm hm
  simp only [demoMods, List.mem_cons, List.not_mem_nil, or_false] at hm
  rcases hm with rfl | rfl | rfl | rfl | rfl | rfl
  · exact .series (.load movedLoad_ok) trivial
  · exact .series (.renewable movedPv_ok) trivial
  · exact .battery movedBattery_ok ⟨by norm_num, by norm_num, 60, by decide +kernel, by norm_num, by norm_num⟩
  · exact .genset movedGenset_ok (by norm_num)
  · exact .series (.grid (by decide +kernel) movedUtility_ok) trivial
  · exact .balancing (by norm_num) (by norm_num)

/-! ### The limit -/

/-- The demo microgrid with another last load, without forecasts. -/
def futureHeap (last : ℚ) : Heap := fun i => if i = 0 then okModule (mkLoad [60, 40, 20, last] .none 0 0 3 false) else demoHeap i

/-- C88, the limit: observations are not covered.  They are normalised with bounds taken from the whole series, so that a
    load that lies in the future, even after the final step, changes what an agent without forecasts sees, with the same
    rows in the window. -/
theorem C88_observations_look_ahead : SameWindow 3 (futureHeap 20 0) (futureHeap 200 0) ∧
    ∃ g g', Microgrid.create (futureHeap 20) demoMods none none = .ok g ∧
      Microgrid.create (futureHeap 200) demoMods none none = .ok g' ∧
      (g'.results [.run demoControl false]).map (fun x => x.toOption.map (Option.map (·.obs))) ≠
        (g.results [.run demoControl false]).map (fun x => x.toOption.map (Option.map (·.obs))) := by
  refine ⟨?_, _, _, okGrid_eq (by decide +kernel), okGrid_eq (by decide +kernel), by decide +kernel⟩
  refine mkLoad_window (param := .none) (hz := 0) (i := 0) (fs := 3) (r := false) (xs := [60, 40, 20, 20])
    (param' := .none) (hz' := 0) (i' := 0) (fs' := 3) (xs' := [60, 40, 20, 200])
    (okModule_eq (by decide +kernel)) (okModule_eq (by decide +kernel)) ⟨?_, by decide, fun c _ => Iff.rfl⟩
  decide +kernel

end Pymgrid
