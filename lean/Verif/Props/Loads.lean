import Verif.Lemmas.Loads
import Verif.Model.Shaper
import Verif.Spec.Sunnier
import Verif.Props.Microgrid

set_option autoImplicit false

/-!
# C96: only the total of the loads matters

Two microgrids that differ only in their load modules, which demand the same energy together in every step.  The user calls
the same methods with the same controls.
-/

namespace Pymgrid

open Module

/-- C96: what `OtherLoad` and `demandAt` mean for constructor calls.  Series of the same length, with the same initial and
    final step; forecasters and horizons may differ. -/
theorem C96_constructors {xs xs' : List ℚ} {param param' : FKind} {hz hz' i : Nat} {fs : Int} {r r' : Bool}
    {m m' : Module} (hm : mkLoad xs param hz i fs r = .ok m) (hm' : mkLoad xs' param' hz' i fs r' = .ok m')
    (h : xs'.length = xs.length) :
    OtherLoad m m' ∧ (∀ c, m.demandAt c = |xs.getD c 0|) ∧ (∀ c, m'.demandAt c = |xs'.getD c 0|) ∧
      m.currentStep = i ∧ m'.currentStep = i :=
  ⟨mkLoad_other hm hm' h, fun c => (mkLoad_demand hm c).1, fun c => (mkLoad_demand hm' c).1, (mkLoad_demand hm 0).2,
    (mkLoad_demand hm' 0).2⟩

section
variable {h h' : Heap} {mods : List (String × Nat)} {K : Nat} {sh : Option Shaper}
  {tr : Option (Nat → Nat → Option Nat → Except Err (Nat × Nat))} {g : Microgrid}

/-- C96, main part: if loads are replaced by others with the same total demand in every step, then the microgrid can still
    be built, and for every sequence of runs and resets, the same calls succeed, with the same rewards and done flags and
    with the same observations and infos of all modules that are not loads; those modules and the balance log end up
    the same.  Assumed is that the reward shaping function does not look at the loads. -/
theorem C96_total_partial (hl : ∀ nm ∈ mods, LibraryModule (h nm.2)) (hl' : ∀ nm ∈ mods, LibraryModule (h' nm.2))
    (hs : ∀ nm ∈ mods, h' nm.2 = h nm.2 ∨ OtherLoad (h nm.2) (h' nm.2))
    (hk : ∀ nm ∈ mods, ∀ t, (h nm.2).kind = .load t → (h nm.2).currentStep = K)
    (ht : ∀ c, totalDemand h' mods c = totalDemand h mods c)
    (hid : (mods.map Prod.snd).Nodup) (hd : DistinctNames h mods) (hsh : LooksAway (LoadName h mods) sh)
    (hc : Microgrid.create h mods sh tr = .ok g) :
    ∃ g', Microgrid.create h' mods sh tr = .ok g' ∧ ∀ ops,
      List.Forall₂ (SameElse (LoadName h mods)) (g.results ops) (g'.results ops) ∧
      (runG g' ops).balanceLog = (runG g ops).balanceLog ∧
      ∀ i ∈ (runG g ops).cont.fullList, (h i).ffc ≠ .fixed → (runG g' ops).heap i = (runG g ops).heap i := by
  obtain ⟨g', h1, t⟩ := create_shift hl hl' hs hk ht hid hd hsh hc
  refine ⟨g', h1, fun ops => ?_⟩
  obtain ⟨r, s⟩ := t.results ops
  refine ⟨r, s.balanceLog, fun i hi hf => ?_⟩
  obtain ⟨I, K', sh', -⟩ := s.heap
  rcases (sh' i hi).same with ⟨-, e⟩ | ⟨e, -⟩
  · exact e
  · exact absurd e hf

/-- C96: so every history earns the same with either division. -/
theorem C96_earned (hl : ∀ nm ∈ mods, LibraryModule (h nm.2)) (hl' : ∀ nm ∈ mods, LibraryModule (h' nm.2))
    (hs : ∀ nm ∈ mods, h' nm.2 = h nm.2 ∨ OtherLoad (h nm.2) (h' nm.2))
    (hk : ∀ nm ∈ mods, ∀ t, (h nm.2).kind = .load t → (h nm.2).currentStep = K)
    (ht : ∀ c, totalDemand h' mods c = totalDemand h mods c)
    (hid : (mods.map Prod.snd).Nodup) (hd : DistinctNames h mods) {g' : Microgrid}
    (hc : Microgrid.create h mods none tr = .ok g) (hc' : Microgrid.create h' mods none tr = .ok g') (ops : List GOp) :
    (g'.results ops).map (·.isOk) = (g.results ops).map (·.isOk) ∧ earned (g'.results ops) = earned (g.results ops) := by
  obtain ⟨x, h1, h2⟩ := C96_total_partial hl hl' hs hk ht hid hd (sh := none) (fun _ e => by cases e) hc
  rw [hc'] at h1
  injection h1 with h1
  subst h1
  have := (h2 ops).1
  generalize g.results ops = l at this
  generalize g'.results ops = l' at this
  clear * - this
  unfold earned
  induction this with
  | nil => simp
  | @cons a b l l' hab _ ih =>
    obtain ⟨i1, i2⟩ := ih
    simp only [List.map_cons, List.sum_cons, i1, i2]
    cases hab with
    | error e e' => exact ⟨rfl, rfl⟩
    | reset => exact ⟨rfl, rfl⟩
    | run hr hdone ho hi => exact ⟨rfl, by simp only [hr]⟩

/-- C96: `PVCurtailmentShaper` does not look at the loads, unless a load is called `"pv"`. -/
theorem C96_curtailment_shaper (hpv : ¬ LoadName h mods "pv") : LooksAway (LoadName h mods) (some Shaper.pvCurtailment) := by
  intro f hf i i' c t
  injection hf with hf
  subst hf
  unfold Shaper.pvCurtailment Shaper.sumModuleVal
  rcases t.get "pv" with ⟨e, e'⟩ | ⟨v, v', e, e', hv⟩
  · rw [e, e']
  · rw [e, e', hv hpv]

end

/-! ### A household and an office -/

/-- A household, photovoltaics, a battery, a genset, a grid, a balancing module, and an office. -/
def officeHeap (home office : List ℚ) : Heap
  | 0 => okModule (mkLoad home .oracle 2 0 (-1) false)
  | 6 => okModule (mkLoad office .none 0 0 (-1) false)
  | i => demoHeap i

/-- Their names. -/
def officeMods : List (String × Nat) := demoMods ++ [("office", 6)]

/-- The microgrid. -/
def officeGrid (home office : List ℚ) (sh : Option Shaper) : Microgrid :=
  okGrid (Microgrid.create (officeHeap home office) officeMods sh none)

theorem office_library {home office : List ℚ}
    (h1 : mkLoad home .oracle 2 0 (-1) false = .ok (officeHeap home office 0))
    (h2 : mkLoad office .none 0 0 (-1) false = .ok (officeHeap home office 6)) :
    ∀ nm ∈ officeMods, LibraryModule (officeHeap home office nm.2) := by
  intro nm hm
  have := demo_library nm
  simp only [officeMods, demoMods, List.cons_append, List.nil_append, List.mem_cons, List.not_mem_nil, or_false] at hm this
  rcases hm with rfl | rfl | rfl | rfl | rfl | rfl | rfl
  · exact .series (.load h1) trivial
  · exact this (by simp)
  · exact this (by simp)
  · exact this (by simp)
  · exact this (by simp)
  · exact this (by simp)
  · exact .series (.load h2) trivial

/-- A control that runs the genset and discharges the battery. -/
def officeControl : List (String × Ctrl) :=
  [("battery", .seq [.num 10]), ("genset", .seq [.arr [1, 5]]), ("grid", .seq [.num 7])]

/-- Non-vacuity of `C96_total_partial` and `C96_earned`: a household of `[60, 40, 20]` with an office that does nothing, and a
    household of `[25, 40, 5]` with an office of `[35, 0, 15]`.  The calls succeed and something is earned. -/
example : let h := officeHeap [60, 40, 20] [0, 0, 0]; let h' := officeHeap [25, 40, 5] [35, 0, 15]
    (∀ nm ∈ officeMods, LibraryModule (h nm.2)) ∧ (∀ nm ∈ officeMods, LibraryModule (h' nm.2)) ∧
    (∀ nm ∈ officeMods, h' nm.2 = h nm.2 ∨ OtherLoad (h nm.2) (h' nm.2)) ∧
    (∀ nm ∈ officeMods, ∀ t, (h nm.2).kind = .load t → (h nm.2).currentStep = 0) ∧
    (∀ c, totalDemand h' officeMods c = totalDemand h officeMods c) ∧
    (officeMods.map Prod.snd).Nodup ∧ DistinctNames h officeMods ∧
    Microgrid.create h officeMods none none = .ok (officeGrid [60, 40, 20] [0, 0, 0] none) ∧
    (∀ x ∈ (officeGrid [60, 40, 20] [0, 0, 0] none).results [.run officeControl false, .reset, .run officeControl false], x.isOk) ∧
    earned ((officeGrid [60, 40, 20] [0, 0, 0] none).results [.run officeControl false, .reset, .run officeControl false]) ≠ 0 ∧
    earned ((officeGrid [25, 40, 5] [35, 0, 15] none).results [.run officeControl false, .reset, .run officeControl false]) =
      earned ((officeGrid [60, 40, 20] [0, 0, 0] none).results [.run officeControl false, .reset, .run officeControl false]) := by
  have a0 : mkLoad [60, 40, 20] .oracle 2 0 (-1) false = .ok (officeHeap [60, 40, 20] [0, 0, 0] 0) := okModule_eq (by decide +kernel)
  have a6 : mkLoad [0, 0, 0] .none 0 0 (-1) false = .ok (officeHeap [60, 40, 20] [0, 0, 0] 6) := okModule_eq (by decide +kernel)
  have b0 : mkLoad [25, 40, 5] .oracle 2 0 (-1) false = .ok (officeHeap [25, 40, 5] [35, 0, 15] 0) := okModule_eq (by decide +kernel)
  have b6 : mkLoad [35, 0, 15] .none 0 0 (-1) false = .ok (officeHeap [25, 40, 5] [35, 0, 15] 6) := okModule_eq (by decide +kernel)
  have c0 := C96_constructors a0 b0 rfl
  have c6 := C96_constructors a6 b6 rfl
  refine ⟨office_library a0 a6, office_library b0 b6, ?_, ?_, ?_, by decide, by unfold DistinctNames; decide +kernel,
    okGrid_eq (by decide +kernel), by decide +kernel, by decide +kernel, by decide +kernel⟩
  · intro nm hm
    simp only [officeMods, demoMods, List.cons_append, List.nil_append, List.mem_cons, List.not_mem_nil, or_false] at hm
    rcases hm with rfl | rfl | rfl | rfl | rfl | rfl | rfl
    · exact .inr c0.1
    · exact .inl rfl
    · exact .inl rfl
    · exact .inl rfl
    · exact .inl rfl
    · exact .inl rfl
    · exact .inr c6.1
  · intro nm hm t _
    have : ∀ nm ∈ officeMods, (officeHeap [60, 40, 20] [0, 0, 0] nm.2).currentStep = 0 := by decide +kernel
    exact this nm hm
  · intro c
    simp only [totalDemand, officeMods, demoMods, List.cons_append, List.nil_append, List.map_cons, List.map_nil, List.sum_cons,
      List.sum_nil, c0.2.1, c0.2.2.1, c6.2.1, c6.2.2.1]
    have : |([25, 40, 5] : List ℚ).getD c 0| + |([35, 0, 15] : List ℚ).getD c 0| =
        |([60, 40, 20] : List ℚ).getD c 0| + |([0, 0, 0] : List ℚ).getD c 0| := by
      rcases c with _ | _ | _ | c
      · decide +kernel
      · decide +kernel
      · decide +kernel
      · simp
    have e : ∀ i, i ≠ 0 → i ≠ 6 → officeHeap [25, 40, 5] [35, 0, 15] i = officeHeap [60, 40, 20] [0, 0, 0] i := by
      intro i h0 h6
      unfold officeHeap
      split <;> simp_all
    rw [e 1 (by decide) (by decide), e 2 (by decide) (by decide), e 3 (by decide) (by decide), e 4 (by decide) (by decide),
      e 5 (by decide) (by decide)]
    linarith

/-- C96, the limit: `BatteryDischargeShaper` divides by the demand of the modules that are called `"load"` only, so that
    with it the division among the loads changes the reward; where the office takes everything the reward is zero. -/
theorem C96_discharge_shaper :
    (totalDemand (officeHeap [60, 40, 20] [0, 0, 0]) officeMods 0 = totalDemand (officeHeap [30, 40, 20] [30, 0, 0]) officeMods 0) ∧
    (totalDemand (officeHeap [60, 40, 20] [0, 0, 0]) officeMods 0 = totalDemand (officeHeap [0, 40, 20] [60, 0, 0]) officeMods 0) ∧
    earned ((officeGrid [60, 40, 20] [0, 0, 0] (some Shaper.batteryDischarge)).results [.run officeControl false]) = 1/6 ∧
    earned ((officeGrid [30, 40, 20] [30, 0, 0] (some Shaper.batteryDischarge)).results [.run officeControl false]) = 1/3 ∧
    earned ((officeGrid [0, 40, 20] [60, 0, 0] (some Shaper.batteryDischarge)).results [.run officeControl false]) = 0 := by
  decide +kernel

end Pymgrid
