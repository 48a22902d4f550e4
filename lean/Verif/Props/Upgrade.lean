import Verif.Lemmas.Upgrade
import Verif.Props.Greedy
import Verif.Props.Sunnier

set_option autoImplicit false

/-!
# C102: a better equipped microgrid can do everything the smaller one can

Two microgrids that differ only in the limits of their controllable batteries, grids and gensets.  Whatever the user got out of
the smaller one with some controls, suitable controls get out of the larger one.
-/

namespace Pymgrid

open Module

/-! ### What an upgrade is for constructor calls -/

/-- C102: a battery built with wider limits and the same initial charge. -/
theorem C102_battery {minC maxC ch dis eff cost minC' maxC' ch' dis' c : ℚ} {i : Nat} {r r' : Bool}
    {m m' : Module} (hm : mkBattery minC maxC ch dis eff cost none (some c) none i r = .ok m)
    (hm' : mkBattery minC' maxC' ch' dis' eff cost none (some c) none i r' = .ok m')
    (h1 : minC' ≤ minC) (h2 : maxC ≤ maxC') (h3 : ch ≤ ch') (h4 : dis ≤ dis') : Upgraded m m' :=
  mkBattery_upgraded hm hm' h1 h2 h3 h4

/-- C102: a genset built with a wider range of productions. -/
theorem C102_genset {lo hi lo' hi' : ℚ} {cost : GensetCost} {c1 c2 : ℚ} {S W : Nat} {ab iu : Bool} {i : Nat}
    {r r' : Bool} {m m' : Module} (hm : mkGenset lo hi cost c1 c2 S W ab iu i r = .ok m)
    (hm' : mkGenset lo' hi' cost c1 c2 S W ab iu i r' = .ok m') (h1 : lo' ≤ lo) (h2 : hi ≤ hi') : Upgraded m m' :=
  mkGenset_upgraded hm hm' h1 h2

/-- C102: a grid built with a stronger line and the same time series.  Forecasters and horizons may differ. -/
theorem C102_grid {mi me cc mi' me' : ℚ} {ncols : Nat} {rows : List (List ℚ)} {param param' : FKind}
    {horizon horizon' i : Nat} {fs : Int} {r r' : Bool} {m m' : Module} (hrect : ∀ r ∈ rows, r.length = ncols)
    (hm : mkGrid mi me ncols rows param horizon i fs cc r = .ok m)
    (hm' : mkGrid mi' me' ncols rows param' horizon' i fs cc r' = .ok m') (h1 : mi ≤ mi') (h2 : me ≤ me') : Upgraded m m' :=
  mkGrid_upgraded hrect hm hm' h1 h2

/-! ### What it guarantees -/

section
variable {h h' : Heap} {mods : List (String × Nat)} {sh : Option Shaper}
  {tr : Option (Nat → Nat → Option Nat → Except Err (Nat × Nat))} {g : Microgrid}

/-- C102: if controllable modules are replaced by upgrades, then the microgrid can still be built, and for every history of
    successful runs and resets there is one of the upgraded microgrid, with resets at the same places and without normalised
    controls, in which every run yields the same reward, the same done flag and the same flows at every module. -/
theorem C102_upgrade (hl : ∀ nm ∈ mods, LibraryModule (h nm.2)) (hl' : ∀ nm ∈ mods, LibraryModule (h' nm.2))
    (hs : ∀ nm ∈ mods, h' nm.2 = h nm.2 ∨ Upgraded (h nm.2) (h' nm.2)) (he : EvenShaper sh)
    (hc : Microgrid.create h mods sh tr = .ok g) :
    ∃ g', Microgrid.create h' mods sh tr = .ok g' ∧ ∀ ops os g₁, Transcript g ops os g₁ →
      ∃ ops' os' g₁', Transcript g' ops' os' g₁' ∧ (∀ op ∈ ops', op.Plain) ∧ List.Forall₂ SameResult os os' := by
  obtain ⟨g', h1, t⟩ := create_upgraded (fun nm hn => .of rfl (hl nm hn).wf (hl' nm hn).wf (by
    rcases hs nm hn with e | e
    · rw [e]; exact .inl (.refl _)
    · exact .inr e)) he hc
  refine ⟨g', h1, fun ops os g₁ ht => ?_⟩
  obtain ⟨ops', os', g₁', k1, k2, k3, -⟩ := UpGrid.transcript ht t
  exact ⟨ops', os', g₁', k1, k2, k3⟩

theorem total_same {os os' : List (Option RunOut)} (h : List.Forall₂ SameResult os os') : total os' = total os := by
  unfold total
  induction h with
  | nil => rfl
  | @cons a b l l' hab _ ih =>
    simp only [List.map_cons, List.sum_cons, ih]
    cases a <;> cases b <;> simp only [SameResult] at hab
    · rfl
    · rw [Option.map_some, Option.map_some, Option.getD_some, Option.getD_some, hab.1]

/-- C102: so no bound on what histories of a given length earn in the upgraded microgrid is exceeded in the original one: the
    best that can be earned does not go down. -/
theorem C102_value (hl : ∀ nm ∈ mods, LibraryModule (h nm.2)) (hl' : ∀ nm ∈ mods, LibraryModule (h' nm.2))
    (hs : ∀ nm ∈ mods, h' nm.2 = h nm.2 ∨ Upgraded (h nm.2) (h' nm.2)) (he : EvenShaper sh) {g' : Microgrid}
    (hc : Microgrid.create h mods sh tr = .ok g) (hc' : Microgrid.create h' mods sh tr = .ok g') (n : Nat) (B : ℚ)
    (hB : ∀ ops os g₁, Transcript g' ops os g₁ → os.length = n → total os ≤ B) (ops : List GOp)
    (os : List (Option RunOut)) (g₁ : Microgrid) (ht : Transcript g ops os g₁) (hn : os.length = n) : total os ≤ B := by
  obtain ⟨x, h1, h2⟩ := C102_upgrade hl hl' hs he hc
  rw [hc'] at h1
  injection h1 with h1
  subst h1
  obtain ⟨ops', os', g₁', k1, -, k3⟩ := h2 ops os g₁ ht
  have := hB ops' os' g₁' k1 (by rw [← k3.length_eq]; exact hn)
  rwa [total_same k3] at this

/-- C102: in particular, whatever normalised controls achieve, controls that are not normalised achieve in the same
    microgrid. -/
theorem C102_plain (hl : ∀ nm ∈ mods, LibraryModule (h nm.2)) (he : EvenShaper sh)
    (hc : Microgrid.create h mods sh tr = .ok g) (ops : List GOp) (os : List (Option RunOut)) (g₁ : Microgrid)
    (ht : Transcript g ops os g₁) :
    ∃ ops' os' g₁', Transcript g ops' os' g₁' ∧ (∀ op ∈ ops', op.Plain) ∧ List.Forall₂ SameResult os os' := by
  obtain ⟨x, h1, h2⟩ := C102_upgrade hl hl (fun _ _ => .inl rfl) he hc
  rw [hc] at h1
  injection h1 with h1
  subst h1
  exact h2 ops os g₁ ht

end

/-- C102: no reward shaping, and the shaper of the library for curtailment, are covered. -/
theorem C102_shapers : EvenShaper none ∧ EvenShaper (some Shaper.pvCurtailment) := by
  refine ⟨by simp [EvenShaper], ?_⟩
  intro f hf l l' ci hll
  injection hf with hf
  subst hf
  unfold Shaper.pvCurtailment Shaper.sumModuleVal
  rcases hll.get "pv" with ⟨e1, e2⟩ | ⟨x, y, e1, e2, e3⟩
  · rw [e1, e2]
  · rw [e1, e2]
    have key : y.mapM (fun i : Info => dictGet? i.extra (.str "curtailment")) =
        x.mapM fun i : Info => dictGet? i.extra (.str "curtailment") := by
      clear e1 e2
      induction e3 with
      | nil => rfl
      | cons h _ ih => simp only [List.mapM_cons, h.extra, ih]
    simp only [key]

/-! ### Examples -/

/-- The devices of the demo microgrid, and stronger ones. -/
def grandHeap : Heap
  | 2 => okModule (mkBattery 0 200 50 60 (1/2) 3 none (some 60) none 0 true)
  | 3 => okModule (mkGenset 0 80 (.const (2/5)) 2 (1/10) 2 1 true true 0 false)
  | 4 => okModule (mkGrid 1000 1000 4 [[1/5, 1/10, 1/2, 1], [3/10, 1/10, 1/2, 0], [2/5, 1/10, 1/2, 1]] .none 2 0 (-1) (1/10) false)
  | i => demoHeap i

theorem grand_battery : mkBattery 0 200 50 60 (1/2) 3 none (some 60) none 0 true = .ok (grandHeap 2) :=
  okModule_eq (by decide +kernel)
theorem grand_genset : mkGenset 0 80 (.const (2/5)) 2 (1/10) 2 1 true true 0 false = .ok (grandHeap 3) :=
  okModule_eq (by decide +kernel)
theorem grand_grid : mkGrid 1000 1000 4 [[1/5, 1/10, 1/2, 1], [3/10, 1/10, 1/2, 0], [2/5, 1/10, 1/2, 1]] .none 2 0 (-1)
    (1/10) false = .ok (grandHeap 4) := okModule_eq (by decide +kernel)
theorem demo_grid : mkGrid 100 50 4 [[1/5, 1/10, 1/2, 1], [3/10, 1/10, 1/2, 0], [2/5, 1/10, 1/2, 1]] .oracle 2 0 (-1)
    (1/10) false = .ok exGrid := okModule_eq (by decide +kernel)

theorem grand_library : ∀ nm ∈ demoMods, LibraryModule (grandHeap nm.2) := by
  intro nm hm
  have hd := demo_library nm hm
  simp only [demoMods, List.mem_cons, List.not_mem_nil, or_false] at hm
  rcases hm with rfl | rfl | rfl | rfl | rfl | rfl
  · exact hd
  · exact hd
  · exact .battery grand_battery (by constructor <;> decide +kernel)
  · exact .genset grand_genset (by norm_num)
  · exact .series (.grid (by decide +kernel) grand_grid) trivial
  · exact hd

theorem grand_upgrade : ∀ nm ∈ demoMods, grandHeap nm.2 = demoHeap nm.2 ∨ Upgraded (demoHeap nm.2) (grandHeap nm.2) := by
  intro nm hm
  simp only [demoMods, List.mem_cons, List.not_mem_nil, or_false] at hm
  rcases hm with rfl | rfl | rfl | rfl | rfl | rfl
  · exact .inl rfl
  · exact .inl rfl
  · exact .inr (C102_battery sampleBattery_ok grand_battery (by norm_num) (by norm_num) (by norm_num) (by norm_num))
  · exact .inr (C102_genset sampleGenset_ok grand_genset (by norm_num) (by norm_num))
  · exact .inr (C102_grid (by decide +kernel) demo_grid grand_grid (by norm_num) (by norm_num))
  · exact .inl rfl

/-- Normalised controls of the demo microgrid, one of them clipped. -/
def eagerControl : List (String × Ctrl) :=
  [("battery", .seq [.num 1]), ("genset", .seq [.arr [1, 1]]), ("grid", .seq [.num (1/2)])]

/-- What two runs of the demo microgrid with them yield. -/
example : ∃ o₁ o₂ g₁ g₂, Transcript demoGrid [.run eagerControl true, .reset, .run eagerControl true]
      [some o₁, none, some o₂] g₂ ∧ g₁ = (demoGrid.run eagerControl true).1 ∧ total [some o₁, none, some o₂] ≠ 0 := by
  have h1 : (demoGrid.run eagerControl true).2.isOk := by decide +kernel
  have h2 : (demoGrid.run eagerControl true).1.reset.2.isOk := by decide +kernel
  have h3 : ((demoGrid.run eagerControl true).1.reset.1.run eagerControl true).2.isOk := by decide +kernel
  have h4 : ((demoGrid.run eagerControl true).2.toOption.map RunOut.reward).getD 0 +
      (((demoGrid.run eagerControl true).1.reset.1.run eagerControl true).2.toOption.map RunOut.reward).getD 0 ≠ 0 := by
    decide +kernel
  cases r1 : demoGrid.run eagerControl true with
  | mk g₁ x =>
  rw [r1] at h1 h2 h3 h4
  cases x with
  | error e => simp [Except.isOk, Except.toBool] at h1
  | ok o₁ =>
  simp only at h2 h3 h4
  cases r2 : g₁.reset with
  | mk g₂ y =>
  rw [r2] at h2 h3 h4
  cases y with
  | error e => simp [Except.isOk, Except.toBool] at h2
  | ok u =>
  simp only at h3 h4
  cases r3 : g₂.run eagerControl true with
  | mk g₃ z =>
  rw [r3] at h3 h4
  cases z with
  | error e => simp [Except.isOk, Except.toBool] at h3
  | ok o₂ =>
  refine ⟨o₁, o₂, g₁, g₃, .run r1 (.reset r2 (.run r3 (.nil _))), rfl, ?_⟩
  simpa [total, Except.toOption] using h4

/-- Non-vacuity of `C102_upgrade` and `C102_value`: the two microgrids meet the hypotheses. -/
example : ∃ g', Microgrid.create grandHeap demoMods none none = .ok g' ∧ ∀ ops os g₁, Transcript demoGrid ops os g₁ →
    ∃ ops' os' g₁', Transcript g' ops' os' g₁' ∧ (∀ op ∈ ops', op.Plain) ∧ List.Forall₂ SameResult os os' :=
  C102_upgrade demo_library grand_library grand_upgrade C102_shapers.1 demoGrid_ok

/-! ### The limits -/

/-- C102, the limit: the same normalised controls mean other amounts in the upgraded microgrid, and may earn less. -/
theorem C102_same_controls : ∃ g', Microgrid.create grandHeap demoMods none none = .ok g' ∧
    earned (g'.results [.run eagerControl true]) < earned (demoGrid.results [.run eagerControl true]) :=
  ⟨_, okGrid_eq (by decide +kernel), by decide +kernel⟩

/-- A load, a battery that discharges `d` units at most, a controllable grid that gets expensive, and the balance. -/
def drainHeap (d : ℚ) : Heap
  | 0 => okModule (mkLoad [10, 10] .none 1 0 (-1) false)
  | 1 => okModule (mkBattery 0 10 10 d 1 0 none (some 10) none 0 false)
  | 2 => okModule (mkGrid 100 50 4 [[1/10, 0, 0, 1], [5, 0, 0, 1]] .none 1 0 (-1) 0 false)
  | _ => mkBalancing false 0 10 5

/-- Their names. -/
def drainMods : List (String × Nat) := [("load", 0), ("battery", 1), ("grid", 2), ("balancing", 3)]

/-- The microgrid. -/
def drain (d : ℚ) : Microgrid := okGrid (Microgrid.create (drainHeap d) drainMods none none)

/-- C102, the limit: the claim is about the best controls.  Rule-based control may earn less in the upgraded microgrid: it empties
    the stronger battery while the grid is cheap. -/
theorem C102_rule_based : (Microgrid.create (drainHeap 5) drainMods none none).isOk ∧
    (Microgrid.create (drainHeap 10) drainMods none none).isOk ∧ Upgraded (drainHeap 5 1) (drainHeap 10 1) ∧
    ((afterReset (drain 5)).step.2.toOption.map RunOut.reward, (afterReset (drain 5)).step.1.step.2.toOption.map RunOut.reward) =
      (some (-1/2), some (-25)) ∧
    ((afterReset (drain 10)).step.2.toOption.map RunOut.reward, (afterReset (drain 10)).step.1.step.2.toOption.map RunOut.reward) =
      (some 0, some (-50)) := by
  refine ⟨by decide +kernel, by decide +kernel, ?_, by decide +kernel, by decide +kernel⟩
  have h1 : mkBattery 0 10 10 5 1 0 none (some 10) none 0 false = .ok (drainHeap 5 1) := okModule_eq (by decide +kernel)
  have h2 : mkBattery 0 10 10 10 1 0 none (some 10) none 0 false = .ok (drainHeap 10 1) := okModule_eq (by decide +kernel)
  exact C102_battery h1 h2 le_rfl le_rfl le_rfl (by norm_num)

/-- A load, a flexible grid that imports `d` units at most for 20 each, and the balance, which costs 10 per unit. -/
def linkHeap (d : ℚ) : Heap
  | 0 => okModule (mkLoad [10, 10] .none 1 0 (-1) false)
  | 1 => { okModule (mkGrid d d 4 [[20, 0, 0, 1], [20, 0, 0, 1]] .none 1 0 (-1) 0 false) with ffc := .flex }
  | _ => mkBalancing false 0 10 5

/-- C102, the limit: a flexible grid cannot be controlled.  A stronger one may cost, whatever the controls: here there are
    none. -/
theorem C102_flexible : ∃ g g', Microgrid.create (linkHeap 0) [("load", 0), ("grid", 1), ("balancing", 2)] none none = .ok g ∧
    Microgrid.create (linkHeap 10) [("load", 0), ("grid", 1), ("balancing", 2)] none none = .ok g' ∧
    g.cont.levelDict .controllable = [] ∧ g'.cont.levelDict .controllable = [] ∧
    earned (g'.results [.run [] false]) < earned (g.results [.run [] false]) :=
  ⟨_, _, okGrid_eq (by decide +kernel), okGrid_eq (by decide +kernel), by decide +kernel, by decide +kernel, by decide +kernel⟩

/-- C102, the limit: the shaper of the library for batteries is not covered.  It ignores the batteries altogether as soon as one of
    them reports an absorbed amount, be it zero. -/
theorem C102_discharge_shaper : ¬ EvenShaper (some Shaper.batteryDischarge) := by
  intro h
  have := h _ rfl [("battery", [{ provided := some 1 }, { absorbed := some 0 }]), ("load", [{ absorbed := some 2 }])]
    [("battery", [{ provided := some 1 }, { provided := some 0 }]), ("load", [{ absorbed := some 2 }])] []
    (.cons ⟨rfl, .cons ⟨rfl, rfl, rfl⟩ (.cons ⟨rfl, rfl, rfl⟩ .nil)⟩ (.cons ⟨rfl, .cons ⟨rfl, rfl, rfl⟩ .nil⟩ .nil))
  have := congrArg Except.toOption this
  revert this
  decide +kernel

end Pymgrid
