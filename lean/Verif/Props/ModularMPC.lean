import Verif.Lemmas.ModularMPC
import Verif.Props.MPC
import Verif.Props.PriorityList

set_option autoImplicit false

/-!
# C68, C69: model predictive control of modular microgrids
-/

namespace Pymgrid.MPC

open Module

variable {h : Heap} {mods : List (String × Nat)} {sh : Option Shaper}
  {tr : Option (Nat → Nat → Option Nat → Except Err (Nat × Nat))} {g₀ : Microgrid}

/-! ### C68: acceptance -/

/-- C68: a microgrid is accepted if and only if it can be converted to a legacy microgrid, has a battery named `battery` and
    has a balancing module. -/
theorem C68_accepts (hc : Microgrid.create h mods sh tr = .ok g₀) (hl : ∀ nm ∈ mods, LibraryModule (h nm.2))
    (hd : DistinctNames h mods) (ops : List GOp) :
    (∃ pl, createModular (runG g₀ ops) = .ok pl) ↔
      (∃ x, (runG g₀ ops).toNonmodular = .ok x) ∧ Suited (runG g₀ ops).heap mods := by
  obtain ⟨ok, alike, -, -⟩ := user_grid hc hl ops
  have hp := GridOK.tuples ok (hd.congr alike)
  constructor
  · rintro ⟨pl, h⟩
    obtain ⟨x, k, hx, -, -, -, hs⟩ := create_inv h
    exact ⟨⟨x, hx⟩, (parse_of ok hp hx).1.mp ⟨_, hs⟩⟩
  · rintro ⟨⟨x, hx⟩, hs⟩
    obtain ⟨s, hs⟩ := (parse_of ok hp hx).1.mpr hs
    obtain ⟨k, e⟩ := create_of hx
    rw [e, hs]
    exact ⟨_, rfl⟩

/-- C68: the error tells what is wrong: `ValueError` if it cannot be converted, `AttributeError` if there is no battery of
    that name, `KeyError` if there is no balancing module. -/
theorem C68_rejects (hc : Microgrid.create h mods sh tr = .ok g₀) (hl : ∀ nm ∈ mods, LibraryModule (h nm.2))
    (hd : DistinctNames h mods) (ops : List GOp) :
    ((¬ ∃ x, (runG g₀ ops).toNonmodular = .ok x) → createModular (runG g₀ ops) = .error .value) ∧
    ((∃ x, (runG g₀ ops).toNonmodular = .ok x) →
      (¬ ∃ nm ∈ mods, nm.1 = "battery" ∧ ∃ b, ((runG g₀ ops).heap nm.2).kind = .battery b) →
        createModular (runG g₀ ops) = .error .attribute) ∧
    ((∃ x, (runG g₀ ops).toNonmodular = .ok x) →
      (∃ nm ∈ mods, nm.1 = "battery" ∧ ∃ b, ((runG g₀ ops).heap nm.2).kind = .battery b) →
      (¬ ∃ nm ∈ mods, ∃ u, ((runG g₀ ops).heap nm.2).kind = .balancing u) →
        createModular (runG g₀ ops) = .error .key) := by
  obtain ⟨ok, alike, -, -⟩ := user_grid hc hl ops
  have hp := GridOK.tuples ok (hd.congr alike)
  refine ⟨?_, ?_, ?_⟩
  · intro hn
    unfold createModular
    cases hx : (runG g₀ ops).toNonmodular with
    | error e => rfl
    | ok x => exact absurd ⟨x, hx⟩ hn
  · rintro ⟨x, hx⟩ hn
    obtain ⟨k, e⟩ := create_of hx
    rw [e, (parse_of ok hp hx).2.1 hn]
  · rintro ⟨x, hx⟩ hb hn
    obtain ⟨k, e⟩ := create_of hx
    rw [e, (parse_of ok hp hx).2.2 hb hn]

/-! ### C68: what a planner does -/

/-- A planner made in one state of a microgrid is ready in every other. -/
theorem user_ready (hc : Microgrid.create h mods sh tr = .ok g₀) (hl : ∀ nm ∈ mods, LibraryModule (h nm.2))
    (hd : DistinctNames h mods)
    (hroom : ∀ nm ∈ mods, ∀ b, (h nm.2).kind = .battery b → 0 ≤ b.minCapacity ∧ 0 < b.maxCapacity)
    (ops ops' : List GOp) {pl : Planner} (hpl : createModular (runG g₀ ops) = .ok pl) : Ready mods pl (runG g₀ ops') := by
  obtain ⟨ok, alike, -, hct⟩ := user_grid hc hl ops
  obtain ⟨ok', alike', -, hct'⟩ := user_grid hc hl ops'
  have ok₀ := GridOK.created hc hl
  have hheap := (Microgrid.create_ok hc).1
  have core : ∀ ops, ∀ nm ∈ mods, ((runG g₀ ops).heap nm.2).kind.core = (g₀.heap nm.2).kind.core :=
    fun ops nm hm => (kept_core.runG g₀ ops nm.2 (ok₀.wf nm hm)).2
  have hp := GridOK.tuples ok (hd.congr alike)
  obtain ⟨x, k, hx, -⟩ := create_inv hpl
  have r₀ : Ready mods pl g₀ :=
    ⟨ok₀, by rw [show g₀.cont = (runG g₀ ops).cont from (runG_fixed g₀ ops).cont.symm]; exact hp,
      by
        have := convertible_singles hx
        unfold Singles at this ⊢
        rwa [(runG_fixed g₀ ops).cont] at this,
      (create_placed hp hpl).later fun nm hm => (core ops nm hm).symm,
      fun nm hm => by rw [hheap]; exact (hl nm hm).sane,
      fun nm hm b hb => hroom nm hm b (by rw [← hheap]; exact hb)⟩
  exact r₀.runG ops'

/-- C68: a planner made in any state of the microgrid poses, in any other state that has data, the planning problem of that
    state.  The problem has a solution, and the control taken from any of its points asks the modules for the first step.
    Missing: microgrids without grid and genset (`C68_no_source`). -/
theorem C68_problem_partial (hc : Microgrid.create h mods sh tr = .ok g₀) (hl : ∀ nm ∈ mods, LibraryModule (h nm.2))
    (hd : DistinctNames h mods)
    (hroom : ∀ nm ∈ mods, ∀ b, (h nm.2).kind = .battery b → 0 ≤ b.minCapacity ∧ 0 < b.maxCapacity)
    (ops ops' : List GOp) {pl : Planner} (hpl : createModular (runG g₀ ops) = .ok pl)
    (hsrc : HasSource (runG g₀ ops').heap mods) (hlive : ∀ nm ∈ mods, ((runG g₀ ops').heap nm.2).Live) :
    ∃ P, modularProblem pl (runG g₀ ops') = .ok P ∧ Poses (runG g₀ ops').heap mods P ∧ (∃ x, Feasible P x) ∧
      ∀ x, Carries (runG g₀ ops').heap mods P x (modularControl pl.names x) := by
  have r := user_ready hc hl hd hroom ops ops' hpl
  obtain ⟨P, hP, poses, good, win, -, hgen⟩ := r.problem hlive hsrc
  exact ⟨P, hP, poses, exists_feasible good win, fun x => r.carries hgen x⟩

/-- C68: a run of the control completes, for every sound solver, whatever happened before: it resets the microgrid and then
    makes one run per step, each on the first step of a plan for the state of that step, until the given number of steps or
    the end of the episode.  Missing: microgrids without grid and genset (`C68_no_source`). -/
theorem C68_run_partial (hc : Microgrid.create h mods sh none = .ok g₀)
    (hl : ∀ nm ∈ mods, LibraryModule (h nm.2)) (hid : (mods.map Prod.snd).Nodup) (hd : DistinctNames h mods)
    (hr : ∀ nm ∈ mods, (h nm.2).raiseErrors = false) (hs : ∀ f, sh = some f → ∀ i c, ∃ r, f i c = .ok r)
    (hroom : ∀ nm ∈ mods, ∀ b, (h nm.2).kind = .battery b → 0 ≤ b.minCapacity ∧ 0 < b.maxCapacity)
    (hdata : ∀ nm ∈ mods, ∀ t, (h nm.2).series? = some t →
      (h nm.2).initialStep < t.finalStep ∧ t.finalStep ≤ t.rows.length)
    (hsrc : HasSource h mods) (ops ops' : List GOp) {pl : Planner} (hpl : createModular (runG g₀ ops) = .ok pl)
    {solve : Solver} (sound : solve.Sound) (maxSteps : Option Nat)
    (hmax : ∀ n, maxSteps = some n → ∀ nm ∈ mods, ∀ t, (h nm.2).series? = some t → n ≤ t.rows.length) :
    ∃ F g₁ g' os, g₀.finalStep = some F ∧ (runG g₀ ops').reset = (g₁, .ok ()) ∧
      runModular solve pl (runG g₀ ops') maxSteps = (g', .ok ()) ∧ PlanRuns solve mods g₁ os g' ∧
      os.length = min (maxSteps.getD (F - g₀.initialStep)) (F - g₀.initialStep) := by
  have r := user_ready hc hl hd hroom ops ops' hpl
  have hheap := (Microgrid.create_ok hc).1
  have ok₀ := GridOK.created hc hl
  have hb : ∃ nm ∈ mods, ∃ u, (h nm.2).kind = .balancing u := by
    obtain ⟨nm, hm, hcls⟩ := r.placed.balancing
    have hcl : ((runG g₀ ops').heap nm.2).kind.cls = (h nm.2).kind.cls := by
      rw [← hheap]; exact kept_cls.runG g₀ ops' nm.2
    rw [hcl] at hcls
    refine ⟨nm, hm, ?_⟩
    cases hk : (h nm.2).kind <;> rw [hk] at hcls <;> simp [Kind.cls] at hcls ⊢
  obtain ⟨prio, -, hip, -⟩ := C37_default_list hc hl hd.clear ops' false
  obtain ⟨F, g₁, hF, hrs, hg₁, hIF, hR⟩ := user_running hc hl hb hid hd hr hs hdata ops'
  have R := hR _ (by rw [hg₁]; exact user_fits hc hl ops' _ hip)
  have r₁ : Ready mods pl g₁ := by rw [hg₁]; exact user_ready hc hl hd hroom ops _ hpl
  have hsrc₁ : HasSource g₁.heap mods := by
    rw [source_iff] at hsrc ⊢
    have hcl : ∀ j, (g₁.heap j).kind.cls = (h j).kind.cls := fun j => by
      rw [← hheap, hg₁]; exact kept_cls.runG g₀ _ j
    simpa only [hcl] using hsrc
  have hit : iterations (runG g₀ ops') maxSteps = .ok (maxSteps.getD (F - g₀.initialStep)) := by
    unfold iterations
    cases maxSteps with
    | none =>
      simp only [(runG_fixed g₀ ops').finalStep, hF, (runG_fixed g₀ ops').initialStep]
      rfl
    | some n =>
      obtain ⟨l, e, hle⟩ := lengthOf_spec r.ok r.placed.has_series
      simp only [e]
      rw [if_pos ((hle n).mpr ?_)]
      · rfl
      · intro nm hm t ht
        have hsz := kept_size.runG g₀ ops' nm.2
        rw [Module.size_series ht, hheap] at hsz
        obtain ⟨t', ht', hlen⟩ : ∃ t', (h nm.2).series? = some t' ∧ t'.rows.length = t.rows.length := by
          unfold Kind.size at hsz
          unfold Module.series?
          cases hkk : (h nm.2).kind <;> rw [hkk] at hsz <;> simp at hsz <;> simp [hsz]
        rw [← hlen]
        exact hmax n rfl nm hm t' ht'
  obtain ⟨g', os, e, pr, hlen⟩ := r₁.loop hid sound (maxSteps.getD (F - g₀.initialStep)) R hIF hsrc₁
  refine ⟨F, g₁, g', os, hF, hrs, ?_, pr, hlen⟩
  unfold runModular
  simp only [hit, hrs]
  exact e

/-- C68: a number of steps for which there is no data is rejected (`AssertionError`) before anything happens. -/
theorem C68_too_long (hc : Microgrid.create h mods sh tr = .ok g₀)
    (hl : ∀ nm ∈ mods, LibraryModule (h nm.2)) (solve : Solver) (pl : Planner) (ops : List GOp) (n : Nat)
    (nm : String × Nat) (hm : nm ∈ mods) (t : TS) (ht : (h nm.2).series? = some t) (hn : t.rows.length < n) :
    runModular solve pl (runG g₀ ops) (some n) = (runG g₀ ops, .error .assertion) := by
  obtain ⟨ok, -, -, -⟩ := user_grid hc hl ops
  have hheap := (Microgrid.create_ok hc).1
  have hsz := kept_size.runG g₀ ops nm.2
  rw [hheap, Module.size_series ht] at hsz
  obtain ⟨t', ht', hlen⟩ : ∃ t', ((runG g₀ ops).heap nm.2).series? = some t' ∧ t'.rows.length = t.rows.length := by
    unfold Kind.size at hsz
    unfold Module.series?
    cases hkk : ((runG g₀ ops).heap nm.2).kind <;> rw [hkk] at hsz <;> simp at hsz <;> simp [hsz]
  obtain ⟨l, e, hle⟩ := lengthOf_spec ok ⟨nm, hm, t', ht'⟩
  unfold runModular iterations
  simp only [e]
  rw [if_neg]
  intro hnl
  have := (hle n).mp hnl nm hm t' ht'
  omega

/-- Finding, C68: a microgrid without grid and genset is accepted, but no step can be planned: the price of emissions is the
    mean of no prices, and the run ends with `RuntimeError` after the reset. -/
theorem C68_no_source (hc : Microgrid.create h mods sh tr = .ok g₀) (hl : ∀ nm ∈ mods, LibraryModule (h nm.2))
    (hd : DistinctNames h mods)
    (hroom : ∀ nm ∈ mods, ∀ b, (h nm.2).kind = .battery b → 0 ≤ b.minCapacity ∧ 0 < b.maxCapacity)
    (ops ops' : List GOp) {pl : Planner} (hpl : createModular (runG g₀ ops) = .ok pl)
    (hsrc : ¬ HasSource (runG g₀ ops').heap mods) (hlive : ∀ nm ∈ mods, ((runG g₀ ops').heap nm.2).Live) (solve : Solver) :
    modularStep solve pl (runG g₀ ops') = (runG g₀ ops', .error .runtime) := by
  have r := user_ready hc hl hd hroom ops ops' hpl
  unfold modularStep
  rw [r.no_problem hlive hsrc]

/-! ### Examples -/

/-- The planner of the example. -/
def demoPlanner : Planner :=
  { names := { load := some "load", pv := some "pv", battery := some "battery", grid := some "grid", genset := some "genset"
               balancing := some "balancing" }
    horizon := 3
    static := { eta := 1/2, capacity := 100, fuel := 2/5, cycle := 3, lossLoad := 10, gensetMin := 10, gensetMax := 50
                costCo2 := 1/10, gensetCo2 := 2 } }

theorem demoPlanner_ok : createModular demoGrid = .ok demoPlanner := by
  have h : (createModular demoGrid).toOption = some demoPlanner := by decide +kernel
  cases e : createModular demoGrid with
  | error x => rw [e] at h; simp [Except.toOption] at h
  | ok x => rw [e] at h; exact congrArg _ (Option.some.inj h)

/-- The problem of the first step. -/
example : (modularProblem demoPlanner demoGrid).toOption.map (fun P => (P.inputs.load, P.inputs.pv, P.inputs.importPrice,
    P.inputs.soc, P.inputs.pDischarge, P.inputs.gridCo2)) =
    some ([60, 40, 20], [30, 50, 0], [1/5, 3/10, 2/5], 3/5, 30, [1/2, 1/2, 1/2]) := by decide +kernel
/-- The problem of the second step, after a run: the window has moved, and the forecast is filled up. -/
example : (modularProblem demoPlanner (runG demoGrid [.run demoControl false])).toOption.map (fun P =>
    (P.inputs.load, P.inputs.pv, P.inputs.grid)) = some ([40, 20, 30], [50, 0, 25], [1, 1, 1]) := by decide +kernel

theorem demo_room : ∀ nm ∈ demoMods, ∀ b, (demoHeap nm.2).kind = .battery b → 0 ≤ b.minCapacity ∧ 0 < b.maxCapacity := by
  have : ∀ nm ∈ demoMods, (match (demoHeap nm.2).kind with
      | .battery b => decide (0 ≤ b.minCapacity ∧ 0 < b.maxCapacity)
      | _ => true) = true := by decide +kernel
  intro nm hm b hb
  have := this nm hm
  rw [hb] at this
  simpa using this

theorem demo_data : ∀ nm ∈ demoMods, ∀ t, (demoHeap nm.2).series? = some t →
    (demoHeap nm.2).initialStep < t.finalStep ∧ t.finalStep ≤ t.rows.length ∧ 3 ≤ t.rows.length := by
  have : ∀ nm ∈ demoMods, ((demoHeap nm.2).series?.all fun t =>
      decide ((demoHeap nm.2).initialStep < t.finalStep ∧ t.finalStep ≤ t.rows.length ∧ 3 ≤ t.rows.length)) = true := by
    decide +kernel
  intro nm hm t ht
  have := this nm hm
  rw [ht] at this
  simpa using this

theorem demo_source : HasSource demoHeap demoMods :=
  ⟨("genset", 3), by simp [demoMods], .inr (by
    have : (demoHeap 3).kind.cls = .genset := by decide +kernel
    cases hk : (demoHeap 3).kind <;> rw [hk] at this <;> simp [Kind.cls] at this
    exact ⟨_, rfl⟩)⟩

/-- Everything that C68 asks for holds in the example, so runs complete for any sound solver (`exists_sound`): all three steps
    unless fewer are asked for. -/
example (solve : Solver) (sound : solve.Sound) :
    (∃ g₁ g' os, runModular solve demoPlanner (runG demoGrid [.run demoControl false]) none = (g', .ok ()) ∧
      PlanRuns solve demoMods g₁ os g' ∧ os.length = 3) ∧
    ∃ g₁ g' os, runModular solve demoPlanner demoGrid (some 2) = (g', .ok ()) ∧
      PlanRuns solve demoMods g₁ os g' ∧ os.length = 2 := by
  have hr : ∀ nm ∈ demoMods, (demoHeap nm.2).raiseErrors = false := by decide +kernel
  have hF : demoGrid.finalStep = some 3 ∧ demoGrid.initialStep = 0 := by decide +kernel
  constructor
  · obtain ⟨F, g₁, g', os, h1, -, h2, h3, h4⟩ := C68_run_partial demoGrid_ok demo_library demo_ids demo_names hr
      (by simp) demo_room (fun nm hm t ht => ⟨(demo_data nm hm t ht).1, (demo_data nm hm t ht).2.1⟩) demo_source []
      [.run demoControl false] demoPlanner_ok sound none (by simp)
    rw [hF.1] at h1
    obtain rfl := Option.some.inj h1
    exact ⟨g₁, g', os, h2, h3, by rw [h4, hF.2]; rfl⟩
  · obtain ⟨F, g₁, g', os, h1, -, h2, h3, h4⟩ := C68_run_partial demoGrid_ok demo_library demo_ids demo_names hr
      (by simp) demo_room (fun nm hm t ht => ⟨(demo_data nm hm t ht).1, (demo_data nm hm t ht).2.1⟩) demo_source []
      [] demoPlanner_ok sound (some 2) (by
        intro n hn nm hm t ht
        obtain rfl := Option.some.inj hn
        exact le_trans (by omega) (demo_data nm hm t ht).2.2)
    rw [hF.1] at h1
    obtain rfl := Option.some.inj h1
    exact ⟨g₁, g', os, h2, h3, by rw [h4, hF.2]; rfl⟩

/-- The errors of C68: no load, another name for the battery, no balancing module. -/
example : ((Microgrid.create demoHeap (demoMods.drop 1) none none).toOption.map fun g => (createModular g) matches .error .value) =
      some true ∧
    ((Microgrid.create demoHeap (demoMods.map fun nm => (if nm.1 = "battery" then "storage" else nm.1, nm.2)) none
      none).toOption.map fun g => (g.toNonmodular.toOption.isSome, (createModular g) matches .error .attribute)) =
      some (true, true) ∧
    ((Microgrid.create demoHeap (demoMods.take 5) none none).toOption.map fun g =>
      (g.toNonmodular.toOption.isSome, (createModular g) matches .error .key)) = some (true, true) := by decide +kernel

/-- Load, photovoltaics, battery and balancing module only. -/
def sunMods : List (String × Nat) := [("load", 0), ("pv", 1), ("battery", 2), ("balancing", 5)]

/-- The finding is about microgrids that exist. -/
example : ((Microgrid.create demoHeap sunMods none none).toOption.map fun g => (createModular g).toOption.isSome) = some true ∧
    ¬ HasSource demoHeap sunMods := by
  refine ⟨by decide +kernel, ?_⟩
  rw [source_iff]
  decide +kernel

end Pymgrid.MPC
