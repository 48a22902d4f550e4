import Verif.Lemmas.Sample
import Verif.Props.Microgrid
import Verif.Props.Strict

set_option autoImplicit false

/-!
# C45: random actions

`u` and `v` stand for the results of `np.random.rand()`.
-/

namespace Pymgrid

open Module

section
variable {m : Module} {u v : ℚ}

/-- C45, batteries, grids and renewables: the strict sample exists; stepping the module with it succeeds, whether or not
    the module raises on infeasible requests; and the energy exchanged is exactly what was drawn, `lo + u (hi - lo)` with
    `lo`, `hi` the bounds of the moment.  So nothing is clipped and, over the draws, nothing feasible is left out.
    Missing for the full claim: gensets (`C45_genset_strict_sample`) and balancing modules (`C45_balancing_sample`). -/
theorem C45_strict_sample_partial (h : LibraryModule m) (hl : m.Live) (hg : ∀ g, m.kind ≠ .genset g) {lo hi : ℚ}
    (hw : m.window = some (lo, hi)) (hu : 0 ≤ u ∧ u ≤ 1) :
    ∃ a m' o, m.sampleAction true u v = .ok a ∧ m.step a true = (m', .ok o) ∧
      o.info.provided.getD 0 - o.info.absorbed.getD 0 = lo + u * (hi - lo) ∧
      lo ≤ lo + u * (hi - lo) ∧ lo + u * (hi - lo) ≤ hi := by
  obtain ⟨hle, a, h1, h2⟩ := h.wf.sample_strict h.spaced hl hg hw u v
  have hx : lo ≤ lo + u * (hi - lo) ∧ lo + u * (hi - lo) ≤ hi := by constructor <;> nlinarith [hu.1, hu.2]
  obtain ⟨m', o, h3, h4⟩ := h.wf.step_in_window hl hg hw h2 hx
  exact ⟨_, m', o, h1, h3, h4, hx.1, hx.2⟩

/-- C45, loads: the sample is the empty action, which the module executes; it consumes the current load. -/
theorem C45_load_sample (h : LibraryModule m) (hl : m.Live) (t : TS) (ht : m.kind = .load t) (strict : Bool) :
    m.sampleAction strict u v = .ok (.arr []) ∧
      ∃ m' o x, m.step (.arr []) true = (m', .ok o) ∧ t.rows[m.currentStep]? = some [x] ∧
        o.info.provided = none ∧ o.info.absorbed = some (-x) := by
  refine ⟨by simp [sampleAction, ht], ?_⟩
  have ha := h.spaced.act
  have hw := h.wf
  have hq : m.request (.arr []) true = .ok 0 := by
    rw [ht] at ha
    simp only [Kind.actBox] at ha
    simp [request, denormalizeAct, ha, Space.denormalize, Space.apply, Space.dim, mapBounds, Space.item, energyOf]
  cases hw with
  | load t' h' w =>
    obtain rfl : t' = t := by have := h'.kind; rw [ht] at this; injection this with e; exact e.symm
    obtain ⟨r, hr⟩ := hl.row h'.ts.series
    obtain ⟨x, rfl, -, hi⟩ := h'.itemAt hr
    have hun := (h'.unnormalizedStep 0).2 le_rfl
    rw [hi] at hun
    obtain ⟨pre, row, f, obs, -, -, -, -, he⟩ := h'.ts.stepEnergy_ok hun (by simp) (by simp [h'.abs]) w
    rw [h'.ts.step_eq, hq]
    exact ⟨_, _, x, he, hr, rfl, by simp⟩
  | battery b h' => have := h'.kind; simp [ht] at this
  | genset g h' => have := h'.kind; simp [ht] at this
  | grid p t h' => have := h'.kind; simp [ht] at this
  | renewable t h' => have := h'.kind; simp [ht] at this
  | balancing t h' => have := h'.kind; simp [ht] at this

/-- C45 fails for gensets: no strict sample can be drawn; the call raises `TypeError` in every state. -/
theorem C45_genset_strict_sample (h : LibraryModule m) (g : Genset) (hg : m.kind = .genset g) :
    m.sampleAction true u v = .error .type :=
  WF.sample_genset h.spaced hg u v

/-- C45 fails for balancing modules: every strict sample is 0 and stepping the module with it raises. -/
theorem C45_balancing_sample (h : LibraryModule m) (b : Unbalanced) (hb : m.kind = .balancing b) :
    m.sampleAction true u v = .ok (.num 0) ∧ m.step (.num 0) true = (m, .error .assertion) := by
  have ha := h.spaced.act
  rw [hb] at ha
  simp only [Kind.actBox] at ha
  constructor
  · simp [sampleAction, hb, sampleBase, isSink, isSource, maxProduction, maxConsumption, normBound, ha]
  · rw [step_eq_baseStep m _ _ (by simp [hb]), baseStep_eq]
    simp [request, denormalizeAct, ha]

end

section
variable {h : Heap} {mods : List (String × Nat)} {sh : Option Shaper} {tr : Option (Nat → Nat → Option Nat → Except Err (Nat × Nat))}
  {g₀ : Microgrid}

/-- Action spaces and classes stay what they are. -/
theorem user_spaced (hc : Microgrid.create h mods sh tr = .ok g₀) (hl : ∀ nm ∈ mods, LibraryModule (h nm.2))
    (ops : List GOp) : (∀ nm ∈ mods, ((runG g₀ ops).heap nm.2).Spaced) ∧
      ∀ j g, ((runG g₀ ops).heap j).kind = .genset g → ∃ g', (h j).kind = .genset g' := by
  obtain ⟨rfl, -⟩ := Microgrid.create_ok hc
  refine ⟨fun nm hm => kept_spaced.runG g₀ ops nm.2 (hl nm hm).spaced, fun j g hk => ?_⟩
  have := kept_cls.runG g₀ ops j
  rw [hk] at this
  cases hk' : (g₀.heap j).kind with
  | genset g' => exact ⟨g', rfl⟩
  | _ => rw [hk'] at this; simp [Kind.cls] at this

/-- C45, microgrids: a sampled action can be run.  In every microgrid with a balancing module, whose modules do not raise on
    infeasible requests and still have data, `sample_action` returns actions for exactly the names of
    `microgrid.controllable`, one for each module, and `run` with it succeeds.  Missing for strict samples: microgrids
    with gensets (`C45_strict_sample_genset_microgrid`). -/
theorem C45_sample_runs_partial (hc : Microgrid.create h mods sh tr = .ok g₀)
    (hl : ∀ nm ∈ mods, LibraryModule (h nm.2)) (hb : ∃ nm ∈ mods, ∃ u, (h nm.2).kind = .balancing u)
    (hid : (mods.map Prod.snd).Nodup) (hr : ∀ nm ∈ mods, (h nm.2).raiseErrors = false)
    (hs : ∀ f, sh = some f → ∀ i c, ∃ r, f i c = .ok r) (ops : List GOp)
    (hlive : ∀ nm ∈ mods, ((runG g₀ ops).heap nm.2).Live) (strict : Bool)
    (hg : strict = true → ∀ nm ∈ mods, ∀ g, (h nm.2).kind ≠ .genset g) (draw : String → Nat → ℚ × ℚ)
    (hd : ∀ n j, 0 ≤ (draw n j).1 ∧ 0 ≤ (draw n j).2 ∧ (draw n j).2 ≤ 1) :
    ∃ d g' o, (runG g₀ ops).sampleAction strict false draw = .ok d ∧
      d.map Prod.fst = ((runG g₀ ops).cont.levelDict .controllable).map Prod.fst ∧
      (∀ nl ∈ (runG g₀ ops).cont.levelDict .controllable, ∃ as, dictGet? d nl.1 = some as ∧ as.length = nl.2.length) ∧
      (runG g₀ ops).run d.control true = (g', .ok o) := by
  obtain ⟨ok, -, -, hcont⟩ := user_grid hc hl ops
  obtain ⟨hsp, hcls⟩ := user_spaced hc hl ops
  obtain ⟨d, e1, e2, e3⟩ := Microgrid.sampleDict_ok (h := (runG g₀ ops).heap) (strict := strict)
    (P := fun i a => ((runG g₀ ops).heap i).Accepts a true) (d := (runG g₀ ops).cont.levelDict .controllable) draw
    (by rw [hcont]; exact Container.toDict_nodup _) (fun nl hnl => by
      refine ⟨PriorityList.level_nonempty (by rw [hcont] at hnl; exact hnl), fun i hi => ?_⟩
      obtain ⟨m1, m2⟩ := ok.mem_levelDict nl hnl i hi
      have hng : strict = true → ∀ g, ((runG g₀ ops).heap i).kind ≠ .genset g := by
        intro hst g hk
        obtain ⟨g', hk'⟩ := hcls i g hk
        exact hg hst _ m1 g' hk'
      exact ⟨((ok.wf _ m1).sample_accepts (hsp _ m1) (hlive _ m1) m2 hng (le_refl (0 : ℚ)) ⟨le_refl (0 : ℚ), zero_le_one⟩).1,
        fun j => ((ok.wf _ m1).sample_accepts (hsp _ m1) (hlive _ m1) m2 hng (hd nl.1 j).1 (hd nl.1 j).2).2⟩)
  obtain ⟨g', o, hrun⟩ := C19_run_succeeds hc hl hb hid hr hs ops hlive d.control true fun nl hnl => by
    obtain ⟨as, h1, -, h3⟩ := e3 nl hnl
    exact ⟨.seq as, by rw [Data.control_get, h1]; rfl, h3⟩
  exact ⟨d, g', o, e1, e2, fun nl hnl => by obtain ⟨as, h1, h2, -⟩ := e3 nl hnl; exact ⟨as, h1, h2⟩, hrun⟩

/-- C45 fails for microgrids with gensets: strict sampling raises `TypeError`, whatever is drawn. -/
theorem C45_strict_sample_genset_microgrid (hc : Microgrid.create h mods sh tr = .ok g₀)
    (hl : ∀ nm ∈ mods, LibraryModule (h nm.2)) (hd : DistinctNames h mods) (ops : List GOp)
    (hlive : ∀ nm ∈ mods, ((runG g₀ ops).heap nm.2).Live) (nm : String × Nat) (hm : nm ∈ mods) (g : Genset)
    (hg : (h nm.2).kind = .genset g) (draw : String → Nat → ℚ × ℚ)
    (hdr : ∀ n j, 0 ≤ (draw n j).1 ∧ 0 ≤ (draw n j).2 ∧ (draw n j).2 ≤ 1) :
    (runG g₀ ops).sampleAction true false draw = .error .type := by
  obtain ⟨ok, alike, -, -⟩ := user_grid hc hl ops
  obtain ⟨hsp, -⟩ := user_spaced hc hl ops
  have hk : ∃ g', ((runG g₀ ops).heap nm.2).kind = .genset g' := by
    obtain ⟨rfl, -⟩ := Microgrid.create_ok hc
    have := kept_cls.runG g₀ ops nm.2
    rw [hg] at this
    cases hk' : ((runG g₀ ops).heap nm.2).kind with
    | genset g' => exact ⟨g', rfl⟩
    | _ => rw [hk'] at this; simp [Kind.cls] at this
  obtain ⟨g', hk⟩ := hk
  have hf : ((runG g₀ ops).heap nm.2).ffc = .controllable := by
    cases ok.wf nm hm with
    | genset g'' h' => exact h'.ffc
    | battery b h' => have := h'.kind; simp [hk] at this
    | load t h' => have := h'.kind; simp [hk] at this
    | grid p t h' => have := h'.kind; simp [hk] at this
    | renewable t h' => have := h'.kind; simp [hk] at this
    | balancing t h' => have := h'.kind; simp [hk] at this
  have hcl : ClearNames (runG g₀ ops).heap mods := ClearNames.congr alike hd.clear
  obtain ⟨ids, hids⟩ := Container.level_key (h := (runG g₀ ops).heap) hm
  have hin : nm.2 ∈ ids := by
    have := Container.level_named hcl hids
    simp only at this
    rw [this]
    unfold modulesNamed
    simp only [List.mem_map, List.mem_filter, decide_eq_true_eq]
    exact ⟨nm, ⟨hm, by simp⟩, rfl⟩
  rw [hf, ← ok.cont] at hids
  refine Microgrid.sampleDict_error draw (fun nl hnl => ?_) hids hin fun j => WF.sample_genset (hsp nm hm) hk _ _
  refine ⟨PriorityList.level_nonempty (by rw [ok.cont] at hnl; exact hnl), fun i hi => ?_⟩
  obtain ⟨m1, m2⟩ := ok.mem_levelDict nl hnl i hi
  have hdim := ((ok.wf _ m1).sample_accepts (strict := false) (hsp _ m1) (hlive _ m1) m2 (by simp) (le_refl (0 : ℚ))
    ⟨le_refl (0 : ℚ), zero_le_one⟩).1
  refine ⟨hdim, fun j => ?_⟩
  by_cases hgi : ∃ g, ((runG g₀ ops).heap i).kind = .genset g
  · obtain ⟨g, hgi⟩ := hgi
    exact .inr (WF.sample_genset (hsp _ m1) hgi _ _)
  · obtain ⟨-, a, h1, -⟩ := (ok.wf _ m1).sample_accepts (strict := true) (hsp _ m1) (hlive _ m1) m2
      (fun _ g hk => hgi ⟨g, hk⟩) (hdr nl.1 j).1 (hdr nl.1 j).2
    exact .inl ⟨a, h1⟩

end

/-! ### Examples -/

/-- The hypotheses of `C45_strict_sample_partial` hold; the battery may absorb up to 40 and provide up to 15. -/
example : ∃ a m' o, sampleBattery.sampleAction true (1/4) 0 = .ok a ∧ sampleBattery.step a true = (m', .ok o) ∧
    o.info.provided.getD 0 - o.info.absorbed.getD 0 = -40 + 1/4 * (15 - -40) ∧
    -40 ≤ (-40 + 1/4 * (15 - -40) : ℚ) ∧ (-40 + 1/4 * (15 - -40) : ℚ) ≤ 15 :=
  C45_strict_sample_partial (.battery sampleBattery_ok sampleBattery_good) 
    (by intro t ht; have : sampleBattery.series?.isNone = true := by decide +kernel
        simp [ht] at this)
    (by intro g hg; have : sampleBattery.kind.cls = .battery := by decide +kernel
        simp [hg, Kind.cls] at this)
    (by decide +kernel) (by norm_num)

example : ((sampleBattery.sampleAction true (1/4) 0).toOption.map Act.vals,
    (sampleBattery.step (.num (27/56)) true).2.toOption.map fun o => (o.info.provided, o.info.absorbed)) =
    (some [27/56], some (none, some (105/4))) := by decide +kernel
example : ((exPv.sampleAction true (1/4) 0).toOption.map Act.vals,
    (exPv.step (.num (3/20)) true).2.toOption.map (·.info.provided)) = (some [3/20], some (some (15/2))) := by decide +kernel
/-- In the second step the grid is down and the only strict sample is 0. -/
example : ((runOps exGrid [.step (.num 5) false]).sampleAction true (1/4) 0).toOption.map Act.vals = some [1/3] ∧
    ((runOps exGrid [.step (.num 5) false]).step (.num (1/3)) true).2.toOption.map
      (fun o => (o.info.provided, o.info.absorbed)) = some (some 0, none) := by decide +kernel
/-- Other samples of the same grid are clipped. -/
example : ((runOps exGrid [.step (.num 5) false]).step (.num (3/4)) true).2.toOption.map
      (fun o => (o.info.provided, o.info.absorbed)) = some (some 0, none) := by decide +kernel

example : sampleGenset.sampleAction true (1/2) (1/2) = .error .type :=
  C45_genset_strict_sample (.genset sampleGenset_ok (by norm_num)) _ rfl

theorem demo_live : ∀ nm ∈ demoMods, (demoGrid.heap nm.2).Live := by
  have : ∀ nm ∈ demoMods, ((demoGrid.heap nm.2).series?.all fun t =>
      decide ((demoGrid.heap nm.2).currentStep < t.rows.length)) = true := by decide +kernel
  intro nm hm t ht
  have := this nm hm
  rw [ht] at this
  simpa using this

/-- The draws of the examples. -/
def demoDraw : String → Nat → ℚ × ℚ := fun _ _ => (1/4, 3/4)

/-- A sampled action of the example microgrid, and its result. -/
example : ((demoGrid.sampleAction false false demoDraw).toOption.map fun d => d.map fun nl => (nl.1, nl.2.map Act.vals)) =
    some [("genset", [[3/4, 1/4]]), ("battery", [[1/4]]), ("grid", [[1/4]])] := by decide +kernel
example : ∃ d g' o, demoGrid.sampleAction false false demoDraw = .ok d ∧
    d.map Prod.fst = (demoGrid.cont.levelDict .controllable).map Prod.fst ∧
    (∀ nl ∈ demoGrid.cont.levelDict .controllable, ∃ as, dictGet? d nl.1 = some as ∧ as.length = nl.2.length) ∧
    demoGrid.run d.control true = (g', .ok o) :=
  C45_sample_runs_partial demoGrid_ok demo_library demo_balancing demo_ids (by decide +kernel) (by simp) []
    demo_live false (by simp) demoDraw (by intro n j; norm_num [demoDraw])
example : demoGrid.sampleAction true false demoDraw = .error .type :=
  C45_strict_sample_genset_microgrid demoGrid_ok demo_library demo_names [] demo_live ("genset", 3) (by simp [demoMods]) _ rfl
    demoDraw (by intro n j; norm_num [demoDraw])

/-- The example microgrid without its genset. -/
def plainMods : List (String × Nat) := demoMods.filter fun nm => nm.2 ≠ 3

/-- The microgrid of these modules. -/
def plainGrid : Microgrid := okGrid (Microgrid.create demoHeap plainMods none none)

theorem plainGrid_ok : Microgrid.create demoHeap plainMods none none = .ok plainGrid := okGrid_eq (by decide +kernel)

/-- A strict sample and its run. -/
example : ∃ d g' o, plainGrid.sampleAction true false demoDraw = .ok d ∧
    d.map Prod.fst = (plainGrid.cont.levelDict .controllable).map Prod.fst ∧
    (∀ nl ∈ plainGrid.cont.levelDict .controllable, ∃ as, dictGet? d nl.1 = some as ∧ as.length = nl.2.length) ∧
    plainGrid.run d.control true = (g', .ok o) := by
  have hsub : ∀ nm ∈ plainMods, nm ∈ demoMods := fun nm hm => (List.mem_filter.mp hm).1
  have hheap : plainGrid.heap = demoGrid.heap :=
    (Microgrid.create_ok plainGrid_ok).1.trans (Microgrid.create_ok demoGrid_ok).1.symm
  refine C45_sample_runs_partial plainGrid_ok (fun nm hm => demo_library nm (hsub nm hm))
    ⟨("balancing", 5), by decide, _, rfl⟩ (by decide) (by decide +kernel) (by simp) [] ?_ true ?_ demoDraw
    (by intro n j; norm_num [demoDraw])
  · intro nm hm
    change (plainGrid.heap nm.2).Live
    rw [hheap]
    exact demo_live nm (hsub nm hm)
  · intro _ nm hm g hg
    have : ∀ nm ∈ plainMods, (demoHeap nm.2).kind.cls ≠ .genset := by decide +kernel
    exact this nm hm (by rw [hg]; rfl)
example : ((plainGrid.sampleAction true false demoDraw).toOption.map fun d => d.map fun nl => (nl.1, nl.2.map Act.vals)) =
    some [("battery", [[27/56]]), ("grid", [[1/4]])] := by decide +kernel

end Pymgrid
