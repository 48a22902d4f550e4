import Verif.Lemmas.GridSerialize
import Verif.Props.Shaper

set_option autoImplicit false

/-! C63: dumping and loading microgrids. -/

namespace Pymgrid
open Pymgrid Module

section
variable {h : Heap} {mods : List (String × Nat)} {sh : Option Shaper}
  {tr : Option (Nat → Nat → Option Nat → Except Err (Nat × Nat))} {g₀ : Microgrid} {c : FFC} {ops : List GOp}

private theorem det (hc : Microgrid.create h mods sh tr = .ok g₀) (hd : ∀ nm ∈ mods, (h nm.2).Deterministic)
    (htr : tr = none ∨ ops = []) : ∀ nm ∈ mods, ((runG g₀ ops).heap nm.2).Deterministic := by
  obtain ⟨e, -, -, et, -⟩ := Microgrid.create_ok hc
  intro nm hm
  rcases htr with rfl | rfl
  · refine runG_rel respected_det (fun m h => (twin_reset (rfl : m.core = m.core) h).2.2) et ops nm.2 ?_
    rw [e]
    exact hd nm hm
  · show (g₀.heap nm.2).Deterministic
    rw [e]
    exact hd nm hm

/-- C63: a microgrid can be dumped and loaded in every state, except for those with a module that was given a function,
    which cannot be dumped. -/
theorem C63_dump_load (hc : Microgrid.create h mods sh tr = .ok g₀) (hl : ∀ nm ∈ mods, LibraryModule (h nm.2))
    (hid : (mods.map Prod.snd).Nodup) (hd : DistinctNames h mods)
    (hcls : ∀ nm ∈ mods, (h nm.2).kind.cls = .grid → (h nm.2).ffc = c) (htr : tr = none ∨ ops = []) :
    let g := runG g₀ ops
    ((∃ nm ∈ mods, (g.heap nm.2).HasCallable) → g.dump.isOk = false) ∧
    ((∀ nm ∈ mods, ¬ (g.heap nm.2).HasCallable) → ∃ l, g.reload c = .ok l) := by
  intro g
  have d : Dumpable mods c g := Dumpable.reach hc hl hid hd hcls htr
  refine ⟨?_, fun hn => ⟨_, d.reload hn⟩⟩
  rintro ⟨nm, hm, hcal⟩
  have := dumpAll_error (h := g.heap) (T := g.tuples) (fun x hx => d.lib x (d.perm.subset hx))
    ⟨nm, d.perm.symm.subset hm, hcal⟩
  obtain ⟨rows, hr⟩ := d.log
  obtain ⟨raw, l1, -⟩ := Logger.Holds.serialize (show g.balanceLog.Holds (.str "reward" :: _) rows from hr)
  unfold Microgrid.dump
  rw [l1]
  simp only [this]
  rfl

/-- C63: the loaded microgrid has the same modules under the same names in the same order, each as loading it on its own
    gives (C43), the same steps, trajectory function and balance log; the reward shaping function and the log of
    additional information are gone.  `T` lists names and identities of the modules of the dumped microgrid. -/
theorem C63_modules (hc : Microgrid.create h mods sh tr = .ok g₀) (hl : ∀ nm ∈ mods, LibraryModule (h nm.2))
    (hid : (mods.map Prod.snd).Nodup) (hd : DistinctNames h mods)
    (hcls : ∀ nm ∈ mods, (h nm.2).kind.cls = .grid → (h nm.2).ffc = c) (htr : tr = none ∨ ops = [])
    {l : LoadedGrid} (hr : (runG g₀ ops).reload c = .ok l) :
    let g := runG g₀ ops
    let T := Container.toTuples g.cont.fullDict
    T.Perm mods ∧
    Container.toTuples l.grid.cont.fullDict = T.zipIdx.map (fun x => (x.1.1, x.2)) ∧
    (∀ k x, T[k]? = some x → ∃ y, (g.heap x.2).reload = .ok y ∧ l.grid.heap k = y.mod ∧ l.frozen k = y.frozen) ∧
    l.grid.initialStep = g.initialStep ∧ l.grid.finalStep = g.finalStep ∧ l.grid.trajectory = g.trajectory ∧
    l.grid.balanceLog = g.balanceLog ∧ (l.frozenBalance = true ↔ 0 < g.balanceLog.len) ∧
    l.grid.shaper = none ∧ l.grid.otherLog = {} := by
  intro g T
  have d : Dumpable mods c g := Dumpable.reach hc hl hid hd hcls htr
  have hn := d.no_callable hr
  have hl' : l = reloadedGrid g := by
    rw [d.reload hn] at hr
    exact (Except.ok.inj hr).symm
  subst hl'
  refine ⟨d.perm, ?_, ?_, rfl, rfl, rfl, rfl, by simp [reloadedGrid], rfl, rfl⟩
  · have h1 : Container.toTuples (reloadedGrid g).grid.cont.fullDict = T.map fun x => (x.1, numberIn T x.2) := by
      show Container.toTuples (g.cont.rename (numberIn g.tuples)).fullDict = _
      rw [Container.rename_full, rename_toTuples]
    rw [h1, ← references_number d.nodup g.heap]
    simp [Legacy.references, List.map_map, List.zipIdx_map, T, Function.comp_def]
  · intro k x hx
    have hm : x ∈ T := List.mem_of_getElem? hx
    have hm' := d.perm.subset hm
    refine ⟨loadedOf (g.heap x.2), loadedOf_eq (d.lib x hm') (hn x hm'), ?_, ?_⟩
    · have := reloadedGrid_heap (g := g) hm
      have hk : numberIn g.tuples x.2 = k := by
        obtain ⟨hlt, he⟩ := List.getElem?_eq_some_iff.mp hx
        have := List.Nodup.idxOf_getElem d.nodup k (by simpa using hlt)
        rw [List.getElem_map] at this
        unfold numberIn
        rw [← this]
        congr 1
        rw [← he]
      rw [← hk]
      exact this
    · show ((g.tuples[k]?).map fun x => (loadedOf (g.heap x.2)).frozen).getD false = _
      rw [show g.tuples[k]? = some x from hx]
      rfl

private theorem index_of {g : Microgrid} (d : Dumpable mods c g) {k : Nat} {x : String × Nat}
    (hx : (Container.toTuples g.cont.fullDict)[k]? = some x) : numberIn g.tuples x.2 = k := by
  obtain ⟨hlt, he⟩ := List.getElem?_eq_some_iff.mp hx
  have := List.Nodup.idxOf_getElem d.nodup k (by simpa using hlt)
  rw [List.getElem_map] at this
  unfold numberIn
  rw [← this]
  congr 1
  rw [← he]

private theorem states {g : Microgrid} (d : Dumpable mods c g) {g₁ g₂ : Microgrid}
    (t : TwinGrid (numberIn g.tuples) g₁ g₂) (hcont : g₁.cont = g.cont) {k : Nat} {x : String × Nat}
    (hx : (Container.toTuples g.cont.fullDict)[k]? = some x) :
    (g₂.heap k).stateDict = (g₁.heap x.2).stateDict := by
  have hm := d.perm.subset (List.mem_of_getElem? hx)
  have := t.heap.core x.2 (by rw [hcont]; exact d.mem_fullList.mpr (List.mem_map_of_mem hm))
  rw [index_of d hx] at this
  rw [← core_stateDict, ← this, core_stateDict]

/-- C63 for microgrids with empty logs (new or just reset) without random numbers and without a reward shaping function:
    every further sequence of runs and resets returns the same on the loaded microgrid and leaves its modules in the same
    states.
    Missing: microgrids with log entries, for which it fails (`C63_cannot_continue`), with a reward shaping function, for
    which it fails too (`C63_shaper_lost`), and random forecasters. -/
theorem C63_resume_partial (hc : Microgrid.create h mods none tr = .ok g₀) (hl : ∀ nm ∈ mods, LibraryModule (h nm.2))
    (hid : (mods.map Prod.snd).Nodup) (hd : DistinctNames h mods)
    (hcls : ∀ nm ∈ mods, (h nm.2).kind.cls = .grid → (h nm.2).ffc = c) (htr : tr = none ∨ ops = [])
    (hdet : ∀ nm ∈ mods, (h nm.2).Deterministic)
    (h0 : ∀ nm ∈ mods, ((runG g₀ ops).heap nm.2).logger.len = 0) (hb : (runG g₀ ops).balanceLog.len = 0)
    {l : LoadedGrid} (hr : (runG g₀ ops).reload c = .ok l) (future : List GOp) :
    let g := runG g₀ ops
    l.results future = g.results future ∧
    ∀ k x, (Container.toTuples g.cont.fullDict)[k]? = some x →
      ((l.after future).grid.heap k).stateDict = ((runG g future).heap x.2).stateDict := by
  intro g
  have d : Dumpable mods c g := Dumpable.reach hc hl hid hd hcls htr
  have hn := d.no_callable hr
  have hs : g.shaper = none := by
    obtain ⟨-, -, e, -⟩ := Microgrid.create_ok hc
    exact (runG_fixed g₀ ops).shaper.trans e
  have hl' : l = ⟨(reloadedGrid g).grid, fun _ => false, false⟩ := by
    rw [d.reload hn] at hr
    rw [← Except.ok.inj hr]
    exact d.unfrozen hn h0 hb
  subst hl'
  obtain ⟨e1, e2⟩ := loaded_results (reloadedGrid g).grid future
  obtain ⟨t1, t2⟩ := (d.twin hn (det hc hdet htr) h0 hs).results future
  refine ⟨e1.trans t1, ?_⟩
  intro k x hx
  rw [e2]
  exact states d t2 (runG_fixed g future).cont hx

/-- C63 after a reset: whatever happened before the dump, resetting the dumped and the loaded microgrid succeeds, and from
    then on every sequence of runs and resets returns the same on both and leaves their modules in the same states.
    Missing: behaviour before the reset, trajectory and reward shaping functions, random forecasters. -/
theorem C63_after_reset_partial (hc : Microgrid.create h mods none none = .ok g₀)
    (hl : ∀ nm ∈ mods, LibraryModule (h nm.2)) (hid : (mods.map Prod.snd).Nodup) (hd : DistinctNames h mods)
    (hcls : ∀ nm ∈ mods, (h nm.2).kind.cls = .grid → (h nm.2).ffc = c)
    (hdet : ∀ nm ∈ mods, (h nm.2).Deterministic)
    {l : LoadedGrid} (hr : (runG g₀ ops).reload c = .ok l) (future : List GOp) :
    let g := runG g₀ ops
    g.reset.2 = .ok () ∧ l.reset.2 = .ok () ∧
    l.reset.1.results future = g.reset.1.results future ∧
    ∀ k x, (Container.toTuples g.cont.fullDict)[k]? = some x →
      ((l.reset.1.after future).grid.heap k).stateDict = ((runG g.reset.1 future).heap x.2).stateDict := by
  intro g
  have d : Dumpable mods c g := Dumpable.reach hc hl hid hd hcls (.inl rfl)
  have hn := d.no_callable hr
  have hl' : l = reloadedGrid g := by
    rw [d.reload hn] at hr
    exact (Except.ok.inj hr).symm
  subst hl'
  obtain ⟨-, -, es, et, -⟩ := Microgrid.create_ok hc
  have hf := runG_fixed g₀ ops
  obtain ⟨g₁, g₂, e1, e2, t⟩ := d.reset_loaded hn (det hc hdet (.inl rfl)) (hf.trajectory.trans et) (hf.shaper.trans es)
  have hcont : g₁.cont = g.cont := by
    have := (runG_fixed g [.reset]).cont
    simp only [runG, List.foldl_cons, List.foldl_nil, GOp.apply, e1] at this
    exact this
  rw [e1, e2]
  obtain ⟨l1, l2⟩ := loaded_results g₂ future
  obtain ⟨t1, t2⟩ := t.results future
  refine ⟨rfl, rfl, l1.trans t1, ?_⟩
  intro k x hx
  simp only [l2]
  exact states d t2 ((runG_fixed g₁ future).cont.trans hcont) hx

/-- C63 is violated by every microgrid with an entry in its balance log, that is after a successful run: no run of the
    loaded microgrid succeeds. -/
theorem C63_cannot_continue (hc : Microgrid.create h mods sh tr = .ok g₀) (hl : ∀ nm ∈ mods, LibraryModule (h nm.2))
    (hid : (mods.map Prod.snd).Nodup) (hd : DistinctNames h mods)
    (hcls : ∀ nm ∈ mods, (h nm.2).kind.cls = .grid → (h nm.2).ffc = c) (htr : tr = none ∨ ops = [])
    {l : LoadedGrid} (hr : (runG g₀ ops).reload c = .ok l) (hb : 0 < (runG g₀ ops).balanceLog.len)
    (control : List (String × Ctrl)) (n : Bool) : ∃ e, (l.run control n).2 = .error e := by
  have hf : l.frozenBalance = true := (C63_modules hc hl hid hd hcls htr hr).2.2.2.2.2.2.2.1.mpr hb
  unfold LoadedGrid.run
  simp only [hf]
  exact runWith_stuck _ _ _

end

/-! ### Examples and violations -/

/-- C63 is violated by the reward shaping function: it is not dumped.  A run of the example microgrid with the battery
    shaper gives the reward 1/12, after loading it gives -243/2, the cost of the energy. -/
theorem C63_shaper_lost :
    (shapedGrid.run demoControl false).2.toOption.map (·.reward) = some (1/12) ∧
      (shapedGrid.reload .controllable).toOption.map
        (fun l => (l.run demoControl false).2.toOption.map (·.reward)) = some (some (-243/2)) := by
  decide +kernel

/-- The example microgrid with one name for load and photovoltaics. -/
def nodeMods : List (String × Nat) :=
  [("node", 0), ("node", 1), ("battery", 2), ("genset", 3), ("grid", 4), ("balancing", 5)]

def nodeGrid : Microgrid := okGrid (Microgrid.create demoHeap nodeMods none none)

/-- C63 needs names that tell modules of different kinds apart: a load and photovoltaics of the same name make a
    microgrid that runs with both, but loading its dump gives one without the load. -/
theorem C63_shared_name :
    Microgrid.create demoHeap nodeMods none none = .ok nodeGrid ∧
    (nodeGrid.run demoControl false).2.toOption.map (fun o => (o.provided, o.absorbed)) = some (65, 65) ∧
    (nodeGrid.reload .controllable).toOption.map (fun l => (Container.toTuples l.grid.cont.fullDict).map Prod.fst) =
      some ["node", "balancing", "genset", "battery", "grid"] ∧
    (nodeGrid.reload .controllable).toOption.map
      (fun l => (l.run demoControl false).2.toOption.map fun o => (o.provided, o.absorbed)) = some (some (30, 30)) := by
  exact ⟨okGrid_eq (by decide +kernel), by decide +kernel, by decide +kernel, by decide +kernel⟩

/-- The example microgrid after a run. -/
def ranGrid : Microgrid := runG demoGrid [.run demoControl false]

theorem demo_class : ∀ nm ∈ demoMods, (demoHeap nm.2).kind.cls = .grid → (demoHeap nm.2).ffc = .controllable := by
  decide +kernel

theorem demo_deterministic : ∀ nm ∈ demoMods, (demoHeap nm.2).Deterministic := by
  have key : ∀ nm ∈ demoMods, ((demoHeap nm.2).series?.all
      fun t => match t.forecaster.kind with | .oracle => true | _ => false) = true := by decide +kernel
  intro nm hm t ht
  have := key nm hm
  rw [ht] at this
  simp only [Option.all_some] at this
  cases hk : t.forecaster.kind <;> rw [hk] at this <;> simp_all [FKind.Deterministic]

/-- Non-vacuity of `C63_dump_load`, `C63_modules` and `C63_cannot_continue`: the microgrid after a run has a log entry
    and can be dumped and loaded; the loaded one cannot run. -/
example : (∀ nm ∈ demoMods, ¬ (ranGrid.heap nm.2).HasCallable) ∧ (ranGrid.reload .controllable).isOk = true ∧
    0 < ranGrid.balanceLog.len ∧
    (ranGrid.reload .controllable).toOption.map (fun l => (l.run demoControl false).2.isOk) = some false := by
  refine ⟨?_, by decide +kernel, by decide +kernel, by decide +kernel⟩
  intro nm hm
  rw [← representable_iff]
  revert nm
  decide +kernel

/-- Non-vacuity of `C63_resume_partial`: the new microgrid has empty logs; after loading, two runs, a reset and a run give
    the rewards that they give without. -/
example : (∀ nm ∈ demoMods, (demoGrid.heap nm.2).logger.len = 0) ∧ demoGrid.balanceLog.len = 0 ∧
    (demoGrid.reload .controllable).toOption.map
      (fun l => (l.results [.run demoControl false, .run demoControl₂ false, .reset, .run demoControl false]).map
        fun r => r.toOption.map fun o => o.map (·.reward)) =
      some [some (some (-243/2)), some (some (-21)), some none, some (some (-243/2))] := by
  decide +kernel

/-- Non-vacuity of `C63_after_reset_partial`: the loaded microgrid that cannot run does so after a reset. -/
example : (ranGrid.reload .controllable).toOption.map
    (fun l => (l.reset.1.run demoControl false).2.toOption.map (·.reward)) = some (some (-243/2)) := by
  decide +kernel

/-- The theorems apply to these. -/
example : ∃ l, ranGrid.reload .controllable = .ok l ∧
    ∀ future, l.reset.1.results future = ranGrid.reset.1.results future := by
  have hn : ∀ nm ∈ demoMods, ¬ (ranGrid.heap nm.2).HasCallable := by
    intro nm hm
    rw [← representable_iff]
    revert nm
    decide +kernel
  obtain ⟨l, hl⟩ := (C63_dump_load (ops := [.run demoControl false]) demoGrid_ok demo_library demo_ids demo_names
    demo_class (.inl rfl)).2 hn
  exact ⟨l, hl, fun future => (C63_after_reset_partial demoGrid_ok demo_library demo_ids demo_names demo_class
    demo_deterministic hl future).2.2.1⟩

/-- A microgrid without modules is dumped and loaded, too. -/
example : ∃ g₀, Microgrid.create demoHeap [] none none = .ok g₀ ∧
    ∃ l, (runG g₀ [.run [] false, .run [] true]).reload .controllable = .ok l ∧ l.grid.finalStep = none := by
  obtain ⟨g₀, hc, -⟩ := C22_no_modules demoHeap
  have hd : DistinctNames demoHeap [] := by simp [DistinctNames]
  obtain ⟨l, hl⟩ := (C63_dump_load (c := .controllable) (ops := [.run [] false, .run [] true]) hc (by simp) (by simp) hd
    (by simp) (.inl rfl)).2 (by simp)
  refine ⟨g₀, hc, l, hl, ?_⟩
  obtain ⟨-, -, -, -, h5, -⟩ := C63_modules hc (by simp) (by simp) hd (by simp) (.inl rfl) hl
  rw [h5, (runG_fixed g₀ _).finalStep]
  obtain ⟨-, -, -, -, -, h6, -⟩ := Microgrid.create_ok hc
  rcases h6 with h6 | h6
  · exact h6.2.2
  · exact absurd rfl h6.1

end Pymgrid
