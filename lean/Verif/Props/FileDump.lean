import Verif.Lemmas.FileDump
import Verif.Props.GridSerialize

set_option autoImplicit false

/-! C64: dumping a microgrid to a file. -/

namespace Pymgrid
open Pymgrid Module

section
variable {h : Heap} {mods : List (String × Nat)} {sh : Option Shaper}
  {tr : Option (Nat → Nat → Option Nat → Except Err (Nat × Nat))} {g₀ : Microgrid} {c : FFC} {ops : List GOp}

/-- C64 when modules of the same class have the same time series and the same log, in particular for at most one module
    of each class: the microgrid loaded from the file is the one loaded from the string.
    Missing: modules of the same class with different series or logs, for which it fails (`C64_violated`). -/
theorem C64_same_as_string_partial (hc : Microgrid.create h mods sh tr = .ok g₀)
    (hl : ∀ nm ∈ mods, LibraryModule (h nm.2)) (hid : (mods.map Prod.snd).Nodup) (hd : DistinctNames h mods)
    (hcls : ∀ nm ∈ mods, (h nm.2).kind.cls = .grid → (h nm.2).ffc = c) (htr : tr = none ∨ ops = [])
    (hsame : ∀ a ∈ mods, ∀ b ∈ mods, ((runG g₀ ops).heap a.2).kind.cls = ((runG g₀ ops).heap b.2).kind.cls →
      ((runG g₀ ops).heap a.2).series?.map (·.rows) = ((runG g₀ ops).heap b.2).series?.map (·.rows) ∧
      ((runG g₀ ops).heap a.2).logger = ((runG g₀ ops).heap b.2).logger) :
    (runG g₀ ops).fileReload c = (runG g₀ ops).reload c := by
  have d : Dumpable mods c (runG g₀ ops) := Dumpable.reach hc hl hid hd hcls htr
  unfold Microgrid.fileReload Microgrid.reload
  cases hdump : (runG g₀ ops).dump with
  | error e => rfl
  | ok D =>
    simp only
    congr 1
    unfold Microgrid.dump at hdump
    split at hdump
    · simp at hdump
    split at hdump
    · simp at hdump
    rename_i ds hds
    simp only [Except.ok.injEq] at hdump
    have hD : D.modules = ds := by rw [← hdump]
    have hf := dumpAll_each hds
    have back : ∀ nd ∈ D.modules, ∃ x ∈ mods, ((runG g₀ ops).heap x.2).dump = .ok nd.2 := by
      intro nd hm
      rw [hD] at hm
      obtain ⟨k, hk⟩ := List.getElem?_of_mem hm
      obtain ⟨x, hx, -, e⟩ := forall₂_get hf.flip hk
      exact ⟨x, d.perm.subset (List.mem_of_getElem? hx), e⟩
    unfold GridDump.throughFile
    rw [read_same]
    intro a ha b hb ht
    obtain ⟨x, hx, ex⟩ := back a ha
    obtain ⟨y, hy, ey⟩ := back b hb
    obtain ⟨p1, p2, -⟩ := dump_params ex
    obtain ⟨q1, q2, -⟩ := dump_params ey
    rw [p1, q1, params_tag, params_tag] at ht
    have hcl := Cls.tag_inj ht
    obtain ⟨s1, s2⟩ := hsame x hx y hy hcl
    rw [p1, q1]
    refine ⟨table_congr (d.lib x hx) (d.lib y hy) hcl s1, ?_⟩
    rw [s2, q2] at p2
    exact (Except.ok.inj p2).symm

/-- What the file gives: every module gets the time series of the last module of its class (in the order of the dump),
    and, if both logs have entries, its log. -/
theorem C64_last_wins (hc : Microgrid.create h mods sh tr = .ok g₀)
    (hl : ∀ nm ∈ mods, LibraryModule (h nm.2)) (hid : (mods.map Prod.snd).Nodup) (hd : DistinctNames h mods)
    (hcls : ∀ nm ∈ mods, (h nm.2).kind.cls = .grid → (h nm.2).ffc = c) (htr : tr = none ∨ ops = [])
    {l : LoadedGrid} (hr : (runG g₀ ops).fileReload c = .ok l) {A B : List (String × Nat)} {y : String × Nat}
    (hT : Container.toTuples (runG g₀ ops).cont.fullDict = A ++ y :: B)
    (hlast : ∀ b ∈ B, ((runG g₀ ops).heap b.2).kind.cls ≠ ((runG g₀ ops).heap y.2).kind.cls)
    {k : Nat} {x : String × Nat} (hx : (Container.toTuples (runG g₀ ops).cont.fullDict)[k]? = some x)
    (hxy : ((runG g₀ ops).heap x.2).kind.cls = ((runG g₀ ops).heap y.2).kind.cls) :
    (l.grid.heap k).series?.map (·.rows) = ((runG g₀ ops).heap y.2).series?.map (·.rows) ∧
    (0 < ((runG g₀ ops).heap x.2).logger.len → 0 < ((runG g₀ ops).heap y.2).logger.len →
      (l.grid.heap k).logger = ((runG g₀ ops).heap y.2).logger) := by
  have d : Dumpable mods c (runG g₀ ops) := Dumpable.reach hc hl hid hd hcls htr
  generalize runG g₀ ops = g at *
  have hxm := d.perm.subset (List.mem_of_getElem? hx)
  have hym : y ∈ mods := d.perm.subset (by unfold Microgrid.tuples; rw [hT]; simp)
  unfold Microgrid.fileReload at hr
  cases hdump : g.dump with
  | error e => rw [hdump] at hr; simp at hr
  | ok D =>
  rw [hdump] at hr
  simp only at hr
  unfold Microgrid.dump at hdump
  split at hdump
  · simp at hdump
  split at hdump
  · simp at hdump
  rename_i ds hds
  simp only [Except.ok.injEq] at hdump
  have hD : D.modules = ds := by rw [← hdump]
  clear hdump
  have hf := dumpAll_each hds
  -- the dump of `x` and that of `y`
  obtain ⟨⟨nx, dx⟩, gx, -, ex⟩ := forall₂_get hf hx
  rw [hT] at hf
  obtain ⟨ds₁, ds₂, f1, f2, rfl⟩ := forall₂_split hf
  cases f2 with
  | @cons _ dy _ ds₂ h1 h2 =>
  obtain ⟨-, ey⟩ := h1
  obtain ⟨p1, p2, p3⟩ := dump_params ex
  obtain ⟨q1, q2, -⟩ := dump_params ey
  have htag : dx.params.tag = dy.2.params.tag := by rw [p1, q1, params_tag, params_tag, hxy]
  have hrest : ∀ e ∈ ds₂, e.2.params.tag ≠ dy.2.params.tag := by
    intro e he
    obtain ⟨j, hj⟩ := List.getElem?_of_mem he
    obtain ⟨b, hb, -, eb⟩ := forall₂_get h2.flip hj
    rw [(dump_params eb).1, q1, params_tag, params_tag]
    intro h
    exact hlast b (List.mem_of_getElem? hb) (Cls.tag_inj h)
  -- what is loaded
  unfold GridDump.load at hr
  cases hload : loadAll c D.throughFile.modules with
  | error e => rw [hload] at hr; simp at hr
  | ok xs =>
  rw [hload] at hr
  simp only at hr
  have hg := loadAll_each hload
  have hk : D.throughFile.modules[k]? = some (nx, (Files.writeAll {} (ds₁ ++ dy :: ds₂)).read dx) := by
    unfold GridDump.throughFile
    simp only
    rw [hD, List.getElem?_map, gx]
    rfl
  obtain ⟨⟨nz, z⟩, gz, -, ez⟩ := forall₂_get hg hk
  simp only at ez
  have hheap : l.grid.heap k = z.mod := by
    split at hr
    · simp at hr
    · rename_i g' hcr
      obtain ⟨e1, -⟩ := Microgrid.create_ok hcr
      simp only [Except.ok.injEq] at hr
      subst hr
      show g'.heap k = _
      rw [e1]
      unfold Legacy.place
      rw [List.getElem?_map, gz]
      rfl
  rw [hheap]
  unfold Dump.load at ez
  split at ez
  · simp at ez
  rename_i n hb
  split at ez
  · simp at ez
  rename_i m' hres
  simp only [Except.ok.injEq] at ez
  subst ez
  obtain ⟨r1, r2⟩ := restore_rows hres
  refine ⟨?_, ?_⟩
  · show m'.series?.map _ = _
    rw [r1]
    show n.series?.map _ = _
    unfold Files.read at hb
    simp only at hb
    cases hty : (g.heap y.2).params.table with
    | some t =>
      rw [htag, series_last (by rw [q1, hty]) hrest] at hb
      simp only at hb
      rw [p1] at hb
      exact (build_table (d.lib y hym) hxy hty hb).1
    | none =>
      rw [p1] at hb
      exact build_without hxy hty hb
  · intro hx0 hy0
    show m'.logger = _
    rw [r2]
    show Logger.fromRaw _ = _
    obtain ⟨rows, hrows⟩ := (d.lib x hxm).table
    obtain ⟨raw, l1, -, l3⟩ := Logger.Holds.serialize (show (g.heap x.2).logger.Holds (.str "reward" :: _) rows from hrows)
    obtain ⟨rows', hrows'⟩ := (d.lib y hym).table
    obtain ⟨raw', l1', l2', l3'⟩ :=
      Logger.Holds.serialize (show (g.heap y.2).logger.Holds (.str "reward" :: _) rows' from hrows')
    rw [l1] at p2
    rw [l1'] at q2
    have e := Except.ok.inj p2
    have e' := Except.ok.inj q2
    rw [decide_eq_true hx0] at l3
    rw [decide_eq_true hy0] at l3'
    obtain ⟨own, rfl⟩ := Option.isSome_iff_exists.mp l3
    obtain ⟨own', rfl⟩ := Option.isSome_iff_exists.mp l3'
    unfold Files.read
    simp only
    rw [htag, log_last e'.symm hrest, ← e]
    exact l2'

private theorem last_of {α : Type} (p : α → Prop) (l : List α) (h : ∃ y ∈ l, p y) :
    ∃ a y b, l = a ++ y :: b ∧ p y ∧ ∀ z ∈ b, ¬ p z := by
  induction l with
  | nil => simp at h
  | cons x l ih =>
    by_cases hl : ∃ y ∈ l, p y
    · obtain ⟨a, y, b, rfl, h1, h2⟩ := ih hl
      exact ⟨x :: a, y, b, rfl, h1, h2⟩
    · obtain ⟨y, hy, hp⟩ := h
      rcases List.mem_cons.mp hy with rfl | hy
      · exact ⟨[], y, l, rfl, hp, fun z hz hpz => hl ⟨z, hz, hpz⟩⟩
      · exact absurd ⟨y, hy, hp⟩ hl

/-- C64 is violated by every microgrid with two modules of the same class that have different time series: some module of
    the microgrid loaded from the file has another time series than the one dumped. -/
theorem C64_violated (hc : Microgrid.create h mods sh tr = .ok g₀)
    (hl : ∀ nm ∈ mods, LibraryModule (h nm.2)) (hid : (mods.map Prod.snd).Nodup) (hd : DistinctNames h mods)
    (hcls : ∀ nm ∈ mods, (h nm.2).kind.cls = .grid → (h nm.2).ffc = c) (htr : tr = none ∨ ops = [])
    {l : LoadedGrid} (hr : (runG g₀ ops).fileReload c = .ok l) {a b : String × Nat} (ha : a ∈ mods) (hb : b ∈ mods)
    (hab : ((runG g₀ ops).heap a.2).kind.cls = ((runG g₀ ops).heap b.2).kind.cls)
    (hne : ((runG g₀ ops).heap a.2).series?.map (·.rows) ≠ ((runG g₀ ops).heap b.2).series?.map (·.rows)) :
    ∃ k x, (Container.toTuples (runG g₀ ops).cont.fullDict)[k]? = some x ∧
      (l.grid.heap k).series?.map (·.rows) ≠ ((runG g₀ ops).heap x.2).series?.map (·.rows) := by
  have d : Dumpable mods c (runG g₀ ops) := Dumpable.reach hc hl hid hd hcls htr
  have ha' := d.perm.symm.subset ha
  have hb' := d.perm.symm.subset hb
  obtain ⟨A, y, B, hT, hy, hlast⟩ := last_of
    (fun z : String × Nat => ((runG g₀ ops).heap z.2).kind.cls = ((runG g₀ ops).heap a.2).kind.cls) _ ⟨a, ha', rfl⟩
  have hlast' : ∀ b ∈ B, ((runG g₀ ops).heap b.2).kind.cls ≠ ((runG g₀ ops).heap y.2).kind.cls :=
    fun b hm e => hlast b hm (e.trans hy)
  obtain ⟨k, hk⟩ := List.getElem?_of_mem ha'
  obtain ⟨k', hk'⟩ := List.getElem?_of_mem hb'
  have e1 := (C64_last_wins hc hl hid hd hcls htr hr hT hlast' hk hy.symm).1
  have e2 := (C64_last_wins hc hl hid hd hcls htr hr hT hlast' hk' (hab.symm.trans hy.symm)).1
  by_cases he : ((runG g₀ ops).heap a.2).series?.map (·.rows) = ((runG g₀ ops).heap y.2).series?.map (·.rows)
  · exact ⟨k', b, hk', fun e => hne (by rw [← e, e2, he])⟩
  · exact ⟨k, a, hk, fun e => he (by rw [← e, e1])⟩

end

/-! ### Examples and violations -/

/-- The example microgrid with a second load. -/
def twoLoadsHeap : Heap := fun i => if i = 6 then okModule (mkLoad [10, 20, 30] .oracle 2 0 (-1) false) else demoHeap i

def twoLoadsMods : List (String × Nat) := ("load", 6) :: demoMods

def twoLoads : Microgrid := okGrid (Microgrid.create twoLoadsHeap twoLoadsMods none none)

theorem twoLoads_ok : Microgrid.create twoLoadsHeap twoLoadsMods none none = .ok twoLoads := okGrid_eq (by decide +kernel)

theorem twoLoads_library : ∀ nm ∈ twoLoadsMods, LibraryModule (twoLoadsHeap nm.2) := by
  intro nm hm
  rcases List.mem_cons.mp hm with rfl | hm
  · have : mkLoad [10, 20, 30] .oracle 2 0 (-1) false = .ok (twoLoadsHeap 6) := okModule_eq (by decide +kernel)
    exact .series (.load this) trivial
  · have h6 : ∀ nm ∈ demoMods, nm.2 ≠ 6 := by decide
    have : twoLoadsHeap nm.2 = demoHeap nm.2 := if_neg (h6 nm hm)
    rw [this]
    exact demo_library nm hm

theorem twoLoads_names : DistinctNames twoLoadsHeap twoLoadsMods := by
  unfold DistinctNames
  decide +kernel

/-- C64 is violated: a microgrid with loads of 10 and 60 units absorbs 75 units in its first step (5 are exported), also
    when it is loaded from a string, but 125 when it is loaded from a file: both loads have the series of the second. -/
theorem C64_two_loads :
    (twoLoads.run demoControl false).2.toOption.map (·.absorbed) = some 75 ∧
    (twoLoads.reload .controllable).toOption.map (fun l => (l.run demoControl false).2.toOption.map (·.absorbed)) =
      some (some 75) ∧
    (twoLoads.fileReload .controllable).toOption.map (fun l => (l.run demoControl false).2.toOption.map (·.absorbed)) =
      some (some 125) := by
  decide +kernel

/-- Non-vacuity of `C64_last_wins` and `C64_violated`: the two loads. -/
example : (twoLoads.fileReload .controllable).isOk = true ∧ ("load", 6) ∈ twoLoadsMods ∧ ("load", 0) ∈ twoLoadsMods ∧
    (twoLoads.heap 6).kind.cls = (twoLoads.heap 0).kind.cls ∧
    (twoLoads.heap 6).series?.map (·.rows) = some [[-10], [-20], [-30]] ∧
    (twoLoads.heap 0).series?.map (·.rows) = some [[-60], [-40], [-20]] ∧
    (twoLoadsMods.map Prod.snd).Nodup ∧
    Container.toTuples twoLoads.cont.fullDict = [("load", 6)] ++ ("load", 0) ::
      [("pv", 1), ("balancing", 5), ("genset", 3), ("battery", 2), ("grid", 4)] ∧
    (∀ b ∈ [1, 5, 3, 2, 4], (twoLoads.heap b).kind.cls ≠ (twoLoads.heap 0).kind.cls) := by
  decide +kernel

/-- Non-vacuity of `C64_same_as_string_partial`: the example microgrid after a run, with one module of each class. -/
example : ranGrid.fileReload .controllable = ranGrid.reload .controllable := by
  refine C64_same_as_string_partial (ops := [.run demoControl false]) demoGrid_ok demo_library demo_ids demo_names
    demo_class (.inl rfl) ?_
  have : ∀ a ∈ demoMods, ∀ b ∈ demoMods, (ranGrid.heap a.2).kind.cls = (ranGrid.heap b.2).kind.cls → a = b := by
    decide +kernel
  intro a ha b hb hab
  rw [this a ha b hb hab]
  exact ⟨rfl, rfl⟩

end Pymgrid
