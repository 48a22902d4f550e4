import Verif.Lemmas.Contains
import Verif.Props.Sample
import Verif.Props.Normalize

set_option autoImplicit false

/-!
# C95: the action space of a microgrid

For every microgrid that the constructor accepts for modules of the library, after every history of runs and resets.
-/

namespace Pymgrid

open Module

variable {h : Heap} {mods : List (String × Nat)} {sh : Option Shaper} {tr : Option (Nat → Nat → Option Nat → Except Err (Nat × Nat))}
  {g₀ : Microgrid}

theorem user_names (hc : Microgrid.create h mods sh tr = .ok g₀) (hl : ∀ nm ∈ mods, LibraryModule (h nm.2))
    (hd : DistinctNames h mods) (ops : List GOp) : DistinctNames (runG g₀ ops).heap mods := by
  obtain ⟨-, alike, -, -⟩ := user_grid hc hl ops
  intro x hx y hy he
  rw [(alike x.2).ffc, (alike x.2).ss, (alike y.2).ffc, (alike y.2).ss]
  exact hd x hx y hy he

/-- C95: `in` decides membership: an action is in the (normalised) action space iff it has exactly the names of the
    controllable modules, one array per module, and all numbers are within the bounds of the module (within [0, 1]). -/
theorem C95_contains (hc : Microgrid.create h mods sh tr = .ok g₀) (hl : ∀ nm ∈ mods, LibraryModule (h nm.2))
    (hd : DistinctNames h mods) (ops : List GOp) (n : Bool) (a : List (String × Ctrl)) :
    (runG g₀ ops).inActionSpace n a = true ↔ Member (runG g₀ ops).heap mods n a :=
  inActionSpace_iff (user_grid hc hl ops).1 (user_spaced hc hl ops).1 (user_names hc hl hd ops) n a

/-- C95: `run` succeeds with every member of the action space, and with every member of the normalised one. -/
theorem C95_members_run (hc : Microgrid.create h mods sh tr = .ok g₀) (hl : ∀ nm ∈ mods, LibraryModule (h nm.2))
    (hd : DistinctNames h mods) (hb : ∃ nm ∈ mods, ∃ u, (h nm.2).kind = .balancing u)
    (hid : (mods.map Prod.snd).Nodup) (hr : ∀ nm ∈ mods, (h nm.2).raiseErrors = false)
    (hs : ∀ f, sh = some f → ∀ i c, ∃ r, f i c = .ok r) (ops : List GOp)
    (hlive : ∀ nm ∈ mods, ((runG g₀ ops).heap nm.2).Live) (n : Bool) (a : List (String × Ctrl))
    (ha : (runG g₀ ops).inActionSpace n a = true) : ∃ g' o, (runG g₀ ops).run a n = (g', .ok o) := by
  have hm := (C95_contains hc hl hd ops n a).mp ha
  obtain ⟨ok, -, -, hcont⟩ := user_grid hc hl ops
  obtain ⟨hsp, -⟩ := user_spaced hc hl ops
  have hd' := user_names hc hl hd ops
  refine C19_run_succeeds hc hl hb hid hr hs ops hlive a n fun nl hnl => ?_
  have hne : nl.2 ≠ [] := PriorityList.level_nonempty (by rw [hcont] at hnl; exact hnl)
  obtain ⟨i, hi⟩ := List.exists_mem_of_ne_nil _ hne
  obtain ⟨m1, m2⟩ := ok.mem_levelDict nl hnl i hi
  obtain ⟨l, h1, h2⟩ := hm.2 _ m1 m2
  refine ⟨.seq l, h1, fun ia hia => ?_⟩
  have hids : nl.2 = modulesNamed (runG g₀ ops).heap mods .controllable nl.1 := by
    rw [ok.cont] at hnl
    exact Container.level_named hd'.clear hnl
  rw [← hids] at h2
  have hmem : ia.1 ∈ nl.2 := (List.of_mem_zip hia).1
  obtain ⟨k1, k2⟩ := ok.mem_levelDict nl hnl _ hmem
  exact (ok.wf _ k1).member_accepts (hsp _ k1) k2 (List.forall₂_iff_zip.mp h2 |>.2 hia)

/-! ### Normalising -/

theorem covered_of_member {g : Microgrid} (ok : GridOK mods g) (hsp : ∀ nm ∈ mods, (g.heap nm.2).Spaced)
    (hd : DistinctNames g.heap mods) {n : Bool} {v : Data} (hn : (v.map Prod.fst).Nodup) (hv : Member g.heap mods n v.control) :
    Spaces.Covered (g.cont.fullDict.map fun nl => (nl.1, actSpaces g.heap nl.2)) v := by
  have key := mem_actionSpaces ok hsp hd
  have hnd : ((g.cont.fullDict.map fun nl => (nl.1, actSpaces g.heap nl.2)).map Prod.fst).Nodup := by
    rw [List.map_map]
    exact Microgrid.fullDict_nodup g.cont
  have hnf : (g.actionSpaces.map Prod.fst).Nodup := hnd.sublist (List.filter_sublist.map _)
  have hperm : (v.map Prod.fst).Perm (g.actionSpaces.map Prod.fst) := by
    rw [List.perm_ext_iff_of_nodup hn hnf]
    intro k
    constructor
    · intro hk
      obtain ⟨x, hx, rfl⟩ := List.mem_map.mp hk
      have := hv.1 (x.1, .seq x.2) (List.mem_map.mpr ⟨x, hx, rfl⟩)
      exact List.mem_map.mpr ⟨(x.1, _), (key x.1 _).mpr ⟨this, rfl⟩, rfl⟩
    · intro hk
      obtain ⟨⟨k', ss⟩, hx, rfl⟩ := List.mem_map.mp hk
      obtain ⟨⟨nm, hm, hnm, hf⟩, -⟩ := (key k' ss).mp hx
      obtain ⟨l, hl, -⟩ := hv.2 nm hm hf
      rw [Data.control_get, hnm] at hl
      cases hg : dictGet? v k' with
      | none => simp [hg] at hl
      | some xs => exact List.mem_map.mpr ⟨_, dictGet?_mem hg, rfl⟩
  refine ⟨hn, ?_, ?_⟩
  · have := hperm.length_eq
    rw [List.length_map, List.length_map] at this
    exact this
  · intro k xs hk
    have hx := dictGet?_mem hk
    obtain ⟨nm, hm, hnm, hf⟩ := hv.1 (k, .seq xs) (List.mem_map.mpr ⟨_, hx, rfl⟩)
    simp only at hnm
    obtain ⟨l, hl, hl'⟩ := hv.2 nm hm hf
    rw [Data.control_get, hnm, hk] at hl
    simp only [Option.map_some, Option.some.injEq, Ctrl.seq.injEq] at hl
    subst hl
    rw [hnm] at hl'
    have hs := (key k _).mpr ⟨⟨nm, hm, hnm, hf⟩, rfl⟩
    obtain ⟨hs1, hs2⟩ := List.mem_filter.mp hs
    refine ⟨_, dictGet?_of_mem hnd hs1, by simpa using hs2, ?_, ?_⟩
    · rw [List.length_map, hl'.length_eq]
    · intro j x s hx hs
      rw [List.getElem?_map] at hs
      cases hj : (modulesNamed g.heap mods .controllable k)[j]? with
      | none => simp [hj] at hs
      | some i =>
        simp only [hj, Option.map_some, Option.some.injEq] at hs
        subst hs
        have hm' : (g.heap i).Member n x := by
          rw [List.forall₂_iff_get] at hl'
          obtain ⟨h1, h2⟩ := List.getElem?_eq_some_iff.mp hj
          obtain ⟨h3, h4⟩ := List.getElem?_eq_some_iff.mp hx
          have := hl'.2 j h1 h3
          simp only [List.get_eq_getElem, h2, h4] at this
          exact this
        obtain ⟨l, rfl, hll⟩ := hm'
        exact ⟨by simp, by simpa [Act.vals] using hll.length_eq⟩

theorem member_map {g : Microgrid} (ok : GridOK mods g) (hsp : ∀ nm ∈ mods, (g.heap nm.2).Spaced)
    (hd : DistinctNames g.heap mods) {n n' : Bool} {f : ℚ → ℚ → ℚ → ℚ} {v w : Data}
    (hv : Member g.heap mods n v.control)
    (he : Spaces.Entrywise (fun s x y => ∃ z, s.apply f x = .ok z ∧ y.vals = z.vals)
      (g.cont.fullDict.map fun nl => (nl.1, actSpaces g.heap nl.2)) v w)
    (harr : ∀ x ∈ w, ∀ y ∈ x.2, ∃ l, y = .arr l)
    (hf : ∀ nm ∈ mods, (g.heap nm.2).ffc = .controllable → ∀ b ∈ (g.heap nm.2).kind.bounds, ∀ x,
      (if n then 0 ≤ x ∧ x ≤ 1 else b.1 ≤ x ∧ x ≤ b.2) →
      (if n' then 0 ≤ f b.1 b.2 x ∧ f b.1 b.2 x ≤ 1 else b.1 ≤ f b.1 b.2 x ∧ f b.1 b.2 x ≤ b.2)) :
    Member g.heap mods n' w.control := by
  have key := mem_actionSpaces ok hsp hd
  have hnd : ((g.cont.fullDict.map fun nl => (nl.1, actSpaces g.heap nl.2)).map Prod.fst).Nodup := by
    rw [List.map_map]
    exact Microgrid.fullDict_nodup g.cont
  constructor
  · intro x hx
    obtain ⟨y, hy, rfl⟩ := List.mem_map.mp hx
    have : y.1 ∈ v.map Prod.fst := by rw [← he.1]; exact List.mem_map.mpr ⟨y, hy, rfl⟩
    obtain ⟨z, hz, hzy⟩ := List.mem_map.mp this
    have := hv.1 (z.1, .seq z.2) (List.mem_map.mpr ⟨z, hz, rfl⟩)
    simp only at this ⊢
    rw [← hzy]
    exact this
  · intro nm hm hfc
    obtain ⟨l, hl, hl'⟩ := hv.2 nm hm hfc
    rw [Data.control_get] at hl
    cases hg : dictGet? v nm.1 with
    | none => simp [hg] at hl
    | some xs =>
      simp only [hg, Option.map_some, Option.some.injEq, Ctrl.seq.injEq] at hl
      subst hl
      have hs := (List.mem_filter.mp ((key nm.1 _).mpr ⟨⟨nm, hm, rfl, hfc⟩, rfl⟩)).1
      obtain ⟨ys, hys, hlen, hR⟩ := he.2 nm.1 xs _ hg (dictGet?_of_mem hnd hs)
      refine ⟨ys, by rw [Data.control_get, hys]; rfl, ?_⟩
      refine forall₂_entries hl' hlen hR ?_
      intro i x y hi hy hx hxy
      have hi' : ∃ k, (k, i) ∈ mods ∧ (g.heap i).ffc = .controllable := by
        simp only [modulesNamed, List.mem_map, List.mem_filter, decide_eq_true_eq] at hi
        obtain ⟨k, ⟨hk, -, hkf⟩, rfl⟩ := hi
        exact ⟨k.1, hk, hkf⟩
      obtain ⟨k, hk, hkf⟩ := hi'
      obtain ⟨ly, rfl⟩ := harr _ (dictGet?_mem hys) y hy
      obtain ⟨lx, rfl, hx⟩ := hx
      obtain ⟨z, hz, hyz⟩ := hxy
      unfold Space.apply at hz
      simp only at hz
      split at hz
      · simp at hz
      injection hz with hz
      subst hz
      have hvals : ly = mapBounds f ((g.heap i).kind.bounds.map Prod.fst) ((g.heap i).kind.bounds.map Prod.snd) lx := by
        have : ∀ l, (Space.item l).vals = l := by
          intro l
          unfold Space.item
          split <;> rfl
        rw [this] at hyz
        exact hyz
      refine ⟨ly, rfl, ?_⟩
      rw [hvals]
      exact forall₂_mapBounds hx fun b hb x hx => hf (k, i) hk hkf b hb x hx

/-- C95: normalising a member of the action space gives a member of the normalised one. -/
theorem C95_normalize (hc : Microgrid.create h mods sh tr = .ok g₀) (hl : ∀ nm ∈ mods, LibraryModule (h nm.2))
    (hd : DistinctNames h mods) (ops : List GOp) {v : Data} (hn : (v.map Prod.fst).Nodup)
    (hv : (runG g₀ ops).inActionSpace false v.control = true) :
    ∃ w, (runG g₀ ops).actionSpace.normalize v = .ok w ∧ (runG g₀ ops).inActionSpace true w.control = true := by
  rw [C95_contains hc hl hd] at hv
  obtain ⟨ok, -, -, -⟩ := user_grid hc hl ops
  obtain ⟨hsp, -⟩ := user_spaced hc hl ops
  have hd' := user_names hc hl hd ops
  obtain ⟨⟨w, hw, he⟩, -⟩ := C28_space_entries _ v (covered_of_member ok hsp hd' hn hv)
  refine ⟨w, hw, ?_⟩
  rw [C95_contains hc hl hd]
  refine member_map ok hsp hd' hv he (normalize_arr hw) ?_
  intro nm hm _ b hb x hx
  simp only [Bool.false_eq_true, if_false] at hx
  simpa using norm1_unit hx.1 hx.2

/-- C95: denormalising a member of the normalised action space gives a member of the action space, unless some bounds of a
    module are equal.  Missing: that case, in which it is false (`C95_one_point`). -/
theorem C95_denormalize_partial (hc : Microgrid.create h mods sh tr = .ok g₀) (hl : ∀ nm ∈ mods, LibraryModule (h nm.2))
    (hd : DistinctNames h mods) (ops : List GOp) (hr : ∀ nm ∈ mods, ((runG g₀ ops).heap nm.2).Ranged) {v : Data}
    (hn : (v.map Prod.fst).Nodup) (hv : (runG g₀ ops).inActionSpace true v.control = true) :
    ∃ w, (runG g₀ ops).actionSpace.denormalize v = .ok w ∧ (runG g₀ ops).inActionSpace false w.control = true := by
  rw [C95_contains hc hl hd] at hv
  obtain ⟨ok, -, -, -⟩ := user_grid hc hl ops
  obtain ⟨hsp, -⟩ := user_spaced hc hl ops
  have hd' := user_names hc hl hd ops
  obtain ⟨-, ⟨w, hw, he⟩⟩ := C28_space_entries _ v (covered_of_member ok hsp hd' hn hv)
  refine ⟨w, hw, ?_⟩
  rw [C95_contains hc hl hd]
  refine member_map ok hsp hd' hv he (denormalize_arr hw) ?_
  intro nm hm _ b hb x hx
  simp only [if_true] at hx
  simpa using denorm1_range ((ok.wf nm hm).bounds_le b hb) (hr nm hm b hb) hx.1 hx.2

/-- C95 is violated by `sample_action`: if there is a controllable battery or grid, what it returns is never in the normalised
    action space, because it contains numbers instead of arrays. -/
theorem C95_samples_outside (hc : Microgrid.create h mods sh tr = .ok g₀) (hl : ∀ nm ∈ mods, LibraryModule (h nm.2))
    (hd : DistinctNames h mods) (ops : List GOp) (hlive : ∀ nm ∈ mods, ((runG g₀ ops).heap nm.2).Live)
    {nm : String × Nat} (hm : nm ∈ mods) (hf : (h nm.2).ffc = .controllable) (hng : ∀ g, (h nm.2).kind ≠ .genset g)
    (draw : String → Nat → ℚ × ℚ) (hdr : ∀ n j, 0 ≤ (draw n j).1 ∧ 0 ≤ (draw n j).2 ∧ (draw n j).2 ≤ 1) :
    ∃ d, (runG g₀ ops).sampleAction false false draw = .ok d ∧ (runG g₀ ops).inActionSpace true d.control = false := by
  obtain ⟨ok, alike, -, hcont⟩ := user_grid hc hl ops
  obtain ⟨hsp, hcls⟩ := user_spaced hc hl ops
  have hd' := user_names hc hl hd ops
  obtain ⟨d, e1, e2, e3⟩ := Microgrid.sampleDict_ok (h := (runG g₀ ops).heap) (strict := false)
    (P := fun i a => (∀ g, ((runG g₀ ops).heap i).kind ≠ .genset g) → ∃ q, a = .num q)
    (d := (runG g₀ ops).cont.levelDict .controllable) draw
    (by rw [hcont]; exact Container.toDict_nodup _) (fun nl hnl => by
      refine ⟨PriorityList.level_nonempty (by rw [hcont] at hnl; exact hnl), fun i hi => ?_⟩
      obtain ⟨m1, m2⟩ := ok.mem_levelDict nl hnl i hi
      refine ⟨((ok.wf _ m1).sample_accepts (strict := false) (hsp _ m1) (hlive _ m1) m2 (by simp) (le_refl (0 : ℚ))
        ⟨le_refl (0 : ℚ), zero_le_one⟩).1, fun j => ?_⟩
      obtain ⟨-, a, ha, -⟩ := (ok.wf _ m1).sample_accepts (strict := false) (hsp _ m1) (hlive _ m1) m2 (by simp) (hdr nl.1 j).1
        (hdr nl.1 j).2
      refine ⟨a, ha, fun hg => ?_⟩
      have hload : ∀ t, ((runG g₀ ops).heap i).kind ≠ .load t := by
        intro t ht
        cases ok.wf _ m1 with
        | load t' h' w => have := h'.ffc; rw [m2] at this; simp at this
        | battery b h' => have := h'.kind; simp [ht] at this
        | genset g h' => have := h'.kind; simp [ht] at this
        | grid p t h' => have := h'.kind; simp [ht] at this
        | renewable t h' => have := h'.kind; simp [ht] at this
        | balancing t h' => have := h'.kind; simp [ht] at this
      unfold sampleAction at ha
      split at ha
      · exact absurd ‹_› (hload _)
      · exact absurd ‹_› (hg _)
      · split at ha
        · simp at ha
        · injection ha with ha
          exact ⟨_, ha.symm⟩)
  refine ⟨d, e1, ?_⟩
  rw [← Bool.not_eq_true, C95_contains hc hl hd]
  intro hmem
  have hf' : ((runG g₀ ops).heap nm.2).ffc = .controllable := (alike nm.2).ffc.trans hf
  obtain ⟨l, h1, h2⟩ := hmem.2 nm hm hf'
  obtain ⟨ids, hids⟩ := Container.level_key (h := (runG g₀ ops).heap) hm
  rw [hf', ← ok.cont] at hids
  obtain ⟨as, k1, k2, k3⟩ := e3 _ hids
  have hids' : ids = modulesNamed (runG g₀ ops).heap mods .controllable nm.1 := by
    rw [ok.cont] at hids
    exact Container.level_named hd'.clear hids
  rw [Data.control_get, k1] at h1
  simp only [Option.map_some, Option.some.injEq, Ctrl.seq.injEq] at h1
  subst h1
  rw [← hids'] at h2
  have hin : nm.2 ∈ ids := by
    rw [hids']
    simp only [modulesNamed, List.mem_map, List.mem_filter, decide_eq_true_eq]
    exact ⟨nm, ⟨hm, rfl, hf'⟩, rfl⟩
  obtain ⟨j, hj, hj'⟩ := List.mem_iff_getElem.mp hin
  have hj2 : j < as.length := by rw [k2]; exact hj
  have hz : (nm.2, as[j]) ∈ ids.zip as := by
    rw [List.mem_iff_getElem]
    refine ⟨j, by simp [hj, hj2], ?_⟩
    rw [List.getElem_zip, hj']
  obtain ⟨q, hq⟩ := k3 _ hz (fun g hk => by
    obtain ⟨g', hk'⟩ := hcls nm.2 g hk
    exact hng g' hk')
  obtain ⟨l, hl, -⟩ := (List.forall₂_iff_zip.mp h2).2 hz
  simp only at hq
  rw [hq] at hl
  simp at hl

/-! ### Examples -/

/-- A member of the normalised action space. -/
def demoMember : Data := [("genset", [.arr [1, 1/2]]), ("grid", [.arr [1/4]]), ("battery", [.arr [1]])]

example : demoGrid.inActionSpace true demoMember.control = true ∧
    demoGrid.inActionSpace true [("genset", .seq [.arr [1, 1/2]]), ("grid", .seq [.arr [1/4]])] = false ∧
    demoGrid.inActionSpace true [("genset", .seq [.arr [1, 1/2]]), ("grid", .seq [.arr [1/4]]), ("battery", .seq [.num 1])] = false ∧
    demoGrid.inActionSpace true [("genset", .seq [.arr [1, 3/2]]), ("grid", .seq [.arr [1/4]]), ("battery", .seq [.arr [1]])] = false ∧
    (demoGrid.run demoMember.control true).2.isOk = true ∧ (demoMember.map Prod.fst).Nodup := by decide +kernel

example : (demoGrid.actionSpace.denormalize demoMember).toOption =
    some [("genset", [.arr [1, 25]]), ("grid", [.arr [-25/2]]), ("battery", [.arr [10]])] ∧
    demoGrid.inActionSpace false [("genset", .seq [.arr [1, 25]]), ("grid", .seq [.arr [-25/2]]), ("battery", .seq [.arr [10]])] = true := by
  decide +kernel

/-- A line without capacity. -/
def deadGrid : Module := okModule (mkGrid 0 0 4 [[1/5, 1/10, 1/2, 1], [3/10, 1/10, 1/2, 0]] .oracle 0 0 (-1) (1/10) false)

/-- A microgrid with it. -/
def deadHeap : Heap
  | 0 => deadGrid
  | _ => mkBalancing false 0 10 5

@[inherit_doc deadHeap]
def deadMods : List (String × Nat) := [("grid", 0), ("balancing", 1)]

@[inherit_doc deadHeap]
def deadMicrogrid : Microgrid := okGrid (Microgrid.create deadHeap deadMods none none)

theorem deadMicrogrid_ok : Microgrid.create deadHeap deadMods none none = .ok deadMicrogrid := okGrid_eq (by decide +kernel)

theorem dead_library : ∀ nm ∈ deadMods, LibraryModule (deadHeap nm.2) := by
  intro nm hm
  simp only [deadMods, List.mem_cons, List.not_mem_nil, or_false] at hm
  rcases hm with rfl | rfl
  · have : mkGrid 0 0 4 [[1/5, 1/10, 1/2, 1], [3/10, 1/10, 1/2, 0]] .oracle 0 0 (-1) (1/10) false = .ok deadGrid :=
      okModule_eq (by decide +kernel)
    exact .series (.grid (by decide +kernel) this) trivial
  · exact .balancing (by norm_num) (by norm_num)

/-- C95 is violated where bounds are equal: the normalised action space of a line without capacity has all numbers from 0 to 1,
    and denormalising them leaves the action space. -/
theorem C95_one_point : (deadMicrogrid.inActionSpace true (Data.control [("grid", [.arr [1/2]])])) = true ∧
    (deadMicrogrid.actionSpace.denormalize [("grid", [.arr [1/2]])]).toOption = some [("grid", [.arr [1/2]])] ∧
    (deadMicrogrid.inActionSpace false (Data.control [("grid", [.arr [1/2]])])) = false := by decide +kernel

end Pymgrid
