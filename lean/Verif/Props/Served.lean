import Verif.Lemmas.Served
import Verif.Model.Generate
import Verif.Props.Simulate

set_option autoImplicit false

/-!
# C106: a generated microgrid never has to lose load

The generator sizes the genset and the grid connection by the peak load.  Whatever has been done with the microgrid before,
there is a control that serves the present load, and it can be found without looking at anything but that load.
-/

namespace Pymgrid.Legacy

open Module

section
variable {g : Grid} {m₀ : Microgrid}

/-- C106: one step.  After any history of runs and resets, failed ones included, as long as no module is at the end of its
    series, the run on `carry` of the present load succeeds, meets that load and loses none of it. -/
theorem C106_step (comparable : g.Comparable) (adequate : g.Adequate) (hm : g.toModular false = .ok m₀) (ops : List GOp)
    (live : ∀ name, ∀ x ∈ (runG m₀ ops).modulesOf name, x.Live) :
    ∃ x L, (runG m₀ ops).modulesOf "load" = [x] ∧ g.loads[x.currentStep]? = some L ∧
      ∃ m' o, (runG m₀ ops).run (g.carry L) false = (m', .ok o) ∧ o.absBy "load" = L ∧
        o.provBy "unbalanced_energy" = 0 := by
  obtain ⟨ms, s⟩ := comparable.setup hm
  have r := s.site ops
  obtain ⟨L, hL, m', o, hrun, h1, h2, -⟩ := s.serve adequate ops fun nm hnm =>
    live nm.1 _ (by rw [r.modulesOf hnm]; simp)
  obtain ⟨nl, hml, nnl⟩ := s.named (mem_load g false)
  exact ⟨_, L, nnl ▸ r.modulesOf hml, hL nl hml nnl, m', o, hrun, h1, h2⟩

/-- C106: a whole episode.  After any history of runs and resets a reset succeeds, and from there the loads of the whole
    series can be served one after the other. -/
theorem C106_episode (comparable : g.Comparable) (adequate : g.Adequate) (hm : g.toModular false = .ok m₀) (ops : List GOp) :
    ∃ m m', (runG m₀ ops).reset = (m, .ok ()) ∧ Serves g m g.loads m' := by
  obtain ⟨ms, s⟩ := comparable.setup hm
  obtain ⟨m, hr, lock⟩ := s.restart ops
  have he : m = runG m₀ (ops ++ [.reset]) := by
    simp only [runG, List.foldl_append, List.foldl_cons, List.foldl_nil, GOp.apply]
    rw [show List.foldl (fun g op => GOp.apply g op) m₀ ops = runG m₀ ops from rfl, hr]
  rw [he] at lock
  obtain ⟨m', h⟩ := s.serves adequate _ _ rfl lock
  rw [← he, List.drop_zero] at h
  exact ⟨m, m', hr, h⟩

/-- C106: a new microgrid needs no reset. -/
theorem C106_first_episode (comparable : g.Comparable) (adequate : g.Adequate) (hm : g.toModular false = .ok m₀) :
    ∃ m', Serves g m₀ g.loads m' := by
  obtain ⟨ms, s⟩ := comparable.setup hm
  exact s.serves adequate _ [] rfl fun nm hm => (s.fresh hm).1

end

/-! ### Generated microgrids -/

section
variable {d : Generator.Draws} {g : Grid}

/-- C106: the generator makes microgrids of this kind. -/
theorem C106_adequate (hv : d.Valid) (hy : d.arch.grid = true → d.load.length = 8760) (hg : d.create = .ok g) :
    g.Comparable ∧ g.Adequate := by
  obtain ⟨hgood, hpeak, hbig, hpvpeak, -, ⟨s1, s2, s3⟩, -⟩ := Generator.C55_sizes hv hg
  obtain ⟨-, hor, hweak⟩ := Generator.C55_architecture hv hg
  obtain ⟨g', row, h', h1, h2, h3, h4, h5, h6, h7, h8, -, -, -, ht, hgr, -⟩ := Generator.create_spec hv
  rw [hg] at h'
  injection h' with h'
  subst h'
  have hl0 : ∀ x ∈ g.loads, 0 ≤ x := by
    rw [h3]
    exact Generator.scaleMax_nonneg (fun x hx => (hv.load x hx).le) (by positivity)
  obtain ⟨t1, t2⟩ := Generator.tariff_length hv.scenario
  refine ⟨⟨?_, ht, hgood, by rw [h2]; exact le_refl (1 : ℚ), fun _ => ⟨s3, s1, s2⟩, ?_, ?_, hl0, ?_⟩, ?_, ?_⟩
  · intro hb
    rw [h1] at hb
    obtain ⟨a1, a2, a3, a4⟩ := hgr hb
    rw [a1, a2, a3, a4, Generator.statuses_length hv, hv.co2_rows, hy hb]
    exact ⟨t1, t2, rfl⟩
  · rw [h2]; show (0 : ℚ) ≤ 10; norm_num
  · rw [h2]; show (0 : ℚ) ≤ 1; norm_num
  · rw [h4]
    refine Generator.scaleMax_nonneg hv.pv (mul_nonneg ?_ (by positivity))
    have hm := Generator.maxOf_peak (l := d.loads) (by
      intro h0
      have := hpeak.1
      rw [h3, h0] at this
      simp at this)
    exact Generator.scaleMax_nonneg (fun x hx => (hv.load x hx).le) (by positivity) _ hm.1
  · exact fun _ x hx => (hbig x hx).1
  · intro hn
    refine ⟨by rcases hor with h | h <;> simp_all, fun x hx => by linarith [(hbig x hx).2, hl0 x hx], fun st hst => ?_⟩
    by_contra hne
    have := hweak ⟨st, hst, hne⟩
    rw [hn] at this
    simp at this

theorem generate_append {ds : List Generator.Draws} (h : ∀ d ∈ ds, ∃ g m, d.create = .ok g ∧ g.toModular false = .ok m)
    (made : List Microgrid) : ∃ new, Generator.generate ds made = (made ++ new, .ok ()) ∧
      List.Forall₂ (fun d m => ∃ g, d.create = .ok g ∧ g.toModular false = .ok m) ds new := by
  induction ds generalizing made with
  | nil => exact ⟨[], by simp [Generator.generate], .nil⟩
  | cons d ds ih =>
    obtain ⟨g, m, h1, h2⟩ := h d (by simp)
    obtain ⟨new, h3, h4⟩ := ih (fun d hd => h d (by simp [hd])) (made ++ [m])
    exact ⟨m :: new, by simp [Generator.generate, h1, h2, h3], .cons ⟨g, h1, h2⟩ h4⟩

/-- C106: `generate_microgrid` succeeds, keeps the microgrids that were there and appends as many as it was asked for.  Each
    of them, after any history, can be reset and then run through its whole series without loss of load. -/
theorem C106_generated {ds : List Generator.Draws} (hv : ∀ d ∈ ds, d.Valid) (hco : ∀ d ∈ ds, ∀ y ∈ d.co2, 0 ≤ y)
    (hy : ∀ d ∈ ds, d.arch.grid = true → d.load.length = 8760) (made : List Microgrid) :
    ∃ new, Generator.generate ds made = (made ++ new, .ok ()) ∧ new.length = ds.length ∧
      ∀ m₀ ∈ new, ∃ d ∈ ds, ∃ g, d.create = .ok g ∧ g.loads.length = d.load.length ∧
        ∀ ops, ∃ m m', (runG m₀ ops).reset = (m, .ok ()) ∧ Serves g m g.loads m' := by
  obtain ⟨new, h1, h2⟩ := generate_append (ds := ds) (fun d hd => by
    obtain ⟨g, hg⟩ := Generator.C55_total (hv d hd)
    obtain ⟨m, hm, -⟩ := C54_generated (r := false) (hv d hd) (hco d hd) (hy d hd) hg
    exact ⟨g, m, hg, hm⟩) made
  refine ⟨new, h1, h2.length_eq.symm, fun m₀ hm₀ => ?_⟩
  obtain ⟨i, hi, rfl⟩ := List.mem_iff_getElem.mp hm₀
  obtain ⟨g, hg, hm⟩ := h2.get (i := i) (by rw [h2.length_eq]; exact hi) hi
  have hd : ds[i]'(by rw [h2.length_eq]; exact hi) ∈ ds := List.getElem_mem _
  simp only [List.get_eq_getElem] at hg hm
  obtain ⟨c, a⟩ := C106_adequate (hv _ hd) (hy _ hd) hg
  refine ⟨_, hd, g, hg, ?_, fun ops => C106_episode c a hm ops⟩
  obtain ⟨g', row, h', -, -, h3, -⟩ := Generator.create_spec (hv _ hd)
  rw [hg] at h'
  injection h' with h'
  rw [h', h3]
  unfold Generator.Draws.loads Generator.scaleMax
  rw [List.length_map]

end

/-! ### Examples and limits -/

/-- The example with a genset, a grid that fails and a battery.  The loads are 60, 40, 0 and 20. -/
theorem demo_adequate : (demo true).Adequate := by
  constructor
  · decide +kernel
  · intro h; exact absurd h (by decide +kernel)

/-- Non-vacuity of `C106_step`: the second step, after a run that discharged the battery as far as it goes. -/
example : let ops : List GOp := [.run [("battery", .scalar 1000), ("genset", .seq [.arr [0, 0]]), ("grid", .scalar 0)] false]
    (∀ name, ∀ x ∈ (runG (converted (demo true)) ops).modulesOf name, x.Live) ∧
    ∃ x L, (runG (converted (demo true)) ops).modulesOf "load" = [x] ∧ (demo true).loads[x.currentStep]? = some L ∧
      ∃ m' o, (runG (converted (demo true)) ops).run ((demo true).carry L) false = (m', .ok o) ∧ o.absBy "load" = L ∧
        o.provBy "unbalanced_energy" = 0 := by
  intro ops
  have hl : ∀ name, ∀ x ∈ (runG (converted (demo true)) ops).modulesOf name, x.Live := by
    obtain ⟨ms, s⟩ := demo_comparable.setup demo_converts
    intro name x hx t ht
    unfold Microgrid.modulesOf at hx
    obtain ⟨ni, hni, rfl⟩ := List.mem_map.mp hx
    have hin := (List.mem_filter.mp hni).1
    have key : ∀ ni ∈ Container.toTuples (runG (converted (demo true)) ops).cont.fullDict,
        ∀ t ∈ ((runG (converted (demo true)) ops).heap ni.2).series?,
        ((runG (converted (demo true)) ops).heap ni.2).currentStep < t.rows.length := by decide +kernel
    exact key ni hin t ht
  exact ⟨hl, C106_step demo_comparable demo_adequate demo_converts ops hl⟩

/-- Non-vacuity of the episodes. -/
example : ∃ m', Serves (demo true) (converted (demo true)) [60, 40, 0, 20] m' := by
  have := C106_first_episode demo_comparable demo_adequate demo_converts
  rwa [show (demo true).loads = [60, 40, 0, 20] by decide +kernel] at this

/-- The example without genset, on a grid that does not fail (`up`) or does. -/
def mains (up : Bool) : Grid :=
  match create ⟨true, false, true⟩ demoParams [60, 40, 0, 20] [30, 50, 10, 0] [1, if up then 1 else 0, 1, 1]
    [1/5, 3/10, 1/5, 1/5] [0, 0, 1/10, 0] [1/4, 1/3, 1/4, 1/4] 1 (1/2) demoStatus with
  | .ok g => g
  | .error _ => demo true

/-- Non-vacuity without genset. -/
example : ∃ m', Serves (mains true) (converted (mains true)) [60, 40, 0, 20] m' := by
  have hc : (mains true).Comparable := by
    refine ⟨fun _ => by decide +kernel, by decide +kernel, ?_, by decide +kernel, fun _ => by decide +kernel, by decide +kernel,
      by decide +kernel, by decide +kernel, by decide +kernel⟩
    have : (mains true).params = demoParams := by decide +kernel
    rw [this]
    exact demoParams_good
  have ha : (mains true).Adequate := ⟨fun h => absurd h (by decide +kernel), fun _ => by decide +kernel⟩
  have := C106_first_episode hc ha (m₀ := converted (mains true)) (okGrid_eq (by decide +kernel))
  rwa [show (mains true).loads = [60, 40, 0, 20] by decide +kernel] at this

/-- Without genset the grid must not fail.  In the second step it does, and without PV all of the load is lost. -/
theorem C106_outage :
    let dark : Grid := { mains false with pvs := [0, 0, 0, 0] }
    let m := ((converted dark).run (dark.carry 60) false).1
    (dark.arch.genset = false ∧ 40 ≤ dark.params.pImport ∧ dark.loads = [60, 40, 0, 20]) ∧
      (m.run (dark.carry 40) false).2.toOption.map (fun o => (o.absBy "load", o.provBy "unbalanced_energy")) =
        some (40, 40) := by
  decide +kernel

/-- The example draws with a genset and without a grid. -/
def isleDraws : Generator.Draws := { Generator.demoDraws with rand := 0 }

theorem isleDraws_valid : isleDraws.Valid := { Generator.demoDraws_valid with }

/-- A full year with a grid that fails; the generator adds a genset. -/
def yearDraws : Generator.Draws :=
  { Generator.demoDraws with load := List.replicate 8760 3, pv := List.replicate 8760 1, co2 := List.replicate 8760 (1/4) }

theorem yearDraws_valid : yearDraws.Valid :=
  { Generator.demoDraws_valid with
    rows := by
      have h : yearDraws.load.length = 8760 := List.length_replicate
      rw [h]
      decide
    pv_rows := List.length_replicate.trans List.length_replicate.symm
    co2_rows := List.length_replicate.trans List.length_replicate.symm
    load := fun x hx => by rw [List.eq_of_mem_replicate hx]; norm_num
    pv := fun x hx => by rw [List.eq_of_mem_replicate hx]; norm_num
    sun := ⟨1, List.mem_replicate.mpr ⟨by decide, rfl⟩, by norm_num⟩ }

/-- Non-vacuity of `C106_generated`: three microgrids are appended to one that is there. -/
example : ∃ new, Generator.generate [isleDraws, yearDraws, isleDraws] [converted (demo true)] =
      (converted (demo true) :: new, .ok ()) ∧ new.length = 3 := by
  obtain ⟨new, h1, h2, -⟩ := C106_generated (ds := [isleDraws, yearDraws, isleDraws])
    (by
      intro d hd
      simp only [List.mem_cons, List.not_mem_nil, or_false] at hd
      rcases hd with rfl | rfl | rfl
      · exact isleDraws_valid
      · exact yearDraws_valid
      · exact isleDraws_valid)
    (by
      have h : ∀ y ∈ isleDraws.co2, (0 : ℚ) ≤ y := by decide +kernel
      have h' : ∀ y ∈ yearDraws.co2, (0 : ℚ) ≤ y := fun y hy => by rw [List.eq_of_mem_replicate hy]; norm_num
      intro d hd
      simp only [List.mem_cons, List.not_mem_nil, or_false] at hd
      rcases hd with rfl | rfl | rfl
      · exact h
      · exact h'
      · exact h)
    (by
      intro d hd hg
      simp only [List.mem_cons, List.not_mem_nil, or_false] at hd
      rcases hd with rfl | rfl | rfl
      · exact absurd hg (by decide +kernel)
      · exact List.length_replicate
      · exact absurd hg (by decide +kernel)) [converted (demo true)]
  exact ⟨new, h1, h2⟩

end Pymgrid.Legacy
