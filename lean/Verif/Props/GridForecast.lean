import Verif.Lemmas.GridSetters
import Verif.Props.Setters
import Verif.Props.EnvObs
import Verif.Props.GridSerialize

set_option autoImplicit false

/-!
# C74: setting the forecaster of a microgrid

For every microgrid `g₀` that the constructor accepts for library modules, after every history `ops` of `run` and `reset`
calls (including failing ones).
-/

namespace Pymgrid

open Module

theorem series_of_final {m : Module} (h : m.finalStep? ≠ none) : ∃ t, m.series? = some t := by
  unfold Module.finalStep? at h
  unfold Module.series?
  cases hk : m.kind <;> simp_all

section
variable {h : Heap} {mods : List (String × Nat)} {sh : Option Shaper}
  {tr : Option (Nat → Nat → Option Nat → Except Err (Nat × Nat))} {g₀ : Microgrid}

theorem user_fresh (hc : Microgrid.create h mods sh tr = .ok g₀) (hl : ∀ nm ∈ mods, LibraryModule (h nm.2))
    (ops : List GOp) : GridFresh mods (runG g₀ ops) := by
  have hheap := (Microgrid.create_ok hc).1
  have h0 : GridFresh mods g₀ := by
    refine ⟨(user_grid hc hl []).1, fun nm hm => ?_, fun nm hm => ?_⟩
    · rw [hheap]; exact (hl nm hm).spaced
    · rw [hheap]; exact (hl nm hm).fresh
  exact h0.runG ops

/-- The series of a module is what it was given. -/
theorem user_series (hc : Microgrid.create h mods sh tr = .ok g₀) (hl : ∀ nm ∈ mods, LibraryModule (h nm.2))
    (ops : List GOp) {nm : String × Nat} (hm : nm ∈ mods) :
    (∀ t, (h nm.2).series? = some t → ∃ t', ((runG g₀ ops).heap nm.2).series? = some t' ∧
      ({ t' with finalStep := 0, cur := none, draws := 0 } : TS) = { t with finalStep := 0, cur := none, draws := 0 }) ∧
    ((h nm.2).series? = none → ((runG g₀ ops).heap nm.2).series? = none) := by
  have hheap := (Microgrid.create_ok hc).1
  obtain ⟨-, hcore⟩ := kept_core.runG g₀ ops nm.2 (by rw [hheap]; exact (hl nm hm).wf)
  rw [hheap] at hcore
  unfold Module.series?
  cases hk : ((runG g₀ ops).heap nm.2).kind <;> cases hk' : (h nm.2).kind <;> rw [hk, hk'] at hcore <;>
    simp_all [Kind.core]

/-- C74: `set_forecaster` acts on all series modules: their horizon is the given one (0 for `None`) and their observation space
    has one row for the present and one for each step of the horizon, within the bounds of the series.  The series, the range of
    steps, the current step, the logs and the actions stay as they are, and so do all other modules. -/
theorem C74_all_modules (hc : Microgrid.create h mods sh tr = .ok g₀) (hl : ∀ nm ∈ mods, LibraryModule (h nm.2))
    (ops : List GOp) (k : Nat → FKind) (n : Nat) (nm : String × Nat) (hm : nm ∈ mods) :
    let m := (runG g₀ ops).heap nm.2
    let m' := ((runG g₀ ops).setForecaster k n).heap nm.2
    (m.series? = none → m' = m) ∧
    (∀ t, m.series? = some t → ∃ t', m'.series? = some t' ∧ t'.rows = t.rows ∧
      m'.horizon? = some (if (k nm.2).isSome then n else 0) ∧
      m'.obsSpace.low = (List.replicate (1 + if (k nm.2).isSome then n else 0) t.minRow).flatten ∧
      m'.obsSpace.high = (List.replicate (1 + if (k nm.2).isSome then n else 0) t.maxRow).flatten) ∧
    m'.initialStep = m.initialStep ∧ m'.currentStep = m.currentStep ∧ m'.logger = m.logger ∧
    m'.finalStep? = m.finalStep? ∧ m'.actSpace = m.actSpace := by
  intro m m'
  have ok := (user_grid hc hl ops).1
  have hfl : (runG g₀ ops).cont.fullList.Perm (mods.map Prod.snd) := by rw [ok.cont]; exact Container.fullList_perm _ _
  have e : m' = m.setForecaster (k nm.2) n := by
    simp only [m', m, Microgrid.setForecaster, setForecasterMany_get]
    rw [if_pos (hfl.symm.subset (List.mem_map_of_mem hm))]
  obtain ⟨f1, f2, f3, f4, -, -, f7⟩ := m.setForecaster_frame (k nm.2) n
  rw [e]
  refine ⟨fun hs => m.setForecaster_other hs _ _, fun t ht => ?_, f1, f2, f3, f4, f7⟩
  obtain ⟨e1, e2, -⟩ := Module.setForecaster_series ht (k nm.2) n
  refine ⟨_, e1, rfl, ?_, by rw [e2]; rfl, by rw [e2]; rfl⟩
  have hh : ∀ x : Module, x.horizon? = x.series?.map (·.horizon) := by
    intro x
    unfold Module.horizon? Module.series?
    cases x.kind <;> rfl
  rw [hh, e1]
  rfl

/-- C74: everything else about the microgrid stays as it is: its modules, its log of balances and costs, its range of steps,
    and modules that do not belong to it. -/
theorem C74_rest (g : Microgrid) (k : Nat → FKind) (n : Nat) :
    (g.setForecaster k n).cont = g.cont ∧ (g.setForecaster k n).otherLog = g.otherLog ∧
    (g.setForecaster k n).initialStep = g.initialStep ∧ (g.setForecaster k n).finalStep = g.finalStep ∧
    ∀ i ∉ g.cont.fullList, (g.setForecaster k n).heap i = g.heap i := by
  refine ⟨rfl, rfl, rfl, rfl, fun i hi => ?_⟩
  show Microgrid.setForecasterMany g.heap k n g.cont.fullList i = g.heap i
  generalize g.heap = h
  generalize g.cont.fullList = l at hi ⊢
  induction l generalizing h with
  | nil => rfl
  | cons a l ih =>
    unfold Microgrid.setForecasterMany
    rw [ih _ fun q => hi (List.mem_cons_of_mem _ q)]
    unfold Heap.set
    exact if_neg fun q : i = a => hi (q ▸ List.mem_cons_self)

/-- C74: the forecast horizon reported is that of all modules with a series, 23 if there are none; if they differ, `ValueError` is
    raised. -/
theorem C74_reported (g : Microgrid) :
    (∀ n, g.getForecastHorizon = .ok n ↔ (∀ i ∈ g.cont.fullList, ∀ x, (g.heap i).horizon? = some x → x = n) ∧
      ((∃ i ∈ g.cont.fullList, ∃ x, (g.heap i).horizon? = some x) ∨ n = 23)) ∧
    (∀ e, g.getForecastHorizon = .error e → e = .value) := by
  have hm : ∀ x, x ∈ g.cont.fullList.filterMap (fun i => (g.heap i).horizon?) ↔
      ∃ i ∈ g.cont.fullList, (g.heap i).horizon? = some x := fun x => List.mem_filterMap
  unfold Microgrid.getForecastHorizon
  generalize (g.cont.fullList.filterMap fun i => (g.heap i).horizon?) = l at hm
  cases l with
  | nil =>
    have hno : ∀ i ∈ g.cont.fullList, ∀ x, (g.heap i).horizon? ≠ some x := fun i hi x hx => by
      have := (hm x).mpr ⟨i, hi, hx⟩
      simp at this
    refine ⟨fun n => ⟨fun h => ?_, fun h => ?_⟩, fun e h => by simp at h⟩
    · exact ⟨fun i hi x hx => absurd hx (hno i hi x), .inr (Except.ok.inj h).symm⟩
    · rcases h.2 with ⟨i, hi, x, hx⟩ | rfl
      · exact absurd hx (hno i hi x)
      · rfl
  | cons a l =>
    simp only
    obtain ⟨i₀, hi₀, hx₀⟩ := (hm a).mp (by simp)
    split
    · rename_i hall
      simp only [List.all_eq_true, decide_eq_true_eq] at hall
      refine ⟨fun n => ⟨fun h => ?_, fun h => ?_⟩, fun e h => by simp at h⟩
      · obtain rfl := Except.ok.inj h
        refine ⟨fun i hi x hx => ?_, .inl ⟨i₀, hi₀, a, hx₀⟩⟩
        rcases List.mem_cons.mp ((hm x).mpr ⟨i, hi, hx⟩) with q | q
        · exact q
        · exact hall x q
      · rw [h.1 i₀ hi₀ a hx₀]
    · rename_i hall
      refine ⟨fun n => ⟨fun h => by simp at h, fun h => ?_⟩, fun e h => (Except.error.inj h).symm⟩
      exfalso
      apply hall
      simp only [List.all_eq_true, decide_eq_true_eq]
      intro y hy
      obtain ⟨i, hi, hx⟩ := (hm y).mp (by simp [hy])
      rw [h.1 i hi y hx, h.1 i₀ hi₀ a hx₀]

/-- C74: afterwards `get_forecast_horizon` returns the given horizon (0 for `None`).  (For microgrids without modules it is
    23, whatever is set.) -/
theorem C74_horizon (hmods : mods ≠ []) (hc : Microgrid.create h mods sh tr = .ok g₀) (hl : ∀ nm ∈ mods, LibraryModule (h nm.2))
    (hd : DistinctNames h mods) (ops : List GOp) (k : Nat → FKind) (n : Nat) (b : Bool)
    (hb : ∀ nm ∈ mods, (k nm.2).isSome = b) :
    ((runG g₀ ops).setForecaster k n).getForecastHorizon = .ok (if b then n else 0) := by
  have ok := (user_grid hc hl ops).1
  have hfl : (runG g₀ ops).cont.fullList.Perm (mods.map Prod.snd) := by rw [ok.cont]; exact Container.fullList_perm _ _
  have hh : ∀ x : Module, x.horizon? = x.series?.map (·.horizon) := by
    intro x
    unfold Module.horizon? Module.series?
    cases x.kind <;> rfl
  have hall : ∀ y ∈ ((runG g₀ ops).setForecaster k n).cont.fullList.filterMap fun i =>
      (((runG g₀ ops).setForecaster k n).heap i).horizon?, y = if b then n else 0 := by
    intro y hy
    obtain ⟨i, hi, hyi⟩ := List.mem_filterMap.mp hy
    obtain ⟨nm, hm, rfl⟩ := List.mem_map.mp (hfl.subset hi)
    obtain ⟨h1, h2, -⟩ := C74_all_modules hc hl ops k n nm hm
    cases hs : ((runG g₀ ops).heap nm.2).series? with
    | none => rw [h1 hs, hh, hs] at hyi; simp at hyi
    | some t =>
      obtain ⟨t', -, -, h3, -⟩ := h2 t hs
      rw [h3, hb nm hm] at hyi
      simpa using hyi.symm
  have hne : (((runG g₀ ops).setForecaster k n).cont.fullList.filterMap fun i =>
      (((runG g₀ ops).setForecaster k n).heap i).horizon?) ≠ [] := by
    obtain ⟨F, -, -, nm, hm, hne⟩ := created_episode hc hd hmods
    have hfin : ((runG g₀ ops).heap nm.2).finalStep? ≠ none := fun h0 => hne ((kept_final.runG g₀ ops nm.2).mp h0)
    obtain ⟨t, ht⟩ := series_of_final hfin
    obtain ⟨t', -, -, h3, -⟩ := (C74_all_modules hc hl ops k n nm hm).2.1 t ht
    exact List.ne_nil_of_mem (List.mem_filterMap.mpr ⟨nm.2, hfl.symm.subset (List.mem_map_of_mem hm), h3⟩)
  unfold Microgrid.getForecastHorizon
  split
  · rename_i e; exact absurd e hne
  · rename_i x xs e
    rw [e] at hall
    rw [if_pos, hall x (by simp)]
    rw [List.all_eq_true]
    intro y hy
    rw [hall y (by simp [hy]), hall x (by simp)]
    simp

/-- C74, for forecasters that work for the horizon, after the next successful reset (which always succeeds without trajectory
    function): from then on, whatever calls follow, the state of every series module belongs to its observation space, has one
    row for the present and one for each step of the horizon, and with the oracle these are the present and the true future
    of the series given to the module.
    Missing: the states between `set_forecaster` and the next step or reset (`C44_not_immediately`), the forecasters given by
    name (`C74_named_ignored`), and the space of an environment (`C74_stale_space`). -/
theorem C74_forecasts_partial (hc : Microgrid.create h mods sh tr = .ok g₀) (hl : ∀ nm ∈ mods, LibraryModule (h nm.2))
    (hid : (mods.map Prod.snd).Nodup) (hd : DistinctNames h mods) (ops : List GOp) (k : Nat → FKind) (n : Nat)
    (hw : ∀ nm ∈ mods, ∀ t, (h nm.2).series? = some t → (k nm.2).Works t.comps.length n) :
    (tr = none → ∃ g₁, ((runG g₀ ops).setForecaster k n).reset = (g₁, .ok ()) ∧ LockStep mods g₁ g₀.initialStep) ∧
    ∀ g₁, ((runG g₀ ops).setForecaster k n).reset = (g₁, .ok ()) → ∀ later : List GOp,
      ∀ nm ∈ mods, ∀ t, (h nm.2).series? = some t → ∃ s, ((runG g₁ later).heap nm.2).state = .ok s ∧
        Within (List.replicate (1 + if (k nm.2).isSome then n else 0) t.minRow).flatten
          (List.replicate (1 + if (k nm.2).isSome then n else 0) t.maxRow).flatten s ∧
        ((runG g₁ later).heap nm.2).obsSpace =
          ⟨(List.replicate (1 + if (k nm.2).isSome then n else 0) t.minRow).flatten,
            (List.replicate (1 + if (k nm.2).isSome then n else 0) t.maxRow).flatten⟩ ∧
        s.length = (1 + if (k nm.2).isSome then n else 0) * t.comps.length ∧
        (k nm.2 = .oracle → s = (t.rows[((runG g₁ later).heap nm.2).currentStep]?).getD (midpoints t.minRow t.maxRow) ++
          (trueFuture t.rows (midpoints t.minRow t.maxRow) ((runG g₁ later).heap nm.2).currentStep n).flatten) := by
  obtain ⟨ok, alike, -, -⟩ := user_grid hc hl ops
  have hf := user_fresh hc hl ops
  obtain ⟨h1, h2⟩ := hf.reforecast hid (hd.congr alike) (k := k) (n := n) (by
    intro nm hm t ht
    cases hs : (h nm.2).series? with
    | none => rw [(user_series hc hl ops hm).2 hs] at ht; simp at ht
    | some t₀ =>
      obtain ⟨t', ht', e⟩ := (user_series hc hl ops hm).1 t₀ hs
      rw [ht] at ht'
      injection ht' with ht'
      subst ht'
      have : t.comps = t₀.comps := by have := congrArg TS.comps e; simpa using this
      rw [this]
      exact hw nm hm t₀ hs)
  constructor
  · rintro rfl
    have htr : (runG g₀ ops).trajectory = none := (runG_fixed g₀ ops).trajectory.trans (Microgrid.create_ok hc).2.2.2.1
    have hst : (runG g₀ ops).setTrajectory = (runG g₀ ops, .ok ()) := by unfold Microgrid.setTrajectory; rw [htr]
    rw [hst] at h1
    refine ⟨_, Prod.ext rfl h1, fun nm hm => ?_⟩
    have hR := (h2 _ (Prod.ext rfl h1)).2.1 nm hm
    rw [hR.current, hst, (limits_kept (Microgrid.create_ok hc).2.2.2.1 ops nm.2).1]
    obtain ⟨F, -, he⟩ := created_episode hc hd (List.ne_nil_of_mem hm)
    exact (he.1 nm hm).1
  · intro g₁ hg₁ later nm hm t ht
    obtain ⟨hfr, hmod, -⟩ := h2 g₁ hg₁
    have hR := hmod nm hm
    have hlat := hfr.runG later
    obtain ⟨hwf, hcore⟩ := kept_core.runG g₁ later nm.2 (hfr.ok.wf nm hm)
    obtain ⟨-, hcore₀⟩ := kept_core.trajectory (runG g₀ ops) nm.2 (ok.wf nm hm)
    obtain ⟨t₁, ht₁, e₁⟩ := (user_series hc hl ops hm).1 t ht
    -- the series of the module before and after
    obtain ⟨t₂, ht₂, e₂⟩ : ∃ t₂, ((runG g₀ ops).setTrajectory.1.heap nm.2).series? = some t₂ ∧
        ({ t₂ with finalStep := 0, cur := none, draws := 0 } : TS) = { t with finalStep := 0, cur := none, draws := 0 } := by
      rw [← e₁]
      unfold Module.series? at ht₁ ⊢
      cases hk : ((runG g₀ ops).setTrajectory.1.heap nm.2).kind <;> cases hk' : ((runG g₀ ops).heap nm.2).kind <;>
        rw [hk, hk'] at hcore₀ <;> simp_all [Kind.core]
    obtain ⟨t₃, ht₃, e₃⟩ : ∃ t₃, ((runG g₁ later).heap nm.2).series? = some t₃ ∧
        ({ t₃ with finalStep := 0, cur := none, draws := 0 } : TS) =
          { t₂.setForecaster (k nm.2) n with finalStep := 0, cur := none, draws := 0 } := by
      obtain ⟨s1, -, -⟩ := Module.setForecaster_series ht₂ (k nm.2) n
      rw [hR.core] at hcore
      unfold Module.series? at s1 ⊢
      cases hk : ((runG g₁ later).heap nm.2).kind <;>
        cases hk' : (((runG g₀ ops).setTrajectory.1.heap nm.2).setForecaster (k nm.2) n).kind <;>
        rw [hk, hk'] at hcore <;> simp_all [Kind.core]
    have p1 : t₃.rows = t.rows := by
      have a := congrArg TS.rows e₃; have b := congrArg TS.rows e₂; exact a.trans b
    have p2 : t₃.comps = t.comps := by
      have a := congrArg TS.comps e₃; have b := congrArg TS.comps e₂; exact a.trans b
    have p3 : t₃.minRow = t.minRow := by
      have a := congrArg TS.minRow e₃; have b := congrArg TS.minRow e₂; exact a.trans b
    have p4 : t₃.maxRow = t.maxRow := by
      have a := congrArg TS.maxRow e₃; have b := congrArg TS.maxRow e₂; exact a.trans b
    have p5 : t₃.horizon = if (k nm.2).isSome then n else 0 := congrArg TS.horizon e₃
    have p6 : t₃.forecaster = (t₂.setForecaster (k nm.2) n).forecaster := by
      have a := congrArg TS.forecaster e₃; exact a
    have hts : ((runG g₁ later).heap nm.2).TSWF t₃ := by
      obtain ⟨t', h'⟩ := hwf.ts (by rw [ht₃]; rfl)
      have := h'.series
      rw [ht₃] at this
      injection this with this
      exact this ▸ h'
    have hsp : ((runG g₁ later).heap nm.2).obsSpace = t₃.obsSpace := by
      rw [(hlat.spaced nm hm).obs]
      unfold Module.series? at ht₃
      cases hk : ((runG g₁ later).heap nm.2).kind <;> simp_all [Kind.obsBox]
    obtain ⟨s, -, hst, hwi, hlen, -⟩ := tswf_reads hts hsp
    have hspace : ((runG g₁ later).heap nm.2).obsSpace =
          ⟨(List.replicate (1 + if (k nm.2).isSome then n else 0) t.minRow).flatten,
            (List.replicate (1 + if (k nm.2).isSome then n else 0) t.maxRow).flatten⟩ := by
      rw [hsp, TS.obsSpace, TS.minObs, TS.maxObs, p3, p4, p5]
    rw [hspace] at hwi
    refine ⟨s, hst, hwi, hspace, by rw [hlen, p5, p2], fun hk => ?_⟩
    rw [hts.state] at hst
    have hko : t₃.forecaster.kind = .oracle := by rw [p6, hk]; rfl
    obtain ⟨d, hd'⟩ := hlat.fresh nm hm t₃ ht₃
    have hv : ({ t₃ with draws := d } : TS).Valid := (TS.Same.mk' t₃ t₃.cur d).valid hts.valid
    have := hv.oracle hko ((runG g₁ later).heap nm.2).currentStep
    rw [hd'] at this
    have hcur := Except.ok.inj this
    rw [← Except.ok.inj hst, TS.obsAt, TS.flatCur, hcur, p1, p3, p4]
    simp only [Option.getD_some]
    have hn : ({ t₃ with draws := d } : TS).horizon = n := by simp [p5, hk, FKind.isSome]
    rw [hn]

end

/-! ### Forecasters given by name -/

/-- Finding, C74: with a dict of forecasters for modules by their names (other than `data` and `module_dict`), `set_forecaster`
    returns normally and changes nothing, for every microgrid. -/
theorem C74_named_ignored (g : Microgrid) (d : List (String × FKind)) (n : Nat)
    (hd : ∀ x ∈ d, x.1 ∈ g.cont.names ∧ x.1 ≠ "data" ∧ x.1 ≠ "module_dict") : g.setForecasterNamed d n = (g, .ok ()) := by
  induction d with
  | nil => rfl
  | cons x d ih =>
    obtain ⟨name, k⟩ := x
    have hx := hd (name, k) (by simp)
    simp only [Microgrid.setForecasterNamed]
    rw [if_neg (by simpa using hx.1), if_neg (by simpa using hx.2)]
    exact ih fun y hy => hd y (by simp [hy])

/-- C74: a name that no module has raises an error and changes nothing. -/
theorem C74_unknown_name (g : Microgrid) (d : List (String × FKind)) (n : Nat)
    (hd : ∃ x ∈ d, x.1 ∉ g.cont.names) :
    (g.setForecasterNamed d n).1 = g ∧ ∃ e, (g.setForecasterNamed d n).2 = .error e := by
  induction d with
  | nil => obtain ⟨x, hx, -⟩ := hd; simp at hx
  | cons x d ih =>
    obtain ⟨name, k⟩ := x
    simp only [Microgrid.setForecasterNamed]
    split
    · exact ⟨rfl, _, rfl⟩
    · rename_i h1
      split
      · exact ⟨rfl, _, rfl⟩
      · apply ih
        obtain ⟨y, hy, hn⟩ := hd
        rcases List.mem_cons.mp hy with rfl | hy
        · simp only [decide_eq_false_iff_not, not_not] at h1
          exact absurd h1 hn
        · exact ⟨y, hy, hn⟩

/-! ### Examples and violations -/

/-- The hypotheses of `C74_forecasts_partial` are met: the demo microgrid, in the middle of an episode, with an oracle for
    three steps. -/
example : ∃ g₁, ((runG demoGrid [.run demoControl false]).setForecaster (fun _ => .oracle) 3).reset = (g₁, .ok ()) ∧
    ∀ later, ∃ s, ((runG g₁ later).heap 0).state = .ok s ∧ s.length = 4 := by
  obtain ⟨h1, h2⟩ := C74_forecasts_partial demoGrid_ok demo_library demo_ids demo_names [.run demoControl false]
    (fun _ => .oracle) 3 (fun _ _ _ _ => trivial)
  obtain ⟨g₁, hg, -⟩ := h1 rfl
  refine ⟨g₁, hg, fun later => ?_⟩
  obtain ⟨t, ht⟩ : ∃ t, (demoHeap 0).series? = some t := Option.isSome_iff_exists.mp (by decide +kernel)
  have hc : t.comps.length = 1 := by
    have : (demoHeap 0).series?.map (fun t => t.comps.length) = some 1 := by decide +kernel
    rw [ht] at this
    simpa using this
  obtain ⟨s, hs, -, -, hl, -⟩ := h2 g₁ hg later ("load", 0) (by simp [demoMods]) t ht
  exact ⟨s, hs, by rw [hl, hc]; rfl⟩

/-- The microgrid reports the new horizon, and observations change accordingly. -/
example : (demoGrid.getForecastHorizon).toOption = some 2 ∧
    ((demoGrid.setForecaster (fun _ => .oracle) 1).getForecastHorizon).toOption = some 1 ∧
    ((demoGrid.setForecaster (fun _ => .oracle) 1).reset.1.heap 0).state.toOption = some [-60, -40] ∧
    ((demoGrid.setForecaster (fun _ => .none) 1).reset.1.heap 0).state.toOption = some [-60] := by decide +kernel

/-- The hypotheses of `C74_named_ignored` are met: an oracle for the load is not set, although nothing is raised. -/
example : (scalarGrid.setForecasterNamed [("load", .oracle)] 2) = (scalarGrid, .ok ()) :=
  C74_named_ignored _ _ _ (by decide +kernel)

/-- Finding, C74: an environment computes its observation space once; after `set_forecaster` its observations no longer belong
    to it. -/
theorem C74_stale_space : ∃ space, obsSpaceOf demoGrid .flat = .ok space ∧
    ∃ g' v, envReset .flat space (demoGrid.setForecaster (fun _ => .none) 0) = (g', .ok (.flat v)) ∧
      v.length = 12 ∧ ¬ InFlatSpace space v := by
  obtain ⟨space, hs⟩ : ∃ s, obsSpaceOf demoGrid .flat = .ok s := by
    cases h : obsSpaceOf demoGrid .flat with
    | ok s => exact ⟨s, rfl⟩
    | error e =>
      have : (obsSpaceOf demoGrid .flat).isOk = true := by decide +kernel
      rw [h] at this; simp [Except.isOk, Except.toBool] at this
  have h1 : (obsSpaceOf demoGrid .flat).toOption.map (fun s => (s.map fun nl => nl.2.sum).sum) = some 24 := by decide +kernel
  have h2 : (match obsSpaceOf demoGrid .flat with
      | .ok s => (match (envReset .flat s (demoGrid.setForecaster (fun _ => .none) 0)).2 with
        | .ok (.flat v) => decide (v.length = 12)
        | _ => false)
      | _ => false) = true := by decide +kernel
  rw [hs] at h1 h2
  refine ⟨space, hs, ?_⟩
  cases hr : envReset .flat space (demoGrid.setForecaster (fun _ => .none) 0) with
  | mk g' r =>
    simp only [hr] at h2
    cases r with
    | error e => simp at h2
    | ok o =>
    cases o with
    | flat v =>
      have hv : v.length = 12 := by simpa using h2
      refine ⟨g', v, rfl, hv, fun hin => ?_⟩
      have hsum : (space.map fun nl => nl.2.sum).sum = 24 := by simpa [Except.toOption] using h1
      unfold InFlatSpace at hin
      rw [hin.1] at hv
      omega
    | _ => simp at h2

/-- Finding, C74: a forecaster set after construction is lost when the microgrid is written and read back: the load observes two
    further steps before and none after. -/
theorem C74_lost_on_dump :
    ((scalarGrid.setForecaster (fun _ => .oracle) 2).reset.1.heap 0).horizon? = some 2 ∧
    (((scalarGrid.setForecaster (fun _ => .oracle) 2).reset.1.reload .controllable).toOption.map fun l =>
      (l.grid.heap 0).horizon?) = some (some 0) := by decide +kernel

end Pymgrid
