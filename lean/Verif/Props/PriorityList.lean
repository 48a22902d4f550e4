import Verif.Lemmas.RBC
import Verif.Props.Episode

set_option autoImplicit false

/-!
# C35–C38: priority lists and rule-based control

For every microgrid `g₀` that the constructor accepts for library modules, after every history `ops` of `run` and `reset`
calls.
-/

namespace Pymgrid

open Module PriorityList

section
variable {h : Heap} {mods : List (String × Nat)} {sh : Option Shaper}
  {tr : Option (Nat → Nat → Option Nat → Except Err (Nat × Nat))} {g₀ : Microgrid}

theorem user_dims (hc : Microgrid.create h mods sh tr = .ok g₀) (hl : ∀ nm ∈ mods, LibraryModule (h nm.2))
    (ops : List GOp) : Dims (runG g₀ ops) mods := by
  obtain ⟨-, alike, -, -⟩ := user_grid hc hl ops
  have hheap := (Microgrid.create_ok hc).1
  intro nm hm hf
  have hcl : ((runG g₀ ops).heap nm.2).kind.cls = (h nm.2).kind.cls := by
    rw [← hheap]; exact kept_cls.runG g₀ ops nm.2
  rw [hcl, ← LibraryModule.actionDim (hl nm hm) ((alike nm.2).ffc.symm.trans hf)]
  unfold Module.actionDim
  rw [(alike nm.2).act]

theorem user_fits (hc : Microgrid.create h mods sh tr = .ok g₀) (hl : ∀ nm ∈ mods, LibraryModule (h nm.2))
    (ops ops' : List GOp) {pl : List Element} (hp : IsPriorityList (runG g₀ ops).heap mods pl) :
    Fits (runG g₀ ops').heap mods pl := by
  have hffc : ∀ ops j, ((runG g₀ ops).heap j).ffc = (h j).ffc := fun ops j => ((user_grid hc hl ops).2.1 j).ffc
  have hcl : ∀ ops j, ((runG g₀ ops).heap j).kind.cls = (g₀.heap j).kind.cls := fun ops j => kept_cls.runG g₀ ops j
  exact hp.fits.congr (fun j => by rw [hffc, hffc]) (fun j => by rw [hcl, hcl])

/-! ### C35: the priority lists -/

/-- C35, for microgrids in which controllable modules that share a name have the same direction: `get_priority_lists`
    succeeds and returns, without repetition, exactly the orderings of the controllable modules with a choice of action
    for each (and, with `remove_redundant_gensets`, no genset without minimum production is told to be off).
    Missing: modules that break the naming condition, for which the claim is false (`C35_shared_name`). -/
theorem C35_priority_lists_partial (hc : Microgrid.create h mods sh tr = .ok g₀)
    (hl : ∀ nm ∈ mods, LibraryModule (h nm.2)) (hu : ClearNames h mods) (ops : List GOp) (removeGensets : Bool) :
    ∃ pls, getPriorityLists (runG g₀ ops) removeGensets = .ok pls ∧ pls.Nodup ∧
      ∀ pl, pl ∈ pls ↔ IsPriorityList (runG g₀ ops).heap mods pl ∧
        (removeGensets = true → NoIdleGenset (runG g₀ ops).heap mods pl) := by
  obtain ⟨ok, alike, -, -⟩ := user_grid hc hl ops
  exact getPriorityLists_ok ok (hu.congr alike) (user_dims hc hl ops) removeGensets

/-- Three controllable modules, one of them a genset: 3! · 2 lists. -/
example : (getPriorityLists demoGrid false).toOption.map (fun l => (l.length, l.map fun pl => pl.length)) =
    some (12, List.replicate 12 3) := by decide +kernel
example : ClearNames demoHeap demoMods := demo_names.clear
/-- The sample genset has a positive minimum, so nothing is removed. -/
example : (getPriorityLists (runG demoGrid [.run demoControl false]) true).toOption.map List.length = some 12 := by
  decide +kernel

/-! ### C37: rule-based control -/

/-- C37: rule-based control without a list from the user: the list contains each controllable module exactly once, with
    one of its actions and its marginal cost, and costs do not decrease along the list. -/
theorem C37_default_list (hc : Microgrid.create h mods sh tr = .ok g₀)
    (hl : ∀ nm ∈ mods, LibraryModule (h nm.2)) (hu : ClearNames h mods) (ops : List GOp) (removeGensets : Bool) :
    ∃ pl, RBC.create (runG g₀ ops) none removeGensets = .ok ⟨runG g₀ ops, pl⟩ ∧
      IsPriorityList (runG g₀ ops).heap mods pl ∧
      (removeGensets = true → NoIdleGenset (runG g₀ ops).heap mods pl) ∧
      pl.Pairwise fun a b => a.cost ≤ b.cost := by
  obtain ⟨ok, alike, -, -⟩ := user_grid hc hl ops
  obtain ⟨rest, hf⟩ := first_list ok (hu.congr alike) (user_dims hc hl ops) removeGensets
  obtain ⟨pls, hp, -, hm⟩ := C35_priority_lists_partial hc hl hu ops removeGensets
  rw [hf] at hp
  have hp := Except.ok.inj hp
  set first := (named ((runG g₀ ops).cont.cat .controllable .sources) ++
    named ((runG g₀ ops).cont.cat .controllable .both)).map (firstElement removeGensets (runG g₀ ops).heap) with hfirst
  obtain ⟨h1, h2⟩ := (hm first).mp (by rw [← hp]; simp)
  refine ⟨RBC.sorted first, ?_, h1.perm (RBC.sorted_perm first), ?_, (RBC.sorted_pairwise first).imp fun h => h.1⟩
  · unfold RBC.create
    rw [hf]
    rfl
  · intro hr e he
    exact h2 hr e ((RBC.sorted_perm first).mem_iff.mp he)

/-- C37: a list from the user is taken as it is if it is one of the generated lists; otherwise `ValueError`. -/
theorem C37_user_list (hc : Microgrid.create h mods sh tr = .ok g₀)
    (hl : ∀ nm ∈ mods, LibraryModule (h nm.2)) (hu : ClearNames h mods) (ops : List GOp) (removeGensets : Bool)
    (pl : List Element) :
    (IsPriorityList (runG g₀ ops).heap mods pl ∧ (removeGensets = true → NoIdleGenset (runG g₀ ops).heap mods pl) →
      RBC.create (runG g₀ ops) (some pl) removeGensets = .ok ⟨runG g₀ ops, pl⟩) ∧
    (¬ (IsPriorityList (runG g₀ ops).heap mods pl ∧ (removeGensets = true → NoIdleGenset (runG g₀ ops).heap mods pl)) →
      RBC.create (runG g₀ ops) (some pl) removeGensets = .error .value) := by
  obtain ⟨pls, hp, -, hm⟩ := C35_priority_lists_partial hc hl hu ops removeGensets
  unfold RBC.create RBC.choose
  rw [hp]
  simp only
  refine ⟨fun hh => ?_, fun hh => ?_⟩
  · rw [if_pos ((hm pl).mpr hh)]
  · rw [if_neg fun hmem => hh ((hm pl).mp hmem)]

example : (RBC.create demoGrid none true).toOption.map (fun r => r.list.map fun e => (e.module, e.action, e.cost)) =
    some [(("grid", 0), 0, 1/5), (("genset", 0), 0, 3/5), (("battery", 0), 0, 3)] := by decide +kernel

/-! ### C36: plans -/

/-- C36: a priority list generated in any state of the microgrid can be used in any other state that has data.  The
    computed control has an energy for each listed module.  The energies account for the net load up to what remains;
    each is one that the module can be asked for in its state; load remains only if every module is at its maximum.
    Missing: a genset that is asked to run when nothing (more) is needed is assigned 0 rather than its minimum
    (`C36_below_minimum`). -/
theorem C36_plan_partial (hc : Microgrid.create h mods sh tr = .ok g₀)
    (hl : ∀ nm ∈ mods, LibraryModule (h nm.2)) (hu : ClearNames h mods) (ops ops' : List GOp) (pl : List Element)
    (hp : IsPriorityList (runG g₀ ops).heap mods pl) (hlive : ∀ nm ∈ mods, ((runG g₀ ops').heap nm.2).Live) :
    ∃ act rem c xs, populateAction (runG g₀ ops') pl = .ok (act, rem) ∧ toControl act = some c ∧
      Planned (runG g₀ ops').heap mods pl c (netLoad (runG g₀ ops').heap mods) rem xs := by
  obtain ⟨ok, alike, -, -⟩ := user_grid hc hl ops'
  have hf := user_fits hc hl ops ops' hp
  exact populateAction_ok ok (hu.congr alike) (user_dims hc hl ops') hlive hf.use hf.all

/-- C36: a run on such a control gives each module exactly the energy that the plan assigns to it (if it can be asked for
    that energy). -/
theorem C36_realised (hc : Microgrid.create h mods sh tr = .ok g₀)
    (hl : ∀ nm ∈ mods, LibraryModule (h nm.2)) (hid : (mods.map Prod.snd).Nodup) (hu : ClearNames h mods)
    (ops ops' : List GOp) (pl : List Element) (hp : IsPriorityList (runG g₀ ops).heap mods pl)
    (hlive : ∀ nm ∈ mods, ((runG g₀ ops').heap nm.2).Live) (c : List (String × Ctrl)) (net rem : ℚ) (xs : List ℚ)
    (plan : Planned (runG g₀ ops').heap mods pl c net rem xs) (g' : Microgrid) (o : RunOut)
    (hr : (runG g₀ ops').run c false = (g', .ok o)) (p : Element × ℚ) (hpx : p ∈ pl.zip xs) :
    ∃ i out, Denotes h mods p.1.module i ∧
      ((runG g₀ ops').heap i).step (((runG g₀ ops').heap i).planAct p.1.action p.2) false = (g'.heap i, .ok out) ∧
      ∀ lo hi, ((runG g₀ ops').heap i).planWindow p.1.action = some (lo, hi) → lo ≤ p.2 → p.2 ≤ hi →
        out.info.provided.getD 0 - out.info.absorbed.getD 0 = p.2 := by
  obtain ⟨ok, alike, -, -⟩ := user_grid hc hl ops'
  obtain ⟨i, k, lo, hi, d1, d2, d3, d4, -⟩ := plan.each p hpx
  obtain ⟨out, ho⟩ := planned_event ok (hu.congr alike) hid hr d1 d2 d3
  refine ⟨i, out, (Denotes.congr fun j => (alike j).ffc).mp d1, ho, ?_⟩
  intro lo hi hw h1 h2
  have hf := user_fits hc hl ops ops' hp
  obtain ⟨i', u1, u2, u3⟩ := hf.use.element p.1 (List.of_mem_zip hpx).1
  obtain rfl : i' = i := Option.some.inj (u1.symm.trans d1)
  obtain ⟨m', o', hs, he⟩ := (ok.wf _ d1.mem.1).step_exact (hlive _ d1.mem.1) d1.mem.2 (by rw [← u2]; exact u3) hw ⟨h1, h2⟩
  rw [ho] at hs
  simp only [Prod.mk.injEq, Except.ok.injEq] at hs
  rw [hs.2]
  exact he

/-- After any history and a reset, the microgrid is ready for control by priority lists. -/
theorem user_running (hc : Microgrid.create h mods sh none = .ok g₀)
    (hl : ∀ nm ∈ mods, LibraryModule (h nm.2)) (hb : ∃ nm ∈ mods, ∃ u, (h nm.2).kind = .balancing u)
    (hid : (mods.map Prod.snd).Nodup) (hd : DistinctNames h mods) (hr : ∀ nm ∈ mods, (h nm.2).raiseErrors = false)
    (hs : ∀ f, sh = some f → ∀ i c, ∃ r, f i c = .ok r)
    (hdata : ∀ nm ∈ mods, ∀ t, (h nm.2).series? = some t →
      (h nm.2).initialStep < t.finalStep ∧ t.finalStep ≤ t.rows.length) (ops' : List GOp) :
    ∃ F g₁, g₀.finalStep = some F ∧ (runG g₀ ops').reset = (g₁, .ok ()) ∧ g₁ = runG g₀ (ops' ++ [.reset]) ∧
      g₀.initialStep < F ∧ ∀ pl, Fits g₁.heap mods pl → Running mods pl F g₁ g₀.initialStep := by
  obtain ⟨ok, alike, hsh, -⟩ := user_grid hc hl ops'
  obtain ⟨F, hF, he⟩ := created_episode hc hd (List.ne_nil_of_mem hb.choose_spec.1)
  have htr : g₀.trajectory = none := (Microgrid.create_ok hc).2.2.2.1
  have hheap := (Microgrid.create_ok hc).1
  have htr' : (runG g₀ ops').trajectory = none := (runG_fixed g₀ ops').trajectory.trans htr
  obtain ⟨g₁, hrs⟩ := ok.reset_total htr'
  have hg₁ : g₁ = runG g₀ (ops' ++ [.reset]) := by simp [runG, GOp.apply] at hrs ⊢; simp [hrs]
  obtain ⟨hcur, -, hlim, -⟩ := ok.reset_modules hid (hd.congr alike) hrs
  have hlim := hlim htr'
  obtain ⟨ok₁, alike₁, hsh₁, -⟩ := user_grid hc hl (ops' ++ [.reset])
  rw [← hg₁] at ok₁ alike₁ hsh₁
  have he₁ : Episode mods g₁ g₀.initialStep F := by
    refine ⟨fun nm hm => ?_, ?_⟩
    · rw [(hlim nm hm).1, (hlim nm hm).2, (limits_kept htr ops' nm.2).1, (limits_kept htr ops' nm.2).2]
      exact he.1 nm hm
    · obtain ⟨nm, hm, hne⟩ := he.2
      refine ⟨nm, hm, ?_⟩
      rw [(hlim nm hm).2, (limits_kept htr ops' nm.2).2]
      exact hne
  have hfin : ∀ nm ∈ mods, ∀ t, (h nm.2).series? = some t → t.finalStep = F := by
    intro nm hm t ht
    apply (he.1 nm hm).2
    rw [hheap]
    unfold Module.series? at ht
    unfold Module.finalStep?
    cases hk : (h nm.2).kind <;> rw [hk] at ht <;> simp at ht <;> simp [ht]
  have hIF : g₀.initialStep < F := by
    obtain ⟨nm, hm, hne⟩ := he.2
    rw [hheap] at hne
    obtain ⟨t, ht⟩ : ∃ t, (h nm.2).series? = some t := by
      unfold Module.finalStep? at hne
      unfold Module.series?
      cases hk : (h nm.2).kind <;> rw [hk] at hne <;> simp at hne <;> simp
    have h1 := (hdata nm hm t ht).1
    rw [hfin nm hm t ht] at h1
    have h2 := (he.1 nm hm).1
    rw [hheap] at h2
    omega
  refine ⟨F, g₁, hF, hrs, hg₁, hIF, fun pl hfit => ?_⟩
  refine ⟨ok₁, hd.clear.congr alike₁, by rw [hg₁]; exact user_dims hc hl _, hfit,
    fun nm hm => (hcur nm hm).1.trans (he₁.1 nm hm).1, ⟨_, he₁⟩, fun nm hm => (alike₁ nm.2).raise.trans (hr nm hm), ?_, ?_, ?_⟩
  · obtain ⟨nm, hm, hu⟩ := hb
    exact ⟨nm, hm, by rw [hg₁]; exact user_balancing hc hl _ hm hu⟩
  · intro nm hm k hk
    have : (g₁.heap nm.2).kind.size = (h nm.2).kind.size := by
      rw [hg₁, ← hheap]; exact kept_size.runG g₀ (ops' ++ [.reset]) nm.2
    rw [this] at hk
    obtain ⟨t, ht, rfl⟩ : ∃ t, (h nm.2).series? = some t ∧ t.rows.length = k := by
      unfold Kind.size at hk
      unfold Module.series?
      cases hkk : (h nm.2).kind <;> rw [hkk] at hk <;> simp at hk <;> simp [hk]
    rw [← hfin nm hm t ht]
    exact (hdata nm hm t ht).2
  · rw [hsh₁]; exact hs

/-- C36: rule-based control on any of the generated lists completes its run, whatever the number of steps: it resets the
    microgrid and then makes one run per step, on a control planned in the state of that step, until the given number of
    steps or the end of the episode. -/
theorem C36_rbc_run (hc : Microgrid.create h mods sh none = .ok g₀)
    (hl : ∀ nm ∈ mods, LibraryModule (h nm.2)) (hb : ∃ nm ∈ mods, ∃ u, (h nm.2).kind = .balancing u)
    (hid : (mods.map Prod.snd).Nodup) (hd : DistinctNames h mods) (hr : ∀ nm ∈ mods, (h nm.2).raiseErrors = false)
    (hs : ∀ f, sh = some f → ∀ i c, ∃ r, f i c = .ok r)
    (hdata : ∀ nm ∈ mods, ∀ t, (h nm.2).series? = some t →
      (h nm.2).initialStep < t.finalStep ∧ t.finalStep ≤ t.rows.length)
    (ops ops' : List GOp) (pl : List Element) (hp : IsPriorityList (runG g₀ ops).heap mods pl) (n : Nat) :
    ∃ F g₁ g' os, g₀.finalStep = some F ∧ (runG g₀ ops').reset = (g₁, .ok ()) ∧
      RBC.run ⟨runG g₀ ops', pl⟩ n = (⟨g', pl⟩, .ok ()) ∧ PlannedRuns mods pl g₁ os g' ∧
      os.length = min n (F - g₀.initialStep) := by
  obtain ⟨F, g₁, hF, hrs, hg₁, hIF, hR⟩ := user_running hc hl hb hid hd hr hs hdata ops'
  have R := hR pl (by rw [hg₁]; exact user_fits hc hl ops _ hp)
  obtain ⟨g', os, e, pr, hlen, -⟩ := R.loop hid n hIF
  refine ⟨F, g₁, g', os, hF, hrs, ?_, pr, hlen⟩
  unfold RBC.run
  simp only [hrs]
  exact e

/-! ### C38: gensets in rule-based control -/

/-- C38, how the default list treats gensets: it asks those without minimum production to run and, contrary to the claim,
    all others to be off (and all of them if redundant gensets are not removed). -/
theorem C38_default_actions (hc : Microgrid.create h mods sh tr = .ok g₀)
    (hl : ∀ nm ∈ mods, LibraryModule (h nm.2)) (hu : ClearNames h mods) (ops : List GOp) (removeGensets : Bool)
    (r : RBC) (hr : RBC.create (runG g₀ ops) none removeGensets = .ok r) (key : String × Nat) (i : Nat)
    (hd : Denotes h mods key i) (gs : Genset) (hk : ((runG g₀ ops).heap i).kind = .genset gs) :
    ∃ e ∈ r.list, e.module = key ∧ e.action = if removeGensets = true ∧ gs.runMin = 0 then 1 else 0 := by
  obtain ⟨ok, alike, -, -⟩ := user_grid hc hl ops
  obtain ⟨rest, hf⟩ := first_list ok (hu.congr alike) (user_dims hc hl ops) removeGensets
  have hd' : Denotes (runG g₀ ops).heap mods key i := (Denotes.congr fun j => (alike j).ffc).mpr hd
  unfold RBC.create at hr
  rw [hf] at hr
  have hr := Except.ok.inj hr
  refine ⟨firstElement removeGensets (runG g₀ ops).heap (key, i), ?_, rfl, ?_⟩
  · rw [← hr]
    exact (RBC.sorted_perm _).mem_iff.mpr (List.mem_map_of_mem ((mem_controllable ok (hu.congr alike)).mpr hd'))
  · simp only [firstElement, firstAction, hk]

/-- C38 is violated: rule-based control with the default list never starts a genset with positive minimum production that
    is off (nor, if redundant gensets are not removed, any other), however large the load. -/
theorem C38_never_started (hc : Microgrid.create h mods sh none = .ok g₀)
    (hl : ∀ nm ∈ mods, LibraryModule (h nm.2)) (hb : ∃ nm ∈ mods, ∃ u, (h nm.2).kind = .balancing u)
    (hid : (mods.map Prod.snd).Nodup) (hd : DistinctNames h mods) (hr : ∀ nm ∈ mods, (h nm.2).raiseErrors = false)
    (hs : ∀ f, sh = some f → ∀ i c, ∃ r, f i c = .ok r)
    (hdata : ∀ nm ∈ mods, ∀ t, (h nm.2).series? = some t →
      (h nm.2).initialStep < t.finalStep ∧ t.finalStep ≤ t.rows.length)
    (ops : List GOp) (removeGensets : Bool) (r : RBC)
    (hrbc : RBC.create (runG g₀ ops) none removeGensets = .ok r) (key : String × Nat) (i : Nat)
    (hi : Denotes h mods key i) (gs : Genset) (hk : ((runG g₀ ops).heap i).kind = .genset gs) (hoff : gs.status = 0)
    (hmin : gs.runMin ≠ 0 ∨ removeGensets = false) (n : Nat) :
    ∃ r' gs', r.run n = (r', .ok ()) ∧ (r'.g.heap i).kind = .genset gs' ∧ gs'.status = 0 := by
  obtain ⟨pl, hpl, hip, -, -⟩ := C37_default_list hc hl hd.clear ops removeGensets
  obtain ⟨e, he, hem, hea⟩ := C38_default_actions hc hl hd.clear ops removeGensets r hrbc key i hi gs hk
  rw [hpl] at hrbc
  obtain rfl := Except.ok.inj hrbc
  rw [if_neg (by rcases hmin with h | h <;> simp [h])] at hea
  obtain ⟨F, g₁, g', os, -, hrs, hrun, hpr, -⟩ := C36_rbc_run hc hl hb hid hd hr hs hdata ops ops pl hip n
  obtain ⟨ok, alike, -, -⟩ := user_grid hc hl ops
  have htr : g₀.trajectory = none := (Microgrid.create_ok hc).2.2.2.1
  have htr' : (runG g₀ ops).trajectory = none := (runG_fixed g₀ ops).trajectory.trans htr
  have alike₁ : ∀ j, (h j).Alike (g₁.heap j) := fun j => (alike j).trans (reset_alike hrs j)
  have hd₁ : Denotes g₁.heap mods e.module i := by
    rw [hem]; exact (Denotes.congr fun j => (alike₁ j).ffc).mpr hi
  have hk₁ := ok.reset_genset hid (hd.congr alike) htr' hrs (nm := (key.1, i)) hi.mem.1 hk
  obtain ⟨gs', h1, h2⟩ := hpr.off (ok.reset_next hrs) (hd.clear.congr alike₁) hid he hea hd₁ hk₁ hoff
  exact ⟨_, gs', hrun, h1, h2⟩

/-- C38, for gensets without minimum production (and the default `remove_redundant_gensets`): whenever rule-based control
    acts on its default list, each of them is asked to run; and if some load is left over, each of them that is running
    or starts at once is at its maximum.
    Missing: gensets with positive minimum production, for which the claim is false (`C38_never_started`). -/
theorem C38_zero_minimum_partial (hc : Microgrid.create h mods sh tr = .ok g₀)
    (hl : ∀ nm ∈ mods, LibraryModule (h nm.2)) (hu : ClearNames h mods) (ops ops' : List GOp)
    (r : RBC) (hr : RBC.create (runG g₀ ops) none true = .ok r)
    (hlive : ∀ nm ∈ mods, ((runG g₀ ops').heap nm.2).Live) :
    ∃ act rem c, populateAction (runG g₀ ops') r.list = .ok (act, rem) ∧ toControl act = some c ∧
      ∀ key i gs gs', Denotes h mods key i → ((runG g₀ ops).heap i).kind = .genset gs → gs.runMin = 0 →
        ((runG g₀ ops').heap i).kind = .genset gs' →
        ∃ k x, dictGet? c key.1 = some k ∧ k.acts[key.2]? = some (.arr [1, x]) ∧
          (1/10000 < rem → gs'.status = 1 ∨ gs'.startUpTime = 0 → x = gs'.runMax) := by
  obtain ⟨pl, hpl, hip, -, -⟩ := C37_default_list hc hl hu ops true
  have hr' := hr
  rw [hpl] at hr'
  obtain rfl := Except.ok.inj hr'
  obtain ⟨act, rem, c, xs, h1, h2, plan⟩ := C36_plan_partial hc hl hu ops ops' pl hip hlive
  obtain ⟨ok, alike, -, -⟩ := user_grid hc hl ops'
  refine ⟨act, rem, c, h1, h2, ?_⟩
  intro key i gs gs' hd hk h0 hk'
  obtain ⟨e, he, hem, hea⟩ := C38_default_actions hc hl hu ops true _ hr key i hd gs hk
  rw [if_pos ⟨rfl, h0⟩] at hea
  obtain ⟨n, hn, hne⟩ := List.getElem_of_mem he
  have hz : (e, xs[n]'(by rw [plan.len]; exact hn)) ∈ pl.zip xs :=
    List.mem_iff_getElem.mpr ⟨n, by simp only [List.length_zip, plan.len]; simpa using hn, by
      rw [List.getElem_zip]; exact Prod.ext hne rfl⟩
  obtain ⟨i', k, lo, hi, d1, d2, d3, d4, -, d6, -⟩ := plan.each _ hz
  simp only at d1 d2 d3 d4 d6
  rw [hem] at d1 d2 d3
  have hii : i' = i := Option.some.inj (((Denotes.congr fun j => (alike j).ffc).mp d1).symm.trans hd)
  rw [hii] at d1 d3 d4
  refine ⟨k, xs[n]'(by rw [plan.len]; exact hn), d2, ?_, ?_⟩
  · rw [d3]
    unfold Module.planAct
    simp [hk', hea]
  · intro hrem hon
    rw [d6 hrem]
    rw [hea, ((ok.wf _ d1.mem.1).genWF hk').on_window hon] at d4
    exact (Prod.mk.inj (Option.some.inj d4)).2.symm

end

/-! ### Findings and examples -/

/-- Finding, C35: the claim fails for a name shared by controllable modules of different direction.  The constructor accepts
    the microgrid with a battery and a genset, but every list has a single element. -/
theorem C35_shared_name : Microgrid.create demoHeap clashMods none none = .ok clashGrid ∧
    modulesNamed demoHeap clashMods .controllable "storage" = [2, 3] ∧
    (getPriorityLists clashGrid false).toOption.map (fun l => l.map List.length) = some [1, 1, 1] :=
  ⟨okGrid_eq (by decide +kernel), by decide +kernel⟩

/-- Load, genset (10–80, initially off, no start-up time) and balancing module. -/
def islandHeap : Heap
  | 0 => exLoad
  | 1 => okModule (mkGenset 10 80 (.const (2/5)) 2 (1/10) 0 0 true false 0 false)
  | _ => mkBalancing false 0 10 5

/-- Their names. -/
def islandMods : List (String × Nat) := [("load", 0), ("genset", 1), ("balancing", 2)]

/-- The microgrid. -/
def islandGrid : Microgrid := okGrid (Microgrid.create islandHeap islandMods none none)

/-- Its rule-based control. -/
def islandRBC : RBC := ((RBC.create islandGrid none true).toOption).getD ⟨islandGrid, []⟩

/-- Finding, C38: load 60, 40, 20 and a genset that could provide 80 at once.  Rule-based control leaves the genset off and
    all load unserved. -/
theorem C38_loss_of_load : (RBC.create islandGrid none true).toOption.map RBC.list = some islandRBC.list ∧
    (islandRBC.run 3).2.isOk = true ∧
    ((islandRBC.run 3).1.g.heap 1).logger.column (.str "genset_production") = [some 0, some 0, some 0] ∧
    ((islandRBC.run 3).1.g.heap 2).logger.column (.str "loss_load") = [some 60, some 40, some 20] := by
  decide +kernel

/-- A list that asks the genset to run. -/
def gensetFirst : List Element := [⟨("genset", 0), 2, 1, 3/5⟩, ⟨("battery", 0), 1, 0, 3⟩, ⟨("grid", 0), 1, 0, 1/5⟩]

/-- Finding, C36: after one run renewable production exceeds the load by 10, and the list asks the genset (minimum 10) to
    run.  It is assigned 0, which it cannot deliver; in the run it provides 10 that is not needed. -/
theorem C36_below_minimum :
    (getPriorityLists demoGrid true).toOption.map (fun l => l.contains gensetFirst) = some true ∧
    netLoad (runG demoGrid [.run demoControl false]).heap demoMods = -10 ∧
    (populateAction (runG demoGrid [.run demoControl false]) gensetFirst).toOption.map (fun x => dictGet? x.1 "genset") =
      some (some [some (.arr [1, 0])]) ∧
    ((runG demoGrid [.run demoControl false]).heap 3).planWindow 1 = some (10, 50) ∧
    ((RBC.step ⟨runG demoGrid [.run demoControl false], gensetFirst⟩).2.toOption.map fun o =>
      (dictGet? o.infos "genset").map fun l => l.map Info.provided) = some (some [some 10]) := by
  decide +kernel

/-- A plan for a surplus of 10, which the battery takes. -/
example : ((populateAction (runG demoGrid [.run demoControl false]) gensetFirst).toOption.map fun x => (x.2, x.1)) =
    some (0, [("genset", [some (.arr [1, 0])]), ("battery", [some (.num (-10))]), ("grid", [some (.num 0)])]) := by
  decide +kernel
/-- In the first step the genset covers the net load of 30. -/
example : netLoad demoGrid.heap demoMods = 30 ∧ ((populateAction demoGrid gensetFirst).toOption.map fun x => (x.2, x.1)) =
    some (0, [("genset", [some (.arr [1, 30])]), ("battery", [some (.num 0)]), ("grid", [some (.num 0)])]) := by
  decide +kernel
/-- The hypotheses of C36 and C37: a generated list is a priority list, and the modules have data. -/
example : IsPriorityList (runG demoGrid []).heap demoMods gensetFirst ∧
    ∀ nm ∈ demoMods, ((runG demoGrid [.run demoControl false]).heap nm.2).Live := by
  refine ⟨?_, ?_⟩
  · obtain ⟨pls, h1, -, h2⟩ := C35_priority_lists_partial demoGrid_ok demo_library demo_names.clear [] true
    have h3 : (getPriorityLists (runG demoGrid []) true).toOption.map (fun l => l.contains gensetFirst) = some true := by
      decide +kernel
    rw [h1] at h3
    exact ((h2 gensetFirst).mp (by simpa [Except.toOption] using h3)).1
  · have : ∀ nm ∈ demoMods, (((runG demoGrid [.run demoControl false]).heap nm.2).series?.all fun t =>
        decide (((runG demoGrid [.run demoControl false]).heap nm.2).currentStep < t.rows.length)) = true := by
      decide +kernel
    intro nm hm t ht
    have := this nm hm
    rw [ht] at this
    simpa using this
/-- A whole episode of rule-based control, and a shorter one. -/
example : (RBC.run ⟨demoGrid, gensetFirst⟩ 7).2.isOk = true ∧
    ((RBC.run ⟨demoGrid, gensetFirst⟩ 7).1.g.heap 0).currentStep = 3 ∧
    ((RBC.run ⟨demoGrid, gensetFirst⟩ 2).1.g.heap 0).currentStep = 2 := by decide +kernel

theorem islandGrid_ok : Microgrid.create islandHeap islandMods none none = .ok islandGrid := okGrid_eq (by decide +kernel)

/-- The hypotheses of `C38_never_started` hold for the island. -/
example : (∀ nm ∈ islandMods, LibraryModule (islandHeap nm.2)) ∧ (islandMods.map Prod.snd).Nodup ∧
    DistinctNames islandHeap islandMods ∧ (∀ nm ∈ islandMods, (islandHeap nm.2).raiseErrors = false) ∧
    (∀ nm ∈ islandMods, ∀ t, (islandHeap nm.2).series? = some t →
      (islandHeap nm.2).initialStep < t.finalStep ∧ t.finalStep ≤ t.rows.length) ∧
    Denotes islandHeap islandMods ("genset", 0) 1 ∧
    ∃ gs, (islandGrid.heap 1).kind = .genset gs ∧ gs.status = 0 ∧ gs.runMin ≠ 0 := by
  refine ⟨?_, by decide, by unfold DistinctNames; decide +kernel, by decide +kernel, ?_, by unfold Denotes; decide +kernel, ?_⟩
  · intro nm hm
    simp only [islandMods, List.mem_cons, List.not_mem_nil, or_false] at hm
    rcases hm with rfl | rfl | rfl
    · have : mkLoad [60, 40, 20] .oracle 2 0 (-1) false = .ok exLoad := okModule_eq (by decide +kernel)
      exact .series (.load this) trivial
    · have : mkGenset 10 80 (.const (2/5)) 2 (1/10) 0 0 true false 0 false = .ok (islandHeap 1) :=
        okModule_eq (by decide +kernel)
      exact .genset this (by norm_num)
    · exact .balancing (by norm_num) (by norm_num)
  · have : ∀ nm ∈ islandMods, ((islandHeap nm.2).series?.all fun t =>
        decide ((islandHeap nm.2).initialStep < t.finalStep ∧ t.finalStep ≤ t.rows.length)) = true := by decide +kernel
    intro nm hm t ht
    have := this nm hm
    rw [ht] at this
    simpa using this
  · have hheap : islandGrid.heap = islandHeap := (Microgrid.create_ok islandGrid_ok).1
    rw [hheap]
    refine ⟨_, rfl, by decide +kernel, by decide +kernel⟩

/-- Load of 60, 40, 20 and a genset without minimum that can provide 50. -/
def smallHeap : Heap
  | 0 => exLoad
  | 1 => okModule (mkGenset 0 50 (.const (2/5)) 2 (1/10) 0 0 true false 0 false)
  | _ => mkBalancing false 0 10 5

/-- The microgrid. -/
def smallGrid : Microgrid := okGrid (Microgrid.create smallHeap islandMods none none)

/-- `C38_zero_minimum_partial`: the genset runs, at its maximum while load is left over. -/
example : ((RBC.create smallGrid none true).toOption.bind fun r => (populateAction r.g r.list).toOption) =
    some ([("genset", [some (.arr [1, 50])])], 10) := by decide +kernel
example : ((RBC.create smallGrid none true).toOption.map fun r =>
    ((r.run 3).1.g.heap 1).logger.column (.str "genset_production")) = some [some 50, some 40, some 20] := by decide +kernel

end Pymgrid
