import Verif.Model.RBCRun
import Verif.Props.ModularMPC
import Verif.Props.Trajectory

set_option autoImplicit false

/-!
# C81: rule-based control until the microgrid terminates
-/

namespace Pymgrid

open Module PriorityList

section
variable {h : Heap} {mods : List (String × Nat)} {sh : Option Shaper} {g₀ : Microgrid}
  {tr : Option (Nat → Nat → Option Nat → Except Err (Nat × Nat))}

/-- After any history and a successful reset, whatever chooses the episodes, the microgrid is ready for control by priority
    lists. -/
theorem user_running_any (hc : Microgrid.create h mods sh tr = .ok g₀)
    (hl : ∀ nm ∈ mods, LibraryModule (h nm.2)) (hb : ∃ nm ∈ mods, ∃ u, (h nm.2).kind = .balancing u)
    (hid : (mods.map Prod.snd).Nodup) (hd : DistinctNames h mods) (hr : ∀ nm ∈ mods, (h nm.2).raiseErrors = false)
    (hs : ∀ f, sh = some f → ∀ i c, ∃ r, f i c = .ok r)
    (hdata : ∀ nm ∈ mods, ∀ t, (h nm.2).series? = some t →
      (h nm.2).initialStep < t.finalStep ∧ t.finalStep ≤ t.rows.length)
    (ht : ∀ f, tr = some f → ∀ k i fin, f k g₀.initialStep g₀.finalStep = .ok (i, fin) →
      i < fin ∧ ∀ F, g₀.finalStep = some F → fin ≤ F)
    (ops' : List GOp) {g₁ : Microgrid} (hrs : (runG g₀ ops').reset = (g₁, .ok ())) :
    ∃ I F, Episode mods g₁ I F ∧ I < F ∧ (∀ F₀, g₀.finalStep = some F₀ → F ≤ F₀) ∧
      ∀ pl, Fits g₁.heap mods pl → Running mods pl F g₁ I := by
  obtain ⟨ok, alike, hsh, -⟩ := user_grid hc hl ops'
  obtain ⟨F₀, hF, he⟩ := created_episode hc hd (List.ne_nil_of_mem hb.choose_spec.1)
  have htr : g₀.trajectory = tr := (Microgrid.create_ok hc).2.2.2.1
  have hheap := (Microgrid.create_ok hc).1
  have hfx := runG_fixed g₀ ops'
  have hg₁ : g₁ = runG g₀ (ops' ++ [.reset]) := by simp [runG, GOp.apply] at hrs ⊢; simp [hrs]
  obtain ⟨hcur, -, hlim, hlim'⟩ := ok.reset_modules hid (hd.congr alike) hrs
  obtain ⟨ok₁, alike₁, hsh₁, -⟩ := user_grid hc hl (ops' ++ [.reset])
  rw [← hg₁] at ok₁ alike₁ hsh₁
  have hfin : ∀ nm ∈ mods, ∀ t, (h nm.2).series? = some t → t.finalStep = F₀ := by
    intro nm hm t ht
    apply (he.1 nm hm).2
    rw [hheap]
    unfold Module.series? at ht
    unfold Module.finalStep?
    cases hk : (h nm.2).kind <;> rw [hk] at ht <;> simp at ht <;> simp [ht]
  have hsize : ∀ nm ∈ mods, ∀ n, (g₁.heap nm.2).kind.size = some n → F₀ ≤ n := by
    intro nm hm k hk
    have : (g₁.heap nm.2).kind.size = (h nm.2).kind.size := by
      rw [hg₁, ← hheap]; exact kept_size.runG g₀ (ops' ++ [.reset]) nm.2
    rw [this] at hk
    obtain ⟨t, ht, rfl⟩ : ∃ t, (h nm.2).series? = some t ∧ t.rows.length = k := by
      unfold Kind.size at hk
      unfold Module.series?
      cases hkk : (h nm.2).kind <;> rw [hkk] at hk <;> simp at hk <;> simp [hk]
    rw [← hfin nm hm t ht]
    exact (hdata nm hm t ht).2
  -- some module of the microgrid has a series, before and after
  obtain ⟨nm₀, hm₀, hne₀⟩ := he.2
  have hsome : (g₁.heap nm₀.2).finalStep? ≠ none := by
    have : (g₁.heap nm₀.2).kind.size = (g₀.heap nm₀.2).kind.size := by
      rw [hg₁]; exact kept_size.runG g₀ (ops' ++ [.reset]) nm₀.2
    unfold Kind.size at this
    unfold Module.finalStep? at hne₀ ⊢
    cases hk : (g₀.heap nm₀.2).kind <;> rw [hk] at hne₀ this <;> simp at hne₀ <;>
      cases hk' : (g₁.heap nm₀.2).kind <;> rw [hk'] at this <;> simp at this <;> simp
  have hI₀ : g₀.initialStep < F₀ := by
    have hne := hne₀
    rw [hheap] at hne
    obtain ⟨t, ht⟩ : ∃ t, (h nm₀.2).series? = some t := by
      unfold Module.finalStep? at hne
      unfold Module.series?
      cases hk : (h nm₀.2).kind <;> rw [hk] at hne <;> simp at hne <;> simp
    have h1 := (hdata nm₀ hm₀ t ht).1
    rw [hfin nm₀ hm₀ t ht] at h1
    have h2 := (he.1 nm₀ hm₀).1
    rw [hheap] at h2
    omega
  obtain ⟨I, F, he₁, hIF, hFF⟩ : ∃ I F, Episode mods g₁ I F ∧ I < F ∧ F ≤ F₀ := by
    cases htr' : tr with
    | none =>
      have hn : (runG g₀ ops').trajectory = none := hfx.trajectory.trans (htr.trans htr')
      have hlim := hlim hn
      refine ⟨g₀.initialStep, F₀, ⟨fun nm hm => ?_, ⟨nm₀, hm₀, hsome⟩⟩, hI₀, le_refl _⟩
      rw [(hlim nm hm).1, (hlim nm hm).2, (limits_kept (htr.trans htr') ops' nm.2).1,
        (limits_kept (htr.trans htr') ops' nm.2).2]
      exact he.1 nm hm
    | some f =>
      obtain ⟨i, fin, hf, hl'⟩ := hlim' f (hfx.trajectory.trans (htr.trans htr'))
      rw [hfx.initialStep, hfx.finalStep] at hf
      obtain ⟨h1, h2⟩ := ht f htr' _ i fin hf
      exact ⟨i, fin, ⟨fun nm hm => ⟨(hl' nm hm).1, fun x hx => ((hl' nm hm).2.2 (by omega) x hx).1⟩, ⟨nm₀, hm₀, hsome⟩⟩,
        h1, h2 F₀ hF⟩
  refine ⟨I, F, he₁, hIF, fun F' h' => by rw [hF] at h'; obtain rfl := Option.some.inj h'; exact hFF, fun pl hfit => ?_⟩
  refine ⟨ok₁, hd.clear.congr alike₁, by rw [hg₁]; exact user_dims hc hl _, hfit,
    fun nm hm => (hcur nm hm).1.trans (he₁.1 nm hm).1, ⟨_, he₁⟩, fun nm hm => (alike₁ nm.2).raise.trans (hr nm hm), ?_,
    fun nm hm n hn => hFF.trans (hsize nm hm n hn), ?_⟩
  · obtain ⟨nm, hm, hu⟩ := hb
    exact ⟨nm, hm, by rw [hg₁]; exact user_balancing hc hl _ hm hu⟩
  · rw [hsh₁]; exact hs

/-- The data of a microgrid that is ready after a reset covers the episode. -/
theorem length_covers (hc : Microgrid.create h mods sh tr = .ok g₀) (hl : ∀ nm ∈ mods, LibraryModule (h nm.2))
    {ops' : List GOp} {g₁ : Microgrid} (hrs : (runG g₀ ops').reset = (g₁, .ok ())) {pl : List Element} {I F : Nat}
    (he : Episode mods g₁ I F) (R : Running mods pl F g₁ I) :
    ∃ l, MPC.lengthOf (runG g₀ ops') = .ok l ∧ F ≤ l := by
  have hg₁ : g₁ = runG g₀ (ops' ++ [.reset]) := by simp [runG, GOp.apply] at hrs ⊢; simp [hrs]
  obtain ⟨ok, -, -, -⟩ := user_grid hc hl ops'
  have hsz : ∀ nm : String × Nat, ((runG g₀ ops').heap nm.2).kind.size = (g₁.heap nm.2).kind.size := fun nm => by
    rw [hg₁]; exact (kept_size.runG g₀ ops' nm.2).trans (kept_size.runG g₀ (ops' ++ [.reset]) nm.2).symm
  obtain ⟨l, e, hle⟩ := MPC.lengthOf_spec ok (by
    obtain ⟨nm, hm, hne⟩ := he.2
    have hz := hsz nm
    refine ⟨nm, hm, ?_⟩
    unfold Module.finalStep? at hne
    unfold Kind.size at hz
    unfold Module.series?
    cases hk : (g₁.heap nm.2).kind <;> rw [hk] at hne hz <;> simp at hne <;>
      cases hk' : ((runG g₀ ops').heap nm.2).kind <;> rw [hk'] at hz <;> simp at hz <;> simp)
  refine ⟨l, e, (hle F).mpr fun nm hm t ht => R.size nm hm _ ?_⟩
  rw [← hsz nm]
  exact Module.size_series ht

/-- Iterations after the end of the episode make no difference. -/
theorem Running.loop_enough {pl : List Element} {F : Nat} (hid : (mods.map Prod.snd).Nodup) (n l : Nat) {g : Microgrid} {c : Nat}
    (r : Running mods pl F g c) (hc : c < F) (hn : F ≤ c + n) (hl : F ≤ c + l) :
    RBC.loop n ⟨g, pl⟩ = RBC.loop l ⟨g, pl⟩ := by
  induction n generalizing g c l with
  | zero => omega
  | succ n ih =>
    obtain ⟨l, rfl⟩ : ∃ k, l = k + 1 := ⟨l - 1, by omega⟩
    obtain ⟨ctl, rem, xs, g₁, o, p, hr, hs, hd, r'⟩ := r.step hid hc
    simp only [RBC.loop, hs]
    by_cases hF : F ≤ c + 1
    · rw [hd, if_pos (by simpa using hF), if_pos (by simpa using hF)]
    · rw [hd, if_neg (by simpa using hF), if_neg (by simpa using hF)]
      exact ih l r' (by omega) (by omega) (by omega)

/-- C81: rule-based control without a number of steps, on any of the generated lists, runs the whole episode: if the reset
    succeeds (it does unless the trajectory function raises), the episode is from `I` to `F` in every module, there are exactly
    `F - I` runs, each on a control planned in the state of its step, and the last of them — and no other — reports that the
    microgrid is done. -/
theorem C81_whole_episode (hc : Microgrid.create h mods sh tr = .ok g₀)
    (hl : ∀ nm ∈ mods, LibraryModule (h nm.2)) (hb : ∃ nm ∈ mods, ∃ u, (h nm.2).kind = .balancing u)
    (hid : (mods.map Prod.snd).Nodup) (hd : DistinctNames h mods) (hr : ∀ nm ∈ mods, (h nm.2).raiseErrors = false)
    (hs : ∀ f, sh = some f → ∀ i c, ∃ r, f i c = .ok r)
    (hdata : ∀ nm ∈ mods, ∀ t, (h nm.2).series? = some t →
      (h nm.2).initialStep < t.finalStep ∧ t.finalStep ≤ t.rows.length)
    (ht : ∀ f, tr = some f → ∀ k i fin, f k g₀.initialStep g₀.finalStep = .ok (i, fin) →
      i < fin ∧ ∀ F, g₀.finalStep = some F → fin ≤ F)
    (ops ops' : List GOp) (pl : List Element) (hp : IsPriorityList (runG g₀ ops).heap mods pl)
    {g₁ : Microgrid} (hrs : (runG g₀ ops').reset = (g₁, .ok ())) :
    ∃ I F g' os, I < F ∧ (∀ nm ∈ mods, (g₁.heap nm.2).initialStep = I ∧ ∀ x, (g₁.heap nm.2).finalStep? = some x → x = F) ∧
      RBC.runAll ⟨runG g₀ ops', pl⟩ = (⟨g', pl⟩, .ok ()) ∧ PlannedRuns mods pl g₁ os g' ∧
      os.map RunOut.done = List.replicate (F - I - 1) false ++ [true] := by
  obtain ⟨I, F, he, hIF, hFF, hR⟩ := user_running_any hc hl hb hid hd hr hs hdata ht ops' hrs
  have hg₁ : g₁ = runG g₀ (ops' ++ [.reset]) := by simp [runG, GOp.apply] at hrs ⊢; simp [hrs]
  have R := hR pl (by rw [hg₁]; exact user_fits hc hl ops _ hp)
  obtain ⟨l, hlen, hle⟩ := length_covers hc hl hrs he R
  obtain ⟨g', os, e, pr, hn, hdn⟩ := R.loop hid l hIF
  refine ⟨I, F, g', os, hIF, he.1, ?_, pr, ?_⟩
  · unfold RBC.runAll RBC.run
    simp only [hlen, hrs]
    exact e
  · rw [hdn, hn, min_eq_right (by omega)]
    obtain ⟨k, hk⟩ : ∃ k, F - I = k + 1 := ⟨F - I - 1, by omega⟩
    rw [hk, List.range_succ, List.map_append, Nat.add_sub_cancel]
    refine congrArg₂ _ ?_ (by simp; omega)
    rw [List.eq_replicate_iff]
    refine ⟨by simp, fun b hb => ?_⟩
    obtain ⟨j, hj, rfl⟩ := List.mem_map.mp hb
    rw [List.mem_range] at hj
    simp
    omega

/-- C81: a number of steps that covers the episode gives the same result as no number. -/
theorem C81_enough_steps (hc : Microgrid.create h mods sh tr = .ok g₀)
    (hl : ∀ nm ∈ mods, LibraryModule (h nm.2)) (hb : ∃ nm ∈ mods, ∃ u, (h nm.2).kind = .balancing u)
    (hid : (mods.map Prod.snd).Nodup) (hd : DistinctNames h mods) (hr : ∀ nm ∈ mods, (h nm.2).raiseErrors = false)
    (hs : ∀ f, sh = some f → ∀ i c, ∃ r, f i c = .ok r)
    (hdata : ∀ nm ∈ mods, ∀ t, (h nm.2).series? = some t →
      (h nm.2).initialStep < t.finalStep ∧ t.finalStep ≤ t.rows.length)
    (ht : ∀ f, tr = some f → ∀ k i fin, f k g₀.initialStep g₀.finalStep = .ok (i, fin) →
      i < fin ∧ ∀ F, g₀.finalStep = some F → fin ≤ F)
    (ops ops' : List GOp) (pl : List Element) (hp : IsPriorityList (runG g₀ ops).heap mods pl)
    {g₁ : Microgrid} (hrs : (runG g₀ ops').reset = (g₁, .ok ())) (n : Nat)
    (hn : ∀ nm ∈ mods, ∀ x, (g₁.heap nm.2).finalStep? = some x → x ≤ (g₁.heap nm.2).initialStep + n) :
    RBC.run ⟨runG g₀ ops', pl⟩ n = RBC.runAll ⟨runG g₀ ops', pl⟩ := by
  obtain ⟨I, F, he, hIF, -, hR⟩ := user_running_any hc hl hb hid hd hr hs hdata ht ops' hrs
  have hg₁ : g₁ = runG g₀ (ops' ++ [.reset]) := by simp [runG, GOp.apply] at hrs ⊢; simp [hrs]
  have R := hR pl (by rw [hg₁]; exact user_fits hc hl ops _ hp)
  obtain ⟨l, hlen, hle⟩ := length_covers hc hl hrs he R
  have hFn : F ≤ I + n := by
    obtain ⟨nm, hm, hne⟩ := he.2
    obtain ⟨x, hx⟩ := Option.ne_none_iff_exists'.mp hne
    have h1 := hn nm hm x hx
    rw [(he.1 nm hm).1, (he.1 nm hm).2 x hx] at h1
    exact h1
  unfold RBC.runAll RBC.run
  simp only [hlen, hrs]
  exact R.loop_enough hid n l hIF hFn (by omega)

end

/-! ### Examples -/

-- the microgrid of the examples runs its three steps
example : (RBC.runAll ⟨demoGrid, gensetFirst⟩).2.isOk = true ∧
    ((RBC.runAll ⟨demoGrid, gensetFirst⟩).1.g.heap 0).currentStep = 3 ∧
    (RBC.runAll ⟨demoGrid, gensetFirst⟩).1.g.balanceLog.len = 3 := by decide +kernel

-- with episodes of two steps, it runs two
example : (twoSteps.reset.2.isOk = true) ∧ (RBC.runAll ⟨twoSteps, gensetFirst⟩).2.isOk = true ∧
    (RBC.runAll ⟨twoSteps, gensetFirst⟩).1.g.balanceLog.len = 2 := by decide +kernel

-- whose trajectory function meets the requirement of the theorems
example (k i fin : Nat) (h : Trajectory.ofCall (fun k => Trajectory.fixedLength 2 k) k twoSteps.initialStep twoSteps.finalStep =
    .ok (i, fin)) : i < fin ∧ ∀ F, twoSteps.finalStep = some F → fin ≤ F := by
  have e1 : twoSteps.initialStep = 0 := by decide +kernel
  have e2 : twoSteps.finalStep = some 3 := by decide +kernel
  rw [e1, e2] at h
  obtain ⟨j, hj, h1, h2, h3⟩ := (C40_fixed_length_partial 0 3 2 (by omega) (by omega)).1 k
  unfold Trajectory.ofCall at h
  simp only [Nat.cast_zero, Nat.cast_ofNat, hj] at h
  simp at h
  refine ⟨by omega, fun F hF => ?_⟩
  rw [e2] at hF
  obtain rfl := Option.some.inj hF
  omega

end Pymgrid
