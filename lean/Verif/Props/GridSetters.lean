import Verif.Lemmas.GridSetters
import Verif.Props.GetLog

set_option autoImplicit false

/-!
# C75: assigning the range of steps of a microgrid

For every microgrid `g₀` that the constructor accepts for library modules, after every history `ops` of `run`, `reset` and
assignments of `initial_step` and `final_step` (including failing ones).
-/

namespace Pymgrid

open Module

/-- The log after a reset to the microgrid's initial step and successful runs. -/
theorem GridOK.log_after {mods : List (String × Nat)} {g g₁ g' : Microgrid} (ok : GridOK mods g)
    (hid : (mods.map Prod.snd).Nodup) (hd : DistinctNames g.heap mods) (hne : mods ≠ []) (hr : g.reset = (g₁, .ok ()))
    (hlock : LockStep mods g₁ g.initialStep) {cs : List (List (String × Ctrl) × Bool)} {os : List RunOut}
    (hs : ∀ cn ∈ cs, Supplies g.heap mods cn.1) (hrun : Runs g₁ cs os g') :
    ∃ f, g'.getLog = .ok f ∧ f.index = List.range' g.initialStep os.length ∧ (∀ c ∈ f.cols, c.2.length = os.length) := by
  have ok₁ := ok.reset_next hr
  have alike₁ : ∀ j, (g.heap j).Alike (g₁.heap j) := reset_alike hr
  have hs₁ : ∀ cn ∈ cs, Supplies g₁.heap mods cn.1 := fun cn hcn => (hs cn hcn).congr alike₁
  obtain ⟨ok', alike', hlock'⟩ := hrun.lock ok₁ hid (hd.clear.congr alike₁) hs₁ hlock
  have hd₂ : DistinctNames g'.heap mods := hd.congr fun j => (alike₁ j).trans (alike' j)
  have hcur := ok'.currentStep hd₂ hne hlock'
  have hev := even_after ok hid hd hr hrun hs₁
  have hinit : g'.initialStep = g.initialStep := by
    rw [hrun.fixed]
    have := g.reset_fixed.initialStep
    rwa [hr] at this
  have hoth : g'.otherLog = {} := by
    rw [hrun.otherLog]
    unfold Microgrid.reset at hr
    repeat' split at hr
    all_goals simp only [Prod.mk.injEq, reduceCtorEq, and_false, and_true] at hr
    rw [← hr]
    rfl
  have hg := getLog_ok ok'.cont hev (by rw [hoth]; simp) hcur (by rw [hinit])
  exact ⟨_, hg, by rw [hinit], logColumns_len ok'.cont hev (by rw [hoth]; simp)⟩

section
variable {h : Heap} {mods : List (String × Nat)} {sh : Option Shaper}
  {tr : Option (Nat → Nat → Option Nat → Except Err (Nat × Nat))} {g₀ : Microgrid}

/-- What is known after a history with assignments. -/
theorem user_range (hmods : mods ≠ []) (hc : Microgrid.create h mods sh tr = .ok g₀) (hl : ∀ nm ∈ mods, LibraryModule (h nm.2))
    (hd : DistinctNames h mods) (ops : List UOp) :
    GridOK mods (runU g₀ ops) ∧ (∀ j, (h j).Alike ((runU g₀ ops).heap j)) ∧ (runU g₀ ops).trajectory = tr ∧
      ∃ nm ∈ mods, ((runU g₀ ops).heap nm.2).finalStep? ≠ none := by
  have ok := (user_grid hc hl []).1
  obtain ⟨F, -, he⟩ := created_episode hc hd hmods
  have hheap := (Microgrid.create_ok hc).1
  refine ⟨GridOK.runU ok ops, fun j => ?_, ?_, ?_⟩
  · have := kept_alike.runU g₀ ops j
    rwa [hheap] at this
  · rw [(runU_same g₀ ops).trajectory]
    exact (Microgrid.create_ok hc).2.2.2.1
  · obtain ⟨nm, hm, hne⟩ := he.2
    exact ⟨nm, hm, fun h0 => hne ((kept_final.runU g₀ ops nm.2).mp h0)⟩

/-- C75, for assigning both ends of a range `a < b`, the first end first: both assignments succeed and are reported; no step,
    log, state or space changes.  The trajectory function is then called with `a` and `b`.  Without one, a reset takes all
    modules to `a`, `done` is reported exactly from the run that completes the step before `b`, and the log of these runs is
    indexed from `a`.
    Missing: an assignment that is rejected without effect (`C75_rejected_final_changes`), a range that is not ordered
    (`C75_initial_unchecked`), that exceeds the series (`C75_final_unchecked`), logs before the reset
    (`C75_log_fails`), and microgrids without modules, for which there is nothing to assign (`C75_no_modules`). -/
theorem C75_range_partial (hmods : mods ≠ []) (hc : Microgrid.create h mods sh tr = .ok g₀) (hl : ∀ nm ∈ mods, LibraryModule (h nm.2))
    (hid : (mods.map Prod.snd).Nodup) (hd : DistinctNames h mods) (ops : List UOp) (a b : Nat) (hab : a < b) :
    ∃ g₁ g₂, (runU g₀ ops).setInitialStep a = (g₁, .ok ()) ∧ g₁.setFinalStep b = (g₂, .ok ()) ∧
      g₂.initialStep = a ∧ g₂.finalStep = some b ∧ g₂.balanceLog = (runU g₀ ops).balanceLog ∧
      (∀ nm ∈ mods, ((runU g₀ ops).heap nm.2).SameButRange (g₂.heap nm.2)) ∧
      (∀ f g₃, tr = some f → g₂.reset = (g₃, .ok ()) →
        ∃ I F, f (runU g₀ ops).calls a (some b) = .ok (I, F) ∧ LockStep mods g₃ I) ∧
      (tr = none → ∃ g₃, g₂.reset = (g₃, .ok ()) ∧ LockStep mods g₃ a ∧
        ∀ cs os g', (∀ cn ∈ cs, Supplies h mods cn.1) → Runs g₃ cs os g' →
          (∀ j (hj : j < os.length), os[j].done = decide (b ≤ a + (j + 1))) ∧
          ∃ L, g'.getLog = .ok L ∧ L.index = List.range' a os.length ∧ ∀ c ∈ L.cols, c.2.length = os.length) := by
  obtain ⟨ok, alike, htr, hser⟩ := user_range hmods hc hl hd ops
  have hne := hmods
  obtain ⟨g₁, e₁, i₁, -, b₁, hm₁⟩ := ok.setInitial (hd.congr alike) hne a
  have hg₁ : g₁ = runU g₀ (ops ++ [.setInitial a]) := by rw [runU_snoc]; simp [UOp.apply, e₁]
  obtain ⟨ok₁, alike₁, htr₁, hser₁⟩ := user_range hmods hc hl hd (ops ++ [.setInitial a])
  rw [← hg₁] at ok₁ alike₁ htr₁ hser₁
  obtain ⟨g₂, e₂, i₂, f₂, b₂, hm₂⟩ := ok₁.setFinal hid (hd.congr alike₁) (v := (b : Int)) (by omega)
    (fun nm hm => by rw [hm₁ nm hm]; simpa using hab) hser₁
  have hg₂ : g₂ = runU g₀ ((ops ++ [.setInitial a]) ++ [.setFinal b]) := by rw [runU_snoc, ← hg₁]; simp [UOp.apply, e₂]
  obtain ⟨ok₂, alike₂, htr₂, hser₂⟩ := user_range hmods hc hl hd ((ops ++ [.setInitial a]) ++ [.setFinal b])
  rw [← hg₂] at ok₂ alike₂ htr₂ hser₂
  have hi₂ : g₂.initialStep = a := i₂.trans i₁
  have hf₂ : g₂.finalStep = some b := by rw [f₂]; simp
  have hsame : ∀ nm ∈ mods, ((runU g₀ ops).heap nm.2).SameButRange (g₂.heap nm.2) := by
    intro nm hm
    have h1 := (hm₂ nm hm).1
    rw [hm₁ nm hm] at h1
    exact h1
  have hd₂ := hd.congr alike₂
  have hin : ∀ nm ∈ mods, (g₂.heap nm.2).initialStep = a := fun nm hm => by rw [(hm₂ nm hm).2.1, hm₁ nm hm]
  have hfi : ∀ nm ∈ mods, ∀ F, (g₂.heap nm.2).finalStep? = some F → F = b := fun nm hm F hF => by
    simpa using (hm₂ nm hm).2.2.2 F hF
  have hcalls : g₂.calls = (runU g₀ ops).calls := by
    have c₁ : g₁.calls = (runU g₀ ops).calls := by
      have := congrArg (fun x => x.1.calls) e₁
      simp only at this
      rw [← this]
      unfold Microgrid.setInitialStep
      simp only
      split
      · rfl
      · split <;> rfl
    rw [← c₁]
    have := congrArg (fun x => x.1.calls) e₂
    simp only at this
    rw [← this]
    unfold Microgrid.setFinalStep
    split
    · rfl
    · split <;> rfl
  refine ⟨g₁, g₂, e₁, e₂, hi₂, hf₂, b₂.trans b₁, hsame, ?_, ?_⟩
  · intro f g₃ hf hr
    obtain ⟨hcur, -, -, hlim⟩ := ok₂.reset_modules hid hd₂ hr
    obtain ⟨I, F, hfI, hlim⟩ := hlim f (htr₂.trans hf)
    rw [hi₂, hf₂, hcalls] at hfI
    exact ⟨I, F, hfI, fun nm hm => (hcur nm hm).1.trans (hlim nm hm).1⟩
  · intro hnone
    obtain ⟨g₃, hr⟩ := ok₂.reset_total (htr₂.trans hnone)
    obtain ⟨hcur, -, hlim, -⟩ := ok₂.reset_modules hid hd₂ hr
    have hlim := hlim (htr₂.trans hnone)
    have hlock : LockStep mods g₃ a := fun nm hm => by rw [(hcur nm hm).1, (hlim nm hm).1, hin nm hm]
    have alike₃ : ∀ j, (h j).Alike (g₃.heap j) := fun j => (alike₂ j).trans (reset_alike hr j)
    have he : Episode mods g₃ a b := by
      refine ⟨fun nm hm => ⟨by rw [(hlim nm hm).1, hin nm hm], fun F hF => ?_⟩, ?_⟩
      · rw [(hlim nm hm).2] at hF
        exact hfi nm hm F hF
      · obtain ⟨nm, hm, hne⟩ := hser₂
        exact ⟨nm, hm, by rwa [(hlim nm hm).2]⟩
    refine ⟨g₃, hr, hlock, fun cs os g' hs hrun => ⟨fun j hj => ?_, ?_⟩⟩
    · rw [(hrun.dones (ok₂.reset_next hr) hid (hd.clear.congr alike₃) (fun cn hcn => (hs cn hcn).congr alike₃) he
        hlock).1 j hj]
      rfl
    · have := ok₂.log_after hid hd₂ hne hr (by rw [hi₂]; exact hlock) (fun cn hcn => (hs cn hcn).congr alike₂) hrun
      rwa [hi₂] at this

end

/-- The hypotheses of `C75_range_partial` are met: the demo microgrid, after a run and a rejected assignment. -/
example : ∃ g₁ g₂, (runU demoGrid [.call (.run demoControl false), .setFinal 0, .setInitial 2, .setFinal 2]).setInitialStep 1 =
      (g₁, .ok ()) ∧ g₁.setFinalStep (2 : Nat) = (g₂, .ok ()) ∧ g₂.initialStep = 1 ∧ g₂.finalStep = some 2 := by
  obtain ⟨g₁, g₂, h1, h2, h3, h4, -⟩ := C75_range_partial (by decide) demoGrid_ok demo_library demo_ids demo_names
    [.call (.run demoControl false), .setFinal 0, .setInitial 2, .setFinal 2] 1 2 (by decide)
  exact ⟨g₁, g₂, h1, h2, h3, h4⟩

/-- C75 for microgrids without modules: both assignments raise `AttributeError` and change nothing. -/
theorem C75_no_modules {h : Heap} {sh : Option Shaper} {tr : Option (Nat → Nat → Option Nat → Except Err (Nat × Nat))}
    {g₀ : Microgrid} (hc : Microgrid.create h [] sh tr = .ok g₀) (v : Nat) :
    g₀.setInitialStep v = (g₀, .error .attribute) ∧ g₀.setFinalStep v = (g₀, .error .attribute) := by
  obtain ⟨heap, cont, i, F, sh', tr', calls, bl, ol⟩ := g₀
  obtain ⟨-, h2, -⟩ := Microgrid.create_ok hc
  simp only at h2
  subst h2
  exact ⟨rfl, rfl⟩

/-- Finding, C75: an assignment of `final_step` that is rejected (it does not exceed the initial step) has already changed the
    first of the series modules, while the others and the microgrid keep the old value. -/
theorem C75_rejected_final_changes :
    ((runU demoGrid [.setInitial 1]).setFinalStep 1).2.isOk = false ∧
    (runU demoGrid [.setInitial 1, .setFinal 1]).finalStep = some 3 ∧
    ((runU demoGrid [.setInitial 1, .setFinal 1]).heap 0).finalStep? = some 1 ∧
    ((runU demoGrid [.setInitial 1, .setFinal 1]).heap 1).finalStep? = some 3 := by decide +kernel

/-- Finding, C75: `initial_step` can be assigned a value that is not below the final step; the first run after the reset
    then reports `done`. -/
theorem C75_initial_unchecked :
    ((runU demoGrid [.setFinal 1]).setInitialStep 2).2.isOk = true ∧
    (runU demoGrid [.setFinal 1, .setInitial 2]).finalStep = some 1 ∧
    (runU demoGrid [.setFinal 1, .setInitial 2]).initialStep = 2 ∧
    ((runU demoGrid [.setFinal 1, .setInitial 2, .call .reset]).run demoControl₂ false).2.toOption.map (·.done) =
      some true := by decide +kernel

/-- Finding, C75: `final_step` can be assigned a value beyond the end of the series; the runs then end in an error and none of
    them reports `done`. -/
theorem C75_final_unchecked :
    (demoGrid.setFinalStep 9).2.isOk = true ∧
    ((List.range 4).map fun j => ((runU demoGrid (.setFinal 9 :: List.replicate j
      (.call (.run demoControl₂ false)))).run demoControl₂ false).2.toOption.map (·.done)) =
      [some false, some false, some false, none] := by decide +kernel

/-- Finding, C75: between an assignment of `initial_step` and the next reset `get_log` can raise an error. -/
theorem C75_log_fails :
    (runU demoGrid [.call (.run demoControl false)]).getLog.isOk = true ∧
    (demoGrid.setInitialStep 1).2.isOk = true ∧
    (runU demoGrid [.call (.run demoControl false), .setInitial 1]).getLog.isOk = false := by decide +kernel

end Pymgrid
