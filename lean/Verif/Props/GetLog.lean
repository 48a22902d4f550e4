import Verif.Lemmas.GetLog
import Verif.Props.Episode

set_option autoImplicit false

/-!
# C49: the microgrid's log

For every microgrid `g₀` that the constructor accepts for library modules, after every history `ops` of `run` and `reset`
calls (including failing ones) followed by a reset and successful runs.
-/

namespace Pymgrid

open Module

theorem Runs.lock {mods : List (String × Nat)} {g g' : Microgrid} {cs : List (List (String × Ctrl) × Bool)}
    {os : List RunOut} (ok : GridOK mods g) (hid : (mods.map Prod.snd).Nodup) (hu : ClearNames g.heap mods)
    (hr : Runs g cs os g') (hs : ∀ cn ∈ cs, Supplies g.heap mods cn.1) {c : Nat} (hl : LockStep mods g c) :
    GridOK mods g' ∧ (∀ j, (g.heap j).Alike (g'.heap j)) ∧ LockStep mods g' (c + os.length) := by
  induction hr generalizing c with
  | nil g => exact ⟨ok, fun j => kept_alike.refl _, by simpa using hl⟩
  | @cons g g₁ g' ctl n o cs os hrun ht ih =>
    have hal := run_alike hrun
    have h1 := (ok.run_modules hid hu (hs (ctl, n) (by simp)) hrun).1
    obtain ⟨i1, i2, i3⟩ := ih (ok.run_next hrun) (hu.congr hal) (fun cn hcn => (hs cn (by simp [hcn])).congr hal)
      (c := c + 1) (fun nm hm => by rw [(h1 nm hm).1, hl nm hm])
    refine ⟨i1, fun j => (hal j).trans (i2 j), fun nm hm => ?_⟩
    rw [i3 nm hm]
    simp only [List.length_cons]; omega

theorem Runs.fixed {g g' : Microgrid} {cs : List (List (String × Ctrl) × Bool)} {os : List RunOut}
    (hr : Runs g cs os g') : g'.initialStep = g.initialStep := by
  induction hr with
  | nil => rfl
  | @cons g g₁ g' ctl n o cs os hrun ht ih =>
    have := (g.run_fixed ctl n).initialStep
    rw [hrun] at this
    rw [ih, this]

section
variable {h : Heap} {mods : List (String × Nat)} {sh : Option Shaper}
  {tr : Option (Nat → Nat → Option Nat → Except Err (Nat × Nat))} {g₀ : Microgrid}

/-- C49, for episodes that start at the microgrid's initial step (always the case without trajectory function): after a
    reset and successful runs, `get_log` succeeds; it has one row for each run since the reset, indexed by the steps at
    which they happened; its columns are those of the logs of the modules (by name and position among the modules with that
    name) and of the balance log.
    Missing: episodes that start later, for which the claim is false (`C49_trajectory_fails`), columns of a module
    with the name `balance` (`C49_balance_name`), and microgrids without modules (`C49_no_modules`). -/
theorem C49_log_partial (hc : Microgrid.create h mods sh tr = .ok g₀) (hl : ∀ nm ∈ mods, LibraryModule (h nm.2))
    (hid : (mods.map Prod.snd).Nodup) (hd : DistinctNames h mods) (ops : List GOp) (g₁ g' : Microgrid)
    (hr : (runG g₀ ops).reset = (g₁, .ok ()))
    (hstart : ∀ f, tr = some f → ∃ F, f (runG g₀ ops).calls g₀.initialStep g₀.finalStep = .ok (g₀.initialStep, F))
    (cs : List (List (String × Ctrl) × Bool)) (os : List RunOut) (hs : ∀ cn ∈ cs, Supplies h mods cn.1)
    (hrun : Runs g₁ cs os g') (hne : mods ≠ []) :
    ∃ f, g'.getLog = .ok f ∧ f.index = List.range' g₀.initialStep os.length ∧
      (∀ c ∈ f.cols, c.2.length = os.length) ∧
      (∀ name j i k, name ≠ "balance" → (allNamed mods name)[j]? = some i → k ≠ .str "" →
        f.column name j k = dictGet? (g'.heap i).logger.cols k) ∧
      ∀ k ∈ g'.balanceLog.cols.map Prod.fst, k ≠ .str "" →
        f.column "balance" 0 k = dictGet? g'.balanceLog.cols k := by
  obtain ⟨ok, alike, -, -⟩ := user_grid hc hl ops
  have hd' := hd.congr alike
  have ok₁ := ok.reset_next hr
  have alike₁ : ∀ j, (h j).Alike (g₁.heap j) := fun j => (alike j).trans (reset_alike hr j)
  have hu₁ := hd.clear.congr alike₁
  have hs₁ : ∀ cn ∈ cs, Supplies g₁.heap mods cn.1 := fun cn hcn => (hs cn hcn).congr alike₁
  obtain ⟨c, hlock, h1, h2⟩ := C23_reset_aligns_all hc hl hid hd ops g₁ hr
  have hci : c = g₀.initialStep := by
    cases tr with
    | none => exact h1 rfl
    | some f =>
      obtain ⟨F, hF⟩ := h2 f rfl
      obtain ⟨F', hF'⟩ := hstart f rfl
      rw [hF] at hF'
      exact (Prod.mk.inj (Except.ok.inj hF')).1
  subst hci
  obtain ⟨ok', alike', hlock'⟩ := hrun.lock ok₁ hid hu₁ hs₁ hlock
  have hd₂ : DistinctNames g'.heap mods := hd.congr fun j => (alike₁ j).trans (alike' j)
  have hcur := ok'.currentStep hd₂ hne hlock'
  have hev := even_after ok hid hd' hr hrun hs₁
  have hinit : g'.initialStep = g₀.initialStep := by
    rw [hrun.fixed]
    have := (runG g₀ ops).reset_fixed.initialStep
    rw [hr] at this
    rw [this, (runG_fixed g₀ ops).initialStep]
  have hoth : g'.otherLog = {} := by
    rw [hrun.otherLog]
    unfold Microgrid.reset at hr
    repeat' split at hr
    all_goals simp only [Prod.mk.injEq, reduceCtorEq, and_false, and_true] at hr
    rw [← hr]
    rfl
  have hg := getLog_ok ok'.cont hev (by rw [hoth]; simp) hcur (by rw [hinit])
  refine ⟨_, hg, by rw [hinit], logColumns_len ok'.cont hev (by rw [hoth]; simp), ?_, ?_⟩
  · intro name j i k hname hi hk
    exact column_module ok'.cont hd₂ hev hname hi hk
  · intro k hk hne
    exact column_balance hev.bkeys hne hk

/-- C49 is violated for microgrids without modules: `get_log` raises `ValueError`, because there is no current step. -/
theorem C49_no_modules (hc : Microgrid.create h [] sh tr = .ok g₀) (ops : List GOp) :
    (runG g₀ ops).getLog = .error .value := by
  unfold Microgrid.getLog Microgrid.currentStep
  rw [(runG_fixed g₀ ops).cont, (Microgrid.create_ok hc).2.1]
  rfl

/-- C49 is violated for trajectories: whenever an episode does not start at the microgrid's initial step, `get_log` raises
    `ValueError` (from the second run on, in every version of pandas). -/
theorem C49_trajectory_fails {f : Nat → Nat → Option Nat → Except Err (Nat × Nat)}
    (hc : Microgrid.create h mods sh (some f) = .ok g₀) (hl : ∀ nm ∈ mods, LibraryModule (h nm.2))
    (hid : (mods.map Prod.snd).Nodup) (hd : DistinctNames h mods) (ops : List GOp) (g₁ g' : Microgrid)
    (hr : (runG g₀ ops).reset = (g₁, .ok ())) (I F : Nat)
    (hstart : f (runG g₀ ops).calls g₀.initialStep g₀.finalStep = .ok (I, F)) (hI : I ≠ g₀.initialStep)
    (cs : List (List (String × Ctrl) × Bool)) (os : List RunOut) (hs : ∀ cn ∈ cs, Supplies h mods cn.1)
    (hrun : Runs g₁ cs os g') (h2 : 2 ≤ os.length) : g'.getLog = .error .value := by
  obtain ⟨ok, alike, -, -⟩ := user_grid hc hl ops
  have hd' := hd.congr alike
  have ok₁ := ok.reset_next hr
  have alike₁ : ∀ j, (h j).Alike (g₁.heap j) := fun j => (alike j).trans (reset_alike hr j)
  have hu₁ := hd.clear.congr alike₁
  have hs₁ : ∀ cn ∈ cs, Supplies g₁.heap mods cn.1 := fun cn hcn => (hs cn hcn).congr alike₁
  obtain ⟨c, hlock, -, hf⟩ := C23_reset_aligns_all hc hl hid hd ops g₁ hr
  obtain ⟨F', hF'⟩ := hf f rfl
  rw [hstart] at hF'
  obtain rfl := (Prod.mk.inj (Except.ok.inj hF')).1
  obtain ⟨ok', alike', hlock'⟩ := hrun.lock ok₁ hid hu₁ hs₁ hlock
  have hd₂ : DistinctNames g'.heap mods := hd.congr fun j => (alike₁ j).trans (alike' j)
  have hne : mods ≠ [] :=
    ok.reset_nonempty ((runG_fixed g₀ ops).trajectory.trans (Microgrid.create_ok hc).2.2.2.1) hr
  have hcur := ok'.currentStep hd₂ hne hlock'
  have hev := even_after ok hid hd' hr hrun hs₁
  have hinit : g'.initialStep = g₀.initialStep := by
    rw [hrun.fixed]
    have := (runG g₀ ops).reset_fixed.initialStep
    rw [hr] at this
    rw [this, (runG_fixed g₀ ops).initialStep]
  have hoth : g'.otherLog = {} := by
    rw [hrun.otherLog]
    unfold Microgrid.reset at hr
    repeat' split at hr
    all_goals simp only [Prod.mk.injEq, reduceCtorEq, and_false, and_true] at hr
    rw [← hr]
    rfl
  obtain ⟨-, -, -, hcol, -⟩ := C24_balance_log _ g₁ g' cs os hr hrun
  have hmem : ∃ v, dictGet? g'.balanceLog.cols (.str "shaped_reward") = some v := by
    cases hv : dictGet? g'.balanceLog.cols (.str "shaped_reward") with
    | some v => exact ⟨v, rfl⟩
    | none =>
      unfold Logger.column at hcol
      rw [hv] at hcol
      have := congrArg List.length hcol
      simp at this
      omega
  obtain ⟨v, hv⟩ := hmem
  have hvm := dictGet?_mem hv
  refine getLog_error hcur hev.bkeys hvm (by rw [hoth]; simp) (hev.balance _ hvm) ?_
  rw [hinit]
  omega

end

/-! ### Findings and examples -/

/-- A run on the sample microgrid and its log: two rows, indexed 0 and 1. -/
example : ((runG demoGrid [.reset, .run demoControl false, .run demoControl₂ false]).getLog).toOption.map
    (fun f => (f.index, f.column "load" 0 (.str "load_met"), f.column "balance" 0 (.str "fixed_absorbed_from_microgrid"))) =
    some ([0, 1], some [some 60, some 40], some [some 60, some 40]) := by decide +kernel

/-- The trajectory of `laterGrid` starts episodes at step 1; two runs succeed, and there is no log. -/
example : (runG laterGrid [.reset, .run [] false]).run [] false |>.2.isOk = true := by decide +kernel
example : (runG laterGrid [.reset, .run [] false, .run [] false]).getLog.toOption = none ∧
    ((runG laterGrid [.reset, .run [] false, .run [] false]).heap 0).logger.column (.str "load_met") =
      [some 40, some 20] := by decide +kernel

/-- Finding, C49: after a run that raised because controls are missing, there is no log until the next reset, because the
    modules are at different steps. -/
theorem C49_failed_run : (runG demoGrid [.run demoControl false]).getLog.isOk = true ∧
    (runG demoGrid [.run demoControl false, .run [] false]).getLog.isOk = false ∧
    (runG demoGrid [.run demoControl false, .run [] false, .run demoControl₂ false]).getLog.isOk = false := by
  decide +kernel

/-- A load with the name `balance`, and a balancing module. -/
def balanceGrid : Microgrid := okGrid (Microgrid.create shortHeap [("balance", 0), ("balancing", 1)] none none)

/-- Finding, C49: the reward column of a module with the name `balance` is lost; the log shows the microgrid's reward (the
    costs of the balancing module) in its place. -/
theorem C49_balance_name :
    Microgrid.create shortHeap [("balance", 0), ("balancing", 1)] none none = .ok balanceGrid ∧
    ((runG balanceGrid [.run [] false]).heap 0).logger.column (.str "reward") = [some 0] ∧
    ((runG balanceGrid [.run [] false]).getLog).toOption.map (fun f => f.column "balance" 0 (.str "reward")) =
      some (some [some (-600)]) :=
  ⟨okGrid_eq (by decide +kernel), by decide +kernel⟩

end Pymgrid
