import Verif.Lemmas.Wrap
import Verif.Props.Trajectory
import Verif.Props.EnvObs

set_option autoImplicit false

/-!
# C76: environments from microgrids

For every microgrid `g₀` that the constructor accepts for library modules, wrapped by `from_microgrid` after any history.
-/

namespace Pymgrid

open Module

section
variable {h : Heap} {mods : List (String × Nat)} {sh : Option Shaper}
  {tr : Option (Nat → Nat → Option Nat → Except Err (Nat × Nat))} {g₀ : Microgrid}

/-- Runs, failing or not, do not move the limits of an episode. -/
theorem Episode.runs {g : Microgrid} {I F : Nat} (he : Episode mods g I F) (runs : List (List (String × Ctrl) × Bool)) :
    Episode mods (runG g (runs.map fun cn => .run cn.1 cn.2)) I F := by
  have key : ∀ (runs : List (List (String × Ctrl) × Bool)) (g : Microgrid),
      Shares (runG { g with trajectory := none } (runs.map fun cn => .run cn.1 cn.2))
        (runG g (runs.map fun cn => .run cn.1 cn.2)) := by
    intro runs
    induction runs using List.reverseRecOn with
    | nil => exact fun g => ⟨rfl, rfl, rfl⟩
    | append_singleton runs x ih =>
      intro g
      have := ((ih g).run x.1 x.2).2
      simpa [runG, GOp.apply] using this
  have hh := (key runs g).heap
  have lim := limits_kept (g := { g with trajectory := none }) rfl (runs.map fun cn => .run cn.1 cn.2)
  rw [hh] at lim
  refine ⟨fun nm hm => ?_, ?_⟩
  · rw [(lim nm.2).1, (lim nm.2).2]
    exact he.1 nm hm
  · obtain ⟨nm, hm, hne⟩ := he.2
    exact ⟨nm, hm, by rw [(lim nm.2).2]; exact hne⟩

/-- The episode after a reset with a trajectory function. -/
theorem user_episode {f : Nat → Nat → Option Nat → Except Err (Nat × Nat)}
    (hc : Microgrid.create h mods sh (some f) = .ok g₀) (hl : ∀ nm ∈ mods, LibraryModule (h nm.2))
    (hid : (mods.map Prod.snd).Nodup) (hd : DistinctNames h mods) (ops : List GOp) {g₁ : Microgrid}
    (hr : (runG g₀ ops).reset = (g₁, .ok ())) {I F : Nat}
    (hf : f (runG g₀ ops).calls g₀.initialStep g₀.finalStep = .ok (I, F)) (hpos : 0 < F) : Episode mods g₁ I F := by
  obtain ⟨ok, alike, -, -⟩ := user_grid hc hl ops
  have htr : g₀.trajectory = some f := (Microgrid.create_ok hc).2.2.2.1
  have hfx := runG_fixed g₀ ops
  obtain ⟨F₀, hF, he⟩ := created_episode hc hd (ok.reset_nonempty (hfx.trajectory.trans htr) hr)
  obtain ⟨hcur, -, -, hlim⟩ := ok.reset_modules hid (hd.congr alike) hr
  obtain ⟨I', F', hf', hlim⟩ := hlim f (hfx.trajectory.trans htr)
  rw [hfx.initialStep, hfx.finalStep, hf] at hf'
  obtain ⟨rfl, rfl⟩ := Prod.mk.inj (Except.ok.inj hf')
  refine ⟨fun nm hm => ⟨(hlim nm hm).1, fun F' hF' => ((hlim nm hm).2.2 hpos F' hF').1⟩, ?_⟩
  obtain ⟨nm, hm, hne⟩ := he.2
  exact ⟨nm, hm, fun hn => hne ((kept_final.runG g₀ ops nm.2).mp ((hlim nm hm).2.1.mp hn))⟩

/-- C76 for microgrids without trajectory function, wrapped at any moment of any history: the environment is accepted, has
    the range, the modules and the observation space of the microgrid and empty logs.  From then on every step, reset and
    observation of the environment is the one that the microgrid would give after the same calls; and after a reset the log
    is the one of the microgrid, too.
    Missing: the log between the wrapping and the next reset (`C76_log_fails`), and trajectory functions
    (`C76_episode_partial`). -/
theorem C76_wraps_partial (hc : Microgrid.create h mods sh none = .ok g₀) (hl : ∀ nm ∈ mods, LibraryModule (h nm.2))
    (hd : DistinctNames h mods) (hmods : mods ≠ []) (ops : List GOp) :
    ∃ e, (runG g₀ ops).wrap = .ok e ∧ e.initialStep = g₀.initialStep ∧ e.finalStep = g₀.finalStep ∧
      e.balanceLog = {} ∧ e.otherLog = {} ∧ (∀ mode, obsSpaceOf e mode = obsSpaceOf (runG g₀ ops) mode) ∧
      ∀ later, (runG e later).heap = (runG g₀ (ops ++ later)).heap ∧
        (∀ c n, ((runG e later).run c n).2 = ((runG g₀ (ops ++ later)).run c n).2) ∧
        (runG e later).resetObs.2 = (runG g₀ (ops ++ later)).resetObs.2 ∧
        ∀ g₁, (runG g₀ (ops ++ later)).reset = (g₁, .ok ()) → ∀ cs os g', Runs g₁ cs os g' →
          ∃ e₁ e', (runG e later).reset = (e₁, .ok ()) ∧ Runs e₁ cs os e' ∧ e'.getLog = g'.getLog := by
  obtain ⟨ok, alike, -, -⟩ := user_grid hc hl ops
  obtain ⟨F, hF, he⟩ := created_episode hc hd hmods
  have htr : g₀.trajectory = none := (Microgrid.create_ok hc).2.2.2.1
  have hfx := runG_fixed g₀ ops
  have htr' : (runG g₀ ops).trajectory = none := hfx.trajectory.trans htr
  have he' : Episode mods (runG g₀ ops) g₀.initialStep F := by
    refine ⟨fun nm hm => ?_, ?_⟩
    · rw [(limits_kept htr ops nm.2).1, (limits_kept htr ops nm.2).2]
      exact he.1 nm hm
    · obtain ⟨nm, hm, hne⟩ := he.2
      exact ⟨nm, hm, by rw [(limits_kept htr ops nm.2).2]; exact hne⟩
  have hw := ok.wrap (hd.congr alike) he'
  rw [htr'] at hw
  simp only at hw
  refine ⟨_, hw, rfl, hF.symm, rfl, rfl, ?_, ?_⟩
  · intro mode
    rfl
  · generalize he0 : Microgrid.mk (runG g₀ ops).heap (runG g₀ ops).cont g₀.initialStep (some F) (runG g₀ ops).shaper none 0
      {} {} = e
    intro later
    have s0 : Shares e (runG g₀ ops) := by subst he0; exact ⟨rfl, rfl, rfl⟩
    have et : e.trajectory = none := by subst he0; rfl
    have ei : e.initialStep = g₀.initialStep := by subst he0; rfl
    have s := s0.runG (i := 0) (F := 0) (by rw [et, htr']) (.inl htr') later
    have happ : runG (runG g₀ ops) later = runG g₀ (ops ++ later) := by simp [runG, List.foldl_append]
    rw [happ] at s
    have ht1 : (runG e later).trajectory = (runG g₀ (ops ++ later)).trajectory := by
      rw [(runG_fixed e later).trajectory, (runG_fixed g₀ _).trajectory, et, htr]
    have r := s.reset (i := 0) (F := 0) ht1 (.inl (by rw [(runG_fixed g₀ _).trajectory, htr]))
    refine ⟨s.heap, fun c n => (s.run c n).1, r.1, ?_⟩
    intro g₁ hr cs os g' hrun
    rw [hr] at r
    obtain ⟨-, r2, r3, r4⟩ := r
    obtain ⟨r4, r5⟩ := r4 rfl
    simp only at r2 r3 r4 r5
    cases hre : (runG e later).reset with
    | mk e₁ res =>
      rw [hre] at r2 r3 r4 r5
      simp only at r2 r3 r4 r5
      subst r2
      have i1 : e₁.initialStep = g₁.initialStep := by
        have a := (runG e later).reset_fixed.initialStep
        have b := (runG g₀ (ops ++ later)).reset_fixed.initialStep
        rw [hre] at a
        rw [hr] at b
        rw [a, b, (runG_fixed e later).initialStep, (runG_fixed g₀ _).initialStep, ei]
      have key : ∀ {g₁ g' : Microgrid} {cs : List (List (String × Ctrl) × Bool)} {os : List RunOut}, Runs g₁ cs os g' →
          ∀ e₁ : Microgrid, Shares e₁ g₁ → e₁.initialStep = g₁.initialStep → e₁.balanceLog = g₁.balanceLog →
            e₁.otherLog = g₁.otherLog → ∃ e', Runs e₁ cs os e' ∧ e'.getLog = g'.getLog := by
        intro g₁ g' cs os hrun
        induction hrun with
        | nil g =>
          intro e₁ s a b c
          refine ⟨e₁, .nil _, ?_⟩
          obtain ⟨h, k, i, f, sh, t, cl, b, o⟩ := e₁
          obtain ⟨h', k', i', f', sh', t', cl', b', o'⟩ := g
          obtain ⟨h1, h2, h3⟩ := s
          simp only at *
          subst h1 h2 h3
          subst a b c
          rfl
        | @cons g g₁ g' c n o cs os hrun ht ih =>
          intro e₁ s a b d
          have hs := s.run c n
          have hb : (e₁.run c n).1.balanceLog = g₁.balanceLog ∧ (e₁.run c n).1.otherLog = g₁.otherLog ∧
              (e₁.run c n).1.initialStep = g₁.initialStep := by
            refine ⟨?_, ?_, ?_⟩
            · have : (e₁.run c n).1.balanceLog = (g.run c n).1.balanceLog := by
                clear ih ht hrun hs
                obtain ⟨h, k, i, f, sh, t, cl, b, o⟩ := e₁
                obtain ⟨h', k', i', f', sh', t', cl', b', o'⟩ := g
                obtain ⟨h1, h2, h3⟩ := s
                simp only at *
                subst h1 h2 h3
                subst a b d
                unfold Microgrid.run Microgrid.finish
                simp only [Microgrid.fixedSteps, Microgrid.dispatch, Microgrid.flexList]
                repeat' split
                all_goals rfl
              rw [this, hrun]
            · rw [Microgrid.run_otherLog (r := (e₁.run c n).2) (g' := (e₁.run c n).1) rfl, d,
                ← Microgrid.run_otherLog hrun]
            · have := (g.run_fixed c n).initialStep
              rw [hrun] at this
              rw [(e₁.run_fixed c n).initialStep, a, this]
          rw [hrun] at hs
          obtain ⟨e', k1, k2⟩ := ih (e₁.run c n).1 hs.2 hb.2.2 hb.1 hb.2.1
          exact ⟨e', .cons (Prod.ext rfl hs.1) k1, k2⟩
      obtain ⟨e', k1, k2⟩ := key hrun e₁ r3 i1 r4 r5
      exact ⟨e₁, e', rfl, k1, k2⟩

/-- C76 with a trajectory function `f`, wrapped after a reset to the episode from `I` to `F` and any runs: the range of the
    environment is the one of this episode, not the one of the microgrid; it is accepted exactly if the next call of `f`, for
    the range from `I` to `F`, returns an episode within that range.
    Missing: that it is accepted, and that it has the range of the microgrid, which are false
    (`C76_fixed_length_rejected`, `C76_range_shrinks`). -/
theorem C76_episode_partial {f : Nat → Nat → Option Nat → Except Err (Nat × Nat)}
    (hc : Microgrid.create h mods sh (some f) = .ok g₀) (hl : ∀ nm ∈ mods, LibraryModule (h nm.2))
    (hid : (mods.map Prod.snd).Nodup) (hd : DistinctNames h mods) (ops : List GOp) {g₁ : Microgrid}
    (hr : (runG g₀ ops).reset = (g₁, .ok ())) {I F : Nat}
    (hf : f (runG g₀ ops).calls g₀.initialStep g₀.finalStep = .ok (I, F)) (hpos : 0 < F)
    (runs : List (List (String × Ctrl) × Bool)) {g : Microgrid}
    (hg : g = runG g₁ (runs.map fun cn => .run cn.1 cn.2)) :
    ((∃ e, g.wrap = .ok e) ↔ ∃ i F', f g.calls I (some F) = .ok (i, F') ∧ I ≤ i ∧ i < F' ∧ F' ≤ F) ∧
    ∀ e, g.wrap = .ok e → e.initialStep = I ∧ e.finalStep = some F ∧ e.balanceLog = {} ∧ e.heap = g.heap ∧
      (∀ mode, obsSpaceOf e mode = obsSpaceOf g mode) ∧ ∀ c n, (e.run c n).2 = (g.run c n).2 := by
  have he := (user_episode hc hl hid hd ops hr hf hpos).runs runs
  rw [← hg] at he
  have hg' : g = runG g₀ (ops ++ [.reset] ++ runs.map fun cn => .run cn.1 cn.2) := by
    rw [hg, runG, runG, List.foldl_append]
    congr 1
    exact (runG_snoc_reset hr).symm
  obtain ⟨ok, alike, -, -⟩ := user_grid hc hl (ops ++ [.reset] ++ runs.map fun cn => .run cn.1 cn.2)
  rw [← hg'] at ok alike
  have htr : g.trajectory = some f := by
    rw [hg', (runG_fixed g₀ _).trajectory]
    exact (Microgrid.create_ok hc).2.2.2.1
  have hw := ok.wrap (hd.congr alike) he
  rw [htr] at hw
  simp only at hw
  rw [hw]
  cases hx : f g.calls I (some F) with
  | error e => simp
  | ok x =>
    obtain ⟨i, F'⟩ := x
    simp only [Except.ok.injEq, Prod.mk.injEq]
    by_cases hb : i < I ∨ F' > F ∨ i ≥ F'
    · simp only [if_pos hb]
      refine ⟨⟨by simp, ?_⟩, by simp⟩
      rintro ⟨i', F'', ⟨rfl, rfl⟩, h1, h2, h3⟩
      omega
    · simp only [if_neg hb, Except.ok.injEq]
      refine ⟨⟨fun _ => ⟨i, F', ⟨rfl, rfl⟩, by omega, by omega, by omega⟩, fun _ => ⟨_, rfl⟩⟩, ?_⟩
      rintro e rfl
      refine ⟨rfl, rfl, rfl, rfl, fun _ => rfl, fun c n => ?_⟩
      exact (Shares.run (e := ⟨g.heap, g.cont, I, some F, g.shaper, some fun k => f (g.calls + k), 1, {}, {}⟩) (g := g)
        ⟨rfl, rfl, rfl⟩ c n).1

/-- C76 is violated for `FixedLengthStochasticTrajectory`: after any reset and any runs, `from_microgrid` raises `ValueError`,
    whatever the draws. -/
theorem C76_fixed_length_rejected (length : Nat) (h0 : 0 < length) (draws : Nat → Nat)
    (hc : Microgrid.create h mods sh (some (Trajectory.ofCall fun k => Trajectory.fixedLength length (draws k))) = .ok g₀)
    (hl : ∀ nm ∈ mods, LibraryModule (h nm.2)) (hid : (mods.map Prod.snd).Nodup) (hd : DistinctNames h mods)
    (ops : List GOp) {g₁ : Microgrid} (hr : (runG g₀ ops).reset = (g₁, .ok ()))
    (runs : List (List (String × Ctrl) × Bool)) :
    (runG g₁ (runs.map fun cn => .run cn.1 cn.2)).wrap = .error .value := by
  obtain ⟨F₀, I, hF₀, h1, h2, h3⟩ := C40_fixed_length_episodes length h0 draws hc hl hid hd ops g₁ hr
  obtain ⟨F₀', hF₀', he₀⟩ := created_episode hc hd ((user_grid hc hl ops).1.reset_nonempty
    ((runG_fixed g₀ ops).trajectory.trans (Microgrid.create_ok hc).2.2.2.1) hr)
  have he : Episode mods g₁ I (I + length) := by
    refine ⟨fun nm hm => ⟨(h3 nm hm).1, (h3 nm hm).2.2⟩, ?_⟩
    obtain ⟨nm, hm, hne⟩ := he₀.2
    refine ⟨nm, hm, fun hn => hne ?_⟩
    rw [← runG_snoc_reset hr] at hn
    exact (kept_final.runG g₀ _ nm.2).mp hn
  have he' := he.runs runs
  have hg' : runG g₁ (runs.map fun cn => .run cn.1 cn.2) = runG g₀ (ops ++ [.reset] ++ runs.map fun cn => .run cn.1 cn.2) := by
    rw [runG, runG, List.foldl_append]
    congr 1
    exact (runG_snoc_reset hr).symm
  obtain ⟨ok, alike, -, -⟩ := user_grid hc hl (ops ++ [.reset] ++ runs.map fun cn => .run cn.1 cn.2)
  rw [hg'] at he' ⊢
  have htr := (runG_fixed g₀ (ops ++ [.reset] ++ runs.map fun cn => .run cn.1 cn.2)).trajectory.trans
    (Microgrid.create_ok hc).2.2.2.1
  rw [ok.wrap (hd.congr alike) he', htr]
  have : ∀ k, Trajectory.ofCall (fun k => Trajectory.fixedLength length (draws k)) k I (some (I + length)) = .error .value := by
    intro k
    unfold Trajectory.ofCall
    simp only
    rw [show ((I + length : Nat) : Int) = (I : Int) + (length : Int) by simp, C40_full_length_rejected]
  simp only [this]

/-- C76 is violated for the log: if a microgrid (without trajectory function) has been run since its reset, then the log of
    the environment from it raises `ValueError` until the next reset (from the second step on, in every version of pandas),
    because the modules bring their logs and steps, and the microgrid's log starts anew. -/
theorem C76_log_fails (hc : Microgrid.create h mods sh none = .ok g₀) (hl : ∀ nm ∈ mods, LibraryModule (h nm.2))
    (hid : (mods.map Prod.snd).Nodup) (hd : DistinctNames h mods) (hmods : mods ≠ []) (ops : List GOp)
    (g₁ g e e' : Microgrid)
    (hr : (runG g₀ ops).reset = (g₁, .ok ())) (cs cs' : List (List (String × Ctrl) × Bool)) (os os' : List RunOut)
    (hs : ∀ cn ∈ cs ++ cs', Supplies h mods cn.1) (hrun : Runs g₁ cs os g) (hn : os ≠ [])
    (hw : g.wrap = .ok e) (hrun' : Runs e cs' os' e') (h2 : 2 ≤ os'.length) : e'.getLog = .error .value := by
  obtain ⟨ok, alike, -, -⟩ := user_grid hc hl ops
  have ok₁ := ok.reset_next hr
  have alike₁ : ∀ j, (h j).Alike (g₁.heap j) := fun j => (alike j).trans (reset_alike hr j)
  obtain ⟨c, hlock, hci, -⟩ := C23_reset_aligns_all hc hl hid hd ops g₁ hr
  obtain rfl : c = g₀.initialStep := hci rfl
  obtain ⟨okg, alikeg, hlockg⟩ := hrun.lock ok₁ hid (hd.clear.congr alike₁)
    (fun cn hcn => (hs cn (by simp [hcn])).congr alike₁) hlock
  have alike₂ : ∀ j, (h j).Alike (g.heap j) := fun j => (alike₁ j).trans (alikeg j)
  -- the episode of `g`
  have hgops : ∃ ops', g = runG g₀ ops' := by
    have key : ∀ {g₁ g : Microgrid} {cs : List (List (String × Ctrl) × Bool)} {os : List RunOut}, Runs g₁ cs os g →
        ∀ ops, g₁ = runG g₀ ops → ∃ ops', g = runG g₀ ops' := by
      intro g₁ g cs os hrun
      induction hrun with
      | nil g => exact fun ops h => ⟨ops, h⟩
      | @cons g g₁ g' c n o cs os hrun _ ih =>
        intro ops hops
        subst hops
        exact ih (ops ++ [.run c n]) (by simp [runG, GOp.apply] at hrun ⊢; rw [hrun])
    exact key hrun _ (runG_snoc_reset hr).symm
  obtain ⟨ops', hops'⟩ := hgops
  obtain ⟨e₀, w1, w2, -, w4, w5, -⟩ := C76_wraps_partial hc hl hd hmods ops'
  rw [← hops', hw] at w1
  obtain rfl := Except.ok.inj w1
  obtain ⟨F, -, hep⟩ := created_episode hc hd hmods
  have hee : e.heap = g.heap ∧ e.cont = g.cont := by
    have := Microgrid.create_ok (show Microgrid.create _ _ _ _ = .ok e from hw)
    refine ⟨this.1, ?_⟩
    rw [this.2.1, okg.cont]
    exact build_tuples (hd.congr alike₂)
  have oke : GridOK mods e := by
    refine ⟨?_, ?_⟩
    · rw [hee.2, hee.1, okg.cont]
    · rw [hee.1]; exact okg.wf
  have hlocke : LockStep mods e (g₀.initialStep + os.length) := by
    intro nm hm
    rw [hee.1]
    exact hlockg nm hm
  obtain ⟨ok', alike', hlock'⟩ := hrun'.lock oke hid (by rw [hee.1]; exact hd.clear.congr alike₂)
    (fun cn hcn => by rw [hee.1]; exact (hs cn (by simp [hcn])).congr alike₂) hlocke
  have hd' : DistinctNames e'.heap mods := hd.congr fun j => (alike₂ j).trans (by have := alike' j; rwa [hee.1] at this)
  have hcur := ok'.currentStep hd' hmods hlock'
  obtain ⟨rows, k1, k2⟩ := hrun'.balance_rows [] (by rw [w4]; exact Logger.Holds.empty _)
  rw [List.nil_append] at k1
  have hev := k1.even balanceKeys_nodup
  have hoth : e'.otherLog = {} := by rw [hrun'.otherLog, w5]
  have hcol : ∃ v, dictGet? e'.balanceLog.cols (.str "shaped_reward") = some v := by
    cases hv : dictGet? e'.balanceLog.cols (.str "shaped_reward") with
    | some v => exact ⟨v, rfl⟩
    | none =>
      rw [dictGet?_none, k1.cols, if_neg (by intro hh; rw [hh] at k2; simp at k2; omega)] at hv
      simp [balanceKeys] at hv
  obtain ⟨v, hv⟩ := hcol
  have hvm := dictGet?_mem hv
  refine getLog_error hcur hev.1 hvm (by rw [hoth]; simp) (hev.2 _ hvm) ?_
  have : e'.initialStep = g₀.initialStep := by rw [hrun'.fixed, w2]
  rw [this, k2]
  have : os.length ≠ 0 := by simpa using hn
  omega

end

/-! ### Findings and examples -/

/-- A trajectory function that drops the first step of the range that it is given. -/
def dropFirst : Nat → Nat → Option Nat → Except Err (Nat × Nat)
  | _, i, some f => .ok (i + 1, f)
  | _, _, none => .error .value

/-- The sample microgrid with this function. -/
def dropGrid : Microgrid := okGrid (Microgrid.create demoHeap demoMods none (some dropFirst))

/-- C76 is violated with trajectory functions: the microgrid's episodes go from step 1 to step 3; the environment that wraps it
    after a reset has the range from 1 to 3 in place of the one from 0 to 3, and its episodes go from step 2 to 3. -/
theorem C76_range_shrinks : Microgrid.create demoHeap demoMods none (some dropFirst) = .ok dropGrid ∧
    (dropGrid.initialStep, dropGrid.finalStep) = (0, some 3) ∧
    ((runG dropGrid [.reset]).heap 0).currentStep = 1 ∧
    (runG dropGrid [.reset]).wrap.toOption.map (fun e => (e.initialStep, e.finalStep)) = some (1, some 3) ∧
    (runG dropGrid [.reset]).wrap.toOption.map (fun e => (e.reset.1.heap 0).currentStep) = some 2 := by
  refine ⟨okGrid_eq (by decide +kernel), ?_⟩
  decide +kernel

/-- The sample microgrid, wrapped after one run: the environment's step is the microgrid's; two steps later it has no log,
    while the microgrid has. -/
example : (runG demoGrid [.reset, .run demoControl false]).wrap.toOption.map (fun e => ((e.run demoControl₂ false).2.toOption.map
      fun o => (o.reward, o.done))) =
    some (((runG demoGrid [.reset, .run demoControl false]).run demoControl₂ false).2.toOption.map fun o => (o.reward, o.done)) ∧
    (runG demoGrid [.reset, .run demoControl false]).wrap.toOption.map (fun e =>
      ((e.run demoControl₂ false).2.isOk, ((e.run demoControl₂ false).1.run demoControl₂ false).2.isOk,
        (runG e [.run demoControl₂ false, .run demoControl₂ false]).getLog.isOk)) = some (true, true, false) := by
  decide +kernel

/-- Episodes of two steps out of three: after a reset no environment can be made, before it can. -/
example : twoSteps.wrap.isOk = true ∧ twoSteps.reset.2.isOk = true ∧ (runG twoSteps [.reset]).wrap.isOk = false := by
  decide +kernel

end Pymgrid
