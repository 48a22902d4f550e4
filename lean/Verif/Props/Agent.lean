import Verif.Lemmas.Agent
import Verif.Props.RBCRun

set_option autoImplicit false

/-!
# C89: any agent runs any number of whole episodes
-/

namespace Pymgrid

open Module PriorityList

section
variable {h : Heap} {mods : List (String × Nat)} {sh : Option Shaper} {g₀ : Microgrid}
  {tr : Option (Nat → Nat → Option Nat → Except Err (Nat × Nat))}

/-- The flags of an episode: only the last one is set. -/
theorem flags_last {I F : Nat} (hIF : I < F) :
    ((List.range (F - I)).map fun j => decide (F ≤ I + j + 1)) = List.replicate (F - I - 1) false ++ [true] := by
  obtain ⟨k, hk⟩ : ∃ k, F - I = k + 1 := ⟨F - I - 1, by omega⟩
  rw [hk, List.range_succ, List.map_append, Nat.add_sub_cancel]
  refine congrArg₂ _ ?_ (by simp; omega)
  rw [List.eq_replicate_iff]
  refine ⟨by simp, fun b hb => ?_⟩
  obtain ⟨j, hj, rfl⟩ := List.mem_map.mp hb
  rw [List.mem_range] at hj
  simp
  omega

/-- C89: after any history and a successful reset, the loop `while not done: run(agent(history))` never raises and ends after
    exactly as many steps as the episode has, whatever the agent does, as long as its controls address each controllable module
    with an action that the module accepts. Then every module is at the end of the episode. -/
theorem C89_agent (hc : Microgrid.create h mods sh tr = .ok g₀)
    (hl : ∀ nm ∈ mods, LibraryModule (h nm.2)) (hb : ∃ nm ∈ mods, ∃ u, (h nm.2).kind = .balancing u)
    (hid : (mods.map Prod.snd).Nodup) (hd : DistinctNames h mods) (hr : ∀ nm ∈ mods, (h nm.2).raiseErrors = false)
    (hs : ∀ f, sh = some f → ∀ i c, ∃ r, f i c = .ok r)
    (hdata : ∀ nm ∈ mods, ∀ t, (h nm.2).series? = some t →
      (h nm.2).initialStep < t.finalStep ∧ t.finalStep ≤ t.rows.length)
    (ht : ∀ f, tr = some f → ∀ k i fin, f k g₀.initialStep g₀.finalStep = .ok (i, fin) →
      i < fin ∧ ∀ F, g₀.finalStep = some F → fin ≤ F)
    (π : Agent) (hπ : ∀ hist, Playable h mods (π hist))
    (ops : List GOp) {g₁ : Microgrid} (hrs : (runG g₀ ops).reset = (g₁, .ok ())) :
    ∃ I F, I < F ∧ (∀ F₀, g₀.finalStep = some F₀ → F ≤ F₀) ∧
      (∀ nm ∈ mods, (g₁.heap nm.2).initialStep = I ∧ (g₁.heap nm.2).currentStep = I ∧
        ∀ x, (g₁.heap nm.2).finalStep? = some x → x = F) ∧
      ∀ n, F - I ≤ n → ∃ g' os, play π n g₁ [] = (g', .ok os) ∧
        os.map RunOut.done = List.replicate (F - I - 1) false ++ [true] ∧
        (∀ nm ∈ mods, (g'.heap nm.2).currentStep = F) ∧ ∃ ops', g' = runG g₀ ops' := by
  obtain ⟨I, F, he, hIF, hFF, hR⟩ := user_running_any hc hl hb hid hd hr hs hdata ht ops hrs
  have hg₁ : g₁ = runG g₀ (ops ++ [.reset]) := by simp [runG, GOp.apply] at hrs ⊢; simp [hrs]
  obtain ⟨pls, -, -, hpl⟩ := C35_priority_lists_partial hc hl hd.clear [] false
  obtain ⟨rest, hfirst⟩ := first_list (user_grid hc hl []).1 (hd.clear.congr (user_grid hc hl []).2.1)
    (user_dims hc hl []) false
  have hmem : ∃ pl, IsPriorityList (runG g₀ []).heap mods pl := by
    obtain ⟨pls', e, -, hpl'⟩ := C35_priority_lists_partial hc hl hd.clear [] false
    rw [e] at hfirst
    obtain rfl := Except.ok.inj hfirst
    exact ⟨_, ((hpl' _).mp List.mem_cons_self).1⟩
  obtain ⟨pl, hpl⟩ := hmem
  have R := hR pl (by rw [hg₁]; exact user_fits hc hl [] _ hpl)
  obtain ⟨-, alike, -, -⟩ := user_grid hc hl (ops ++ [.reset])
  have hcl : ∀ j, (g₁.heap j).kind.cls = (h j).kind.cls := fun j => by
    rw [hg₁, ← (Microgrid.create_ok hc).1]; exact kept_cls.runG g₀ _ j
  rw [← hg₁] at alike
  refine ⟨I, F, hIF, hFF, fun nm hm => ⟨(he.1 nm hm).1, R.lock nm hm, (he.1 nm hm).2⟩, fun n hn => ?_⟩
  obtain ⟨g', os, e, hlen, r', ⟨ops', hops⟩, hds⟩ := R.play hid hπ n hIF [] hcl (fun j => (alike j).act) (fun j => (alike j).ffc)
  rw [min_eq_right hn] at hlen
  refine ⟨g', os, e, ?_, ?_, (ops ++ [.reset]) ++ ops', ?_⟩
  · rw [hds, hlen, flags_last hIF]
  · have := r'.lock
    rwa [hlen, Nat.add_sub_cancel' hIF.le] at this
  · rw [hops, hg₁]; simp [runG, List.foldl_append]

/-- C89: training never raises either: any number of episodes, each with its own reset, run to their ends, whatever the agent
    learns from the past episodes; every episode has exactly the steps of its range, which is that of the microgrid or the one
    that the trajectory function chose. -/
theorem C89_training (hc : Microgrid.create h mods sh tr = .ok g₀)
    (hl : ∀ nm ∈ mods, LibraryModule (h nm.2)) (hb : ∃ nm ∈ mods, ∃ u, (h nm.2).kind = .balancing u)
    (hid : (mods.map Prod.snd).Nodup) (hd : DistinctNames h mods) (hr : ∀ nm ∈ mods, (h nm.2).raiseErrors = false)
    (hs : ∀ f, sh = some f → ∀ i c, ∃ r, f i c = .ok r)
    (hdata : ∀ nm ∈ mods, ∀ t, (h nm.2).series? = some t →
      (h nm.2).initialStep < t.finalStep ∧ t.finalStep ≤ t.rows.length)
    (ht : ∀ f, tr = some f → ∀ k, ∃ i fin, f k g₀.initialStep g₀.finalStep = .ok (i, fin) ∧
      i < fin ∧ ∀ F, g₀.finalStep = some F → fin ≤ F)
    (π : List (List RunOut) → Agent) (hπ : ∀ past hist, Playable h mods (π past hist))
    (ops : List GOp) (n : Nat) (hn : ∀ F, g₀.finalStep = some F → F ≤ n) (k : Nat) :
    ∃ g' eps, train π n k (runG g₀ ops) [] = (g', .ok eps) ∧ eps.length = k ∧
      ∀ os ∈ eps, ∃ I F, I < F ∧ os.map RunOut.done = List.replicate (F - I - 1) false ++ [true] ∧
        (tr = none → I = g₀.initialStep ∧ g₀.finalStep = some F) ∧
        ∀ f, tr = some f → ∃ j, f j g₀.initialStep g₀.finalStep = .ok (I, F) := by
  have ht' : ∀ f, tr = some f → ∀ k i fin, f k g₀.initialStep g₀.finalStep = .ok (i, fin) →
      i < fin ∧ ∀ F, g₀.finalStep = some F → fin ≤ F := by
    intro f hf k i fin e
    obtain ⟨i', fin', e', h'⟩ := ht f hf k
    rw [e] at e'
    simp only [Except.ok.injEq, Prod.mk.injEq] at e'
    obtain ⟨rfl, rfl⟩ := e'
    exact h'
  obtain ⟨F₀, hF₀, hep₀⟩ := created_episode hc hd (List.ne_nil_of_mem hb.choose_spec.1)
  have htr : g₀.trajectory = tr := (Microgrid.create_ok hc).2.2.2.1
  have hheap := (Microgrid.create_ok hc).1
  suffices key : ∀ (past : List (List RunOut)) (ops : List GOp), ∃ g' eps,
      train π n k (runG g₀ ops) past = (g', .ok (past ++ eps)) ∧ eps.length = k ∧
      ∀ os ∈ eps, ∃ I F, I < F ∧ os.map RunOut.done = List.replicate (F - I - 1) false ++ [true] ∧
        (tr = none → I = g₀.initialStep ∧ g₀.finalStep = some F) ∧
        ∀ f, tr = some f → ∃ j, f j g₀.initialStep g₀.finalStep = .ok (I, F) by
    simpa using key [] ops
  induction k with
  | zero => exact fun past ops => ⟨runG g₀ ops, [], by simp [train], rfl, by simp⟩
  | succ k ih =>
    intro past ops
    obtain ⟨ok, alike, -, -⟩ := user_grid hc hl ops
    have hfx := runG_fixed g₀ ops
    have hser : ∃ nm ∈ mods, ((runG g₀ ops).heap nm.2).finalStep? ≠ none := by
      obtain ⟨nm₀, hm₀, hne₀⟩ := hep₀.2
      refine ⟨nm₀, hm₀, ?_⟩
      have : ((runG g₀ ops).heap nm₀.2).kind.size = (g₀.heap nm₀.2).kind.size := kept_size.runG g₀ ops nm₀.2
      unfold Kind.size at this
      unfold Module.finalStep? at hne₀ ⊢
      cases hk : (g₀.heap nm₀.2).kind <;> rw [hk] at hne₀ this <;> simp at hne₀ <;>
        cases hk' : ((runG g₀ ops).heap nm₀.2).kind <;> rw [hk'] at this <;> simp at this <;> simp
    obtain ⟨g₁, hrs⟩ := ok.reset_any hser (by
      intro f hf
      rw [hfx.trajectory, htr] at hf
      obtain ⟨i, fin, e, hlt, -⟩ := ht f hf (runG g₀ ops).calls
      exact ⟨i, fin, by rw [hfx.initialStep, hfx.finalStep]; exact e, hlt⟩)
    obtain ⟨I, F, hIF, hFF, hmods, hplay⟩ := C89_agent hc hl hb hid hd hr hs hdata ht' (π past) (hπ past) ops hrs
    have hFn : F - I ≤ n := by
      have h1 := hFF F₀ hF₀
      have h2 := hn F₀ hF₀
      omega
    obtain ⟨g₂, os, e, hds, -, ops', hg₂⟩ := hplay n hFn
    obtain ⟨g', eps, e', hlen, heps⟩ := ih (past ++ [os]) ops'
    refine ⟨g', os :: eps, ?_, by simp [hlen], ?_⟩
    · simp only [train, hrs, e, hg₂, e', List.append_assoc, List.singleton_append]
    intro os' hos
    rcases List.mem_cons.mp hos with rfl | hos
    · refine ⟨I, F, hIF, hds, ?_, ?_⟩
      · intro hnone
        obtain ⟨-, -, hlim, -⟩ := ok.reset_modules hid (hd.congr alike) hrs
        obtain ⟨nm₀, hm₀, hne₀⟩ := hep₀.2
        have hlim := hlim (hfx.trajectory.trans (htr.trans hnone)) nm₀ hm₀
        rw [(limits_kept (htr.trans hnone) ops nm₀.2).1, (limits_kept (htr.trans hnone) ops nm₀.2).2] at hlim
        have h1 := (hmods nm₀ hm₀).1
        rw [hlim.1, (hep₀.1 nm₀ hm₀).1] at h1
        obtain ⟨x, hx⟩ := Option.ne_none_iff_exists'.mp hne₀
        have h2 := (hmods nm₀ hm₀).2.2 x (by rw [hlim.2, hx])
        have h3 := (hep₀.1 nm₀ hm₀).2 x hx
        exact ⟨h1.symm, by rw [hF₀, ← h3, h2]⟩
      · intro f hf
        obtain ⟨-, -, -, hlim⟩ := ok.reset_modules hid (hd.congr alike) hrs
        obtain ⟨i, fin, e, hl'⟩ := hlim f (hfx.trajectory.trans (htr.trans hf))
        rw [hfx.initialStep, hfx.finalStep] at e
        obtain ⟨hlt, -⟩ := ht' f hf _ _ _ e
        obtain ⟨nm, hm, hne⟩ : ∃ nm ∈ mods, (g₁.heap nm.2).finalStep? ≠ none := by
          obtain ⟨I', F', he', -⟩ := user_running_any hc hl hb hid hd hr hs hdata ht' ops hrs
          exact he'.2
        obtain ⟨x, hx⟩ := Option.ne_none_iff_exists'.mp hne
        have h1 := (hmods nm hm).1
        rw [(hl' nm hm).1] at h1
        have h2 := (hmods nm hm).2.2 x hx
        have h3 := ((hl' nm hm).2.2 (by omega) x hx).1
        refine ⟨(runG g₀ ops).calls, ?_⟩
        rw [e, ← h1, ← h2, ← h3]
    · exact heps os' hos

end

/-! ### Examples -/

/-- An agent that reacts: it charges the battery after a step with positive reward (or none) and discharges it otherwise; it
    switches between normalised and plain controls. -/
def moodyAgent : Agent := fun hist =>
  match hist.getLast? with
  | none => (demoControl, false)
  | some o => if 0 < o.reward then (demoControl₂, true) else (demoControl₂, false)

/-- Decides `Accepts` for the modules of the example. -/
def acceptsB (m : Module) (a : Act) (n : Bool) : Bool :=
  match m.kind, a, m.request a n with
  | .genset _, .arr [goal, _], .ok q => decide (0 ≤ goal ∧ goal ≤ 1 ∧ 0 ≤ q)
  | .battery _, _, .ok _ | .grid _ _, _, .ok _ => true
  | _, _, _ => false

theorem acceptsB_sound {m : Module} {a : Act} {n : Bool} (h : acceptsB m a n = true) : m.Accepts a n := by
  unfold acceptsB at h
  unfold Module.Accepts
  split at h
  · rename_i gs goal e q hk hq
    simp only [decide_eq_true_eq] at h
    rw [hk]
    exact ⟨goal, e, rfl, h.1, h.2.1, q, hq, h.2.2⟩
  · rename_i b q hk hq
    rw [hk]
    exact ⟨q, hq⟩
  · rename_i p t q hk hq
    rw [hk]
    exact ⟨q, hq⟩
  · simp at h

theorem demo_playable : ∀ cn ∈ [(demoControl, false), (demoControl₂, true), (demoControl₂, false)],
    Playable demoHeap demoMods cn := by
  have hb : ∀ cn ∈ [(demoControl, false), (demoControl₂, true), (demoControl₂, false)], ∀ nm ∈ demoMods,
      (demoHeap nm.2).ffc = .controllable → (match dictGet? cn.1 nm.1 with
        | some c => decide ((modulesNamed demoHeap demoMods .controllable nm.1).length ≤ c.acts.length) &&
            ((modulesNamed demoHeap demoMods .controllable nm.1).zip c.acts).all fun ia => acceptsB (demoHeap ia.1) ia.2 cn.2
        | none => false) = true := by decide +kernel
  intro cn hcn nm hm hf
  have := hb cn hcn nm hm hf
  split at this
  · rename_i c hc
    simp only [Bool.and_eq_true, decide_eq_true_eq, List.all_eq_true] at this
    exact ⟨c, hc, this.1, fun ia hia => acceptsB_sound (this.2 ia hia)⟩
  · simp at this

theorem moody_playable (hist : List RunOut) : Playable demoHeap demoMods (moodyAgent hist) := by
  apply demo_playable
  unfold moodyAgent
  split
  · simp
  · split <;> simp

/-- The agent runs the three steps of the episode, after some history. -/
example : let g := runG demoGrid [.run demoControl false, .run [] false]
    (g.reset.2.isOk, (play moodyAgent 100 g.reset.1 []).2.toOption.map fun os => os.map RunOut.done) =
      (true, some [false, false, true]) := by decide +kernel

/-- And two episodes of training. -/
example : (train (fun past => if past.length = 0 then moodyAgent else fun _ => (demoControl, false)) 3 2 demoGrid []).2.toOption.map
    (fun eps => eps.map fun os => os.map fun o => (o.reward, o.done)) =
    some [[(-243/2, false), (-21, false), (-315, true)], [(-619/2, false), (-60, false), (-123/2, true)]] := by
  decide +kernel

/-- The theorem applies. -/
example (ops : List GOp) (k : Nat) : ∃ g' eps, train (fun _ => moodyAgent) 3 k (runG demoGrid ops) [] = (g', .ok eps) ∧
    eps.length = k := by
  obtain ⟨g', eps, h1, h2, -⟩ := C89_training demoGrid_ok demo_library demo_balancing demo_ids demo_names (by decide +kernel)
    (by simp) (fun nm hm t ht => ⟨(MPC.demo_data nm hm t ht).1, (MPC.demo_data nm hm t ht).2.1⟩) (by simp)
    (fun _ => moodyAgent) (fun _ => moody_playable) ops 3 (by
      have : demoGrid.finalStep = some 3 := by decide +kernel
      simp [this]) k
  exact ⟨g', eps, h1, h2⟩

end Pymgrid
