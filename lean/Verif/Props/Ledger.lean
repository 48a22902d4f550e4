import Verif.Lemmas.Ledger
import Verif.Props.Microgrid

set_option autoImplicit false

/-! C80: the books of whole episodes. -/

namespace Pymgrid

open Module

section
variable {h : Heap} {mods : List (String × Nat)} {sh : Option Shaper} 
  {tr : Option (Nat → Nat → Option Nat → Except Err (Nat × Nat))} {g₀ : Microgrid}

theorem user_follows (hc : Microgrid.create h mods sh tr = .ok g₀) (hl : ∀ nm ∈ mods, LibraryModule (h nm.2))
    (ops : List GOp) : Follows h mods sh (runG g₀ ops) := by
  obtain ⟨ok, alike, hsh, -⟩ := user_grid hc hl ops
  have ok₀ := GridOK.created hc hl
  obtain ⟨rfl, -⟩ := Microgrid.create_ok hc
  exact ⟨ok, alike, fun nm hm => (kept_core.runG g₀ ops nm.2 (ok₀.wf nm hm)).2, hsh⟩

/-- C80: after any history, in consecutive successful runs from a state in which all modules are at step `c`, the
    result of the `k`-th run reports for each module an exchange that the module's data for step `c + k` admit: loads
    get their demand, renewables give at most what is available, grids stay within the limits of their connection,
    gensets are off or within their running range, batteries stay within their rates, and no module gives and takes at
    once. -/
theorem C80_exchanges (hc : Microgrid.create h mods sh tr = .ok g₀) (hl : ∀ nm ∈ mods, LibraryModule (h nm.2))
    (hid : (mods.map Prod.snd).Nodup) (hn : (mods.map Prod.fst).Nodup) (ops : List GOp) (c : Nat)
    (hlock : LockStep mods (runG g₀ ops) c) (cs : List (List (String × Ctrl) × Bool))
    (hs : ∀ cn ∈ cs, Supplies h mods cn.1) (os : List RunOut) (g' : Microgrid) (hr : Runs (runG g₀ ops) cs os g') :
    (∀ k (hk : k < os.length), ∀ nm ∈ mods, (h nm.2).kind.Possible (c + k) (os[k].provBy nm.1) (os[k].absBy nm.1)) ∧
      LockStep mods g' (c + os.length) := by
  obtain ⟨-, h2, h3, -⟩ := (user_follows hc hl ops).accounts hid hn hr hs hlock
  exact ⟨fun k hk => (h3 k hk).possible, h2⟩

/-- C80: without a shaping function the reward of each of these runs is minus the dues that the data of the modules set for
    the exchanges which the result reports. -/
theorem C80_rewards (hc : Microgrid.create h mods none tr = .ok g₀) (hl : ∀ nm ∈ mods, LibraryModule (h nm.2))
    (hid : (mods.map Prod.snd).Nodup) (hn : (mods.map Prod.fst).Nodup) (ops : List GOp) (c : Nat)
    (hlock : LockStep mods (runG g₀ ops) c) (cs : List (List (String × Ctrl) × Bool))
    (hs : ∀ cn ∈ cs, Supplies h mods cn.1) (os : List RunOut) (g' : Microgrid) (hr : Runs (runG g₀ ops) cs os g')
    (k : Nat) (hk : k < os.length) :
    os[k].reward = -(mods.map fun nm => (h nm.2).kind.dues (c + k) (os[k].provBy nm.1) (os[k].absBy nm.1)).sum :=
  (((user_follows hc hl ops).accounts hid hn hr hs hlock).2.2.1 k hk).reward rfl

/-- C80: so the rewards add up to minus the bills of the modules.  A battery bills its price of wear for what entered and
    left the store, a balancing module its prices for the totals of loss of load and overgeneration. -/
theorem C80_bills (hc : Microgrid.create h mods none tr = .ok g₀) (hl : ∀ nm ∈ mods, LibraryModule (h nm.2))
    (hid : (mods.map Prod.snd).Nodup) (hn : (mods.map Prod.fst).Nodup) (ops : List GOp) (c : Nat)
    (hlock : LockStep mods (runG g₀ ops) c) (cs : List (List (String × Ctrl) × Bool))
    (hs : ∀ cn ∈ cs, Supplies h mods cn.1) (os : List RunOut) (g' : Microgrid) (hr : Runs (runG g₀ ops) cs os g') :
    (os.map RunOut.reward).sum = -(mods.map fun nm => bill (h nm.2).kind c os nm.1).sum ∧
    (∀ nm ∈ mods, ∀ b, (h nm.2).kind = .battery b → bill (h nm.2).kind c os nm.1 =
      b.costCycle * (b.efficiency * absTotal os nm.1 + provTotal os nm.1 / b.efficiency)) ∧
    (∀ nm ∈ mods, ∀ u, (h nm.2).kind = .balancing u → bill (h nm.2).kind c os nm.1 =
      u.lossLoadCost * provTotal os nm.1 + u.overgenerationCost * absTotal os nm.1) := by
  have hk := C80_rewards hc hl hid hn ops c hlock cs hs os g' hr
  clear hr hs
  have zip : ∀ (os : List RunOut) (F : RunOut → Nat → ℚ) (G : RunOut → ℚ) (c : Nat),
      (∀ k (hk : k < os.length), G os[k] = F os[k] (c + k)) → (os.map G).sum = ((os.zipIdx c).map fun x => F x.1 x.2).sum := by
    intro os F G c hF
    congr 1
    apply List.ext_getElem
    · simp
    · intro i h1 h2
      simp only [List.getElem_map, List.getElem_zipIdx]
      exact hF i (by simpa using h1)
  refine ⟨?_, ?_, ?_⟩
  · unfold bill
    rw [← sum_map_neg, sum_map_neg, sum_swap mods (os.zipIdx c) fun nm x => (h nm.2).kind.dues x.2 (x.1.provBy nm.1)
      (x.1.absBy nm.1), ← sum_map_neg]
    exact zip os (fun o k => -(mods.map fun nm => (h nm.2).kind.dues k (o.provBy nm.1) (o.absBy nm.1)).sum) _ c hk
  · intro nm hm b hb
    rw [hb]
    unfold bill
    rw [← zip os (fun o k => (Kind.battery b).dues k (o.provBy nm.1) (o.absBy nm.1))
      (fun o => b.costCycle * (b.efficiency * o.absBy nm.1 + o.provBy nm.1 / b.efficiency)) c fun k hk => rfl]
    unfold absTotal provTotal
    clear hk
    induction os with
    | nil => simp
    | cons o os ih => simp only [List.map_cons, List.sum_cons, ih]; ring
  · intro nm hm u hu
    rw [hu]
    unfold bill
    rw [← zip os (fun o k => (Kind.balancing u).dues k (o.provBy nm.1) (o.absBy nm.1))
      (fun o => u.lossLoadCost * o.provBy nm.1 + u.overgenerationCost * o.absBy nm.1) c fun k hk => rfl]
    unfold absTotal provTotal
    clear hk
    induction os with
    | nil => simp
    | cons o os ih => simp only [List.map_cons, List.sum_cons, ih]; ring

/-- C80: over the whole of these runs, what the modules that do not store energy gave minus what they took is what the
    batteries store more than before plus what the batteries lost, which is not negative.  The charge of each battery is
    the one before plus what it took, less the losses, minus what it gave with the losses. -/
theorem C80_energy (hc : Microgrid.create h mods sh tr = .ok g₀) (hl : ∀ nm ∈ mods, LibraryModule (h nm.2))
    (hb : ∃ nm ∈ mods, ∃ u, (h nm.2).kind = .balancing u)
    (hid : (mods.map Prod.snd).Nodup) (hn : (mods.map Prod.fst).Nodup) (ops : List GOp) (c : Nat)
    (hlock : LockStep mods (runG g₀ ops) c) (cs : List (List (String × Ctrl) × Bool))
    (hs : ∀ cn ∈ cs, Supplies h mods cn.1) (os : List RunOut) (g' : Microgrid) (hr : Runs (runG g₀ ops) cs os g') :
    (mods.map fun nm => if (h nm.2).kind.cls = .battery then 0 else provTotal os nm.1 - absTotal os nm.1).sum =
      (mods.map fun nm => (g'.heap nm.2).kind.stock).sum - (mods.map fun nm => ((runG g₀ ops).heap nm.2).kind.stock).sum +
        (mods.map fun nm => (h nm.2).kind.lost (provTotal os nm.1) (absTotal os nm.1)).sum ∧
    (∀ nm ∈ mods, 0 ≤ (h nm.2).kind.lost (provTotal os nm.1) (absTotal os nm.1)) ∧
    ∀ nm ∈ mods, ∀ b, (h nm.2).kind = .battery b → (g'.heap nm.2).kind.stock =
      ((runG g₀ ops).heap nm.2).kind.stock + b.efficiency * absTotal os nm.1 - provTotal os nm.1 / b.efficiency := by
  have hb' : ∃ nm ∈ mods, (h nm.2).kind.isBalancing = true := by
    obtain ⟨nm, hm, u, hu⟩ := hb
    exact ⟨nm, hm, by rw [hu]; rfl⟩
  have wf₀ : ∀ nm ∈ mods, (h nm.2).WF := (Microgrid.create_ok hc).1 ▸ (GridOK.created hc hl).wf
  obtain ⟨h1, h2, h3, h4⟩ := (user_follows hc hl ops).accounts hid hn hr hs hlock
  refine ⟨?_, ?_, ?_⟩
  · have := accounts_balance hb' h3
    have e : ∀ nm ∈ mods, (if (h nm.2).kind.cls = .battery then 0 else provTotal os nm.1 - absTotal os nm.1) =
        (g'.heap nm.2).kind.stock + -((runG g₀ ops).heap nm.2).kind.stock +
          ((h nm.2).kind.lost (provTotal os nm.1) (absTotal os nm.1) + (provTotal os nm.1 + -absTotal os nm.1)) := by
      intro nm hm
      have := h4 nm hm
      unfold Moved at this
      linarith
    rw [List.map_congr_left e, sum_map_add, sum_map_add, sum_map_add, sum_map_add, sum_map_neg, sum_map_neg, this]
    ring
  · intro nm hm
    obtain ⟨i1, i2⟩ := totals_nonneg (wf₀ nm hm) fun k hk => (h3 k hk).possible nm hm
    exact lost_nonneg (wf₀ nm hm) i1 i2
  · intro nm hm b hk
    have := h4 nm hm
    rw [hk] at this
    simp only [Moved, Kind.lost, Kind.cls, if_true] at this
    rw [this]
    ring

/-- C80: no policy serves more than there is.  Whatever the controls, the loss of load that the results of these runs
    report is at least the demand, minus all that renewables, gensets and the connection to the grid could give, minus
    what the batteries could give from what they stored before. -/
theorem C80_unserved (hc : Microgrid.create h mods sh tr = .ok g₀) (hl : ∀ nm ∈ mods, LibraryModule (h nm.2))
    (hb : ∃ nm ∈ mods, ∃ u, (h nm.2).kind = .balancing u)
    (hid : (mods.map Prod.snd).Nodup) (hn : (mods.map Prod.fst).Nodup) (ops : List GOp) (c : Nat)
    (hlock : LockStep mods (runG g₀ ops) c) (cs : List (List (String × Ctrl) × Bool))
    (hs : ∀ cn ∈ cs, Supplies h mods cn.1) (os : List RunOut) (g' : Microgrid) (hr : Runs (runG g₀ ops) cs os g') :
    (mods.map fun nm => overSteps c os.length (h nm.2).kind.demand).sum -
        (mods.map fun nm => overSteps c os.length (h nm.2).kind.supply).sum -
        (mods.map fun nm => ((runG g₀ ops).heap nm.2).kind.reserve).sum ≤ lossTotal h mods os := by
  have hb' : ∃ nm ∈ mods, (h nm.2).kind.isBalancing = true := by
    obtain ⟨nm, hm, u, hu⟩ := hb
    exact ⟨nm, hm, by rw [hu]; rfl⟩
  have wf₀ : ∀ nm ∈ mods, (h nm.2).WF := (Microgrid.create_ok hc).1 ▸ (GridOK.created hc hl).wf
  have f := user_follows hc hl ops
  obtain ⟨h1, h2, h3, h4⟩ := f.accounts hid hn hr hs hlock
  have hbal := accounts_balance hb' h3
  have hsum : (mods.map fun nm => provTotal os nm.1 + -absTotal os nm.1).sum ≤ (mods.map fun nm =>
      (overSteps c os.length (h nm.2).kind.supply + -overSteps c os.length (h nm.2).kind.demand) +
        (((runG g₀ ops).heap nm.2).kind.reserve + if (h nm.2).kind.isBalancing then provTotal os nm.1 else 0)).sum := by
    apply List.sum_le_sum
    intro nm hm
    have := net_bound (wf₀ nm hm) (h1.ok.wf nm hm) (f.core nm hm) (h1.core nm hm)
      (fun k hk => (h3 k hk).possible nm hm) (h4 nm hm)
    linarith
  rw [sum_map_add, sum_map_add, sum_map_add, sum_map_add, sum_map_neg, sum_map_neg, hbal] at hsum
  unfold lossTotal
  rw [sum_filter_if]
  linarith

end

/-! A two-step episode of an outpost with a load and a battery. -/

/-- The modules of the outpost. -/
def outpostMods : List (String × Nat) := [("load", 0), ("battery", 2), ("balancing", 5)]

/-- The outpost. -/
def outpost : Microgrid := okGrid (Microgrid.create demoHeap outpostMods none none)

theorem outpost_ok : Microgrid.create demoHeap outpostMods none none = .ok outpost := okGrid_eq (by decide +kernel)

/-- Discharge the battery. -/
def outpostControl : List (String × Ctrl) := [("battery", .seq [.num 1000])]

/-- The results of two runs (examples only). -/
def outpostResults : List RunOut :=
  match outpost.run outpostControl false with
  | (g₁, .ok o₁) =>
    match g₁.run outpostControl false with
    | (_, .ok o₂) => [o₁, o₂]
    | _ => []
  | _ => []

theorem ok_run {g : Microgrid} {ctl : List (String × Ctrl)} {n : Bool} (h : (g.run ctl n).2.isOk = true) :
    ∃ o, g.run ctl n = ((g.run ctl n).1, .ok o) := by
  rcases hh : g.run ctl n with ⟨g', e | o⟩
  · rw [hh] at h; simp [Except.isOk, Except.toBool] at h
  · exact ⟨o, rfl⟩

theorem outpost_runs : Runs (runG outpost []) [(outpostControl, false), (outpostControl, false)] outpostResults
    ((outpost.run outpostControl false).1.run outpostControl false).1 := by
  obtain ⟨o₁, h1⟩ := ok_run (g := outpost) (ctl := outpostControl) (n := false) (by decide +kernel)
  obtain ⟨o₂, h2⟩ := ok_run (g := (outpost.run outpostControl false).1) (ctl := outpostControl) (n := false) (by decide +kernel)
  have e : outpostResults = [o₁, o₂] := by
    unfold outpostResults
    rw [h1]
    simp only
    rw [h2]
  rw [e]
  exact .cons h1 (.cons h2 (.nil _))

theorem outpost_supplies : ∀ cn ∈ [(outpostControl, false), (outpostControl, false)], Supplies demoHeap outpostMods cn.1 := by
  intro cn hcn nm hm hf
  simp only [List.mem_cons, List.not_mem_nil, or_false, or_self] at hcn
  subst hcn
  simp only [outpostMods, List.mem_cons, List.not_mem_nil, or_false] at hm
  rcases hm with rfl | rfl | rfl
  · exact absurd hf (by decide +kernel)
  · exact ⟨_, rfl, by decide +kernel⟩
  · exact absurd hf (by decide +kernel)

theorem outpost_library : ∀ nm ∈ outpostMods, LibraryModule (demoHeap nm.2) := by
  intro nm hm
  apply demo_library
  simp only [outpostMods, demoMods, List.mem_cons, List.not_mem_nil, or_false] at hm ⊢
  rcases hm with rfl | rfl | rfl <;> simp

/-- What the episode looks like. -/
example : outpostMods.map (fun nm => (provTotal outpostResults nm.1, absTotal outpostResults nm.1)) =
      [(0, 100), (25, 0), (75, 0)] ∧ outpostResults.map RunOut.reward = [-540, -360] ∧
    outpostMods.map (fun nm => bill (demoHeap nm.2).kind 0 outpostResults nm.1) = [0, 150, 750] ∧
    lossTotal demoHeap outpostMods outpostResults = 75 := by decide +kernel

/-- Its hypotheses are those of the theorems. -/
example := C80_bills outpost_ok outpost_library (by decide) (by decide) [] 0 (by unfold LockStep; decide +kernel) _
  outpost_supplies _ _ outpost_runs
example := C80_energy outpost_ok outpost_library ⟨("balancing", 5), by simp [outpostMods], _, rfl⟩ (by decide) (by decide) [] 0
  (by unfold LockStep; decide +kernel) _ outpost_supplies _ _ outpost_runs

/-- The bound that every policy obeys, here attained. -/
example (ctls : List (List (String × Ctrl) × Bool)) (hs : ∀ cn ∈ ctls, Supplies demoHeap outpostMods cn.1) (os : List RunOut)
    (hlen : os.length = 2) (g' : Microgrid) (hr : Runs outpost ctls os g') : 75 ≤ lossTotal demoHeap outpostMods os := by
  have := C80_unserved outpost_ok outpost_library ⟨("balancing", 5), by simp [outpostMods], _, rfl⟩ (by decide) (by decide) [] 0
    (by unfold LockStep; decide +kernel) ctls hs os g' hr
  rw [hlen] at this
  refine le_trans (le_of_eq ?_) this
  decide +kernel

end Pymgrid
