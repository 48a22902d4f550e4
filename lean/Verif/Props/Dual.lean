import Verif.Lemmas.Dual
import Verif.Props.Ledger

set_option autoImplicit false

/-!
# C97: no policy earns more than its resources are worth

Bounds on the rewards of every sequence of runs, whatever the controls.
-/

namespace Pymgrid

open Module

section
variable {h : Heap} {mods : List (String × Nat)} {tr : Option (Nat → Nat → Option Nat → Except Err (Nat × Nat))} {g₀ : Microgrid}

/-- C97: choose any prices of energy for the steps (within the prices of the balancing modules), and any prices for the
    energy in the batteries.  After any history, from a state in which all modules are at step `c`, the rewards of
    consecutive runs with any controls add up to at most what the modules could earn by trading at these prices. -/
theorem C97_ceiling (hc : Microgrid.create h mods none tr = .ok g₀) (hl : ∀ nm ∈ mods, LibraryModule (h nm.2))
    (hb : ∃ nm ∈ mods, ∃ u, (h nm.2).kind = .balancing u)
    (hid : (mods.map Prod.snd).Nodup) (hn : (mods.map Prod.fst).Nodup) (ops : List GOp) (c : Nat)
    (hlock : LockStep mods (runG g₀ ops) c) (cs : List (List (String × Ctrl) × Bool))
    (hs : ∀ cn ∈ cs, Supplies h mods cn.1) (os : List RunOut) (g' : Microgrid) (hr : Runs (runG g₀ ops) cs os g')
    (q : Quotes) (hq : q.Fair h mods c os.length) :
    (os.map RunOut.reward).sum ≤
      (mods.map fun nm => q.ceiling nm.1 ((runG g₀ ops).heap nm.2).kind (h nm.2).kind c os.length).sum := by
  have hb' : ∃ nm ∈ mods, (h nm.2).kind.isBalancing = true := by
    obtain ⟨nm, hm, u, hu⟩ := hb
    exact ⟨nm, hm, by rw [hu]; rfl⟩
  have wf₀ : ∀ nm ∈ mods, (h nm.2).WF := (Microgrid.create_ok hc).1 ▸ (GridOK.created hc hl).wf
  exact (user_follows hc hl ops).ceiling wf₀ hid hn hb' hr hs hlock q hq

/-- C97: there is no money pump.  If the grid never pays more than `x` for a unit of energy, and energy cannot be had for less than
    `x` from the grid or from gensets, then no controls earn more than what the renewable energy and the energy that the
    batteries hold at the start are worth at this price, minus the demand at this price. -/
theorem C97_no_pump (hc : Microgrid.create h mods none tr = .ok g₀) (hl : ∀ nm ∈ mods, LibraryModule (h nm.2))
    (hb : ∃ nm ∈ mods, ∃ u, (h nm.2).kind = .balancing u)
    (hid : (mods.map Prod.snd).Nodup) (hn : (mods.map Prod.fst).Nodup) (ops : List GOp) (c : Nat)
    (hlock : LockStep mods (runG g₀ ops) c) (cs : List (List (String × Ctrl) × Bool))
    (hs : ∀ cn ∈ cs, Supplies h mods cn.1) (os : List RunOut) (g' : Microgrid) (hr : Runs (runG g₀ ops) cs os g')
    (x : ℚ) (hx : OnePrice h mods x c os.length) :
    (os.map RunOut.reward).sum ≤ x * ((mods.map fun nm => overSteps c os.length (h nm.2).kind.harvest).sum -
      (mods.map fun nm => overSteps c os.length (h nm.2).kind.demand).sum +
      (mods.map fun nm => ((runG g₀ ops).heap nm.2).kind.reserve).sum) := by
  have wf₀ : ∀ nm ∈ mods, (h nm.2).WF := (Microgrid.create_ok hc).1 ▸ (GridOK.created hc hl).wf
  have f := user_follows hc hl ops
  have hb' : ∃ nm ∈ mods, (h nm.2).kind.isBalancing = true := by
    obtain ⟨nm, hm, u, hu⟩ := hb
    exact ⟨nm, hm, by rw [hu]; rfl⟩
  refine (f.ceiling wf₀ hid hn hb' hr hs hlock _ (onePrice_fair hn hx)).trans (le_of_eq ?_)
  rw [List.map_congr_left fun nm hm => onePrice_ceiling hn hx hm (wf₀ nm hm) (f.core nm hm), List.sum_map_mul_left,
    sum_map_add, sum_map_add, sum_map_neg]
  ring

/-- C97: where the grid pays nothing for energy and nobody pays for taking it, no sequence of runs has a positive total
    reward. -/
theorem C97_no_profit (hc : Microgrid.create h mods none tr = .ok g₀) (hl : ∀ nm ∈ mods, LibraryModule (h nm.2))
    (hb : ∃ nm ∈ mods, ∃ u, (h nm.2).kind = .balancing u)
    (hid : (mods.map Prod.snd).Nodup) (hn : (mods.map Prod.fst).Nodup) (ops : List GOp) (c : Nat)
    (hlock : LockStep mods (runG g₀ ops) c) (cs : List (List (String × Ctrl) × Bool))
    (hs : ∀ cn ∈ cs, Supplies h mods cn.1) (os : List RunOut) (g' : Microgrid) (hr : Runs (runG g₀ ops) cs os g')
    (hx : OnePrice h mods 0 c os.length) : (os.map RunOut.reward).sum ≤ 0 := by
  have := C97_no_pump hc hl hb hid hn ops c hlock cs hs os g' hr 0 hx
  rwa [zero_mul] at this

end

/-- The bound that every policy for the outpost obeys in two steps is attained by discharging the battery: energy is worth
    what loss of load costs, energy in the battery so much that it does not matter whether it is used. -/
def outpostQuotes : Quotes where
  energy _ := 10
  store _ _ := 2
  fuel _ := 0

/-- The prices of a module (examples only). -/
def Kind.tariff : Kind → List ℚ
  | .balancing u => [u.overgenerationCost, u.lossLoadCost]
  | .battery b => [b.costCycle]
  | .genset s => (match s.cost with | .const q => [q] | .fn _ => []) ++ [s.costPerCo2, s.co2PerUnit, s.runMin]
  | .grid p t => p.costPerCo2 :: (List.range 3).flatMap fun j => [t.cell j 0, t.cell j 1, t.cell j 2]
  | _ => []

theorem outpost_fair (n : Nat) : outpostQuotes.Fair demoHeap outpostMods 0 n := by
  have hk : outpostMods.map (fun nm => ((demoHeap nm.2).kind.cls, (demoHeap nm.2).kind.tariff)) =
      [(.load, []), (.battery, [3]), (.balancing, [5, 10])] := by decide +kernel
  simp only [outpostMods, List.map_cons, List.map_nil, List.cons.injEq, Prod.mk.injEq] at hk
  obtain ⟨⟨k0, -⟩, ⟨k2, -⟩, ⟨k5, t5⟩, -⟩ := hk
  refine ⟨?_, ?_⟩
  · intro nm hm u hu j _ _
    simp only [outpostMods, List.mem_cons, List.not_mem_nil, or_false] at hm
    rcases hm with rfl | rfl | rfl
    · rw [hu] at k0; cases k0
    · rw [hu] at k2; cases k2
    · rw [hu] at t5
      simp only [Kind.tariff, List.cons.injEq, and_true] at t5
      rw [t5.1, t5.2]
      norm_num [outpostQuotes]
  · intro nm hm s hu
    simp only [outpostMods, List.mem_cons, List.not_mem_nil, or_false] at hm
    rcases hm with rfl | rfl | rfl
    · rw [hu] at k0; cases k0
    · rw [hu] at k2; cases k2
    · rw [hu] at k5; cases k5

example (ctls : List (List (String × Ctrl) × Bool)) (hs : ∀ cn ∈ ctls, Supplies demoHeap outpostMods cn.1) (os : List RunOut)
    (hlen : os.length = 2) (g' : Microgrid) (hr : Runs outpost ctls os g') :
    (os.map RunOut.reward).sum ≤ (outpostResults.map RunOut.reward).sum := by
  have := C97_ceiling outpost_ok outpost_library ⟨("balancing", 5), by simp [outpostMods], _, rfl⟩ (by decide) (by decide) [] 0
    (by unfold LockStep; decide +kernel) ctls hs os g' hr outpostQuotes (outpost_fair _)
  rw [hlen] at this
  refine this.trans ?_
  decide +kernel

theorem demo_onePrice : OnePrice demoHeap demoMods (1/4) 0 3 := by
  have hk : demoMods.map (fun nm => ((demoHeap nm.2).kind.cls, (demoHeap nm.2).kind.tariff)) =
      [(.load, []), (.renewable, []), (.battery, [3]), (.genset, [2/5, 1/10, 2, 10]),
        (.grid, [1/10, 1/5, 1/10, 1/2, 3/10, 1/10, 1/2, 2/5, 1/10, 1/2]), (.balancing, [5, 10])] := by decide +kernel
  simp only [demoMods, List.map_cons, List.map_nil, List.cons.injEq, Prod.mk.injEq] at hk
  obtain ⟨⟨k0, -⟩, ⟨k1, -⟩, ⟨k2, t2⟩, ⟨k3, t3⟩, ⟨k4, t4⟩, ⟨k5, t5⟩, -⟩ := hk
  refine ⟨by norm_num, ?_, ?_, ?_, ?_⟩
  · intro nm hm p t hu j _ hj
    simp only [demoMods, List.mem_cons, List.not_mem_nil, or_false] at hm
    rcases hm with rfl | rfl | rfl | rfl | rfl | rfl
    · rw [hu] at k0; cases k0
    · rw [hu] at k1; cases k1
    · rw [hu] at k2; cases k2
    · rw [hu] at k3; cases k3
    · rw [hu] at t4
      simp only [Kind.tariff, List.range_succ, List.range_zero, List.nil_append, List.cons_append, List.flatMap_cons,
        List.flatMap_nil, List.cons.injEq, and_true] at t4
      obtain ⟨h0, h1, h2, h3, h4, h5, h6, h7, h8, h9⟩ := t4
      have : j = 0 ∨ j = 1 ∨ j = 2 := by omega
      rcases this with rfl | rfl | rfl
      · rw [h0, h1, h2, h3]; norm_num
      · rw [h0, h4, h5, h6]; norm_num
      · rw [h0, h7, h8, h9]; norm_num
    · rw [hu] at k5; cases k5
  · intro nm hm s hu p hp
    simp only [demoMods, List.mem_cons, List.not_mem_nil, or_false] at hm
    rcases hm with rfl | rfl | rfl | rfl | rfl | rfl
    · rw [hu] at k0; cases k0
    · rw [hu] at k1; cases k1
    · rw [hu] at k2; cases k2
    · rw [hu] at t3
      simp only [Kind.tariff] at t3
      cases hc : s.cost with
      | fn f => rw [hc] at t3; simp at t3
      | const q =>
        rw [hc] at t3
        simp only [List.cons_append, List.nil_append, List.cons.injEq, and_true] at t3
        obtain ⟨h0, h1, h2, h3⟩ := t3
        simp only [fuelPrice]
        rw [h0, h1, h2]
        have : 0 ≤ p := by rcases hp with rfl | ⟨l, -⟩ <;> linarith
        linarith
    · rw [hu] at k4; cases k4
    · rw [hu] at k5; cases k5
  · intro nm hm b hu
    simp only [demoMods, List.mem_cons, List.not_mem_nil, or_false] at hm
    rcases hm with rfl | rfl | rfl | rfl | rfl | rfl
    · rw [hu] at k0; cases k0
    · rw [hu] at k1; cases k1
    · rw [hu] at t2
      simp only [Kind.tariff, List.cons.injEq, and_true] at t2
      rw [t2]
      norm_num
    · rw [hu] at k3; cases k3
    · rw [hu] at k4; cases k4
    · rw [hu] at k5; cases k5
  · intro nm hm u hu
    simp only [demoMods, List.mem_cons, List.not_mem_nil, or_false] at hm
    rcases hm with rfl | rfl | rfl | rfl | rfl | rfl
    · rw [hu] at k0; cases k0
    · rw [hu] at k1; cases k1
    · rw [hu] at k2; cases k2
    · rw [hu] at k3; cases k3
    · rw [hu] at k4; cases k4
    · rw [hu] at t5
      simp only [Kind.tariff, List.cons.injEq, and_true] at t5
      rw [t5.1, t5.2]
      norm_num

example (ctls : List (List (String × Ctrl) × Bool)) (hs : ∀ cn ∈ ctls, Supplies demoHeap demoMods cn.1) (os : List RunOut)
    (hlen : os.length = 3) (g' : Microgrid) (hr : Runs demoGrid ctls os g') : (os.map RunOut.reward).sum ≤ -15/4 := by
  have := C97_no_pump demoGrid_ok demo_library demo_balancing demo_ids (by decide) [] 0
    (by unfold LockStep; decide +kernel) ctls hs os g' hr (1/4) (by rw [hlen]; exact demo_onePrice)
  rw [hlen] at this
  refine this.trans ?_
  decide +kernel

theorem outpost_onePrice (n : Nat) : OnePrice demoHeap outpostMods 0 0 n := by
  have hk : outpostMods.map (fun nm => ((demoHeap nm.2).kind.cls, (demoHeap nm.2).kind.tariff)) =
      [(.load, []), (.battery, [3]), (.balancing, [5, 10])] := by decide +kernel
  simp only [outpostMods, List.map_cons, List.map_nil, List.cons.injEq, Prod.mk.injEq] at hk
  obtain ⟨⟨k0, -⟩, ⟨k2, t2⟩, ⟨k5, t5⟩, -⟩ := hk
  refine ⟨le_refl _, ?_, ?_, ?_, ?_⟩
  · intro nm hm p t hu
    simp only [outpostMods, List.mem_cons, List.not_mem_nil, or_false] at hm
    rcases hm with rfl | rfl | rfl
    · rw [hu] at k0; cases k0
    · rw [hu] at k2; cases k2
    · rw [hu] at k5; cases k5
  · intro nm hm s hu
    simp only [outpostMods, List.mem_cons, List.not_mem_nil, or_false] at hm
    rcases hm with rfl | rfl | rfl
    · rw [hu] at k0; cases k0
    · rw [hu] at k2; cases k2
    · rw [hu] at k5; cases k5
  · intro nm hm b hu
    simp only [outpostMods, List.mem_cons, List.not_mem_nil, or_false] at hm
    rcases hm with rfl | rfl | rfl
    · rw [hu] at k0; cases k0
    · rw [hu] at t2
      simp only [Kind.tariff, List.cons.injEq, and_true] at t2
      rw [t2]
      norm_num
    · rw [hu] at k5; cases k5
  · intro nm hm u hu
    simp only [outpostMods, List.mem_cons, List.not_mem_nil, or_false] at hm
    rcases hm with rfl | rfl | rfl
    · rw [hu] at k0; cases k0
    · rw [hu] at k2; cases k2
    · rw [hu] at t5
      simp only [Kind.tariff, List.cons.injEq, and_true] at t5
      rw [t5.1, t5.2]
      norm_num

example := C97_no_profit outpost_ok outpost_library ⟨("balancing", 5), by simp [outpostMods], _, rfl⟩ (by decide) (by decide) [] 0
  (by unfold LockStep; decide +kernel) _ outpost_supplies _ _ outpost_runs (outpost_onePrice _)

end Pymgrid
