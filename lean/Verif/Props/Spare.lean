import Verif.Lemmas.Spare
import Verif.Props.Microgrid

set_option autoImplicit false

/-!
# C93: an idle component changes nothing

A microgrid and the same microgrid with one battery or genset more, which gets the action that makes it stay idle.
-/

namespace Pymgrid

open Module

section
variable {h : Heap} {mods : List (String × Nat)} {name : String} {k : Nat} {act : Bool → Act} {sh sh' : Option Shaper}
  {tr : Option (Nat → Nat → Option Nat → Except Err (Nat × Nat))} {g : Microgrid}

/-- C93: with an idle component under a new name, the microgrid can still be built, and for every sequence of runs and resets
    the results are the same but for what is listed under the new name; so are all other modules and the balance log
    afterwards, and the charge of an idle battery. -/
theorem C93_idle (hci : CanIdle (h k) act) (hn : name ∉ mods.map Prod.fst) (hk : k ∉ mods.map Prod.snd) (hne : mods ≠ [])
    (hs : Ignoring name sh sh') (hc : Microgrid.create h mods sh tr = .ok g) (hi : (h k).initialStep = g.initialStep) :
    ∃ g', Microgrid.create h (mods ++ [(name, k)]) sh' tr = .ok g' ∧ ∀ ops,
      List.Forall₂ (SameBut name) (g.results ops) (g'.results (ops.map (GOp.withIdle name act))) ∧
      (∀ j, j ≠ k → (runG g' (ops.map (GOp.withIdle name act))).heap j = (runG g ops).heap j) ∧
      (runG g' (ops.map (GOp.withIdle name act))).balanceLog = (runG g ops).balanceLog ∧
      ∀ b, (h k).kind = .battery b → ((runG g' (ops.map (GOp.withIdle name act))).heap k).kind = .battery b := by
  obtain ⟨g', h1, t⟩ := create_spare hci hn hk hne hs hc hi
  refine ⟨g', h1, fun ops => ?_⟩
  obtain ⟨h2, h3⟩ := t.results hci ops
  exact ⟨h2, h3.heap.1, h3.balanceLog, fun b hb => h3.heap.2.battery hb⟩

/-- C93: so whatever can be earned without the component can be earned with it, by as many calls. -/
theorem C93_never_worse (hci : CanIdle (h k) act) (hn : name ∉ mods.map Prod.fst) (hk : k ∉ mods.map Prod.snd)
    (hne : mods ≠ []) (hs : Ignoring name sh sh') {g' : Microgrid} (hc : Microgrid.create h mods sh tr = .ok g)
    (hc' : Microgrid.create h (mods ++ [(name, k)]) sh' tr = .ok g') (hi : (h k).initialStep = g.initialStep)
    (ops : List GOp) :
    ∃ ops' : List GOp, ops'.length = ops.length ∧ earned (g'.results ops') = earned (g.results ops) ∧
      (g'.results ops').map Except.isOk = (g.results ops).map Except.isOk := by
  obtain ⟨x, h1, h2⟩ := C93_idle hci hn hk hne hs hc hi
  rw [hc'] at h1
  obtain rfl := Except.ok.inj h1
  refine ⟨ops.map (GOp.withIdle name act), by simp, ?_⟩
  have := (h2 ops).1
  generalize g.results ops = l at this
  generalize g'.results (ops.map (GOp.withIdle name act)) = l' at this
  clear * - this
  unfold earned
  induction this with
  | nil => exact ⟨rfl, rfl⟩
  | cons hab _ ih =>
    simp only [List.map_cons, List.sum_cons]
    rw [ih.1, ih.2]
    cases hab with
    | error e => exact ⟨rfl, rfl⟩
    | reset => exact ⟨rfl, rfl⟩
    | run r d o i => exact ⟨by simp only [r], rfl⟩

end

/-- A second battery, a genset that runs at first and can be switched off at once, one that needs two steps to wind down, and
    a battery below its minimum. -/
def spareHeap : Heap
  | 6 => okModule (mkBattery 10 100 20 30 (1/2) 3 none (some 50) none 0 true)
  | 7 => okModule (mkGenset 10 50 (.const (2/5)) 2 (1/10) 3 0 true true 0 true)
  | 8 => okModule (mkGenset 10 50 (.const (2/5)) 2 (1/10) 3 2 true true 0 false)
  | 9 => okModule (mkBattery 10 100 20 30 (1/2) 3 none (some 5) none 0 true)
  | i => demoHeap i

/-- The idle battery. -/
theorem spareBattery_idle : CanIdle (spareHeap 6) fun n =>
    .num (if n then (30 / (1/2)) / (30 / (1/2) + 20 * (1/2)) else 0) := by
  have h6 : mkBattery 10 100 20 30 (1/2) 3 none (some 50) none 0 true = .ok (spareHeap 6) := okModule_eq (by decide +kernel)
  obtain ⟨b, hb, -⟩ := mkBattery_inv h6
  refine .battery (b := b) h6 hb ?_ (by norm_num) (by norm_num)
  have : (match (spareHeap 6).kind with | .battery b => decide ((10 : ℚ) ≤ b.charge) | _ => true) = true := by decide +kernel
  rw [hb] at this
  simpa using this

/-- The idle genset. -/
theorem spareGenset_idle : CanIdle (spareHeap 7) fun _ => .arr [0, 0] :=
  .genset (okModule_eq (by decide +kernel) : mkGenset 10 50 (.const (2/5)) 2 (1/10) 3 0 true true 0 true = .ok (spareHeap 7))
    trivial fun _ => rfl

/-- The microgrid without an additional module. -/
def unsparedGrid : Microgrid := okGrid (Microgrid.create spareHeap demoMods none none)

/-- The microgrid with `id` as an additional module. -/
def spareGrid (id : Nat) : Microgrid := okGrid (Microgrid.create spareHeap (demoMods ++ [("spare", id)]) none none)

/-- Non-vacuity of `C93_idle`: both components meet the hypotheses, and the microgrids do something. -/
example : Microgrid.create spareHeap demoMods none none = .ok unsparedGrid ∧
    Microgrid.create spareHeap (demoMods ++ [("spare", 6)]) none none = .ok (spareGrid 6) ∧
    Microgrid.create spareHeap (demoMods ++ [("spare", 7)]) none none = .ok (spareGrid 7) ∧
    (spareHeap 6).initialStep = unsparedGrid.initialStep ∧ (spareHeap 7).initialStep = unsparedGrid.initialStep ∧
    (unsparedGrid.run demoControl false).2.toOption.map (fun o => o.reward) = some (-243/2) ∧
    ((spareGrid 6).run (("spare", .seq [.num 0]) :: demoControl) false).2.toOption.map (fun o => o.reward) =
      some (-243/2) ∧
    ((spareGrid 7).run (("spare", .seq [.arr [0, 0]]) :: demoControl) false).2.toOption.map (fun o => o.reward) =
      some (-243/2) := by
  exact ⟨okGrid_eq (by decide +kernel), okGrid_eq (by decide +kernel), okGrid_eq (by decide +kernel), by decide +kernel,
    by decide +kernel, by decide +kernel, by decide +kernel, by decide +kernel⟩

/-- C93, the limits: a genset that is running and takes time to wind down cannot be idle - it is paid for although nothing is
    requested -, and a battery below its minimum capacity, which its constructor accepts, makes every run fail. -/
theorem C93_not_idle :
    Microgrid.create spareHeap (demoMods ++ [("spare", 8)]) none none = .ok (spareGrid 8) ∧
    Microgrid.create spareHeap (demoMods ++ [("spare", 9)]) none none = .ok (spareGrid 9) ∧
    (((spareGrid 8).run (("spare", .seq [.arr [0, 0]]) :: demoControl) false).2.toOption.map fun o => o.reward) ≠
      (unsparedGrid.run demoControl false).2.toOption.map (fun o => o.reward) ∧
    ((spareGrid 9).run (("spare", .seq [.num 0]) :: demoControl) false).2.isOk = false :=
  ⟨okGrid_eq (by decide +kernel), okGrid_eq (by decide +kernel), by decide +kernel, by decide +kernel⟩

end Pymgrid
