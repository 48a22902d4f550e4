import Verif.Lemmas.Simulate
import Verif.Props.Legacy

set_option autoImplicit false

/-!
# C91: a converted microgrid can repeat what the legacy microgrid did

A legacy microgrid is run on any controls; the microgrid that `to_modular` made of it is run on what the former recorded.
-/

namespace Pymgrid.Legacy

open Module

section
variable {arch : Arch} {params : Params} {loads pvs statuses importPrices exportPrices co2s : List ℚ} {horizon : Nat}
  {socStart : ℚ} {status : StateRow} {g₁ g g' : Grid} {m m' : Microgrid} {cs : List Control} {es : List Entry}
  {os : List RunOut}

/-- C91: take a legacy microgrid in any state at the start of its data (new, or reset after any calls), convert it, and run
    it on controls.  As long as the recorded production is one that modules can repeat, the converted microgrid accepts it,
    step by step and up to the end of the data, and each of its runs does what the one of the legacy microgrid did: all
    flows, the state of charge and the costs are the same, up to the imbalances below 1/1000 that only the legacy microgrid
    neglects, and the wear of the battery, which the module counts in the cells. -/
theorem C91_replay (hc : create arch params loads pvs statuses importPrices exportPrices co2s horizon socStart status = .ok g₁)
    (ops : List Op) (hg : after g₁ ops = g) (comparable : g.Comparable) (hm : g.toModular false = .ok m)
    (proceeds : Proceeds g cs) : ∃ es os g' m', Repeats g m cs es os g' m' := by
  obtain ⟨ms, s, w⟩ := comparable.twin hm fun hf => by
    rw [← hg] at hf ⊢
    refine Grid.after_clock (Grid.create_clock hc ?_).1 ops
    have fr := Grid.after_frame g₁ ops
    unfold Grid.FullSeries Grid.dataLength at hf ⊢
    rwa [fr.arch, fr.loads, fr.pvs, fr.statuses, fr.importPrices, fr.exportPrices, fr.co2s] at hf
  exact w.replay s proceeds

/-- C91: the returns agree.  Over a whole replay the negated sum of the rewards differs from the costs that the legacy
    microgrid recorded in the meantime, plus the additional wear, by at most a thousandth of the higher penalty per step. -/
theorem C91_total (h : Repeats g m cs es os g' m') :
    es.length = cs.length ∧ os.length = cs.length ∧ ∃ new, g'.costs = g.costs ++ new ∧ new.length = cs.length ∧
      |-(os.map RunOut.reward).sum - ((new.map CostRow.total).sum + (es.map (Entry.extraWear · g.params)).sum)| ≤
        cs.length * (max g.params.costLossLoad g.params.costOvergen * (1/1000)) :=
  ⟨h.total.2.1, h.total.2.2.1, h.total.2.2.2⟩

/-- C91: without battery losses and without penalties for imbalances the returns agree exactly. -/
theorem C91_total_exact (h : Repeats g m cs es os g' m') (eff : g.params.eff = 1) (loss : g.params.costLossLoad = 0)
    (over : g.params.costOvergen = 0) :
    ∃ new, g'.costs = g.costs ++ new ∧ new.length = cs.length ∧ -(os.map RunOut.reward).sum = (new.map CostRow.total).sum := by
  obtain ⟨-, -, new, h1, h2, h3⟩ := C91_total h
  refine ⟨new, h1, h2, ?_⟩
  have hw : (es.map (Entry.extraWear · g.params)).sum = 0 := by
    refine List.sum_eq_zero fun x hx => ?_
    obtain ⟨e, -, rfl⟩ := List.mem_map.mp hx
    unfold Entry.extraWear
    rw [eff]; ring
  rw [loss, over, hw, max_self, zero_mul, mul_zero, add_zero] at h3
  linarith [abs_eq_zero.mp (le_antisymm h3 (abs_nonneg _))]

end

/-! ### Examples, and why the agreement is not exact -/

/-- Runs of the example: discharge and import; charge while the grid is down and PV is curtailed; charge and export; run the
    genset with too little energy. -/
def demoTape : List Control :=
  [⟨some 0, some 18, some 12, some 0, some 0⟩, ⟨some 5, some 0, some 0, some 0, some 0⟩,
   ⟨some 5, some 0, some 0, some 4, some 0⟩, ⟨some 0, some 0, some 0, some 0, some 15⟩]

/-- The last record of all columns (examples only). -/
def lastEntry (p : Production) : Entry :=
  let b := p.battery.getLast?.getD (0, 0)
  let g := p.grid.getLast?.getD (0, 0)
  let v := p.pv.getLast?.getD ⟨0, 0, 0, 0⟩
  ⟨b.1, b.2, g.1, g.2, p.genset.getLast?.getD 0, v.consumed, v.lossLoad, v.curtailed, v.overgen⟩

theorem proceeds_cons {g : Grid} {c : Control} {cs : List Control} (hd : g.done = false) (ok : (g.run c).2.isOk = true)
    (rec : (lastEntry (g.run c).1.production).Recorded g.arch g.production (g.run c).1.production)
    (rep : (lastEntry (g.run c).1.production).Repeatable g) (hg : g.arch.grid = true) (rest : Proceeds (g.run c).1 cs) :
    Proceeds g (c :: cs) := by
  cases h : (g.run c).2 with
  | error e => rw [h] at ok; exact absurd ok (by simp [Except.isOk, Except.toBool])
  | ok row => exact ⟨hd, (g.run c).1, row, _, by rw [← h], rec, rep, fun _ h => by rw [hg] at h; simp at h, rest⟩

theorem demoTape_proceeds : Proceeds (demo true) demoTape := by
  refine proceeds_cons (by decide +kernel) (by decide +kernel) ?_ ?_ (by decide +kernel) <|
    proceeds_cons (by decide +kernel) (by decide +kernel) ?_ ?_ (by decide +kernel) <|
    proceeds_cons (by decide +kernel) (by decide +kernel) ?_ ?_ (by decide +kernel) <|
    proceeds_cons (by decide +kernel) (by decide +kernel) ?_ ?_ (by decide +kernel) trivial
  all_goals constructor <;> decide +kernel

theorem demo_comparable : (demo true).Comparable := by
  refine ⟨fun _ => by decide +kernel, by decide +kernel, ?_, by decide +kernel, fun _ => by decide +kernel, by decide +kernel,
    by decide +kernel, by decide +kernel, by decide +kernel⟩
  have : (demo true).params = demoParams := by decide +kernel
  rw [this]
  exact demoParams_good

/-- Non-vacuity: the example is repeated to the end of the data, with losses in the last step and curtailment before. -/
example : ∃ es os g' m', Repeats (demo true) (converted (demo true)) demoTape es os g' m' :=
  C91_replay (demo_ok true) [] rfl demo_comparable demo_converts demoTape_proceeds
example : (after (demo true) (demoTape.map .run)).done = true ∧
    (after (demo true) (demoTape.map .run)).soc = 39/100 ∧
    (after (demo true) (demoTape.map .run)).production.pv.map (fun r => (r.curtailed, r.lossLoad)) =
      [(0, 0), (5, 0), (1, 0), (0, 5)] := by decide +kernel

/-- The example without battery losses and penalties. -/
def demoFree : Grid :=
  match create ⟨true, true, true⟩ { demoParams with eff := 1, costLossLoad := 0, costOvergen := 0 } [60, 40, 0, 20]
    [30, 50, 10, 0] [1, 0, 1, 1] [1/5, 3/10, 1/5, 1/5] [0, 0, 1/10, 0] [1/4, 1/3, 1/4, 1/4] 1 (1/2) demoStatus with
  | .ok g => g
  | .error _ => demo true

/-- Non-vacuity of `C91_total_exact`. -/
example : ∃ es os g' m', Repeats demoFree (converted demoFree) demoTape es os g' m' ∧
    ∃ new, g'.costs = demoFree.costs ++ new ∧ new.length = 4 ∧ -(os.map RunOut.reward).sum = (new.map CostRow.total).sum := by
  have hp : Proceeds demoFree demoTape := by
    refine proceeds_cons (by decide +kernel) (by decide +kernel) ?_ ?_ (by decide +kernel) <|
      proceeds_cons (by decide +kernel) (by decide +kernel) ?_ ?_ (by decide +kernel) <|
      proceeds_cons (by decide +kernel) (by decide +kernel) ?_ ?_ (by decide +kernel) <|
      proceeds_cons (by decide +kernel) (by decide +kernel) ?_ ?_ (by decide +kernel) trivial
    all_goals constructor <;> decide +kernel
  have hc : demoFree.Comparable := by
    refine ⟨fun _ => by decide +kernel, by decide +kernel, ?_, by decide +kernel, fun _ => by decide +kernel, by decide +kernel,
      by decide +kernel, by decide +kernel, by decide +kernel⟩
    constructor <;> decide +kernel
  obtain ⟨es, os, g', m', h⟩ := C91_replay (g₁ := demoFree) (arch := ⟨true, true, true⟩)
    (params := { demoParams with eff := 1, costLossLoad := 0, costOvergen := 0 }) (loads := [60, 40, 0, 20])
    (pvs := [30, 50, 10, 0]) (statuses := [1, 0, 1, 1]) (importPrices := [1/5, 3/10, 1/5, 1/5])
    (exportPrices := [0, 0, 1/10, 0]) (co2s := [1/4, 1/3, 1/4, 1/4]) (horizon := 1) (socStart := 1/2) (status := demoStatus)
    (by decide +kernel) [] rfl hc (okGrid_eq (by decide +kernel)) hp
  exact ⟨es, os, g', m', h, C91_total_exact h (by decide +kernel) (by decide +kernel) (by decide +kernel)⟩

/-- The costs do not agree exactly because of the wear: discharging 18 units costs 36/100 in the legacy microgrid and 40/100
    in the module. -/
theorem C91_wear :
    let c : Control := ⟨some 0, some 18, some 12, some 0, some 0⟩
    let e := lastEntry ((demo true).run c).1.production
    e.extraWear demoParams = 1/25 ∧
      ((demo true).run c).1.costs.map (fun c => (c.parts.lookup "battery", c.total)) = [(some (9/25), 153/50)] ∧
      ((converted (demo true)).run (e.control ⟨true, true, true⟩) false).2.toOption.map RunOut.reward = some (-(31/10)) := by
  decide +kernel

/-- Nor do they because of the tolerance: a shortage of 1/2000 is free for the legacy microgrid and costs 10 · 1/2000 in the
    converted one. -/
theorem C91_tolerance :
    let c : Control := ⟨some 0, some 0, some (30 - 1/2000), some 0, some 0⟩
    let e := lastEntry ((demo true).run c).1.production
    e.lossLoad = 0 ∧ e.extraWear demoParams = 0 ∧
      ∃ cost, ((demo true).run c).1.costs = [cost] ∧
      ((converted (demo true)).run (e.control ⟨true, true, true⟩) false).2.toOption.map (fun o => -o.reward - cost.total) =
        some (1/200) := by
  refine ⟨by decide +kernel, by decide +kernel, ?_⟩
  refine ⟨(((demo true).run ⟨some 0, some 0, some (30 - 1/2000), some 0, some 0⟩).1.costs.head?.getD ⟨[], 0⟩), ?_, ?_⟩ <;>
    decide +kernel

/-- Production during an outage cannot be repeated: in the second step the grid is down, the legacy microgrid imports 40
    units, the converted one none. -/
theorem C91_outage :
    let c₁ : Control := ⟨some 0, some 0, some 30, some 0, some 0⟩
    let c₂ : Control := ⟨some 0, some 0, some 40, some 50, some 0⟩
    let g := ((demo true).run c₁).1
    let m := ((converted (demo true)).run ((lastEntry g.production).control ⟨true, true, true⟩) false).1
    let e := lastEntry (g.run c₂).1.production
    g.cur.status = 0 ∧ e.imp = 40 ∧ e.exp = 50 ∧
      (m.run ({ e with exp := 0 }.control ⟨true, true, true⟩) false).2.toOption.map (fun o => MPC.delivered o "grid") = some 0 := by
  decide +kernel

end Pymgrid.Legacy
