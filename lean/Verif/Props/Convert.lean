import Verif.Lemmas.Convert
import Verif.Props.Battery
import Verif.Props.Genset
import Verif.Props.Generator
import Verif.Props.Microgrid

set_option autoImplicit false

/-! # C54: conversion of legacy microgrids -/

namespace Pymgrid.Legacy

open Pymgrid Module

section
variable {g : Grid} {r : Bool} {m : Microgrid} {x : Module}

/-- C54: exactly the legacy microgrids with the following data can be converted: load and PV series of one sign and equal
    length, an efficiency in (0, 1] and a battery with capacity, an ordered range of the genset, non-negative prices and
    powers of the grid and a status that is 0 or 1.  The grid series are equally long. -/
theorem C54_accepted_iff (ha : g.Aligned) : (∃ m, g.toModular r = .ok m) ↔ g.Convertible := toModular_iff ha

/-- C54, except for the maximal state of charge: the converted microgrid has exactly one module per component, with the
    capacities, limits, efficiency, costs, series and state of the legacy microgrid.  The load becomes negative and the PV
    production positive, whatever their signs were. -/
theorem C54_components_partial (ha : g.Aligned) (h : g.toModular r = .ok m) : Converted g r m := by
  refine ⟨fun name hn => modulesOf_none h (find_other g r hn), ?_, ?_, ?_, ?_, ?_, ?_, ?_, ?_, ?_⟩
  · obtain ⟨x, hx, hm⟩ := modulesOf_one h (find_load g r)
    obtain ⟨t, h1, h2, h3⟩ := load_inv hx
    exact ⟨x, t, hm, h1, h2, h3⟩
  · obtain ⟨x, hx, hm⟩ := modulesOf_one h (find_balancing g r)
    injection hx with hx
    subst hx
    exact ⟨_, _, hm, rfl, rfl, rfl, rfl⟩
  · obtain ⟨x, hx, hm⟩ := modulesOf_one h (find_pv g r)
    obtain ⟨t, h1, h2, h3⟩ := pv_inv hx
    exact ⟨x, t, hm, h1, h2, h3⟩
  · intro hb
    have hf := find_battery g r
    rw [if_pos hb] at hf
    obtain ⟨x, hx, hm⟩ := modulesOf_one h hf
    obtain ⟨b, k, -, -, hz, b1, b2, b3, b4, b5, b6, b7, -, b8, ⟨s, hs, b9⟩, -, -, -, -, -, -, hr, -⟩ := mkBattery_inv hx
    injection hs with hs
    subst hs
    refine ⟨x, b, hm, k, hr, b2, by rw [b1, mul_comm], b3, b4, b5, b6, b7, ?_, b9⟩
    rw [b8, b9, mul_div_assoc, div_self hz, mul_one]
  · intro hb
    have hf := find_battery g r
    rw [hb] at hf
    exact modulesOf_none h hf
  · intro hb
    have hf := find_genset g r
    rw [if_pos hb] at hf
    obtain ⟨x, hx, hm⟩ := modulesOf_one h hf
    obtain ⟨n, hn, k, -, -, -, -, -, -, hr, -⟩ := mkGenset_inv hx
    obtain ⟨-, hp, n1, n2, n3, n4, n5, n6, n7, -⟩ := Genset.init_inv hn
    exact ⟨x, n, hm, k, hr, by rw [n1, mul_comm], by rw [n2, mul_comm], n3, n4, n5, n6, n7, hp.1.1⟩
  · intro hb
    have hf := find_genset g r
    rw [hb] at hf
    exact modulesOf_none h hf
  · intro hb
    have hf := find_grid g r
    rw [if_pos hb] at hf
    obtain ⟨x, hx, hm⟩ := modulesOf_one h hf
    obtain ⟨p, t, k, n, p1, p2, p3, hr⟩ := grid_inv hx
    refine ⟨x, p, t, hm, k, n, p1, p2, p3, by rw [hr, gridSeries_length ha hb], fun i row hrow => ?_⟩
    rw [hr, gridSeries_get hrow]
  · intro hb
    have hf := find_grid g r
    rw [hb] at hf
    exact modulesOf_none h hf

/-! ### Behaviour -/

/-- The battery module of a conversion. -/
theorem battery_of (h : g.toModular r = .ok m) (hb : g.arch.battery = true) (hx : m.modulesOf "battery" = [x]) :
    g.batteryModule r = .ok x := by
  have hf := find_battery g r
  rw [if_pos hb] at hf
  obtain ⟨y, hy, hm⟩ := modulesOf_one h hf
  rw [hx] at hm
  injection hm with hm
  rw [hy, hm]

theorem battery_good (hp : g.params.Good) (hs : g.params.socMin ≤ g.batterySoc ∧ g.batterySoc ≤ 1)
    (hx : g.batteryModule r = .ok x) : GoodBattery (g.params.capacity * g.params.socMin) g.params.capacity g.params.pCharge
      g.params.pDischarge x := by
  obtain ⟨b, k, -, -, -, -, -, -, -, -, -, -, -, -, ⟨s, hs', b9⟩, -⟩ := mkBattery_inv hx
  injection hs' with hs'
  subst hs'
  have := hp.capacity
  refine ⟨hp.charge, hp.discharge, b.charge, by unfold charge?; rw [k], ?_, ?_⟩ <;> rw [b9] <;> nlinarith [hs.1, hs.2]

/-- C54: the battery module tracks the legacy battery.  Whatever was done with it before, if it holds the legacy state of
    charge, then a step that charges or discharges an amount the module can handle leads to the state of charge that the
    legacy microgrid records for that amount (`C52`).  The reward charges the wear for the energy that reaches or leaves
    the cells, where the legacy cost counts the energy at the terminals (`C60`). -/
theorem C54_battery_tracks (h : g.toModular false = .ok m) (hb : g.arch.battery = true)
    (hx : m.modulesOf "battery" = [x]) (hp : g.params.Good)
    (hs : g.params.socMin ≤ g.batterySoc ∧ g.batterySoc ≤ 1) (ops : List MOp) (hops : ∀ op ∈ ops, op.isCall)
    {s charge discharge : ℚ} (hq : (runOps x ops).charge? = some (s * g.params.capacity)) (hc : 0 ≤ charge)
    (hd : 0 ≤ discharge) (one : charge = 0 ∨ discharge = 0)
    (lim_c : charge * g.params.eff ≤ min g.params.pCharge ((1 - s) * g.params.capacity))
    (lim_d : discharge ≤ g.params.eff * min g.params.pDischarge ((s - g.params.socMin) * g.params.capacity)) :
    ∃ x' o, (runOps x ops).step (.num (discharge - charge)) false = (x', .ok o) ∧
      x'.charge? = some ((s + (charge * g.params.eff - discharge / g.params.eff) / g.params.capacity) * g.params.capacity) ∧
      o.info.provided.getD 0 = discharge ∧ o.info.absorbed.getD 0 = charge ∧
      o.reward = -((charge * g.params.eff + discharge / g.params.eff) * g.params.costCycle) := by
  have hx' := battery_of h hb hx
  have hg := battery_good hp hs hx'
  have hcap := hp.capacity
  have heff := hp.eff
  rcases hc.eq_or_lt with h0 | h0
  · subst h0
    obtain ⟨ch, ch', m', o, h1, h2, h3, h4, h5, h6, -⟩ := C04_discharge hx' hg ops hops discharge hd
    rw [hq] at h1
    injection h1 with h1
    subst h1
    have e : min g.params.pDischarge (s * g.params.capacity - g.params.capacity * g.params.socMin) =
        min g.params.pDischarge ((s - g.params.socMin) * g.params.capacity) := by ring_nf
    rw [e, min_eq_left lim_d] at h4 h6
    obtain ⟨c1, c2, r1, r2, r3, -⟩ := C06_reward hx' hg ops hops _ _ _ _ h2
    rw [hq] at r1
    rw [h3] at r2
    injection r1 with r1
    injection r2 with r2
    subst r1 r2
    refine ⟨m', o, by rw [sub_zero]; exact h2, ?_, by rw [h4]; rfl, by rw [h5]; rfl, ?_⟩
    · rw [h3, h6]
      congr 1
      field_simp
      ring
    · have : 0 ≤ discharge / g.params.eff := div_nonneg hd heff.le
      rw [r3, h6, abs_of_nonpos (by linarith)]
      ring
  · have hd0 : discharge = 0 := by rcases one with h | h; exact absurd h h0.ne'; exact h
    subst hd0
    obtain ⟨ch, ch', m', o, h1, h2, h3, h4, h5, h6, -⟩ := C04_charge hx' hg ops hops charge h0
    rw [hq] at h1
    injection h1 with h1
    subst h1
    have e : min g.params.pCharge (g.params.capacity - s * g.params.capacity) =
        min g.params.pCharge ((1 - s) * g.params.capacity) := by ring_nf
    have l : charge ≤ min g.params.pCharge ((1 - s) * g.params.capacity) / g.params.eff := by
      rw [le_div_iff₀ heff]; exact lim_c
    rw [e, min_eq_left l] at h4 h6
    obtain ⟨c1, c2, r1, r2, r3, -⟩ := C06_reward hx' hg ops hops _ _ _ _ h2
    rw [hq] at r1
    rw [h3] at r2
    injection r1 with r1
    injection r2 with r2
    subst r1 r2
    refine ⟨m', o, by rw [zero_sub]; exact h2, ?_, by rw [h5]; rfl, by rw [h4]; rfl, ?_⟩
    · rw [h3, h6]
      congr 1
      field_simp
      ring
    · have : 0 ≤ charge * g.params.eff := mul_nonneg hc heff.le
      rw [r3, h6, abs_of_nonneg (by linarith)]
      ring

/-- C54: the limits of the two batteries at the same state of charge.  The module delivers at most what the legacy battery
    delivers and absorbs at least what it absorbs (the efficiency is applied on the other side of the power limits), so
    discharges may have to be repeated; without losses, and a maximal state of charge of 1, the limits are the same. -/
theorem C54_battery_limits (h : g.toModular r = .ok m) (hb : g.arch.battery = true) (hx : m.modulesOf "battery" = [x])
    (hp : g.params.Good) (hs : g.params.socMin ≤ g.batterySoc ∧ g.batterySoc ≤ g.params.socMax)
    (h1 : g.params.socMax ≤ 1) :
    ∃ b, x.kind = .battery b ∧
      b.maxProduction ≤ g.params.dischargeLimit g.batterySoc ∧ g.params.dischargeLimit g.batterySoc * g.params.eff ≤ b.maxProduction ∧
      g.params.chargeLimit g.batterySoc ≤ b.maxConsumption ∧
      (g.params.eff = 1 → b.maxProduction = g.params.dischargeLimit g.batterySoc ∧
        (g.params.socMax = 1 → b.maxConsumption = g.params.chargeLimit g.batterySoc)) := by
  have hx' := battery_of h hb hx
  obtain ⟨b, k, -, -, -, b1, b2, b3, b4, b5, b6, -, -, -, ⟨s, hs', b9⟩, -⟩ := mkBattery_inv hx'
  injection hs' with hs'
  subst hs'
  have hcap := hp.capacity
  have heff := hp.eff
  have hle := hp.eff_le
  have hch := hp.charge
  have hdi := hp.discharge
  have hE : 0 ≤ (g.batterySoc - g.params.socMin) * g.params.capacity :=
    mul_nonneg (by linarith [hs.1]) hcap.le
  have hF : 0 ≤ (g.params.socMax - g.batterySoc) * g.params.capacity :=
    mul_nonneg (by linarith [hs.2]) hcap.le
  have hFG : (g.params.socMax - g.batterySoc) * g.params.capacity ≤ (1 - g.batterySoc) * g.params.capacity :=
    mul_le_mul_of_nonneg_right (by linarith) hcap.le
  have eP : b.maxProduction = min g.params.pDischarge ((g.batterySoc - g.params.socMin) * g.params.capacity) * g.params.eff := by
    unfold Battery.maxProduction; rw [b1, b4, b5, b9]; ring_nf
  have eC : b.maxConsumption = min g.params.pCharge ((1 - g.batterySoc) * g.params.capacity) / g.params.eff := by
    unfold Battery.maxConsumption; rw [b2, b3, b5, b9]; ring_nf
  have eD : g.params.dischargeLimit g.batterySoc =
      min g.params.pDischarge ((g.batterySoc - g.params.socMin) * g.params.capacity * g.params.eff) := by
    unfold Params.dischargeLimit; rw [max_eq_right (mul_nonneg hE heff.le)]
  have eL : g.params.chargeLimit g.batterySoc =
      min g.params.pCharge ((g.params.socMax - g.batterySoc) * g.params.capacity * g.params.eff) := by
    unfold Params.chargeLimit; rw [max_eq_right (mul_nonneg hF heff.le)]
  refine ⟨b, k, ?_, ?_, ?_, ?_⟩
  · rw [eP, eD]
    apply le_min
    · calc _ ≤ g.params.pDischarge * g.params.eff := mul_le_mul_of_nonneg_right (min_le_left _ _) heff.le
        _ ≤ g.params.pDischarge * 1 := mul_le_mul_of_nonneg_left hle hdi
        _ = _ := mul_one _
    · exact mul_le_mul_of_nonneg_right (min_le_right _ _) heff.le
  · rw [eP, eD]
    apply mul_le_mul_of_nonneg_right _ heff.le
    apply le_min (min_le_left _ _)
    calc _ ≤ _ := min_le_right _ _
      _ ≤ (g.batterySoc - g.params.socMin) * g.params.capacity * 1 := mul_le_mul_of_nonneg_left hle hE
      _ = _ := mul_one _
  · rw [eC, eL, le_div_iff₀ heff]
    apply le_min
    · calc _ ≤ g.params.pCharge * g.params.eff := mul_le_mul_of_nonneg_right (min_le_left _ _) heff.le
        _ ≤ g.params.pCharge * 1 := mul_le_mul_of_nonneg_left hle hch
        _ = _ := mul_one _
    · refine le_trans ?_ hFG
      have hmin : min g.params.pCharge ((g.params.socMax - g.batterySoc) * g.params.capacity * g.params.eff) ≤
          (g.params.socMax - g.batterySoc) * g.params.capacity := (min_le_right _ _).trans (by nlinarith)
      have hn : 0 ≤ min g.params.pCharge ((g.params.socMax - g.batterySoc) * g.params.capacity * g.params.eff) :=
        le_min hch (mul_nonneg hF heff.le)
      nlinarith
  · intro he
    refine ⟨by rw [eP, eD, he, mul_one, mul_one], fun hm => by rw [eC, eL, he, hm, mul_one, div_one]⟩

/-- C54: the rewards of the converted modules are the negated legacy costs of the same energies: fuel and emissions of the
    genset, price and emissions of imports, revenue of exports, penalties of unserved and excess energy (`C60`). -/
theorem C54_rewards (h : g.toModular r = .ok m) (ops : List MOp) (hops : ∀ op ∈ ops, op.isCall) (a : Act) (n : Bool)
    (x' : Module) (o : StepOut) :
    (∀ x, g.arch.genset = true → 0 ≤ g.params.rated * g.params.pmin → m.modulesOf "genset" = [x] →
      (runOps x ops).step a n = (x', .ok o) → ∃ e, o.info.provided = some e ∧
        o.reward = -(e * g.params.fuelCost + e * g.params.gensetCo2 * g.params.costCo2)) ∧
    (∀ x, g.arch.grid = true → m.modulesOf "grid" = [x] → (runOps x ops).step a n = (x', .ok o) →
      ∃ row, g.GridData (runOps x ops).currentStep row ∧
        (∀ e, o.info.provided = some e →
          o.reward = -(e * row.priceImport + e * row.co2 * g.params.costCo2) ∧ 0 ≤ e ∧ e ≤ g.params.pImport) ∧
        (∀ e, o.info.absorbed = some e → o.reward = -(-(e * row.priceExport)) ∧ 0 ≤ e ∧ e ≤ g.params.pExport)) ∧
    (∀ x, 0 ≤ g.params.costLossLoad → 0 ≤ g.params.costOvergen → m.modulesOf "unbalanced_energy" = [x] → ∀ q,
      ∃ y o, (runOps x ops).step (.num q) false = (y, .ok o) ∧
        (0 ≤ q → o.info.provided = some q ∧ o.reward = -(q * g.params.costLossLoad)) ∧
        (q < 0 → o.info.absorbed = some (-q) ∧ o.reward = -(-q * g.params.costOvergen))) := by
  refine ⟨fun x hb h0 hx hs => ?_, fun x hb hx hs => ?_, fun x hl ho hx q => ?_⟩
  · have hf := find_genset g r
    rw [if_pos hb] at hf
    obtain ⟨y, hy, hm⟩ := modulesOf_one h hf
    rw [hx] at hm
    injection hm with hm
    subst hm
    obtain ⟨n', e, -, he, -, -, -, -, hrew, -⟩ := C12_output hy (by rw [mul_comm]; exact h0) ops hops a n x' o hs
    refine ⟨e, he, ?_⟩
    rw [hrew]
    unfold fuelPrice
    ring
  · have hf := find_grid g r
    rw [if_pos hb] at hf
    obtain ⟨y, hy, hm⟩ := modulesOf_one h hf
    rw [hx] at hm
    injection hm with hm
    subst hm
    obtain ⟨imp, exp, co2, st, hgd, hi, he⟩ := C14_reward_and_co2 (gridSeries_rect g) hy ops a n x' o hs
    obtain ⟨imp', exp', co2', st', hgd', hi', he', -⟩ := C13_limits_and_outages (gridSeries_rect g) hy ops a n x' o hs
    have hrow : ∃ row, g.gridSeries[(runOps x ops).currentStep]? = some row := by
      unfold gridData at hgd
      cases hq : g.gridSeries[(runOps x ops).currentStep]? with
      | none => rw [hq] at hgd; simp at hgd
      | some row => exact ⟨row, rfl⟩
    obtain ⟨row, hrow⟩ := hrow
    obtain ⟨d, hd, rfl⟩ := gridSeries_data hrow
    unfold gridData at hgd
    rw [hrow] at hgd
    simp only [Option.some.injEq, Prod.mk.injEq] at hgd
    obtain ⟨rfl, rfl, rfl, rfl⟩ := hgd
    refine ⟨d, hd, fun e hp => ?_, fun e hp => ?_⟩
    · obtain ⟨h1, -⟩ := hi e hp
      exact ⟨by rw [h1]; ring, (hi' e hp).1, (hi' e hp).2.1⟩
    · obtain ⟨h1, -⟩ := he e hp
      exact ⟨by rw [h1]; ring, (he' e hp).1, (he' e hp).2.1⟩
  · obtain ⟨y, hy, hm⟩ := modulesOf_one h (find_balancing g r)
    rw [hx] at hm
    injection hm with hm
    subst hm
    injection hy with hy
    subst hy
    obtain ⟨y, o, h1, h2, h3⟩ := C17_balances_exactly (r := r) (i := 0) hl ho ops q
    refine ⟨y, o, h1, fun hq => ?_, fun hq => ?_⟩
    · obtain ⟨p1, -, p2⟩ := h2 hq; exact ⟨p1, by rw [p2]; ring⟩
    · obtain ⟨p1, -, p2⟩ := h3 hq; exact ⟨p1, by rw [p2]; ring⟩

/-- C54: the converted microgrid is usable.  With sensible parameters, penalties and a state of charge in the window,
    after any history of runs and resets, every control that gives each controllable module an acceptable action is
    executed as long as there is data, and the energy provided equals the energy absorbed. -/
theorem C54_usable (h : g.toModular false = .ok m) (hp : g.params.Good)
    (hs : g.params.socMin ≤ g.batterySoc ∧ g.batterySoc ≤ 1) (hl : 0 ≤ g.params.costLossLoad)
    (ho : 0 ≤ g.params.costOvergen) (ops : List GOp)
    (hlive : ∀ ni ∈ Container.toTuples m.cont.fullDict, ((runG m ops).heap ni.2).Live) (control : List (String × Ctrl))
    (n : Bool) (hctl : ∀ nl ∈ (runG m ops).cont.levelDict .controllable, ∃ c, dictGet? control nl.1 = some c ∧
      ∀ ia ∈ nl.2.zip c.acts, ((runG m ops).heap ia.1).Accepts ia.2 n) :
    ∃ m' o, (runG m ops).run control n = (m', .ok o) ∧ o.provided = o.absorbed := by
  obtain ⟨ms, e, hn, hc⟩ := toModular_ok h
  have hd : DistinctNames (place ms) (references ms) := distinct_of_names (by rw [references_names]; exact hn)
  have hperm := Container.full_perm hd
  have hcont := (Microgrid.create_ok hc).2.1
  have hlib : ∀ nm ∈ references ms, LibraryModule (place ms nm.2) ∧ (place ms nm.2).raiseErrors = false := by
    intro nm hnm
    have hin := List.mem_of_getElem? (mem_references hnm)
    rcases component_cases e hin with ⟨-, b⟩ | ⟨-, b⟩ | ⟨-, b⟩ | ⟨-, -, b⟩ | ⟨-, -, b⟩ | ⟨-, -, b⟩
    · obtain ⟨t, -, -, nw⟩ := load_inv b
      exact ⟨.series (.load b) (by simp [FKind.Works]), nw.raises⟩
    · simp only at b
      rw [b]
      exact ⟨.balancing hl ho, rfl⟩
    · obtain ⟨t, -, -, nw⟩ := pv_inv b
      exact ⟨.series (.renewable b) (by simp [FKind.Works]), nw.raises⟩
    · refine ⟨.battery b (battery_good hp hs b), ?_⟩
      obtain ⟨_, -, -, -, -, -, -, -, -, -, -, -, -, -, -, -, -, -, -, -, -, hr, -⟩ := mkBattery_inv b
      exact hr
    · refine ⟨.genset b (by rw [mul_comm]; exact hp.genset_min), ?_⟩
      obtain ⟨_, -, -, -, -, -, -, -, -, hr, -⟩ := mkGenset_inv b
      exact hr
    · obtain ⟨_, t, -, nw, -⟩ := grid_inv b
      exact ⟨.series (.grid (gridSeries_rect g) b) (by simp [FKind.Works]), nw.raises⟩
  have hbal : ∃ nm ∈ references ms, ∃ u, (place ms nm.2).kind = .balancing u := by
    obtain ⟨y, hy, hin⟩ := component_mem e (mem_balancing g false)
    injection hy with hy
    obtain ⟨i, hi, hpl⟩ := references_of hin
    exact ⟨_, hi, _, by simp only; rw [hpl, ← hy]; rfl⟩
  obtain ⟨m', o, hr⟩ := C19_run_succeeds hc (fun nm hnm => (hlib nm hnm).1) hbal (references_ids ms)
    (fun nm hnm => (hlib nm hnm).2) (by simp) ops
    (fun nm hnm => hlive nm (by rw [hcont]; exact hperm.symm.subset hnm)) control n hctl
  exact ⟨m', o, hr, C18_energy_balance hc (fun nm hnm => (hlib nm hnm).1) hbal ops control n m' o hr⟩

/-- C54: every generated microgrid with a full year of data (if it has a grid) and non-negative emissions can be converted,
    and its battery keeps the window it had: the capacity is the maximal state of charge. -/
theorem C54_generated {d : Generator.Draws} (hv : d.Valid) (hco : ∀ y ∈ d.co2, 0 ≤ y)
    (hy : d.arch.grid = true → d.load.length = 8760) (hg : d.create = .ok g) :
    ∃ m, g.toModular r = .ok m ∧ Converted g r m ∧ g.params.socMax = 1 ∧
      g.params.socMin ≤ g.batterySoc ∧ g.batterySoc ≤ g.params.socMax := by
  obtain ⟨hgood, hpeak, -, hpvpeak, -, ⟨s1, s2, s3⟩, -⟩ := Generator.C55_sizes hv hg
  obtain ⟨g', row, h', h1, h2, h3, h4, h5, h6, h7, h8, -, -, -, -, hgr, -⟩ := Generator.create_spec hv
  rw [hg] at h'
  injection h' with h'
  subst h'
  have hll : g.loads.length = d.load.length := by
    rw [h3]; unfold Generator.Draws.loads Generator.scaleMax; rw [List.length_map]
  have hpl : g.pvs.length = d.load.length := by
    rw [h4]; unfold Generator.Draws.pvs Generator.scaleMax; rw [List.length_map, hv.pv_rows]
  obtain ⟨t1, t2⟩ := Generator.tariff_length hv.scenario
  have ha : g.Aligned := by
    intro hb
    rw [h1] at hb
    obtain ⟨a1, a2, a3, a4⟩ := hgr hb
    rw [a1, a2, a3, a4, Generator.statuses_length hv, hv.co2_rows, hy hb]
    exact ⟨t1, t2, rfl⟩
  have hconv : g.Convertible := by
    refine ⟨?_, .inr ?_, .inr ?_, by rw [hll, hpl], fun _ => ⟨hgood.eff, hgood.eff_le, hgood.capacity.ne'⟩, fun _ => ?_,
      fun _ => ⟨hgood.imp, hgood.exp⟩, fun hb => ?_, fun hb => ?_, fun hb => ?_⟩
    · intro h0
      have := hv.rows.1
      rw [← hll, h0] at this
      simp at this
    · rw [h3]
      exact Generator.scaleMax_nonneg (fun x hx => (hv.load x hx).le) (by positivity)
    · have := hpvpeak.1
      rw [h4]
      refine Generator.scaleMax_nonneg hv.pv (mul_nonneg ?_ (by positivity))
      have hm := Generator.maxOf_peak (l := d.loads) (by
        intro h0
        rw [← h3] at h0
        rw [h0] at hll
        have := hv.rows.1
        rw [← hll] at this
        simp at this)
      exact Generator.scaleMax_nonneg (fun x hx => (hv.load x hx).le) (by positivity) _ hm.1
    · have := hgood.genset_max; rw [mul_comm g.params.pmin, mul_comm g.params.pmax]; exact this
    · rw [h1] at hb
      rw [(hgr hb).1, Generator.statuses_length hv, hll, hy hb]
    · rw [h1] at hb
      obtain ⟨a1, a2, a3, a4⟩ := hgr hb
      rw [a2, a3, a4]
      exact ⟨(Generator.tariff_nonneg _).1, (Generator.tariff_nonneg _).2, hco⟩
    · rw [h1] at hb
      rw [(hgr hb).1]
      exact Generator.statuses_binary d
  obtain ⟨m, hm⟩ := (C54_accepted_iff (r := r) ha).mpr hconv
  refine ⟨m, hm, C54_components_partial ha hm, by rw [h2]; rfl, by rw [s3]; exact s1, by rw [s3]; exact s2⟩

/-- C54: the state of charge handed over is the recorded one, if the last call was a reset or a run that did not end the
    episode. -/
theorem C54_state {g₀ : Grid} (hlast : g₀.reset = (g, .ok ()) ∨ ∃ c row, g₀.run c = (g, .ok row) ∧ g.done = false)
    (ha : g.Aligned) (h : g.toModular r = .ok m) (hb : g.arch.battery = true) :
    ∃ x, m.modulesOf "battery" = [x] ∧ x.soc? = some g.soc ∧ x.charge? = some (g.soc * g.params.capacity) := by
  have hs : g.batterySoc = g.soc := by
    rcases hlast with h | ⟨c, row, h, hd⟩
    · exact reset_batterySoc h
    · exact run_batterySoc h hd
  obtain ⟨x, b, h1, h2, -, -, -, -, -, -, -, -, h3, h4⟩ := (C54_components_partial ha h).battery hb
  exact ⟨x, h1, by unfold soc?; rw [h2]; simp only; rw [h3, hs], by unfold charge?; rw [h2]; simp only; rw [h4, hs]⟩

/-! ### Violations and examples -/

/-- The example microgrid with a maximal state of charge of 9/10. -/
def demoWindow : Grid := { demo true with params := { demoParams with socMax := 9/10 } }

/-- The converted microgrid of a legacy microgrid (examples only). -/
def converted (g : Grid) : Microgrid := okGrid (g.toModular false)

theorem demo_converts : (demo true).toModular false = .ok (converted (demo true)) := okGrid_eq (by decide +kernel)
theorem demoWindow_converts : demoWindow.toModular false = .ok (converted demoWindow) := okGrid_eq (by decide +kernel)

/-- C54 is violated: the maximal state of charge is dropped.  The legacy battery may hold 90 of 100 units and, at 50, is
    never charged above; the module of the converted microgrid is charged to 95 in two steps. -/
theorem C54_soc_max_ignored :
    demoWindow.params.socMax * demoWindow.params.capacity = 90 ∧ demoWindow.batterySoc = 1/2 ∧
    ∃ x, (converted demoWindow).modulesOf "battery" = [x] ∧
      (runOps x [.step (.num (-1000)) false, .step (.num (-(200/9))) false]).charge? = some 95 := by
  refine ⟨by decide +kernel, by decide +kernel, ?_⟩
  obtain ⟨x, b, h1, -⟩ := (C54_components_partial (g := demoWindow) (fun _ => by decide +kernel) demoWindow_converts).battery (by decide +kernel)
  refine ⟨x, h1, ?_⟩
  have hx := battery_of demoWindow_converts (by decide +kernel) h1
  have : x = okModule (demoWindow.batteryModule false) := by rw [hx]; rfl
  rw [this]
  decide +kernel

/-- C54 is violated: after the run that ends the episode the attribute `battery.soc` is not updated, so the module starts
    at the state of charge of the step before (here 1/2 instead of 29/40; the last of four runs charges 25 units). -/
theorem C54_stale_soc :
    let c : Control := ⟨some 0, some 0, some 0, some 0, some 0⟩
    let g := after (demo true) [.run c, .run c, .run { c with exp := some 5 }, .run ⟨some 25, some 0, some 0, some 0, some 0⟩]
    g.done = true ∧ g.soc = 29/40 ∧
      ∃ x, (converted g).modulesOf "battery" = [x] ∧ x.soc? = some (1/2) := by
  intro c g
  have hc : g.toModular false = .ok (converted g) := okGrid_eq (by decide +kernel)
  obtain ⟨x, b, h1, h2, -, -, -, -, -, -, -, -, h3, -⟩ := (C54_components_partial (fun _ => by decide +kernel) hc).battery (by decide +kernel)
  refine ⟨by decide +kernel, by decide +kernel, x, h1, ?_⟩
  unfold soc?
  rw [h2]
  simp only
  rw [h3]
  decide +kernel

/-- Non-vacuity: the example microgrid is aligned and can be converted, with all six modules; its load module meets 60
    units, the grid is down in the second step. -/
example : (demo true).Aligned ∧ (demo true).Convertible :=
  ⟨fun _ => by decide +kernel, (C54_accepted_iff (r := false) fun _ => by decide +kernel).mp ⟨_, demo_converts⟩⟩
example : ["load", "unbalanced_energy", "PV", "battery", "genset", "grid", "x"].map
    (fun n => ((converted (demo true)).modulesOf n).length) = [1, 1, 1, 1, 1, 1, 0] := by decide +kernel
example : ["load", "unbalanced_energy", "PV", "battery", "genset", "grid"].map
    (fun n => ((converted (demo false)).modulesOf n).length) = [1, 1, 1, 1, 1, 0] := by decide +kernel

/-- Non-vacuity of `C54_usable` and `C54_battery_tracks`: a first run discharges 18 units, a second one the remaining 9;
    the grid is down in the second run, and both balance. -/
example :
    let control : List (String × Ctrl) :=
      [("battery", .seq [.num 18]), ("genset", .seq [.arr [1, 50]]), ("grid", .seq [.num 10])]
    let m := runG (converted (demo true)) [.run control false]
    (m.run control false).2.toOption.map (fun o => (o.provided, o.absorbed)) = some (59, 59) ∧
      (m.modulesOf "battery").map charge? = [some 30] ∧
      ((m.run control false).1.modulesOf "battery").map charge? = [some 20] := by decide +kernel

end

end Pymgrid.Legacy
