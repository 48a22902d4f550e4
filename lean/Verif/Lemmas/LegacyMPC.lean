import Verif.Lemmas.MPC
import Verif.Lemmas.LegacyRBC
import Verif.Spec.LegacyMPC

set_option autoImplicit false

/-! # Lemmas: model predictive control of a legacy microgrid -/

namespace Pymgrid.MPC

open Legacy

theorem slice_getD (l : List ℚ) (i : Nat) {j h : Nat} (hj : j < h) : (slice l i h).getD j 0 = l.getD (i + j) 0 := by
  unfold slice
  rw [List.getD_eq_getElem?_getD, List.getElem?_take, if_pos hj, List.getElem?_drop, List.getD_eq_getElem?_getD]

theorem getD_all {l : List ℚ} {q : ℚ → Prop} (h : ∀ x ∈ l, q x) (h0 : q 0) (i : Nat) : q (l.getD i 0) := by
  rw [List.getD_eq_getElem?_getD]
  cases hi : l[i]? with
  | none => exact h0
  | some x => exact h x (List.mem_of_getElem? hi)

theorem legacyProblem_good {g : Grid} (h : Usual g) (i : Nat) (soc : ℚ) : (legacyProblem g i soc).Good := by
  have hp := h.params
  have e1 : g.params.pmin * g.params.rated = g.params.rated * g.params.pmin := mul_comm _ _
  have e2 : g.params.pmax * g.params.rated = g.params.rated * g.params.pmax := mul_comm _ _
  constructor
  · exact ⟨hp.eff, hp.eff_le⟩
  · exact hp.capacity
  · exact h.socMin
  · exact hp.charge
  · exact hp.discharge
  · show 0 ≤ (if g.arch.grid then g.params.pImport else 0)
    split
    · exact hp.imp
    · exact le_rfl
  · show 0 ≤ (if g.arch.grid then g.params.pExport else 0)
    split
    · exact hp.exp
    · exact le_rfl
  · show 0 ≤ (if g.arch.genset then g.params.pmin * g.params.rated else 0)
    split
    · rw [e1]; exact hp.genset_min
    · exact le_rfl
  · show (if g.arch.genset then g.params.pmin * g.params.rated else 0) ≤
      (if g.arch.genset then g.params.pmax * g.params.rated else 0)
    split
    · rw [e1, e2]; exact hp.genset_max
    · exact le_rfl
  · intro j hj
    replace hj : j < g.horizon := hj
    show 0 ≤ (slice g.loads i g.horizon).getD j 0
    rw [slice_getD _ _ hj]
    exact getD_all (q := fun x => 0 ≤ x) h.loads le_rfl _
  · intro j hj
    replace hj : j < g.horizon := hj
    show 0 ≤ (slice g.pvs i g.horizon).getD j 0
    rw [slice_getD _ _ hj]
    exact getD_all (q := fun x => 0 ≤ x) h.pvs le_rfl _
  · intro j hj
    replace hj : j < g.horizon := hj
    show (if g.arch.grid then slice g.statuses i g.horizon else List.replicate g.horizon 0).getD j 0 = 0 ∨
      (if g.arch.grid then slice g.statuses i g.horizon else List.replicate g.horizon 0).getD j 0 = 1
    split
    · rw [slice_getD _ _ hj]
      exact getD_all (q := fun x => x = 0 ∨ x = 1) h.statuses (.inl rfl) _
    · left
      rw [List.getD_eq_getElem?_getD, List.getElem?_replicate]
      split <;> rfl

theorem clamp_mid {lo hi x : ℚ} (h1 : lo ≤ x) (h2 : x ≤ hi) : clamp lo hi x = x := by
  unfold clamp
  rw [min_eq_left h2, max_eq_right h1]

theorem clamp_min {hi x : ℚ} (h1 : 0 ≤ x) (h2 : 0 ≤ hi) : clamp 0 hi x = min x hi := by
  unfold clamp
  rw [max_eq_right (le_min h1 h2)]

/-- The controls extracted from a feasible point are executed as planned, up to the limits of the battery. -/
theorem control_executes {g : Grid} (h : Usual g) {i : Nat} {soc : ℚ} {x : Point} {on : ℚ} {e : Entry}
    (ok : StepOK (legacyProblem g i soc) 0 soc on (x.flow g.arch.genset 0))
    (he : e.Executes g.arch g.params soc (control (legacyProblem g i soc) x 0)) : let f := x.flow g.arch.genset 0
    e.genset = f.genset ∧ e.imp = f.imp ∧ e.exp = f.exp ∧ e.charge = min f.charge (g.params.chargeLimit soc) ∧
      e.discharge = min f.discharge (g.params.dischargeLimit soc) := by
  have hp := h.params
  have hc : (control (legacyProblem g i soc) x 0).charge = some (x.flow g.arch.genset 0).charge ∧
      (control (legacyProblem g i soc) x 0).discharge = some (x.flow g.arch.genset 0).discharge ∧
      (control (legacyProblem g i soc) x 0).imp = some (x.flow g.arch.genset 0).imp ∧
      (control (legacyProblem g i soc) x 0).exp = some (x.flow g.arch.genset 0).exp ∧
      (g.arch.genset = true → (control (legacyProblem g i soc) x 0).genset = some (x.flow g.arch.genset 0).genset) := by
    have hg : (legacyProblem g i soc).genset = g.arch.genset := rfl
    unfold control Point.flow
    rw [hg]
    cases g.arch.genset <;> simp
  generalize control (legacyProblem g i soc) x 0 = c at he hc
  obtain ⟨c1, c2, c3, c4, c5⟩ := hc
  simp only
  have hst := (legacyProblem_good h i soc).grid 0 h.horizon
  generalize x.flow g.arch.genset 0 = f at *
  refine ⟨?_, ?_, ?_, ?_, ?_⟩
  · have hk := ok.genset
    have hg : (legacyProblem g i soc).genset = g.arch.genset := rfl
    rw [hg] at hk
    cases ha : g.arch.genset with
    | false => rw [ha] at hk; rw [he.noGenset ha]; simpa using hk.symm
    | true =>
      have h1 := he.genset ha
      rw [c5 ha] at h1
      have h1 := Option.some.inj h1
      simp only at h1
      rw [ha] at hk
      simp only [if_true] at hk
      have m1 : (legacyProblem g i soc).static.gensetMin = g.params.rated * g.params.pmin := by
        simp only [legacyProblem, parseLegacy, ha, if_true]; ring
      have m2 : (legacyProblem g i soc).static.gensetMax = g.params.rated * g.params.pmax := by
        simp only [legacyProblem, parseLegacy, ha, if_true]; ring
      rw [m1, m2] at hk
      have g1 := hp.genset_min
      have g2 := hp.genset_max
      rw [← h1]
      rcases hk with ⟨-, k, -⟩ | ⟨-, k1, k2, k3⟩
      · rw [k, if_neg (by norm_num), clamp_mid le_rfl (by linarith)]
      · split
        · exact clamp_mid k2 k3
        · exact clamp_mid k1 k3
  · cases ha : g.arch.grid with
    | false =>
      rw [(he.noGrid ha).1]
      have a0 := ok.imp.1
      have a1 := ok.imp.2
      have : (legacyProblem g i soc).inputs.pImport = 0 := by simp [legacyProblem, ha]
      rw [this, zero_mul] at a1
      linarith
    | true =>
      have h1 := he.imp ha
      rw [c3] at h1
      have h1 := Option.some.inj h1
      rw [← h1]
      have a1 := ok.imp.2
      have : (legacyProblem g i soc).inputs.pImport = g.params.pImport := by simp [legacyProblem, ha]
      rw [this] at a1
      refine clamp_mid ok.imp.1 ?_
      have := hp.imp
      rcases hst with q | q <;> rw [q] at a1 <;> linarith
  · cases ha : g.arch.grid with
    | false =>
      rw [(he.noGrid ha).2]
      have a0 := ok.exp.1
      have a1 := ok.exp.2
      have : (legacyProblem g i soc).inputs.pExport = 0 := by simp [legacyProblem, ha]
      rw [this, zero_mul] at a1
      linarith
    | true =>
      have h1 := he.exp ha
      rw [c4] at h1
      have h1 := Option.some.inj h1
      rw [← h1]
      have a1 := ok.exp.2
      have : (legacyProblem g i soc).inputs.pExport = g.params.pExport := by simp [legacyProblem, ha]
      rw [this] at a1
      refine clamp_mid ok.exp.1 ?_
      have := hp.exp
      rcases hst with q | q <;> rw [q] at a1 <;> linarith
  · have h1 := he.charge h.battery
    rw [c1] at h1
    have h1 := Option.some.inj h1
    rw [← h1]
    exact clamp_min ok.charge.1 (le_min hp.charge (le_max_left _ _))
  · have h1 := he.discharge h.battery
    rw [c2] at h1
    have h1 := Option.some.inj h1
    rw [← h1]
    exact clamp_min ok.discharge.1 (le_min hp.discharge (le_max_left _ _))

theorem settle_exact {r v : ℚ} {w : PvRow} (h : settle r v = .ok w) (hw : 0 < w.lossLoad + w.overgen) :
    w.consumed + w.lossLoad = r + w.overgen := by
  unfold settle at h
  split_ifs at h <;> injection h with h <;> subst h <;> simp only at hw ⊢ <;> linarith

/-- One iteration: the only way to fail is the assertion in `_record_production`, when nothing is required of PV although
    there is some. -/
theorem legacyStep_followed {solve : Solver} (hs : solve.Sound) {g : Grid} (h : Usual g) {b : Baseline} {i : Nat}
    (hi : i + 1 < g.dataLength) (hw : g.params.socMin ≤ b.soc ∧ b.soc ≤ g.params.socMax) :
    ∃ x, solve (legacyProblem g i b.soc) = some x ∧ Admissible (legacyProblem g i b.soc) (x.flow g.arch.genset) x.u ∧
      ((legacyStep solve g b i = .error .assertion ∧ NoPvNeeded g i b.soc (x.flow g.arch.genset 0)) ∨
      ∃ b' e load pv row, legacyStep solve g b i = .ok b' ∧ Followed g i b b' e load pv row (x.flow g.arch.genset 0) ∧
        ¬ NoPvNeeded g i b.soc (x.flow g.arch.genset 0)) := by
  have hp := h.params
  have hd : g.dataLength = min g.loads.length g.pvs.length := rfl
  have i1 : i < g.loads.length := by omega
  have i2 : i < g.pvs.length := by omega
  have i3 : i + 1 < g.loads.length := by omega
  have i4 : i + 1 < g.pvs.length := by omega
  have e1 : g.loads[i]? = some g.loads[i] := List.getElem?_eq_getElem i1
  have e2 : g.pvs[i]? = some g.pvs[i] := List.getElem?_eq_getElem i2
  have e3 : g.loads[i + 1]? = some g.loads[i + 1] := List.getElem?_eq_getElem i3
  have e4 : g.pvs[i + 1]? = some g.pvs[i + 1] := List.getElem?_eq_getElem i4
  have hpv' : 0 ≤ g.pvs[i] := h.pvs _ (List.getElem_mem i2)
  obtain ⟨now, hnow, hdata⟩ : ∃ now, (if g.arch.grid then g.gridAt i else .ok ⟨0, 0, 0, 0⟩) = .ok now ∧
      (g.arch.grid = true → g.GridData i now) := by
    cases hg : g.arch.grid with
    | false => exact ⟨⟨0, 0, 0, 0⟩, rfl, fun h => by simp at h⟩
    | true =>
      obtain ⟨row, hr⟩ := Grid.gridAt_total h.series hg (i := i) (by omega)
      exact ⟨row, by simpa using hr, fun _ => Grid.gridAt_ok.mp hr⟩
  obtain ⟨next, hnext⟩ : ∃ next, (if g.arch.grid then g.gridAt (i + 1) else .ok ⟨0, 0, 0, 0⟩) = .ok next := by
    cases hg : g.arch.grid with
    | false => exact ⟨⟨0, 0, 0, 0⟩, rfl⟩
    | true =>
      obtain ⟨row, hr⟩ := Grid.gridAt_total h.series hg (i := i + 1) hi
      exact ⟨row, by simpa using hr⟩
  obtain ⟨x, hx, hadm⟩ : ∃ x, solve (legacyProblem g i b.soc) = some x ∧
      Admissible (legacyProblem g i b.soc) (x.flow g.arch.genset) x.u := by
    obtain ⟨y, hy⟩ := exists_feasible (legacyProblem_good h i b.soc) hw
    obtain ⟨x, hx⟩ := hs.complete _ y hy
    exact ⟨x, hx, (feasible_iff _ x).mp (hs.feasible _ x hx)⟩
  refine ⟨x, hx, hadm, ?_⟩
  have ok := hadm 0 h.horizon
  have hcomp : (control (legacyProblem g i b.soc) x 0).Complete g.arch := by
    have hg : (legacyProblem g i b.soc).genset = g.arch.genset := rfl
    unfold control
    rw [hg]
    cases hq : g.arch.genset
    · exact ⟨fun _ => ⟨rfl, rfl⟩, fun _ => ⟨rfl, rfl⟩, fun q => by rw [hq] at q; simp at q⟩
    · exact ⟨fun _ => ⟨rfl, rfl⟩, fun _ => ⟨rfl, rfl⟩, fun _ => rfl⟩
  have hsoc : (b.states.getLast?.map (·.soc)).getD 0 = b.soc := rfl
  obtain ⟨ch, di, im, ex, ge, hk, hq⟩ := record_eq g.arch g.params g.loads[i] g.pvs[i] b.soc b.production hcomp
  cases hse : settle (g.loads[i] + ch + ex - (di + im + ge)) g.pvs[i] with
  | error er =>
    left
    have : er = .assertion := by
      unfold settle at hse
      split_ifs at hse
      exact (Except.error.inj hse).symm
    subst this
    obtain ⟨q1, q2⟩ := settle_fails.mp ⟨_, hse⟩
    obtain ⟨k1, k2, k3, k4, k5⟩ := control_executes h ok ((hk ⟨0, 0, 0, 0⟩).executes hp)
    simp only at k1 k2 k3 k4 k5
    rw [hse] at hq
    simp only at hq
    refine ⟨?_, _, _, e1, e2, q2, by rw [← k1, ← k2, ← k3, ← k4, ← k5]; linarith⟩
    unfold legacyStep
    rw [e1, e2, e3, e4]
    simp only
    rw [hnow, hnext]
    simp only
    rw [hsoc, hx]
    simp only [hq]
  | ok w =>
    right
    rw [hse] at hq
    simp only at hq
    obtain ⟨-, e, hk, hr, hse⟩ := record_ok hq
    obtain ⟨s1, s2, s3, s4, s5, s6⟩ := settle_spec hpv' hse
    obtain ⟨k1, k2, k3, k4, k5⟩ := control_executes h ok (hk.executes hp)
    generalize hr' : ({ Entry.put ⟨ch, di, im, ex, ge, 0, 0, 0, 0⟩ g.arch b.production with
      pv := b.production.pv ++ [w] } : Production) = r at hq hr
    have hstep : ∃ b', legacyStep solve g b i = .ok b' ∧ b'.production = r ∧
        (∃ row, b'.states = b.states ++ [row] ∧ row.load = g.loads[i + 1]? ∧ row.pv = g.pvs[i + 1]? ∧
          row.soc = b.soc + (e.charge * g.params.eff - e.discharge / g.params.eff) / g.params.capacity) ∧
        b'.costs = b.costs ++ [costRow g.arch g.params ⟨e.charge, e.discharge, e.imp, e.exp, e.genset,
            ⟨e.consumed, e.lossLoad, e.curtailed, e.overgen⟩⟩
          (co2Of g.arch g.params ⟨e.charge, e.discharge, e.imp, e.exp, e.genset,
            ⟨e.consumed, e.lossLoad, e.curtailed, e.overgen⟩⟩ now.co2) now.priceImport now.priceExport] ∧
        b'.co2.length = b.co2.length + 1 := by
      unfold legacyStep
      rw [e1, e2, e3, e4]
      simp only
      rw [hnow, hnext]
      simp only
      rw [hsoc, hx]
      simp only
      rw [hq]
      simp only [Recorded.last hr]
      refine ⟨_, rfl, rfl, ⟨_, rfl, rfl, rfl, ?_⟩, rfl, by simp⟩
      unfold nextRow
      simp only [h.battery, if_true]
    obtain ⟨b', hb', hpr, ⟨row, w1, w2, w3, w4⟩, w5, w6⟩ := hstep
    have hn : ¬ NoPvNeeded g i b.soc (x.flow g.arch.genset 0) := by
      rintro ⟨load, pv, q1, q2, q3, q4⟩
      rw [e1] at q1
      rw [e2] at q2
      obtain rfl := Option.some.inj q1
      obtain rfl := Option.some.inj q2
      rw [← k1, ← k2, ← k3, ← k4, ← k5] at q4
      obtain ⟨er, her⟩ := settle_fails.mpr ⟨show g.loads[i] + e.charge + e.exp - (e.discharge + e.imp + e.genset) = 0 by
        linarith, q3⟩
      rw [hse] at her
      simp at her
    refine ⟨b', e, g.loads[i], g.pvs[i], row, hb', ?_, hn⟩
    have hz : 0 < g.horizon := h.horizon
    have hprice : g.arch.grid = true →
        (legacyProblem g i b.soc).inputs.importPrice.getD 0 0 = now.priceImport ∧
        (legacyProblem g i b.soc).inputs.exportPrice.getD 0 0 = now.priceExport ∧
        (legacyProblem g i b.soc).inputs.gridCo2.getD 0 0 = now.co2 ∧
        (legacyProblem g i b.soc).inputs.grid.getD 0 0 = now.status := by
      intro hg
      obtain ⟨d1, d2, d3, d4⟩ := hdata hg
      simp only [legacyProblem, hg, if_true]
      rw [slice_getD _ _ hz, slice_getD _ _ hz, slice_getD _ _ hz, slice_getD _ _ hz]
      simp only [Nat.add_zero, List.getD_eq_getElem?_getD, d1, d2, d3, d4, Option.getD_some, and_self]
    refine ⟨⟨e1, e2, by rw [hpr]; exact hr, (hk.within hp).1, ?_, w1, w2, w3, ?_, by rw [w5]; simp, w6⟩,
      ⟨_, ok⟩, k1, k2, k3, k4, k5, fun hpos => by have := settle_exact hse hpos; simp only at this; linarith, ?_, ⟨_, w5, ?_⟩⟩
    · refine ⟨?_, s2, s3, s4, s5, s6⟩
      have : e.discharge + e.imp + e.genset + e.consumed + e.lossLoad - (g.loads[i] + e.charge + e.exp + e.overgen) =
          e.consumed + e.lossLoad - (g.loads[i] + e.charge + e.exp - (e.discharge + e.imp + e.genset) + e.overgen) := by ring
      rw [this]
      exact s1
    · intro _
      rw [w4]
      have := hp.capacity
      have := hp.eff
      field_simp
      ring
    · intro hg h0
      obtain ⟨-, -, -, p4⟩ := hprice hg
      obtain ⟨d1, -⟩ := hdata hg
      rw [d1] at h0
      have h0 := Option.some.inj h0
      rw [h0] at p4
      have a := ok.imp
      have a' := ok.exp
      rw [p4, mul_zero] at a a'
      rw [k2, k3]
      exact ⟨le_antisymm a.2 a.1, le_antisymm a'.2 a'.1⟩
    · have st : (legacyProblem g i b.soc).static = parseLegacy g.arch g.params := rfl
      have sc : (legacyProblem g i b.soc).inputs.costCo2 = g.params.costCo2 := rfl
      unfold billed executed
      rw [st, sc]
      cases hg : g.arch.grid with
      | false =>
        obtain ⟨n1, n2⟩ := hr.noGrid hg
        cases hge : g.arch.genset with
        | false =>
          have n3 := hr.noGenset hge
          simp only [costRow, costsOf, co2Of, hg, hge, h.battery, parseLegacy, n1, n2, n3]
          simp
          ring
        | true =>
          simp only [costRow, costsOf, co2Of, hg, hge, h.battery, parseLegacy, n1, n2]
          simp
          ring
      | true =>
        obtain ⟨p1, p2, p3, -⟩ := hprice hg
        rw [p1, p2, p3]
        cases hge : g.arch.genset with
        | false =>
          have n3 := hr.noGenset hge
          simp only [costRow, costsOf, co2Of, hg, hge, h.battery, parseLegacy, n3]
          simp
          ring
        | true =>
          simp only [costRow, costsOf, co2Of, hg, hge, h.battery, parseLegacy]
          simp
          ring

end Pymgrid.MPC
