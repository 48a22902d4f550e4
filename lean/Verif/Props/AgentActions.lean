import Verif.Model.AgentActions
import Verif.Props.Legacy
import Mathlib.Tactic.Linarith
import Mathlib.Tactic.IntervalCases

set_option autoImplicit false

/-!
# C117: discrete actions of the deprecated environments are feasible controls
-/

namespace Pymgrid.Legacy

/-- Specification: a microgrid with sensible data. -/
structure AgentView.Sound (v : AgentView) : Prop where
  params : v.params.Good
  load : 0 ≤ v.load
  pv : 0 ≤ v.pv
  status : v.status = 0 ∨ v.status = 1
  charge : 0 ≤ v.capaCharge
  discharge : 0 ≤ v.capaDischarge

/-- Specification: nothing negative, the battery within its limits and not in both directions, no more PV than there is. -/
structure AgentView.Feasible (v : AgentView) (c : AgentControl) : Prop where
  pv : 0 ≤ c.pvConsumed ∧ c.pvConsumed ≤ v.pv ∧ c.pvConsumed ≤ v.load + c.charge
  charge : 0 ≤ c.charge ∧ c.charge ≤ v.capaCharge ∧ c.charge ≤ v.params.pCharge
  discharge : 0 ≤ c.discharge ∧ c.discharge ≤ v.capaDischarge ∧ c.discharge ≤ v.params.pDischarge
  battery : c.charge = 0 ∨ c.discharge = 0
  imp : 0 ≤ c.imp
  exp : 0 ≤ c.exp
  grid : c.imp = 0 ∨ c.exp = 0
  genset : 0 ≤ c.genset

/-- Specification: the energy that a control provides and the energy that it needs. -/
def AgentView.Balanced (v : AgentView) (c : AgentControl) : Prop := c.pvConsumed + c.discharge + c.imp + c.genset = v.load + c.charge

section
variable {v : AgentView}

private theorem chargePv_spec (h : v.Sound) :
    0 ≤ v.chargePv ∧ v.chargePv ≤ v.capaCharge ∧ v.chargePv ≤ v.params.pCharge ∧ v.chargePv ≤ max 0 (v.pv - v.load) := by
  have h1 := h.charge
  have h2 := h.params.charge
  have e : -(v.load - v.pv) = v.pv - v.load := by ring
  unfold AgentView.chargePv
  rw [e]
  refine ⟨le_max_left _ _, max_le h1 ?_, max_le h2 (min_le_right _ _), max_le_max le_rfl ?_⟩
  · exact (min_le_left _ _).trans (min_le_right _ _)
  · exact (min_le_left _ _).trans (min_le_left _ _)

private theorem chargeGrid_spec (h : v.Sound) :
    0 ≤ v.chargeGrid ∧ v.chargeGrid ≤ v.capaCharge ∧ v.chargeGrid ≤ v.params.pCharge := by
  unfold AgentView.chargeGrid
  exact ⟨le_max_left _ _, max_le h.charge (min_le_left _ _), max_le h.params.charge (min_le_right _ _)⟩

private theorem discharge_spec (h : v.Sound) :
    0 ≤ v.dischargeNet ∧ v.dischargeNet ≤ v.capaDischarge ∧ v.dischargeNet ≤ v.params.pDischarge ∧
    v.dischargeNet ≤ max 0 (v.load - v.pv) := by
  unfold AgentView.dischargeNet
  refine ⟨le_max_left _ _, max_le h.discharge ?_, max_le h.params.discharge (min_le_right _ _), max_le_max le_rfl ?_⟩
  · exact (min_le_left _ _).trans (min_le_right _ _)
  · exact (min_le_left _ _).trans (min_le_left _ _)

/-- All bounds of the parts of a control. -/
private theorem feasible_of (h : v.Sound) {c : AgentControl} (hp : c.pvConsumed = min v.pv (v.load + c.charge) ∨ c.pvConsumed = min v.pv v.load)
    (hc : c.charge = 0 ∨ c.charge = v.chargePv ∨ c.charge = v.chargeGrid) (hd : c.discharge = 0 ∨ c.discharge = v.dischargeNet)
    (hb : c.charge = 0 ∨ c.discharge = 0) (hi : 0 ≤ c.imp) (he : 0 ≤ c.exp) (hg : c.imp = 0 ∨ c.exp = 0) (hgen : 0 ≤ c.genset) :
    v.Feasible c := by
  obtain ⟨a1, a2, a3, -⟩ := chargePv_spec h
  obtain ⟨b1, b2, b3⟩ := chargeGrid_spec h
  obtain ⟨d1, d2, d3, -⟩ := discharge_spec h
  have hc' : 0 ≤ c.charge ∧ c.charge ≤ v.capaCharge ∧ c.charge ≤ v.params.pCharge := by
    rcases hc with e | e | e <;> rw [e]
    · exact ⟨le_rfl, h.charge, h.params.charge⟩
    · exact ⟨a1, a2, a3⟩
    · exact ⟨b1, b2, b3⟩
  have hd' : 0 ≤ c.discharge ∧ c.discharge ≤ v.capaDischarge ∧ c.discharge ≤ v.params.pDischarge := by
    rcases hd with e | e <;> rw [e]
    · exact ⟨le_rfl, h.discharge, h.params.discharge⟩
    · exact ⟨d1, d2, d3⟩
  have hl := h.load
  refine ⟨?_, hc', hd', hb, hi, he, hg, hgen⟩
  rcases hp with e | e <;> rw [e]
  · exact ⟨le_min h.pv (by linarith [hc'.1]), min_le_left _ _, min_le_right _ _⟩
  · exact ⟨le_min h.pv hl, min_le_left _ _, (min_le_right _ _).trans (by linarith [hc'.1])⟩

private theorem status_nonneg (h : v.Sound) : 0 ≤ v.status := by
  rcases h.status with e | e <;> norm_num [e]

/-- Charging from the grid never imports and exports at once. -/
private theorem grid_once (h : v.Sound) : max 0 (v.load + v.chargeGrid - min v.pv (v.load + v.chargeGrid)) = 0 ∨
    max 0 (v.pv - min v.pv (v.load + v.chargeGrid) - v.chargeGrid) = 0 := by
  have := (chargeGrid_spec h).1
  rcases le_total v.pv (v.load + v.chargeGrid) with hle | hle
  · right; rw [min_eq_left hle]; exact max_eq_left (by linarith)
  · left; rw [min_eq_right hle]; simp

/-- C117: every action gives a feasible control, in every state of every microgrid. -/
theorem C117_feasible (h : v.Sound) {a : Nat} {c : AgentControl} (hc : v.action a = .ok c) : v.Feasible c := by
  have hs := status_nonneg h
  have h0 : ∀ x : ℚ, 0 ≤ max 0 x := fun x => le_max_left _ _
  have hm : ∀ x : ℚ, 0 ≤ max 0 x * v.status := fun x => mul_nonneg (h0 x) hs
  unfold AgentView.action at hc
  split at hc
  · split at hc
    · unfold AgentView.actionGridGenset at hc
      simp only at hc
      split at hc <;> first | (injection hc with hc; subst hc) | (simp at hc)
      all_goals apply feasible_of h <;> simp [hs, mul_nonneg, abs_nonneg]
      have := grid_once h
      rcases this with e | e <;> simp_all
    · split at hc
      · unfold AgentView.actionGenset at hc
        simp only at hc
        split at hc <;> first | (injection hc with hc; subst hc) | (simp at hc)
        all_goals apply feasible_of h <;> simp
      · unfold AgentView.actionGrid at hc
        simp only at hc
        split at hc <;> first | (injection hc with hc; subst hc) | (simp at hc)
        all_goals apply feasible_of h <;> simp
        have := grid_once h
        rcases this with e | e <;> simp_all
  · simp at hc

/-- C117: the battery does exactly what the control says, since it is within the limits that `run` checks. -/
theorem C117_not_clipped (h : v.Sound) {soc : ℚ} (h1 : v.capaCharge = v.params.capaToCharge soc)
    (h2 : v.capaDischarge = v.params.capaToDischarge soc) {a : Nat} {c : AgentControl} (hc : v.action a = .ok c) :
    v.params.checkBattery c.charge c.discharge soc = (c.charge, c.discharge) := by
  have f := C117_feasible h hc
  obtain ⟨f1, f2, f3⟩ := f.charge
  obtain ⟨f4, f5, f6⟩ := f.discharge
  rw [h1] at f2
  rw [h2] at f5
  unfold Params.checkBattery
  simp only [not_lt.mpr f1, not_lt.mpr f4, if_false, gt_iff_lt, not_lt.mpr f2, not_lt.mpr f3, not_lt.mpr f5, not_lt.mpr f6, or_self]

/-- C117: every action of the action space has a control, and with a grid or a generator no other one does. -/
theorem C117_total (hb : v.arch.battery = true) (a : Nat) :
    (a < v.actionCount → ∃ c, v.action a = .ok c) ∧
    (v.arch.grid = true ∨ v.arch.genset = true → v.actionCount ≤ a → v.action a = .error .name) := by
  unfold AgentView.action AgentView.actionCount
  rw [if_pos hb]
  cases hg : v.arch.grid <;> cases hn : v.arch.genset <;>
    simp only [Bool.and_true, Bool.and_false, Bool.false_eq_true, if_true, if_false, Nat.add_zero, or_false,
      or_true, forall_const, IsEmpty.forall_iff, and_true, or_self, Nat.reduceAdd]
  · intro ha; unfold AgentView.actionGrid; interval_cases a <;> exact ⟨_, rfl⟩
  · refine ⟨fun ha => ?_, fun ha => ?_⟩ <;> unfold AgentView.actionGenset
    · interval_cases a <;> exact ⟨_, rfl⟩
    · match a, ha with | a + 3, _ => rfl
  · refine ⟨fun ha => ?_, fun ha => ?_⟩ <;> unfold AgentView.actionGrid
    · interval_cases a <;> exact ⟨_, rfl⟩
    · match a, ha with | a + 5, _ => rfl
  · refine ⟨fun ha => ?_, fun ha => ?_⟩ <;> unfold AgentView.actionGridGenset
    · interval_cases a <;> exact ⟨_, rfl⟩
    · match a, ha with | a + 7, _ => rfl

/-- Specification: the actions that are to serve the load: discharging, importing, charging from the grid and running the generator.
    With grid and generator those of the grid count only if it is up. -/
def AgentView.Serves (v : AgentView) (a : Nat) : Prop :=
  if v.arch.grid then
    if v.arch.genset then a = 4 ∨ a = 6 ∨ (v.status = 1 ∧ (a = 1 ∨ a = 2 ∨ a = 5)) else a = 1 ∨ a = 2 ∨ a = 4
  else v.arch.genset = true ∧ (a = 1 ∨ a = 2)

private theorem net_serves (h : v.Sound) : min v.pv v.load + v.dischargeNet + max 0 (v.load - min v.pv v.load - v.dischargeNet) = v.load := by
  obtain ⟨d1, -, -, d4⟩ := discharge_spec h
  rcases le_total v.pv v.load with hle | hle
  · rw [max_eq_right (by linarith)] at d4
    rw [min_eq_left hle, max_eq_right (by linarith)]; ring
  · rw [max_eq_left (by linarith)] at d4
    rw [min_eq_right hle, max_eq_left (by linarith)]; linarith

private theorem net_alone : min v.pv v.load + max 0 (v.load - v.pv) = v.load := by
  rcases le_total v.pv v.load with hle | hle
  · rw [min_eq_left hle, max_eq_right (by linarith)]; ring
  · rw [min_eq_right hle, max_eq_left (by linarith)]; ring

private theorem rest_alone (x : ℚ) : min v.pv x + max 0 (x - min v.pv x) = x := by
  rw [max_eq_right (by linarith [min_le_right v.pv x])]; ring

/-- C117: the actions that are to serve the load ask for exactly the energy that load and battery need. -/
theorem C117_serves_partial (h : v.Sound) {a : Nat} {c : AgentControl} (ha : v.Serves a) (hc : v.action a = .ok c) : v.Balanced c := by
  have n1 := net_serves h
  have n2 := net_alone (v := v)
  have n3 := rest_alone (v := v)
  unfold AgentView.action at hc
  unfold AgentView.Serves at ha
  split at hc
  · cases hg : v.arch.grid <;> cases hn : v.arch.genset <;> rw [hg, hn] at ha hc <;>
      simp only [Bool.and_true, Bool.and_false, Bool.false_eq_true, if_true, if_false, false_and, true_and] at ha hc
    · rcases ha with rfl | rfl <;> (simp only [AgentView.actionGenset, Except.ok.injEq] at hc; subst hc; unfold AgentView.Balanced; simp only)
      · linarith
      · linarith [n3 v.load]
    · rcases ha with rfl | rfl | rfl <;> (simp only [AgentView.actionGrid, Except.ok.injEq] at hc; subst hc; unfold AgentView.Balanced; simp only)
      · linarith
      · linarith
      · linarith [n3 (v.load + v.chargeGrid)]
    · rcases ha with rfl | rfl | ⟨hs, rfl | rfl | rfl⟩ <;>
        (simp only [AgentView.actionGridGenset, Except.ok.injEq] at hc; subst hc; unfold AgentView.Balanced; simp only)
      · rw [max_comm]; linarith
      · linarith
      · rw [hs]; linarith
      · rw [hs]; linarith
      · rw [hs]; linarith [n3 (v.load + v.chargeGrid)]
  · simp at hc

/-- What serving actions ask of components that do not exist, and of PV. -/
private theorem serves_extra (h : v.Sound) {a : Nat} {c : AgentControl} (ha : v.Serves a) (hc : v.action a = .ok c) :
    (v.arch.grid = false → c.imp = 0 ∧ c.exp = 0) ∧ (v.arch.genset = false → c.genset = 0) ∧ c.pvConsumed + c.exp ≤ v.pv := by
  have l := min_le_left v.pv v.load
  have key : min v.pv (v.load + v.chargeGrid) + max 0 (v.pv - min v.pv (v.load + v.chargeGrid) - v.chargeGrid) ≤ v.pv := by
    have h1 := (chargeGrid_spec h).1
    have h2 := min_le_left v.pv (v.load + v.chargeGrid)
    rcases le_total (v.pv - min v.pv (v.load + v.chargeGrid) - v.chargeGrid) 0 with hle | hle
    · rw [max_eq_left hle]; linarith
    · rw [max_eq_right hle]; linarith
  unfold AgentView.action at hc
  unfold AgentView.Serves at ha
  split at hc
  · cases hg : v.arch.grid <;> cases hn : v.arch.genset <;> rw [hg, hn] at ha hc <;>
      simp only [Bool.and_true, Bool.and_false, Bool.false_eq_true, if_true, if_false, false_and, true_and] at ha hc
    · rcases ha with rfl | rfl <;> (simp only [AgentView.actionGenset, Except.ok.injEq] at hc; subst hc; simp)
    · rcases ha with rfl | rfl | rfl <;> (simp only [AgentView.actionGrid, Except.ok.injEq] at hc; subst hc; simp)
      exact key
    · rcases ha with rfl | rfl | ⟨hs, rfl | rfl | rfl⟩ <;>
        (simp only [AgentView.actionGridGenset, Except.ok.injEq] at hc; subst hc; simp)
      rw [hs, mul_one]; exact key
  · simp at hc

/-- The control dict handed to `run`. -/
def AgentControl.control (c : AgentControl) : Control := ⟨some c.charge, some c.discharge, some c.imp, some c.exp, some c.genset⟩

/-- C117: a run of an action that is to serve the load does what the control says and loses no load, provided that grid and generator
    can deliver what they are asked for. -/
theorem C117_run_partial {g g' : Grid} {row : StateRow} (hb : g.arch.battery = true) (h : g.agentView.Sound)
    (h1 : g.agentView.capaCharge = g.params.capaToCharge g.soc) (h2 : g.agentView.capaDischarge = g.params.capaToDischarge g.soc) {a : Nat}
    {c : AgentControl} (ha : g.agentView.Serves a) (hc : g.agentView.action a = .ok c) (hi : c.imp ≤ g.params.pImport)
    (hmax : c.genset ≤ g.params.rated * g.params.pmax) (hmin : g.params.rated * g.params.pmin ≤ c.genset ∨ c.genset ≤ 1)
    (hr : g.run c.control = (g', .ok row)) :
    ∃ e : Entry, e.Recorded g.arch g.production g'.production ∧ e.charge = c.charge ∧ e.discharge = c.discharge ∧ e.imp = c.imp ∧
      e.genset = c.genset ∧ e.lossLoad = 0 := by
  obtain ⟨e, -, hk, hrec, hs, -⟩ := Grid.run_ok hr
  have f := C117_feasible h hc
  have bal := C117_serves_partial h ha hc
  obtain ⟨x1, x2, x3⟩ := serves_extra h ha hc
  obtain ⟨x, y, hx, hy, hB⟩ := hk.battery hb
  simp only [AgentControl.control, Option.some.injEq] at hx hy
  subst hx hy
  have nc := C117_not_clipped h h1 h2 hc
  have nc' : g.params.checkBattery c.charge c.discharge g.soc = (c.charge, c.discharge) := nc
  rw [nc', Prod.mk.injEq] at hB
  have hG : e.imp = c.imp ∧ e.exp ≤ c.exp := by
    cases hg : g.arch.grid with
    | false => rw [(hk.noGrid hg).1, (hk.noGrid hg).2, (x1 hg).1, (x1 hg).2]; exact ⟨rfl, le_rfl⟩
    | true =>
      obtain ⟨x, y, hx, hy, he⟩ := hk.grid hg
      simp only [AgentControl.control, Option.some.injEq] at hx hy
      subst hx hy
      unfold Params.checkGrid at he
      simp only [not_lt.mpr f.imp, not_lt.mpr f.exp, if_false, gt_iff_lt, not_lt.mpr hi, Prod.mk.injEq] at he
      refine ⟨he.1, ?_⟩
      rw [he.2]
      split
      · rename_i hlt; exact hlt.le
      · exact le_rfl
  have hN : e.genset = c.genset := by
    cases hn : g.arch.genset with
    | false => rw [hk.noGenset hn, x2 hn]
    | true =>
      obtain ⟨x, hx, he⟩ := hk.genset hn
      simp only [AgentControl.control, Option.some.injEq] at hx
      subst hx
      rw [he]
      unfold Params.checkGenset
      have : ¬ (c.genset < g.params.rated * g.params.pmin ∧ c.genset > 1) := by
        rintro ⟨q1, q2⟩
        rcases hmin with q | q <;> linarith
      simp only [not_lt.mpr f.genset, if_false, this, gt_iff_lt, not_lt.mpr hmax]
  refine ⟨e, hrec, hB.1, hB.2, hG.1, hN, ?_⟩
  have hreq : g.load + e.charge + e.exp - (e.discharge + e.imp + e.genset) ≤ g.pv := by
    rw [hB.1, hB.2, hG.1, hN]
    have hl : g.agentView.load = g.load := rfl
    have hp : g.agentView.pv = g.pv := rfl
    unfold AgentView.Balanced at bal
    rw [hl] at bal
    rw [hp] at x3
    linarith [hG.2]
  unfold settle at hs
  split at hs
  · simp only [Except.ok.injEq, PvRow.mk.injEq] at hs; exact hs.2.1.symm
  · split at hs
    · rename_i hgt; exact absurd hreq (not_le.mpr hgt)
    · split at hs
      · simp only [Except.ok.injEq, PvRow.mk.injEq] at hs; exact hs.2.1.symm
      · split at hs
        · simp only [Except.ok.injEq, PvRow.mk.injEq] at hs; exact hs.2.1.symm
        · simp at hs

/-- After a run the limits of the battery that the actions read are those that the next run checks. -/
theorem C117_limits {g g' : Grid} {row : StateRow} {c : Control} (hb : g.arch.battery = true) (hr : g.run c = (g', .ok row)) :
    g'.agentView.capaCharge = g'.params.capaToCharge g'.soc ∧ g'.agentView.capaDischarge = g'.params.capaToDischarge g'.soc ∧
    0 ≤ g'.agentView.capaCharge ∧ 0 ≤ g'.agentView.capaDischarge := by
  have fr := g.run_frame c
  rw [hr] at fr
  have hp : g'.params = g.params := fr.params
  obtain ⟨e, -, -, -, -, hrow, hst, -⟩ := Grid.run_ok hr
  have key : row.capaToCharge = g.params.capaToCharge row.soc ∧ row.capaToDischarge = g.params.capaToDischarge row.soc := by
    rw [hrow]
    unfold Grid.rowOf
    split <;> simp [nextRow, hb]
  simp only [Grid.agentView, Grid.soc, hst, List.getLast?_append, List.getLast?_singleton, Option.some_or, Option.map_some, Option.getD_some, hp]
  refine ⟨key.1, key.2, ?_, ?_⟩
  · rw [key.1]; exact le_max_right _ _
  · rw [key.2]; exact le_max_right _ _

/-- C117: with a grid that is up, action 0 stores or exports exactly the surplus of PV, and action 3 exports it. -/
theorem C117_surplus_partial (h : v.Sound) (hg : v.arch.grid = true) (hs : v.status = 1) {c : AgentControl} :
    (v.action 0 = .ok c → c.charge + c.exp = max 0 (v.pv - v.load) ∧ c.pvConsumed + c.charge + c.exp = v.pv) ∧
    (v.action 3 = .ok c → c.exp = max 0 (v.pv - v.load) ∧ c.pvConsumed + c.exp = v.pv) := by
  obtain ⟨c1, -, -, c4⟩ := chargePv_spec h
  have e1 : v.chargePv + max 0 (v.pv - min v.pv v.load - v.chargePv) = max 0 (v.pv - v.load) := by
    rcases le_total v.pv v.load with hle | hle
    · rw [max_eq_left (by linarith : v.pv - v.load ≤ 0)] at c4 ⊢
      rw [min_eq_left hle, max_eq_left (by linarith)]; linarith
    · rw [max_eq_right (by linarith : 0 ≤ v.pv - v.load)] at c4 ⊢
      rw [min_eq_right hle, max_eq_right (by linarith)]; ring
  have e2 : |min (v.load - v.pv) 0| = max 0 (v.pv - v.load) := by
    rcases le_total v.pv v.load with hle | hle
    · rw [min_eq_right (by linarith), max_eq_left (by linarith), abs_zero]
    · rw [min_eq_left (by linarith), max_eq_right (by linarith), abs_of_nonpos (by linarith)]; ring
  have e3 : min v.pv v.load + max 0 (v.pv - v.load) = v.pv := by
    rcases le_total v.pv v.load with hle | hle
    · rw [min_eq_left hle, max_eq_left (by linarith)]; ring
    · rw [min_eq_right hle, max_eq_right (by linarith)]; ring
  constructor <;> intro hc <;> unfold AgentView.action at hc <;> split at hc
  · cases hn : v.arch.genset <;> rw [hg, hn] at hc <;>
      simp only [Bool.and_true, Bool.false_eq_true, if_true, if_false, AgentView.actionGrid, AgentView.actionGridGenset, hs, mul_one,
        Except.ok.injEq] at hc <;> subst hc <;> exact ⟨e1, by linarith⟩
  · simp at hc
  · cases hn : v.arch.genset <;> rw [hg, hn] at hc <;>
      simp only [Bool.and_true, Bool.false_eq_true, if_true, if_false, AgentView.actionGrid, AgentView.actionGridGenset, hs, mul_one,
        Except.ok.injEq] at hc <;> subst hc <;> exact ⟨e2, by rw [e2]; exact e3⟩
  · simp at hc

/-- C117: with grid and generator, nothing is asked of a grid that is down. -/
theorem C117_down (hn : v.arch.genset = true) (hg : v.arch.grid = true) (hs : v.status = 0) {a : Nat} {c : AgentControl}
    (hc : v.action a = .ok c) : c.imp = 0 ∧ c.exp = 0 := by
  unfold AgentView.action at hc
  split at hc
  · simp only [hn, hg, Bool.and_true, if_true] at hc
    unfold AgentView.actionGridGenset at hc
    simp only [hs, mul_zero] at hc
    split at hc <;> first | (injection hc with hc; subst hc; exact ⟨rfl, rfl⟩) | (simp at hc)
  · simp at hc

/-- C117 is violated: without a generator an outage is ignored, and the grid that is down is asked for energy. -/
theorem C117_outage (hb : v.arch.battery = true) (hn : v.arch.genset = false) (hl : v.pv < v.load) :
    ∃ c, v.action 2 = .ok c ∧ c.imp = v.load - v.pv ∧ 0 < c.imp := by
  refine ⟨{ pvConsumed := min v.pv v.load, imp := max 0 (v.load - v.pv) }, ?_, ?_, ?_⟩
  · simp [AgentView.action, AgentView.actionGrid, hb, hn]
  · exact max_eq_right (by linarith)
  · exact lt_max_of_lt_right (by linarith)

/-- C117 is violated: with grid and generator, charging from the grid goes on during an outage, with energy that nothing provides. -/
theorem C117_charges_from_nothing (hb : v.arch.battery = true) (hn : v.arch.genset = true) (hg : v.arch.grid = true) (hs : v.status = 0)
    (hl : v.pv < v.load + v.chargeGrid) :
    ∃ c, v.action 5 = .ok c ∧ c.charge = v.chargeGrid ∧ c.pvConsumed + c.discharge + c.imp + c.genset < v.load + c.charge := by
  refine ⟨_, by simp only [AgentView.action, AgentView.actionGridGenset, hb, hn, hg, Bool.and_true, if_true]; rfl, rfl, ?_⟩
  simp only [hs, mul_zero, add_zero]
  rw [min_eq_left hl.le]
  exact hl

/-- C117 is violated: if PV covers load and battery, charging from the grid exports the rest less what was charged once more, so that
    energy is neither used, stored nor exported. -/
theorem C117_charged_twice (hb : v.arch.battery = true) (hn : v.arch.genset = false) (hg : v.arch.grid = true)
    (hc : 0 < v.chargeGrid) (hl : v.load + v.chargeGrid < v.pv) :
    ∃ c, v.action 4 = .ok c ∧ c.exp = max 0 (v.pv - v.load - 2 * c.charge) ∧ c.pvConsumed + c.exp < v.pv := by
  refine ⟨_, by simp only [AgentView.action, AgentView.actionGrid, hb, hn, hg, Bool.false_and, Bool.false_eq_true, if_true, if_false]; rfl, ?_, ?_⟩
  · simp only
    rw [min_eq_right hl.le]
    congr 1
    ring
  · simp only
    rw [min_eq_right hl.le]
    rcases le_total (v.pv - (v.load + v.chargeGrid) - v.chargeGrid) 0 with hle | hle
    · rw [max_eq_left hle]; linarith
    · rw [max_eq_right hle]; linarith

end

/-- States of the microgrid of the examples. -/
def demoView (genset grid : Bool) (load pv status : ℚ) : AgentView := ⟨⟨true, genset, grid⟩, demoParams, load, pv, status, 50, 27⟩

theorem demoView_sound (genset grid : Bool) : (demoView genset grid 60 30 1).Sound ∧ (demoView genset grid 40 50 0).Sound := by
  constructor <;> constructor <;> first | exact demoParams_good | norm_num [demoView]

/-- The microgrid of the examples has this view at its first step. -/
example : (demo true).agentView = demoView true true 60 30 1 := by decide +kernel

/-- Hypotheses of `C117_feasible`, `C117_serves_partial` and `C117_total`. -/
example : (demoView true true 60 30 1).Serves 6 ∧
    (match (demoView true true 60 30 1).action 6 with
    | .ok c => decide (c.pvConsumed = 30 ∧ 0 < c.discharge ∧ c.discharge + c.genset = 30)
    | .error _ => false) = true := by
  constructor
  · simp [AgentView.Serves, demoView]
  · decide +kernel

/-- Hypotheses of `C117_run_partial`: after a first run the generator and the battery serve what PV does not. -/
example :
    let g := ((demo false).run ⟨some 25, some 0, some 0, some 0, some 50⟩).1
    g.agentView.capaCharge = g.params.capaToCharge g.soc ∧
    (match g.agentView.action 1 with
    | .ok c => decide (c.imp ≤ g.params.pImport ∧ c.genset ≤ 1) && (g.run c.control).2.isOk
    | .error _ => false) = true := by
  decide +kernel

/-- Hypotheses of `C117_outage`, `C117_charges_from_nothing` and `C117_charged_twice`. -/
example : (demoView false true 60 30 0).pv < (demoView false true 60 30 0).load ∧
    (demoView true true 60 30 0).pv < (demoView true true 60 30 0).load + (demoView true true 60 30 0).chargeGrid ∧
    0 < (demoView false true 40 500 1).chargeGrid ∧
    (demoView false true 40 500 1).load + (demoView false true 40 500 1).chargeGrid < (demoView false true 40 500 1).pv := by
  decide +kernel

/-- Hypotheses of `C117_not_clipped`: after a run the limits of the view are those that `run` will check. -/
example :
    let g := ((demo true).run ⟨some 10, some 40, some 0, some 0, some 3⟩).1
    g.agentView.capaCharge = g.params.capaToCharge g.soc ∧ g.agentView.capaDischarge = g.params.capaToDischarge g.soc ∧ 0 < g.agentView.capaCharge := by
  decide +kernel

end Pymgrid.Legacy
