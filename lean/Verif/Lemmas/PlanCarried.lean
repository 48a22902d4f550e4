import Verif.Lemmas.ModularMPC
import Verif.Spec.PlanCarried
import Verif.Props.MPC
import Verif.Lemmas.Report

set_option autoImplicit false

/-! Runs of modular microgrids on the first step of a plan. -/

namespace Pymgrid

namespace Module

/-- What a step delivered. -/
def StepOut.net (o : StepOut) : ℚ := o.info.provided.getD 0 - o.info.absorbed.getD 0

theorem LoadWF.step_net {m m' : Module} {t : TS} (h : m.LoadWF t) (hl : m.Live) {a : Act} {n : Bool} {o : StepOut}
    (he : m.step a n = (m', .ok o)) : StepOut.net o = (t.rows.getD m.currentStep []).getD 0 0 ∧ o.reward = 0 := by
  obtain ⟨r, hr⟩ := hl.row h.ts.series
  obtain ⟨x, rfl, -, hx⟩ := h.itemAt hr
  rw [h.ts.step_eq] at he
  cases hq : m.request a n with
  | error e => rw [hq] at he; simp at he
  | ok q =>
    rw [hq] at he
    simp only at he
    rcases h.ts.stepEnergy q with ⟨e, h1⟩ | ⟨u, pre, row, hu, -, -, h1⟩
    · rw [h1] at he; simp at he
    · have huu := h.unnormalizedStep q
      rcases lt_or_ge 0 q with h0 | h0
      · rw [huu.1 h0] at hu; simp at hu
      · rw [huu.2 h0, hx] at hu
        simp only [Prod.mk.injEq, Except.ok.injEq, true_and] at hu
        rcases h1 with ⟨f, -, -, obs, h1⟩ | ⟨e, -, h1⟩
        · rw [h1] at he
          simp only [Prod.mk.injEq, Except.ok.injEq] at he
          obtain ⟨-, rfl⟩ := he
          subst hu
          refine ⟨?_, rfl⟩
          rw [show t.rows.getD m.currentStep [] = [x] by rw [List.getD_eq_getElem?_getD, hr]; rfl]
          simp [StepOut.net]
        · rw [h1] at he; simp at he

theorem RenWF.step_reward {m m' : Module} {t : TS} (h : m.RenWF t) (hl : m.Live) {a : Act} {n : Bool} {o : StepOut}
    (he : m.step a n = (m', .ok o)) : o.reward = 0 := by
  obtain ⟨r, hr⟩ := hl.row h.ts.series
  obtain ⟨x, rfl, -, hx⟩ := h.itemAt hr
  rw [h.ts.step_eq] at he
  cases hq : m.request a n with
  | error e => rw [hq] at he; simp at he
  | ok q =>
    rw [hq] at he
    simp only at he
    rcases h.ts.stepEnergy q with ⟨e, h1⟩ | ⟨u, pre, row, hu, -, -, h1⟩
    · rw [h1] at he; simp at he
    · have huu := h.unnormalizedStep q
      have : u.reward = 0 := by
        rcases lt_or_ge q 0 with h0 | h0
        · obtain ⟨e, h2⟩ := huu.1 h0
          rw [h2] at hu; simp at hu
        · have := huu.2.2 x hr h0
          split at this
          · rw [this] at hu; simp at hu
          · rw [this] at hu
            simp only [Prod.mk.injEq, Except.ok.injEq, true_and] at hu
            rw [← hu]
      rcases h1 with ⟨f, -, -, obs, h1⟩ | ⟨e, -, h1⟩
      · rw [h1] at he
        simp only [Prod.mk.injEq, Except.ok.injEq] at he
        rw [← he.2]; exact this
      · rw [h1] at he; simp at he

theorem BalWF.step_net {m m' : Module} {u : Unbalanced} (h : m.BalWF u) {a : Act} {n : Bool} {o : StepOut}
    (he : m.step a n = (m', .ok o)) : 0 ≤ StepOut.net o → o.reward = -(u.lossLoadCost * StepOut.net o) := by
  rw [h.step_eq] at he
  cases hq : m.request a n with
  | error e => rw [hq] at he; simp at he
  | ok q =>
    rw [hq] at he
    obtain ⟨row, -, h1⟩ := h.stepEnergy q
    simp only [h1, Prod.mk.injEq, Except.ok.injEq] at he
    obtain ⟨-, rfl⟩ := he
    rcases le_or_gt 0 q with h0 | h0
    · simp [StepOut.net, h0]
    · intro hn
      have h0' : ¬ 0 ≤ q := not_le.mpr h0
      simp [StepOut.net, h0'] at hn

theorem BattWF.step_net {m m' : Module} {b : Battery} (h : m.BattWF b) {q : ℚ} {o : StepOut}
    (hq : -b.maxConsumption ≤ q ∧ q ≤ b.maxProduction) (he : m.step (.num q) false = (m', .ok o)) :
    StepOut.net o = q ∧ ∃ b', m'.kind = .battery b' ∧ b'.soc =
        b.soc + (b.efficiency * max 0 (-q) - max 0 q / b.efficiency) / b.maxCapacity ∧
      o.reward = -(b.costCycle * (b.efficiency * max 0 (-q) + max 0 q / b.efficiency)) := by
  rw [h.step_eq, request_num] at he
  have := h.stepEnergy q
  by_cases h0 : 0 ≤ q
  · rw [if_pos h0, if_neg (fun hh => absurd hh.2 (not_lt.mpr hq.2))] at this
    obtain ⟨m₁, o₁, e, s⟩ := this
    simp only [e, Prod.mk.injEq, Except.ok.injEq] at he
    obtain ⟨rfl, rfl⟩ := he
    rw [min_eq_left hq.2] at s
    have hneg : max 0 (-q) = 0 := max_eq_left (by linarith)
    refine ⟨by rw [StepOut.net, s.provided, s.absorbed]; simp [Dir.out, Dir.into], _, s.kind, ?_, ?_⟩
    · rw [hneg, max_eq_right h0, h.valid.soc_eq]
      simp only [Battery.withCharge, Battery.chargeAfter]
      ring
    · rw [s.reward, hneg, max_eq_right h0]
      simp [Battery.moved]
  · rw [if_neg h0, if_neg (fun hh => absurd hh.2 (not_lt.mpr (by linarith [hq.1])))] at this
    obtain ⟨m₁, o₁, e, s⟩ := this
    simp only [e, Prod.mk.injEq, Except.ok.injEq] at he
    obtain ⟨rfl, rfl⟩ := he
    rw [min_eq_left (by linarith [hq.1])] at s
    have hneg : max 0 q = 0 := max_eq_left (by linarith [not_le.mp h0])
    have hpos : max 0 (-q) = -q := max_eq_right (by linarith [not_le.mp h0])
    refine ⟨by rw [StepOut.net, s.provided, s.absorbed]; simp [Dir.out, Dir.into], _, s.kind, ?_, ?_⟩
    · rw [hneg, hpos, h.valid.soc_eq]
      simp only [Battery.withCharge, Battery.chargeAfter]
      ring
    · rw [s.reward, hneg, hpos]
      simp only [Battery.moved]
      ring

theorem GridWF.step_net {m m' : Module} {p : GridParams} {t : TS} (h : m.GridWF p t) (w : t.Works) (hl : m.Live) {q : ℚ}
    {o : StepOut}
    (hq : -(p.maxExport * (t.rows.getD m.currentStep []).getD 3 0) ≤ q ∧
      q ≤ p.maxImport * (t.rows.getD m.currentStep []).getD 3 0) (he : m.step (.num q) false = (m', .ok o)) :
    StepOut.net o = q ∧ o.reward = -((t.rows.getD m.currentStep []).getD 0 0 * max 0 q) +
      (t.rows.getD m.currentStep []).getD 1 0 * max 0 (-q) -
        p.costPerCo2 * ((t.rows.getD m.currentStep []).getD 2 0 * max 0 q) := by
  obtain ⟨r, hr⟩ := hl.row h.ts.series
  obtain ⟨imp, exp, co2, st, rfl, hst, -⟩ := h.row hr
  have hg : t.rows.getD m.currentStep [] = [imp, exp, co2, st] := by rw [List.getD_eq_getElem?_getD, hr]; rfl
  rw [hg] at hq ⊢
  simp only [List.getD_cons_succ, List.getD_cons_zero] at hq ⊢
  have hun := (h.unnormalizedStep q).2 _ _ _ _ hr
  rw [h.ts.step_eq, request_num] at he
  rcases le_or_gt 0 q with h0 | h0
  · have hun := hun.1 h0
    rw [if_neg (fun hh => absurd hh.2 (not_lt.mpr hq.2)), min_eq_left hq.2] at hun
    obtain ⟨pre, row, f, obs, -, -, -, -, he'⟩ := h.ts.stepEnergy_ok hun (by simp [h.prov]) (by simp) w
    simp only [he', Prod.mk.injEq, Except.ok.injEq] at he
    obtain ⟨-, rfl⟩ := he
    refine ⟨by simp [StepOut.net], ?_⟩
    rw [max_eq_right h0, max_eq_left (by linarith : -q ≤ 0)]
    simp only
    ring
  · have hun := hun.2 h0
    rw [if_neg (fun hh => absurd hh.2 (not_lt.mpr (by linarith [hq.1]))), min_eq_left (by linarith [hq.1])] at hun
    obtain ⟨pre, row, f, obs, -, -, -, -, he'⟩ := h.ts.stepEnergy_ok hun (by simp) (by simp [h.abs]) w
    simp only [he', Prod.mk.injEq, Except.ok.injEq] at he
    obtain ⟨-, rfl⟩ := he
    refine ⟨by simp [StepOut.net], ?_⟩
    rw [max_eq_left h0.le, max_eq_right (by linarith : 0 ≤ -q)]
    simp only
    ring

/-- A genset that can be switched as asked at once produces what it is asked for. -/
theorem GenWF.step_net {m m' : Module} {g : Genset} (h : m.GenWF g) {action : Nat} (ha : action < 2)
    (hs : (action = 1 → g.status = 1 ∨ g.untilUp = 0) ∧ (action = 0 → g.status = 0 ∨ g.untilDown = 0)) {x : ℚ}
    {o : StepOut} (hx : action * g.runMin ≤ x ∧ x ≤ action * g.runMax)
    (he : m.step (.arr [(action : ℚ), x]) false = (m', .ok o)) :
    StepOut.net o = x ∧ o.reward = -(g.getCost x) := by
  obtain ⟨g', e', wf, hst, hsp⟩ := h.goal (action := action) ha
  have hstat : g'.status = action := by
    rw [hst]
    have : action = 0 ∨ action = 1 := by omega
    rcases this with rfl | rfl
    · rcases hs.2 rfl with h1 | h1 <;> simp [Genset.nextStatus, h1]
    · rcases hs.1 rfl with h1 | h1 <;> simp [Genset.nextStatus, h1]
  have h01 : (0 : ℚ) ≤ action ∧ (action : ℚ) ≤ 1 := by
    refine ⟨by positivity, ?_⟩
    have : action ≤ 1 := by omega
    exact_mod_cast this
  rw [h.step_eq] at he
  simp only [List.getElem?_cons_zero] at he
  rw [if_neg (not_not.mpr h01), e', request_genset h] at he
  simp only at he
  have hlo : g'.minProduction ≤ x := by
    unfold Genset.minProduction; rw [hstat, hsp.runMin]; exact_mod_cast hx.1
  have hhi : x ≤ g'.maxProduction := by
    unfold Genset.maxProduction; rw [hstat, hsp.runMax]; exact_mod_cast hx.2
  have := wf.stepEnergy x
  have h0 : 0 ≤ g'.minProduction := by
    obtain ⟨p', hp''⟩ := wf.phase
    rcases hp''.1.status with e | e <;> simp [Genset.minProduction, e, wf.min_nonneg]
  rw [if_neg (not_lt.mpr (h0.trans hlo)), if_neg (by
    rintro ⟨-, h1 | h1⟩
    · exact absurd h1 (not_lt.mpr hhi)
    · exact absurd h1 (not_lt.mpr hlo))] at this
  obtain ⟨m₁, o₁, e, s⟩ := this
  simp only [e, Prod.mk.injEq, Except.ok.injEq] at he
  obtain ⟨rfl, rfl⟩ := he
  have hc : clamp g'.minProduction g'.maxProduction x = x := by
    rw [clamp, if_neg (not_lt.mpr hhi), if_neg (not_lt.mpr hlo)]
  refine ⟨by rw [StepOut.net, s.provided, s.absorbed, hc]; simp, ?_⟩
  rw [s.reward, hc]
  congr 1
  simp only [Genset.getCost, Genset.fuelCost, Genset.getCo2Cost, Genset.getCo2, hsp.cost, hsp.co2, hsp.cco2]

end Module

open Module

/-! ### The steps of a run -/

theorem filter_name {α β : Type} [DecidableEq β] {l : List α} {f : α → β} (hn : (l.map f).Nodup) {x : α} (hx : x ∈ l) :
    l.filter (fun y => decide (f y = f x)) = [x] := by
  induction l with
  | nil => simp at hx
  | cons a l ih =>
    simp only [List.map_cons, List.nodup_cons] at hn
    rcases List.mem_cons.mp hx with rfl | hx
    · rw [List.filter_cons_of_pos (by simp), List.filter_eq_nil_iff.mpr]
      intro y hy hh
      exact hn.1 (of_decide_eq_true hh ▸ List.mem_map_of_mem hy)
    · rw [List.filter_cons_of_neg, ih hn.2 hx]
      intro hh
      exact hn.1 (of_decide_eq_true hh ▸ List.mem_map_of_mem hx)

section
variable {mods : List (String × Nat)} {m g' : Microgrid} {ctl : List (String × Ctrl)} {o : RunOut}
  {trF trC trX : List Event} {h₁ h₂ : Heap} {ci : CostInfo}

/-- Every module makes one step, which the result reports under its name. -/
theorem run_event (ok : GridOK mods m) (hid : (mods.map Prod.snd).Nodup) (hn : (mods.map Prod.fst).Nodup)
    (hu : ClearNames m.heap mods) (hs : Supplies m.heap mods ctl) (ri : RunInfo m ctl false g' o trF trC trX h₁ h₂ ci)
    {e : Event} (he : e ∈ trF ++ trC ++ trX) :
    (m.heap e.id).step e.act e.normalized = (g'.heap e.id, .ok e.out) ∧ MPC.delivered o e.name = StepOut.net e.out ∧
      (e.name, e.id) ∈ mods := by
  have hp := ok.events_perm hu hs ri
  refine ⟨ri.exec.once ?_ he, ?_, hp.mem_iff.mp (List.mem_map_of_mem (f := fun e : Event => (e.name, e.id)) he)⟩
  · have := (hp.map Prod.snd).nodup_iff.mpr hid
    rwa [List.map_map] at this
  · have hnn : ((trF ++ trC ++ trX).map Event.name).Nodup := by
      have := (hp.map Prod.fst).nodup_iff.mpr hn
      rwa [List.map_map] at this
    unfold MPC.delivered
    rw [(ri.reported e.name).1, filter_name hnn he]
    simp [StepOut.net]

/-- A controllable module makes its step on its entry of the control. -/
theorem run_act (ok : GridOK mods m) (ri : RunInfo m ctl false g' o trF trC trX h₁ h₂ ci)
    {e : Event} (he : e ∈ trF ++ trC ++ trX) (hf : (m.heap e.id).ffc = .controllable) {k : Ctrl} {a : Act}
    (hk : dictGet? ctl e.name = some k) (ha : k.acts = [a]) : e.act = a ∧ e.normalized = false := by
  simp only [List.mem_append] at he
  rcases he with (he | he) | he
  · have : (e.name, e.id) ∈ Container.toTuples (m.cont.levelDict .fixed) :=
      fixed_pairs ri ▸ List.mem_map_of_mem (f := fun e : Event => (e.name, e.id)) he
    rw [ok.cont] at this
    rw [(Container.mem_level this).2] at hf
    exact absurd hf (by decide)
  · refine ⟨?_, ri.ctrlN e he⟩
    have : (e.name, e.id, e.act) ∈ controlSteps ctl (m.cont.levelDict .controllable) :=
      ri.ctrlL ▸ List.mem_map_of_mem (f := fun e : Event => (e.name, e.id, e.act)) he
    simp only [controlSteps, List.mem_flatMap, List.mem_map, Prod.mk.injEq] at this
    obtain ⟨nl, hnl, ia, hia, h1, h2, h3⟩ := this
    have := (List.of_mem_zip hia).2
    rw [h1, hk] at this
    simp only [Option.map_some, Option.getD_some, ha, List.mem_singleton] at this
    rw [← h3, this]
  · have hm : (e.name, e.id) ∈ m.flexList :=
      ri.flexL ▸ List.mem_map_of_mem (f := fun e : Event => (e.name, e.id)) he
    rw [(ok.mem_flexList hm).2] at hf
    exact absurd hf (by decide)

/-- Sums over steps are sums over modules. -/
theorem sum_modules (ok : GridOK mods m) (hu : ClearNames m.heap mods) (hs : Supplies m.heap mods ctl)
    (ri : RunInfo m ctl false g' o trF trC trX h₁ h₂ ci) {F : Event → ℚ} {G : String × Nat → ℚ}
    (h : ∀ e ∈ trF ++ trC ++ trX, F e = G (e.name, e.id)) :
    ((trF ++ trC ++ trX).map F).sum = (mods.map G).sum := by
  rw [List.map_congr_left h, ← ((ok.events_perm hu hs ri).map G).sum_eq, List.map_map]
  rfl

end

/-! ### Sums by class -/

/-- The part of a sum that is over the modules of a class. -/
def clsSum (h : Heap) (mods : List (String × Nat)) (F : String × Nat → ℚ) (c : Cls) : ℚ :=
  (mods.map fun nm => if (h nm.2).kind.cls = c then F nm else 0).sum

theorem clsSum_all (h : Heap) (mods : List (String × Nat)) (F : String × Nat → ℚ) :
    (mods.map F).sum = clsSum h mods F .load + clsSum h mods F .renewable + clsSum h mods F .battery +
      clsSum h mods F .grid + clsSum h mods F .genset + clsSum h mods F .balancing := by
  induction mods with
  | nil => simp [clsSum]
  | cons a l ih =>
    simp only [clsSum, List.map_cons, List.sum_cons] at ih ⊢
    rw [ih]
    cases (h a.2).kind.cls <;> simp <;> ring

theorem clsSum_none {h : Heap} {mods : List (String × Nat)} (F : String × Nat → ℚ) {c : Cls}
    (hn : ∀ nm ∈ mods, (h nm.2).kind.cls ≠ c) : clsSum h mods F c = 0 := by
  unfold clsSum
  apply List.sum_eq_zero
  intro x hx
  obtain ⟨nm, hm, rfl⟩ := List.mem_map.mp hx
  rw [if_neg (hn nm hm)]

theorem clsSum_one {h : Heap} {mods : List (String × Nat)} (hd : mods.Nodup) (F : String × Nat → ℚ)
    {nm : String × Nat} (hm : nm ∈ mods)
    (hu : ∀ x ∈ mods, (h x.2).kind.cls = (h nm.2).kind.cls → x = nm) :
    clsSum h mods F (h nm.2).kind.cls = F nm := by
  unfold clsSum
  induction mods with
  | nil => simp at hm
  | cons a l ih =>
    have hd' := List.nodup_cons.mp hd
    rcases List.mem_cons.mp hm with rfl | hm
    · simp only [List.map_cons, List.sum_cons, if_true]
      have := clsSum_none F (h := h) (mods := l) (c := (h nm.2).kind.cls)
        (fun x hx hc => hd'.1 (hu x (List.mem_cons_of_mem _ hx) hc ▸ hx))
      unfold clsSum at this
      rw [this, add_zero]
    · simp only [List.map_cons, List.sum_cons]
      rw [if_neg, zero_add, ih hd'.2 hm fun x hx => hu x (List.mem_cons_of_mem _ hx)]
      intro hc
      exact hd'.1 (hu a List.mem_cons_self hc ▸ hm)

/-! ### The battery -/

theorem Battery.Valid.planned {b : Battery} (v : b.Valid) (hcap : 0 < b.maxCapacity)
    (hmin : b.minSoc = b.minCapacity / b.maxCapacity) {c d s : ℚ} (hc : 0 ≤ c ∧ c ≤ b.maxCharge)
    (hd : 0 ≤ d ∧ d ≤ b.maxDischarge * b.efficiency) (hone : c = 0 ∨ d = 0)
    (hs : s = b.soc + (b.efficiency * c - d / b.efficiency) / b.maxCapacity) (hw : b.minSoc ≤ s ∧ s ≤ 1) :
    -b.maxConsumption ≤ d - c ∧ d - c ≤ b.maxProduction := by
  have he := v.eff_pos
  have hP := v.maxProduction_nonneg
  have hC := v.maxConsumption_nonneg
  have hsc : s * b.maxCapacity = b.charge + (b.efficiency * c - d / b.efficiency) := by
    rw [hs, v.soc_eq]; field_simp
  have hlo : b.minCapacity ≤ s * b.maxCapacity := by
    have := hw.1
    rw [hmin, div_le_iff₀ hcap] at this
    exact this
  have hhi : s * b.maxCapacity ≤ b.maxCapacity := by nlinarith [hw.2]
  rcases hone with rfl | rfl
  · refine ⟨by linarith, ?_⟩
    rw [sub_zero]
    unfold Battery.maxProduction
    rw [← div_le_iff₀ he, le_min_iff]
    refine ⟨(div_le_iff₀ he).mpr hd.2, ?_⟩
    rw [hsc] at hlo
    linarith
  · refine ⟨?_, by linarith⟩
    have : c ≤ b.maxConsumption := by
      unfold Battery.maxConsumption
      rw [le_div_iff₀ he, le_min_iff]
      refine ⟨?_, ?_⟩
      · have : c * b.efficiency ≤ c * 1 := mul_le_mul_of_nonneg_left v.eff_le hc.1
        linarith [hc.2]
      · rw [hsc] at hhi
        simp only [zero_div, sub_zero] at hhi
        linarith
    linarith

namespace MPC

section
variable {mods : List (String × Nat)} {pl : Planner} {m g' : Microgrid} {P : Problem} {x : Point}
  {ctl : List (String × Ctrl)} {o : RunOut} {trF trC trX : List Event} {h₁ h₂ : Heap} {ci : CostInfo}

theorem Ready.supplies (r : Ready mods pl m) (poses : Poses m.heap mods P) (hf : Feasible P x) (hh : 0 < P.horizon)
    (carries : Carries m.heap mods P x ctl) : Supplies m.heap mods ctl := by
  intro nm hm hctl
  obtain ⟨k, a, h1, h2, -⟩ := r.entry carries (fun _ => hf) hh (fun nm hm n hk => (poses.genset nm hm n hk).1) hm hctl
  exact ⟨k, h1, by rw [h2]; exact named_one r.placed.names _ _ _⟩

theorem Ready.clear (r : Ready mods pl m) : ClearNames m.heap mods := by
  intro y hy z hz he _
  rw [List.inj_on_of_nodup_map r.placed.names hy hz he]

/-- What the steps of the modules deliver and cost, if the plan can be executed. -/
structure Facts (m g' : Microgrid) (P : Problem) (f : Flow) (e : Event) : Prop where
  load : ∀ t, (m.heap e.id).kind = .load t → StepOut.net e.out = -P.inputs.load.getD 0 0 ∧ e.out.reward = 0
  pv : ∀ t, (m.heap e.id).kind = .renewable t → e.out.reward = 0
  battery : ∀ b, (m.heap e.id).kind = .battery b → StepOut.net e.out = f.discharge - f.charge ∧
    (∃ b', (g'.heap e.id).kind = .battery b' ∧ b'.soc = f.soc) ∧
    e.out.reward = -(P.static.cycle * (P.static.eta * f.charge + f.discharge / P.static.eta))
  grid : ∀ p t, (m.heap e.id).kind = .grid p t → StepOut.net e.out = f.imp - f.exp ∧
    e.out.reward = -(P.inputs.importPrice.getD 0 0 * max 0 (f.imp - f.exp)) +
      P.inputs.exportPrice.getD 0 0 * max 0 (f.exp - f.imp) -
        p.costPerCo2 * (P.inputs.gridCo2.getD 0 0 * max 0 (f.imp - f.exp))
  genset : ∀ n, (m.heap e.id).kind = .genset n → StepOut.net e.out = f.genset ∧
    e.out.reward = -(P.static.fuel * f.genset + P.static.costCo2 * (P.static.gensetCo2 * f.genset))
  balancing : ∀ u, (m.heap e.id).kind = .balancing u → 0 ≤ StepOut.net e.out →
    e.out.reward = -(P.static.lossLoad * StepOut.net e.out)

theorem outlook_zero (m : Module) (t : TS) (k : Nat) :
    (m.outlook t k).getD 0 0 = (t.rows.getD m.currentStep []).getD k 0 := by
  unfold Module.outlook
  simp

theorem Ready.facts (r : Ready mods pl m) (hid : (mods.map Prod.snd).Nodup) (live : ∀ nm ∈ mods, (m.heap nm.2).Live)
    (poses : Poses m.heap mods P) (hf : Feasible P x) (hh : 0 < P.horizon)
    (ex : Executable m.heap mods (x.u 0) (x.flow P.genset 0)) (carries : Carries m.heap mods P x ctl)
    (ri : RunInfo m ctl false g' o trF trC trX h₁ h₂ ci) {e : Event} (he : e ∈ trF ++ trC ++ trX) :
    Facts m g' P (x.flow P.genset 0) e := by
  obtain ⟨hst, -, hm⟩ := run_event r.ok hid r.placed.names r.clear (r.supplies poses hf hh carries) ri he
  have sok := ((feasible_iff P x).mp hf) 0 hh
  have hl := live _ hm
  have hsane := r.sane _ hm
  have wf := r.ok.wf _ hm
  have none : ∀ {k : Kind}, (m.heap e.id).kind = k → ∀ {k' : Kind}, (m.heap e.id).kind = k' → k.cls ≠ k'.cls → False :=
    fun h1 _ h2 h3 => h3 (by rw [← h1, ← h2])
  simp only at hl hsane wf
  cases wf with
  | load t h w =>
    refine ⟨?_, ?_, ?_, ?_, ?_, ?_⟩ <;> intros
    · obtain ⟨h1, h2⟩ := h.step_net hl hst
      refine ⟨?_, h2⟩
      rw [h1, (poses.load _ hm t h.kind).2]
      simp [Module.outlook]
    all_goals exact (none h.kind ‹_› (by simp [Kind.cls])).elim
  | renewable t h w =>
    refine ⟨?_, ?_, ?_, ?_, ?_, ?_⟩ <;> intros
    case refine_2 => exact h.step_reward hl hst
    all_goals exact (none h.kind ‹_› (by simp [Kind.cls])).elim
  | battery b h =>
    refine ⟨?_, ?_, ?_, ?_, ?_, ?_⟩
    case refine_3 =>
      intro b' hb
      obtain ⟨p1, p2, p3, p4, p5, p6, p7, p8⟩ := poses.battery _ hm b h.kind
      obtain ⟨ha, hn⟩ := run_act r.ok ri he h.ffc (carries.battery _ hm b h.kind) rfl
      rw [ha, hn] at hst
      obtain ⟨e1, e2⟩ := ex.battery _ hm b h.kind
      have hdyn := sok.dynamics
      rw [p1, p2] at hdyn
      have hdyn' : (x.flow P.genset 0).soc = b.soc + (b.efficiency * (x.flow P.genset 0).charge -
        (x.flow P.genset 0).discharge / b.efficiency) / b.maxCapacity := by rw [← p4]; exact hdyn
      have hmin : b.minSoc = b.minCapacity / b.maxCapacity := by
        have := hsane
        rw [h.kind] at this
        exact this
      have hrange := h.valid.planned (r.room _ hm b h.kind).2 hmin
        ⟨sok.charge.1, sok.charge.2.trans_eq p7⟩ ⟨sok.discharge.1, e1⟩ e2 hdyn' ⟨p5 ▸ sok.window.1, p6 ▸ sok.window.2⟩
      obtain ⟨h1, b₁, h2, h3, h4⟩ := h.step_net hrange hst
      have hmax : max 0 (-((x.flow P.genset 0).discharge - (x.flow P.genset 0).charge)) = (x.flow P.genset 0).charge ∧
          max 0 ((x.flow P.genset 0).discharge - (x.flow P.genset 0).charge) = (x.flow P.genset 0).discharge := by
        rcases e2 with e2 | e2
        · rw [e2]; simp [sok.discharge.1]
        · rw [e2]; simp [sok.charge.1]
      rw [hmax.1, hmax.2] at h3 h4
      refine ⟨h1, ⟨b₁, h2, h3.trans hdyn'.symm⟩, ?_⟩
      rw [h4, p1, p3]
    all_goals intros
    all_goals exact (none h.kind ‹_› (by simp [Kind.cls])).elim
  | grid p t h w =>
    refine ⟨?_, ?_, ?_, ?_, ?_, ?_⟩
    case refine_4 =>
      intro p' t' hk
      rw [h.kind] at hk
      obtain ⟨rfl, rfl⟩ := Kind.grid.inj hk
      obtain ⟨p1, p2, p3, p4, p5, p6⟩ := poses.grid _ hm p t h.kind
      obtain ⟨e1, e2⟩ := ex.grid _ hm p t h.kind
      obtain ⟨ha, hn⟩ := run_act r.ok ri he e1 (carries.grid _ hm p t h.kind) rfl
      rw [ha, hn] at hst
      have g0 : P.inputs.grid.getD 0 0 = 1 := by
        rw [p1, List.getD_eq_getElem?_getD, List.getElem?_replicate, if_pos hh]; rfl
      have hi := sok.imp
      have hx := sok.exp
      rw [g0, mul_one] at hi hx
      rw [p2] at hi
      rw [p3] at hx
      obtain ⟨h1, h2⟩ := h.step_net w hl (q := (x.flow P.genset 0).imp - (x.flow P.genset 0).exp) (by
        rcases e2 with e2 | e2
        · simp only at e2
          rw [e2]
          constructor <;> linarith [hi.1, hi.2, hx.1, hx.2]
        · rw [e2, sub_self]
          obtain ⟨rr, hr⟩ := hl.row h.ts.series
          obtain ⟨imp, exp, co2, st, rfl, hs, -⟩ := h.row hr
          have hg : t.rows.getD (m.heap e.id).currentStep [] = [imp, exp, co2, st] := by
            rw [List.getD_eq_getElem?_getD, hr]; rfl
          rw [hg]
          simp only [List.getD_cons_succ, List.getD_cons_zero]
          have h1 := h.imp
          have h2 := h.exp
          rcases hs with rfl | rfl <;> constructor <;> linarith) hst
      refine ⟨h1, ?_⟩
      rw [h2, p4, p5, p6, outlook_zero, outlook_zero, outlook_zero, neg_sub]
    all_goals intros
    all_goals exact (none h.kind ‹_› (by simp [Kind.cls])).elim
  | genset n h =>
    refine ⟨?_, ?_, ?_, ?_, ?_, ?_⟩
    case refine_5 =>
      intro n' hk
      rw [h.kind] at hk
      obtain rfl := Kind.genset.inj hk
      obtain ⟨p1, p2, p3, p4, p5, p6⟩ := poses.genset _ hm n h.kind
      obtain ⟨ha, hn⟩ := run_act r.ok ri he h.ffc (carries.genset _ hm n h.kind) rfl
      rw [ha, hn] at hst
      have key := sok.genset
      rw [if_pos p1] at key
      have e1 := ex.genset _ hm n h.kind
      obtain ⟨action, ha2, hu, hs, hr⟩ : ∃ action : Nat, action < 2 ∧ x.u 0 = action ∧
          ((action = 1 → n.status = 1 ∨ n.untilUp = 0) ∧ (action = 0 → n.status = 0 ∨ n.untilDown = 0)) ∧
          (action * n.runMin ≤ (x.flow P.genset 0).genset ∧ (x.flow P.genset 0).genset ≤ action * n.runMax) := by
        rcases key with ⟨k1, k2, k3⟩ | ⟨k1, k2, k3, k4⟩
        · exact ⟨0, by omega, by rw [k1]; simp, ⟨by simp, fun _ => e1.2 k1⟩, by rw [k2]; simp⟩
        · exact ⟨1, by omega, by rw [k1]; simp, ⟨fun _ => e1.1 k1, by simp⟩, by
            rw [← p3, ← p4]; push_cast; rw [one_mul, one_mul]; exact ⟨k3, k4⟩⟩
      rw [hu] at hst
      obtain ⟨h1, h2⟩ := h.step_net ha2 hs hr hst
      refine ⟨h1, ?_⟩
      rw [h2, p5, p6]
      simp only [Genset.getCost, Genset.fuelCost, p2, Genset.getCo2Cost, Genset.getCo2]
    all_goals intros
    all_goals exact (none h.kind ‹_› (by simp [Kind.cls])).elim
  | balancing u h =>
    refine ⟨?_, ?_, ?_, ?_, ?_, ?_⟩
    case refine_6 =>
      intro u' hk h0
      rw [h.kind] at hk
      obtain rfl := Kind.balancing.inj hk
      rw [h.step_net hst h0, poses.balancing _ hm u h.kind]
    all_goals intros
    all_goals exact (none h.kind ‹_› (by simp [Kind.cls])).elim

/-! ### Renewables and balancing -/

theorem filter_one {α : Type} {l : List α} (hn : l.Nodup) {p : α → Bool} {y : α} (hy : y ∈ l) (hp : p y = true)
    (hu : ∀ z ∈ l, p z = true → z = y) : l.filter p = [y] := by
  induction l with
  | nil => simp at hy
  | cons a l ih =>
    have hn' := List.nodup_cons.mp hn
    rcases List.mem_cons.mp hy with rfl | hy
    · rw [List.filter_cons_of_pos hp, List.filter_eq_nil_iff.mpr]
      intro z hz hpz
      exact hn'.1 (hu z (List.mem_cons_of_mem _ hz) hpz ▸ hz)
    · rw [List.filter_cons_of_neg, ih hn'.2 hy fun z hz => hu z (List.mem_cons_of_mem _ hz)]
      intro ha
      exact hn'.1 (hu a List.mem_cons_self ha ▸ hy)

theorem Ready.flex_order (r : Ready mods pl m)
    (hg : ∀ nm ∈ mods, ∀ p t, (m.heap nm.2).kind = .grid p t → (m.heap nm.2).ffc = .controllable)
    {np nb : String × Nat} (hp : np ∈ mods) (hpc : (m.heap np.2).kind.cls = .renewable) (hb : nb ∈ mods)
    (hbc : (m.heap nb.2).kind.cls = .balancing) : m.flexList = [np, nb] := by
  have hnd : mods.Nodup := List.Nodup.of_map _ r.placed.names
  have cases : ∀ nm ∈ mods, (m.heap nm.2).ffc = .flex →
      (nm = np ∧ (m.heap nm.2).ss = .sources) ∨ (nm = nb ∧ (m.heap nm.2).ss = .both) := by
    intro nm hm hf
    cases r.ok.wf nm hm with
    | battery b h => rw [h.ffc] at hf; exact absurd hf (by decide)
    | grid p t h w => rw [hg nm hm p t h.kind] at hf; exact absurd hf (by decide)
    | genset n h => rw [h.ffc] at hf; exact absurd hf (by decide)
    | load t h w => rw [h.ffc] at hf; exact absurd hf (by decide)
    | renewable t h w =>
      exact .inl ⟨r.placed.uniq nm hm np hp (by rw [hpc, h.kind]; rfl), by simp [Module.ss, isSink, isSource, h.kind]⟩
    | balancing u h =>
      exact .inr ⟨r.placed.uniq nm hm nb hb (by rw [hbc, h.kind]; rfl), by simp [Module.ss, isSink, isSource, h.kind]⟩
  obtain ⟨tp, wp⟩ := (r.ok.wf np hp).renWF hpc
  have fb : (m.heap nb.2).ffc = .flex := by
    cases r.ok.wf nb hb with
    | balancing u h => exact h.ffc
    | battery b h => rw [h.kind] at hbc; simp [Kind.cls] at hbc
    | grid p t h w => rw [h.kind] at hbc; simp [Kind.cls] at hbc
    | genset n h => rw [h.kind] at hbc; simp [Kind.cls] at hbc
    | load t h w => rw [h.kind] at hbc; simp [Kind.cls] at hbc
    | renewable t h w => rw [h.kind] at hbc; simp [Kind.cls] at hbc
  have hne : np ≠ nb := by rintro rfl; rw [hpc] at hbc; exact absurd hbc (by decide)
  have sp : (m.heap np.2).ss = .sources := by
    rcases cases np hp wp.ffc with ⟨-, h⟩ | ⟨h, -⟩
    · exact h
    · exact absurd h hne
  have sb : (m.heap nb.2).ss = .both := by
    rcases cases nb hb fb with ⟨h, -⟩ | ⟨-, h⟩
    · exact absurd h hne.symm
    · exact h
  have p1 : Container.toTuples ((Container.build m.heap mods).cat .flex .sources) = [np] := by
    have := Container.cat_perm m.heap mods .flex .sources
    rw [filter_one hnd hp (p := Container.inCat m.heap .flex .sources) (by simp [Container.inCat, wp.ffc, sp]) ?_] at this
    · exact List.perm_singleton.mp this
    · intro z hz hpz
      simp only [Container.inCat, decide_eq_true_eq] at hpz
      rcases cases z hz hpz.1 with ⟨h, -⟩ | ⟨h, h2⟩
      · exact h
      · rw [hpz.2] at h2; exact absurd h2 (by decide)
  have p2 : Container.toTuples ((Container.build m.heap mods).cat .flex .sinks) = [] := by
    have := Container.cat_perm m.heap mods .flex .sinks
    rw [List.filter_eq_nil_iff.mpr] at this
    · exact List.perm_nil.mp this
    · intro z hz hpz
      simp only [Container.inCat, decide_eq_true_eq] at hpz
      rcases cases z hz hpz.1 with ⟨h, h2⟩ | ⟨h, h2⟩ <;> rw [hpz.2] at h2 <;> exact absurd h2 (by decide)
  have p3 : Container.toTuples ((Container.build m.heap mods).cat .flex .both) = [nb] := by
    have := Container.cat_perm m.heap mods .flex .both
    rw [filter_one hnd hb (p := Container.inCat m.heap .flex .both) (by simp [Container.inCat, fb, sb]) ?_] at this
    · exact List.perm_singleton.mp this
    · intro z hz hpz
      simp only [Container.inCat, decide_eq_true_eq] at hpz
      rcases cases z hz hpz.1 with ⟨h, h2⟩ | ⟨h, -⟩
      · rw [hpz.2] at h2; exact absurd h2 (by decide)
      · exact h
  unfold Microgrid.flexList
  rw [r.ok.cont, Container.level_flatten (fun y hy z hz he hf hf' => r.clear y hy z hz he (hf.trans hf'.symm)),
    Container.toTuples_flatten]
  simp only [Container.level, List.map_cons, List.map_nil, p1, p2, p3]
  rfl

/-- What the renewables and the balancing module deliver in a run, if the rest of the microgrid needs `D`. -/
theorem Ready.dispatch (r : Ready mods pl m) (hid : (mods.map Prod.snd).Nodup) (live : ∀ nm ∈ mods, (m.heap nm.2).Live)
    (hs : Supplies m.heap mods ctl)
    (hg : ∀ nm ∈ mods, ∀ p t, (m.heap nm.2).kind = .grid p t → (m.heap nm.2).ffc = .controllable)
    {np nb : String × Nat} (hp : np ∈ mods) {t : TS} (wp : (m.heap np.2).RenWF t) (hb : nb ∈ mods) {u : Unbalanced}
    (hbk : (m.heap nb.2).kind = .balancing u) (ri : RunInfo m ctl false g' o trF trC trX h₁ h₂ ci)
    (h0 : 0 ≤ delivered o np.1 + delivered o nb.1) :
    delivered o np.1 = min ((t.rows.getD (m.heap np.2).currentStep []).getD 0 0) (delivered o np.1 + delivered o nb.1) := by
  have hfl := r.flex_order hg hp (by rw [wp.kind]; rfl) hb (by rw [hbk]; rfl)
  have hX := ri.flexL
  rw [hfl] at hX
  obtain ⟨e₁, e₂, rfl, h1, h2⟩ : ∃ e₁ e₂, trX = [e₁, e₂] ∧ (e₁.name, e₁.id) = np ∧ (e₂.name, e₂.id) = nb := by
    match trX, hX with
    | [e₁, e₂], hX =>
      simp only [List.map_cons, List.map_nil, List.cons.injEq, and_true] at hX
      exact ⟨e₁, e₂, rfl, hX.1, hX.2⟩
    | [], hX => simp at hX
    | [_], hX => simp at hX
    | _ :: _ :: _ :: _, hX => simp at hX
  have d₁ := (run_event r.ok hid r.placed.names r.clear hs ri (e := e₁) (by simp)).2.1
  have d₂ := (run_event r.ok hid r.placed.names r.clear hs ri (e := e₂) (by simp)).2.1
  subst h1 h2
  simp only at *
  have hbal := r.ok.balance hb (by simp only [Module.canProvide, hbk]) ri
  rw [provSum_append, absSum_append] at hbal
  have hfe := r.ok.flexEvents (ri.fixed.append ri.ctrl) ri.flexL
  have hnd := r.ok.flex_nodup hid ri.flexL
  have hch := ri.chain
  simp only [acc_provided, acc_absorbed] at hch
  have hX : provSum [e₁, e₂] - absSum [e₁, e₂] = delivered o e₁.name + delivered o e₂.name := by
    rw [d₁, d₂]
    simp only [provSum, absSum, StepOut.net, List.map_cons, List.map_nil, List.sum_cons, List.sum_nil]
    ring
  rw [if_neg (by linarith)] at hch
  have h0' : 0 ≤ -(provSum (trF ++ trC) - absSum (trF ++ trC)) := by linarith
  have hgr := hch.source_greedy hfe h0' hnd
  have habs := (hch.source hfe h0').1 e₁ (by simp)
  have c₁ : (h₂ e₁.id).canProvide = some ((t.rows.getD (m.heap e₁.id).currentStep []).getD 0 0) := by
    rw [r.ok.flex_untouched ri (by simp)]
    obtain ⟨rr, hr⟩ := (live _ hp).row wp.ts.series
    obtain ⟨y, rfl, -, -⟩ := wp.itemAt hr
    have hg' : t.rows.getD (m.heap e₁.id).currentStep [] = [y] := by rw [List.getD_eq_getElem?_getD, hr]; rfl
    rw [hg']
    simp only [Module.canProvide, wp.kind, hr]
    rfl
  simp only [List.map_cons, List.map_nil, greedy, c₁, capMin, List.cons.injEq] at hgr
  have e : delivered o e₁.name = e₁.out.info.provided.getD 0 := by
    rw [d₁, StepOut.net, habs.1]; simp
  rw [← hX, e, hgr.1]
  congr 1
  linarith

/-- The run carries out the plan, and costs what its steps cost. -/
theorem Ready.as_planned (r : Ready mods pl m) (hid : (mods.map Prod.snd).Nodup) (live : ∀ nm ∈ mods, (m.heap nm.2).Live)
    (poses : Poses m.heap mods P) (hf : Feasible P x) (hh : 0 < P.horizon)
    (ex : Executable m.heap mods (x.u 0) (x.flow P.genset 0)) (carries : Carries m.heap mods P x ctl)
    (hr : m.run ctl false = (g', .ok o)) : AsPlanned m.heap mods P (x.flow P.genset 0) o g'.heap := by
  obtain ⟨trF, trC, trX, h₁, h₂, ci, ri⟩ := Microgrid.run_ok hr
  have hs := r.supplies poses hf hh carries
  have sok := ((feasible_iff P x).mp hf) 0 hh
  have ev : ∀ nm ∈ mods, ∃ e ∈ trF ++ trC ++ trX, (e.name, e.id) = nm ∧ delivered o nm.1 = StepOut.net e.out ∧
      Facts m g' P (x.flow P.genset 0) e := by
    intro nm hm
    obtain ⟨e, he, hee⟩ := List.mem_map.mp ((r.ok.events_perm r.clear hs ri).mem_iff.mpr hm)
    refine ⟨e, he, hee, ?_, r.facts hid live poses hf hh ex carries ri he⟩
    rw [← hee]
    exact (run_event r.ok hid r.placed.names r.clear hs ri he).2.1
  obtain ⟨nl, hml, -, cl⟩ := r.placed.load
  obtain ⟨tl, wl⟩ := (r.ok.wf nl hml).loadWF cl
  obtain ⟨np, hmp, -, cp⟩ := r.placed.pv
  obtain ⟨tp, wp⟩ := (r.ok.wf np hmp).renWF cp
  obtain ⟨nb, hmb, -, -, cb⟩ := r.placed.battery
  obtain ⟨b, wb⟩ := (r.ok.wf nb hmb).batWF cb
  obtain ⟨nu, hmu, cu⟩ := r.placed.balancing
  obtain ⟨u, hu⟩ : ∃ u, (m.heap nu.2).kind = .balancing u := by
    cases hk : (m.heap nu.2).kind <;> rw [hk] at cu <;> simp [Kind.cls] at cu ⊢
  have fload : ∀ nm ∈ mods, ∀ t, (m.heap nm.2).kind = .load t → delivered o nm.1 = -P.inputs.load.getD 0 0 := by
    intro nm hm t ht
    obtain ⟨e, he, rfl, hd, fa⟩ := ev nm hm
    rw [hd]; exact (fa.load t ht).1
  have fbat : ∀ nm ∈ mods, ∀ b, (m.heap nm.2).kind = .battery b →
      delivered o nm.1 = (x.flow P.genset 0).discharge - (x.flow P.genset 0).charge ∧
        ∃ b', (g'.heap nm.2).kind = .battery b' ∧ b'.soc = (x.flow P.genset 0).soc := by
    intro nm hm b hb
    obtain ⟨e, he, rfl, hd, fa⟩ := ev nm hm
    rw [hd]; exact ⟨(fa.battery b hb).1, (fa.battery b hb).2.1⟩
  have fgrid : ∀ nm ∈ mods, ∀ p t, (m.heap nm.2).kind = .grid p t →
      delivered o nm.1 = (x.flow P.genset 0).imp - (x.flow P.genset 0).exp := by
    intro nm hm p t hk
    obtain ⟨e, he, rfl, hd, fa⟩ := ev nm hm
    rw [hd]; exact (fa.grid p t hk).1
  have fgen : ∀ nm ∈ mods, ∀ n, (m.heap nm.2).kind = .genset n → delivered o nm.1 = (x.flow P.genset 0).genset := by
    intro nm hm n hk
    obtain ⟨e, he, rfl, hd, fa⟩ := ev nm hm
    rw [hd]; exact (fa.genset n hk).1
  -- the balance
  have htot : (mods.map fun nm => delivered o nm.1).sum = 0 := by
    have hbal := r.ok.balance hmu (by simp only [Module.canProvide, hu]) ri
    rw [← sum_modules r.ok r.clear hs ri (F := fun e => StepOut.net e.out) (G := fun nm => delivered o nm.1)
      (fun e he => (run_event r.ok hid r.placed.names r.clear hs ri he).2.1.symm)]
    have : ((trF ++ trC ++ trX).map fun e => StepOut.net e.out).sum =
        provSum (trF ++ trC ++ trX) - absSum (trF ++ trC ++ trX) := by
      unfold provSum absSum StepOut.net
      generalize trF ++ trC ++ trX = l
      induction l with
      | nil => simp
      | cons a l ih =>
        simp only [List.map_cons, List.sum_cons, ih]
        ring
    rw [this, hbal, sub_self]
  have hnd : mods.Nodup := List.Nodup.of_map _ r.placed.names
  have one : ∀ nm ∈ mods, clsSum m.heap mods (fun nm => delivered o nm.1) (m.heap nm.2).kind.cls = delivered o nm.1 :=
    fun nm hm => clsSum_one hnd _ hm fun y hy hc => r.placed.uniq y hy nm hm hc
  have sgrid : clsSum m.heap mods (fun nm => delivered o nm.1) .grid =
      (x.flow P.genset 0).imp - (x.flow P.genset 0).exp := by
    rcases r.placed.grid with ⟨nm, hm, -, hc⟩ | ⟨-, hc⟩
    · have := one nm hm
      rw [hc] at this
      obtain ⟨p, t, w⟩ := (r.ok.wf nm hm).gridWF hc
      rw [this, fgrid nm hm p t w.kind]
    · rw [clsSum_none _ hc]
      obtain ⟨h1, h2, h3⟩ := poses.noGrid fun nm hm p t hk => hc nm hm (by rw [hk]; rfl)
      have hi := sok.imp
      have hx := sok.exp
      rw [h2, zero_mul] at hi
      rw [h3, zero_mul] at hx
      linarith [hi.1, hi.2, hx.1, hx.2]
  have sgen : clsSum m.heap mods (fun nm => delivered o nm.1) .genset = (x.flow P.genset 0).genset := by
    rcases r.placed.genset with ⟨nm, hm, -, hc⟩ | ⟨-, hc⟩
    · have := one nm hm
      rw [hc] at this
      obtain ⟨n, w⟩ := (r.ok.wf nm hm).gensetWF hc
      rw [this, fgen nm hm n w.kind]
    · rw [clsSum_none _ hc]
      have := sok.genset
      rw [if_neg (by rw [poses.noGenset fun nm hm n hk => hc nm hm (by rw [hk]; rfl)]; simp)] at this
      exact this.symm
  rw [clsSum_all m.heap, sgrid, sgen] at htot
  have l1 := one nl hml
  have l2 := one np hmp
  have l3 := one nb hmb
  have l4 := one nu hmu
  rw [cl] at l1
  rw [cp] at l2
  rw [cb] at l3
  rw [cu] at l4
  rw [l1, l2, l3, l4, fload nl hml tl wl.kind, (fbat nb hmb b wb.kind).1] at htot
  have hpv : P.inputs.pv.getD 0 0 = (tp.rows.getD (m.heap np.2).currentStep []).getD 0 0 := by
    rw [poses.pv np hmp tp wp.kind, outlook_zero]
  have hbal := sok.balance
  have hcur := sok.curtailed
  have hloss := sok.loss
  have hD : delivered o np.1 + delivered o nu.1 =
      P.inputs.pv.getD 0 0 - (x.flow P.genset 0).curtailed + (x.flow P.genset 0).loss := by linarith
  have hdis := r.dispatch hid live hs (fun nm hm p t hk => (ex.grid nm hm p t hk).1) hmp wp hmu hu ri
    (by rw [hD]; linarith [hcur.2, hloss.1])
  rw [← hpv, hD] at hdis
  refine ⟨fload, fbat, fgrid, fgen, ?_, ?_⟩
  · intro nm hm t ht
    rw [r.placed.uniq nm hm np hmp (by rw [ht, cp]; rfl), hdis]
    rcases le_total (x.flow P.genset 0).curtailed (x.flow P.genset 0).loss with h | h
    · rw [min_eq_left (by linarith), max_eq_left (by linarith)]; ring
    · rw [min_eq_right (by linarith), max_eq_right (by linarith)]; ring
  · intro nm hm u' hu'
    rw [r.placed.uniq nm hm nu hmu (by rw [hu', cu]; rfl)]
    rcases le_total (x.flow P.genset 0).curtailed (x.flow P.genset 0).loss with h | h
    · rw [min_eq_left (by linarith)] at hdis
      rw [max_eq_right (by linarith)]; linarith
    · rw [min_eq_right (by linarith)] at hdis
      rw [max_eq_left (by linarith)]; linarith

/-- What the run costs. -/
theorem Ready.charges (r : Ready mods pl m) (hid : (mods.map Prod.snd).Nodup) (live : ∀ nm ∈ mods, (m.heap nm.2).Live)
    (poses : Poses m.heap mods P) (hf : Feasible P x) (hh : 0 < P.horizon)
    (ex : Executable m.heap mods (x.u 0) (x.flow P.genset 0)) (carries : Carries m.heap mods P x ctl)
    (hr : m.run ctl false = (g', .ok o)) (hsh : m.shaper = none) {c : ℚ}
    (hc : ∀ nm ∈ mods, ∀ p t, (m.heap nm.2).kind = .grid p t → p.costPerCo2 = c) :
    -o.reward = charged P c (x.flow P.genset 0) := by
  have ap := r.as_planned hid live poses hf hh ex carries hr
  obtain ⟨trF, trC, trX, h₁, h₂, ci, ri⟩ := Microgrid.run_ok hr
  have hs := r.supplies poses hf hh carries
  have sok := ((feasible_iff P x).mp hf) 0 hh
  have hrew := ri.reward
  rw [hsh] at hrew
  simp only [StepAcc.shapedReward, Except.ok.injEq, StepAcc.run_reward] at hrew
  set f := x.flow P.genset 0 with hfdef
  let G : String × Nat → ℚ := fun nm =>
    match (m.heap nm.2).kind with
    | .load _ => 0
    | .renewable _ => 0
    | .battery _ => -(P.static.cycle * (P.static.eta * f.charge + f.discharge / P.static.eta))
    | .grid _ _ => -(P.inputs.importPrice.getD 0 0 * max 0 (f.imp - f.exp)) +
        P.inputs.exportPrice.getD 0 0 * max 0 (f.exp - f.imp) - c * (P.inputs.gridCo2.getD 0 0 * max 0 (f.imp - f.exp))
    | .genset _ => -(P.static.fuel * f.genset + P.static.costCo2 * (P.static.gensetCo2 * f.genset))
    | .balancing _ => -(P.static.lossLoad * max 0 (f.loss - f.curtailed))
  have hG : ∀ e ∈ trF ++ trC ++ trX, e.out.reward = G (e.name, e.id) := by
    intro e he
    have fa := r.facts hid live poses hf hh ex carries ri he
    obtain ⟨-, hd, hm⟩ := run_event r.ok hid r.placed.names r.clear hs ri he
    simp only [G]
    cases hk : (m.heap e.id).kind with
    | load t => exact (fa.load t hk).2
    | renewable t => exact fa.pv t hk
    | battery b => exact (fa.battery b hk).2.2
    | grid p t => simp only [(fa.grid p t hk).2, hc _ hm p t hk]; rfl
    | genset n => exact (fa.genset n hk).2
    | balancing u =>
      have h1 := ap.balancing _ hm u hk
      have h2 : StepOut.net e.out = max 0 (f.loss - f.curtailed) := by rw [← hd]; exact h1
      simp only [fa.balancing u hk (by rw [h2]; exact le_max_left _ _), h2]
  have hsum := sum_modules r.ok r.clear hs ri hG
  have hnd : mods.Nodup := List.Nodup.of_map _ r.placed.names
  have one : ∀ nm ∈ mods, clsSum m.heap mods G (m.heap nm.2).kind.cls = G nm :=
    fun nm hm => clsSum_one hnd _ hm fun y hy hc => r.placed.uniq y hy nm hm hc
  obtain ⟨nl, hml, -, cl⟩ := r.placed.load
  obtain ⟨tl, wl⟩ := (r.ok.wf nl hml).loadWF cl
  obtain ⟨np, hmp, -, cp⟩ := r.placed.pv
  obtain ⟨tp, wp⟩ := (r.ok.wf np hmp).renWF cp
  obtain ⟨nb, hmb, -, -, cb⟩ := r.placed.battery
  obtain ⟨b, wb⟩ := (r.ok.wf nb hmb).batWF cb
  obtain ⟨nu, hmu, cu⟩ := r.placed.balancing
  obtain ⟨u, hu⟩ : ∃ u, (m.heap nu.2).kind = .balancing u := by
    cases hk : (m.heap nu.2).kind <;> rw [hk] at cu <;> simp [Kind.cls] at cu ⊢
  have l1 := one nl hml
  have l2 := one np hmp
  have l3 := one nb hmb
  have l4 := one nu hmu
  rw [cl] at l1
  rw [cp] at l2
  rw [cb] at l3
  rw [cu] at l4
  simp only [G, wl.kind] at l1
  simp only [G, wp.kind] at l2
  simp only [G, wb.kind] at l3
  simp only [G, hu] at l4
  have sgrid : clsSum m.heap mods G .grid = -(P.inputs.importPrice.getD 0 0 * max 0 (f.imp - f.exp)) +
        P.inputs.exportPrice.getD 0 0 * max 0 (f.exp - f.imp) - c * (P.inputs.gridCo2.getD 0 0 * max 0 (f.imp - f.exp)) := by
    rcases r.placed.grid with ⟨nm, hm, -, hc⟩ | ⟨-, hc⟩
    · have := one nm hm
      rw [hc] at this
      obtain ⟨p, t, w⟩ := (r.ok.wf nm hm).gridWF hc
      rw [this]
      simp only [G, w.kind]
    · rw [clsSum_none _ hc]
      obtain ⟨h1, h2, h3⟩ := poses.noGrid fun nm hm p t hk => hc nm hm (by rw [hk]; rfl)
      have hi := sok.imp
      have hx := sok.exp
      rw [h2, zero_mul] at hi
      rw [h3, zero_mul] at hx
      have i0 : f.imp = 0 := le_antisymm hi.2 hi.1
      have x0 : f.exp = 0 := le_antisymm hx.2 hx.1
      rw [i0, x0]
      simp
  have sgen : clsSum m.heap mods G .genset =
      -(P.static.fuel * f.genset + P.static.costCo2 * (P.static.gensetCo2 * f.genset)) := by
    rcases r.placed.genset with ⟨nm, hm, -, hc⟩ | ⟨-, hc⟩
    · have := one nm hm
      rw [hc] at this
      obtain ⟨n, w⟩ := (r.ok.wf nm hm).gensetWF hc
      rw [this]
      simp only [G, w.kind]
    · rw [clsSum_none _ hc]
      have := sok.genset
      rw [if_neg (by rw [poses.noGenset fun nm hm n hk => hc nm hm (by rw [hk]; rfl)]; simp)] at this
      rw [show f.genset = 0 from this]
      simp
  rw [clsSum_all m.heap, l1, l2, l3, l4, sgrid, sgen] at hsum
  rw [← hrew, hsum]
  unfold charged
  ring

/-! ### Steps that cannot be executed -/

/-- What limits the modules, whatever is planned. -/
theorem Ready.limits (r : Ready mods pl m) (hid : (mods.map Prod.snd).Nodup) (live : ∀ nm ∈ mods, (m.heap nm.2).Live)
    (poses : Poses m.heap mods P) (hf : Feasible P x) (hh : 0 < P.horizon) (carries : Carries m.heap mods P x ctl)
    (hr : m.run ctl false = (g', .ok o)) :
    (∀ nm ∈ mods, ∀ p t, (m.heap nm.2).kind = .grid p t → (m.heap nm.2).ffc = .controllable →
      (t.rows.getD (m.heap nm.2).currentStep []).getD 3 0 = 0 → delivered o nm.1 = 0) ∧
    (∀ nm ∈ mods, ∀ b, (m.heap nm.2).kind = .battery b → delivered o nm.1 ≤ b.maxDischarge * b.efficiency) ∧
    (∀ nm ∈ mods, ∀ n, (m.heap nm.2).kind = .genset n → n.status = 0 → n.untilUp ≠ 0 → delivered o nm.1 = 0) := by
  obtain ⟨trF, trC, trX, h₁, h₂, ci, ri⟩ := Microgrid.run_ok hr
  have hs := r.supplies poses hf hh carries
  have ev : ∀ nm ∈ mods, ∃ e ∈ trF ++ trC ++ trX, (e.name, e.id) = nm := by
    intro nm hm
    obtain ⟨e, he, hee⟩ := List.mem_map.mp ((r.ok.events_perm r.clear hs ri).mem_iff.mpr hm)
    exact ⟨e, he, hee⟩
  refine ⟨?_, ?_, ?_⟩
  · intro nm hm p t hk hctl h0
    obtain ⟨e, he, rfl⟩ := ev nm hm
    obtain ⟨hst, hd, -⟩ := run_event r.ok hid r.placed.names r.clear hs ri he
    obtain ⟨p', t', w⟩ := (r.ok.wf _ hm).gridWF (by rw [hk]; rfl)
    have hkk := w.kind
    rw [hk] at hkk
    obtain ⟨rfl, rfl⟩ := Kind.grid.inj hkk
    obtain ⟨ha, hn⟩ := run_act r.ok ri he hctl (carries.grid _ hm p t hk) rfl
    rw [ha, hn, w.ts.step_eq, request_num] at hst
    simp only at hd hst h0 ⊢
    obtain ⟨rr, hrr⟩ := (live _ hm).row w.ts.series
    obtain ⟨imp, exp, co2, st, rfl, -, -⟩ := w.row hrr
    have hg : t.rows.getD (m.heap e.id).currentStep [] = [imp, exp, co2, st] := by
      rw [List.getD_eq_getElem?_getD, hrr]; rfl
    rw [hg] at h0
    simp only [List.getD_cons_succ, List.getD_cons_zero] at h0
    subst h0
    generalize (x.flow P.genset 0).imp - (x.flow P.genset 0).exp = q at hst
    have hun := (w.unnormalizedStep q).2 _ _ _ _ hrr
    have works : t.Works := by
      cases r.ok.wf _ hm with
      | grid p' t' h' w' =>
        have := h'.kind
        rw [hk] at this
        exact (Kind.grid.inj this).2 ▸ w'
      | load t h' w' => have := h'.kind; rw [hk] at this; exact absurd this (by simp)
      | renewable t h' w' => have := h'.kind; rw [hk] at this; exact absurd this (by simp)
      | battery t h' => have := h'.kind; rw [hk] at this; exact absurd this (by simp)
      | genset t h' => have := h'.kind; rw [hk] at this; exact absurd this (by simp)
      | balancing t h' => have := h'.kind; rw [hk] at this; exact absurd this (by simp)
    rw [hd]
    rcases le_or_gt 0 q with hq | hq
    · have hun := hun.1 hq
      split at hun
      · unfold Module.stepEnergy at hst
        rw [hun] at hst
        split at hst <;> simp at hst
      · rw [mul_zero, min_eq_right hq] at hun
        obtain ⟨pre, row, f, obs, -, -, -, -, he'⟩ := w.ts.stepEnergy_ok hun (by simp [w.prov]) (by simp) works
        simp only [he', Prod.mk.injEq, Except.ok.injEq] at hst
        obtain ⟨-, hst⟩ := hst
        rw [← hst]
        simp [StepOut.net]
    · have hun := hun.2 hq
      split at hun
      · unfold Module.stepEnergy at hst
        rw [hun] at hst
        split at hst <;> simp at hst
      · rw [mul_zero, min_eq_right (by linarith)] at hun
        obtain ⟨pre, row, f, obs, -, -, -, -, he'⟩ := w.ts.stepEnergy_ok hun (by simp) (by simp [w.abs]) works
        simp only [he', Prod.mk.injEq, Except.ok.injEq] at hst
        obtain ⟨-, hst⟩ := hst
        rw [← hst]
        simp [StepOut.net]
  · intro nm hm b hk
    obtain ⟨e, he, rfl⟩ := ev nm hm
    obtain ⟨hst, hd, -⟩ := run_event r.ok hid r.placed.names r.clear hs ri he
    obtain ⟨b', w⟩ := (r.ok.wf _ hm).batWF (by rw [hk]; rfl)
    have hkk := w.kind
    rw [hk] at hkk
    obtain rfl := Kind.battery.inj hkk
    obtain ⟨ha, hn⟩ := run_act r.ok ri he w.ffc (carries.battery _ hm b hk) rfl
    rw [ha, hn, w.step_eq, request_num] at hst
    simp only at hd hst ⊢
    generalize (x.flow P.genset 0).discharge - (x.flow P.genset 0).charge = q at hst
    have hmax : b.maxProduction ≤ b.maxDischarge * b.efficiency :=
      mul_le_mul_of_nonneg_right (min_le_left _ _) w.valid.eff_pos.le
    have h0 := w.valid.maxProduction_nonneg
    have := w.stepEnergy q
    rw [hd]
    split at this
    · split at this
      · rw [this] at hst; simp at hst
      · obtain ⟨m₁, o₁, e', s⟩ := this
        simp only [e', Prod.mk.injEq, Except.ok.injEq] at hst
        obtain ⟨-, hst⟩ := hst
        rw [← hst, StepOut.net, s.provided, s.absorbed]
        simp only [Dir.out, Dir.into, Option.getD_some, Option.getD_none, sub_zero]
        exact (min_le_right _ _).trans hmax
    · split at this
      · rw [this] at hst; simp at hst
      · obtain ⟨m₁, o₁, e', s⟩ := this
        simp only [e', Prod.mk.injEq, Except.ok.injEq] at hst
        obtain ⟨-, hst⟩ := hst
        have := s.nonneg
        rw [← hst, StepOut.net, s.provided, s.absorbed]
        simp only [Dir.out, Dir.into, Option.getD_some, Option.getD_none]
        linarith
  · intro nm hm n hk h0 hu
    obtain ⟨e, he, rfl⟩ := ev nm hm
    obtain ⟨hst, hd, -⟩ := run_event r.ok hid r.placed.names r.clear hs ri he
    obtain ⟨n', w⟩ := (r.ok.wf _ hm).gensetWF (by rw [hk]; rfl)
    have hkk := w.kind
    rw [hk] at hkk
    obtain rfl := Kind.genset.inj hkk
    obtain ⟨ha, hn⟩ := run_act r.ok ri he w.ffc (carries.genset _ hm n hk) rfl
    rw [ha, hn] at hst
    simp only at hd hst ⊢
    have key := (((feasible_iff P x).mp hf) 0 hh).genset
    rw [if_pos (poses.genset _ hm n hk).1] at key
    obtain ⟨action, ha2, hux⟩ : ∃ action : Nat, action < 2 ∧ x.u 0 = action := by
      rcases key with ⟨k1, -⟩ | ⟨k1, -⟩
      · exact ⟨0, by omega, by rw [k1]; simp⟩
      · exact ⟨1, by omega, by rw [k1]; simp⟩
    rw [hux] at hst
    obtain ⟨n', e', wf, hs', hsp⟩ := w.goal (action := action) ha2
    have hstat : n'.status = 0 := by
      rw [hs']
      simp [Genset.nextStatus, h0, hu]
    have h01 : (0 : ℚ) ≤ action ∧ (action : ℚ) ≤ 1 := by
      refine ⟨by positivity, ?_⟩
      have : action ≤ 1 := by omega
      exact_mod_cast this
    rw [w.step_eq] at hst
    simp only [List.getElem?_cons_zero] at hst
    rw [if_neg (not_not.mpr h01), e', request_genset w] at hst
    simp only at hst
    generalize (x.flow P.genset 0).genset = q at hst
    have := wf.stepEnergy q
    rw [hd]
    split at this
    · rw [this] at hst; simp at hst
    rename_i hq
    split at this
    · rw [this] at hst; simp at hst
    · obtain ⟨m₁, o₁, e', s⟩ := this
      simp only [e', Prod.mk.injEq, Except.ok.injEq] at hst
      obtain ⟨-, hst⟩ := hst
      rw [← hst, StepOut.net, s.provided, s.absorbed]
      have z1 : n'.minProduction = 0 := by simp [Genset.minProduction, hstat]
      have z2 : n'.maxProduction = 0 := by simp [Genset.maxProduction, hstat]
      rw [z1, z2]
      simp only [clamp, Option.getD_some, Option.getD_none, sub_zero]
      split
      · rfl
      · rename_i h3
        exact le_antisymm (not_lt.mp h3) (not_lt.mp hq)

end

end MPC

end Pymgrid
