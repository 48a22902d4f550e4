import Verif.Lemmas.Cls
import Verif.Props.Episode

set_option autoImplicit false

/-!
# C42: the reward shapers of the library

For every microgrid made with one of the shapers, every history and every successful run.
-/

namespace Pymgrid

open Module

/-! ### Lemmas -/

theorem sumModuleVal_eq {infos : List (String × List Info)} {name : String} {attr : Info → Option ℚ} {l : List Info}
    (hl : (dictGet? infos name).getD [] = l) (h : l.length ≤ 1 ∨ ∀ i ∈ l, (attr i).isSome = true) :
    Shaper.sumModuleVal infos name attr = (l.map fun i => (attr i).getD 0).sum := by
  have key : ∀ l : List Info, (∀ i ∈ l, (attr i).isSome = true) →
      l.mapM attr = some (l.map fun i => (attr i).getD 0) := by
    intro l
    induction l with
    | nil => intro _; rfl
    | cons i l ih =>
      intro h
      obtain ⟨q, hq⟩ := Option.isSome_iff_exists.mp (h i (by simp))
      rw [List.mapM_cons, hq, ih (fun j hj => h j (by simp [hj]))]
      simp [hq]
  unfold Shaper.sumModuleVal
  cases hd : dictGet? infos name with
  | none => rw [hd] at hl; simp at hl; simp [hl]
  | some l' =>
    rw [hd] at hl
    simp only [Option.getD_some] at hl
    subst hl
    simp only
    by_cases ha : ∀ i ∈ l', (attr i).isSome = true
    · rw [key l' ha]
    · rcases h with h | h
      · match l', h with
        | [], _ => simp at ha
        | [i], _ =>
          simp only [List.mem_singleton, forall_eq, Bool.not_eq_true, Option.isSome_eq_false_iff,
            Option.isNone_iff_eq_none] at ha
          rw [List.mapM_cons, ha]
          simp [ha]
      · exact absurd h ha

/-- The steps of a load always report what they absorb. -/
theorem load_absorbs {m m' : Module} {a : Act} {n : Bool} {o : StepOut} (hk : m.kind.cls = .load)
    (h : m.step a n = (m', .ok o)) : o.info.absorbed.isSome = true := by
  obtain ⟨t, hk⟩ : ∃ t, m.kind = .load t := by
    cases h : m.kind <;> rw [h] at hk <;> simp [Kind.cls] at hk
    exact ⟨_, rfl⟩
  rw [step_eq_baseStep m a n (by intro g; simp [hk]), baseStep_eq] at h
  cases hq : m.request a n with
  | error e => rw [hq] at h; simp at h
  | ok q =>
    rw [hq] at h
    obtain ⟨pre, row, m₁, u, -, hu, -, -, -, -, -, hi⟩ := stepEnergy_inv h
    rw [hi]
    have hup : ∀ e d m₁ u, m.update e d = (m₁, .ok u) → u.info.absorbed.isSome = true := by
      intro e d m₁ u hu
      simp only [Module.update, hk, loadUpdate] at hu
      cases d with
      | source => simp at hu
      | sink =>
        simp only at hu
        split at hu
        · simp at hu
        · simp only [Prod.mk.injEq, Except.ok.injEq] at hu
          rw [← hu.2]; rfl
    unfold Module.unnormalizedStep asSource asSink at hu
    repeat' split at hu
    all_goals first | exact hup _ _ _ _ hu | simp at hu

section
variable {h : Heap} {mods : List (String × Nat)} {sh : Shaper}
  {tr : Option (Nat → Nat → Option Nat → Except Err (Nat × Nat))} {g₀ : Microgrid}

theorem perm_named {tr : List Event} (hp : (tr.map fun e => (e.name, e.id)).Perm mods) (name : String) :
    (tr.filter fun e => decide (e.name = name)).length = countNamed mods name := by
  have := (hp.filter fun nm => decide (nm.1 = name)).length_eq
  rw [List.filter_map, List.length_map] at this
  exact this

theorem shaped_run (hc : Microgrid.create h mods (some sh) tr = .ok g₀)
    (hl : ∀ nm ∈ mods, LibraryModule (h nm.2)) (hu : ClearNames h mods)
    (ops : List GOp) (control : List (String × Ctrl)) (hs : Supplies h mods control) (n : Bool) (g' : Microgrid)
    (o : RunOut) (hr : (runG g₀ ops).run control n = (g', .ok o)) :
    ∃ trace ci, Exec (runG g₀ ops).heap trace g'.heap ∧ Reported trace o ∧
      (trace.map fun e => (e.name, e.id)).Perm mods ∧ sh o.infos ci = .ok o.reward := by
  obtain ⟨ok, alike, hsh, -⟩ := user_grid hc hl ops
  obtain ⟨trF, trC, trX, h₁, h₂, ci, r⟩ := Microgrid.run_ok hr
  refine ⟨trF ++ trC ++ trX, ci, r.exec, r.reported, ok.events_perm (hu.congr alike) (hs.congr alike) r, ?_⟩
  have := r.reward
  rw [hsh] at this
  rw [r.infos]
  exact this

/-! ### The shaper for battery discharge -/

/-- C42 (partial): in a microgrid with at most one module named `battery`, whose modules named `load` are loads, and
    with at most one module named `unbalanced_energy`, every successful run under `BatteryDischargeShaper` returns
    (energy from the battery − energy from `unbalanced_energy`) / load, or 0 without load, and the value is in
    `[-1, 1]` up to the tolerance of `np.isclose`.
    Missing: several batteries (`C42_charging_hides_discharge`), the loss of load under its default name
    (`C42_loss_ignored`), and that the run does not fail (`C42_export_fails`). -/
theorem C42_battery_discharge_partial (hc : Microgrid.create h mods (some Shaper.batteryDischarge) tr = .ok g₀)
    (hl : ∀ nm ∈ mods, LibraryModule (h nm.2)) (hu : ClearNames h mods)
    (hb : countNamed mods "battery" ≤ 1) (hx : countNamed mods "unbalanced_energy" ≤ 1)
    (hload : ∀ nm ∈ mods, nm.1 = "load" → (h nm.2).kind.cls = .load)
    (ops : List GOp) (control : List (String × Ctrl)) (hs : Supplies h mods control) (n : Bool) (g' : Microgrid)
    (o : RunOut) (hr : (runG g₀ ops).run control n = (g', .ok o)) :
    ∃ trace, Exec (runG g₀ ops).heap trace g'.heap ∧ Reported trace o ∧
      (trace.map fun e => (e.name, e.id)).Perm mods ∧
      (absorbedBy trace "load" = 0 → o.reward = 0) ∧
      (absorbedBy trace "load" ≠ 0 → o.reward =
        (providedBy trace "battery" - providedBy trace "unbalanced_energy") / absorbedBy trace "load") ∧
      -1 ≤ o.reward ∧ o.reward ≤ 1 + 1/100000000 + 1/100000 := by
  obtain ⟨trace, ci, he, hrep, hp, hsh⟩ := shaped_run hc hl hu ops control hs n g' o hr
  have h1 : Shaper.sumModuleVal o.infos "battery" Info.provided = providedBy trace "battery" := by
    rw [sumModuleVal_eq (hrep "battery").1 (.inl (by rw [List.length_map, perm_named hp]; exact hb)), List.map_map]
    rfl
  have h2 : Shaper.sumModuleVal o.infos "unbalanced_energy" Info.provided = providedBy trace "unbalanced_energy" := by
    rw [sumModuleVal_eq (hrep "unbalanced_energy").1 (.inl (by rw [List.length_map, perm_named hp]; exact hx)),
      List.map_map]
    rfl
  have h3 : Shaper.sumModuleVal o.infos "load" Info.absorbed = absorbedBy trace "load" := by
    rw [sumModuleVal_eq (hrep "load").1 (.inr ?_), List.map_map]
    · rfl
    · intro i hi
      obtain ⟨e, hee, rfl⟩ := List.mem_map.mp hi
      obtain ⟨hem, hen⟩ := List.mem_filter.mp hee
      have hm := hp.subset (List.mem_map_of_mem (f := fun e : Event => (e.name, e.id)) hem)
      obtain ⟨pre, h₁, m', hpre, hst⟩ := he.event hem
      refine load_absorbs ?_ hst
      have hk1 := kept_cls.toRespected.exec hpre e.id
      have hk2 := kept_cls.runG g₀ ops e.id
      rw [(Microgrid.create_ok hc).1] at hk2
      exact hk1.trans (hk2.trans (hload _ hm (by simpa using hen)))
  refine ⟨trace, he, hrep, hp, ?_⟩
  unfold Shaper.batteryDischarge at hsh
  simp only [h1, h2, h3] at hsh
  by_cases h0 : absorbedBy trace "load" = 0
  · rw [if_pos h0] at hsh
    have : o.reward = 0 := (Except.ok.inj hsh).symm
    rw [this]
    exact ⟨fun _ => rfl, fun hne => absurd h0 hne, by norm_num, by norm_num⟩
  · rw [if_neg h0] at hsh
    split at hsh
    · rename_i hcond
      have hrw := Except.ok.inj hsh
      refine ⟨fun h => absurd h h0, fun _ => hrw.symm, ?_⟩
      rw [hrw] at hcond
      rcases hcond with ⟨h1, h2⟩ | h1 | h1
      · exact ⟨h1, by linarith⟩
      · simp only [isclose, decide_eq_true_eq, abs_one] at h1
        obtain ⟨h1, h2⟩ := abs_le.mp h1
        constructor <;> linarith
      · simp only [isclose, decide_eq_true_eq, abs_zero, sub_zero] at h1
        obtain ⟨h1, h2⟩ := abs_le.mp h1
        constructor <;> linarith
    · simp at hsh

/-- C42: the shaper does not raise on infos whose battery discharge and loss of load both lie between 0 and the
    load. -/
theorem C42_no_failure_within_load (infos : List (String × List Info)) (ci : CostInfo) {d l u : ℚ}
    (hd : ∀ i ∈ (dictGet? infos "battery").getD [], i.provided.isSome = true)
    (hl : ∀ i ∈ (dictGet? infos "load").getD [], i.absorbed.isSome = true)
    (hu : ∀ i ∈ (dictGet? infos "unbalanced_energy").getD [], i.provided.isSome = true)
    (ed : (((dictGet? infos "battery").getD []).map fun i => i.provided.getD 0).sum = d)
    (el : (((dictGet? infos "load").getD []).map fun i => i.absorbed.getD 0).sum = l)
    (eu : (((dictGet? infos "unbalanced_energy").getD []).map fun i => i.provided.getD 0).sum = u)
    (d0 : 0 ≤ d) (dl : d ≤ l) (u0 : 0 ≤ u) (ul : u ≤ l) :
    ∃ r, Shaper.batteryDischarge infos ci = .ok r ∧ -1 ≤ r ∧ r ≤ 1 ∧ r * l = d - u := by
  unfold Shaper.batteryDischarge
  simp only
  rw [sumModuleVal_eq rfl (.inr hd), sumModuleVal_eq rfl (.inr hl), sumModuleVal_eq rfl (.inr hu), ed, el, eu]
  by_cases h0 : l = 0
  · rw [if_pos h0]
    exact ⟨0, rfl, by norm_num, by norm_num, by rw [zero_mul]; linarith⟩
  · have hpos : 0 < l := lt_of_le_of_ne (by linarith) (Ne.symm h0)
    have h1 : -1 ≤ (d - u) / l := by rw [le_div_iff₀ hpos]; linarith
    have h2 : (d - u) / l ≤ 1 := by rw [div_le_iff₀ hpos]; linarith
    rw [if_neg h0, if_pos (.inl ⟨h1, h2⟩)]
    exact ⟨_, rfl, h1, h2, by field_simp⟩

/-- C42 is violated: if no module is named `unbalanced_energy` (a microgrid names its own balancing module
    `balancing`), then loss of load does not enter the reward, however large it is. -/
theorem C42_loss_ignored (hc : Microgrid.create h mods (some Shaper.batteryDischarge) tr = .ok g₀)
    (hl : ∀ nm ∈ mods, LibraryModule (h nm.2)) (hu : ClearNames h mods)
    (hb : countNamed mods "battery" ≤ 1) (hx : countNamed mods "unbalanced_energy" = 0)
    (hload : ∀ nm ∈ mods, nm.1 = "load" → (h nm.2).kind.cls = .load)
    (ops : List GOp) (control : List (String × Ctrl)) (hs : Supplies h mods control) (n : Bool) (g' : Microgrid)
    (o : RunOut) (hr : (runG g₀ ops).run control n = (g', .ok o)) :
    ∃ trace, Exec (runG g₀ ops).heap trace g'.heap ∧ Reported trace o ∧
      (trace.map fun e => (e.name, e.id)).Perm mods ∧
      o.reward = providedBy trace "battery" / absorbedBy trace "load" := by
  obtain ⟨trace, he, hrep, hp, h1, h2, -⟩ :=
    C42_battery_discharge_partial hc hl hu hb (by omega) hload ops control hs n g' o hr
  refine ⟨trace, he, hrep, hp, ?_⟩
  have hz : providedBy trace "unbalanced_energy" = 0 := by
    have := perm_named hp "unbalanced_energy"
    rw [hx] at this
    unfold providedBy
    rw [List.length_eq_zero_iff.mp this]
    rfl
  by_cases h0 : absorbedBy trace "load" = 0
  · rw [h1 h0, h0, div_zero]
  · rw [h2 h0, hz, sub_zero]

/-! ### The shaper for curtailment -/

/-- C42 (partial): in a microgrid whose modules named `pv` are renewable modules, every successful run under
    `PVCurtailmentShaper` returns minus the part of their available production that was not used.
    Missing: renewable modules under another name, such as the default `renewable` (`C42_pv_default_name`). -/
theorem C42_pv_curtailment_partial (hc : Microgrid.create h mods (some Shaper.pvCurtailment) tr = .ok g₀)
    (hl : ∀ nm ∈ mods, LibraryModule (h nm.2)) (hid : (mods.map Prod.snd).Nodup) (hu : ClearNames h mods)
    (hpv : ∀ nm ∈ mods, nm.1 = "pv" → (h nm.2).kind.cls = .renewable)
    (ops : List GOp) (control : List (String × Ctrl)) (hs : Supplies h mods control) (n : Bool) (g' : Microgrid)
    (o : RunOut) (hr : (runG g₀ ops).run control n = (g', .ok o)) :
    ∃ trace, Exec (runG g₀ ops).heap trace g'.heap ∧ Reported trace o ∧
      (trace.map fun e => (e.name, e.id)).Perm mods ∧
      o.reward = - ((trace.filter fun e => decide (e.name = "pv")).map fun e =>
        (((runG g₀ ops).heap e.id).canProvide).getD 0 - e.out.info.provided.getD 0).sum := by
  obtain ⟨trace, ci, he, hrep, hp, hsh⟩ := shaped_run hc hl hu ops control hs n g' o hr
  obtain ⟨ok, -, -, -⟩ := user_grid hc hl ops
  have hnd : (trace.map Event.id).Nodup := by
    have := hp.map Prod.snd
    rw [List.map_map] at this
    exact this.nodup_iff.mpr hid
  have key : ∀ e ∈ trace.filter fun e => decide (e.name = "pv"),
      dictGet? e.out.info.extra (.str "curtailment") =
        some ((((runG g₀ ops).heap e.id).canProvide).getD 0 - e.out.info.provided.getD 0) := by
    intro e hee
    obtain ⟨hem, hen⟩ := List.mem_filter.mp hee
    have hm := hp.subset (List.mem_map_of_mem (f := fun e : Event => (e.name, e.id)) hem)
    have hst := he.once hnd hem
    have hk2 := kept_cls.runG g₀ ops e.id
    rw [(Microgrid.create_ok hc).1] at hk2
    have hk := hk2.trans (hpv _ hm (by simpa using hen))
    cases ok.wf _ hm with
    | renewable t wf w =>
      simp only at wf
      rw [wf.ts.step_eq] at hst
      cases hq : ((runG g₀ ops).heap e.id).request e.act e.normalized with
      | error er => rw [hq] at hst; simp at hst
      | ok q =>
        rw [hq] at hst
        obtain ⟨pre, row, m₁, u, -, hu, -, -, -, -, -, hi⟩ := stepEnergy_inv hst
        obtain ⟨h1, h2, h3⟩ := wf.unnormalizedStep q
        rw [hi]
        have hq0 : 0 ≤ q := by
          by_contra hcn
          obtain ⟨er, h⟩ := h1 (not_le.mp hcn)
          rw [h] at hu; simp at hu
        cases hrow : t.rows[((runG g₀ ops).heap e.id).currentStep]? with
        | none => obtain ⟨er, h⟩ := h2 hrow; rw [h] at hu; simp at hu
        | some row =>
          obtain ⟨x, rfl, -, -⟩ := wf.itemAt hrow
          have h4 := h3 x hrow hq0
          split at h4
          · rw [h4] at hu; simp at hu
          · rw [h4] at hu
            simp only [Prod.mk.injEq, Except.ok.injEq] at hu
            rw [← hu.2]
            simp [Module.canProvide, wf.kind, hrow, dictGet?]
    | battery b wf => simp only at wf; rw [wf.kind] at hk; simp [Kind.cls] at hk
    | genset b wf => simp only at wf; rw [wf.kind] at hk; simp [Kind.cls] at hk
    | grid p t wf w => simp only at wf; rw [wf.kind] at hk; simp [Kind.cls] at hk
    | load t wf w => simp only at wf; rw [wf.kind] at hk; simp [Kind.cls] at hk
    | balancing u wf => simp only at wf; rw [wf.kind] at hk; simp [Kind.cls] at hk
  refine ⟨trace, he, hrep, hp, ?_⟩
  unfold Shaper.pvCurtailment at hsh
  rw [sumModuleVal_eq (hrep "pv").1 (.inr ?_), List.map_map] at hsh
  · rw [← Except.ok.inj hsh, neg_one_mul]
    congr 2
    apply List.map_congr_left
    intro e hee
    simp [key e hee]
  · intro i hi
    obtain ⟨e, hee, rfl⟩ := List.mem_map.mp hi
    rw [key e hee]
    rfl

/-- C42 is violated for photovoltaics that are not named `pv` (the default name is `renewable`): the shaped reward is
    always 0. -/
theorem C42_pv_default_name (hc : Microgrid.create h mods (some Shaper.pvCurtailment) tr = .ok g₀)
    (hl : ∀ nm ∈ mods, LibraryModule (h nm.2)) (hu : ClearNames h mods)
    (hpv : ∀ nm ∈ mods, nm.1 ≠ "pv")
    (ops : List GOp) (control : List (String × Ctrl)) (hs : Supplies h mods control) (n : Bool) (g' : Microgrid)
    (o : RunOut) (hr : (runG g₀ ops).run control n = (g', .ok o)) : o.reward = 0 := by
  obtain ⟨trace, ci, he, hrep, hp, hsh⟩ := shaped_run hc hl hu ops control hs n g' o hr
  have hnil : (trace.filter fun e => decide (e.name = "pv")) = [] := by
    rw [List.filter_eq_nil_iff]
    intro e hem
    have hm := hp.subset (List.mem_map_of_mem (f := fun e : Event => (e.name, e.id)) hem)
    simpa using hpv _ hm
  have h1 := (hrep "pv").1
  rw [hnil] at h1
  unfold Shaper.pvCurtailment at hsh
  rw [sumModuleVal_eq h1 (.inl (by simp))] at hsh
  rw [← Except.ok.inj hsh]
  simp

end

/-! ### Examples and violations -/

/-- The example microgrid with the battery shaper, and with its balancing module under the name that the shaper
    expects. -/
def shapedMods : List (String × Nat) :=
  [("load", 0), ("pv", 1), ("battery", 2), ("genset", 3), ("grid", 4), ("unbalanced_energy", 5)]

def shapedGrid : Microgrid := okGrid (Microgrid.create demoHeap shapedMods (some Shaper.batteryDischarge) none)

/-- Non-vacuity of `C42_battery_discharge_partial`: of a load of 60 the battery serves 10 and 5 are lost;
    or nothing and 30 are lost. -/
example : Microgrid.create demoHeap shapedMods (some Shaper.batteryDischarge) none = .ok shapedGrid :=
  okGrid_eq (by decide +kernel)
example : countNamed shapedMods "battery" = 1 ∧ countNamed shapedMods "unbalanced_energy" = 1 ∧
    ∀ nm ∈ shapedMods, nm.1 = "load" → (demoHeap nm.2).kind.cls = .load := by decide +kernel
example : (shapedGrid.run demoControl false).2.toOption.map (·.reward) = some (1/12) := by decide +kernel
example : (shapedGrid.run demoControl₂ false).2.toOption.map (·.reward) = some (-1/2) := by decide +kernel

/-- The same microgrid with the default name: half of the load is lost, the reward is 0. -/
def unshapedGrid : Microgrid := okGrid (Microgrid.create demoHeap demoMods (some Shaper.batteryDischarge) none)

theorem C42_loss_ignored_example :
    Microgrid.create demoHeap demoMods (some Shaper.batteryDischarge) none = .ok unshapedGrid ∧
    (unshapedGrid.run demoControl₂ false).2.toOption.map
      (fun o => (o.reward, ((dictGet? o.infos "balancing").getD []).map Info.provided)) =
        some (0, [some 30]) :=
  ⟨okGrid_eq (by decide +kernel), by decide +kernel⟩

/-- Non-vacuity of `C42_pv_curtailment_partial`: 30 available, 15 needed. -/
def pvGrid : Microgrid := okGrid (Microgrid.create demoHeap demoMods (some Shaper.pvCurtailment) none)

example : Microgrid.create demoHeap demoMods (some Shaper.pvCurtailment) none = .ok pvGrid :=
  okGrid_eq (by decide +kernel)
example : (pvGrid.run [("battery", .scalar 25), ("genset", .seq [.arr [1, 20]]), ("grid", .scalar 10)] false
    ).2.toOption.map (·.reward) = some (-15) := by decide +kernel

/-- Two batteries, a load of 10 per step and a grid that buys up to 100. -/
def dischargeHeap : Heap
  | 0 => okModule (mkLoad [10, 10, 10] .oracle 2 0 (-1) false)
  | 1 => okModule (mkBattery 0 100 50 50 1 0 none (some 60) none 0 false)
  | 2 => okModule (mkBattery 0 100 50 50 1 0 none (some 60) none 0 false)
  | 3 => okModule (mkGrid 100 100 4 [[1,1,0,1],[1,1,0,1],[1,1,0,1]] .oracle 2 0 (-1) 0 false)
  | _ => mkBalancing false 0 10 5

def dischargeMods : List (String × Nat) :=
  [("load", 0), ("battery", 1), ("battery", 2), ("grid", 3), ("unbalanced_energy", 4)]

def dischargeGrid : Microgrid :=
  okGrid (Microgrid.create dischargeHeap dischargeMods (some Shaper.batteryDischarge) none)

/-- C42 is violated with several batteries: one battery meets all of the load, the other one charges from the grid,
    and the shaper returns 0 instead of 1, because the charging battery reports no discharge. -/
theorem C42_charging_hides_discharge :
    Microgrid.create dischargeHeap dischargeMods (some Shaper.batteryDischarge) none = .ok dischargeGrid ∧
    (dischargeGrid.run [("battery", .seq [.num 10, .num (-5)]), ("grid", .scalar 5)] false).2.toOption.map
      (fun o => (o.reward, ((dictGet? o.infos "battery").getD []).map Info.provided,
        ((dictGet? o.infos "load").getD []).map Info.absorbed)) =
        some (0, [some 10, none], [some 10]) ∧
    (dischargeGrid.run [("battery", .seq [.num 10, .num 0]), ("grid", .scalar 0)] false).2.toOption.map
      (·.reward) = some 1 :=
  ⟨okGrid_eq (by decide +kernel), by decide +kernel, by decide +kernel⟩

/-- C42 is violated when a battery discharges more than the load, for instance to sell to the grid: `run` raises
    `AssertionError`, after the load and the batteries have already made their steps (and without the grid having
    made one if the grid is not controllable). -/
theorem C42_export_fails :
    let r := dischargeGrid.run [("battery", .seq [.num 30, .num 0]), ("grid", .scalar (-20))] false
    (match r.2 with | .error .assertion => true | _ => false) = true ∧
    ((r.1.heap 1).charge?, (dischargeGrid.heap 1).charge?) = (some 30, some 60) ∧
    (r.1.heap 0).currentStep = 1 := by
  decide +kernel

end Pymgrid
