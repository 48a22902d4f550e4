import Verif.Lemmas.Report
import Verif.Props.Battery
import Verif.Props.Genset
import Verif.Props.Series

set_option autoImplicit false

/-!
# C18–C21, C33, C34, C47: one `run` of a microgrid

Theorems are about every microgrid `g₀` that the constructor accepts for a list `mods` of named modules of the
library, after every history `ops` of `run` and `reset` calls (including failing ones).
-/

namespace Pymgrid

open Module

/-! ### A microgrid for the examples -/

/-- Load, photovoltaics, battery, genset, grid and balancing module. -/
def demoHeap : Heap
  | 0 => exLoad
  | 1 => exPv
  | 2 => sampleBattery
  | 3 => sampleGenset
  | 4 => exGrid
  | _ => mkBalancing false 0 10 5

/-- Their names. -/
def demoMods : List (String × Nat) :=
  [("load", 0), ("pv", 1), ("battery", 2), ("genset", 3), ("grid", 4), ("balancing", 5)]

/-- The microgrid. -/
def demoGrid : Microgrid := okGrid (Microgrid.create demoHeap demoMods none none)

theorem demoGrid_ok : Microgrid.create demoHeap demoMods none none = .ok demoGrid := okGrid_eq (by decide +kernel)

theorem demo_library : ∀ nm ∈ demoMods, LibraryModule (demoHeap nm.2) := by
  intro nm hm
  simp only [demoMods, List.mem_cons, List.not_mem_nil, or_false] at hm
  rcases hm with rfl | rfl | rfl | rfl | rfl | rfl
  · have : mkLoad [60, 40, 20] .oracle 2 0 (-1) false = .ok exLoad := okModule_eq (by decide +kernel)
    exact .series (.load this) trivial
  · have : mkRenewable [30, 50, 0] .oracle 2 0 (-1) false = .ok exPv := okModule_eq (by decide +kernel)
    exact .series (.renewable this) trivial
  · exact .battery sampleBattery_ok sampleBattery_good
  · exact .genset sampleGenset_ok (by norm_num)
  · have : mkGrid 100 50 4 [[1/5,1/10,1/2,1],[3/10,1/10,1/2,0],[2/5,1/10,1/2,1]] .oracle 2 0 (-1) (1/10) false =
        .ok exGrid := okModule_eq (by decide +kernel)
    exact .series (.grid (by decide +kernel) this) trivial
  · exact .balancing (by norm_num) (by norm_num)

theorem demo_ids : (demoMods.map Prod.snd).Nodup := by decide

theorem demo_names : DistinctNames demoHeap demoMods := by
  unfold DistinctNames
  decide +kernel

theorem demo_balancing : ∃ nm ∈ demoMods, ∃ u, (demoHeap nm.2).kind = .balancing u :=
  ⟨("balancing", 5), by simp [demoMods], _, rfl⟩

/-- Discharge the battery, run the genset, export to the grid. -/
def demoControl : List (String × Ctrl) :=
  [("battery", .seq [.num 10]), ("genset", .seq [.arr [1, 20]]), ("grid", .scalar (-5))]

/-- A control that leaves a deficit. -/
def demoControl₂ : List (String × Ctrl) :=
  [("battery", .seq [.num (-10)]), ("genset", .seq [.arr [0, 0]]), ("grid", .scalar 0)]

/-- Modules other than gensets, loads and renewables accept every action that denotes an energy. -/
theorem Module.accepts_any {m : Module} {a : Act} {n : Bool}
    (hk : (match m.kind with | .battery _ | .grid _ _ | .balancing _ => true | _ => false) = true)
    (hq : (m.request a n).toOption.isSome = true) : m.Accepts a n := by
  have : ∃ q, m.request a n = .ok q := by
    cases h : m.request a n with
    | error e => rw [h] at hq; simp [Except.toOption] at hq
    | ok q => exact ⟨q, rfl⟩
  unfold Module.Accepts
  split <;> simp_all

section
variable {h : Heap} {mods : List (String × Nat)} {sh : Option Shaper}
  {tr : Option (Nat → Nat → Option Nat → Except Err (Nat × Nat))} {g₀ : Microgrid}

theorem user_grid (hc : Microgrid.create h mods sh tr = .ok g₀) (hl : ∀ nm ∈ mods, LibraryModule (h nm.2))
    (ops : List GOp) : GridOK mods (runG g₀ ops) ∧ (∀ j, (h j).Alike ((runG g₀ ops).heap j)) ∧
      (runG g₀ ops).shaper = sh ∧ (runG g₀ ops).cont = Container.build h mods := by
  have h1 := GridOK.created hc hl
  obtain ⟨rfl, h2, h3, -⟩ := Microgrid.create_ok hc
  exact ⟨h1.runG ops, kept_alike.runG g₀ ops, (runG_fixed g₀ ops).shaper.trans h3, (runG_fixed g₀ ops).cont.trans h2⟩

/-- Balancing modules stay what they are. -/
theorem user_balancing (hc : Microgrid.create h mods sh tr = .ok g₀) (hl : ∀ nm ∈ mods, LibraryModule (h nm.2))
    (ops : List GOp) {nm : String × Nat} (hm : nm ∈ mods) (hb : ∃ u, (h nm.2).kind = .balancing u) :
    ((runG g₀ ops).heap nm.2).canProvide = none := by
  have h1 := GridOK.created hc hl
  obtain ⟨rfl, -⟩ := Microgrid.create_ok hc
  obtain ⟨u, hu⟩ := hb
  exact (kept_balancing.runG g₀ ops nm.2 ⟨h1.wf nm hm, by simp [Module.canProvide, hu]⟩).2

/-! ### C18: energy balance -/

/-- C18: in every successful run of a microgrid with a balancing module, the energy that the infos report as
    provided equals the energy they report as absorbed, exactly. -/
theorem C18_energy_balance (hc : Microgrid.create h mods sh tr = .ok g₀)
    (hl : ∀ nm ∈ mods, LibraryModule (h nm.2)) (hb : ∃ nm ∈ mods, ∃ u, (h nm.2).kind = .balancing u)
    (ops : List GOp) (control : List (String × Ctrl)) (n : Bool) (g' : Microgrid) (o : RunOut)
    (hr : (runG g₀ ops).run control n = (g', .ok o)) : o.provided = o.absorbed := by
  obtain ⟨nm, hm, hb⟩ := hb
  obtain ⟨trF, trC, trX, h₁, h₂, ci, r⟩ := Microgrid.run_ok hr
  rw [r.provided, r.absorbed]
  exact (user_grid hc hl ops).1.balance hm (user_balancing hc hl ops hm hb) r

/-- C18: and `run` never raises the `RuntimeError` of its own balance check, whatever the control (a shaping function
    that raises `RuntimeError` itself is excluded). -/
theorem C18_never_unbalanced (hc : Microgrid.create h mods sh tr = .ok g₀)
    (hl : ∀ nm ∈ mods, LibraryModule (h nm.2)) (hb : ∃ nm ∈ mods, ∃ u, (h nm.2).kind = .balancing u)
    (hs : ∀ f, sh = some f → ∀ i c, f i c ≠ .error .runtime)
    (ops : List GOp) (control : List (String × Ctrl)) (n : Bool) :
    ((runG g₀ ops).run control n).2 ≠ .error .runtime := by
  obtain ⟨nm, hm, hb⟩ := hb
  obtain ⟨h1, -, h3, -⟩ := user_grid hc hl ops
  exact h1.run_nr hm (user_balancing hc hl ops hm hb) (by rw [h3]; exact hs) control n

example : (runG demoGrid [.run demoControl₂ false, .run [] false]).run demoControl false |>.2.toOption.map
    (fun o => (o.provided, o.absorbed)) = some (30, 30) := by decide +kernel
example : (demoGrid.run demoControl false).2.toOption.map (fun o => (o.provided, o.absorbed, o.reward, o.done)) =
    some (65, 65, -243/2, false) := by decide +kernel

/-! ### C19: success -/

/-- C19: a microgrid with a balancing module, whose modules do not raise on infeasible requests and still have
    data, runs on every control that provides, for each name of `microgrid.controllable`, actions which the modules
    of that name accept. -/
theorem C19_run_succeeds (hc : Microgrid.create h mods sh tr = .ok g₀)
    (hl : ∀ nm ∈ mods, LibraryModule (h nm.2)) (hb : ∃ nm ∈ mods, ∃ u, (h nm.2).kind = .balancing u)
    (hid : (mods.map Prod.snd).Nodup) (hr : ∀ nm ∈ mods, (h nm.2).raiseErrors = false)
    (hs : ∀ f, sh = some f → ∀ i c, ∃ r, f i c = .ok r) (ops : List GOp)
    (hlive : ∀ nm ∈ mods, ((runG g₀ ops).heap nm.2).Live) (control : List (String × Ctrl)) (n : Bool)
    (hctl : ∀ nl ∈ (runG g₀ ops).cont.levelDict .controllable, ∃ c, dictGet? control nl.1 = some c ∧
      ∀ ia ∈ nl.2.zip c.acts, ((runG g₀ ops).heap ia.1).Accepts ia.2 n) :
    ∃ g' o, (runG g₀ ops).run control n = (g', .ok o) := by
  obtain ⟨nm, hm, hb⟩ := hb
  obtain ⟨h1, h2, h3, -⟩ := user_grid hc hl ops
  exact h1.run_total hid hlive (fun nm hnm => (h2 nm.2).raise.trans (hr nm hnm)) hm
    (user_balancing hc hl ops hm hb) (by rw [h3]; exact hs) hctl

/-- C19: a control that lacks the name of a controllable module is never accepted. -/
theorem C19_missing_control_rejected (hc : Microgrid.create h mods sh tr = .ok g₀)
    (hl : ∀ nm ∈ mods, LibraryModule (h nm.2)) (ops : List GOp) (control : List (String × Ctrl)) (n : Bool)
    (nm : String × Nat) (hm : nm ∈ mods) (hf : (h nm.2).ffc = .controllable)
    (hmiss : dictGet? control nm.1 = none) (o : RunOut) : ((runG g₀ ops).run control n).2 ≠ .ok o := by
  obtain ⟨h1, h2, -, -⟩ := user_grid hc hl ops
  exact h1.run_missing hm ((h2 nm.2).ffc.trans hf) hmiss o

/-- C19: if nothing else is wrong with the control the error is `ValueError`. -/
theorem C19_missing_control_is_ValueError (hc : Microgrid.create h mods sh tr = .ok g₀)
    (hl : ∀ nm ∈ mods, LibraryModule (h nm.2))
    (hid : (mods.map Prod.snd).Nodup) (hr : ∀ nm ∈ mods, (h nm.2).raiseErrors = false)
    (hs : ∀ f, sh = some f → ∀ i c, ∃ r, f i c = .ok r) (ops : List GOp)
    (hlive : ∀ nm ∈ mods, ((runG g₀ ops).heap nm.2).Live) (control : List (String × Ctrl)) (n : Bool)
    (hctl : ∀ nl ∈ (runG g₀ ops).cont.levelDict .controllable, ∀ c, dictGet? control nl.1 = some c →
      ∀ ia ∈ nl.2.zip c.acts, ((runG g₀ ops).heap ia.1).Accepts ia.2 n)
    (nm : String × Nat) (hm : nm ∈ mods) (hf : (h nm.2).ffc = .controllable)
    (hmiss : dictGet? control nm.1 = none) : ((runG g₀ ops).run control n).2 = .error .value := by
  obtain ⟨h1, h2, h3, -⟩ := user_grid hc hl ops
  exact h1.run_missing_value hid hlive (fun nm hnm => (h2 nm.2).raise.trans (hr nm hnm)) (by rw [h3]; exact hs) hctl
    hm ((h2 nm.2).ffc.trans hf) hmiss

example : (runG demoGrid [.run demoControl false, .run demoControl false, .reset]).run demoControl false
    |>.2.toOption.isSome = true := by decide +kernel
/-- The hypotheses of C19 hold for the example: data, and actions of the right shape. -/
example : (∀ nm ∈ demoMods, (demoGrid.heap nm.2).Live) ∧
    (∀ nl ∈ demoGrid.cont.levelDict .controllable, ∃ c, dictGet? demoControl nl.1 = some c ∧
      ∀ ia ∈ nl.2.zip c.acts, (demoGrid.heap ia.1).Accepts ia.2 false) := by
  constructor
  · have : ∀ nm ∈ demoMods, ((demoGrid.heap nm.2).series?.all fun t =>
        decide ((demoGrid.heap nm.2).currentStep < t.rows.length)) = true := by decide +kernel
    intro nm hm t ht
    have := this nm hm
    rw [ht] at this
    simpa using this
  · have hd : demoGrid.cont.levelDict .controllable = [("genset", [3]), ("battery", [2]), ("grid", [4])] := by
      decide +kernel
    have hheap : demoGrid.heap = demoHeap := (Microgrid.create_ok demoGrid_ok).1
    rw [hd, hheap]
    intro nl hnl
    simp only [List.mem_cons, List.not_mem_nil, or_false] at hnl
    rcases hnl with rfl | rfl | rfl
    · refine ⟨.seq [.arr [1, 20]], rfl, ?_⟩
      intro ia hia
      simp only [Ctrl.acts, List.zip_cons_cons, List.zip_nil_left, List.mem_cons, List.not_mem_nil, or_false] at hia
      subst hia
      exact ⟨1, 20, rfl, by norm_num, by norm_num, 20, by rfl, by norm_num⟩
    · refine ⟨.seq [.num 10], rfl, ?_⟩
      intro ia hia
      simp only [Ctrl.acts, List.zip_cons_cons, List.zip_nil_left, List.mem_cons, List.not_mem_nil, or_false] at hia
      subst hia
      exact Module.accepts_any (by decide +kernel) (by decide +kernel)
    · refine ⟨.scalar (-5), rfl, ?_⟩
      intro ia hia
      simp only [Ctrl.acts, List.zip_cons_cons, List.zip_nil_left, List.mem_cons, List.not_mem_nil, or_false] at hia
      subst hia
      exact Module.accepts_any (by decide +kernel) (by decide +kernel)
example : (demoGrid.run [("battery", .scalar 1)] false).2.toOption.isNone = true := by decide +kernel

/-! ### C20: dispatch -/

/-- C20: in every successful run the steps of the fixed and controllable modules come first.  What they leave open
    is settled by the flexible modules in container order: a deficit is provided greedily, each module providing the
    smaller of what it can provide and what is still needed, and nothing is absorbed; a surplus is absorbed greedily,
    and nothing is provided (all renewable production is curtailed). -/
theorem C20_greedy_dispatch (hc : Microgrid.create h mods sh tr = .ok g₀)
    (hl : ∀ nm ∈ mods, LibraryModule (h nm.2)) (hid : (mods.map Prod.snd).Nodup)
    (ops : List GOp) (control : List (String × Ctrl)) (n : Bool) (g' : Microgrid) (o : RunOut)
    (hr : (runG g₀ ops).run control n = (g', .ok o)) :
    ∃ before flex : List Event,
      Exec (runG g₀ ops).heap (before ++ flex) g'.heap ∧ Reported (before ++ flex) o ∧
      (∀ e ∈ before, (h e.id).ffc ≠ .flex) ∧
      flex.map (fun e => (e.name, e.id)) = Container.toTuples ((runG g₀ ops).cont.levelDict .flex) ∧
      (absSum before ≥ provSum before →
        flex.map (fun e => e.out.info.provided.getD 0) =
          greedy (flex.map fun e => ((runG g₀ ops).heap e.id).canProvide) (absSum before - provSum before) ∧
        ∀ e ∈ flex, e.out.info.absorbed.getD 0 = 0) ∧
      (absSum before < provSum before →
        flex.map (fun e => e.out.info.absorbed.getD 0) =
          greedy (flex.map fun e => ((runG g₀ ops).heap e.id).canAbsorb) (provSum before - absSum before) ∧
        ∀ e ∈ flex, e.out.info.provided.getD 0 = 0) := by
  obtain ⟨trF, trC, trX, h₁, h₂, ci, r⟩ := Microgrid.run_ok hr
  obtain ⟨ok, alike, -, -⟩ := user_grid hc hl ops
  have hfe := ok.flexEvents (r.fixed.append r.ctrl) r.flexL
  have hnd := ok.flex_nodup hid r.flexL
  have hch := r.chain
  simp only [acc_provided, acc_absorbed] at hch
  refine ⟨trF ++ trC, trX, r.exec, r.reported, ?_, r.flexL, ?_, ?_⟩
  · intro e he
    rw [← (alike e.id).ffc]
    rcases List.mem_append.mp he with he | he
    · have : (e.name, e.id) ∈ Container.toTuples ((runG g₀ ops).cont.levelDict .fixed) :=
        fixed_pairs r ▸ List.mem_map_of_mem (f := fun e : Event => (e.name, e.id)) he
      rw [ok.cont] at this
      rw [(Container.mem_level this).2]
      simp
    · have : (e.name, e.id, e.act) ∈ controlSteps control ((runG g₀ ops).cont.levelDict .controllable) :=
        r.ctrlL ▸ List.mem_map_of_mem (f := fun e : Event => (e.name, e.id, e.act)) he
      simp only [controlSteps, List.mem_flatMap, List.mem_map, Prod.mk.injEq] at this
      obtain ⟨nl, hnl, ia, hia, -, hi2, -⟩ := this
      have hmem := (List.of_mem_zip hia).1
      rw [hi2] at hmem
      rw [(ok.mem_levelDict nl hnl _ hmem).2]
      simp
  · intro hge
    rw [if_neg (by linarith)] at hch
    have h0 : 0 ≤ -(provSum (trF ++ trC) - absSum (trF ++ trC)) := by linarith
    constructor
    · rw [hch.source_greedy hfe h0 hnd]
      congr 1
      · apply List.map_congr_left
        intro e he
        rw [ok.flex_untouched r he]
      · ring
    · intro e he
      rw [((hch.source hfe h0).1 e he).1]
      rfl
  · intro hlt
    rw [if_pos (by linarith)] at hch
    have h0 : 0 ≤ provSum (trF ++ trC) - absSum (trF ++ trC) := by linarith
    constructor
    · rw [hch.sink_greedy hfe h0 hnd]
      congr 1
      apply List.map_congr_left
      intro e he
      rw [ok.flex_untouched r he]
    · intro e he
      exact ((hch.sink hfe h0).1 e he).1

/-- C20: loss of load is a last resort.  If a flexible module (in particular a balancing module) provides energy, then
    every flexible module before it provides all it can; and no run has both loss of load and overgeneration. -/
theorem C20_last_resort (hc : Microgrid.create h mods sh tr = .ok g₀)
    (hl : ∀ nm ∈ mods, LibraryModule (h nm.2)) (hid : (mods.map Prod.snd).Nodup)
    (ops : List GOp) (control : List (String × Ctrl)) (n : Bool) (g' : Microgrid) (o : RunOut)
    (hr : (runG g₀ ops).run control n = (g', .ok o)) :
    ∃ before flex : List Event,
      Exec (runG g₀ ops).heap (before ++ flex) g'.heap ∧ Reported (before ++ flex) o ∧
      flex.map (fun e => (e.name, e.id)) = Container.toTuples ((runG g₀ ops).cont.levelDict .flex) ∧
      (∀ (i j : Nat) (e₁ e₂ : Event) (c y : ℚ), i < j → flex[i]? = some e₁ → flex[j]? = some e₂ → e₂.out.info.provided = some y → 0 < y →
        ((runG g₀ ops).heap e₁.id).canProvide = some c → e₁.out.info.provided.getD 0 = c) ∧
      ∀ e₁ ∈ flex, ∀ e₂ ∈ flex, 0 < e₁.out.info.provided.getD 0 → e₂.out.info.absorbed.getD 0 = 0 := by
  obtain ⟨before, flex, h1, h2, -, h4, h5, h6⟩ := C20_greedy_dispatch hc hl hid ops control n g' o hr
  obtain ⟨ok, -, -, -⟩ := user_grid hc hl ops
  refine ⟨before, flex, h1, h2, h4, ?_, ?_⟩
  · intro i j e₁ e₂ c y hij hi hj hp hy hcap
    rcases le_or_gt (provSum before) (absSum before) with hd | hd
    · obtain ⟨hg, -⟩ := h5 hd
      have hnn : ∀ q ∈ flex.map (fun e => ((runG g₀ ops).heap e.id).canProvide), ∀ x, q = some x → 0 ≤ x := by
        intro q hq x hx
        obtain ⟨e, he, rfl⟩ := List.mem_map.mp hq
        have hm : (e.name, e.id) ∈ (runG g₀ ops).flexList := by
          unfold Microgrid.flexList
          rw [← h4]
          exact List.mem_map_of_mem (f := fun e : Event => (e.name, e.id)) he
        exact (ok.wf _ (ok.mem_flexList hm).1).canProvide_nonneg hx
      have hgm := greedy_max (x := absSum before - provSum before) (by linarith) hnn i j c y hij
        (by rw [List.getElem?_map, hi]; simp [hcap]) (by rw [← hg, List.getElem?_map, hj]; simp [hp]) hy
      rw [← hg, List.getElem?_map, hi] at hgm
      simpa using hgm
    · have := (h6 hd).2 e₂ (List.mem_of_getElem? hj)
      rw [hp] at this
      simp at this
      linarith
  · intro e₁ he₁ e₂ he₂ hpos
    rcases le_or_gt (provSum before) (absSum before) with hd | hd
    · exact (h5 hd).2 e₂ he₂
    · have := (h6 hd).2 e₁ he₁
      linarith

/-- Deficit of 60: the photovoltaics provide all of their 30, the balancing module the rest. -/
example : (demoGrid.run demoControl₂ false).2.toOption.map (fun o => ["pv", "balancing"].map fun k =>
    (dictGet? o.infos k).map fun l => l.map fun i => (i.provided, i.absorbed)) =
    some [some [(some 30, none)], some [(some 30, none)]] := by decide +kernel
/-- Surplus: photovoltaics curtailed, the rest absorbed. -/
example : (demoGrid.run [("battery", .scalar 0), ("genset", .seq [.arr [1, 50]]), ("grid", .scalar 40)] false
    |>.2.toOption.map (fun o => ["pv", "balancing"].map fun k =>
    (dictGet? o.infos k).map fun l => l.map fun i => (i.provided, i.absorbed))) =
    some [some [(some 0, none)], some [(none, some 30)]] := by decide +kernel

/-! ### C21: reward -/

/-- C21: the result of a run consists of the results of the module steps it made: the (unshaped) reward is their sum,
    `done` their disjunction, and the balance log gains one row recording reward and energy totals. -/
theorem C21_reward_is_sum (hc : Microgrid.create h mods none tr = .ok g₀) (ops : List GOp)
    (control : List (String × Ctrl)) (n : Bool) (g' : Microgrid) (o : RunOut)
    (hr : (runG g₀ ops).run control n = (g', .ok o)) :
    ∃ trace : List Event, Exec (runG g₀ ops).heap trace g'.heap ∧ Reported trace o ∧
      o.reward = (trace.map fun e => e.out.reward).sum ∧ o.done = trace.any (fun e => e.out.done) ∧
      ∃ row, g'.balanceLog = (runG g₀ ops).balanceLog.log row ∧
        dictGet? row (.str "reward") = some (trace.map fun e => e.out.reward).sum ∧
        dictGet? row (.str "shaped_reward") = some o.reward ∧
        dictGet? row (.str "overall_provided_to_microgrid") = some o.provided ∧
        dictGet? row (.str "overall_absorbed_from_microgrid") = some o.absorbed := by
  obtain ⟨-, -, h3, -⟩ := Microgrid.create_ok hc
  have hsh : (runG g₀ ops).shaper = none := (runG_fixed g₀ ops).shaper.trans h3
  obtain ⟨trF, trC, trX, h₁, h₂, ci, r⟩ := Microgrid.run_ok hr
  have hrw : (({} : StepAcc).run (trF ++ trC ++ trX)).reward = ((trF ++ trC ++ trX).map fun e => e.out.reward).sum := by
    rw [StepAcc.run_reward]; simp
  have hrew := r.reward
  rw [hsh] at hrew
  simp only [StepAcc.shapedReward, Except.ok.injEq] at hrew
  refine ⟨trF ++ trC ++ trX, r.exec, r.reported, ?_, ?_, _, r.log, ?_, ?_, ?_, ?_⟩
  · rw [← hrew, hrw]
  · rw [r.done, StepAcc.run_done]; simp
  · rw [← hrw]; rfl
  · rfl
  · rw [r.provided, ← acc_provided]; rfl
  · rw [r.absorbed, ← acc_absorbed]; rfl

/-- C21: with a shaping function the returned reward is that function of the step infos (and the module costs before
    the step); the balance log still records the sum of the module rewards, and the value of the shaping function next
    to it. -/
theorem C21_shaped_reward {f : Shaper} (hc : Microgrid.create h mods (some f) tr = .ok g₀) (ops : List GOp)
    (control : List (String × Ctrl)) (n : Bool) (g' : Microgrid) (o : RunOut)
    (hr : (runG g₀ ops).run control n = (g', .ok o)) :
    (∃ ci, costInfo (runG g₀ ops).heap (runG g₀ ops).cont.fullDict = .ok ci ∧ f o.infos ci = .ok o.reward) ∧
    ∃ trace : List Event, Exec (runG g₀ ops).heap trace g'.heap ∧ Reported trace o ∧
      o.done = trace.any (fun e => e.out.done) ∧
      ∃ row, g'.balanceLog = (runG g₀ ops).balanceLog.log row ∧
        dictGet? row (.str "reward") = some (trace.map fun e => e.out.reward).sum ∧
        dictGet? row (.str "shaped_reward") = some o.reward := by
  obtain ⟨-, -, h3, -⟩ := Microgrid.create_ok hc
  have hsh : (runG g₀ ops).shaper = some f := (runG_fixed g₀ ops).shaper.trans h3
  obtain ⟨trF, trC, trX, h₁, h₂, ci, r⟩ := Microgrid.run_ok hr
  have hrw : (({} : StepAcc).run (trF ++ trC ++ trX)).reward = ((trF ++ trC ++ trX).map fun e => e.out.reward).sum := by
    rw [StepAcc.run_reward]; simp
  have hrew := r.reward
  rw [hsh] at hrew
  simp only [StepAcc.shapedReward] at hrew
  rw [← r.infos] at hrew
  refine ⟨⟨ci, r.costs, hrew⟩, trF ++ trC ++ trX, r.exec, r.reported, ?_, _, r.log, ?_, rfl⟩
  · rw [r.done, StepAcc.run_done]; simp
  · rw [← hrw]; rfl

end

/-- C21: shaping replaces nothing but the returned reward: if a microgrid's run succeeds with and without a shaping
    function, then both runs leave all modules in the same state and return the same observations, infos and `done`;
    and if the function does not raise, one run succeeds iff the other does. -/
theorem C21_shaping_only_changes_reward (g : Microgrid) (f : Shaper) (control : List (String × Ctrl)) (n : Bool) :
    (∀ g₁ g₂ o₁ o₂, ({ g with shaper := none } : Microgrid).run control n = (g₁, .ok o₁) →
      ({ g with shaper := some f } : Microgrid).run control n = (g₂, .ok o₂) →
      o₂ = { o₁ with reward := o₂.reward } ∧ g₂.heap = g₁.heap) ∧
    ((∀ i c, ∃ r, f i c = .ok r) →
      (({ g with shaper := some f } : Microgrid).run control n).2.isOk =
        (({ g with shaper := none } : Microgrid).run control n).2.isOk) := by
  have hflex : ∀ sh, ({ g with shaper := sh } : Microgrid).fixedSteps = g.fixedSteps := fun _ => rfl
  have hdis : ∀ sh d s, ({ g with shaper := sh } : Microgrid).dispatch d s = g.dispatch d s := fun _ _ _ => rfl
  unfold Microgrid.run
  simp only [hflex, hdis]
  cases costInfo g.heap g.cont.fullDict with
  | error e => simp
  | ok ci =>
    rcases RunSt.stepMany g.fixedSteps false { heap := g.heap, acc := {} } with ⟨s₁, e | u⟩
    · simp
    simp only [StepAcc.balance, StepAcc.shapedReward]
    cases hf₁ : f s₁.acc.infos ci with
    | error e =>
      refine ⟨by simp, ?_⟩
      intro hf
      obtain ⟨r, hr⟩ := hf s₁.acc.infos ci
      rw [hr] at hf₁
      simp at hf₁
    | ok q₁ =>
      simp only
      rcases RunSt.stepControls control n (g.cont.levelDict .controllable) s₁ with ⟨s₂, e | u⟩
      · simp
      simp only
      cases hf₂ : f s₂.acc.infos ci with
      | error e =>
        refine ⟨by simp, ?_⟩
        intro hf
        obtain ⟨r, hr⟩ := hf s₂.acc.infos ci
        rw [hr] at hf₂
        simp at hf₂
      | ok q₂ =>
        simp only
        rcases g.dispatch (s₂.acc.provided.sum - s₂.acc.absorbed.sum) s₂ with ⟨s₃, e | u⟩
        · simp
        simp only [Microgrid.finish, StepAcc.balance, StepAcc.shapedReward]
        cases hf₃ : f s₃.acc.infos ci with
        | error e =>
          refine ⟨by simp, ?_⟩
          intro hf
          obtain ⟨r, hr⟩ := hf s₃.acc.infos ci
          rw [hr] at hf₃
          simp at hf₃
        | ok q₃ =>
          simp only
          by_cases hcl : isclose s₃.acc.provided.sum s₃.acc.absorbed.sum = false
          · simp [hcl]
          · simp only [hcl]
            refine ⟨?_, fun _ => rfl⟩
            intro g₁ g₂ o₁ o₂ h1 h2
            obtain ⟨rfl, rfl⟩ := h1
            obtain ⟨rfl, rfl⟩ := h2
            exact ⟨rfl, rfl⟩

/-- Non-vacuity: shaping by the number of names. -/
example : (({ demoGrid with shaper := some fun i _ => .ok i.length } : Microgrid).run demoControl false).2.toOption.map
    (·.reward) = some 6 := by decide +kernel

end Pymgrid
