import Verif.Lemmas.PlanCarried
import Verif.Lemmas.Convert
import Verif.Props.Convert
import Verif.Props.ModularMPC
import Verif.Spec.Simulate

set_option autoImplicit false

/-! Runs of converted microgrids on the production that the legacy microgrid recorded. -/

namespace Pymgrid

open Module

theorem Module.BalWF.step_net' {m m' : Module} {u : Unbalanced} (h : m.BalWF u) {a : Act} {n : Bool} {o : StepOut}
    (he : m.step a n = (m', .ok o)) :
    o.reward = -(u.lossLoadCost * max 0 (StepOut.net o) + u.overgenerationCost * max 0 (-StepOut.net o)) := by
  rw [h.step_eq] at he
  cases hq : m.request a n with
  | error e => rw [hq] at he; simp at he
  | ok q =>
    rw [hq] at he
    obtain ⟨row, -, h1⟩ := h.stepEnergy q
    simp only [h1, Prod.mk.injEq, Except.ok.injEq] at he
    obtain ⟨-, rfl⟩ := he
    rcases le_or_gt 0 q with h0 | h0
    · simp [StepOut.net, h0]
    · have h0' : ¬ 0 ≤ q := not_le.mpr h0
      have h1 : 0 ≤ -q := by linarith
      simp [StepOut.net, h0', h1, h0.le]

/-- A microgrid with at most one module of each class, and a controllable grid. -/
structure Site (mods : List (String × Nat)) (m : Microgrid) : Prop where
  ok : GridOK mods m
  ids : (mods.map Prod.snd).Nodup
  names : (mods.map Prod.fst).Nodup
  uniq : ∀ x ∈ mods, ∀ y ∈ mods, (m.heap x.2).kind.cls = (m.heap y.2).kind.cls → x = y
  grid : ∀ nm ∈ mods, ∀ p t, (m.heap nm.2).kind = .grid p t → (m.heap nm.2).ffc = .controllable

section
variable {mods : List (String × Nat)} {m g' : Microgrid}
  {ctl : List (String × Ctrl)} {o : RunOut} {trF trC trX : List Event} {h₁ h₂ : Heap} {ci : CostInfo}

theorem Site.clear (r : Site mods m) : ClearNames m.heap mods := by
  intro y hy z hz he _
  rw [List.inj_on_of_nodup_map r.names hy hz he]

theorem Site.flex_order (r : Site mods m) {np nb : String × Nat} (hp : np ∈ mods) (hpc : (m.heap np.2).kind.cls = .renewable) (hb : nb ∈ mods)
    (hbc : (m.heap nb.2).kind.cls = .balancing) : m.flexList = [np, nb] := by
  have hnd : mods.Nodup := List.Nodup.of_map _ r.names
  have cases : ∀ nm ∈ mods, (m.heap nm.2).ffc = .flex →
      (nm = np ∧ (m.heap nm.2).ss = .sources) ∨ (nm = nb ∧ (m.heap nm.2).ss = .both) := by
    intro nm hm hf
    cases r.ok.wf nm hm with
    | battery b h => rw [h.ffc] at hf; exact absurd hf (by decide)
    | grid p t h w => rw [r.grid nm hm p t h.kind] at hf; exact absurd hf (by decide)
    | genset n h => rw [h.ffc] at hf; exact absurd hf (by decide)
    | load t h w => rw [h.ffc] at hf; exact absurd hf (by decide)
    | renewable t h w =>
      exact .inl ⟨r.uniq nm hm np hp (by rw [hpc, h.kind]; rfl), by simp [Module.ss, isSink, isSource, h.kind]⟩
    | balancing u h =>
      exact .inr ⟨r.uniq nm hm nb hb (by rw [hbc, h.kind]; rfl), by simp [Module.ss, isSink, isSource, h.kind]⟩
  obtain ⟨tp, wp⟩ := (r.ok.wf np hp).renWF hpc
  have fb : (m.heap nb.2).ffc = .flex := by
    cases r.ok.wf nb hb with
    | balancing u h => exact h.ffc
    | battery b h => rw [h.kind] at hbc; simp [Kind.cls] at hbc
    | grid p t h w => rw [h.kind] at hbc; simp [Kind.cls] at hbc
    | genset n h => rw [h.kind] at hbc; simp [Kind.cls] at hbc
    | load t h w => rw [h.kind] at hbc; simp [Kind.cls] at hbc
    | renewable t h w => rw [h.kind] at hbc; simp [Kind.cls] at hbc
  have hne : np ≠ nb := by rintro rfl; rw [hpc] at hbc; exact absurd hbc (by decide)
  have sp : (m.heap np.2).ss = .sources := by
    rcases cases np hp wp.ffc with ⟨-, h⟩ | ⟨h, -⟩
    · exact h
    · exact absurd h hne
  have sb : (m.heap nb.2).ss = .both := by
    rcases cases nb hb fb with ⟨h, -⟩ | ⟨-, h⟩
    · exact absurd h hne.symm
    · exact h
  have p1 : Container.toTuples ((Container.build m.heap mods).cat .flex .sources) = [np] := by
    have := Container.cat_perm m.heap mods .flex .sources
    rw [MPC.filter_one hnd hp (p := Container.inCat m.heap .flex .sources) (by simp [Container.inCat, wp.ffc, sp]) ?_] at this
    · exact List.perm_singleton.mp this
    · intro z hz hpz
      simp only [Container.inCat, decide_eq_true_eq] at hpz
      rcases cases z hz hpz.1 with ⟨h, -⟩ | ⟨h, h2⟩
      · exact h
      · rw [hpz.2] at h2; exact absurd h2 (by decide)
  have p2 : Container.toTuples ((Container.build m.heap mods).cat .flex .sinks) = [] := by
    have := Container.cat_perm m.heap mods .flex .sinks
    rw [List.filter_eq_nil_iff.mpr] at this
    · exact List.perm_nil.mp this
    · intro z hz hpz
      simp only [Container.inCat, decide_eq_true_eq] at hpz
      rcases cases z hz hpz.1 with ⟨h, h2⟩ | ⟨h, h2⟩ <;> rw [hpz.2] at h2 <;> exact absurd h2 (by decide)
  have p3 : Container.toTuples ((Container.build m.heap mods).cat .flex .both) = [nb] := by
    have := Container.cat_perm m.heap mods .flex .both
    rw [MPC.filter_one hnd hb (p := Container.inCat m.heap .flex .both) (by simp [Container.inCat, fb, sb]) ?_] at this
    · exact List.perm_singleton.mp this
    · intro z hz hpz
      simp only [Container.inCat, decide_eq_true_eq] at hpz
      rcases cases z hz hpz.1 with ⟨h, h2⟩ | ⟨h, -⟩
      · rw [hpz.2] at h2; exact absurd h2 (by decide)
      · exact h
  unfold Microgrid.flexList
  rw [r.ok.cont, Container.level_flatten (fun y hy z hz he hf hf' => r.clear y hy z hz he (hf.trans hf'.symm)),
    Container.toTuples_flatten]
  simp only [Container.level, List.map_cons, List.map_nil, p1, p2, p3]
  rfl

/-- What the renewables and the balancing module deliver in a run. -/
theorem Site.dispatch (r : Site mods m) (live : ∀ nm ∈ mods, (m.heap nm.2).Live)
    (hs : Supplies m.heap mods ctl)
    {np nb : String × Nat} (hp : np ∈ mods) {t : TS} (wp : (m.heap np.2).RenWF t) (hb : nb ∈ mods) {u : Unbalanced}
    (hbk : (m.heap nb.2).kind = .balancing u) (ri : RunInfo m ctl false g' o trF trC trX h₁ h₂ ci) :
    MPC.delivered o np.1 = max 0 (min ((t.rows.getD (m.heap np.2).currentStep []).getD 0 0) (MPC.delivered o np.1 + MPC.delivered o nb.1)) := by
  have hfl := r.flex_order hp (by rw [wp.kind]; rfl) hb (by rw [hbk]; rfl)
  have hX := ri.flexL
  rw [hfl] at hX
  obtain ⟨e₁, e₂, rfl, h1, h2⟩ : ∃ e₁ e₂, trX = [e₁, e₂] ∧ (e₁.name, e₁.id) = np ∧ (e₂.name, e₂.id) = nb := by
    match trX, hX with
    | [e₁, e₂], hX =>
      simp only [List.map_cons, List.map_nil, List.cons.injEq, and_true] at hX
      exact ⟨e₁, e₂, rfl, hX.1, hX.2⟩
    | [], hX => simp at hX
    | [_], hX => simp at hX
    | _ :: _ :: _ :: _, hX => simp at hX
  have d₁ := (run_event r.ok r.ids r.names r.clear hs ri (e := e₁) (by simp)).2.1
  have d₂ := (run_event r.ok r.ids r.names r.clear hs ri (e := e₂) (by simp)).2.1
  subst h1 h2
  simp only at *
  have hbal := r.ok.balance hb (by simp only [Module.canProvide, hbk]) ri
  rw [provSum_append, absSum_append] at hbal
  have hfe := r.ok.flexEvents (ri.fixed.append ri.ctrl) ri.flexL
  have hnd := r.ok.flex_nodup r.ids ri.flexL
  have hch := ri.chain
  simp only [acc_provided, acc_absorbed] at hch
  have hX : provSum [e₁, e₂] - absSum [e₁, e₂] = MPC.delivered o e₁.name + MPC.delivered o e₂.name := by
    rw [d₁, d₂]
    simp only [provSum, absSum, StepOut.net, List.map_cons, List.map_nil, List.sum_cons, List.sum_nil]
    ring
  rcases le_or_gt 0 (MPC.delivered o e₁.name + MPC.delivered o e₂.name) with h0 | h0
  · rw [if_neg (by linarith)] at hch
    have h0' : 0 ≤ -(provSum (trF ++ trC) - absSum (trF ++ trC)) := by linarith
    have hgr := hch.source_greedy hfe h0' hnd
    have habs := (hch.source hfe h0').1 e₁ (by simp)
    have c₁ : (h₂ e₁.id).canProvide = some ((t.rows.getD (m.heap e₁.id).currentStep []).getD 0 0) ∧
        0 ≤ (t.rows.getD (m.heap e₁.id).currentStep []).getD 0 0 := by
      rw [r.ok.flex_untouched ri (by simp)]
      obtain ⟨rr, hr⟩ := (live _ hp).row wp.ts.series
      obtain ⟨y, rfl, hy, -⟩ := wp.itemAt hr
      have hg' : t.rows.getD (m.heap e₁.id).currentStep [] = [y] := by rw [List.getD_eq_getElem?_getD, hr]; rfl
      rw [hg']
      simp only [Module.canProvide, wp.kind, hr]
      exact ⟨rfl, hy⟩
    simp only [List.map_cons, List.map_nil, greedy, c₁.1, capMin, List.cons.injEq] at hgr
    have e : MPC.delivered o e₁.name = e₁.out.info.provided.getD 0 := by
      rw [d₁, StepOut.net, habs.1]; simp
    rw [max_eq_right (le_min c₁.2 h0), ← hX, e, hgr.1]
    congr 1
    linarith
  · rw [if_pos (by linarith)] at hch
    have h0' : 0 ≤ provSum (trF ++ trC) - absSum (trF ++ trC) := by linarith
    have hgr := hch.sink_greedy hfe h0' hnd
    have hprov := (hch.sink hfe h0').1 e₁ (by simp)
    have c₁ : (h₂ e₁.id).canAbsorb = some 0 := by
      rw [r.ok.flex_untouched ri (by simp)]
      simp only [Module.canAbsorb, wp.kind]
    simp only [List.map_cons, List.map_nil, greedy, c₁, capMin, List.cons.injEq] at hgr
    have e : MPC.delivered o e₁.name = 0 := by
      rw [d₁, StepOut.net, hprov.1, hgr.1, min_eq_left h0', sub_zero]
    rw [max_eq_left ((min_le_right _ _).trans h0.le), e]

/-- The deliveries of all modules add up to nothing. -/
theorem Site.total (r : Site mods m) (hs : Supplies m.heap mods ctl) {nb : String × Nat} (hb : nb ∈ mods) {u : Unbalanced}
    (hbk : (m.heap nb.2).kind = .balancing u) (ri : RunInfo m ctl false g' o trF trC trX h₁ h₂ ci) :
    (mods.map fun nm => MPC.delivered o nm.1).sum = 0 := by
  have hbal := r.ok.balance hb (by simp only [Module.canProvide, hbk]) ri
  rw [← sum_modules r.ok r.clear hs ri (F := fun e => StepOut.net e.out) (G := fun nm => MPC.delivered o nm.1)
    (fun e he => (run_event r.ok r.ids r.names r.clear hs ri he).2.1.symm)]
  have : ((trF ++ trC ++ trX).map fun e => StepOut.net e.out).sum =
      provSum (trF ++ trC ++ trX) - absSum (trF ++ trC ++ trX) := by
    unfold provSum absSum StepOut.net
    generalize trF ++ trC ++ trX = l
    induction l with
    | nil => simp
    | cons a l ih =>
      simp only [List.map_cons, List.sum_cons, ih]
      ring
  rw [this, hbal, sub_self]

theorem Site.modulesOf (r : Site mods m) {nm : String × Nat} (hm : nm ∈ mods) : m.modulesOf nm.1 = [m.heap nm.2] := by
  have hp := Container.full_perm (h := m.heap) (mods := mods) (Legacy.distinct_of_names r.names)
  rw [← r.ok.cont] at hp
  have h1 := hp.filter fun ni => decide (ni.1 = nm.1)
  rw [filter_name r.names hm] at h1
  unfold Microgrid.modulesOf
  rw [List.perm_singleton.mp h1]
  rfl

/-- A sum over all modules of values that depend on the class. -/
theorem Site.sum (r : Site mods m) {F : String × Nat → ℚ} {H : Cls → ℚ} (hF : ∀ nm ∈ mods, F nm = H (m.heap nm.2).kind.cls)
    (h0 : ∀ c, (∀ nm ∈ mods, (m.heap nm.2).kind.cls ≠ c) → H c = 0) :
    (mods.map F).sum = H .load + H .renewable + H .battery + H .grid + H .genset + H .balancing := by
  have hnd : mods.Nodup := List.Nodup.of_map _ r.names
  have key : ∀ c, clsSum m.heap mods F c = H c := by
    intro c
    by_cases hc : ∃ nm ∈ mods, (m.heap nm.2).kind.cls = c
    · obtain ⟨nm, hm, rfl⟩ := hc
      rw [clsSum_one hnd _ hm fun y hy hc => r.uniq y hy nm hm hc, hF nm hm]
    · have hc' : ∀ nm ∈ mods, (m.heap nm.2).kind.cls ≠ c := fun nm hm h => hc ⟨nm, hm, h⟩
      rw [clsSum_none _ hc', h0 c hc']
  rw [clsSum_all m.heap, key, key, key, key, key, key]

end

end Pymgrid

namespace Pymgrid.Legacy

open Pymgrid Module

/-! ### The modules of a converted microgrid -/

/-- A legacy microgrid, sensible and converted. -/
structure Setup (g₀ : Grid) (ms : List (String × Module)) (m₀ : Microgrid) : Prop where
  comps : g₀.components false = ms.map fun nm => (nm.1, .ok nm.2)
  names : (ms.map Prod.fst).Nodup
  made : Microgrid.create (place ms) (references ms) none none = .ok m₀
  good : g₀.params.Good
  top : g₀.params.socMax ≤ 1
  window : g₀.arch.battery = true → g₀.params.socMin ≤ g₀.batterySoc ∧ g₀.batterySoc ≤ 1
  loss : 0 ≤ g₀.params.costLossLoad
  over : 0 ≤ g₀.params.costOvergen
  loads : ∀ x ∈ g₀.loads, 0 ≤ x
  pvs : ∀ x ∈ g₀.pvs, 0 ≤ x
  length : g₀.pvs.length = g₀.loads.length
  aligned : g₀.arch.grid = true → g₀.gridSeries.length = g₀.loads.length

/-- What is known about a module at any time. -/
inductive Part (g : Grid) (x : Module) (n : String) : Prop
  | load (t : TS) (hn : n = "load") (k : x.kind = .load t) (rows : t.rows = g.loads.map fun l => [-|l|])
  | balancing (u : Unbalanced) (hn : n = "unbalanced_energy") (k : x.kind = .balancing u)
      (loss : u.lossLoadCost = g.params.costLossLoad) (over : u.overgenerationCost = g.params.costOvergen)
  | pv (t : TS) (hn : n = "PV") (k : x.kind = .renewable t) (rows : t.rows = g.pvs.map fun l => [|l|])
  | battery (b : Battery) (ha : g.arch.battery = true) (hn : n = "battery") (k : x.kind = .battery b)
      (cap : b.maxCapacity = g.params.capacity) (low : b.minCapacity = g.params.socMin * g.params.capacity)
      (ch : b.maxCharge = g.params.pCharge) (di : b.maxDischarge = g.params.pDischarge)
      (eff : b.efficiency = g.params.eff) (cost : b.costCycle = g.params.costCycle)
  | genset (y : Genset) (ha : g.arch.genset = true) (hn : n = "genset") (k : x.kind = .genset y)
      (lo : y.runMin = g.params.rated * g.params.pmin) (hi : y.runMax = g.params.rated * g.params.pmax)
      (cost : y.cost = .const g.params.fuelCost) (co2 : y.co2PerUnit = g.params.gensetCo2)
      (price : y.costPerCo2 = g.params.costCo2) (up : y.startUpTime = 0) (down : y.windDownTime = 0)
  | grid (p : GridParams) (t : TS) (ha : g.arch.grid = true) (hn : n = "grid") (k : x.kind = .grid p t)
      (ctl : x.ffc = .controllable) (imp : p.maxImport = g.params.pImport) (exp : p.maxExport = g.params.pExport)
      (co2 : p.costPerCo2 = g.params.costCo2) (rows : t.rows = g.gridSeries)

/-- The name that the conversion gives to the module of a class. -/
def nameOf : Cls → String
  | .load => "load"
  | .renewable => "PV"
  | .battery => "battery"
  | .grid => "grid"
  | .genset => "genset"
  | .balancing => "unbalanced_energy"

theorem Part.name {g : Grid} {x : Module} {n : String} (h : Part g x n) : n = nameOf x.kind.cls := by
  cases h <;> simp_all [Kind.cls, nameOf]

section
variable {g₀ : Grid} {ms : List (String × Module)} {m₀ : Microgrid}

theorem Setup.library (s : Setup g₀ ms m₀) :
    ∀ nm ∈ references ms, LibraryModule (place ms nm.2) ∧ (place ms nm.2).raiseErrors = false := by
  intro nm hnm
  have hin := List.mem_of_getElem? (mem_references hnm)
  rcases component_cases s.comps hin with ⟨-, b⟩ | ⟨-, b⟩ | ⟨-, b⟩ | ⟨ha, -, b⟩ | ⟨-, -, b⟩ | ⟨-, -, b⟩
  · obtain ⟨t, -, -, nw⟩ := load_inv b
    exact ⟨.series (.load b) (by simp [FKind.Works]), nw.raises⟩
  · simp only at b
    rw [b]
    exact ⟨.balancing s.loss s.over, rfl⟩
  · obtain ⟨t, -, -, nw⟩ := pv_inv b
    exact ⟨.series (.renewable b) (by simp [FKind.Works]), nw.raises⟩
  · refine ⟨.battery b (battery_good s.good (s.window ha) b), ?_⟩
    obtain ⟨_, -, -, -, -, -, -, -, -, -, -, -, -, -, -, -, -, -, -, -, -, hr, -⟩ := mkBattery_inv b
    exact hr
  · refine ⟨.genset b (by rw [mul_comm]; exact s.good.genset_min), ?_⟩
    obtain ⟨_, -, -, -, -, -, -, -, -, hr, -⟩ := mkGenset_inv b
    exact hr
  · obtain ⟨_, t, -, nw, -⟩ := grid_inv b
    exact ⟨.series (.grid (gridSeries_rect g₀) b) (by simp [FKind.Works]), nw.raises⟩

theorem Setup.part (s : Setup g₀ ms m₀) (ops : List GOp) {nm : String × Nat} (hm : nm ∈ references ms) :
    Part g₀ ((runG m₀ ops).heap nm.2) nm.1 := by
  have hl := fun nm hm => (s.library nm hm).1
  have ok := GridOK.created s.made hl
  obtain ⟨hh, -⟩ := Microgrid.create_ok s.made
  have hcore := (kept_core.runG m₀ ops nm.2 (ok.wf nm hm)).2
  have hffc := (kept_alike.runG m₀ ops nm.2).ffc
  rw [hh] at hcore hffc
  have hin := List.mem_of_getElem? (mem_references hm)
  generalize (runG m₀ ops).heap nm.2 = x at hcore hffc ⊢
  rcases component_cases s.comps hin with ⟨a, b⟩ | ⟨a, b⟩ | ⟨a, b⟩ | ⟨ha, a, b⟩ | ⟨ha, a, b⟩ | ⟨ha, a, b⟩
  · obtain ⟨t, k, hr, -⟩ := load_inv b
    rw [k] at hcore
    cases hk : x.kind with
    | load t' =>
      rw [hk] at hcore
      simp only [Kind.core, Kind.load.injEq] at hcore
      exact .load t' a hk ((congrArg TS.rows hcore).trans hr)
    | _ => rw [hk] at hcore; simp [Kind.core] at hcore
  · simp only at b
    rw [b] at hcore
    cases hk : x.kind with
    | balancing u =>
      rw [hk] at hcore
      simp only [Grid.balancingModule, mkBalancing, Kind.core, Kind.balancing.injEq] at hcore
      exact .balancing u a hk (by rw [hcore]) (by rw [hcore])
    | _ => rw [hk] at hcore; simp [Kind.core, Grid.balancingModule, mkBalancing] at hcore
  · obtain ⟨t, k, hr, -⟩ := pv_inv b
    rw [k] at hcore
    cases hk : x.kind with
    | renewable t' =>
      rw [hk] at hcore
      simp only [Kind.core, Kind.renewable.injEq] at hcore
      exact .pv t' a hk ((congrArg TS.rows hcore).trans hr)
    | _ => rw [hk] at hcore; simp [Kind.core] at hcore
  · obtain ⟨y, k, -, -, -, b1, b2, b3, b4, b5, b6, -⟩ := mkBattery_inv b
    rw [k] at hcore
    cases hk : x.kind with
    | battery z =>
      rw [hk] at hcore
      simp only [Kind.core, Kind.battery.injEq] at hcore
      exact .battery z ha a hk ((congrArg Battery.maxCapacity hcore).trans b2)
        ((congrArg Battery.minCapacity hcore).trans (b1.trans (mul_comm _ _)))
        ((congrArg Battery.maxCharge hcore).trans b3) ((congrArg Battery.maxDischarge hcore).trans b4)
        ((congrArg Battery.efficiency hcore).trans b5) ((congrArg Battery.costCycle hcore).trans b6)
    | _ => rw [hk] at hcore; simp [Kind.core] at hcore
  · obtain ⟨y, hy, k, -⟩ := mkGenset_inv b
    obtain ⟨-, -, n1, n2, n3, n4, n5, n6, n7, -⟩ := Genset.init_inv hy
    rw [k] at hcore
    cases hk : x.kind with
    | genset z =>
      rw [hk] at hcore
      simp only [Kind.core, Kind.genset.injEq] at hcore
      exact .genset z ha a hk ((congrArg Genset.runMin hcore).trans (n1.trans (mul_comm _ _)))
        ((congrArg Genset.runMax hcore).trans (n2.trans (mul_comm _ _))) ((congrArg Genset.cost hcore).trans n3)
        ((congrArg Genset.co2PerUnit hcore).trans n4) ((congrArg Genset.costPerCo2 hcore).trans n5)
        ((congrArg Genset.startUpTime hcore).trans n6) ((congrArg Genset.windDownTime hcore).trans n7)
    | _ => rw [hk] at hcore; simp [Kind.core] at hcore
  · obtain ⟨p, t, k, nw, p1, p2, p3, hr⟩ := grid_inv b
    rw [k] at hcore
    have hctl : (place ms nm.2).ffc = .controllable := by
      obtain ⟨t, mn, mx, wf, -, -, -, -, hf, -⟩ := Module.mkGrid_inv (gridSeries_rect g₀) b
      exact hf
    cases hk : x.kind with
    | grid p' t' =>
      rw [hk] at hcore
      simp only [Kind.core, Kind.grid.injEq] at hcore
      obtain ⟨rfl, hcore⟩ := hcore
      exact .grid p' t' ha a hk (hffc.trans hctl) p1 p2 p3 ((congrArg TS.rows hcore).trans hr)
    | _ => rw [hk] at hcore; simp [Kind.core] at hcore

theorem Setup.site (s : Setup g₀ ms m₀) (ops : List GOp) : Site (references ms) (runG m₀ ops) where
  ok := (user_grid s.made (fun nm hm => (s.library nm hm).1) ops).1
  ids := references_ids ms
  names := by rw [references_names]; exact s.names
  uniq := by
    intro x hx y hy hc
    refine names_inj (by rw [references_names]; exact s.names) hx hy ?_
    rw [(s.part ops hx).name, (s.part ops hy).name, hc]
  grid := by
    intro nm hm p t hk
    cases s.part ops hm <;> simp_all

/-- Some module has the given name. -/
theorem Setup.named (s : Setup g₀ ms m₀) {n : String} {r : Except Err Module} (h : (n, r) ∈ g₀.components false) :
    ∃ nm ∈ references ms, nm.1 = n := by
  obtain ⟨x, -, hx⟩ := component_mem s.comps h
  obtain ⟨i, hi, -⟩ := references_of hx
  exact ⟨_, hi, rfl⟩

/-! ### What a module does in a step -/

theorem Part.of_load {g : Grid} {x : Module} {n : String} (h : Part g x n) {t : TS} (k : x.kind = .load t) :
    t.rows = g.loads.map fun l => [-|l|] := by cases h <;> simp_all

theorem Part.of_pv {g : Grid} {x : Module} {n : String} (h : Part g x n) {t : TS} (k : x.kind = .renewable t) :
    t.rows = g.pvs.map fun l => [|l|] := by cases h <;> simp_all

theorem Part.of_balancing {g : Grid} {x : Module} {n : String} (h : Part g x n) {u : Unbalanced} (k : x.kind = .balancing u) :
    u.lossLoadCost = g.params.costLossLoad ∧ u.overgenerationCost = g.params.costOvergen := by cases h <;> simp_all

theorem Part.of_battery {g : Grid} {x : Module} {n : String} (h : Part g x n) {b : Battery} (k : x.kind = .battery b) :
    g.arch.battery = true ∧ n = "battery" ∧ b.maxCapacity = g.params.capacity ∧
      b.minCapacity = g.params.socMin * g.params.capacity ∧ b.maxCharge = g.params.pCharge ∧
      b.maxDischarge = g.params.pDischarge ∧ b.efficiency = g.params.eff ∧ b.costCycle = g.params.costCycle := by
  cases h <;> simp_all

theorem Part.of_genset {g : Grid} {x : Module} {n : String} (h : Part g x n) {y : Genset} (k : x.kind = .genset y) :
    g.arch.genset = true ∧ n = "genset" ∧ y.runMin = g.params.rated * g.params.pmin ∧
      y.runMax = g.params.rated * g.params.pmax ∧ y.cost = .const g.params.fuelCost ∧
      y.co2PerUnit = g.params.gensetCo2 ∧ y.costPerCo2 = g.params.costCo2 ∧ y.startUpTime = 0 ∧ y.windDownTime = 0 := by
  cases h <;> simp_all

theorem Part.of_grid {g : Grid} {x : Module} {n : String} (h : Part g x n) {p : GridParams} {t : TS}
    (k : x.kind = .grid p t) : g.arch.grid = true ∧ n = "grid" ∧ x.ffc = .controllable ∧ p.maxImport = g.params.pImport ∧
      p.maxExport = g.params.pExport ∧ p.costPerCo2 = g.params.costCo2 ∧ t.rows = g.gridSeries := by
  cases h <;> simp_all

theorem control_battery (e : Entry) {a : Arch} (h : a.battery = true) :
    dictGet? (e.control a) "battery" = some (.scalar (e.discharge - e.charge)) := by
  simp [Entry.control, h, dictGet?]

theorem control_genset (e : Entry) {a : Arch} (h : a.genset = true) :
    dictGet? (e.control a) "genset" = some (.seq [.arr [if e.genset = 0 then 0 else 1, e.genset]]) := by
  cases hb : a.battery <;> simp [Entry.control, h, hb, dictGet?]

theorem control_grid (e : Entry) {a : Arch} (h : a.grid = true) :
    dictGet? (e.control a) "grid" = some (.scalar (e.imp - e.exp)) := by
  cases hb : a.battery <;> cases hg : a.genset <;> simp [Entry.control, h, hb, hg, dictGet?]

/-- The two microgrids are at the same step and in the same state. -/
structure Twin (g₀ : Grid) (ms : List (String × Module)) (m₀ : Microgrid) (g : Grid) (m : Microgrid) : Prop where
  hist : ∃ ops, m = runG m₀ ops
  frame : g₀.Frame g
  clock : g.Clock
  lock : LockStep (references ms) m g.t
  soc : ∀ nm ∈ references ms, ∀ b, (m.heap nm.2).kind = .battery b → b.soc = g.soc
  window : g₀.arch.battery = true → g₀.params.socMin ≤ g.soc ∧ g.soc ≤ g₀.params.socMax

variable {g g' : Grid} {m m' : Microgrid} {c : Control} {row : StateRow} {e : Entry}

theorem Twin.part (s : Setup g₀ ms m₀) (w : Twin g₀ ms m₀ g m) {nm : String × Nat} (hm : nm ∈ references ms) :
    Part g₀ (m.heap nm.2) nm.1 := by
  obtain ⟨ops, rfl⟩ := w.hist
  exact s.part ops hm

theorem Twin.site (s : Setup g₀ ms m₀) (w : Twin g₀ ms m₀ g m) : Site (references ms) m := by
  obtain ⟨ops, rfl⟩ := w.hist
  exact s.site ops

theorem Twin.inside (w : Twin g₀ ms m₀ g m) : g.t < g₀.loads.length := by
  have := w.clock.timed.inside
  rw [w.frame.dataLength] at this
  exact lt_of_lt_of_le this (Nat.min_le_left _ _)

theorem Twin.live (s : Setup g₀ ms m₀) (w : Twin g₀ ms m₀ g m) : ∀ nm ∈ references ms, (m.heap nm.2).Live := by
  intro nm hm t ht
  have hi := w.inside
  rw [w.lock nm hm]
  unfold Module.series? at ht
  have part := w.part s hm
  cases hk : (m.heap nm.2).kind with
  | load t' =>
    rw [hk] at ht
    simp only [Option.some.injEq] at ht
    subst ht
    rw [part.of_load hk, List.length_map]; exact hi
  | renewable t' =>
    rw [hk] at ht
    simp only [Option.some.injEq] at ht
    subst ht
    rw [part.of_pv hk, List.length_map, s.length]; exact hi
  | grid p t' =>
    rw [hk] at ht
    simp only [Option.some.injEq] at ht
    subst ht
    obtain ⟨ha, -, -, -, -, -, hr⟩ := part.of_grid hk
    rw [hr, s.aligned ha]; exact hi
  | _ => rw [hk] at ht; simp at ht

theorem Twin.loadNow (s : Setup g₀ ms m₀) (w : Twin g₀ ms m₀ g m) {t : TS} (h : t.rows = g₀.loads.map fun l => [-|l|]) :
    (t.rows.getD g.t []).getD 0 0 = -g.load := by
  have h1 := w.clock.timed.load
  rw [w.frame.loads] at h1
  rw [h, List.getD_eq_getElem?_getD (i := g.t), List.getElem?_map, h1]
  simp [abs_of_nonneg (s.loads _ (List.mem_of_getElem? h1))]

theorem Twin.pvNow (s : Setup g₀ ms m₀) (w : Twin g₀ ms m₀ g m) {t : TS} (h : t.rows = g₀.pvs.map fun l => [|l|]) :
    (t.rows.getD g.t []).getD 0 0 = g.pv ∧ 0 ≤ g.pv := by
  have h1 := w.clock.timed.pv
  rw [w.frame.pvs] at h1
  have h0 := s.pvs _ (List.mem_of_getElem? h1)
  refine ⟨?_, h0⟩
  rw [h, List.getD_eq_getElem?_getD (i := g.t), List.getElem?_map, h1]
  simp [abs_of_nonneg h0]

/-- What the step of a module amounts to. -/
structure Deed (g : Grid) (e : Entry) (o : StepOut) (c : Cls) (k' : Kind) : Prop where
  load : c = .load → StepOut.net o = -g.load ∧ o.reward = 0
  pv : c = .renewable → o.reward = 0
  battery : c = .battery → StepOut.net o = e.discharge - e.charge ∧
    o.reward = -(g.params.costCycle * (g.params.eff * e.charge + e.discharge / g.params.eff)) ∧
    ∃ b, k' = .battery b ∧ b.soc = g.soc + (e.charge * g.params.eff - e.discharge / g.params.eff) / g.params.capacity
  grid : c = .grid → StepOut.net o = e.imp - e.exp ∧
    o.reward = -(g.cur.priceImport * e.imp) + g.cur.priceExport * e.exp - g.params.costCo2 * (g.cur.co2 * e.imp)
  genset : c = .genset → StepOut.net o = e.genset ∧
    o.reward = -(g.params.fuelCost * e.genset + g.params.costCo2 * (g.params.gensetCo2 * e.genset))
  balancing : c = .balancing →
    o.reward = -(g.params.costLossLoad * max 0 (StepOut.net o) + g.params.costOvergen * max 0 (-StepOut.net o))

theorem Twin.deed (s : Setup g₀ ms m₀) (w : Twin g₀ ms m₀ g m) (hw : e.Within g.params g.soc) (rep : e.Repeatable g)
    (hs : Supplies m.heap (references ms) (e.control g.arch)) {o : RunOut} {trF trC trX : List Event} {h₁ h₂ : Heap}
    {ci : CostInfo} (ri : RunInfo m (e.control g.arch) false m' o trF trC trX h₁ h₂ ci) {ev : Event}
    (he : ev ∈ trF ++ trC ++ trX) : Deed g e ev.out (m.heap ev.id).kind.cls (m'.heap ev.id).kind := by
  have r := w.site s
  obtain ⟨hst, -, hm⟩ := run_event r.ok r.ids r.names r.clear hs ri he
  have hl := w.live s _ hm
  have part := w.part s hm
  have lock := w.lock _ hm
  have wf := r.ok.wf _ hm
  simp only at hl part lock wf
  cases wf with
  | load t h wk =>
    rw [h.kind]
    refine ⟨fun _ => ?_, nofun, nofun, nofun, nofun, nofun⟩
    obtain ⟨h1, h2⟩ := h.step_net hl hst
    exact ⟨by rw [h1, lock, w.loadNow s (part.of_load h.kind)], h2⟩
  | renewable t h wk =>
    rw [h.kind]
    exact ⟨nofun, fun _ => h.step_reward hl hst, nofun, nofun, nofun, nofun⟩
  | balancing u h =>
    rw [h.kind]
    refine ⟨nofun, nofun, nofun, nofun, nofun, fun _ => ?_⟩
    obtain ⟨h1, h2⟩ := part.of_balancing h.kind
    rw [h.step_net' hst, h1, h2, w.frame.params]
  | battery b h =>
    obtain ⟨ha, hn, p1, p2, p3, p4, p5, p6⟩ := part.of_battery h.kind
    have hb := w.soc _ hm b h.kind
    rw [h.kind]
    refine ⟨nofun, nofun, fun _ => ?_, nofun, nofun, nofun⟩
    rw [← w.frame.arch] at ha
    obtain ⟨hact, hno⟩ := run_act r.ok ri he h.ffc (by rw [hn]; exact control_battery e ha) rfl
    rw [hact, hno] at hst
    rw [← w.frame.params] at p1 p2 p3 p4 p5 p6
    have good := s.good
    have top := s.top
    have hwin := w.window (by rw [← w.frame.arch]; exact ha)
    rw [← w.frame.params] at good top hwin
    have hcap := good.capacity
    have heff := good.eff
    have hq : b.charge = g.soc * g.params.capacity := by
      have := h.valid.soc_eq
      rw [hb, p1] at this
      rw [this, div_mul_cancel₀ _ hcap.ne']
    have hfull := hw.full hwin.2
    have hempty := hw.empty hwin.1
    have hmax : max 0 (-(e.discharge - e.charge)) = e.charge ∧ max 0 (e.discharge - e.charge) = e.discharge := by
      rcases rep.battery.1 with h0 | h0
      · rw [h0]; simp [hw.discharge.1]
      · rw [h0]; simp [hw.charge.1]
    have hprod : e.discharge ≤ b.maxProduction := by
      unfold Battery.maxProduction
      rw [p4, p2, p5, hq, min_mul_of_nonneg _ _ heff.le]
      refine le_min rep.battery.2 ?_
      rw [← div_le_iff₀ heff]
      linarith
    have hcons : e.charge ≤ b.maxConsumption := by
      unfold Battery.maxConsumption
      rw [p3, p1, p5, hq, le_div_iff₀ heff]
      refine le_min ?_ ?_
      · calc _ ≤ e.charge * 1 := mul_le_mul_of_nonneg_left good.eff_le hw.charge.1
          _ ≤ _ := by rw [mul_one]; exact hw.charge.2
      · have : g.params.socMax * g.params.capacity ≤ 1 * g.params.capacity := mul_le_mul_of_nonneg_right top hcap.le
        linarith
    obtain ⟨h1, b', h2, h3, h4⟩ := h.step_net
      (q := e.discharge - e.charge) ⟨by linarith [hw.discharge.1], by linarith [hw.charge.1]⟩ hst
    rw [hmax.1, hmax.2] at h3 h4
    refine ⟨h1, by rw [h4, p5, p6], b', h2, ?_⟩
    rw [h3, hb, p5, p1]
    ring
  | grid p t h wk =>
    obtain ⟨ha, hn, hctl, p1, p2, p3, p4⟩ := part.of_grid h.kind
    rw [h.kind]
    refine ⟨nofun, nofun, nofun, fun _ => ?_, nofun, nofun⟩
    rw [← w.frame.arch] at ha
    obtain ⟨hact, hno⟩ := run_act r.ok ri he hctl (by rw [hn]; exact control_grid e ha) rfl
    rw [hact, hno] at hst
    rw [← w.frame.params] at p1 p2 p3
    have hrow : t.rows.getD (m.heap ev.id).currentStep [] = [g.cur.priceImport, g.cur.priceExport, g.cur.co2, g.cur.status] := by
      have := gridSeries_get (w.frame.gridData.mp (w.clock.timed.cur ha))
      rw [lock, p4, List.getD_eq_getElem?_getD, this]; rfl
    have hmax : max 0 (-(e.imp - e.exp)) = e.exp ∧ max 0 (e.imp - e.exp) = e.imp := by
      rcases rep.grid.1 with h0 | h0
      · rw [h0]; simp [hw.exp.1]
      · rw [h0]; simp [hw.imp.1]
    have hst01 : 0 ≤ g.cur.status := by
      obtain ⟨rr, hr⟩ := hl.row h.ts.series
      have hg : t.rows.getD (m.heap ev.id).currentStep [] = rr := by rw [List.getD_eq_getElem?_getD, hr]; rfl
      exact h.nonneg rr (List.mem_of_getElem? hr) _ (by rw [← hg, hrow]; simp)
    obtain ⟨h1, h2⟩ := h.step_net wk hl (q := e.imp - e.exp) (by
      rw [hrow]
      simp only [List.getD_cons_succ, List.getD_cons_zero]
      rw [p1, p2]
      rcases rep.grid.2 with h0 | ⟨h0, h0'⟩
      · rw [h0]
        constructor <;> linarith [hw.imp.1, hw.imp.2, hw.exp.1, hw.exp.2]
      · rw [h0, h0']
        have hi := mul_nonneg (hw.imp.1.trans hw.imp.2) hst01
        have hx := mul_nonneg (hw.exp.1.trans hw.exp.2) hst01
        constructor <;> linarith) hst
    refine ⟨h1, ?_⟩
    rw [h2, hrow, hmax.1, hmax.2, p3]
    simp only [List.getD_cons_succ, List.getD_cons_zero]
  | genset y h =>
    obtain ⟨ha, hn, p1, p2, p3, p4, p5, p6, p7⟩ := part.of_genset h.kind
    rw [h.kind]
    refine ⟨nofun, nofun, nofun, nofun, fun _ => ?_, nofun⟩
    rw [← w.frame.arch] at ha
    obtain ⟨hact, hno⟩ := run_act r.ok ri he h.ffc (by rw [hn]; exact control_genset e ha) rfl
    rw [hact, hno] at hst
    rw [← w.frame.params] at p1 p2 p3 p4 p5
    have hph : y.untilUp = 0 ∧ y.untilDown = 0 := by
      obtain ⟨ph, hp, -⟩ := h.phase
      cases ph with
      | off => exact ⟨hp.2.2.1.trans (by rw [p6]; rfl), hp.2.2.2⟩
      | on => exact ⟨hp.2.2.1, hp.2.2.2.trans (by rw [p7]; rfl)⟩
      | starting k => have := hp.2.2.2.2; omega
      | stopping k => have := hp.2.2.2.2; omega
    have key : ∃ action : Nat, action < 2 ∧ (if e.genset = 0 then (0 : ℚ) else 1) = action ∧
        (action * y.runMin ≤ e.genset ∧ e.genset ≤ action * y.runMax) := by
      by_cases h0 : e.genset = 0
      · exact ⟨0, by omega, by rw [if_pos h0]; simp, by rw [h0]; simp⟩
      · refine ⟨1, by omega, by rw [if_neg h0]; simp, ?_⟩
        rw [p1, p2]
        push_cast
        rw [one_mul, one_mul]
        exact ⟨rep.genset.resolve_left h0, hw.genset.2⟩
    obtain ⟨action, ha2, hu, hr⟩ := key
    rw [hu] at hst
    obtain ⟨h1, h2⟩ := h.step_net ha2 ⟨fun _ => .inr hph.1, fun _ => .inr hph.2⟩ hr hst
    refine ⟨h1, ?_⟩
    rw [h2]
    simp only [Genset.getCost, Genset.fuelCost, p3, Genset.getCo2Cost, Genset.getCo2, p4, p5]

/-! ### One step of both -/

/-- The greedy use of PV against the case distinction of the legacy microgrid. -/
theorem settle_modular {r v : ℚ} (hv : 0 ≤ v) {w : PvRow} (h : settle r v = .ok w) {L O : ℚ} (hL : 0 ≤ L) (hO : 0 ≤ O) :
    |max 0 (min v r) - w.consumed| < 1/1000 ∧ |r - max 0 (min v r) - (w.lossLoad - w.overgen)| < 1/1000 ∧
    |L * max 0 (r - max 0 (min v r)) + O * max 0 (-(r - max 0 (min v r))) - (w.lossLoad * L + w.overgen * O)| ≤
      max L O * (1/1000) ∧
    (0 < w.lossLoad ∨ 0 < w.curtailed ∨ 0 < w.overgen →
      max 0 (min v r) = w.consumed ∧ r - max 0 (min v r) = w.lossLoad - w.overgen ∧
      L * max 0 (r - max 0 (min v r)) + O * max 0 (-(r - max 0 (min v r))) = w.lossLoad * L + w.overgen * O) := by
  have hM : 0 ≤ max L O * (1/1000) := mul_nonneg (hL.trans (le_max_left _ _)) (by norm_num)
  unfold settle at h
  split_ifs at h with h1 h2 h3 h4 h5 <;> injection h with h <;> subst h <;> simp only
  · obtain ⟨a1, a2⟩ := abs_lt.mp h1
    rcases le_total v r with hvr | hvr
    · rw [min_eq_left hvr, max_eq_right hv, max_eq_right (by linarith : (0 : ℚ) ≤ r - v),
        max_eq_left (by linarith : -(r - v) ≤ 0)]
      refine ⟨by norm_num, by rw [abs_lt]; constructor <;> linarith, ?_, by simp⟩
      rw [abs_of_nonneg (by nlinarith)]
      have : L * (r - v) ≤ max L O * (1/1000) :=
        mul_le_mul (le_max_left _ _) a2.le (by linarith) (hL.trans (le_max_left _ _))
      linarith
    · rw [min_eq_right hvr]
      rcases le_total 0 r with h0 | h0
      · rw [max_eq_right h0, sub_self, neg_zero, max_self]
        refine ⟨by rw [abs_lt]; constructor <;> linarith, by norm_num, ?_, by simp⟩
        simpa using hM
      · rw [max_eq_left h0, sub_zero, max_eq_left h0, max_eq_right (by linarith : (0 : ℚ) ≤ -r)]
        refine ⟨by rw [abs_lt]; constructor <;> linarith, by rw [abs_lt]; constructor <;> linarith, ?_, by simp⟩
        rw [abs_of_nonneg (by nlinarith)]
        have : O * -r ≤ max L O * (1/1000) :=
          mul_le_mul (le_max_right _ _) (by linarith) (by linarith) (hO.trans (le_max_right _ _))
        linarith
  · have hvr : v ≤ r := le_of_lt h2
    rw [min_eq_left hvr, max_eq_right hv, max_eq_right (by linarith : (0 : ℚ) ≤ r - v),
      max_eq_left (by linarith : -(r - v) ≤ 0)]
    refine ⟨by norm_num, by norm_num, ?_, fun _ => ⟨rfl, by ring, by ring⟩⟩
    rw [show L * (r - v) + O * 0 - ((r - v) * L + 0 * O) = 0 by ring, abs_zero]; exact hM
  · rw [min_eq_right h3.2.le, max_eq_right h3.1.le, sub_self, neg_zero, max_self]
    refine ⟨by norm_num, by norm_num, ?_, fun _ => ⟨rfl, by ring, by ring⟩⟩
    simpa using hM
  all_goals
    have hrv : r ≤ v := by linarith
    rw [min_eq_right hrv, max_eq_left h4.le, show r - 0 = r from sub_zero r, max_eq_left h4.le,
      max_eq_right (by linarith : (0 : ℚ) ≤ -r)]
    refine ⟨by norm_num, by norm_num, ?_, fun _ => ⟨rfl, by ring, by ring⟩⟩
    rw [show L * 0 + O * -r - (0 * L + -r * O) = 0 by ring, abs_zero]; exact hM

theorem Recorded.unique {a : Arch} {r r' : Production} {e e' : Entry} (h : e.Recorded a r r') (h' : e'.Recorded a r r') :
    e = e' := by
  have h1 := Recorded.last h
  rw [Recorded.last h'] at h1
  cases e
  cases e'
  simp_all

theorem costFor_total {g : Grid} {e : Entry} (hb : g.arch.battery = false → e.charge = 0 ∧ e.discharge = 0)
    (hg : g.arch.grid = false → e.imp = 0 ∧ e.exp = 0) (hn : g.arch.genset = false → e.genset = 0) :
    (g.costFor e).total = e.lossLoad * g.params.costLossLoad + e.overgen * g.params.costOvergen +
      e.genset * g.params.fuelCost + g.cur.priceImport * e.imp - g.cur.priceExport * e.exp +
      (e.charge + e.discharge) * g.params.costCycle +
      g.params.costCo2 * (e.genset * g.params.gensetCo2 + g.cur.co2 * e.imp) := by
  unfold Grid.costFor Grid.co2For costRow costsOf co2Of
  cases h1 : g.arch.battery <;> cases h2 : g.arch.grid <;> cases h3 : g.arch.genset <;>
    simp only [h1, h2, h3, forall_const, Bool.true_eq_false, Bool.false_eq_true, if_true, if_false, IsEmpty.forall_iff] at hb hg hn ⊢ <;>
    simp [*] <;> ring

theorem nameOf_inj {c c' : Cls} (h : nameOf c = nameOf c') : c = c' := by
  revert h
  cases c <;> cases c' <;> decide

theorem Twin.entry (s : Setup g₀ ms m₀) (w : Twin g₀ ms m₀ g m) (hw : e.Within g.params g.soc)
    {nm : String × Nat} (hm : nm ∈ references ms) (hctl : (m.heap nm.2).ffc = .controllable) :
    ∃ k a, dictGet? (e.control g.arch) nm.1 = some k ∧ k.acts = [a] ∧ (m.heap nm.2).Accepts a false := by
  have part := w.part s hm
  cases (w.site s).ok.wf nm hm with
  | battery b h =>
    obtain ⟨ha, hn, -⟩ := part.of_battery h.kind
    rw [← w.frame.arch] at ha
    refine ⟨_, _, by rw [hn]; exact control_battery e ha, rfl, ?_⟩
    simp only [Accepts, h.kind]
    exact ⟨_, request_num _ _⟩
  | grid p t h _ =>
    obtain ⟨ha, hn, -⟩ := part.of_grid h.kind
    rw [← w.frame.arch] at ha
    refine ⟨_, _, by rw [hn]; exact control_grid e ha, rfl, ?_⟩
    simp only [Accepts, h.kind]
    exact ⟨_, request_num _ _⟩
  | genset y h =>
    obtain ⟨ha, hn, -⟩ := part.of_genset h.kind
    rw [← w.frame.arch] at ha
    refine ⟨_, _, by rw [hn]; exact control_genset e ha, rfl, ?_⟩
    simp only [Accepts, h.kind]
    refine ⟨_, _, rfl, ?_, ?_, _, request_genset h _ _, hw.genset.1⟩ <;> split <;> norm_num
  | load t h _ => rw [h.ffc] at hctl; exact absurd hctl (by decide)
  | renewable t h _ => rw [h.ffc] at hctl; exact absurd hctl (by decide)
  | balancing u h => rw [h.ffc] at hctl; exact absurd hctl (by decide)

theorem Setup.balancing (s : Setup g₀ ms m₀) : ∃ nm ∈ references ms, ∃ u, (place ms nm.2).kind = .balancing u := by
  obtain ⟨y, hy, hin⟩ := component_mem s.comps (mem_balancing g₀ false)
  injection hy with hy
  obtain ⟨i, hi, hpl⟩ := references_of hin
  exact ⟨_, hi, _, by simp only; rw [hpl, ← hy]; rfl⟩

/-- The modular microgrid can be asked for what was recorded. -/
theorem Twin.runs (s : Setup g₀ ms m₀) (w : Twin g₀ ms m₀ g m) (hw : e.Within g.params g.soc) :
    Supplies m.heap (references ms) (e.control g.arch) ∧ ∃ m' o, m.run (e.control g.arch) false = (m', .ok o) := by
  have r := w.site s
  refine ⟨?_, ?_⟩
  · intro nm hm hctl
    obtain ⟨k, a, h1, h2, -⟩ := w.entry s hw hm hctl
    exact ⟨k, h1, by rw [h2]; exact MPC.named_one r.names _ _ _⟩
  · obtain ⟨ops, rfl⟩ := w.hist
    refine C19_run_succeeds s.made (fun nm hm => (s.library nm hm).1) s.balancing (references_ids ms)
      (fun nm hm => (s.library nm hm).2) (by simp) ops (w.live s) _ _ fun nl hnl => ?_
    have hne : nl.2 ≠ [] := PriorityList.level_nonempty (by have := hnl; rwa [r.ok.cont] at this)
    obtain ⟨i₀, hi₀⟩ := List.exists_mem_of_ne_nil _ hne
    obtain ⟨hm₀, hf₀⟩ := r.ok.mem_levelDict nl hnl i₀ hi₀
    obtain ⟨k, a, h1, h2, h3⟩ := w.entry s hw hm₀ hf₀
    refine ⟨k, h1, fun ia hia => ?_⟩
    have hi := (List.of_mem_zip hia).1
    have ha := (List.of_mem_zip hia).2
    rw [h2, List.mem_singleton] at ha
    obtain ⟨hm', hf'⟩ := r.ok.mem_levelDict nl hnl ia.1 hi
    have : (nl.1, ia.1) = (nl.1, i₀) := List.inj_on_of_nodup_map r.names hm' hm₀ rfl
    have : ia.1 = i₀ := (Prod.mk.inj this).2
    rw [this, ha]
    exact h3

theorem run_next_soc (hr : g.run c = (g', .ok row)) (rec : e.Recorded g.arch g.production g'.production)
    (hb : g.arch.battery = true) (possible : g.arch.grid = false → c.charge = some e.charge ∧ c.discharge = some e.discharge) :
    g'.soc = g.soc + (e.charge * g.params.eff - e.discharge / g.params.eff) / g.params.capacity := by
  obtain ⟨e', -, -, rec', -, hrow, hst, -⟩ := Grid.run_ok hr
  rw [← Recorded.unique rec rec'] at hrow
  unfold Grid.soc
  rw [hst, hrow]
  simp only [List.getLast?_append, List.getLast?_singleton, Option.or, Option.map_some, Option.getD_some]
  unfold Grid.rowOf nextRow
  cases hg : g.arch.grid with
  | true => simp [hb]; rfl
  | false =>
    obtain ⟨h1, h2⟩ := possible hg
    simp [hb, h1, h2]; rfl

/-- One step of both microgrids. -/
theorem Twin.step (s : Setup g₀ ms m₀) (w : Twin g₀ ms m₀ g m) (hr : g.run c = (g', .ok row))
    (rec : e.Recorded g.arch g.production g'.production) (rep : e.Repeatable g)
    (possible : g.arch.battery = true → g.arch.grid = false → c.charge = some e.charge ∧ c.discharge = some e.discharge) :
    ∃ m' o, m.run (e.control g.arch) false = (m', .ok o) ∧ e.RepeatedBy g g' o m' ∧
      (g'.done = true ∨ Twin g₀ ms m₀ g' m') := by
  obtain ⟨e', -, chk, rec', hset, -, -, hcosts, -, hend, hnot⟩ := Grid.run_ok hr
  obtain rfl := Recorded.unique rec rec'
  have good : g.params.Good := by rw [w.frame.params]; exact s.good
  have hL : 0 ≤ g.params.costLossLoad := by rw [w.frame.params]; exact s.loss
  have hO : 0 ≤ g.params.costOvergen := by rw [w.frame.params]; exact s.over
  obtain ⟨hw, hcc, hdd, -⟩ := chk.within good
  obtain ⟨hs, m', o, hrun⟩ := w.runs s hw
  have r := w.site s
  obtain ⟨trF, trC, trX, h₁, h₂, ci, ri⟩ := Microgrid.run_ok hrun
  have hist' : ∃ ops, m' = runG m₀ ops := by
    obtain ⟨ops, rfl⟩ := w.hist
    exact ⟨ops ++ [.run (e.control g.arch) false], by
      simp only [runG, List.foldl_append, List.foldl_cons, List.foldl_nil, GOp.apply]
      rw [show List.foldl (fun g op => GOp.apply g op) m₀ ops = runG m₀ ops from rfl, hrun]⟩
  have r' : Site (references ms) m' := by
    obtain ⟨ops, rfl⟩ := hist'
    exact s.site ops
  -- the events
  have ev : ∀ nm ∈ references ms, ∃ x ∈ trF ++ trC ++ trX, (x.name, x.id) = nm ∧
      MPC.delivered o nm.1 = StepOut.net x.out ∧ Deed g e x.out (m.heap nm.2).kind.cls (m'.heap nm.2).kind := by
    intro nm hm
    obtain ⟨x, hx, hxx⟩ := List.mem_map.mp ((r.ok.events_perm r.clear hs ri).mem_iff.mpr hm)
    refine ⟨x, hx, hxx, ?_, ?_⟩
    · rw [← hxx]
      exact (run_event r.ok r.ids r.names r.clear hs ri hx).2.1
    · rw [← hxx]
      exact w.deed s hw rep hs ri hx
  have nameEq : ∀ nm ∈ references ms, nm.1 = nameOf (m.heap nm.2).kind.cls := fun nm hm => (w.part s hm).name
  have absent : ∀ cl, (∀ nm ∈ references ms, (m.heap nm.2).kind.cls ≠ cl) → MPC.delivered o (nameOf cl) = 0 := by
    intro cl hcl
    unfold MPC.delivered
    rw [(ri.reported (nameOf cl)).1, List.filter_eq_nil_iff.mpr]
    · simp
    · intro x hx hh
      have hm := (run_event r.ok r.ids r.names r.clear hs ri hx).2.2
      refine hcl _ hm (nameOf_inj ?_)
      rw [← nameEq _ hm]
      exact of_decide_eq_true hh
  have find : ∀ cl, (∀ nm ∈ references ms, (m.heap nm.2).kind.cls ≠ cl) ∨
      ∃ nm ∈ references ms, (m.heap nm.2).kind.cls = cl ∧ nm.1 = nameOf cl := by
    intro cl
    by_cases hc : ∃ nm ∈ references ms, (m.heap nm.2).kind.cls = cl
    · obtain ⟨nm, hm, h1⟩ := hc
      exact .inr ⟨nm, hm, h1, h1 ▸ nameEq nm hm⟩
    · exact .inl fun nm hm h => hc ⟨nm, hm, h⟩
  have exists_of : ∀ {cl : Cls} {x : Except Err Module}, (nameOf cl, x) ∈ g₀.components false →
      ∃ nm ∈ references ms, (m.heap nm.2).kind.cls = cl ∧ nm.1 = nameOf cl := by
    intro cl x hx
    obtain ⟨nm, hm, hn⟩ := s.named hx
    exact ⟨nm, hm, nameOf_inj (by rw [← nameEq nm hm, hn]), hn⟩
  have noB : (∀ nm ∈ references ms, (m.heap nm.2).kind.cls ≠ .battery) → e.charge = 0 ∧ e.discharge = 0 := by
    intro h
    refine rec.noBattery ?_
    by_contra hb
    obtain ⟨nm, hm, hc, -⟩ := exists_of (cl := .battery) (mem_battery false (by rw [← w.frame.arch]; simpa using hb))
    exact h nm hm hc
  have noG : (∀ nm ∈ references ms, (m.heap nm.2).kind.cls ≠ .grid) → e.imp = 0 ∧ e.exp = 0 := by
    intro h
    refine rec.noGrid ?_
    by_contra hb
    obtain ⟨nm, hm, hc, -⟩ := exists_of (cl := .grid) (mem_grid false (by rw [← w.frame.arch]; simpa using hb))
    exact h nm hm hc
  have noN : (∀ nm ∈ references ms, (m.heap nm.2).kind.cls ≠ .genset) → e.genset = 0 := by
    intro h
    refine rec.noGenset ?_
    by_contra hb
    obtain ⟨nm, hm, hc, -⟩ := exists_of (cl := .genset) (mem_genset false (by rw [← w.frame.arch]; simpa using hb))
    exact h nm hm hc
  obtain ⟨nl, hml, cl, nnl⟩ := exists_of (cl := .load) (mem_load g₀ false)
  obtain ⟨np, hmp, cp, nnp⟩ := exists_of (cl := .renewable) (mem_pv g₀ false)
  obtain ⟨nu, hmu, cu, nnu⟩ := exists_of (cl := .balancing) (mem_balancing g₀ false)
  have dL : MPC.delivered o "load" = -g.load := by
    obtain ⟨x, -, -, hd, fa⟩ := ev nl hml
    rw [nnl] at hd
    exact hd.trans (fa.load cl).1
  have dB : MPC.delivered o "battery" = e.discharge - e.charge := by
    rcases find .battery with h | ⟨nm, hm, hc, hn⟩
    · rw [(noB h).1, (noB h).2, sub_zero]; exact absent _ h
    · obtain ⟨x, -, -, hd, fa⟩ := ev nm hm
      rw [hn] at hd
      exact hd.trans (fa.battery hc).1
  have dG : MPC.delivered o "grid" = e.imp - e.exp := by
    rcases find .grid with h | ⟨nm, hm, hc, hn⟩
    · rw [(noG h).1, (noG h).2, sub_zero]; exact absent _ h
    · obtain ⟨x, -, -, hd, fa⟩ := ev nm hm
      rw [hn] at hd
      exact hd.trans (fa.grid hc).1
  have dN : MPC.delivered o "genset" = e.genset := by
    rcases find .genset with h | ⟨nm, hm, hc, hn⟩
    · rw [noN h]; exact absent _ h
    · obtain ⟨x, -, -, hd, fa⟩ := ev nm hm
      rw [hn] at hd
      exact hd.trans (fa.genset hc).1
  -- the balance
  obtain ⟨u, hu⟩ : ∃ u, (m.heap nu.2).kind = .balancing u := by
    cases hk : (m.heap nu.2).kind <;> rw [hk] at cu <;> simp [Kind.cls] at cu ⊢
  obtain ⟨tp, wp⟩ := (r.ok.wf np hmp).renWF cp
  have htot := r.total hs hmu hu ri
  rw [r.sum (H := fun c => MPC.delivered o (nameOf c)) (fun nm hm => by rw [nameEq nm hm]) absent] at htot
  simp only [nameOf] at htot
  rw [dL, dB, dG, dN] at htot
  have hdis := r.dispatch (w.live s) hs hmp wp hmu hu ri
  obtain ⟨hpv, hpv0⟩ := w.pvNow s ((w.part s hmp).of_pv wp.kind)
  rw [nnp, nnu, w.lock np hmp, hpv] at hdis
  simp only [nameOf] at hdis
  set D := g.load + e.charge + e.exp - (e.discharge + e.imp + e.genset) with hD
  have hPU : MPC.delivered o "PV" + MPC.delivered o "unbalanced_energy" = D := by rw [hD]; linarith
  rw [hPU] at hdis
  have hU : MPC.delivered o "unbalanced_energy" = D - max 0 (min g.pv D) := by linarith
  obtain ⟨s1, s2, s3, s4⟩ := settle_modular hpv0 hset hL hO
  simp only at s1 s2 s3 s4
  rw [← hU] at s2 s4
  rw [← hdis] at s1 s4
  -- the reward
  have hrew := ri.reward
  have hsh : m.shaper = none := by
    obtain ⟨ops, rfl⟩ := w.hist
    exact (user_grid s.made (fun nm hm => (s.library nm hm).1) ops).2.2.1
  rw [hsh] at hrew
  simp only [StepAcc.shapedReward, Except.ok.injEq, StepAcc.run_reward, zero_add] at hrew
  let H : Cls → ℚ := fun c => match c with
    | .load => 0
    | .renewable => 0
    | .battery => -(g.params.costCycle * (g.params.eff * e.charge + e.discharge / g.params.eff))
    | .grid => -(g.cur.priceImport * e.imp) + g.cur.priceExport * e.exp - g.params.costCo2 * (g.cur.co2 * e.imp)
    | .genset => -(g.params.fuelCost * e.genset + g.params.costCo2 * (g.params.gensetCo2 * e.genset))
    | .balancing => -(g.params.costLossLoad * max 0 (MPC.delivered o "unbalanced_energy") +
        g.params.costOvergen * max 0 (-MPC.delivered o "unbalanced_energy"))
  have hsum := sum_modules r.ok r.clear hs ri (F := fun x => x.out.reward) (G := fun nm => H (m.heap nm.2).kind.cls) (by
    intro x hx
    have fa := w.deed s hw rep hs ri hx
    obtain ⟨-, hd, hm⟩ := run_event r.ok r.ids r.names r.clear hs ri hx
    have hn := nameEq _ hm
    simp only at hn
    cases hc : (m.heap x.id).kind.cls with
    | load => exact (fa.load hc).2
    | renewable => exact fa.pv hc
    | battery => exact (fa.battery hc).2.1
    | grid => exact (fa.grid hc).2
    | genset => exact (fa.genset hc).2
    | balancing =>
      rw [hn, hc] at hd
      simp only [nameOf] at hd
      simp only [H]
      rw [hd]
      exact fa.balancing hc)
  rw [r.sum (H := H) (fun nm hm => rfl) (by
    intro cl hcl
    cases cl with
    | load => rfl
    | renewable => rfl
    | battery => simp only [H, (noB hcl).1, (noB hcl).2]; simp
    | grid => simp only [H, (noG hcl).1, (noG hcl).2]; simp
    | genset => simp only [H, noN hcl]; simp
    | balancing => exact absurd cu (hcl nu hmu))] at hsum
  simp only [H] at hsum
  rw [hrew] at hsum
  have hcost := costFor_total (g := g) (e := e) rec.noBattery rec.noGrid rec.noGenset
  have hdiff : -o.reward - ((g.costFor e).total + e.extraWear g.params) =
      g.params.costLossLoad * max 0 (MPC.delivered o "unbalanced_energy") +
        g.params.costOvergen * max 0 (-MPC.delivered o "unbalanced_energy") -
        (e.lossLoad * g.params.costLossLoad + e.overgen * g.params.costOvergen) := by
    rw [hsum, hcost]
    unfold Entry.extraWear
    ring
  have socNext : ∀ nm ∈ references ms, ∀ b, (m'.heap nm.2).kind = .battery b → b.soc = g'.soc := by
    intro nm hm b hk
    have hcl : (m.heap nm.2).kind.cls = .battery := by
      have := kept_cls.toRespected.run m (e.control g.arch) false nm.2
      rw [hrun] at this
      rw [← this, hk]; rfl
    obtain ⟨x, -, -, -, fa⟩ := ev nm hm
    obtain ⟨-, -, b', hb', hsoc⟩ := fa.battery hcl
    rw [hk] at hb'
    injection hb' with hb'
    subst hb'
    obtain ⟨bb, hbb⟩ : ∃ bb, (m.heap nm.2).kind = .battery bb := by
      cases hk : (m.heap nm.2).kind <;> rw [hk] at hcl <;> simp [Kind.cls] at hcl ⊢
    have ha : g.arch.battery = true := by rw [w.frame.arch]; exact ((w.part s hm).of_battery hbb).1
    rw [hsoc, run_next_soc hr rec ha (possible ha)]
  refine ⟨m', o, hrun, ⟨dL, dB, dG, dN, s1, s2, ?_, ⟨_, hcosts, ?_⟩, ?_⟩, ?_⟩
  · intro hb
    obtain ⟨nm, hm, hc, hn⟩ := exists_of (cl := .battery) (mem_battery false (by rw [← w.frame.arch]; exact hb))
    refine ⟨m'.heap nm.2, by have := r'.modulesOf hm; rwa [hn] at this, ?_⟩
    obtain ⟨x, -, -, -, fa⟩ := ev nm hm
    obtain ⟨-, -, b', hb', -⟩ := fa.battery hc
    unfold Module.soc?
    rw [hb']
    simp only
    rw [socNext nm hm b' hb']
  · rw [hdiff, hU]
    exact s3
  · intro h
    obtain ⟨t1, t2, t3⟩ := s4 h
    refine ⟨t1, t2, _, hcosts, ?_⟩
    linarith
  · by_cases he : g.AtEnd
    · left
      rw [hend he]
    · right
      have fr := ({ g.written c e g'.production with t := g.t + 1 } : Grid).updateVariables_frame.2
      rw [hnot he] at fr
      have ht : g'.t = g.t + 1 := fr.t
      refine ⟨hist', ?_, ?_, ?_, socNext, ?_⟩
      · have := g.run_frame c
        rw [hr] at this
        exact w.frame.trans this
      · have := (Grid.run_clock w.clock c).1
        rwa [hr] at this
      · intro nm hm
        rw [((r.ok.run_modules r.ids r.clear hs hrun).1 nm hm).1, w.lock nm hm, ht]
      · intro hb
        have hb' : g.arch.battery = true := by rw [w.frame.arch]; exact hb
        rw [run_next_soc hr rec hb' (possible hb'), w.frame.params]
        have hwin := w.window hb
        rw [w.frame.params] at hcc hdd
        exact soc_step s.good hwin.1 hwin.2 hw.charge.1 hcc hw.discharge.1 hdd

/-- All steps. -/
theorem Twin.replay (s : Setup g₀ ms m₀) {cs : List Control} {g : Grid} {m : Microgrid} (w : Twin g₀ ms m₀ g m)
    (h : Proceeds g cs) : ∃ es os g'' m'', Repeats g m cs es os g'' m'' := by
  induction cs generalizing g m with
  | nil => exact ⟨[], [], g, m, .nil g m⟩
  | cons c cs ih =>
    obtain ⟨-, g', row, e, hr, rec, rep, possible, rest⟩ := h
    obtain ⟨m', o, hrun, same, hnext⟩ := w.step s hr rec rep possible
    rcases hnext with hd | w'
    · cases cs with
      | nil => exact ⟨[e], [o], g', m', .cons hr rec hrun same (.nil g' m')⟩
      | cons c' cs =>
        have := rest.1
        rw [hd] at this
        exact absurd this (by simp)
    · obtain ⟨es, os, g'', m'', hrest⟩ := ih w' rest
      exact ⟨e :: es, o :: os, g'', m'', .cons hr rec hrun same hrest⟩

/-- The new modules. -/
theorem Setup.fresh (s : Setup g₀ ms m₀) {nm : String × Nat} (hm : nm ∈ references ms) :
    (m₀.heap nm.2).currentStep = 0 ∧ ∀ b, (m₀.heap nm.2).kind = .battery b → b.soc = g₀.batterySoc := by
  obtain ⟨hh, -⟩ := Microgrid.create_ok s.made
  rw [hh]
  have hin := List.mem_of_getElem? (mem_references hm)
  rcases component_cases s.comps hin with ⟨-, b⟩ | ⟨-, b⟩ | ⟨-, b⟩ | ⟨ha, -, b⟩ | ⟨-, -, b⟩ | ⟨-, -, b⟩
  · obtain ⟨t, k, -, nw⟩ := load_inv b
    exact ⟨nw.start.2, fun b hb => by rw [k] at hb; simp at hb⟩
  · simp only at b
    rw [b]
    exact ⟨rfl, fun b hb => by simp [Grid.balancingModule, mkBalancing] at hb⟩
  · obtain ⟨t, k, -, nw⟩ := pv_inv b
    exact ⟨nw.start.2, fun b hb => by rw [k] at hb; simp at hb⟩
  · obtain ⟨y, k, -, -, hz, -, -, -, -, -, -, -, -, hs, ⟨s', h1, h2⟩, -, -, -, -, -, hc, -⟩ := mkBattery_inv b
    refine ⟨hc, fun b hb => ?_⟩
    rw [k] at hb
    injection hb with hb
    subst hb
    injection h1 with h1
    rw [hs, h2, ← h1]
    exact mul_div_cancel_right₀ _ hz
  · obtain ⟨y, -, k, -, -, -, -, -, hc, -⟩ := mkGenset_inv b
    exact ⟨hc, fun b hb => by rw [k] at hb; simp at hb⟩
  · obtain ⟨p, t, k, nw, -⟩ := grid_inv b
    exact ⟨nw.start.2, fun b hb => by rw [k] at hb; simp at hb⟩

theorem Grid.Comparable.twin (h : g₀.Comparable) (hm : g₀.toModular false = .ok m₀) (clock : g₀.FullSeries → g₀.Clock) :
    ∃ ms, Setup g₀ ms m₀ ∧ Twin g₀ ms m₀ g₀ m₀ := by
  obtain ⟨ms, e, hn, hc⟩ := toModular_ok hm
  have conv := (toModular_iff h.aligned).mp ⟨m₀, hm⟩
  have s : Setup g₀ ms m₀ := ⟨e, hn, hc, h.params, h.socMax,
    fun hb => by rw [(h.soc hb).1]; exact ⟨(h.soc hb).2.1, (h.soc hb).2.2.trans h.socMax⟩, h.loss, h.over, h.loads, h.pvs,
    conv.pv_length, fun hg => (gridSeries_length h.aligned hg).trans (conv.grid_length hg)⟩
  have full : g₀.FullSeries := by
    intro hg
    obtain ⟨a1, a2, a3⟩ := h.aligned hg
    have : g₀.dataLength = g₀.statuses.length := by
      unfold Grid.dataLength
      rw [conv.pv_length, min_self, conv.grid_length hg]
    omega
  refine ⟨ms, s, ⟨[], rfl⟩, .refl _, clock full, ?_, ?_, fun hb => (h.soc hb).2⟩
  · intro nm hm
    rw [(s.fresh hm).1, h.start]
  · intro nm hm b hb
    rw [(s.fresh hm).2 b hb]
    exact (h.soc (((s.part [] hm).of_battery hb).1)).1

theorem Repeats.total {cs : List Control} {es : List Entry} {os : List RunOut} {g g'' : Grid} {m m'' : Microgrid}
    (h : Repeats g m cs es os g'' m'') : g''.params = g.params ∧ es.length = cs.length ∧ os.length = cs.length ∧
      ∃ new, g''.costs = g.costs ++ new ∧ new.length = cs.length ∧
        |-(os.map RunOut.reward).sum - ((new.map CostRow.total).sum + (es.map (Entry.extraWear · g.params)).sum)| ≤
          cs.length * (max g.params.costLossLoad g.params.costOvergen * (1/1000)) := by
  induction h with
  | nil g m => exact ⟨rfl, rfl, rfl, [], by simp, rfl, by simp⟩
  | @cons g g' g'' m m' m'' c cs e es o os row run recorded again same rest ih =>
    obtain ⟨hp, h1, h2, new, h3, h4, h5⟩ := ih
    have fr := g.run_frame c
    rw [run] at fr
    have hp' : g'.params = g.params := fr.params
    obtain ⟨cost, hc, hcost⟩ := same.cost
    refine ⟨hp.trans hp', by simp [h1], by simp [h2], cost :: new, by rw [h3, hc]; simp, by simp [h4], ?_⟩
    rw [hp'] at h5
    simp only [List.map_cons, List.sum_cons, List.length_cons, Nat.cast_add, Nat.cast_one, add_mul, one_mul]
    rw [show -(o.reward + (os.map RunOut.reward).sum) - (cost.total + (new.map CostRow.total).sum +
        (e.extraWear g.params + (es.map (Entry.extraWear · g.params)).sum)) =
      (-o.reward - (cost.total + e.extraWear g.params)) +
      (-(os.map RunOut.reward).sum - ((new.map CostRow.total).sum + (es.map (Entry.extraWear · g.params)).sum)) by ring]
    have := abs_add_le (-o.reward - (cost.total + e.extraWear g.params))
      (-(os.map RunOut.reward).sum - ((new.map CostRow.total).sum + (es.map (Entry.extraWear · g.params)).sum))
    linarith

end

end Pymgrid.Legacy
