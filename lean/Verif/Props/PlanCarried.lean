import Verif.Lemmas.PlanCarried
import Verif.Props.ModularMPC
import Verif.Props.RationalPlans
import Verif.Props.Sample

set_option autoImplicit false

/-!
# C69, C70: what becomes of a plan

The first step of a plan against the run of the modular microgrid on the control taken from it, and what it costs.
-/

namespace Pymgrid.MPC

open Module

variable {h : Heap} {mods : List (String × Nat)} {sh : Option Shaper}
  {tr : Option (Nat → Nat → Option Nat → Except Err (Nat × Nat))} {g₀ g' : Microgrid} {pl : Planner} {P : Problem} {x : Point}
  {o : RunOut}

/-! ### C69: plans are carried out -/

/-- Everything that is used about the microgrid of a user. -/
theorem user_problem (hc : Microgrid.create h mods sh tr = .ok g₀) (hl : ∀ nm ∈ mods, LibraryModule (h nm.2))
    (hd : DistinctNames h mods)
    (hroom : ∀ nm ∈ mods, ∀ b, (h nm.2).kind = .battery b → 0 ≤ b.minCapacity ∧ 0 < b.maxCapacity)
    (ops ops' : List GOp) (hpl : createModular (runG g₀ ops) = .ok pl)
    (hlive : ∀ nm ∈ mods, ((runG g₀ ops').heap nm.2).Live) (hP : modularProblem pl (runG g₀ ops') = .ok P) (x : Point) :
    Ready mods pl (runG g₀ ops') ∧ Poses (runG g₀ ops').heap mods P ∧ 0 < P.horizon ∧
      Carries (runG g₀ ops').heap mods P x (modularControl pl.names x) ∧ P.Good := by
  have r := user_ready hc hl hd hroom ops ops' hpl
  by_cases hsrc : HasSource (runG g₀ ops').heap mods
  · obtain ⟨P', hP', poses, good, -, hh, hgen⟩ := r.problem hlive hsrc
    rw [hP] at hP'
    obtain rfl := Except.ok.inj hP'
    exact ⟨r, poses, hh, r.carries hgen x, good⟩
  · rw [r.no_problem hlive hsrc] at hP
    exact absurd hP (by simp)

/-- C69: if the first step of a plan can be executed (`Executable`), the run on the control taken from it carries it out:
    every module delivers what the plan assigns to it, and the battery ends up with the planned state of charge.
    Missing: steps that cannot be executed but are planned all the same (`C69_only_if`). -/
theorem C69_as_planned_partial (hc : Microgrid.create h mods sh tr = .ok g₀) (hl : ∀ nm ∈ mods, LibraryModule (h nm.2))
    (hid : (mods.map Prod.snd).Nodup) (hd : DistinctNames h mods)
    (hroom : ∀ nm ∈ mods, ∀ b, (h nm.2).kind = .battery b → 0 ≤ b.minCapacity ∧ 0 < b.maxCapacity)
    (ops ops' : List GOp) (hpl : createModular (runG g₀ ops) = .ok pl)
    (hlive : ∀ nm ∈ mods, ((runG g₀ ops').heap nm.2).Live) (hP : modularProblem pl (runG g₀ ops') = .ok P)
    (hf : Feasible P x) (ex : Executable (runG g₀ ops').heap mods (x.u 0) (x.flow P.genset 0))
    (hr : (runG g₀ ops').run (modularControl pl.names x) false = (g', .ok o)) :
    AsPlanned (runG g₀ ops').heap mods P (x.flow P.genset 0) o g'.heap := by
  obtain ⟨r, poses, hh, carries, -⟩ := user_problem hc hl hd hroom ops ops' hpl hlive hP x
  exact r.as_planned hid hlive poses hf hh ex carries hr

/-- C69: the same in terms of a step of the control, for any sound solver. -/
theorem C69_step_partial (hc : Microgrid.create h mods sh tr = .ok g₀) (hl : ∀ nm ∈ mods, LibraryModule (h nm.2))
    (hid : (mods.map Prod.snd).Nodup) (hd : DistinctNames h mods)
    (hroom : ∀ nm ∈ mods, ∀ b, (h nm.2).kind = .battery b → 0 ≤ b.minCapacity ∧ 0 < b.maxCapacity)
    (ops ops' : List GOp) (hpl : createModular (runG g₀ ops) = .ok pl)
    (hlive : ∀ nm ∈ mods, ((runG g₀ ops').heap nm.2).Live) {solve : Solver} (sound : solve.Sound)
    (hs : modularStep solve pl (runG g₀ ops') = (g', .ok o)) :
    ∃ P x, Poses (runG g₀ ops').heap mods P ∧ solve P = some x ∧ Admissible P (x.flow P.genset) x.u ∧
      (Executable (runG g₀ ops').heap mods (x.u 0) (x.flow P.genset 0) →
        AsPlanned (runG g₀ ops').heap mods P (x.flow P.genset 0) o g'.heap) := by
  unfold modularStep at hs
  cases hP : modularProblem pl (runG g₀ ops') with
  | error e => rw [hP] at hs; simp at hs
  | ok P =>
    rw [hP] at hs
    simp only at hs
    cases hx : solve P with
    | none => rw [hx] at hs; simp at hs
    | some x =>
      rw [hx] at hs
      have hf := sound.feasible P x hx
      exact ⟨P, x, (user_problem hc hl hd hroom ops ops' hpl hlive hP x).2.1, hx, (feasible_iff P x).mp hf, fun ex =>
        C69_as_planned_partial hc hl hid hd hroom ops ops' hpl hlive hP hf ex hs⟩

/-- Finding, C69: the conditions are not taken into account by the planning, but no plan is carried out without them.  Whatever
    is planned, a grid that is out delivers nothing, a battery never more than its rate of discharge times its efficiency,
    and a genset that has to start up first nothing. -/
theorem C69_only_if (hc : Microgrid.create h mods sh tr = .ok g₀) (hl : ∀ nm ∈ mods, LibraryModule (h nm.2))
    (hid : (mods.map Prod.snd).Nodup) (hd : DistinctNames h mods)
    (hroom : ∀ nm ∈ mods, ∀ b, (h nm.2).kind = .battery b → 0 ≤ b.minCapacity ∧ 0 < b.maxCapacity)
    (ops ops' : List GOp) (hpl : createModular (runG g₀ ops) = .ok pl)
    (hlive : ∀ nm ∈ mods, ((runG g₀ ops').heap nm.2).Live) (hP : modularProblem pl (runG g₀ ops') = .ok P)
    (hf : Feasible P x) (hr : (runG g₀ ops').run (modularControl pl.names x) false = (g', .ok o)) :
    (∀ nm ∈ mods, ∀ p t, ((runG g₀ ops').heap nm.2).kind = .grid p t → ((runG g₀ ops').heap nm.2).ffc = .controllable →
      (t.rows.getD ((runG g₀ ops').heap nm.2).currentStep []).getD 3 0 = 0 → delivered o nm.1 = 0 ∧
        (AsPlanned (runG g₀ ops').heap mods P (x.flow P.genset 0) o g'.heap →
          (x.flow P.genset 0).imp = (x.flow P.genset 0).exp)) ∧
    (∀ nm ∈ mods, ∀ b, ((runG g₀ ops').heap nm.2).kind = .battery b → delivered o nm.1 ≤ b.maxDischarge * b.efficiency ∧
        (AsPlanned (runG g₀ ops').heap mods P (x.flow P.genset 0) o g'.heap →
          (x.flow P.genset 0).discharge - (x.flow P.genset 0).charge ≤ b.maxDischarge * b.efficiency)) ∧
    (∀ nm ∈ mods, ∀ n, ((runG g₀ ops').heap nm.2).kind = .genset n → n.status = 0 → n.untilUp ≠ 0 → delivered o nm.1 = 0 ∧
        (AsPlanned (runG g₀ ops').heap mods P (x.flow P.genset 0) o g'.heap → (x.flow P.genset 0).genset = 0)) := by
  obtain ⟨r, poses, hh, carries, -⟩ := user_problem hc hl hd hroom ops ops' hpl hlive hP x
  obtain ⟨h1, h2, h3⟩ := r.limits hid hlive poses hf hh carries hr
  refine ⟨fun nm hm p t hk hctl h0 => ⟨h1 nm hm p t hk hctl h0, fun ap => ?_⟩,
    fun nm hm b hk => ⟨h2 nm hm b hk, fun ap => ?_⟩, fun nm hm n hk h0 hu => ⟨h3 nm hm n hk h0 hu, fun ap => ?_⟩⟩
  · have := ap.grid nm hm p t hk
    rw [h1 nm hm p t hk hctl h0] at this
    linarith
  · rw [← (ap.battery nm hm b hk).1]
    exact h2 nm hm b hk
  · rw [← ap.genset nm hm n hk]
    exact h3 nm hm n hk h0 hu

/-- With an empty battery and without genset, the best plan is to buy what the load needs beyond the PV. -/
theorem optimal_buys (ho : Optimal P x) (hh : 0 < P.horizon) (good : P.Good) (hgen : P.genset = false)
    (hempty : P.inputs.soc = P.inputs.eMin) (hgrid : P.inputs.grid.getD 0 0 = 1) (hcap : 0 < P.inputs.pImport)
    (hp : importCost P 0 < P.static.lossLoad) (hp' : 0 < importCost P 0 + P.inputs.exportPrice.getD 0 0)
    (hneed : P.inputs.pv.getD 0 0 < P.inputs.load.getD 0 0) : (x.flow P.genset 0).exp < (x.flow P.genset 0).imp := by
  have ok := ((feasible_iff P x).mp ho.1) 0 hh
  have h1 := C71_served ho hh hp
  have h2 := C71_one_way ho hh hp'
  rw [hgrid, mul_one] at h1
  have hgs := ok.genset
  rw [if_neg (by simp [hgen])] at hgs
  generalize x.flow P.genset 0 = f at *
  rcases h1 with h1 | h1
  · have hb := ok.balance
    have hd := ok.dynamics
    have hw := ok.window.1
    simp only [socBefore] at hd
    rw [hempty] at hd
    have hcd : f.discharge ≤ f.charge := by
      obtain ⟨e0, e1⟩ := good.eta
      have hpos : 0 ≤ (P.static.eta * f.charge - f.discharge / P.static.eta) / P.static.capacity := by linarith
      have h3 : f.discharge / P.static.eta ≤ P.static.eta * f.charge := by
        have := (div_nonneg_iff.mp hpos)
        rcases this with ⟨h, -⟩ | ⟨-, h⟩
        · linarith
        · linarith [good.capacity]
      rw [div_le_iff₀ e0] at h3
      have h4 : P.static.eta * f.charge * P.static.eta ≤ f.charge := by
        have c0 := ok.charge.1
        have h5 : P.static.eta * f.charge ≤ f.charge := by nlinarith
        have h6 : 0 ≤ P.static.eta * f.charge := mul_nonneg e0.le c0
        nlinarith
      linarith
    linarith [ok.curtailed.1]
  · rcases h2 with h2 | h2 <;> linarith

/-- Finding, C69: during an outage the best plan is still to buy, and nothing is delivered.  This is so whenever the battery is
    empty, there is no genset, and the PV does not suffice; so the load the plan serves is lost. -/
theorem C69_outage (hc : Microgrid.create h mods sh tr = .ok g₀) (hl : ∀ nm ∈ mods, LibraryModule (h nm.2))
    (hid : (mods.map Prod.snd).Nodup) (hd : DistinctNames h mods)
    (hroom : ∀ nm ∈ mods, ∀ b, (h nm.2).kind = .battery b → 0 ≤ b.minCapacity ∧ 0 < b.maxCapacity)
    (ops ops' : List GOp) (hpl : createModular (runG g₀ ops) = .ok pl)
    (hlive : ∀ nm ∈ mods, ((runG g₀ ops').heap nm.2).Live) (hP : modularProblem pl (runG g₀ ops') = .ok P)
    (ho : Optimal P x) (hr : (runG g₀ ops').run (modularControl pl.names x) false = (g', .ok o))
    (hgen : ∀ nm ∈ mods, ∀ n, ((runG g₀ ops').heap nm.2).kind ≠ .genset n) {nm : String × Nat} (hm : nm ∈ mods) {p : GridParams}
    {t : TS} (hk : ((runG g₀ ops').heap nm.2).kind = .grid p t) (hctl : ((runG g₀ ops').heap nm.2).ffc = .controllable)
    (hout : (t.rows.getD ((runG g₀ ops').heap nm.2).currentStep []).getD 3 0 = 0) (hcap : 0 < p.maxImport)
    (hempty : ∀ nm ∈ mods, ∀ b, ((runG g₀ ops').heap nm.2).kind = .battery b → b.soc = b.minSoc)
    (hp : importCost P 0 < P.static.lossLoad) (hp' : 0 < importCost P 0 + P.inputs.exportPrice.getD 0 0)
    (hneed : P.inputs.pv.getD 0 0 < P.inputs.load.getD 0 0) :
    (x.flow P.genset 0).exp < (x.flow P.genset 0).imp ∧ delivered o nm.1 = 0 ∧
      ¬ AsPlanned (runG g₀ ops').heap mods P (x.flow P.genset 0) o g'.heap := by
  obtain ⟨r, poses, hh, -, good⟩ := user_problem hc hl hd hroom ops ops' hpl hlive hP x
  obtain ⟨nb, hmb, -, -, cb⟩ := r.placed.battery
  obtain ⟨b, wb⟩ := (r.ok.wf nb hmb).batWF cb
  obtain ⟨-, -, -, e1, e2, -⟩ := poses.battery nb hmb b wb.kind
  obtain ⟨g1, g2, -⟩ := poses.grid nm hm p t hk
  have hbuy := optimal_buys ho hh good (poses.noGenset hgen) (by rw [e1, e2]; exact hempty nb hmb b wb.kind)
    (by rw [g1]; simp [List.getD_eq_getElem?_getD, hh]) (by rw [g2]; exact hcap) hp hp' hneed
  obtain ⟨h1, h2⟩ := (C69_only_if hc hl hid hd hroom ops ops' hpl hlive hP ho.1 hr).1 nm hm p t hk hctl hout
  exact ⟨hbuy, h1, fun ap => absurd (h2 ap) (ne_of_gt hbuy)⟩

/-! ### C70: what a step costs -/

/-- C70: a step that is carried out costs what its energies cost at the prices of the modules. -/
theorem C70_charged (hc : Microgrid.create h mods none tr = .ok g₀) (hl : ∀ nm ∈ mods, LibraryModule (h nm.2))
    (hid : (mods.map Prod.snd).Nodup) (hd : DistinctNames h mods)
    (hroom : ∀ nm ∈ mods, ∀ b, (h nm.2).kind = .battery b → 0 ≤ b.minCapacity ∧ 0 < b.maxCapacity)
    (ops ops' : List GOp) (hpl : createModular (runG g₀ ops) = .ok pl)
    (hlive : ∀ nm ∈ mods, ((runG g₀ ops').heap nm.2).Live) (hP : modularProblem pl (runG g₀ ops') = .ok P)
    (hf : Feasible P x) (ex : Executable (runG g₀ ops').heap mods (x.u 0) (x.flow P.genset 0))
    (hr : (runG g₀ ops').run (modularControl pl.names x) false = (g', .ok o)) {c : ℚ}
    (hco2 : ∀ nm ∈ mods, ∀ p t, ((runG g₀ ops').heap nm.2).kind = .grid p t → p.costPerCo2 = c) :
    -o.reward = charged P c (x.flow P.genset 0) := by
  obtain ⟨r, poses, hh, carries, -⟩ := user_problem hc hl hd hroom ops ops' hpl hlive hP x
  refine r.charges hid hlive poses hf hh ex carries hr ?_ hco2
  rw [(runG_fixed g₀ ops').shaper]
  exact (Microgrid.create_ok hc).2.2.1

/-- C70: the difference between what a step costs and what the plan says it costs, for plans that do not buy and sell, or
    curtail and fail to serve the load, in the same step: the wear of the battery counts what enters and leaves the store,
    and the emissions of the grid have a price of their own. -/
theorem C70_difference (hc : Microgrid.create h mods none tr = .ok g₀) (hl : ∀ nm ∈ mods, LibraryModule (h nm.2))
    (hid : (mods.map Prod.snd).Nodup) (hd : DistinctNames h mods)
    (hroom : ∀ nm ∈ mods, ∀ b, (h nm.2).kind = .battery b → 0 ≤ b.minCapacity ∧ 0 < b.maxCapacity)
    (ops ops' : List GOp) (hpl : createModular (runG g₀ ops) = .ok pl)
    (hlive : ∀ nm ∈ mods, ((runG g₀ ops').heap nm.2).Live) (hP : modularProblem pl (runG g₀ ops') = .ok P)
    (hf : Feasible P x) (ex : Executable (runG g₀ ops').heap mods (x.u 0) (x.flow P.genset 0))
    (hr : (runG g₀ ops').run (modularControl pl.names x) false = (g', .ok o)) {c : ℚ}
    (hco2 : ∀ nm ∈ mods, ∀ p t, ((runG g₀ ops').heap nm.2).kind = .grid p t → p.costPerCo2 = c)
    (hway : (x.flow P.genset 0).imp = 0 ∨ (x.flow P.genset 0).exp = 0)
    (hwaste : (x.flow P.genset 0).loss = 0 ∨ (x.flow P.genset 0).curtailed = 0) :
    -o.reward - billed P 0 (x.flow P.genset 0) =
      P.static.cycle * ((1 / P.static.eta - 1) * (x.flow P.genset 0).discharge - (1 - P.static.eta) * (x.flow P.genset 0).charge) +
        (c - P.inputs.costCo2) * (P.inputs.gridCo2.getD 0 0 * (x.flow P.genset 0).imp) := by
  rw [C70_charged hc hl hid hd hroom ops ops' hpl hlive hP hf ex hr hco2]
  obtain ⟨-, -, hh, -, -⟩ := user_problem hc hl hd hroom ops ops' hpl hlive hP x
  have sok := ((feasible_iff P x).mp hf) 0 hh
  generalize x.flow P.genset 0 = f at *
  have e1 : max 0 (f.imp - f.exp) = f.imp ∧ max 0 (f.exp - f.imp) = f.exp := by
    rcases hway with e | e
    · rw [e]
      exact ⟨max_eq_left (by linarith [sok.exp.1]), by rw [max_eq_right (by linarith [sok.exp.1])]; ring⟩
    · rw [e]
      exact ⟨by rw [max_eq_right (by linarith [sok.imp.1])]; ring, max_eq_left (by linarith [sok.imp.1])⟩
  have e2 : max 0 (f.loss - f.curtailed) = f.loss := by
    rcases hwaste with e | e
    · rw [e]; exact max_eq_left (by linarith [sok.curtailed.1])
    · rw [e]; rw [max_eq_right (by linarith [sok.loss.1])]; ring
  unfold charged billed
  rw [e1.1, e1.2, e2]
  ring

/-- C70: if the battery loses nothing and the emissions of grid and genset have the same price, a step costs what the plan
    says.  Missing: batteries with losses and different prices of emissions, for which it does not (`C70_wear`,
    `C70_emissions`). -/
theorem C70_as_billed_partial (hc : Microgrid.create h mods none tr = .ok g₀) (hl : ∀ nm ∈ mods, LibraryModule (h nm.2))
    (hid : (mods.map Prod.snd).Nodup) (hd : DistinctNames h mods)
    (hroom : ∀ nm ∈ mods, ∀ b, (h nm.2).kind = .battery b → 0 ≤ b.minCapacity ∧ 0 < b.maxCapacity)
    (ops ops' : List GOp) (hpl : createModular (runG g₀ ops) = .ok pl)
    (hlive : ∀ nm ∈ mods, ((runG g₀ ops').heap nm.2).Live) (hP : modularProblem pl (runG g₀ ops') = .ok P)
    (hf : Feasible P x) (ex : Executable (runG g₀ ops').heap mods (x.u 0) (x.flow P.genset 0))
    (hr : (runG g₀ ops').run (modularControl pl.names x) false = (g', .ok o))
    (hco2 : ∀ nm ∈ mods, ∀ p t, ((runG g₀ ops').heap nm.2).kind = .grid p t → p.costPerCo2 = P.inputs.costCo2)
    (hway : (x.flow P.genset 0).imp = 0 ∨ (x.flow P.genset 0).exp = 0)
    (hwaste : (x.flow P.genset 0).loss = 0 ∨ (x.flow P.genset 0).curtailed = 0)
    (hbat : P.static.eta = 1 ∨ (x.flow P.genset 0).charge = 0 ∧ (x.flow P.genset 0).discharge = 0) :
    -o.reward = billed P 0 (x.flow P.genset 0) := by
  have := C70_difference hc hl hid hd hroom ops ops' hpl hlive hP hf ex hr hco2 hway hwaste
  rcases hbat with e | ⟨e1, e2⟩
  · rw [e] at this
    norm_num at this
    linarith
  · rw [e1, e2] at this
    norm_num at this
    linarith

/-- Finding, C70: for a battery with losses and wear, plans price discharging too low and charging too high. -/
theorem C70_wear (hc : Microgrid.create h mods none tr = .ok g₀) (hl : ∀ nm ∈ mods, LibraryModule (h nm.2))
    (hid : (mods.map Prod.snd).Nodup) (hd : DistinctNames h mods)
    (hroom : ∀ nm ∈ mods, ∀ b, (h nm.2).kind = .battery b → 0 ≤ b.minCapacity ∧ 0 < b.maxCapacity)
    (ops ops' : List GOp) (hpl : createModular (runG g₀ ops) = .ok pl)
    (hlive : ∀ nm ∈ mods, ((runG g₀ ops').heap nm.2).Live) (hP : modularProblem pl (runG g₀ ops') = .ok P)
    (hf : Feasible P x) (ex : Executable (runG g₀ ops').heap mods (x.u 0) (x.flow P.genset 0))
    (hr : (runG g₀ ops').run (modularControl pl.names x) false = (g', .ok o))
    (hco2 : ∀ nm ∈ mods, ∀ p t, ((runG g₀ ops').heap nm.2).kind = .grid p t → p.costPerCo2 = P.inputs.costCo2)
    (hway : (x.flow P.genset 0).imp = 0 ∨ (x.flow P.genset 0).exp = 0)
    (hwaste : (x.flow P.genset 0).loss = 0 ∨ (x.flow P.genset 0).curtailed = 0) (hlossy : P.static.eta < 1)
    (hwear : 0 < P.static.cycle) :
    (0 < (x.flow P.genset 0).discharge → billed P 0 (x.flow P.genset 0) < -o.reward) ∧
      (0 < (x.flow P.genset 0).charge → -o.reward < billed P 0 (x.flow P.genset 0)) := by
  have := C70_difference hc hl hid hd hroom ops ops' hpl hlive hP hf ex hr hco2 hway hwaste
  obtain ⟨r, poses, hh, -, good⟩ := user_problem hc hl hd hroom ops ops' hpl hlive hP x
  obtain ⟨nb, hmb, -, -, cb⟩ := r.placed.battery
  obtain ⟨b, wb⟩ := (r.ok.wf nb hmb).batWF cb
  have hboth := (ex.battery nb hmb b wb.kind).2
  rw [sub_self, zero_mul, add_zero] at this
  generalize x.flow P.genset 0 = f at *
  constructor
  · intro h0
    have hc0 : f.charge = 0 := hboth.resolve_right (ne_of_gt h0)
    rw [hc0, mul_zero, sub_zero] at this
    have h1 : 0 < 1 / P.static.eta - 1 := by
      rw [sub_pos, lt_div_iff₀ good.eta.1]
      linarith
    have := mul_pos hwear (mul_pos h1 h0)
    linarith
  · intro h0
    have hd0 : f.discharge = 0 := hboth.resolve_left (ne_of_gt h0)
    rw [hd0, mul_zero, zero_sub] at this
    have := mul_pos hwear (mul_pos (sub_pos.mpr hlossy) h0)
    linarith

/-- Finding, C70: in microgrids with grid and genset, plans price the emissions of the grid at the mean of the prices of grid
    and genset. -/
theorem C70_emissions (hc : Microgrid.create h mods none tr = .ok g₀) (hl : ∀ nm ∈ mods, LibraryModule (h nm.2))
    (hid : (mods.map Prod.snd).Nodup) (hd : DistinctNames h mods)
    (hroom : ∀ nm ∈ mods, ∀ b, (h nm.2).kind = .battery b → 0 ≤ b.minCapacity ∧ 0 < b.maxCapacity)
    (ops ops' : List GOp) (hpl : createModular (runG g₀ ops) = .ok pl)
    (hlive : ∀ nm ∈ mods, ((runG g₀ ops').heap nm.2).Live) (hP : modularProblem pl (runG g₀ ops') = .ok P)
    (hf : Feasible P x) (ex : Executable (runG g₀ ops').heap mods (x.u 0) (x.flow P.genset 0))
    (hr : (runG g₀ ops').run (modularControl pl.names x) false = (g', .ok o))
    (hway : (x.flow P.genset 0).imp = 0 ∨ (x.flow P.genset 0).exp = 0)
    (hwaste : (x.flow P.genset 0).loss = 0 ∨ (x.flow P.genset 0).curtailed = 0)
    (hbat : (x.flow P.genset 0).charge = 0 ∧ (x.flow P.genset 0).discharge = 0)
    {ng nn : String × Nat} (hg : ng ∈ mods) {p : GridParams} {t : TS} (hgk : ((runG g₀ ops').heap ng.2).kind = .grid p t)
    (hn : nn ∈ mods) {n : Genset} (hnk : ((runG g₀ ops').heap nn.2).kind = .genset n) :
    -o.reward - billed P 0 (x.flow P.genset 0) =
      (p.costPerCo2 - n.costPerCo2) / 2 * (P.inputs.gridCo2.getD 0 0 * (x.flow P.genset 0).imp) := by
  obtain ⟨r, poses, hh, -, good⟩ := user_problem hc hl hd hroom ops ops' hpl hlive hP x
  have := C70_difference hc hl hid hd hroom ops ops' hpl hlive hP hf ex hr (c := p.costPerCo2) (fun nm hm p' t' hk => by
    rw [r.placed.uniq nm hm ng hg (by rw [hk, hgk]; rfl), hgk] at hk
    rw [(Kind.grid.inj hk).1]) hway hwaste
  rw [this, hbat.1, hbat.2, poses.co2]
  have l1 : (mods.filterMap fun nm => gridPrice ((runG g₀ ops').heap nm.2)) = [p.costPerCo2] := by
    rcases r.gridPrices with ⟨nm, hm, p', t', w, -, e⟩ | ⟨-, e, -⟩
    · rw [e]
      have hk := w.kind
      rw [r.placed.uniq nm hm ng hg (by rw [hk, hgk]; rfl), hgk] at hk
      rw [(Kind.grid.inj hk).1]
    · exact absurd (by rw [hgk]; rfl) (e ng hg)
  have l2 : (mods.filterMap fun nm => gensetPrice ((runG g₀ ops').heap nm.2)) = [n.costPerCo2] := by
    rcases r.gensetPrices with ⟨nm, hm, n', w, -, e⟩ | ⟨-, e, -⟩
    · rw [e]
      have hk := w.kind
      rw [r.placed.uniq nm hm nn hn (by rw [hk, hnk]; rfl), hnk] at hk
      rw [Kind.genset.inj hk]
    · exact absurd (by rw [hnk]; rfl) (e nn hn)
  rw [← meanCo2_eq (l := [p.costPerCo2]) (by rw [l1]) (l' := [n.costPerCo2]) (by rw [l2])]
  simp only [List.singleton_append, List.sum_cons, List.sum_nil, List.length_cons, List.length_nil]
  push_cast
  ring

/-! ### Examples -/

/-- The planning problem of the example. -/
def demoTask : Problem :=
  { genset := true, horizon := 3, static := demoPlanner.static
    inputs := { load := [60, 40, 20], pv := [30, 50, 0], grid := [1, 1, 1], importPrice := [1/5, 3/10, 2/5]
                exportPrice := [1/10, 1/10, 1/10], eMax := 1, eMin := 1/10, pCharge := 20, pDischarge := 30, pImport := 100
                pExport := 50, soc := 3/5, costCo2 := 1/10, gridCo2 := [1/2, 1/2, 1/2] } }

theorem demoTask_ok : modularProblem demoPlanner demoGrid = .ok demoTask := by
  have h : (modularProblem demoPlanner demoGrid).toOption = some demoTask := by decide +kernel
  cases e : modularProblem demoPlanner demoGrid with
  | error x => rw [e] at h; simp [Except.toOption] at h
  | ok x => rw [e] at h; exact congrArg _ (Option.some.inj h)

/-- A plan: the load of 60 is served by 30 of PV and 10 each from genset, grid and battery; then by PV, then by the grid. -/
def demoFlows : Nat → Flow
  | 0 => { genset := 10, imp := 10, discharge := 10, soc := 2/5 }
  | 1 => { curtailed := 10, soc := 2/5 }
  | _ => { imp := 20, soc := 2/5 }

/-- The same as a point of the solver. -/
def demoPoint : Point := ofFlows true demoFlows fun j => if j = 0 then 1 else 0

theorem demoPoint_ok : Feasible demoTask demoPoint ∧ demoPoint.u 0 = 1 ∧
    demoPoint.flow demoTask.genset 0 = { genset := 10, imp := 10, discharge := 10, soc := 2/5 } := by
  have h : Admissible demoTask demoFlows fun j => if j = 0 then 1 else 0 := by
    intro j hj
    have : j = 0 ∨ j = 1 ∨ j = 2 := by simp only [demoTask] at hj; omega
    rcases this with rfl | rfl | rfl <;> constructor <;> norm_num [demoTask, demoFlows, demoPlanner, socBefore]
  obtain ⟨hy, hq⟩ := admissible_feasible h
  exact ⟨hy, rfl, hq 0 (by decide)⟩

theorem demo_executable : Executable demoGrid.heap demoMods (demoPoint.u 0) (demoPoint.flow demoTask.genset 0) := by
  rw [demoPoint_ok.2.1, demoPoint_ok.2.2]
  have : ∀ nm ∈ demoMods, (match (demoGrid.heap nm.2).kind with
      | .battery b => decide (10 ≤ b.maxDischarge * b.efficiency)
      | .grid _ t => decide ((demoGrid.heap nm.2).ffc = .controllable ∧
          (t.rows.getD (demoGrid.heap nm.2).currentStep []).getD 3 0 = 1)
      | .genset n => decide (n.status = 1)
      | _ => true) = true := by decide +kernel
  constructor
  · intro nm hm p t hk
    have := this nm hm
    rw [hk] at this
    simp only [decide_eq_true_eq] at this
    exact ⟨this.1, .inl this.2⟩
  · intro nm hm b hk
    have := this nm hm
    rw [hk] at this
    exact ⟨by simpa using this, .inl rfl⟩
  · intro nm hm n hk
    have := this nm hm
    rw [hk] at this
    exact ⟨fun _ => .inl (by simpa using this), by norm_num⟩

/-- Everything that C69 and C70 ask for holds in the example; the run delivers what was planned, and costs 68.5 where the plan
    says 38.5, because the battery loses half of what it discharges. -/
example : ∃ g' o, demoGrid.run (modularControl demoPlanner.names demoPoint) false = (g', .ok o) ∧
    AsPlanned demoGrid.heap demoMods demoTask (demoPoint.flow true 0) o g'.heap ∧
    billed demoTask 0 (demoPoint.flow true 0) = 77/2 ∧ -o.reward = 137/2 ∧
    [delivered o "load", delivered o "pv", delivered o "battery", delivered o "genset", delivered o "grid",
      delivered o "balancing"] = [-60, 30, 10, 10, 10, 0] := by
  have hd : (demoGrid.run (modularControl demoPlanner.names demoPoint) false).2.toOption.map (fun o => (-o.reward,
      [delivered o "load", delivered o "pv", delivered o "battery", delivered o "genset", delivered o "grid",
      delivered o "balancing"])) = some (137/2, [-60, 30, 10, 10, 10, 0]) := by decide +kernel
  rcases hr : demoGrid.run (modularControl demoPlanner.names demoPoint) false with ⟨g', _ | o⟩
  · rw [hr] at hd; simp [Except.toOption] at hd
  · rw [hr] at hd
    have hd := Option.some.inj hd
    refine ⟨g', o, rfl, ?_, ?_, congrArg Prod.fst hd, congrArg Prod.snd hd⟩
    · exact C69_as_planned_partial demoGrid_ok demo_library demo_ids demo_names demo_room [] [] demoPlanner_ok
        demo_live demoTask_ok demoPoint_ok.1 demo_executable hr
    · have := demoPoint_ok.2.2
      rw [show demoTask.genset = true from rfl] at this
      rw [this]
      norm_num [billed, demoTask, demoPlanner]

/-- Load, photovoltaics, an empty battery, a grid that is out in the first step, and a balancing module. -/
def darkHeap : Heap
  | 0 => okModule (mkLoad [40, 40] .none 0 0 (-1) false)
  | 1 => okModule (mkRenewable [0, 10] .none 0 0 (-1) false)
  | 2 => okModule (mkBattery 10 100 20 30 (9/10) 1 none (some 10) none 0 false)
  | 3 => okModule (mkGrid 100 50 4 [[1/5, 1/10, 1/2, 0], [3/10, 1/10, 1/2, 1]] .none 0 0 (-1) (1/10) false)
  | _ => mkBalancing false 0 10 5

@[inherit_doc darkHeap]
def darkMods : List (String × Nat) := [("load", 0), ("pv", 1), ("battery", 2), ("grid", 3), ("balancing", 4)]

@[inherit_doc darkHeap]
def darkGrid : Microgrid := okGrid (Microgrid.create darkHeap darkMods none none)

theorem darkGrid_ok : Microgrid.create darkHeap darkMods none none = .ok darkGrid := okGrid_eq (by decide +kernel)

theorem dark_library : ∀ nm ∈ darkMods, LibraryModule (darkHeap nm.2) := by
  intro nm hm
  simp only [darkMods, List.mem_cons, List.not_mem_nil, or_false] at hm
  rcases hm with rfl | rfl | rfl | rfl | rfl
  · exact .series (.load (okModule_eq (r := mkLoad [40, 40] .none 0 0 (-1) false) (by decide +kernel))) trivial
  · exact .series (.renewable (okModule_eq (r := mkRenewable [0, 10] .none 0 0 (-1) false) (by decide +kernel))) trivial
  · exact .battery (okModule_eq (r := mkBattery 10 100 20 30 (9/10) 1 none (some 10) none 0 false) (by decide +kernel))
      ⟨by norm_num, by norm_num, 10, by decide +kernel, by norm_num, by norm_num⟩
  · exact .series (.grid (by decide +kernel) (okModule_eq
      (r := mkGrid 100 50 4 [[1/5, 1/10, 1/2, 0], [3/10, 1/10, 1/2, 1]] .none 0 0 (-1) (1/10) false) (by decide +kernel))) trivial
  · exact .balancing (by norm_num) (by norm_num)

/-- The planner and the problem of the microgrid. -/
def darkPlanner : Planner :=
  { names := { load := some "load", pv := some "pv", battery := some "battery", grid := some "grid", genset := none
               balancing := some "balancing" }
    horizon := 1
    static := { eta := 9/10, capacity := 100, fuel := 0, cycle := 1, lossLoad := 10, gensetMin := 0, gensetMax := 0
                costCo2 := 0, gensetCo2 := 0 } }

@[inherit_doc darkPlanner]
def darkTask : Problem :=
  { genset := false, horizon := 1, static := darkPlanner.static
    inputs := { load := [40], pv := [0], grid := [1], importPrice := [1/5], exportPrice := [1/10], eMax := 1, eMin := 1/10
                pCharge := 20, pDischarge := 30, pImport := 100, pExport := 50, soc := 1/10, costCo2 := 1/10, gridCo2 := [1/2] } }

theorem dark_ok : createModular darkGrid = .ok darkPlanner ∧ modularProblem darkPlanner darkGrid = .ok darkTask := by
  have h : (createModular darkGrid).toOption = some darkPlanner := by decide +kernel
  have h' : (modularProblem darkPlanner darkGrid).toOption = some darkTask := by decide +kernel
  constructor
  · cases e : createModular darkGrid with
    | error x => rw [e] at h; simp [Except.toOption] at h
    | ok x => rw [e] at h; exact congrArg _ (Option.some.inj h)
  · cases e : modularProblem darkPlanner darkGrid with
    | error x => rw [e] at h'; simp [Except.toOption] at h'
    | ok x => rw [e] at h'; exact congrArg _ (Option.some.inj h')

/-- The best plan is to buy 40. -/
def darkPoint : Point := ofFlows false (fun _ => { imp := 40, soc := 1/10 }) fun _ => 0

theorem dark_optimal : Optimal darkTask darkPoint := by
  have h : Admissible darkTask (fun _ => { imp := 40, soc := 1/10 }) fun _ => 0 := by
    intro j hj
    have : j = 0 := by simp only [darkTask] at hj; omega
    subst this
    constructor <;> norm_num [darkTask, darkPlanner, socBefore]
  obtain ⟨hy, hq⟩ := admissible_feasible h
  refine ⟨hy, fun z hz => ?_⟩
  have hk := ((feasible_iff _ z).mp hz) 0 (by decide)
  rw [objective_eq, objective_eq]
  have h0 := hq 0 (by decide)
  have e : darkTask.horizon = 1 := rfl
  rw [e]
  simp only [Finset.sum_range_one]
  have h1 : darkPoint.flow darkTask.genset 0 = { imp := 40, soc := 1/10 } := h0
  rw [h1]
  have hn : (z.flow darkTask.genset 0).genset = 0 := by
    have := hk.genset
    rwa [if_neg (by decide)] at this
  generalize z.flow darkTask.genset 0 = f at *
  have b := hk.balance
  have d := hk.dynamics
  have w := hk.window.1
  have e0 := hk.exp.1
  have c0 := hk.charge.1
  have d0 := hk.discharge.1
  have l0 := hk.loss.1
  have u0 := hk.curtailed.1
  simp [billed, darkTask, darkPlanner, socBefore] at b d w e0 c0 d0 l0 u0 ⊢
  rw [d] at w
  rw [hn] at b
  linarith

/-- The finding about outages applies to it: whichever best plan the solver chooses, it buys although nothing can be bought;
    with the one above all of the load is lost. -/
example : (∀ x g' o, Optimal darkTask x → darkGrid.run (modularControl darkPlanner.names x) false = (g', .ok o) →
      (x.flow false 0).exp < (x.flow false 0).imp ∧ delivered o "grid" = 0) ∧
    (darkGrid.run (modularControl darkPlanner.names darkPoint) false).2.toOption.map (fun o =>
      (delivered o "load", delivered o "grid", delivered o "balancing", o.reward)) = some (-40, 0, 40, -400) := by
  refine ⟨fun x g' o ho hr => ?_, by decide +kernel⟩
  have room : ∀ nm ∈ darkMods, (match (darkHeap nm.2).kind with
      | .battery b => decide (0 ≤ b.minCapacity ∧ 0 < b.maxCapacity)
      | _ => true) = true := by decide +kernel
  have live : ∀ nm ∈ darkMods, ((darkGrid.heap nm.2).series?.all fun t =>
      decide ((darkGrid.heap nm.2).currentStep < t.rows.length)) = true := by decide +kernel
  have state : ∀ nm ∈ darkMods, (match (darkGrid.heap nm.2).kind with
      | .battery b => decide (b.soc = b.minSoc)
      | .genset _ => false
      | .grid p t => decide (nm.1 = "grid" ∧ (darkGrid.heap nm.2).ffc = .controllable ∧
          (t.rows.getD (darkGrid.heap nm.2).currentStep []).getD 3 0 = 0 ∧ 0 < p.maxImport)
      | _ => true) = true := by decide +kernel
  have hcls : (darkGrid.heap 3).kind.cls = .grid := by decide +kernel
  obtain ⟨p, t, hk⟩ : ∃ p t, (darkGrid.heap 3).kind = .grid p t := by
    cases hk : (darkGrid.heap 3).kind <;> rw [hk] at hcls <;> simp [Kind.cls] at hcls ⊢
  have hg := state ("grid", 3) (by simp [darkMods])
  simp only [hk, decide_eq_true_eq] at hg
  have := C69_outage darkGrid_ok dark_library (by decide) (by unfold DistinctNames; decide +kernel)
    (fun nm hm b hb => by have := room nm hm; rw [hb] at this; simpa using this) [] [] dark_ok.1
    (fun nm hm t ht => by
      have := live nm hm
      rw [show (darkGrid.heap nm.2).series? = some t from ht] at this
      simp only [Option.all_some, decide_eq_true_eq] at this
      exact this) dark_ok.2 ho hr
    (fun nm hm n hn => by
      have := state nm hm
      rw [show (darkGrid.heap nm.2).kind = _ from hn] at this
      simp at this)
    (nm := ("grid", 3)) (by simp [darkMods]) hk hg.2.1 hg.2.2.1 hg.2.2.2
    (fun nm hm b hb => by
      have := state nm hm
      rw [show (darkGrid.heap nm.2).kind = _ from hb] at this
      simpa using this)
    (by norm_num [importCost, darkTask, darkPlanner]) (by norm_num [importCost, darkTask]) (by norm_num [darkTask])
  exact ⟨this.1, this.2.1⟩

/-- The other findings: a plan that discharges 20 although at most 15 arrive, and one that starts the genset although that
    takes two steps. -/
example : (demoGrid.run (modularControl demoPlanner.names (ofFlows true (fun _ => { genset := 10, discharge := 20, soc := 1/5 })
      fun _ => 1)) false).2.toOption.map (fun o => (delivered o "battery", delivered o "balancing")) = some (15, 5) ∧
    ((runG demoGrid [.run demoControl₂ false, .run demoControl₂ false]).run (modularControl demoPlanner.names (ofFlows true
      (fun _ => { genset := 20 }) fun _ => 1)) false).2.toOption.map
      (fun o => (delivered o "load", delivered o "genset", delivered o "balancing")) = some (-20, 0, 20) := by decide +kernel

end Pymgrid.MPC
