import Verif.Spec.Quotes
import Verif.Props.Battery
import Verif.Props.Genset
import Verif.Props.Series

set_option autoImplicit false

/-!
# C110: marginal costs say what a unit of energy costs

The claim in full: after any history, if a module quotes `p` and `a`, then every successful step is billed as quoted.  It holds
for loads, renewables and the unbalanced-energy module, for gensets with proportional costs, for imports where emissions are
free and for batteries without losses; the other cases are priced by other formulas, which are proved as well.
-/

namespace Pymgrid

open Module

section
variable {r : Bool} {i : Nat} {m : Module}

/-- C110: the unbalanced-energy module quotes the prices of lost load and overgeneration and bills them. -/
theorem C110_unbalanced {l g : ℚ} (hl : 0 ≤ l) (hg : 0 ≤ g) (ops : List MOp) :
    (runOps (mkBalancing r i l g) ops).Quotes l g ∧
    ∀ q, ∃ m' o, (runOps (mkBalancing r i l g) ops).step (.num q) false = (m', .ok o) ∧ o.Billed l g := by
  have wf := (mkBalancing_wf (r := r) (i := i) hl hg).ops ops
  refine ⟨⟨by simp [marginalCost, wf.kind], by simp [absorptionCost, wf.kind]⟩, fun q => ?_⟩
  obtain ⟨m', o, he, h1, h2⟩ := C17_balances_exactly (r := r) (i := i) hl hg ops q
  refine ⟨m', o, he, ?_⟩
  unfold StepOut.Billed
  rcases le_or_gt 0 q with h | h
  · obtain ⟨e1, e2, e3⟩ := h1 h
    simp [e1, e2, e3]
  · obtain ⟨e1, e2, e3⟩ := h2 h
    simp [e1, e2, e3]

variable {xs : List ℚ} {param : FKind} {horizon : Nat} {fs : Int}

/-- C110: loads quote nothing and cost nothing. -/
theorem C110_load (hm : mkLoad xs param horizon i fs r = .ok m) (ops : List MOp) :
    (runOps m ops).Quotes 0 0 ∧
    ∀ a n m' o, (runOps m ops).step a n = (m', .ok o) → o.Billed 0 0 := by
  obtain ⟨t₀, mn, mx, wf₀, -⟩ := mkLoad_inv hm
  obtain ⟨t, -, wf⟩ := wf₀.ops ops
  refine ⟨⟨by simp [marginalCost, wf.kind], by simp [absorptionCost, wf.kind]⟩, fun a n m' o he => ?_⟩
  obtain ⟨x, -, -, -, h⟩ := C16_load_met hm ops a n m' o he
  simp [StepOut.Billed, h]

/-- C110: renewables quote nothing and cost nothing. -/
theorem C110_renewable (hm : mkRenewable xs param horizon i fs r = .ok m) (ops : List MOp) :
    (runOps m ops).Quotes 0 0 ∧
    ∀ a n m' o, (runOps m ops).step a n = (m', .ok o) → o.Billed 0 0 := by
  obtain ⟨t₀, mn, mx, wf₀, -⟩ := mkRenewable_inv hm
  obtain ⟨t, -, wf⟩ := wf₀.ops ops
  refine ⟨⟨by simp [marginalCost, wf.kind], by simp [absorptionCost, wf.kind]⟩, fun a n m' o he => ?_⟩
  obtain ⟨x, p, k, -, -, -, -, -, -, -, h, -⟩ := C15_used_or_curtailed hm ops a n m' o he
  simp [StepOut.Billed, h]

end

section
variable {rmin rmax c c1 c2 : ℚ} {cost : GensetCost} {S W : Nat} {ab iu : Bool} {i : Nat} {r : Bool} {m : Module}

/-- C110: a genset quotes the cost of one unit, fuel and emissions. -/
theorem C110_genset_quote (hm : mkGenset rmin rmax cost c1 c2 S W ab iu i r = .ok m) (h0 : 0 ≤ rmin) (ops : List MOp)
    (hops : ∀ op ∈ ops, op.isCall) : (runOps m ops).Quotes (fuelPrice cost 1 + c2 * c1) 0 := by
  obtain ⟨g₀, hi, wf₀⟩ := gen_start hm h0
  obtain ⟨g, wf, -, hs⟩ := gen_ops wf₀ ops hops
  obtain ⟨-, -, e1, e2, e3, e4, e5, -⟩ := Genset.init_inv hi
  refine ⟨?_, by simp [absorptionCost, wf.kind]⟩
  simp only [marginalCost, wf.kind, Genset.getCost, Genset.getCo2Cost, Genset.getCo2, Genset.fuelCost, hs.cost, hs.co2, hs.cco2,
    e3, e4, e5, mul_one]
  cases cost <;> simp [fuelPrice]

/-- C110 for gensets whose fuel costs the same for every unit.  Missing: cost functions, see `C110_genset_scale`. -/
theorem C110_genset_partial (hm : mkGenset rmin rmax (.const c) c1 c2 S W ab iu i r = .ok m) (h0 : 0 ≤ rmin) (ops : List MOp)
    (hops : ∀ op ∈ ops, op.isCall) : ∃ p a, (runOps m ops).Quotes p a ∧
    ∀ x n m' o, (runOps m ops).step x n = (m', .ok o) → o.Billed p a := by
  refine ⟨_, _, C110_genset_quote hm h0 ops hops, fun x n m' o he => ?_⟩
  obtain ⟨g', e, -, h1, h2, -, -, -, h3, -⟩ := C12_output hm h0 ops hops x n m' o he
  simp only [StepOut.Billed, h1, h2, h3, fuelPrice, Option.getD_some, Option.getD_none]
  ring

/-- A genset whose fuel gets cheaper with the amount: 10 to keep it running and 1/10 per unit. -/
def scaleGenset : Module := okModule (mkGenset 0 100 (.fn fun x => 10 + x / 10) 0 0 0 0 true true 0 false)

theorem scaleGenset_ok : mkGenset 0 100 (.fn fun x => 10 + x / 10) 0 0 0 0 true true 0 false = .ok scaleGenset :=
  okModule_eq (by decide +kernel)

/-- C110 is violated: a genset with a cost function quotes the cost of the first unit for every unit.  100 units are quoted at
    1010 and billed at 20. -/
theorem C110_genset_scale : scaleGenset.Quotes (101/10) 0 ∧
    ((scaleGenset.step (.arr [1, 100]) false).2.toOption.map fun o => (o.info.provided, o.reward)) = some (some 100, -20) := by
  refine ⟨?_, by decide +kernel⟩
  have h := C110_genset_quote scaleGenset_ok (by norm_num) [] (by simp)
  have e : fuelPrice (.fn fun x => 10 + x / 10) 1 + 0 * 0 = 101 / 10 := by norm_num [fuelPrice]
  rw [e] at h
  exact h

end

section
variable {mi me cc : ℚ} {ncols : Nat} {rows : List (List ℚ)} {param : FKind} {horizon i : Nat} {fs : Int} {r : Bool} {m : Module}

/-- C110: a grid module quotes the prices of the current step, whatever happened before. -/
theorem C110_grid_quote (hrect : ∀ r ∈ rows, r.length = ncols) (hm : mkGrid mi me ncols rows param horizon i fs cc r = .ok m)
    (ops : List MOp) {imp exp co2 st : ℚ} (hd : gridData rows (runOps m ops).currentStep = some (imp, exp, co2, st)) :
    (runOps m ops).Quotes imp exp := by
  obtain ⟨t₀, mn, mx, wf₀, -, -, hs₀, h34, -⟩ := mkGrid_inv hrect hm
  obtain ⟨t, hs, wf⟩ := wf₀.ops ops
  have hrows : t.rows = gridRows ncols rows := by rw [hs.rows, hs₀.rows]; rfl
  have hr : ∃ row, t.rows[(runOps m ops).currentStep]? = some row := by
    rw [hrows]
    cases hx : rows[(runOps m ops).currentStep]? with
    | none => simp [gridData, hx] at hd
    | some row =>
      unfold gridRows
      split
      · exact ⟨_, hx⟩
      · exact ⟨_, by rw [List.getElem?_map, hx]; rfl⟩
  obtain ⟨row, hr⟩ := hr
  obtain ⟨a, b, d, e, rfl, -⟩ := wf.row hr
  have := gridData_rows hrect h34 (by rw [hrows] at hr; exact hr)
  rw [hd] at this
  simp only [Option.some.injEq, Prod.mk.injEq] at this
  obtain ⟨rfl, rfl, -, -⟩ := this
  constructor
  · simp only [marginalCost, wf.kind, wf.ts.state, TS.obsAt, hr]
    simp
  · simp only [absorptionCost, wf.kind, wf.ts.state, TS.obsAt, hr]
    simp

/-- C110, what a grid module bills: the quote and the emissions for imports; for exports it pays the quote. -/
theorem C110_grid (hrect : ∀ r ∈ rows, r.length = ncols) (hm : mkGrid mi me ncols rows param horizon i fs cc r = .ok m)
    (ops : List MOp) (a : Act) (n : Bool) (m' : Module) (o : StepOut) (he : (runOps m ops).step a n = (m', .ok o)) :
    ∃ imp exp co2, (runOps m ops).Quotes imp exp ∧
      o.reward = -((imp + cc * co2) * o.info.provided.getD 0 - exp * o.info.absorbed.getD 0) := by
  obtain ⟨imp, exp, co2, st, q, hd, -, -, -, -, h1, h2⟩ := grid_step hrect hm ops a n m' o he
  refine ⟨imp, exp, co2, C110_grid_quote hrect hm ops hd, ?_⟩
  rcases le_or_gt 0 q with h | h
  · obtain ⟨e1, e2, e3, -⟩ := h1 h
    simp only [e1, e2, e3, Option.getD_some, Option.getD_none]
    ring
  · obtain ⟨e1, e2, e3, -⟩ := h2 h
    simp only [e1, e2, e3, Option.getD_some, Option.getD_none]
    ring

/-- C110 for imports where emissions are free.  Missing: the cost of emissions and exports, see `C110_emissions` and
    `C110_exports_earn`. -/
theorem C110_grid_partial (hrect : ∀ r ∈ rows, r.length = ncols) (hm : mkGrid mi me ncols rows param horizon i fs 0 r = .ok m)
    (ops : List MOp) (a : Act) (n : Bool) (m' : Module) (o : StepOut) (he : (runOps m ops).step a n = (m', .ok o))
    (hi : o.info.absorbed.getD 0 = 0) : ∃ p a, (runOps m ops).Quotes p a ∧ o.Billed p a := by
  obtain ⟨imp, exp, co2, h1, h2⟩ := C110_grid hrect hm ops a n m' o he
  refine ⟨imp, exp, h1, ?_⟩
  rw [StepOut.Billed, h2, hi]
  ring

/-- C110 is violated for exports, always: a positive price is quoted as a cost but earned. -/
theorem C110_exports_earn (hrect : ∀ r ∈ rows, r.length = ncols) (hm : mkGrid mi me ncols rows param horizon i fs cc r = .ok m)
    (ops : List MOp) (a : Act) (n : Bool) (m' : Module) (o : StepOut) (he : (runOps m ops).step a n = (m', .ok o))
    {p e : ℚ} (hq : (runOps m ops).Quotes p e) (hpos : 0 < e) {x : ℚ} (hx : 0 < x) (habs : o.info.absorbed = some x)
    (hprov : o.info.provided = none) : o.reward = e * x ∧ 0 < o.reward ∧ ¬ o.Billed p e := by
  obtain ⟨imp, exp, co2, h1, h2⟩ := C110_grid hrect hm ops a n m' o he
  obtain rfl : exp = e := by
    have := h1.2.symm.trans hq.2
    exact Except.ok.inj this
  have hr : o.reward = exp * x := by rw [h2, habs, hprov]; simp
  refine ⟨hr, by rw [hr]; positivity, fun hb => ?_⟩
  rw [StepOut.Billed, hr, habs, hprov] at hb
  simp only [Option.getD_some, Option.getD_none] at hb
  have : 0 < exp * x := by positivity
  linarith

end

/-- Import 1/5, export 1/10, 1/2 units of CO2 per unit at a price of 2. -/
def quoteGrid : Module := okModule (mkGrid 100 50 4 [[1/5, 1/10, 1/2, 1], [3/10, 1/10, 1/2, 1]] .none 0 0 (-1) 2 false)

theorem quoteGrid_ok : mkGrid 100 50 4 [[1/5, 1/10, 1/2, 1], [3/10, 1/10, 1/2, 1]] .none 0 0 (-1) 2 false = .ok quoteGrid :=
  okModule_eq (by decide +kernel)

/-- C110 is violated: quotes of the grid do not contain the cost of emissions.  10 units are quoted at 2 and billed at 12; 10 units
    of exports are quoted at 1 and pay 1. -/
theorem C110_emissions : quoteGrid.Quotes (1/5) (1/10) ∧
    ((quoteGrid.step (.num 10) false).2.toOption.map fun o => (o.info.provided, o.reward)) = some (some 10, -12) ∧
    ((quoteGrid.step (.num (-10)) false).2.toOption.map fun o => (o.info.absorbed, o.reward)) = some (some 10, 1) := by
  refine ⟨?_, by decide +kernel, by decide +kernel⟩
  exact C110_grid_quote (by decide +kernel) quoteGrid_ok [] (imp := 1/5) (exp := 1/10) (co2 := 1/2) (st := 1) (by decide +kernel)

section
variable {minC maxC maxCh maxDis eff cost : ℚ} {c s : Option ℚ} {i : Nat} {r : Bool} {m : Module}

/-- C110, what a battery bills: the quote is for the energy that enters or leaves the storage, so discharging costs more and
    charging less. -/
theorem C110_battery (hm : mkBattery minC maxC maxCh maxDis eff cost none c s i r = .ok m)
    (hg : GoodBattery minC maxC maxCh maxDis m) (ops : List MOp) (hops : ∀ op ∈ ops, op.isCall) :
    (runOps m ops).Quotes cost cost ∧
    ∀ a n m' o, (runOps m ops).step a n = (m', .ok o) →
      o.reward = -(cost / eff * o.info.provided.getD 0 + cost * eff * o.info.absorbed.getD 0) := by
  obtain ⟨b₀, h₀⟩ := BattAt.start hm hg
  obtain ⟨b, h⟩ := h₀.ops ops hops
  refine ⟨⟨by simp [marginalCost, h.wf.kind, h.cost], by simp [absorptionCost, h.wf.kind, h.cost]⟩, fun a n m' o he => ?_⟩
  rcases h.wf.step_cases a n with ⟨e, he'⟩ | ⟨d, x, m'', o', he', hs⟩
  · rw [he'] at he; simp at he
  · rw [he'] at he
    simp only [Prod.mk.injEq, Except.ok.injEq] at he
    obtain ⟨rfl, rfl⟩ := he
    rw [hs.reward, hs.provided, hs.absorbed, h.cost]
    cases d <;> simp [Battery.moved, Dir.out, Dir.into, h.eff] <;> ring

/-- C110 for batteries without losses.  Missing: others, see `C110_losses`. -/
theorem C110_battery_partial (hm : mkBattery minC maxC maxCh maxDis 1 cost none c s i r = .ok m)
    (hg : GoodBattery minC maxC maxCh maxDis m) (ops : List MOp) (hops : ∀ op ∈ ops, op.isCall) :
    ∃ p a, (runOps m ops).Quotes p a ∧ ∀ x n m' o, (runOps m ops).step x n = (m', .ok o) → o.Billed p a := by
  obtain ⟨h1, h2⟩ := C110_battery hm hg ops hops
  refine ⟨cost, cost, h1, fun x n m' o he => ?_⟩
  rw [StepOut.Billed, h2 x n m' o he]
  ring

end

/-- A battery that loses half of what it stores and half of what it gives. -/
def lossyBattery : Module := okModule (mkBattery 10 100 50 50 (1/2) 3 none (some 60) none 0 false)

/-- C110 is violated: a battery with losses quotes 3 per unit and bills 6 for discharging and 3/2 for charging. -/
theorem C110_losses : lossyBattery.Quotes 3 3 ∧
    ((lossyBattery.step (.num 10) false).2.toOption.map fun o => (o.info.provided, o.reward)) = some (some 10, -60) ∧
    ((lossyBattery.step (.num (-10)) false).2.toOption.map fun o => (o.info.absorbed, o.reward)) = some (some 10, -15) := by
  have hm : mkBattery 10 100 50 50 (1/2) 3 none (some 60) none 0 false = .ok lossyBattery := okModule_eq (by decide +kernel)
  refine ⟨?_, by decide +kernel, by decide +kernel⟩
  exact (C110_battery hm ⟨by norm_num, by norm_num, ⟨60, by decide +kernel, by norm_num, by norm_num⟩⟩ [] (by simp)).1

/-- C110: `get_cost_info` lists the quotes of the modules under their names. -/
theorem C110_info {h : Heap} : ∀ {d : ModDict} {info : CostInfo}, costInfo h d = .ok info →
    List.Forall₂ (fun x y => y.1 = x.1 ∧ List.Forall₂ (fun i q => (h i).Quotes q.1 q.2) x.2 y.2) d info
  | [], info, hc => by
    simp only [costInfo, Except.ok.injEq] at hc
    subst hc
    exact .nil
  | (n, is) :: rest, info, hc => by
    have inner : ∀ {is : List Nat} {l : List (ℚ × ℚ)}, costInfoOf h is = .ok l →
        List.Forall₂ (fun i q => (h i).Quotes q.1 q.2) is l := by
      intro is
      induction is with
      | nil =>
        intro l hl
        simp only [costInfoOf, Except.ok.injEq] at hl
        subst hl
        exact .nil
      | cons j js ih =>
        intro l hl
        unfold costInfoOf at hl
        split at hl
        · rename_i p a r h1 h2 h3
          cases hl
          exact .cons ⟨h1, h2⟩ (ih h3)
        · cases hl
        · cases hl
        · cases hl
    unfold costInfo at hc
    split at hc
    · rename_i l r h1 h2
      cases hc
      exact .cons ⟨rfl, inner h1⟩ (C110_info h2)
    · cases hc
    · cases hc

/-- Non-vacuity of the theorems on successful steps: modules of all kinds with a step that succeeds after a history. -/
example : ((runOps (mkBalancing false 0 10 2) [.step (.num 5) false]).step (.num (-3)) false).2.toOption.map (·.reward) = some (-6) ∧
    ((runOps quoteGrid [.step (.num 5) false]).step (.num 10) false).2.toOption.map (·.reward) = some (-13) ∧
    ((runOps lossyBattery [.step (.num 5) false]).step (.num 10) false).2.toOption.map (·.reward) = some (-60) ∧
    ((runOps (okModule (mkGenset 0 100 (.const (2/5)) 2 (1/10) 0 0 true true 0 false)) [.step (.arr [1, 5]) false]).step (.arr [1, 10])
      false).2.toOption.map (·.reward) = some (-6) := by
  decide +kernel

end Pymgrid
