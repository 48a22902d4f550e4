import Verif.Lemmas.CurrencyRBC
import Verif.Props.Microgrid

set_option autoImplicit false

/-!
# C86: the currency of the prices does not matter

Two microgrids whose modules are built by the same calls, except that the second calls have all prices multiplied by a
positive factor.
-/

namespace Pymgrid

open Module

/-- C86: a constructor that accepts its arguments accepts them with the prices in another currency. -/
theorem C86_constructors {k : ℚ} (hk : 0 < k) :
    (∀ {minC maxC maxCh maxDis eff cost : ℚ} {c s : Option ℚ} {i : Nat} {r : Bool} {m : Module},
      mkBattery minC maxC maxCh maxDis eff cost none c s i r = .ok m →
      ∃ m', mkBattery minC maxC maxCh maxDis eff (k * cost) none c s i r = .ok m' ∧ Repriced k m m') ∧
    (∀ {rmin rmax : ℚ} {cost : GensetCost} {c1 c2 : ℚ} {S W : Nat} {ab iu : Bool} {i : Nat} {r : Bool} {m : Module},
      mkGenset rmin rmax cost c1 c2 S W ab iu i r = .ok m →
      ∃ m', mkGenset rmin rmax (cost.priced k) c1 (k * c2) S W ab iu i r = .ok m' ∧ Repriced k m m') ∧
    (∀ {mi me cc : ℚ} {ncols : Nat} {rows : List (List ℚ)} {param param' : FKind} {horizon i : Nat} {fs : Int}
      {r : Bool} {m : Module}, (∀ r ∈ rows, r.length = ncols) → SameForecast k param param' →
      mkGrid mi me ncols rows param horizon i fs cc r = .ok m →
      ∃ m', mkGrid mi me ncols (rows.map (priceRow k)) param' horizon i fs (k * cc) r = .ok m' ∧ Repriced k m m') := by
  refine ⟨?_, ?_, ?_⟩
  · intro minC maxC maxCh maxDis eff cost c s i r m h
    obtain ⟨m', h', -⟩ := battery_priced (k := k) h
    exact ⟨m', h', .battery h h'⟩
  · intro rmin rmax cost c1 c2 S W ab iu i r m h
    obtain ⟨m', h', -⟩ := genset_priced (k := k) h
    exact ⟨m', h', .genset h h'⟩
  · intro mi me cc ncols rows param param' horizon i fs r m hrect hf h
    obtain ⟨m', h', -⟩ := grid_priced hk hrect hf h
    exact ⟨m', h', .grid hrect hf h h'⟩

/-- C86: if all prices are multiplied by `k > 0`, then the microgrid can still be built, and for every sequence of runs and
    resets the results are the same - observations, infos, done flags, exceptions - except that rewards are multiplied
    by `k`. -/
theorem C86_currency {k : ℚ} (hk : 0 < k) {h h' : Heap} {mods : List (String × Nat)}
    (hm : ∀ nm ∈ mods, Repriced k (h nm.2) (h' nm.2)) {sh sh' : Option Shaper} (hs : SameShaper k sh sh')
    {tr : Option (Nat → Nat → Option Nat → Except Err (Nat × Nat))} {g : Microgrid}
    (hc : Microgrid.create h mods sh tr = .ok g) :
    ∃ g', Microgrid.create h' mods sh' tr = .ok g' ∧
      ∀ ops, g'.results ops = (g.results ops).map (Except.map (Option.map (RunOut.priced k))) := by
  obtain ⟨g', h1, t⟩ := create_priced (fun nm hn => (hm nm hn).modPriced hk) hs hc
  exact ⟨g', h1, fun ops => (t.results hk ops).1⟩

/-- C86: a rule-based controller, created after any history, makes the same decisions in both currencies: its list is the
    same but for the costs in it, and the results of its steps - right away or after a reset - are the same but for the
    rewards. -/
theorem C86_rule_based {k : ℚ} (hk : 0 < k) {h h' : Heap} {mods : List (String × Nat)}
    (hm : ∀ nm ∈ mods, Repriced k (h nm.2) (h' nm.2)) {sh sh' : Option Shaper} (hs : SameShaper k sh sh')
    {tr : Option (Nat → Nat → Option Nat → Except Err (Nat × Nat))} {g g' : Microgrid}
    (hc : Microgrid.create h mods sh tr = .ok g) (hc' : Microgrid.create h' mods sh' tr = .ok g') (ops : List GOp)
    (user : Option (List Element)) (rg : Bool) {r : RBC} (hr : RBC.create (runG g ops) user rg = .ok r) :
    ∃ r', RBC.create (runG g' ops) (user.map (List.map (Element.priced k))) rg = .ok r' ∧
      r'.list = r.list.map (Element.priced k) ∧
      ∀ n, RBC.story n r' = (RBC.story n r).map (Except.map (RunOut.priced k)) ∧
        RBC.story n { r' with g := r'.g.reset.1 } =
          (RBC.story n { r with g := r.g.reset.1 }).map (Except.map (RunOut.priced k)) := by
  obtain ⟨x, h1, t⟩ := create_priced (fun nm hn => (hm nm hn).modPriced hk) hs hc
  rw [hc'] at h1
  injection h1 with h1
  subst h1
  obtain ⟨r', h2, t'⟩ := (t.results hk ops).2.rbc hk user rg hr
  refine ⟨r', h2, t'.list, fun n => ⟨t'.story hk n, ?_⟩⟩
  exact PricedRBC.story (r := { r with g := r.g.reset.1 }) (r' := { r' with g := r'.g.reset.1 })
    ⟨(t'.g.reset hk).1, t'.list⟩ hk n

/-- The modules of the demo microgrid with all prices multiplied by 3. -/
def dearHeap : Heap
  | 0 => exLoad
  | 1 => exPv
  | 2 => okModule (mkBattery 10 100 20 30 (1/2) 9 none (some 60) none 0 false)
  | 3 => okModule (mkGenset 10 50 (.const (6/5)) 2 (3/10) 2 1 true true 0 false)
  | 4 => okModule (mkGrid 100 50 4 [[3/5, 3/10, 1/2, 1], [9/10, 3/10, 1/2, 0], [6/5, 3/10, 1/2, 1]] .oracle 2 0 (-1)
      (3/10) false)
  | _ => mkBalancing false 0 30 15

/-- The microgrid. -/
def dearGrid : Microgrid := okGrid (Microgrid.create dearHeap demoMods none none)

/-- Non-vacuity of `C86_currency`: the two microgrids meet the hypotheses, and their rewards are not 0. -/
example : (∀ nm ∈ demoMods, Repriced 3 (demoHeap nm.2) (dearHeap nm.2)) ∧
    Microgrid.create dearHeap demoMods none none = .ok dearGrid ∧
    (demoGrid.run demoControl false).2.toOption.map (fun o => o.reward) = some (-243/2) ∧
    (dearGrid.run demoControl false).2.toOption.map (fun o => o.reward) = some (-729/2) := by
  refine ⟨?_, okGrid_eq (by decide +kernel), by decide +kernel, by decide +kernel⟩
  intro nm hm
  simp only [demoMods, List.mem_cons, List.not_mem_nil, or_false] at hm
  rcases hm with rfl | rfl | rfl | rfl | rfl | rfl
  · exact .load (okModule_eq (by decide +kernel) : mkLoad [60, 40, 20] .oracle 2 0 (-1) false = .ok exLoad)
  · exact .renewable (okModule_eq (by decide +kernel) : mkRenewable [30, 50, 0] .oracle 2 0 (-1) false = .ok exPv)
  · refine .battery sampleBattery_ok ?_
    have e : (3 : ℚ) * 3 = 9 := by norm_num
    rw [e]
    exact okModule_eq (by decide +kernel)
  · refine .genset sampleGenset_ok ?_
    have e : GensetCost.priced 3 (.const (2/5)) = .const (6/5) := by simp only [GensetCost.priced]; norm_num
    have e' : (3 : ℚ) * (1/10) = 3/10 := by norm_num
    rw [e, e']
    exact okModule_eq (by decide +kernel)
  · refine .grid (ncols := 4) (rows := [[1/5, 1/10, 1/2, 1], [3/10, 1/10, 1/2, 0], [2/5, 1/10, 1/2, 1]]) (cc := 1/10)
      (mi := 100) (me := 50) (horizon := 2) (i := 0) (fs := -1) (r := false) (by decide +kernel) .oracle
      (okModule_eq (by decide +kernel)) ?_
    have e : [[1/5, 1/10, 1/2, 1], [3/10, 1/10, 1/2, 0], [2/5, 1/10, 1/2, 1]].map (priceRow 3) =
      [[3/5, 3/10, 1/2, 1], [9/10, 3/10, 1/2, 0], [6/5, 3/10, 1/2, 1]] := by decide +kernel
    have e' : (3 : ℚ) * (1/10) = 3/10 := by norm_num
    rw [e, e']
    exact okModule_eq (by decide +kernel)
  · have := Repriced.balancing (k := 3) false 0 10 5
    norm_num at this
    exact this

/-- Non-vacuity of `C86_rule_based`: a controller exists, and its list has several elements. -/
example : (RBC.create demoGrid none false).toOption.map (fun r => r.list.length) = some 3 ∧
    (RBC.create demoGrid none false).toOption.map (fun r => (RBC.story 2 r).map fun x => x.toOption.map (·.reward)) ≠
      some [some 0, some 0] := by
  decide +kernel

/-- The grid of the demo microgrid with noisy forecasts, in two currencies, with the same noise. -/
def noisyGrid (k : ℚ) : Except Err Module :=
  mkGrid 100 50 4 ([[1/5, 1/10, 1/2, 1], [3/10, 1/10, 1/2, 0], [2/5, 1/10, 1/2, 1]].map (priceRow k))
    (.gaussian (fun _ _ j => if j = 0 then 1/20 else 0) false none) 1 0 (-1) (k * (1/10)) false

/-- C86, the limit: noise is added to prices in their own unit, so noise of the same size disturbs the observations more in
    the currency with the smaller numbers. -/
theorem C86_noise_has_a_currency : ∃ m m', noisyGrid 1 = .ok m ∧ noisyGrid 2 = .ok m' ∧
    m.normalizedObs.toOption ≠ m'.normalizedObs.toOption :=
  ⟨_, _, okModule_eq (by decide +kernel), okModule_eq (by decide +kernel), by decide +kernel⟩

end Pymgrid
