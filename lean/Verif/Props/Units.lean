import Verif.Lemmas.UnitBuild
import Verif.Props.Currency

set_option autoImplicit false

/-!
# C92: the unit of energy does not matter

Two microgrids whose modules are built by the same calls, except that in the second calls all energies are multiplied by
a positive factor `u`, and all prices and emissions per unit of energy divided by it: kWh and MWh, say.
-/

namespace Pymgrid

open Module

/-- C92: a constructor that accepts its arguments accepts them in another unit. -/
theorem C92_constructors {u : ℚ} (hu : 0 < u) :
    (∀ {minC maxC maxCh maxDis eff cost : ℚ} {c s : Option ℚ} {i : Nat} {r : Bool} {m : Module},
      GoodBattery minC maxC maxCh maxDis m → 0 < maxCh + maxDis →
      mkBattery minC maxC maxCh maxDis eff cost none c s i r = .ok m →
      ∃ m', mkBattery (u * minC) (u * maxC) (u * maxCh) (u * maxDis) eff (cost / u) none (c.map (u * ·)) s i r = .ok m' ∧
        Rescaled u m m') ∧
    (∀ {rmin rmax : ℚ} {cost : GensetCost} {c1 c2 : ℚ} {S W : Nat} {ab iu : Bool} {i : Nat} {r : Bool} {m : Module},
      0 ≤ rmin → 0 < rmax → mkGenset rmin rmax cost c1 c2 S W ab iu i r = .ok m →
      ∃ m', mkGenset (u * rmin) (u * rmax) (cost.inUnit u) (c1 / u) c2 S W ab iu i r = .ok m' ∧ Rescaled u m m') ∧
    (∀ {mi me cc : ℚ} {ncols : Nat} {rows : List (List ℚ)} {param param' : FKind} {horizon i : Nat} {fs : Int}
      {r : Bool} {m : Module}, 0 < mi + me → (∀ r ∈ rows, r.length = ncols) →
      UnitForecast (gridUnit u) param param' → param.Works 4 horizon → param'.Works 4 horizon →
      mkGrid mi me ncols rows param horizon i fs cc r = .ok m →
      ∃ m', mkGrid (u * mi) (u * me) ncols (rows.map (rowIn (gridUnit u))) param' horizon i fs cc r = .ok m' ∧
        Rescaled u m m') ∧
    (∀ {xs : List ℚ} {param param' : FKind} {horizon i : Nat} {fs : Int} {r : Bool} {m : Module},
      UnitForecast (fun _ => u) param param' → param.Works 1 horizon → param'.Works 1 horizon →
      mkLoad xs param horizon i fs r = .ok m →
      ∃ m', mkLoad (xs.map (u * ·)) param' horizon i fs r = .ok m' ∧ Rescaled u m m') ∧
    (∀ {xs : List ℚ} {param param' : FKind} {horizon i : Nat} {fs : Int} {r : Bool} {m : Module},
      UnitForecast (fun _ => u) param param' → param.Works 1 horizon → param'.Works 1 horizon →
      mkRenewable xs param horizon i fs r = .ok m →
      ∃ m', mkRenewable (xs.map (u * ·)) param' horizon i fs r = .ok m' ∧ Rescaled u m m') := by
  refine ⟨?_, ?_, ?_, ?_, ?_⟩
  · intro minC maxC maxCh maxDis eff cost c s i r m good hp h
    obtain ⟨m', h', -⟩ := battery_scaled hu good hp h
    exact ⟨m', h', .battery good hp h h'⟩
  · intro rmin rmax cost c1 c2 S W ab iu i r m h0 hp h
    obtain ⟨m', h', -⟩ := genset_scaled hu hp h
    exact ⟨m', h', .genset h0 hp h h'⟩
  · intro mi me cc ncols rows param param' horizon i fs r m hp hrect hf hw hw' h
    obtain ⟨m', h', -⟩ := grid_scaled hu hp hrect hf h
    exact ⟨m', h', .grid hp hrect hf hw hw' h h'⟩
  · intro xs param param' horizon i fs r m hf hw hw' h
    obtain ⟨m', h', -⟩ := load_scaled hu hf h
    exact ⟨m', h', .load hf hw hw' h h'⟩
  · intro xs param param' horizon i fs r m hf hw hw' h
    obtain ⟨m', h', -⟩ := renewable_scaled hu hf h
    exact ⟨m', h', .renewable hf hw hw' h h'⟩

/-- C92: in another unit a microgrid with a balancing module can still be built, and for every sequence of runs and resets
    the results are the same - observations, rewards, done flags, exceptions - except that energies in the infos are
    multiplied by `u`.  Normalised controls need not be changed, energies in other controls are multiplied by `u`. -/
theorem C92_units {u : ℚ} (hu : 0 < u) {h h' : Heap} {mods : List (String × Nat)}
    (hm : ∀ nm ∈ mods, Rescaled u (h nm.2) (h' nm.2)) {gs : String → Bool}
    (hg : ∀ nm ∈ mods, gs nm.1 = (h nm.2).isGenset) (hb : ∃ nm ∈ mods, ∃ c, (h nm.2).kind = .balancing c)
    {sh sh' : Option Shaper} (hs : UnitShaper u sh sh')
    {tr : Option (Nat → Nat → Option Nat → Except Err (Nat × Nat))} {g : Microgrid}
    (hc : Microgrid.create h mods sh tr = .ok g) :
    ∃ g', Microgrid.create h' mods sh' tr = .ok g' ∧
      ∀ ops, g'.results (ops.map (GOp.inUnit u gs)) =
        (g.results ops).map (Except.map (Option.map (RunOut.inUnit u))) := by
  have hs1 : ∀ f, sh = some f → ∀ i c, f i c ≠ .error .runtime := by
    cases hs with
    | none => simp
    | some _ hn _ => rintro f ⟨⟩; exact hn
  have hs2 : ∀ f, sh' = some f → ∀ i c, f i c ≠ .error .runtime := by
    cases hs with
    | none => simp
    | some _ _ hn => rintro f ⟨⟩; exact hn
  obtain ⟨g', h1, t⟩ := grid_create_scaled (gs := gs) (gen := fun i => (h i).isGenset)
    (wide := fun i => decide ((h i).ffc = .controllable))
    (fun nm hn hf => ⟨(hg nm hn).symm, by simp [hf]⟩) (fun nm hn => ((hm nm hn).modScaled hu).1) hs hc
  have hb' : ∃ nm ∈ mods, ∃ c, (h' nm.2).kind = .balancing c := by
    obtain ⟨nm, hn, c, hk⟩ := hb
    have := ((hm nm hn).modScaled hu).1.kind
    refine ⟨nm, hn, ?_⟩
    generalize (h nm.2).isGenset = b at this
    rw [hk] at this
    generalize (h' nm.2).kind = k at this ⊢
    generalize (h nm.2).obsSpace = s at this
    generalize (h' nm.2).obsSpace = s' at this
    cases this
    exact ⟨_, rfl⟩
  refine ⟨g', h1, fun ops => (t.results hu ?_ ?_ ops).1⟩
  · exact fun ops c n => C18_never_unbalanced hc (fun nm hn => ((hm nm hn).modScaled hu).2.1) hb hs1 ops c n
  · exact fun ops c n => C18_never_unbalanced h1 (fun nm hn => ((hm nm hn).modScaled hu).2.2) hb' hs2 ops c n

/-- The modules of the demo microgrid with energies in a unit that is a thousand times smaller. -/
def wattHeap : Heap
  | 0 => okModule (mkLoad [60000, 40000, 20000] .oracle 2 0 (-1) false)
  | 1 => okModule (mkRenewable [30000, 50000, 0] .oracle 2 0 (-1) false)
  | 2 => okModule (mkBattery 10000 100000 20000 30000 (1/2) (3/1000) none (some 60000) none 0 false)
  | 3 => okModule (mkGenset 10000 50000 (.const (1/2500)) (1/500) (1/10) 2 1 true true 0 false)
  | 4 => okModule (mkGrid 100000 50000 4
      [[1/5000, 1/10000, 1/2000, 1], [3/10000, 1/10000, 1/2000, 0], [1/2500, 1/10000, 1/2000, 1]] .oracle 2 0 (-1)
      (1/10) false)
  | _ => mkBalancing false 0 (1/100) (1/200)

/-- The microgrid. -/
def wattGrid : Microgrid := okGrid (Microgrid.create wattHeap demoMods none none)

/-- The name of the genset. -/
def demoGensets (n : String) : Bool := n == "genset"

theorem watt_rescaled : ∀ nm ∈ demoMods, Rescaled 1000 (demoHeap nm.2) (wattHeap nm.2) := by
  intro nm hm
  simp only [demoMods, List.mem_cons, List.not_mem_nil, or_false] at hm
  rcases hm with rfl | rfl | rfl | rfl | rfl | rfl
  · refine .load .oracle trivial trivial
      (okModule_eq (by decide +kernel) : mkLoad [60, 40, 20] .oracle 2 0 (-1) false = .ok exLoad) ?_
    rw [show ([60, 40, 20] : List ℚ).map (1000 * ·) = [60000, 40000, 20000] by decide +kernel]
    exact okModule_eq (by decide +kernel)
  · refine .renewable .oracle trivial trivial
      (okModule_eq (by decide +kernel) : mkRenewable [30, 50, 0] .oracle 2 0 (-1) false = .ok exPv) ?_
    rw [show ([30, 50, 0] : List ℚ).map (1000 * ·) = [30000, 50000, 0] by decide +kernel]
    exact okModule_eq (by decide +kernel)
  · refine .battery sampleBattery_good (by norm_num) sampleBattery_ok ?_
    norm_num
    exact okModule_eq (by decide +kernel)
  · refine .genset (by norm_num) (by norm_num) sampleGenset_ok ?_
    have e : GensetCost.inUnit 1000 (.const (2/5)) = .const (1/2500) := by simp only [GensetCost.inUnit]; norm_num
    rw [e]
    norm_num
    exact okModule_eq (by decide +kernel)
  · refine .grid (ncols := 4) (rows := [[1/5, 1/10, 1/2, 1], [3/10, 1/10, 1/2, 0], [2/5, 1/10, 1/2, 1]]) (cc := 1/10)
      (mi := 100) (me := 50) (horizon := 2) (i := 0) (fs := -1) (r := false) (by norm_num) (by decide +kernel) .oracle
      trivial trivial (okModule_eq (by decide +kernel)) ?_
    rw [show [[1/5, 1/10, 1/2, 1], [3/10, 1/10, 1/2, 0], [2/5, 1/10, 1/2, 1]].map (rowIn (gridUnit 1000)) =
      [[1/5000, 1/10000, 1/2000, 1], [3/10000, 1/10000, 1/2000, 0], [1/2500, 1/10000, 1/2000, 1]] by decide +kernel]
    norm_num
    exact okModule_eq (by decide +kernel)
  · have := Rescaled.balancing (u := 1000) false 0 (l := 10) (o := 5) (by norm_num) (by norm_num)
    norm_num at this
    exact this

/-- Non-vacuity of `C92_units`: the two microgrids meet the hypotheses; their rewards are the same, and not 0. -/
example : (∀ nm ∈ demoMods, Rescaled 1000 (demoHeap nm.2) (wattHeap nm.2)) ∧
    (∀ nm ∈ demoMods, demoGensets nm.1 = (demoHeap nm.2).isGenset) ∧
    Microgrid.create wattHeap demoMods none none = .ok wattGrid ∧
    (demoGrid.run demoControl false).2.toOption.map (fun o => (o.reward, o.provided)) = some (-243/2, 65) ∧
    (wattGrid.run (controlIn 1000 demoGensets demoControl) false).2.toOption.map (fun o => (o.reward, o.provided)) =
      some (-243/2, 65000) :=
  ⟨watt_rescaled, by decide +kernel, okGrid_eq (by decide +kernel), by decide +kernel, by decide +kernel⟩

/-! ### Where the unit matters -/

/-- A small load and a grid, in two units. -/
def tinyHeap (u : ℚ) : Heap
  | 0 => okModule (mkLoad ([1/20000].map (u * ·)) .none 0 0 (-1) false)
  | 1 => okModule (mkGrid (u * 1) (u * 1) 4 ([[1, 1, 0, 1]].map (rowIn (gridUnit u))) .none 0 0 (-1) 0 false)
  | _ => mkBalancing false 0 (10 / u) (5 / u)

/-- The microgrid. -/
def tinyGrid (u : ℚ) : Except Err Microgrid :=
  Microgrid.create (tinyHeap u) [("load", 0), ("grid", 1), ("balancing", 2)] none none

/-- The modules in the list of a rule-based controller, and the reward of its first step. -/
def firstStep (g : Except Err Microgrid) : Option (List String × ℚ) :=
  g.toOption.bind fun g => (RBC.create g none true).toOption.bind fun r =>
    r.step.2.toOption.map fun o => (r.list.map (·.module.1), o.reward)

/-- C92, the limit: a rule-based controller does not serve loads below 1/10000, in whatever unit, so the same microgrid
    loses load in one unit and buys the energy in another. -/
theorem C92_rule_based_tolerance : (∀ nm ∈ [("load", 0), ("grid", 1), ("balancing", 2)],
      Rescaled 1000 (tinyHeap 1 nm.2) (tinyHeap 1000 nm.2)) ∧
    firstStep (tinyGrid 1) = some (["grid"], -1/2000) ∧ firstStep (tinyGrid 1000) = some (["grid"], -1/20000) := by
  refine ⟨?_, by decide +kernel, by decide +kernel⟩
  intro nm hm
  simp only [List.mem_cons, List.not_mem_nil, or_false] at hm
  rcases hm with rfl | rfl | rfl
  · refine .load (xs := [1/20000]) .none trivial trivial (param := .none) (horizon := 0) (i := 0) (fs := -1) (r := false)
      ?_ (okModule_eq (by decide +kernel))
    have e := okModule_eq (r := mkLoad ([1/20000].map ((1 : ℚ) * ·)) .none 0 0 (-1) false) (by decide +kernel)
    simpa [tinyHeap] using e
  · refine .grid (mi := 1) (me := 1) (ncols := 4) (rows := [[1, 1, 0, 1]]) (cc := 0) (param := .none) (horizon := 0)
      (i := 0) (fs := -1) (r := false) (by norm_num) (by decide +kernel) .none trivial trivial ?_
      (okModule_eq (by decide +kernel))
    have e := okModule_eq (r := mkGrid (1 * 1) (1 * 1) 4 ([[1, 1, 0, 1]].map (rowIn (gridUnit 1))) .none 0 0 (-1) 0 false)
      (by decide +kernel)
    rw [show [[1, 1, 0, 1]].map (rowIn (gridUnit 1)) = [[1, 1, 0, 1]] by decide +kernel] at e
    have r1 : rowIn (gridUnit 1) [1, 1, 0, 1] = [1, 1, 0, 1] := by decide +kernel
    simpa [tinyHeap, r1] using e
  · have := Rescaled.balancing (u := 1000) false 0 (l := 10) (o := 5) (by norm_num) (by norm_num)
    simpa [tinyHeap] using this

/-- A genset with a quadratic fuel cost and a grid, in two units. -/
def steepHeap (u : ℚ) : Heap
  | 0 => okModule (mkLoad ([5].map (u * ·)) .none 0 0 (-1) false)
  | 1 => okModule (mkGenset (u * 0) (u * 10) (GensetCost.inUnit u (.fn fun x => x * x)) (0 / u) 0 0 0 true true 0 false)
  | 2 => okModule (mkGrid (u * 10) (u * 10) 4 ([[3/4, 1/2, 0, 1]].map (rowIn (gridUnit u))) .none 0 0 (-1) 0 false)
  | _ => mkBalancing false 0 (10 / u) (5 / u)

/-- The microgrid. -/
def steepGrid (u : ℚ) : Except Err Microgrid :=
  Microgrid.create (steepHeap u) [("load", 0), ("genset", 1), ("grid", 2), ("balancing", 3)] none none

/-- C92, the limit: the marginal cost of a genset is the cost of one unit of energy, whatever the unit, so with a fuel cost
    that is not linear the rule-based controller's list has another order in another unit. -/
theorem C92_rule_based_order : (∀ nm ∈ [("load", 0), ("genset", 1), ("grid", 2), ("balancing", 3)],
      Rescaled 2 (steepHeap 1 nm.2) (steepHeap 2 nm.2)) ∧
    firstStep (steepGrid 1) = some (["grid", "genset"], -15/4) ∧ firstStep (steepGrid 2) = some (["genset", "grid"], -25) := by
  refine ⟨?_, by decide +kernel, by decide +kernel⟩
  intro nm hm
  simp only [List.mem_cons, List.not_mem_nil, or_false] at hm
  rcases hm with rfl | rfl | rfl | rfl
  · refine .load (xs := [5]) .none trivial trivial (param := .none) (horizon := 0) (i := 0) (fs := -1) (r := false)
      ?_ (okModule_eq (by decide +kernel))
    have e := okModule_eq (r := mkLoad ([5].map ((1 : ℚ) * ·)) .none 0 0 (-1) false) (by decide +kernel)
    simpa [steepHeap] using e
  · refine .genset (rmin := 0) (rmax := 10) (cost := .fn fun x => x * x) (c1 := 0) (c2 := 0) (S := 0) (W := 0) (ab := true)
      (iu := true) (i := 0) (r := false) (by norm_num) (by norm_num) ?_ (okModule_eq (by decide +kernel))
    have e := okModule_eq (r := mkGenset (1 * 0) (1 * 10) (GensetCost.inUnit 1 (.fn fun x => x * x)) (0 / 1) 0 0 0 true true
      0 false) (by decide +kernel)
    simpa [steepHeap, GensetCost.inUnit] using e
  · refine .grid (mi := 10) (me := 10) (ncols := 4) (rows := [[3/4, 1/2, 0, 1]]) (cc := 0) (param := .none) (horizon := 0)
      (i := 0) (fs := -1) (r := false) (by norm_num) (by decide +kernel) .none trivial trivial ?_
      (okModule_eq (by decide +kernel))
    have e := okModule_eq (r := mkGrid (1 * 10) (1 * 10) 4 ([[3/4, 1/2, 0, 1]].map (rowIn (gridUnit 1))) .none 0 0 (-1) 0
      false) (by decide +kernel)
    rw [show [[3/4, 1/2, 0, 1]].map (rowIn (gridUnit 1)) = [[3/4, 1/2, 0, 1]] by decide +kernel] at e
    have r1 : rowIn (gridUnit 1) [3/4, 2⁻¹, 0, 1] = [3/4, 2⁻¹, 0, 1] := by decide +kernel
    simpa [steepHeap, r1] using e
  · have := Rescaled.balancing (u := 2) false 0 (l := 10) (o := 5) (by norm_num) (by norm_num)
    simpa [steepHeap] using this

/-- A load and a grid without a balancing module, in two units. -/
def bareHeap (u : ℚ) : Heap
  | 0 => okModule (mkLoad ([1/1000000000].map (u * ·)) .none 0 0 (-1) false)
  | _ => okModule (mkGrid (u * 1) (u * 1) 4 ([[1, 1, 0, 1]].map (rowIn (gridUnit u))) .none 0 0 (-1) 0 false)

/-- What an idle grid leads to. -/
def idleRun (u : ℚ) : Option (Except Err RunOut) :=
  (Microgrid.create (bareHeap u) [("load", 0), ("grid", 1)] none none).toOption.map fun g =>
    (g.run [("grid", .scalar 0)] false).2

/-- C92, the limit: without a balancing module the check of the energy balance, which has an absolute tolerance, may
    pass in one unit and raise in another. -/
theorem C92_balance_check_has_a_unit : (idleRun 1).map (fun x => x.isOk) = some true ∧
    (idleRun 1000).map (fun x => x matches .error .runtime) = some true := by
  decide +kernel

end Pymgrid
