import Verif.Lemmas.Revert
import Verif.Props.Convert

set_option autoImplicit false

/-!
# Converting a microgrid to the legacy class (C62)
-/

namespace Pymgrid.Legacy

open Pymgrid Module

section
variable {g : Grid} {r : Bool} {m : Microgrid} {x : Nonmodular}

/-- C62: a microgrid that came from a legacy one can be converted back exactly if there are at least two steps and the
    genset, if any, has a maximal production other than 0. -/
theorem C62_accepted_iff (ha : g.Aligned) (h : g.toModular r = .ok m) : (∃ x, m.toNonmodular = .ok x) ↔
    2 ≤ g.loads.length ∧ (g.arch.genset = true → g.params.rated * g.params.pmax ≠ 0) :=
  revert_iff h ha

/-- C62, except for the demand and the maximal state of charge: converting a legacy microgrid and converting the result
    back preserves architecture, PV, grid series, forecast horizon, state of charge, limits and costs. -/
theorem C62_round_trip_partial (ha : g.Aligned) (hz : 1 ≤ g.horizon) (hpv : ∀ p ∈ g.pvs, 0 ≤ p)
    (h : g.toModular r = .ok m) (hx : m.toNonmodular = .ok x) : Agree g x.grid := by
  obtain ⟨e1, e2, e3, e4, e5, e6, e7, e8, e9, -⟩ := round_trip ha h hx
  refine ⟨e3, ?_, by omega, e5, e6, e7, ?_, e9⟩
  · rw [e2]
    conv_rhs => rw [← List.map_id g.pvs]
    exact List.map_congr_left fun p hp => abs_of_nonneg (hpv p hp)
  · intro hg
    obtain ⟨a1, a2, a3, a4, a5⟩ := e8 hg
    exact ⟨by rw [mul_comm, a1, mul_comm], by rw [mul_comm, a2, mul_comm], a3, a4, a5⟩

/-- C62 is violated: the demand changes its sign.  A legacy microgrid with some demand never gets it back. -/
theorem C62_demand_negated (ha : g.Aligned) (h : g.toModular r = .ok m) (hx : m.toNonmodular = .ok x) :
    x.grid.loads = (g.loads.map fun l => -|l|) ∧ ((∃ l ∈ g.loads, 0 < l) → x.grid.loads ≠ g.loads) := by
  obtain ⟨e, -⟩ := round_trip ha h hx
  refine ⟨e, ?_⟩
  rintro ⟨l, hl, h0⟩ he
  rw [← he, e] at hl
  obtain ⟨l', -, rfl⟩ := List.mem_map.mp hl
  have := abs_nonneg l'
  linarith

/-- C62: converting a third time gives the same modular microgrid as the first time: there the sign does not matter. -/
theorem C62_modular_again (ha : g.Aligned) (h : g.toModular r = .ok m) (hx : m.toNonmodular = .ok x) :
    x.grid.toModular r = .ok m := by
  rw [← h]
  unfold Grid.toModular
  rw [components_again ha h hx]

end

section
variable {m : Microgrid} {x : Nonmodular}

/-- C62: whatever the microgrid and its state, a successful conversion gives a legacy microgrid at its start that has
    exactly the components of the modular one, with their current state of charge, limits, series and costs; different
    costs of emissions are averaged. -/
theorem C62_components (hx : m.toNonmodular = .ok x) (hw : ∀ p t, m.Has (.grid p t) → ∀ row ∈ t.rows, row.length = 4) :
    Reverted m x.grid := by
  obtain ⟨load, pv, l, p, fuel, hz, ⟨u1, u2, u3, u4, u5, u6⟩, hload, hpv, -, -, hfuel, -, hrated, hc, -⟩ := toNonmodular_ok hx
  obtain ⟨c1, c2, c3, c4, c5, c6, c7, c8, c9, c10, c11, c12, c13, -⟩ := create_fields hc
  have ng : (∀ p t, ¬ m.Has (.grid p t)) → (m.parts gridPart).head? = none := by
    intro hn
    cases hh : (m.parts gridPart).head? with
    | none => rfl
    | some pt => exact absurd (has_grid.mpr ((mem_head u4).mpr hh)) (hn pt.1 pt.2)
  have nn : (∀ n, ¬ m.Has (.genset n)) → (m.parts gensetPart).head? = none := by
    intro hn
    cases hh : (m.parts gensetPart).head? with
    | none => rfl
    | some n => exact absurd (has_genset.mpr ((mem_head u5).mpr hh)) (hn n)
  refine ⟨⟨c12, c13⟩, ?_, ?_, ?_, ?_, ?_, ?_, ?_, ?_, ?_, ?_, ?_⟩
  · refine ⟨pv.1, has_pv.mpr ⟨pv.2, (mem_head u2).mpr hpv⟩, fun t' ht' => ?_⟩
    obtain ⟨c, hc'⟩ := has_pv.mp ht'
    have := (mem_head u2).mp hc'
    rw [hpv] at this
    injection this with this
    rw [c4, this]
  · intro b hb
    have := (mem_head u3).mp (has_battery.mp hb)
    rw [this] at hc c1 c2 c10 c11
    rw [c1, c2, c10]
    simp [paramsOf, Grid.soc, c11, statusOf]
  · intro hb
    rw [c1] at hb
    obtain ⟨b, hb⟩ := Option.isSome_iff_exists.mp hb
    exact ⟨b, has_battery.mpr ((mem_head u3).mpr hb)⟩
  · intro n hn
    have := (mem_head u5).mp (has_genset.mp hn)
    have h0 := hrated n this
    rw [this] at hfuel c1 c2
    rw [c1, c2]
    refine ⟨rfl, ?_, ?_, ?_, rfl⟩
    · simp only [paramsOf, Option.map_some, Option.getD_some]
      exact mul_div_cancel₀ _ h0
    · simp only [paramsOf, Option.map_some, Option.getD_some, ratedOf]
      field_simp
    · simp only [fuelOf] at hfuel
      split at hfuel
      · rename_i c hcst
        injection hfuel with hfuel
        rw [hcst, hfuel]
        rfl
      · simp at hfuel
  · intro hb
    rw [c1] at hb
    obtain ⟨b, hb⟩ := Option.isSome_iff_exists.mp hb
    exact ⟨b, has_genset.mpr ((mem_head u5).mpr hb)⟩
  · intro p t hp
    have := (mem_head u4).mp (has_grid.mp hp)
    rw [this] at c1 c2 c5 c6 c7 c8
    rw [c1, c2]
    refine ⟨rfl, rfl, rfl, ?_⟩
    intro i row hd
    obtain ⟨d1, d2, d3, d4⟩ := hd
    rw [c5] at d1
    rw [c6] at d2
    rw [c7] at d3
    rw [c8] at d4
    simp only [columnOf, List.getElem?_map, Option.map_eq_some_iff] at d1 d2 d3 d4
    obtain ⟨w, hr, e1⟩ := d1
    obtain ⟨w2, hr2, e2⟩ := d2
    obtain ⟨w3, hr3, e3⟩ := d3
    obtain ⟨w4, hr4, e4⟩ := d4
    rw [hr] at hr2 hr3 hr4
    injection hr2 with hr2
    injection hr3 with hr3
    injection hr4 with hr4
    subst hr2 hr3 hr4
    have hl := hw p t hp w (List.mem_of_getElem? hr)
    match w, hl with
    | [a, b, c, d], _ =>
      rw [hr, ← e1, ← e2, ← e3, ← e4]
      rfl
  · intro hb
    rw [c1] at hb
    obtain ⟨b, hb⟩ := Option.isSome_iff_exists.mp hb
    exact ⟨b.1, b.2, has_grid.mpr ((mem_head u4).mpr hb)⟩
  · intro u hu
    have := (mem_head u6).mp (has_balancing.mp hu)
    rw [this] at c2
    rw [c2]
    exact ⟨rfl, rfl⟩
  · intro p t hp hn
    have := (mem_head u4).mp (has_grid.mp hp)
    rw [this, nn hn] at c2
    rw [c2]
    rfl
  · intro n hn hp
    have := (mem_head u5).mp (has_genset.mp hn)
    rw [this, ng hp] at c2
    rw [c2]
    rfl
  · intro n p t hn hp
    have e1 := (mem_head u5).mp (has_genset.mp hn)
    have e2 := (mem_head u4).mp (has_grid.mp hp)
    rw [e1, e2] at c2
    rw [c2]
    simp only [paramsOf, costCo2Of, Option.getD_some]
    split
    · rename_i h; rw [h]; ring
    · ring

/-- C62 is violated for every microgrid: the series of the load module, which holds the negated demand, becomes the demand
    of the legacy microgrid. -/
theorem C62_demand_copied (hx : m.toNonmodular = .ok x) :
    (∃ t, m.Has (.load t)) ∧ ∀ t, m.Has (.load t) → x.grid.loads = t.rows.flatten := by
  obtain ⟨load, pv, l, p, fuel, hz, ⟨u1, -⟩, hload, -, -, -, -, -, -, hc, -⟩ := toNonmodular_ok hx
  obtain ⟨c1, c2, c3, -⟩ := create_fields hc
  refine ⟨⟨load.1, has_load.mpr ⟨load.2, (mem_head u1).mpr hload⟩⟩, fun t ht => ?_⟩
  obtain ⟨c, hc'⟩ := has_load.mp ht
  have := (mem_head u1).mp hc'
  rw [hload] at this
  injection this with this
  rw [c3, this]

/-- C62 is violated: a microgrid without grid and genset, or without a module for unbalanced energy, is converted to a
    legacy microgrid on which every `run` fails.  All others have the cost parameters that `run` needs. -/
theorem C62_no_costs (hx : m.toNonmodular = .ok x) :
    (x.costs = false ↔ ((∀ p t, ¬ m.Has (.grid p t)) ∧ ∀ n, ¬ m.Has (.genset n)) ∨ ∀ u, ¬ m.Has (.balancing u)) ∧
      (x.costs = false → ∀ c, (x.run c).2.isOk = false) := by
  obtain ⟨load, pv, l, p, fuel, hz, ⟨-, -, -, u4, u5, u6⟩, -, -, -, -, -, -, -, -, hcosts⟩ := toNonmodular_ok hx
  constructor
  · have a1 : (∀ p t, ¬ m.Has (.grid p t)) ↔ (m.parts gridPart).head? = none := by
      rw [List.head?_eq_none_iff]
      constructor
      · intro h
        exact List.eq_nil_iff_forall_not_mem.mpr fun pt hpt => h pt.1 pt.2 (has_grid.mpr hpt)
      · intro h p t hp
        have := has_grid.mp hp
        rw [h] at this
        simp at this
    have a2 : (∀ n, ¬ m.Has (.genset n)) ↔ (m.parts gensetPart).head? = none := by
      rw [List.head?_eq_none_iff]
      constructor
      · intro h
        exact List.eq_nil_iff_forall_not_mem.mpr fun n hn => h n (has_genset.mpr hn)
      · intro h n hn
        have := has_genset.mp hn
        rw [h] at this
        simp at this
    have a3 : (∀ n, ¬ m.Has (.balancing n)) ↔ (m.parts balancingPart).head? = none := by
      rw [List.head?_eq_none_iff]
      constructor
      · intro h
        exact List.eq_nil_iff_forall_not_mem.mpr fun n hn => h n (has_balancing.mpr hn)
      · intro h n hn
        have := has_balancing.mp hn
        rw [h] at this
        simp at this
    rw [a1, a2, a3, hcosts]
    cases (m.parts gridPart).head? <;> cases (m.parts gensetPart).head? <;> cases (m.parts balancingPart).head? <;>
      simp [costCo2Of]
  · intro h c
    unfold Nonmodular.run
    rw [h]
    simp only [Bool.false_eq_true, if_false]
    split
    · rfl
    · split
      · rfl
      · rfl

/-- C62: a microgrid whose load or PV series is used up cannot be converted. -/
theorem C62_finished {ni : String × Nat} {t : TS} (hm : ni ∈ Container.toTuples m.cont.fullDict)
    (hk : (m.heap ni.2).kind = .load t ∨ (m.heap ni.2).kind = .renewable t) (hf : t.rows.length ≤ (m.heap ni.2).currentStep) :
    m.toNonmodular.isOk = false := by
  cases hx : m.toNonmodular with
  | error e => rfl
  | ok x =>
    exfalso
    obtain ⟨load, pv, l, p, fuel, hz, ⟨u1, u2, -⟩, hload, hpv, hl, hp, -⟩ := toNonmodular_ok hx
    have stop : ∀ {q : ℚ}, currentOf (t, (m.heap ni.2).currentStep) ≠ .ok q := by
      intro q
      unfold currentOf
      simp only [List.getElem?_eq_none hf]
      simp
    rcases hk with hk | hk
    · have := (mem_head u1).mp (mem_parts.mpr ⟨ni, hm, by unfold loadPart; rw [hk]⟩)
      rw [hload] at this
      injection this with this
      rw [this] at hl
      exact stop hl
    · have := (mem_head u2).mp (mem_parts.mpr ⟨ni, hm, by unfold pvPart; rw [hk]⟩)
      rw [hpv] at this
      injection this with this
      rw [this] at hp
      exact stop hp

theorem around_near (x : ℚ) : |Generator.around x - x| ≤ 1/20 := by
  have h : |(pyRound (10 * x) : ℚ) - 10 * x| ≤ 1/2 := by
    unfold pyRound
    have h1 : ((10 * x).floor : ℚ) ≤ 10 * x := Int.floor_le (10 * x)
    have h2 : 10 * x < ((10 * x).floor : ℚ) + 1 := Int.lt_floor_add_one (10 * x)
    simp only
    rw [abs_le]
    split
    · constructor <;> linarith
    · split
      · push_cast; constructor <;> linarith
      · split
        · constructor <;> linarith
        · push_cast; constructor <;> linarith
  unfold Generator.around
  rw [abs_le] at h ⊢
  constructor <;> linarith [h.1, h.2]

/-- C62: the first entry of the status of the legacy microgrid shows the demand (to one decimal) and the PV production of
    the *current* step of the modular one, the state of charge, what the battery could take and give (to one decimal), and
    the grid at the *first* step. -/
theorem C62_first_status (hx : m.toNonmodular = .ok x) : ∃ row, x.grid.states = [row] ∧
    (∀ ni ∈ Container.toTuples m.cont.fullDict, ∀ t, (m.heap ni.2).kind = .load t →
      ∃ l rest q, t.rows[(m.heap ni.2).currentStep]? = some (l :: rest) ∧ row.load = some q ∧ |q - -l| ≤ 1/20) ∧
    (∀ ni ∈ Container.toTuples m.cont.fullDict, ∀ t, (m.heap ni.2).kind = .renewable t →
      ∃ p rest, t.rows[(m.heap ni.2).currentStep]? = some (p :: rest) ∧ row.pv = some p) ∧
    (∀ b, m.Has (.battery b) → row.soc = b.soc ∧
      |row.capaToCharge - (1 - b.soc) * b.maxCapacity / b.efficiency| ≤ 1/20 ∧
      |row.capaToDischarge - (b.soc - b.minSoc) * b.maxCapacity / b.efficiency| ≤ 1/20) ∧
    (∀ p t r rs, m.Has (.grid p t) → t.rows = r :: rs → r.length = 4 →
      ∃ gr, row.grid = some gr ∧ r = [gr.priceImport, gr.priceExport, gr.co2, gr.status]) := by
  obtain ⟨load, pv, l, p, fuel, hz, ⟨u1, u2, u3, u4, u5, u6⟩, hload, hpv, hl, hp, -, -, -, hc, -⟩ := toNonmodular_ok hx
  obtain ⟨-, -, -, -, -, -, -, -, -, -, c11, -⟩ := create_fields hc
  have cur : ∀ {y : TS × Nat} {q : ℚ}, currentOf y = .ok q → ∃ rest, y.1.rows[y.2]? = some (q :: rest) := by
    intro y q h
    unfold currentOf at h
    split at h
    · rename_i q' rest e
      injection h with h
      subst h
      exact ⟨rest, e⟩
    · simp at h
  refine ⟨_, c11, ?_, ?_, ?_, ?_⟩
  · intro ni hm t hk
    have := (mem_head u1).mp (mem_parts.mpr ⟨ni, hm, by unfold loadPart; rw [hk]⟩)
    rw [hload] at this
    injection this with this
    subst this
    obtain ⟨rest, e⟩ := cur hl
    refine ⟨l, rest, _, e, rfl, ?_⟩
    have := around_near (-1 * l)
    rwa [show -1 * l = -l by ring] at this ⊢
  · intro ni hm t hk
    have := (mem_head u2).mp (mem_parts.mpr ⟨ni, hm, by unfold pvPart; rw [hk]⟩)
    rw [hpv] at this
    injection this with this
    subst this
    obtain ⟨rest, e⟩ := cur hp
    exact ⟨p, rest, e, rfl⟩
  · intro b hb
    have := (mem_head u3).mp (has_battery.mp hb)
    unfold statusOf
    simp only [this, Option.map_some, Option.getD_some]
    exact ⟨trivial, around_near _, around_near _⟩
  · intro p t r rs hg ht h4
    have := (mem_head u4).mp (has_grid.mp hg)
    unfold statusOf columnOf
    simp only [this, ht, Option.map_some, List.map_cons, List.headD_cons]
    refine ⟨_, rfl, ?_⟩
    obtain ⟨a, b, c, d, rfl⟩ : ∃ a b c d, r = [a, b, c, d] := by
      match r, h4 with
      | [a, b, c, d], _ => exact ⟨a, b, c, d, rfl⟩
    rfl

end

/-- The legacy microgrid made of a microgrid (examples only). -/
def reverted (m : Microgrid) : Nonmodular :=
  match m.toNonmodular with
  | .ok x => x
  | .error _ => ⟨demo false, false⟩

theorem reverted_eq {m : Microgrid} (h : m.toNonmodular.isOk = true) : m.toNonmodular = .ok (reverted m) := by
  unfold reverted
  cases hx : m.toNonmodular with
  | error e => rw [hx] at h; simp [Except.isOk, Except.toBool] at h
  | ok x => rfl

/-- C62 is violated: a microgrid that is converted during an episode goes on with the current state of charge, but with
    the first step of all series.  Here the second PV value 50 is due and the legacy microgrid has 30. -/
theorem C62_restarted :
    let control : List (String × Ctrl) :=
      [("battery", .seq [.num 18]), ("genset", .seq [.arr [1, 50]]), ("grid", .seq [.num 10])]
    let m := runG (converted (demo true)) [.run control false]
    m.parts (fun x => (pvPart x).map Prod.snd) = [1] ∧ m.toNonmodular = .ok (reverted m) ∧
      (reverted m).grid.pv = 30 ∧ (reverted m).grid.pvs = [30, 50, 10, 0] ∧ (reverted m).grid.t = 0 ∧
      (reverted m).grid.soc = 3/10 := by
  intro control m
  exact ⟨by decide +kernel, reverted_eq (by decide +kernel), by decide +kernel, by decide +kernel, by decide +kernel,
    by decide +kernel⟩

/-- Non-vacuity of the theorems about round trips: the example microgrids, with and without grid, go there and back; the
    demands 60, 40, 0, 20 come back negated. -/
example : (converted (demo true)).toNonmodular = .ok (reverted (converted (demo true))) ∧
    (reverted (converted (demo true))).grid.loads = [-60, -40, 0, -20] ∧
    Agree (demo true) (reverted (converted (demo true))).grid :=
  ⟨reverted_eq (by decide +kernel), by decide +kernel,
    C62_round_trip_partial (fun _ => by decide +kernel) (by decide +kernel) (by decide +kernel) demo_converts
      (reverted_eq (by decide +kernel))⟩
example : (converted (demo false)).toNonmodular.isOk = true := by decide +kernel

/-- Non-vacuity of `C62_components`: grids of conversions have four columns. -/
example : Reverted (converted (demo true)) (reverted (converted (demo true))).grid := by
  refine C62_components (reverted_eq (by decide +kernel)) ?_
  intro p t h
  obtain ⟨-, -, -, -, -, -, -, -, -, -, -, -, -, -, -, g1, -⟩ := converted_parts demo_converts
  obtain ⟨y, p', t', hy, hk, e⟩ := g1 (by decide +kernel)
  have := has_grid.mp h
  rw [e] at this
  simp only [List.mem_singleton, Prod.mk.injEq] at this
  obtain ⟨-, rfl⟩ := this
  obtain ⟨p2, t2, k2, -, -, -, -, e4⟩ := grid_inv hy
  rw [hk] at k2
  injection k2 with k1 k2
  subst k1 k2
  rw [e4]
  exact gridSeries_rect _

/-- Non-vacuity of `C62_first_status`: after one step the status shows the second demand 40 and PV value 50. -/
example :
    let control : List (String × Ctrl) :=
      [("battery", .seq [.num 18]), ("genset", .seq [.arr [1, 50]]), ("grid", .seq [.num 10])]
    (reverted (runG (converted (demo true)) [.run control false])).grid.states.map (fun r => (r.load, r.pv, r.soc)) =
      [(some 40, some 50, 3/10)] := by decide +kernel

/-- Non-vacuity of `C62_no_costs`: a microgrid with PV and a battery only. -/
example : (reverted (converted { demo true with arch := ⟨true, false, false⟩ })).costs = false ∧
    (converted { demo true with arch := ⟨true, false, false⟩ }).toNonmodular.isOk = true ∧
    (reverted (converted (demo true))).costs = true := by decide +kernel

/-- Non-vacuity of `C62_finished`: the example microgrid after its four steps. -/
example :
    let control : List (String × Ctrl) :=
      [("battery", .seq [.num 0]), ("genset", .seq [.arr [1, 50]]), ("grid", .seq [.num 10])]
    let m := runG (converted (demo true)) [.run control false, .run control false, .run control false, .run control false]
    m.parts (fun x => (loadPart x).map fun tc => (tc.1.rows.length, tc.2)) = [(4, 4)] ∧ m.toNonmodular.isOk = false := by
  decide +kernel

end Pymgrid.Legacy
