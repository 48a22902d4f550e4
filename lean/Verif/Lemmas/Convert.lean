import Verif.Spec.Convert
import Verif.Lemmas.Serialize
import Verif.Lemmas.Sync
import Verif.Lemmas.Generator
import Verif.Props.Series

set_option autoImplicit false

/-! Facts about the conversion of legacy microgrids. -/

namespace Pymgrid.Legacy

theorem buildAll_ok {l : List (String × Except Err Module)} {ms : List (String × Module)} :
    buildAll l = .ok ms ↔ l = ms.map fun nm => (nm.1, .ok nm.2) := by
  induction l generalizing ms with
  | nil =>
    simp only [buildAll, Except.ok.injEq]
    constructor
    · rintro rfl; rfl
    · intro h
      exact (List.map_eq_nil_iff.mp h.symm).symm
  | cons x l ih =>
    obtain ⟨n, r⟩ := x
    cases r with
    | error e =>
      simp only [buildAll, reduceCtorEq, false_iff]
      intro h
      cases ms with
      | nil => simp at h
      | cons y ms => simp at h
    | ok m =>
      simp only [buildAll]
      cases hb : buildAll l with
      | error e =>
        simp only [reduceCtorEq, false_iff]
        intro h
        cases ms with
        | nil => simp at h
        | cons y ms =>
          simp only [List.map_cons, List.cons.injEq] at h
          rw [ih.mpr h.2] at hb
          simp at hb
      | ok ms' =>
        have := ih.mp hb
        simp only [Except.ok.injEq]
        constructor
        · rintro rfl
          simp [this]
        · intro h
          cases ms with
          | nil => simp at h
          | cons y ms =>
            simp only [List.map_cons, List.cons.injEq, Prod.mk.injEq, Except.ok.injEq] at h
            have e := ih.mpr h.2
            rw [hb] at e
            injection e with e
            rw [e, h.1.1, h.1.2]

/-- All components can be built exactly if each can. -/
theorem buildAll_total {l : List (String × Except Err Module)} (h : ∀ x ∈ l, ∃ m, x.2 = .ok m) :
    ∃ ms, buildAll l = .ok ms := by
  induction l with
  | nil => exact ⟨[], rfl⟩
  | cons x l ih =>
    obtain ⟨n, r⟩ := x
    obtain ⟨m, hm⟩ := h (n, r) (by simp)
    simp only at hm
    subst hm
    obtain ⟨ms, hms⟩ := ih fun y hy => h y (by simp [hy])
    exact ⟨(n, m) :: ms, by simp only [buildAll, hms]⟩

theorem references_names (ms : List (String × Module)) : (references ms).map Prod.fst = ms.map Prod.fst := by
  unfold references
  rw [List.map_map]
  conv_rhs => rw [← List.zipIdx_map_fst 0 ms, List.map_map]
  rfl

theorem references_ids (ms : List (String × Module)) : ((references ms).map Prod.snd).Nodup := by
  unfold references
  rw [List.map_map]
  have : (Prod.snd ∘ fun x : (String × Module) × Nat => (x.1.1, x.2)) = Prod.snd := rfl
  rw [this, List.zipIdx_map_snd]
  exact List.nodup_range'

theorem mem_references {ms : List (String × Module)} {x : String × Nat} (h : x ∈ references ms) :
    ms[x.2]? = some (x.1, place ms x.2) := by
  obtain ⟨⟨y, i⟩, hy, rfl⟩ := List.mem_map.mp h
  have hi : ms[i]? = some y := List.mem_zipIdx_iff_getElem?.mp hy
  simp only [place, hi]

theorem references_of {ms : List (String × Module)} {nm : String × Module} (h : nm ∈ ms) :
    ∃ i, (nm.1, i) ∈ references ms ∧ place ms i = nm.2 := by
  obtain ⟨i, hi, rfl⟩ := List.mem_iff_getElem.mp h
  refine ⟨i, List.mem_map.mpr ⟨(ms[i], i), List.mem_zipIdx_iff_getElem?.mpr (List.getElem?_eq_getElem hi), rfl⟩, ?_⟩
  simp only [place, List.getElem?_eq_getElem hi]

theorem references_modules (ms : List (String × Module)) :
    (references ms).map (fun x => (x.1, place ms x.2)) = ms := by
  have : (references ms).map (fun x => (x.1, place ms x.2)) = ms.zipIdx.map Prod.fst := by
    unfold references
    rw [List.map_map]
    apply List.map_congr_left
    rintro ⟨y, i⟩ hy
    have hi : ms[i]? = some y := List.mem_zipIdx_iff_getElem?.mp hy
    simp only [Function.comp, place, hi]
  rw [this, List.zipIdx_map_fst]

theorem names_inj {l : List (String × Nat)} (h : (l.map Prod.fst).Nodup) {x y : String × Nat} (hx : x ∈ l) (hy : y ∈ l)
    (e : x.1 = y.1) : x = y := by
  exact List.inj_on_of_nodup_map h hx hy e

theorem distinct_of_names {h : Heap} {mods : List (String × Nat)} (hn : (mods.map Prod.fst).Nodup) : DistinctNames h mods := by
  intro x hx y hy e
  have := names_inj hn hx hy e
  subst this
  exact ⟨rfl, rfl⟩

theorem components_names (g : Grid) (r : Bool) : ((g.components r).map Prod.fst).Nodup := by
  unfold Grid.components
  obtain ⟨⟨b, n, c⟩, -⟩ := g
  cases b <;> cases n <;> cases c <;> simp

/-- The parts of a successful conversion. -/
theorem toModular_ok {g : Grid} {r : Bool} {m : Microgrid} (h : g.toModular r = .ok m) :
    ∃ ms, g.components r = ms.map (fun nm => (nm.1, .ok nm.2)) ∧ (ms.map Prod.fst).Nodup ∧
      Microgrid.create (place ms) (references ms) none none = .ok m := by
  unfold Grid.toModular at h
  split at h
  · simp at h
  rename_i ms hms
  have e := buildAll_ok.mp hms
  refine ⟨ms, e, ?_, h⟩
  have := components_names g r
  rw [e, List.map_map] at this
  exact this

theorem modulesOf_perm {ms : List (String × Module)} {m : Microgrid} (hn : (ms.map Prod.fst).Nodup)
    (hc : Microgrid.create (place ms) (references ms) none none = .ok m) (name : String) :
    (m.modulesOf name).Perm ((ms.filter fun x => decide (x.1 = name)).map Prod.snd) := by
  obtain ⟨hh, hcont, -⟩ := Microgrid.create_ok hc
  have hd : DistinctNames (place ms) (references ms) := distinct_of_names (by rw [references_names]; exact hn)
  have hp := Container.full_perm hd
  unfold Microgrid.modulesOf
  rw [hcont, hh]
  refine ((hp.filter _).map _).trans (List.Perm.of_eq ?_)
  conv_rhs => rw [← references_modules ms, List.filter_map, List.map_map]
  rfl

/-- The modules under a name are those built for that name. -/
theorem modulesOf_eq {g : Grid} {r : Bool} {m : Microgrid} (h : g.toModular r = .ok m) (name : String) :
    ((m.modulesOf name).map Except.ok).Perm (((g.components r).filter fun x => decide (x.1 = name)).map Prod.snd) := by
  obtain ⟨ms, e, hn, hc⟩ := toModular_ok h
  rw [e, List.filter_map, List.map_map]
  refine ((modulesOf_perm hn hc name).map Except.ok).trans (List.Perm.of_eq ?_)
  rw [List.map_map]
  rfl

theorem modulesOf_one {g : Grid} {r : Bool} {m : Microgrid} (h : g.toModular r = .ok m) {name : String}
    {e : Except Err Module} (he : ((g.components r).filter fun x => decide (x.1 = name)).map Prod.snd = [e]) :
    ∃ x, e = .ok x ∧ m.modulesOf name = [x] := by
  have hp := modulesOf_eq h name
  rw [he] at hp
  have := List.perm_singleton.mp hp
  cases hm : m.modulesOf name with
  | nil => rw [hm] at this; simp at this
  | cons x l =>
    rw [hm] at this
    simp only [List.map_cons, List.cons.injEq] at this
    refine ⟨x, this.1.symm, ?_⟩
    rw [List.map_eq_nil_iff.mp this.2]

theorem modulesOf_none {g : Grid} {r : Bool} {m : Microgrid} (h : g.toModular r = .ok m) {name : String}
    (he : ((g.components r).filter fun x => decide (x.1 = name)).map Prod.snd = []) : m.modulesOf name = [] := by
  have hp := modulesOf_eq h name
  rw [he] at hp
  exact List.map_eq_nil_iff.mp hp.eq_nil

theorem find_load (g : Grid) (r : Bool) :
    ((g.components r).filter fun x => decide (x.1 = "load")).map Prod.snd = [g.loadModule r] := by
  unfold Grid.components
  cases g.arch.battery <;> cases g.arch.genset <;> cases g.arch.grid <;> simp

theorem find_balancing (g : Grid) (r : Bool) :
    ((g.components r).filter fun x => decide (x.1 = "unbalanced_energy")).map Prod.snd = [.ok (g.balancingModule r)] := by
  unfold Grid.components
  cases g.arch.battery <;> cases g.arch.genset <;> cases g.arch.grid <;> simp

theorem find_pv (g : Grid) (r : Bool) :
    ((g.components r).filter fun x => decide (x.1 = "PV")).map Prod.snd = [g.pvModule r] := by
  unfold Grid.components
  cases g.arch.battery <;> cases g.arch.genset <;> cases g.arch.grid <;> simp

theorem find_battery (g : Grid) (r : Bool) :
    ((g.components r).filter fun x => decide (x.1 = "battery")).map Prod.snd =
      if g.arch.battery then [g.batteryModule r] else [] := by
  unfold Grid.components
  cases g.arch.battery <;> cases g.arch.genset <;> cases g.arch.grid <;> simp

theorem find_genset (g : Grid) (r : Bool) :
    ((g.components r).filter fun x => decide (x.1 = "genset")).map Prod.snd =
      if g.arch.genset then [g.gensetModule r] else [] := by
  unfold Grid.components
  cases g.arch.battery <;> cases g.arch.genset <;> cases g.arch.grid <;> simp

theorem find_grid (g : Grid) (r : Bool) :
    ((g.components r).filter fun x => decide (x.1 = "grid")).map Prod.snd =
      if g.arch.grid then [g.gridModule r] else [] := by
  unfold Grid.components
  cases g.arch.battery <;> cases g.arch.genset <;> cases g.arch.grid <;> simp

theorem find_other (g : Grid) (r : Bool) {name : String}
    (hn : name ∉ ["load", "unbalanced_energy", "PV", "battery", "genset", "grid"]) :
    ((g.components r).filter fun x => decide (x.1 = name)).map Prod.snd = [] := by
  simp only [List.mem_cons, List.not_mem_nil, or_false, not_or] at hn
  obtain ⟨h1, h2, h3, h4, h5, h6⟩ := hn
  unfold Grid.components
  cases g.arch.battery <;> cases g.arch.genset <;> cases g.arch.grid <;>
    simp [Ne.symm h1, Ne.symm h2, Ne.symm h3, Ne.symm h4, Ne.symm h5, Ne.symm h6]

/-! ### The components -/

theorem load_inv {g : Grid} {r : Bool} {x : Module} (h : g.loadModule r = .ok x) :
    ∃ t, x.kind = .load t ∧ t.rows = (g.loads.map fun l => [-|l|]) ∧ NewSeries g r x t := by
  obtain ⟨t, mn, mx, wf, -, -, s, -, hi, hc, hr, hl, -⟩ := Module.mkLoad_inv h
  refine ⟨t, wf.kind, s.rows, ⟨⟨hi, hc⟩, ?_, ?_, ?_, hr, hl⟩⟩
  · rw [s.finalStep, s.rows]; simp [TS.blank]
  · rw [s.horizon]; simp [TS.blank, FKind.isSome]
  · rw [s.param]; rfl

theorem pv_inv {g : Grid} {r : Bool} {x : Module} (h : g.pvModule r = .ok x) :
    ∃ t, x.kind = .renewable t ∧ t.rows = (g.pvs.map fun l => [|l|]) ∧ NewSeries g r x t := by
  obtain ⟨t, mn, mx, wf, -, -, s, -, hi, hc, hr, hl, -⟩ := Module.mkRenewable_inv h
  refine ⟨t, wf.kind, s.rows, ⟨⟨hi, hc⟩, ?_, ?_, ?_, hr, hl⟩⟩
  · rw [s.finalStep, s.rows]; simp [TS.blank]
  · rw [s.horizon]; simp [TS.blank, FKind.isSome]
  · rw [s.param]; rfl

theorem gridSeries_rect (g : Grid) : ∀ row ∈ g.gridSeries, row.length = 4 := by
  intro row h
  obtain ⟨x, -, rfl⟩ := List.mem_map.mp h
  rfl

theorem gridSeries_length {g : Grid} (ha : g.Aligned) (hg : g.arch.grid = true) :
    g.gridSeries.length = g.statuses.length := by
  obtain ⟨h1, h2, h3⟩ := ha hg
  unfold Grid.gridSeries
  simp only [List.length_map, List.length_zip, h1, h2, h3, min_self]

theorem gridSeries_get {g : Grid} {i : Nat} {row : GridRow} (h : g.GridData i row) :
    g.gridSeries[i]? = some [row.priceImport, row.priceExport, row.co2, row.status] := by
  obtain ⟨h1, h2, h3, h4⟩ := h
  unfold Grid.gridSeries
  have e : (((g.importPrices.zip g.exportPrices).zip g.co2s).zip g.statuses)[i]? =
      some (((row.priceImport, row.priceExport), row.co2), row.status) := by
    rw [List.getElem?_zip_eq_some]
    refine ⟨?_, h1⟩
    rw [List.getElem?_zip_eq_some]
    refine ⟨?_, h4⟩
    rw [List.getElem?_zip_eq_some]
    exact ⟨h2, h3⟩
  rw [List.getElem?_map, e]
  rfl

theorem gridSeries_data {g : Grid} {i : Nat} {row : List ℚ} (h : g.gridSeries[i]? = some row) :
    ∃ d : GridRow, g.GridData i d ∧ row = [d.priceImport, d.priceExport, d.co2, d.status] := by
  unfold Grid.gridSeries at h
  rw [List.getElem?_map, Option.map_eq_some_iff] at h
  obtain ⟨⟨⟨⟨a, b⟩, c⟩, d⟩, hx, rfl⟩ := h
  rw [List.getElem?_zip_eq_some] at hx
  obtain ⟨hx, hd⟩ := hx
  rw [List.getElem?_zip_eq_some] at hx
  obtain ⟨hx, hc⟩ := hx
  rw [List.getElem?_zip_eq_some] at hx
  exact ⟨⟨d, a, b, c⟩, ⟨hd, hx.1, hx.2, hc⟩, rfl⟩

theorem grid_inv {g : Grid} {r : Bool} {x : Module} (h : g.gridModule r = .ok x) :
    ∃ p t, x.kind = .grid p t ∧ NewSeries g r x t ∧ p.maxImport = g.params.pImport ∧ p.maxExport = g.params.pExport ∧
      p.costPerCo2 = g.params.costCo2 ∧ t.rows = g.gridSeries := by
  obtain ⟨t, mn, mx, wf, -, -, s, -, -, hi, hc, hr, hl, -⟩ := Module.mkGrid_inv (gridSeries_rect g) h
  have hrows : t.rows = g.gridSeries := by rw [s.rows]; simp [TS.blank, gridRows]
  refine ⟨_, t, wf.kind, ⟨⟨hi, hc⟩, ?_, ?_, ?_, hr, hl⟩, rfl, rfl, rfl, hrows⟩
  · rw [s.finalStep, hrows]; simp [TS.blank, gridRows]
  · rw [s.horizon]; simp [TS.blank, FKind.isSome]
  · rw [s.param]; rfl

theorem gridSeries_entries {g : Grid} : ∀ row ∈ g.gridSeries, ∃ a b c d, row = [a, b, c, d] ∧ a ∈ g.importPrices ∧
    b ∈ g.exportPrices ∧ c ∈ g.co2s ∧ d ∈ g.statuses := by
  intro row h
  obtain ⟨⟨⟨⟨a, b⟩, c⟩, d⟩, hx, rfl⟩ := List.mem_map.mp h
  obtain ⟨h1, h2⟩ := List.of_mem_zip hx
  obtain ⟨h3, h4⟩ := List.of_mem_zip h1
  obtain ⟨h5, h6⟩ := List.of_mem_zip h3
  exact ⟨a, b, c, d, rfl, h5, h6, h4, h2⟩

theorem gridSeries_of {g : Grid} (ha : g.Aligned) (hg : g.arch.grid = true) {i : Nat} (hi : i < g.statuses.length) :
    ∃ a b c d, g.importPrices[i]? = some a ∧ g.exportPrices[i]? = some b ∧ g.co2s[i]? = some c ∧ g.statuses[i]? = some d ∧
      [a, b, c, d] ∈ g.gridSeries := by
  obtain ⟨h1, h2, h3⟩ := ha hg
  have e1 := List.getElem?_eq_getElem (l := g.importPrices) (show i < _ by omega)
  have e2 := List.getElem?_eq_getElem (l := g.exportPrices) (show i < _ by omega)
  have e3 := List.getElem?_eq_getElem (l := g.co2s) (show i < _ by omega)
  have e4 := List.getElem?_eq_getElem (l := g.statuses) hi
  refine ⟨_, _, _, _, e1, e2, e3, e4, ?_⟩
  exact List.mem_of_getElem? (gridSeries_get (row := ⟨_, _, _, _⟩) ⟨e4, e1, e2, e3⟩)

/-- When a grid module can be built. -/
theorem grid_total {g : Grid} {r : Bool} (ha : g.Aligned) (hg : g.arch.grid = true) :
    (∃ x, g.gridModule r = .ok x) ↔ g.statuses ≠ [] ∧ (0 ≤ g.params.pImport ∧ 0 ≤ g.params.pExport) ∧
      ((∀ x ∈ g.importPrices, 0 ≤ x) ∧ (∀ x ∈ g.exportPrices, 0 ≤ x) ∧ (∀ x ∈ g.co2s, 0 ≤ x)) ∧
      ∀ x ∈ g.statuses, x = 0 ∨ x = 1 := by
  have hlen := gridSeries_length ha hg
  have hal := ha hg
  constructor
  · rintro ⟨x, hx⟩
    obtain ⟨-, -, -, -, -, hne, -⟩ := Module.mkGrid_inv (gridSeries_rect g) hx
    have hc : ∃ rows', gridCheckParams g.params.pImport g.params.pExport 4 g.gridSeries = .ok rows' := by
      unfold Grid.gridModule Module.mkGrid at hx
      split at hx
      · simp at hx
      · rename_i rows' h; exact ⟨rows', h⟩
    obtain ⟨rows', hc⟩ := hc
    obtain ⟨h1, h2, -, h4, h5, -⟩ := (gridCheckParams_iff (gridSeries_rect g)).mp hc
    have hst : g.statuses ≠ [] := by
      intro h0
      rw [h0] at hlen
      exact hne (List.length_eq_zero_iff.mp hlen)
    have at_ : ∀ i, i < g.statuses.length → ∃ a b c d, g.importPrices[i]? = some a ∧ g.exportPrices[i]? = some b ∧
        g.co2s[i]? = some c ∧ g.statuses[i]? = some d ∧ 0 ≤ a ∧ 0 ≤ b ∧ 0 ≤ c ∧ (d = 0 ∨ d = 1) := by
      intro i hi
      obtain ⟨a, b, c, d, e1, e2, e3, e4, hm⟩ := gridSeries_of ha hg hi
      refine ⟨a, b, c, d, e1, e2, e3, e4, h4 _ hm a (by simp), h4 _ hm b (by simp), h4 _ hm c (by simp), ?_⟩
      simpa using h5 rfl _ hm
    refine ⟨hst, ⟨h1, h2⟩, ⟨?_, ?_, ?_⟩, ?_⟩ <;> intro x hx <;> obtain ⟨i, hi⟩ := List.mem_iff_getElem?.mp hx <;>
      have hlt := (List.getElem?_eq_some_iff.mp hi).1 <;>
      obtain ⟨a, b, c, d, e1, e2, e3, e4, p1, p2, p3, p4⟩ := at_ i (by omega)
    · rw [hi] at e1; injection e1 with e1; rw [e1]; exact p1
    · rw [hi] at e2; injection e2 with e2; rw [e2]; exact p2
    · rw [hi] at e3; injection e3 with e3; rw [e3]; exact p3
    · rw [hi] at e4; injection e4 with e4; rw [e4]; exact p4
  · rintro ⟨hne, hp, ⟨h1, h2, h3⟩, hs⟩
    refine Module.mkGrid_ok (rows' := gridRows 4 g.gridSeries) (gridSeries_rect g) ?_ (by simp [FKind.Works]) ?_
    · intro h0
      rw [h0] at hlen
      exact hne (List.length_eq_zero_iff.mp hlen.symm)
    · rw [gridCheckParams_iff (gridSeries_rect g)]
      refine ⟨hp.1, hp.2, .inr rfl, ?_, ?_, rfl⟩
      · intro row hrow
        obtain ⟨a, b, c, d, rfl, m1, m2, m3, m4⟩ := gridSeries_entries row hrow
        intro x hx
        simp only [List.mem_cons, List.not_mem_nil, or_false] at hx
        rcases hx with rfl | rfl | rfl | rfl
        · exact h1 _ m1
        · exact h2 _ m2
        · exact h3 _ m3
        · rcases hs _ m4 with h | h <;> simp [h]
      · intro _ row hrow
        obtain ⟨a, b, c, d, rfl, m1, m2, m3, m4⟩ := gridSeries_entries row hrow
        simpa using hs _ m4

theorem battery_total {g : Grid} {r : Bool} :
    (∃ x, g.batteryModule r = .ok x) ↔ 0 < g.params.eff ∧ g.params.eff ≤ 1 ∧ g.params.capacity ≠ 0 := by
  constructor
  · rintro ⟨x, hx⟩
    obtain ⟨b, -, h1, h2, h3, -⟩ := Module.mkBattery_inv hx
    exact ⟨h1, h2, h3⟩
  · rintro ⟨h1, h2, h3⟩
    unfold Grid.batteryModule Module.mkBattery Battery.init
    have c1 : ¬ ¬ (0 < g.params.eff ∧ g.params.eff ≤ 1) := not_not.mpr ⟨h1, h2⟩
    simp only [if_neg c1, if_neg h3, Battery.initBattery]
    exact ⟨_, rfl⟩

theorem genset_total {g : Grid} {r : Bool} :
    (∃ x, g.gensetModule r = .ok x) ↔ g.params.pmin * g.params.rated ≤ g.params.pmax * g.params.rated := by
  constructor
  · rintro ⟨x, hx⟩
    obtain ⟨n, hn, -⟩ := Module.mkGenset_inv hx
    exact (Genset.init_inv hn).1
  · intro h
    obtain ⟨n, hn⟩ := Genset.init_ok (.const g.params.fuelCost) g.params.gensetCo2 g.params.costCo2 0 0 true true h
    unfold Grid.gensetModule Module.mkGenset
    rw [hn]
    exact ⟨_, rfl⟩

/-! ### The whole microgrid -/

/-- What is known about each module of the conversion. -/
theorem component_cases {g : Grid} {r : Bool} {ms : List (String × Module)}
    (e : g.components r = ms.map fun nm => (nm.1, .ok nm.2)) {nm : String × Module} (h : nm ∈ ms) :
    (nm.1 = "load" ∧ g.loadModule r = .ok nm.2) ∨ (nm.1 = "unbalanced_energy" ∧ nm.2 = g.balancingModule r) ∨
    (nm.1 = "PV" ∧ g.pvModule r = .ok nm.2) ∨ (g.arch.battery = true ∧ nm.1 = "battery" ∧ g.batteryModule r = .ok nm.2) ∨
    (g.arch.genset = true ∧ nm.1 = "genset" ∧ g.gensetModule r = .ok nm.2) ∨
    (g.arch.grid = true ∧ nm.1 = "grid" ∧ g.gridModule r = .ok nm.2) := by
  have hm : (nm.1, Except.ok nm.2) ∈ g.components r := by
    rw [e]; exact List.mem_map_of_mem (f := fun nm : String × Module => (nm.1, Except.ok (ε := Err) nm.2)) h
  unfold Grid.components at hm
  simp only [List.mem_append, List.mem_cons, List.not_mem_nil, or_false, Prod.mk.injEq] at hm
  rcases hm with ((hm | hm) | hm) | hm
  · rcases hm with ⟨a, b⟩ | ⟨a, b⟩ | ⟨a, b⟩
    · exact .inl ⟨a, b.symm⟩
    · injection b with b; exact .inr (.inl ⟨a, b⟩)
    · exact .inr (.inr (.inl ⟨a, b.symm⟩))
  · split at hm
    · rename_i hb
      simp only [List.mem_cons, List.not_mem_nil, or_false, Prod.mk.injEq] at hm
      exact .inr (.inr (.inr (.inl ⟨hb, hm.1, hm.2.symm⟩)))
    · simp at hm
  · split at hm
    · rename_i hb
      simp only [List.mem_cons, List.not_mem_nil, or_false, Prod.mk.injEq] at hm
      exact .inr (.inr (.inr (.inr (.inl ⟨hb, hm.1, hm.2.symm⟩))))
    · simp at hm
  · split at hm
    · rename_i hb
      simp only [List.mem_cons, List.not_mem_nil, or_false, Prod.mk.injEq] at hm
      exact .inr (.inr (.inr (.inr (.inr ⟨hb, hm.1, hm.2.symm⟩))))
    · simp at hm

/-- Initial and final steps of the modules. -/
theorem component_steps {g : Grid} {r : Bool} {ms : List (String × Module)}
    (e : g.components r = ms.map fun nm => (nm.1, .ok nm.2)) {nm : String × Module} (h : nm ∈ ms) :
    nm.2.initialStep = 0 ∧ ((nm.1 = "load" ∧ nm.2.finalStep? = some g.loads.length) ∨
      (nm.1 = "PV" ∧ nm.2.finalStep? = some g.pvs.length) ∨
      (g.arch.grid = true ∧ nm.1 = "grid" ∧ nm.2.finalStep? = some g.gridSeries.length) ∨ nm.2.finalStep? = none) := by
  rcases component_cases e h with ⟨a, b⟩ | ⟨a, b⟩ | ⟨a, b⟩ | ⟨c, a, b⟩ | ⟨c, a, b⟩ | ⟨c, a, b⟩
  · obtain ⟨t, k, hr, n⟩ := load_inv b
    refine ⟨n.start.1, .inl ⟨a, ?_⟩⟩
    unfold Module.finalStep?; rw [k]; simp only; rw [n.finish, hr, List.length_map]
  · rw [b]
    exact ⟨rfl, .inr (.inr (.inr rfl))⟩
  · obtain ⟨t, k, hr, n⟩ := pv_inv b
    refine ⟨n.start.1, .inr (.inl ⟨a, ?_⟩)⟩
    unfold Module.finalStep?; rw [k]; simp only; rw [n.finish, hr, List.length_map]
  · obtain ⟨bt, k, -, -, -, -, -, -, -, -, -, -, -, -, -, -, -, -, -, hi, -⟩ := Module.mkBattery_inv b
    refine ⟨hi, .inr (.inr (.inr ?_))⟩
    unfold Module.finalStep?; rw [k]
  · obtain ⟨bt, -, k, -, -, -, -, hi, -⟩ := Module.mkGenset_inv b
    refine ⟨hi, .inr (.inr (.inr ?_))⟩
    unfold Module.finalStep?; rw [k]
  · obtain ⟨p, t, k, n, -, -, -, hr⟩ := grid_inv b
    refine ⟨n.start.1, .inr (.inr (.inl ⟨c, a, ?_⟩))⟩
    unfold Module.finalStep?; rw [k]; simp only; rw [n.finish, hr]

/-- The modules that must be there. -/
theorem component_mem {g : Grid} {r : Bool} {ms : List (String × Module)}
    (e : g.components r = ms.map fun nm => (nm.1, .ok nm.2)) {n : String} {x : Except Err Module}
    (h : (n, x) ∈ g.components r) : ∃ m, x = .ok m ∧ (n, m) ∈ ms := by
  rw [e] at h
  obtain ⟨nm, hm, he⟩ := List.mem_map.mp h
  injection he with h1 h2
  exact ⟨nm.2, h2.symm, by rw [← h1]; exact hm⟩

theorem mem_load (g : Grid) (r : Bool) : ("load", g.loadModule r) ∈ g.components r := by simp [Grid.components]
theorem mem_balancing (g : Grid) (r : Bool) : ("unbalanced_energy", .ok (g.balancingModule r)) ∈ g.components r := by
  simp [Grid.components]
theorem mem_pv (g : Grid) (r : Bool) : ("PV", g.pvModule r) ∈ g.components r := by simp [Grid.components]
theorem mem_battery {g : Grid} (r : Bool) (h : g.arch.battery = true) : ("battery", g.batteryModule r) ∈ g.components r := by
  simp [Grid.components, h]
theorem mem_genset {g : Grid} (r : Bool) (h : g.arch.genset = true) : ("genset", g.gensetModule r) ∈ g.components r := by
  simp [Grid.components, h]
theorem mem_grid {g : Grid} (r : Bool) (h : g.arch.grid = true) : ("grid", g.gridModule r) ∈ g.components r := by
  simp [Grid.components, h]

/-- When a legacy microgrid can be converted. -/
theorem toModular_iff {g : Grid} {r : Bool} (ha : g.Aligned) : (∃ m, g.toModular r = .ok m) ↔ g.Convertible := by
  constructor
  · rintro ⟨m, h⟩
    obtain ⟨ms, e, hn, hc⟩ := toModular_ok h
    have hd : DistinctNames (place ms) (references ms) := distinct_of_names (by rw [references_names]; exact hn)
    have hne : references ms ≠ [] := by
      obtain ⟨ml, -, iml⟩ := component_mem e (mem_load g r)
      obtain ⟨i, hi, -⟩ := references_of iml
      exact List.ne_nil_of_mem hi
    obtain ⟨F, -, hep, -⟩ := created_episode hc hd hne
    obtain ⟨hh, -⟩ := Microgrid.create_ok hc
    have fin : ∀ nm ∈ ms, ∀ L, nm.2.finalStep? = some L → L = F := by
      intro nm hnm L hL
      obtain ⟨i, hi, hpl⟩ := references_of hnm
      refine (hep _ hi).2 L ?_
      rw [hh]
      simp only
      rw [hpl]; exact hL
    obtain ⟨ml, hml, iml⟩ := component_mem e (mem_load g r)
    obtain ⟨mp, hmp, imp⟩ := component_mem e (mem_pv g r)
    obtain ⟨l1, l2⟩ := (C46_load_accepted_iff (by simp [FKind.Works])).mp ⟨ml, hml⟩
    obtain ⟨-, p2⟩ := (C46_renewable_accepted_iff (by simp [FKind.Works])).mp ⟨mp, hmp⟩
    have fl : g.loads.length = F := by
      obtain ⟨t, k, hr, n⟩ := load_inv hml
      refine fin _ iml _ ?_
      unfold Module.finalStep?; rw [k]; simp only; rw [n.finish, hr, List.length_map]
    have fp : g.pvs.length = F := by
      obtain ⟨t, k, hr, n⟩ := pv_inv hmp
      refine fin _ imp _ ?_
      unfold Module.finalStep?; rw [k]; simp only; rw [n.finish, hr, List.length_map]
    have hgrid : g.arch.grid = true → ∃ x, g.gridModule r = .ok x ∧ g.statuses.length = F := by
      intro hg
      obtain ⟨mg, hmg, img⟩ := component_mem e (mem_grid r hg)
      refine ⟨mg, hmg, ?_⟩
      rw [← gridSeries_length ha hg]
      obtain ⟨p, t, k, n, -, -, -, hr⟩ := grid_inv hmg
      refine fin _ img _ ?_
      unfold Module.finalStep?; rw [k]; simp only; rw [n.finish, hr]
    refine ⟨l1, l2, p2, fp.trans fl.symm, ?_, ?_, ?_, ?_, ?_, ?_⟩
    · intro hb
      obtain ⟨mb, hmb, -⟩ := component_mem e (mem_battery r hb)
      exact battery_total.mp ⟨mb, hmb⟩
    · intro hb
      obtain ⟨mb, hmb, -⟩ := component_mem e (mem_genset r hb)
      exact genset_total.mp ⟨mb, hmb⟩
    · intro hg; obtain ⟨x, hx, -⟩ := hgrid hg; exact ((grid_total ha hg).mp ⟨x, hx⟩).2.1
    · intro hg; obtain ⟨x, hx, hf⟩ := hgrid hg; exact hf.trans fl.symm
    · intro hg; obtain ⟨x, hx, -⟩ := hgrid hg; exact ((grid_total ha hg).mp ⟨x, hx⟩).2.2.1
    · intro hg; obtain ⟨x, hx, -⟩ := hgrid hg; exact ((grid_total ha hg).mp ⟨x, hx⟩).2.2.2
  · intro hc
    have hall : ∀ x ∈ g.components r, ∃ m, x.2 = .ok m := by
      have hl := (C46_load_accepted_iff (param := .oracle) (horizon := g.horizon - 1) (i := 0) (fs := -1) (r := r)
        (by simp [FKind.Works])).mpr ⟨hc.data, hc.load⟩
      have hpne : g.pvs ≠ [] := by
        intro h0
        have := hc.pv_length
        rw [h0] at this
        exact hc.data (List.length_eq_zero_iff.mp this.symm)
      have hp := (C46_renewable_accepted_iff (param := .oracle) (horizon := g.horizon - 1) (i := 0) (fs := -1) (r := r)
        (by simp [FKind.Works])).mpr ⟨hpne, hc.pv⟩
      rintro ⟨n, x⟩ hx
      unfold Grid.components at hx
      simp only [List.mem_append, List.mem_cons, List.not_mem_nil, or_false, Prod.mk.injEq] at hx
      rcases hx with ((hx | hx) | hx) | hx
      · rcases hx with ⟨-, b⟩ | ⟨-, b⟩ | ⟨-, b⟩ <;> simp only [b]
        · exact hl
        · exact ⟨_, rfl⟩
        · exact hp
      · split at hx
        · rename_i hb
          simp only [List.mem_cons, List.not_mem_nil, or_false, Prod.mk.injEq] at hx
          simp only [hx.2]
          exact battery_total.mpr (hc.battery hb)
        · simp at hx
      · split at hx
        · rename_i hb
          simp only [List.mem_cons, List.not_mem_nil, or_false, Prod.mk.injEq] at hx
          simp only [hx.2]
          exact genset_total.mpr (hc.genset hb)
        · simp at hx
      · split at hx
        · rename_i hb
          simp only [List.mem_cons, List.not_mem_nil, or_false, Prod.mk.injEq] at hx
          simp only [hx.2]
          refine (grid_total ha hb).mpr ⟨?_, hc.powers hb, hc.prices hb, hc.status hb⟩
          intro h0
          have := hc.grid_length hb
          rw [h0] at this
          exact hc.data (List.length_eq_zero_iff.mp this.symm)
        · simp at hx
    obtain ⟨ms, hms⟩ := buildAll_total hall
    have e := buildAll_ok.mp hms
    have hn : (ms.map Prod.fst).Nodup := by
      have := components_names g r
      rw [e, List.map_map] at this
      exact this
    have hd : DistinctNames (place ms) (references ms) := distinct_of_names (by rw [references_names]; exact hn)
    have hp := (Container.full_perm hd).map Prod.snd
    obtain ⟨ml, hml, iml⟩ := component_mem e (mem_load g r)
    obtain ⟨j, hj, hpj⟩ := references_of iml
    have hj' := hp.symm.subset (List.mem_map_of_mem (f := Prod.snd) hj)
    have info : ∀ i ∈ (Container.toTuples (Container.build (place ms) (references ms)).fullDict).map Prod.snd,
        (place ms i).initialStep = 0 ∧ ∀ L, (place ms i).finalStep? = some L → L = g.loads.length := by
      intro i hi
      obtain ⟨x, hx, rfl⟩ := List.mem_map.mp (hp.subset hi)
      have hin := List.mem_of_getElem? (mem_references hx)
      obtain ⟨h1, h2⟩ := component_steps e hin
      refine ⟨h1, fun L hL => ?_⟩
      rcases h2 with ⟨-, h2⟩ | ⟨-, h2⟩ | ⟨hg, -, h2⟩ | h2
      · rw [hL] at h2; injection h2
      · rw [hL] at h2; injection h2 with h2; rw [h2, hc.pv_length]
      · rw [hL] at h2; injection h2 with h2; rw [h2, gridSeries_length ha hg, hc.grid_length hg]
      · rw [hL] at h2; simp at h2
    have fl : (place ms j).finalStep? = some g.loads.length := by
      rw [hpj]
      obtain ⟨t, k, hr, n⟩ := load_inv hml
      unfold Module.finalStep?; simp only; rw [k]; simp only; rw [n.finish, hr, List.length_map]
    unfold Grid.toModular Microgrid.create
    rw [hms]
    simp only
    rw [if_neg (by simpa using List.ne_nil_of_mem hj)]
    rw [uniqueVal_of (x := 0) (by
        intro y hy
        obtain ⟨i, hi, rfl⟩ := List.mem_map.mp hy
        exact (info i hi).1) (by
        intro h0
        rw [List.map_eq_nil_iff] at h0
        rw [h0] at hj'
        simp at hj')]
    simp only
    rw [uniqueVal_of (x := g.loads.length) (by
        intro y hy
        obtain ⟨i, hi, hL⟩ := List.mem_filterMap.mp hy
        exact (info i hi).2 y hL) (by
        intro h0
        have : g.loads.length ∈ (((Container.toTuples (Container.build (place ms) (references ms)).fullDict).map
            Prod.snd).filterMap fun i => (place ms i).finalStep?) := List.mem_filterMap.mpr ⟨j, hj', fl⟩
        rw [h0] at this
        simp at this)]
    exact ⟨_, rfl⟩

theorem Generator.scaleMax_nonneg {l : List ℚ} {k : ℚ} (h : ∀ x ∈ l, 0 ≤ x) (hk : 0 ≤ k) :
    ∀ y ∈ Generator.scaleMax l k, 0 ≤ y := by
  intro y hy
  obtain ⟨z, hz, rfl⟩ := List.mem_map.mp hy
  have hm := Generator.maxOf_peak (List.ne_nil_of_mem hz)
  exact mul_nonneg (h z hz) (div_nonneg hk (h _ hm.1))

theorem Generator.tariff_nonneg (scenario : Nat) : (∀ x ∈ (Generator.electricityTariff scenario).1, 0 ≤ x) ∧
    ∀ x ∈ (Generator.electricityTariff scenario).2, 0 ≤ x := by
  unfold Generator.electricityTariff
  constructor
  · intro x hx
    simp only at hx
    split at hx
    · obtain ⟨i, -, rfl⟩ := List.mem_map.mp hx
      unfold Generator.tariff
      split_ifs <;> norm_num
    · simp at hx
  · intro x hx
    rw [List.eq_of_mem_replicate hx]

/-- After a successful run that did not end the episode, the attribute `battery.soc` is the recorded state of charge. -/
theorem run_batterySoc {g g' : Grid} {c : Control} {row : StateRow} (h : g.run c = (g', .ok row)) (hd : g'.done = false) :
    g'.batterySoc = g'.soc := by
  have key : ∀ k k' : Grid, k.updateVariables = (k', .ok ()) → k'.batterySoc = k'.soc := by
    intro k k' hk
    unfold Grid.updateVariables at hk
    simp only at hk
    split at hk
    · split at hk
      · split at hk
        · simp at hk
        · split at hk
          · split at hk
            · simp at hk
            · injection hk with hk; subst hk; rfl
          · injection hk with hk; subst hk; rfl
      · injection hk with hk; subst hk; rfl
    · simp at hk
  unfold Grid.run at h
  split at h
  · simp at h
  · simp only at h
    split at h
    · simp at h
    · cases hg : g.arch.grid <;> simp only [hg, if_true, Bool.false_eq_true, if_false] at h
      all_goals
        split at h
        · injection h with h _
          subst h
          simp at hd
        · split at h
          · simp at h
          · rename_i hu
            injection h with h _
            subst h
            exact key _ _ hu

/-- So it is after a reset. -/
theorem reset_batterySoc {g g' : Grid} (h : g.reset = (g', .ok ())) : g'.batterySoc = g'.soc := by
  unfold Grid.reset Grid.updateVariables at h
  simp only at h
  split at h
  · simp at h
  rename_i hu
  injection h with h _
  subst h
  split at hu
  · split at hu
    · split at hu
      · simp at hu
      · split at hu
        · split at hu
          · simp at hu
          · injection hu with hk; subst hk; rfl
        · injection hu with hk; subst hk; rfl
    · injection hu with hk; subst hk; rfl
  · simp at hu

end Pymgrid.Legacy
