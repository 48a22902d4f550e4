import Verif.Spec.Revert
import Verif.Lemmas.Convert

set_option autoImplicit false

/-! Facts about the conversion to legacy microgrids. -/

namespace Pymgrid.Legacy

open Pymgrid Module

/-! ### Any microgrid -/

section
variable {m : Microgrid} {x : Nonmodular}

theorem mem_parts {α : Type} {f : Module → Option α} {a : α} :
    a ∈ m.parts f ↔ ∃ ni ∈ Container.toTuples m.cont.fullDict, f (m.heap ni.2) = some a := by
  unfold Microgrid.parts
  rw [List.mem_filterMap]

theorem has_battery {b : Battery} : m.Has (.battery b) ↔ b ∈ m.parts batteryPart := by
  rw [mem_parts]
  refine exists_congr fun ni => and_congr_right fun _ => ?_
  unfold batteryPart
  constructor
  · intro h; rw [h]
  · intro h; split at h <;> simp_all

theorem has_genset {b : Genset} : m.Has (.genset b) ↔ b ∈ m.parts gensetPart := by
  rw [mem_parts]
  refine exists_congr fun ni => and_congr_right fun _ => ?_
  unfold gensetPart
  constructor
  · intro h; rw [h]
  · intro h; split at h <;> simp_all

theorem has_balancing {b : Unbalanced} : m.Has (.balancing b) ↔ b ∈ m.parts balancingPart := by
  rw [mem_parts]
  refine exists_congr fun ni => and_congr_right fun _ => ?_
  unfold balancingPart
  constructor
  · intro h; rw [h]
  · intro h; split at h <;> simp_all

theorem has_grid {p : GridParams} {t : TS} : m.Has (.grid p t) ↔ (p, t) ∈ m.parts gridPart := by
  rw [mem_parts]
  refine exists_congr fun ni => and_congr_right fun _ => ?_
  unfold gridPart
  constructor
  · intro h; rw [h]
  · intro h; split at h <;> simp_all

theorem has_pv {t : TS} : m.Has (.renewable t) ↔ ∃ c, (t, c) ∈ m.parts pvPart := by
  simp only [mem_parts]
  constructor
  · rintro ⟨ni, h, k⟩
    exact ⟨_, ni, h, by unfold pvPart; rw [k]⟩
  · rintro ⟨c, ni, h, k⟩
    refine ⟨ni, h, ?_⟩
    unfold pvPart at k
    split at k <;> simp_all

theorem has_load {t : TS} : m.Has (.load t) ↔ ∃ c, (t, c) ∈ m.parts loadPart := by
  simp only [mem_parts]
  constructor
  · rintro ⟨ni, h, k⟩
    exact ⟨_, ni, h, by unfold loadPart; rw [k]⟩
  · rintro ⟨c, ni, h, k⟩
    refine ⟨ni, h, ?_⟩
    unfold loadPart at k
    split at k <;> simp_all

theorem mem_head {α : Type} {l : List α} (h : ¬ 1 < l.length) {a : α} : a ∈ l ↔ l.head? = some a := by
  match l, h with
  | [], _ => simp
  | [b], _ => simp [eq_comm]
  | _ :: _ :: _, h => simp at h

/-- What a successful conversion has checked and computed. -/
theorem toNonmodular_ok (h : m.toNonmodular = .ok x) :
    ∃ load pv l p fuel horizon,
      (¬ 1 < (m.parts loadPart).length ∧ ¬ 1 < (m.parts pvPart).length ∧ ¬ 1 < (m.parts batteryPart).length ∧
        ¬ 1 < (m.parts gridPart).length ∧ ¬ 1 < (m.parts gensetPart).length ∧ ¬ 1 < (m.parts balancingPart).length) ∧
      (m.parts loadPart).head? = some load ∧ (m.parts pvPart).head? = some pv ∧ currentOf load = .ok l ∧
      currentOf pv = .ok p ∧ fuelOf (m.parts gensetPart).head? = .ok fuel ∧ m.forecastHorizon = .ok horizon ∧
      (∀ n, (m.parts gensetPart).head? = some n → ratedOf n ≠ 0) ∧
      Legacy.create ⟨(m.parts batteryPart).head?.isSome, (m.parts gensetPart).head?.isSome, (m.parts gridPart).head?.isSome⟩
        (paramsOf (m.parts batteryPart).head? (m.parts gensetPart).head? fuel (m.parts gridPart).head?
          (m.parts balancingPart).head?)
        load.1.rows.flatten pv.1.rows.flatten (columnOf (m.parts gridPart).head? 3) (columnOf (m.parts gridPart).head? 0)
        (columnOf (m.parts gridPart).head? 1) (columnOf (m.parts gridPart).head? 2) (horizon + 1)
        (((m.parts batteryPart).head?.map fun b => b.soc).getD 0)
        (statusOf (-1 * l) p (m.parts batteryPart).head? (m.parts gridPart).head?) = .ok x.grid ∧
      x.costs = ((m.parts balancingPart).head?.isSome && (costCo2Of (m.parts gridPart).head? (m.parts gensetPart).head?).isSome) := by
  unfold Microgrid.toNonmodular at h
  split at h
  · simp at h
  rename_i hv
  simp only at h
  split at h
  · simp at h
  rename_i load hload
  split at h
  · rename_i l fuel horizon hl hf hh
    split at h
    · simp at h
    rename_i hr
    split at h
    · simp at h
    rename_i pv hpv
    split at h
    · simp at h
    rename_i p hp
    split at h
    · simp at h
    rename_i g hg
    injection h with h
    subst h
    refine ⟨load, pv, l, p, fuel, horizon, ?_, hload, hpv, hl, hp, hf, hh, ?_, hg, rfl⟩
    · unfold Microgrid.checkViability at hv
      split at hv
      · simp at hv
      split at hv
      · simp at hv
      rename_i hc
      simp only [not_or] at hc
      exact hc
    · intro n hn h0
      rw [hn] at hr
      simp [h0] at hr
  · simp at h
  · simp at h
  · simp at h

/-- The pieces of a legacy microgrid at creation. -/
theorem create_fields {a : Arch} {p : Params} {loads pvs st im ex co : List ℚ} {hz : Nat} {s : ℚ} {row : StateRow} {g : Grid}
    (h : Legacy.create a p loads pvs st im ex co hz s row = .ok g) :
    g.arch = a ∧ g.params = p ∧ g.loads = loads ∧ g.pvs = pvs ∧ g.statuses = st ∧ g.importPrices = im ∧
      g.exportPrices = ex ∧ g.co2s = co ∧ g.horizon = hz ∧ g.batterySoc = s ∧ g.states = [row] ∧ g.t = 0 ∧ g.done = false ∧
      g.production = {} ∧ g.costs = [] ∧ g.co2 = [] ∧ 2 ≤ loads.length ∧ 2 ≤ pvs.length ∧ some g.load = loads[0]? ∧
      some g.pv = pvs[0]? := by
  unfold Legacy.create at h
  split at h
  · rename_i l0 p0 l1 p1 h1 h2 h3 h4
    have e1 := (List.getElem?_eq_some_iff.mp h3).1
    have e2 := (List.getElem?_eq_some_iff.mp h4).1
    simp only at h
    split at h
    · split at h
      · simp at h
      · injection h with h
        subst h
        exact ⟨rfl, rfl, rfl, rfl, rfl, rfl, rfl, rfl, rfl, rfl, rfl, rfl, rfl, rfl, rfl, rfl, e1, e2, h1.symm, h2.symm⟩
    · injection h with h
      subst h
      exact ⟨rfl, rfl, rfl, rfl, rfl, rfl, rfl, rfl, rfl, rfl, rfl, rfl, rfl, rfl, rfl, rfl, e1, e2, h1.symm, h2.symm⟩
  · simp at h

theorem create_total {a : Arch} {p : Params} {loads pvs st im ex co : List ℚ} {hz : Nat} {s : ℚ} {row : StateRow}
    (h1 : 2 ≤ loads.length) (h2 : 2 ≤ pvs.length)
    (h3 : a.grid = true → 0 < st.length ∧ 0 < im.length ∧ 0 < ex.length ∧ 0 < co.length) :
    ∃ g, Legacy.create a p loads pvs st im ex co hz s row = .ok g := by
  unfold Legacy.create
  match loads, h1 with
  | l0 :: l1 :: loads, _ =>
    match pvs, h2 with
    | p0 :: p1 :: pvs, _ =>
      simp only [List.getElem?_cons_zero, List.getElem?_cons_succ]
      cases hg : a.grid with
      | false => exact ⟨_, rfl⟩
      | true =>
        obtain ⟨a1, a2, a3, a4⟩ := h3 hg
        unfold Grid.gridAt
        simp only [if_true, List.getElem?_eq_getElem a1, List.getElem?_eq_getElem a2, List.getElem?_eq_getElem a3,
          List.getElem?_eq_getElem a4]
        exact ⟨_, rfl⟩

end

/-! ### Converted microgrids -/

section
variable {g : Grid} {r : Bool} {m : Microgrid} {x : Nonmodular}

/-- All modules of a conversion, in the order of the container. -/
theorem all_perm (h : g.toModular r = .ok m) :
    ∃ ms : List (String × Module), g.components r = ms.map (fun nm => (nm.1, .ok nm.2)) ∧
      ((Container.toTuples m.cont.fullDict).map fun ni => m.heap ni.2).Perm (ms.map Prod.snd) := by
  obtain ⟨ms, e, hn, hc⟩ := toModular_ok h
  refine ⟨ms, e, ?_⟩
  obtain ⟨hh, hcont, -⟩ := Microgrid.create_ok hc
  have hd : DistinctNames (place ms) (references ms) := distinct_of_names (by rw [references_names]; exact hn)
  have hp := Container.full_perm hd
  rw [hcont, hh]
  refine (hp.map _).trans (List.Perm.of_eq ?_)
  conv_rhs => rw [← references_modules ms, List.map_map]
  rfl

theorem parts_eq {α : Type} (f : Module → Option α) : m.parts f =
    ((Container.toTuples m.cont.fullDict).map fun ni => m.heap ni.2).filterMap f := by
  unfold Microgrid.parts
  rw [List.filterMap_map]
  rfl

/-- The modules that a conversion consists of. -/
theorem split_components (h : g.toModular r = .ok m) :
    ∃ ml mp, g.loadModule r = .ok ml ∧ g.pvModule r = .ok mp ∧ ∃ lb ln lg : List Module,
      (g.arch.battery = true → ∃ y, g.batteryModule r = .ok y ∧ lb = [y]) ∧ (g.arch.battery = false → lb = []) ∧
      (g.arch.genset = true → ∃ y, g.gensetModule r = .ok y ∧ ln = [y]) ∧ (g.arch.genset = false → ln = []) ∧
      (g.arch.grid = true → ∃ y, g.gridModule r = .ok y ∧ lg = [y]) ∧ (g.arch.grid = false → lg = []) ∧
      ((Container.toTuples m.cont.fullDict).map fun ni => m.heap ni.2).Perm
        ([ml, g.balancingModule r, mp] ++ lb ++ ln ++ lg) := by
  obtain ⟨ms, e, hp⟩ := all_perm h
  have e' : (g.components r).map Prod.snd = (ms.map Prod.snd).map Except.ok := by
    rw [e, List.map_map, List.map_map]; rfl
  have ex : ∀ {y : Except Err Module} {n : String}, (n, y) ∈ g.components r → ∃ z, y = .ok z := by
    intro y n hy
    obtain ⟨z, hz, -⟩ := component_mem e hy
    exact ⟨z, hz⟩
  obtain ⟨ml, hml⟩ := ex (mem_load g r)
  obtain ⟨mp, hmp⟩ := ex (mem_pv g r)
  have inj : Function.Injective (Except.ok : Module → Except Err Module) := fun a b h => by injection h
  refine ⟨ml, mp, hml, hmp, ?_⟩
  have opt : ∀ (b : Bool) (n : String) (y : Except Err Module), (b = true → (n, y) ∈ g.components r) →
      ∃ l : List Module, (b = true → ∃ z, y = .ok z ∧ l = [z]) ∧ (b = false → l = []) ∧
        (if b then [(n, y)] else []).map Prod.snd = l.map Except.ok := by
    intro b n y hb
    cases b with
    | false => exact ⟨[], by simp, by simp, by simp⟩
    | true =>
      obtain ⟨z, hz⟩ := ex (hb rfl)
      exact ⟨[z], fun _ => ⟨z, hz, rfl⟩, by simp, by simp [hz]⟩
  obtain ⟨lb, b1, b2, b3⟩ := opt g.arch.battery "battery" (g.batteryModule r) (mem_battery r)
  obtain ⟨ln, n1, n2, n3⟩ := opt g.arch.genset "genset" (g.gensetModule r) (mem_genset r)
  obtain ⟨lg, g1, g2, g3⟩ := opt g.arch.grid "grid" (g.gridModule r) (mem_grid r)
  refine ⟨lb, ln, lg, b1, b2, n1, n2, g1, g2, hp.trans (List.Perm.of_eq ?_)⟩
  have : (ms.map Prod.snd).map (Except.ok (ε := Err)) = ([ml, g.balancingModule r, mp] ++ lb ++ ln ++ lg).map Except.ok := by
    rw [← e']
    unfold Grid.components
    rw [List.map_append, List.map_append, List.map_append, b3, n3, g3, hml, hmp]
    simp
  exact List.map_injective_iff.mpr inj this

/-- The parts of each class in a conversion. -/
theorem converted_parts (h : g.toModular r = .ok m) :
    ∃ ml mp tl tp, g.loadModule r = .ok ml ∧ g.pvModule r = .ok mp ∧ ml.kind = .load tl ∧ mp.kind = .renewable tp ∧
      m.parts loadPart = [(tl, 0)] ∧ m.parts pvPart = [(tp, 0)] ∧
      m.parts balancingPart = [⟨g.params.costLossLoad, g.params.costOvergen⟩] ∧
      (g.arch.battery = true → ∃ y b, g.batteryModule r = .ok y ∧ y.kind = .battery b ∧ m.parts batteryPart = [b]) ∧
      (g.arch.battery = false → m.parts batteryPart = []) ∧
      (g.arch.genset = true → ∃ y n, g.gensetModule r = .ok y ∧ y.kind = .genset n ∧ m.parts gensetPart = [n]) ∧
      (g.arch.genset = false → m.parts gensetPart = []) ∧
      (g.arch.grid = true → ∃ y p t, g.gridModule r = .ok y ∧ y.kind = .grid p t ∧ m.parts gridPart = [(p, t)]) ∧
      (g.arch.grid = false → m.parts gridPart = []) ∧
      m.forecastHorizon = .ok (g.horizon - 1) := by
  obtain ⟨ml, mp, hml, hmp, lb, ln, lg, b1, b2, n1, n2, g1, g2, hp⟩ := split_components h
  obtain ⟨tl, kl, -, nl⟩ := load_inv hml
  obtain ⟨tp, kp, -, np⟩ := pv_inv hmp
  have ku : (g.balancingModule r).kind = .balancing ⟨g.params.costLossLoad, g.params.costOvergen⟩ := rfl
  have eqp : ∀ {α : Type} (f : Module → Option α) (a : List α),
      ([ml, g.balancingModule r, mp] ++ lb ++ ln ++ lg).filterMap f = a → a.length ≤ 1 → m.parts f = a := by
    intro α f a ha hl
    rw [parts_eq]
    have := hp.filterMap f
    rw [ha] at this
    match a, hl with
    | [], _ => exact this.eq_nil
    | [b], _ => exact List.perm_singleton.mp this
  have kb : ∀ y ∈ lb, ∃ b, y.kind = .battery b := by
    intro y hy
    cases hb : g.arch.battery with
    | false => rw [b2 hb] at hy; simp at hy
    | true =>
      obtain ⟨z, hz, rfl⟩ := b1 hb
      obtain ⟨b, k, -⟩ := mkBattery_inv hz
      simp only [List.mem_singleton] at hy
      subst hy
      exact ⟨b, k⟩
  have kn : ∀ y ∈ ln, ∃ n, y.kind = .genset n := by
    intro y hy
    cases hb : g.arch.genset with
    | false => rw [n2 hb] at hy; simp at hy
    | true =>
      obtain ⟨z, hz, rfl⟩ := n1 hb
      obtain ⟨n, -, k, -⟩ := mkGenset_inv hz
      simp only [List.mem_singleton] at hy
      subst hy
      exact ⟨n, k⟩
  have kg : ∀ y ∈ lg, ∃ p t, y.kind = .grid p t ∧ t.horizon = g.horizon - 1 := by
    intro y hy
    cases hb : g.arch.grid with
    | false => rw [g2 hb] at hy; simp at hy
    | true =>
      obtain ⟨z, hz, rfl⟩ := g1 hb
      obtain ⟨p, t, k, n, -⟩ := grid_inv hz
      simp only [List.mem_singleton] at hy
      subst hy
      exact ⟨p, t, k, n.horizon⟩
  have off : ∀ {α : Type} (f : Module → Option α) (l : List Module), (∀ y ∈ l, f y = none) → l.filterMap f = [] := by
    intro α f l hl
    rw [List.filterMap_eq_nil_iff]
    exact hl
  refine ⟨ml, mp, tl, tp, hml, hmp, kl, kp, eqp _ _ ?_ (by simp), eqp _ _ ?_ (by simp), eqp _ _ ?_ (by simp),
    ?_, ?_, ?_, ?_, ?_, ?_, ?_⟩
  · rw [List.filterMap_append, List.filterMap_append, List.filterMap_append,
      off _ lb (fun y hy => by obtain ⟨b, k⟩ := kb y hy; unfold loadPart; rw [k]),
      off _ ln (fun y hy => by obtain ⟨b, k⟩ := kn y hy; unfold loadPart; rw [k]),
      off _ lg (fun y hy => by obtain ⟨b, t, k, -⟩ := kg y hy; unfold loadPart; rw [k])]
    simp [loadPart, kl, kp, ku, nl.start.2]
  · rw [List.filterMap_append, List.filterMap_append, List.filterMap_append,
      off _ lb (fun y hy => by obtain ⟨b, k⟩ := kb y hy; unfold pvPart; rw [k]),
      off _ ln (fun y hy => by obtain ⟨b, k⟩ := kn y hy; unfold pvPart; rw [k]),
      off _ lg (fun y hy => by obtain ⟨b, t, k, -⟩ := kg y hy; unfold pvPart; rw [k])]
    simp [pvPart, kl, kp, ku, np.start.2]
  · rw [List.filterMap_append, List.filterMap_append, List.filterMap_append,
      off _ lb (fun y hy => by obtain ⟨b, k⟩ := kb y hy; unfold balancingPart; rw [k]),
      off _ ln (fun y hy => by obtain ⟨b, k⟩ := kn y hy; unfold balancingPart; rw [k]),
      off _ lg (fun y hy => by obtain ⟨b, t, k, -⟩ := kg y hy; unfold balancingPart; rw [k])]
    simp [balancingPart, kl, kp, ku]
  · intro hb
    obtain ⟨z, hz, hl⟩ := b1 hb
    obtain ⟨b, k⟩ := kb z (by rw [hl]; simp)
    refine ⟨z, b, hz, k, eqp _ _ ?_ (by simp)⟩
    rw [List.filterMap_append, List.filterMap_append, List.filterMap_append,
      off _ ln (fun y hy => by obtain ⟨b, k⟩ := kn y hy; unfold batteryPart; rw [k]),
      off _ lg (fun y hy => by obtain ⟨b, t, k, -⟩ := kg y hy; unfold batteryPart; rw [k]), hl]
    simp [batteryPart, kl, kp, ku, k]
  · intro hb
    refine eqp _ _ ?_ (by simp)
    rw [List.filterMap_append, List.filterMap_append, List.filterMap_append,
      off _ ln (fun y hy => by obtain ⟨b, k⟩ := kn y hy; unfold batteryPart; rw [k]),
      off _ lg (fun y hy => by obtain ⟨b, t, k, -⟩ := kg y hy; unfold batteryPart; rw [k]), b2 hb]
    simp [batteryPart, kl, kp, ku]
  · intro hb
    obtain ⟨z, hz, hl⟩ := n1 hb
    obtain ⟨b, k⟩ := kn z (by rw [hl]; simp)
    refine ⟨z, b, hz, k, eqp _ _ ?_ (by simp)⟩
    rw [List.filterMap_append, List.filterMap_append, List.filterMap_append,
      off _ lb (fun y hy => by obtain ⟨b, k⟩ := kb y hy; unfold gensetPart; rw [k]),
      off _ lg (fun y hy => by obtain ⟨b, t, k, -⟩ := kg y hy; unfold gensetPart; rw [k]), hl]
    simp [gensetPart, kl, kp, ku, k]
  · intro hb
    refine eqp _ _ ?_ (by simp)
    rw [List.filterMap_append, List.filterMap_append, List.filterMap_append,
      off _ lb (fun y hy => by obtain ⟨b, k⟩ := kb y hy; unfold gensetPart; rw [k]),
      off _ lg (fun y hy => by obtain ⟨b, t, k, -⟩ := kg y hy; unfold gensetPart; rw [k]), n2 hb]
    simp [gensetPart, kl, kp, ku]
  · intro hb
    obtain ⟨z, hz, hl⟩ := g1 hb
    obtain ⟨p, t, k, -⟩ := kg z (by rw [hl]; simp)
    refine ⟨z, p, t, hz, k, eqp _ _ ?_ (by simp)⟩
    rw [List.filterMap_append, List.filterMap_append, List.filterMap_append,
      off _ lb (fun y hy => by obtain ⟨b, k⟩ := kb y hy; unfold gridPart; rw [k]),
      off _ ln (fun y hy => by obtain ⟨b, k⟩ := kn y hy; unfold gridPart; rw [k]), hl]
    simp [gridPart, kl, kp, ku, k]
  · intro hb
    refine eqp _ _ ?_ (by simp)
    rw [List.filterMap_append, List.filterMap_append, List.filterMap_append,
      off _ lb (fun y hy => by obtain ⟨b, k⟩ := kb y hy; unfold gridPart; rw [k]),
      off _ ln (fun y hy => by obtain ⟨b, k⟩ := kn y hy; unfold gridPart; rw [k]), g2 hb]
    simp [gridPart, kl, kp, ku]
  · unfold Microgrid.forecastHorizon
    rw [parts_eq]
    have hpm := hp.filterMap horizon?
    apply uniqueVal_of
    · intro y hy
      have hy' := hpm.subset hy
      obtain ⟨z, hz, hzy⟩ := List.mem_filterMap.mp hy'
      simp only [List.mem_append, List.mem_cons, List.not_mem_nil, or_false] at hz
      unfold horizon? at hzy
      rcases hz with ((hz | hz) | hz) | hz
      · rcases hz with rfl | rfl | rfl
        · rw [kl] at hzy; injection hzy with hzy; rw [← hzy, nl.horizon]
        · rw [ku] at hzy; simp at hzy
        · rw [kp] at hzy; injection hzy with hzy; rw [← hzy, np.horizon]
      · obtain ⟨b, k⟩ := kb z hz; rw [k] at hzy; simp at hzy
      · obtain ⟨b, k⟩ := kn z hz; rw [k] at hzy; simp at hzy
      · obtain ⟨p, t, k, ht⟩ := kg z hz; rw [k] at hzy; injection hzy with hzy; rw [← hzy, ht]
    · intro h0
      rw [h0] at hpm
      have := hpm.symm.eq_nil
      simp [horizon?, kl] at this

/-- No name has two modules. -/
theorem converted_names (h : g.toModular r = .ok m) :
    m.cont.fullDict.any (fun nl => decide (1 < nl.2.length)) = false := by
  obtain ⟨ms, e, hn, hc⟩ := toModular_ok h
  obtain ⟨hh, hcont, -⟩ := Microgrid.create_ok hc
  have hd : DistinctNames (place ms) (references ms) := distinct_of_names (by rw [references_names]; exact hn)
  have hp := (Container.full_perm hd).map Prod.fst
  rw [← hcont, references_names] at hp
  have nd := hp.nodup_iff.mpr hn
  rw [List.any_eq_false]
  intro nl hnl
  simp only [decide_eq_true_eq, not_lt]
  by_contra hlt
  have hsub : ((nl.2.map fun i => (nl.1, i)).map Prod.fst).Sublist ((Container.toTuples m.cont.fullDict).map Prod.fst) := by
    apply List.Sublist.map
    unfold Container.toTuples
    rw [List.flatMap_def]
    exact List.sublist_flatten_of_mem (List.mem_map.mpr ⟨nl, hnl, rfl⟩)
  have := nd.sublist hsub
  match hq : nl.2, hlt with
  | a :: b :: l, _ =>
    rw [hq] at this
    simp at this
  | [], hlt => simp at hlt
  | [_], hlt => simp at hlt

theorem columns (ha : g.Aligned) (hg : g.arch.grid = true) (p : GridParams) {t : TS} (ht : t.rows = g.gridSeries) :
    columnOf (some (p, t)) 3 = g.statuses ∧ columnOf (some (p, t)) 0 = g.importPrices ∧
      columnOf (some (p, t)) 1 = g.exportPrices ∧ columnOf (some (p, t)) 2 = g.co2s := by
  obtain ⟨h1, h2, h3⟩ := ha hg
  have e : ∀ (f : List ℚ → ℚ) (f' : ((ℚ × ℚ) × ℚ) × ℚ → ℚ), (∀ x, f [x.1.1.1, x.1.1.2, x.1.2, x.2] = f' x) →
      g.gridSeries.map f = (((g.importPrices.zip g.exportPrices).zip g.co2s).zip g.statuses).map f' := by
    intro f f' hf
    unfold Grid.gridSeries
    rw [List.map_map]
    exact List.map_congr_left fun x _ => hf x
  have l1 : ((g.importPrices.zip g.exportPrices).zip g.co2s).length = g.statuses.length := by
    simp only [List.length_zip, h1, h2, h3, min_self]
  have l2 : (g.importPrices.zip g.exportPrices).length = g.co2s.length := by
    simp only [List.length_zip, h1, h2, h3, min_self]
  have z1 : (((g.importPrices.zip g.exportPrices).zip g.co2s).zip g.statuses).map Prod.fst =
      (g.importPrices.zip g.exportPrices).zip g.co2s := List.map_fst_zip l1.le
  have z2 : ((g.importPrices.zip g.exportPrices).zip g.co2s).map Prod.fst = g.importPrices.zip g.exportPrices :=
    List.map_fst_zip l2.le
  have z3 : (g.importPrices.zip g.exportPrices).map Prod.fst = g.importPrices := List.map_fst_zip (h1.trans h2.symm).le
  have z4 : (g.importPrices.zip g.exportPrices).map Prod.snd = g.exportPrices := List.map_snd_zip (h2.trans h1.symm).le
  simp only [columnOf, ht]
  refine ⟨?_, ?_, ?_, ?_⟩
  · rw [e _ Prod.snd (fun x => rfl)]
    exact List.map_snd_zip l1.ge
  · rw [e _ (Prod.fst ∘ Prod.fst ∘ Prod.fst) (fun x => rfl), ← List.map_map, ← List.map_map, z1, z2, z3]
  · rw [e _ (Prod.snd ∘ Prod.fst ∘ Prod.fst) (fun x => rfl), ← List.map_map, ← List.map_map, z1, z2, z4]
  · rw [e _ (Prod.snd ∘ Prod.fst) (fun x => rfl), ← List.map_map, z1]
    exact List.map_snd_zip l2.ge

/-- Everything about the legacy microgrid that a converted one is turned back into. -/
theorem round_trip (ha : g.Aligned) (h : g.toModular r = .ok m) (hx : m.toNonmodular = .ok x) :
    x.grid.loads = (g.loads.map fun l => -|l|) ∧ x.grid.pvs = (g.pvs.map fun l => |l|) ∧ x.grid.arch = g.arch ∧
      x.grid.horizon = g.horizon - 1 + 1 ∧ x.grid.params.costLossLoad = g.params.costLossLoad ∧
      x.grid.params.costOvergen = g.params.costOvergen ∧
      (g.arch.battery = true → x.grid.batterySoc = g.batterySoc ∧ x.grid.soc = g.batterySoc ∧
        x.grid.params.capacity = g.params.capacity ∧ x.grid.params.socMin = g.params.socMin ∧
        x.grid.params.eff = g.params.eff ∧ x.grid.params.pCharge = g.params.pCharge ∧
        x.grid.params.pDischarge = g.params.pDischarge ∧ x.grid.params.costCycle = g.params.costCycle) ∧
      (g.arch.genset = true → x.grid.params.pmin * x.grid.params.rated = g.params.pmin * g.params.rated ∧
        x.grid.params.pmax * x.grid.params.rated = g.params.pmax * g.params.rated ∧
        x.grid.params.fuelCost = g.params.fuelCost ∧ x.grid.params.gensetCo2 = g.params.gensetCo2 ∧
        x.grid.params.costCo2 = g.params.costCo2) ∧
      (g.arch.grid = true → x.grid.statuses = g.statuses ∧ x.grid.importPrices = g.importPrices ∧
        x.grid.exportPrices = g.exportPrices ∧ x.grid.co2s = g.co2s ∧ x.grid.params.pImport = g.params.pImport ∧
        x.grid.params.pExport = g.params.pExport ∧ x.grid.params.costCo2 = g.params.costCo2) ∧
      (x.costs = (g.arch.genset || g.arch.grid)) := by
  obtain ⟨load, pv, l, p, fuel, hz, -, hload, hpv, -, -, hfuel, hhz, hrated, hc, hcosts⟩ := toNonmodular_ok hx
  obtain ⟨ml, mp, tl, tp, hml, hmp, kl, kp, pl, pp, pu, b1, b2, n1, n2, g1, g2, hor⟩ := converted_parts h
  obtain ⟨tl', kl', rl, -⟩ := load_inv hml
  obtain ⟨tp', kp', rp, -⟩ := pv_inv hmp
  rw [kl] at kl'; injection kl' with kl'; subst kl'
  rw [kp] at kp'; injection kp' with kp'; subst kp'
  rw [pl] at hload; injection hload with hload; subst hload
  rw [pp] at hpv; injection hpv with hpv; subst hpv
  rw [hor] at hhz; injection hhz with hhz; subst hhz
  obtain ⟨c1, c2, c3, c4, c5, c6, c7, c8, c9, c10, c11, -⟩ := create_fields hc
  rw [c1, c2, c3, c4, c5, c6, c7, c8, c9, c10, hcosts]
  have hb : ∀ {b : Battery}, (∃ y, g.batteryModule r = .ok y ∧ y.kind = .battery b) →
      b.maxCapacity = g.params.capacity ∧ b.minSoc = g.params.socMin ∧ b.efficiency = g.params.eff ∧
      b.maxCharge = g.params.pCharge ∧ b.maxDischarge = g.params.pDischarge ∧ b.costCycle = g.params.costCycle ∧
      b.soc = g.batterySoc := by
    rintro b ⟨y, hy, hk⟩
    obtain ⟨b', k, -, -, h0, -, e2, e3, e4, e5, e6, -, e8, e9, ⟨s', hs, e10⟩, -⟩ := mkBattery_inv hy
    rw [hk] at k; injection k with k; subst k
    injection hs with hs
    subst hs
    refine ⟨e2, ?_, e5, e3, e4, e6, ?_⟩
    · rw [e8, mul_div_cancel_left₀ _ h0]
    · rw [e9, e10, mul_div_cancel_right₀ _ h0]
  have hn : ∀ {n : Genset}, (∃ y, g.gensetModule r = .ok y ∧ y.kind = .genset n) →
      n.runMin = g.params.pmin * g.params.rated ∧ n.runMax = g.params.pmax * g.params.rated ∧
      n.cost = .const g.params.fuelCost ∧ n.co2PerUnit = g.params.gensetCo2 ∧ n.costPerCo2 = g.params.costCo2 := by
    rintro n ⟨y, hy, hk⟩
    obtain ⟨n', hi, k, -⟩ := mkGenset_inv hy
    rw [hk] at k; injection k with k; subst k
    obtain ⟨-, -, e1, e2, e3, e4, e5, -⟩ := Genset.init_inv hi
    exact ⟨e1, e2, e3, e4, e5⟩
  have hg : ∀ {p : GridParams} {t : TS}, (∃ y, g.gridModule r = .ok y ∧ y.kind = .grid p t) →
      p.maxImport = g.params.pImport ∧ p.maxExport = g.params.pExport ∧ p.costPerCo2 = g.params.costCo2 ∧
        t.rows = g.gridSeries := by
    rintro p t ⟨y, hy, hk⟩
    obtain ⟨p', t', k, -, e1, e2, e3, e4⟩ := grid_inv hy
    rw [hk] at k; injection k with k k'; subst k k'
    exact ⟨e1, e2, e3, e4⟩
  have co2 : (g.arch.genset = true ∨ g.arch.grid = true) →
      (costCo2Of (m.parts gridPart).head? (m.parts gensetPart).head?) = some g.params.costCo2 := by
    intro hor
    cases hgn : g.arch.genset with
    | false =>
      rw [n2 hgn]
      have hgg : g.arch.grid = true := by simpa [hgn] using hor
      obtain ⟨y, p, t, hy, hk, hp⟩ := g1 hgg
      obtain ⟨-, -, e, -⟩ := hg ⟨y, hy, hk⟩
      rw [hp]
      simp [costCo2Of, e]
    | true =>
      obtain ⟨y', n, hy', hk', hn'⟩ := n1 hgn
      obtain ⟨-, -, -, -, e'⟩ := hn ⟨y', hy', hk'⟩
      rw [hn']
      cases hgg : g.arch.grid with
      | false => rw [g2 hgg]; simp [costCo2Of, e']
      | true =>
        obtain ⟨y, p, t, hy, hk, hp⟩ := g1 hgg
        obtain ⟨-, -, e, -⟩ := hg ⟨y, hy, hk⟩
        rw [hp]
        simp [costCo2Of, e, e']
  refine ⟨by rw [rl, flatten_column], by rw [rp, flatten_column], ?_, rfl, by simp [paramsOf, pu], by simp [paramsOf, pu],
    ?_, ?_, ?_, ?_⟩
  · rcases harch : g.arch with ⟨ab, an, ag⟩
    have e1 : (m.parts batteryPart).head?.isSome = ab := by
      cases hab : ab with
      | false => rw [b2 (by rw [harch]; exact hab)]; rfl
      | true => obtain ⟨_, _, -, -, e⟩ := b1 (by rw [harch]; exact hab); rw [e]; rfl
    have e2 : (m.parts gensetPart).head?.isSome = an := by
      cases hab : an with
      | false => rw [n2 (by rw [harch]; exact hab)]; rfl
      | true => obtain ⟨_, _, -, -, e⟩ := n1 (by rw [harch]; exact hab); rw [e]; rfl
    have e3 : (m.parts gridPart).head?.isSome = ag := by
      cases hab : ag with
      | false => rw [g2 (by rw [harch]; exact hab)]; rfl
      | true => obtain ⟨_, _, _, -, -, e⟩ := g1 (by rw [harch]; exact hab); rw [e]; rfl
    rw [e1, e2, e3]
  · intro hab
    obtain ⟨y, b, hy, hk, e⟩ := b1 hab
    obtain ⟨e1, e2, e3, e4, e5, e6, e7⟩ := hb ⟨y, hy, hk⟩
    simp [paramsOf, e, e1, e2, e3, e4, e5, e6, e7, Grid.soc, c11, statusOf]
  · intro hab
    obtain ⟨y, n, hy, hk, e⟩ := n1 hab
    obtain ⟨e1, e2, e3, e4, e5⟩ := hn ⟨y, hy, hk⟩
    have h0 := hrated n (by rw [e]; rfl)
    have hf : fuel = g.params.fuelCost := by
      rw [e] at hfuel
      simp only [List.head?_cons, fuelOf, e3] at hfuel
      injection hfuel with hfuel
      exact hfuel.symm
    refine ⟨?_, ?_, hf, by simp [paramsOf, e, e4], by simp [paramsOf, co2 (.inl hab)]⟩
    · simp only [paramsOf, e, List.head?_cons, Option.map_some, Option.getD_some]
      rw [div_mul_cancel₀ _ h0, e1]
    · simp only [paramsOf, e, List.head?_cons, Option.map_some, Option.getD_some, ratedOf]
      rw [← e2]; field_simp
  · intro hab
    obtain ⟨y, p, t, hy, hk, e⟩ := g1 hab
    obtain ⟨e1, e2, e3, e4⟩ := hg ⟨y, hy, hk⟩
    obtain ⟨d1, d2, d3, d4⟩ := columns ha hab p e4
    rw [e]
    refine ⟨d1, d2, d3, d4, by simp [paramsOf, e1], by simp [paramsOf, e2], ?_⟩
    have := co2 (.inr hab)
    rw [e] at this
    simp only [paramsOf, this, Option.getD_some]
  · rw [pu]
    simp only [List.head?_cons, Option.isSome_some, Bool.true_and]
    cases hgn : g.arch.genset with
    | true => rw [co2 (.inl hgn)]; rfl
    | false =>
      cases hgg : g.arch.grid with
      | true => rw [co2 (.inr hgg)]; rfl
      | false => rw [n2 hgn, g2 hgg]; rfl

theorem mkLoad_twice {xs : List ℚ} {k : FKind} {hz i : Nat} {fs : Int} {r : Bool} {y : Module}
    (h : mkLoad xs k hz i fs r = .ok y) : mkLoad (xs.map fun l => -|l|) k hz i fs r = .ok y := by
  unfold mkLoad at h ⊢
  split at h
  · simp at h
  · rename_i ys hs
    have e := signCheck_again hs
    obtain ⟨rfl, -⟩ := signCheck_sink hs
    rw [e]
    exact h

theorem mkRenewable_twice {xs : List ℚ} {k : FKind} {hz i : Nat} {fs : Int} {r : Bool} {y : Module}
    (h : mkRenewable xs k hz i fs r = .ok y) : mkRenewable (xs.map fun l => |l|) k hz i fs r = .ok y := by
  unfold mkRenewable at h ⊢
  split at h
  · simp at h
  · rename_i ys hs
    have e := signCheck_again hs
    obtain ⟨rfl, -⟩ := signCheck_source hs
    rw [e]
    exact h

/-- The legacy microgrid is made of the same components. -/
theorem components_again (ha : g.Aligned) (h : g.toModular r = .ok m) (hx : m.toNonmodular = .ok x) :
    x.grid.components r = g.components r := by
  obtain ⟨e1, e2, e3, e4, e5, e6, e7, e8, e9, -⟩ := round_trip ha h hx
  obtain ⟨ml, mp, -, -, hml, hmp, -⟩ := converted_parts h
  have hh : x.grid.horizon - 1 = g.horizon - 1 := by omega
  have l : x.grid.loadModule r = g.loadModule r := by
    rw [hml]
    unfold Grid.loadModule at hml ⊢
    rw [e1, hh]
    exact mkLoad_twice hml
  have p : x.grid.pvModule r = g.pvModule r := by
    rw [hmp]
    unfold Grid.pvModule at hmp ⊢
    rw [e2, hh]
    exact mkRenewable_twice hmp
  have u : x.grid.balancingModule r = g.balancingModule r := by unfold Grid.balancingModule; rw [e5, e6]
  have b : g.arch.battery = true → x.grid.batteryModule r = g.batteryModule r := by
    intro hb
    obtain ⟨a1, -, a3, a4, a5, a6, a7, a8⟩ := e7 hb
    unfold Grid.batteryModule
    rw [a1, a3, a4, a5, a6, a7, a8]
  have n : g.arch.genset = true → x.grid.gensetModule r = g.gensetModule r := by
    intro hb
    obtain ⟨a1, a2, a3, a4, a5⟩ := e8 hb
    unfold Grid.gensetModule
    rw [a1, a2, a3, a4, a5]
  have c : g.arch.grid = true → x.grid.gridModule r = g.gridModule r := by
    intro hb
    obtain ⟨a1, a2, a3, a4, a5, a6, a7⟩ := e9 hb
    unfold Grid.gridModule Grid.gridSeries
    rw [a1, a2, a3, a4, a5, a6, a7, hh]
  unfold Grid.components
  rw [e3, l, p, u]
  congr 1
  · congr 1
    · congr 1
      cases hb : g.arch.battery with
      | false => rfl
      | true => rw [b hb]
    · cases hb : g.arch.genset with
      | false => rfl
      | true => rw [n hb]
  · cases hb : g.arch.grid with
    | false => rfl
    | true => rw [c hb]

/-- Converted microgrids can be turned back if there are two steps and the genset can run. -/
theorem revert_iff (h : g.toModular r = .ok m) (ha : g.Aligned) : (∃ x, m.toNonmodular = .ok x) ↔
    2 ≤ g.loads.length ∧ (g.arch.genset = true → g.params.rated * g.params.pmax ≠ 0) := by
  obtain ⟨ml, mp, tl, tp, hml, hmp, kl, kp, pl, pp, pu, b1, b2, n1, n2, g1, g2, hor⟩ := converted_parts h
  obtain ⟨tl', kl', rl, -⟩ := load_inv hml
  obtain ⟨tp', kp', rp, -⟩ := pv_inv hmp
  rw [kl] at kl'; injection kl' with kl'; subst kl'
  rw [kp] at kp'; injection kp' with kp'; subst kp'
  have hn : ∀ {n : Genset}, (∃ y, g.gensetModule r = .ok y ∧ y.kind = .genset n) →
      n.runMax = g.params.pmax * g.params.rated ∧ n.cost = .const g.params.fuelCost := by
    rintro n ⟨y, hy, hk⟩
    obtain ⟨n', hi, k, -⟩ := mkGenset_inv hy
    rw [hk] at k; injection k with k; subst k
    obtain ⟨-, -, e1, e2, e3, e4, e5, -⟩ := Genset.init_inv hi
    exact ⟨e2, e3⟩
  have conv : g.Convertible := (toModular_iff ha).mp ⟨m, h⟩
  constructor
  · rintro ⟨x, hx⟩
    obtain ⟨load, pv, l, p, fuel, hz, -, hload, hpv, -, -, hfuel, hhz, hrated, hc, hcosts⟩ := toNonmodular_ok hx
    rw [pl] at hload; injection hload with hload; subst hload
    obtain ⟨-, -, -, -, -, -, -, -, -, -, -, -, -, -, -, -, hl, -⟩ := create_fields hc
    rw [rl, flatten_column, List.length_map] at hl
    refine ⟨hl, fun hg h0 => ?_⟩
    obtain ⟨y, n, hy, hk, e⟩ := n1 hg
    apply hrated n (by rw [e]; rfl)
    rw [ratedOf, (hn ⟨y, hy, hk⟩).1, mul_comm, h0, zero_div]
  · rintro ⟨h2, hg⟩
    have hbl : ∀ {α : Type} {l : List α} {b : Bool}, (b = true → ∃ a, l = [a]) → (b = false → l = []) →
        ¬ 1 < l.length := by
      intro α l b t f
      cases b with
      | false => rw [f rfl]; simp
      | true => obtain ⟨a, ha⟩ := t rfl; rw [ha]; simp
    have v : m.checkViability = .ok () := by
      unfold Microgrid.checkViability
      rw [converted_names h]
      have q1 := hbl (fun t => let ⟨_, b, _, _, e⟩ := b1 t; ⟨b, e⟩) b2
      have q2 := hbl (fun t => let ⟨_, b, _, _, e⟩ := n1 t; ⟨b, e⟩) n2
      have q3 := hbl (fun t => let ⟨_, b, c, _, _, e⟩ := g1 t; ⟨(b, c), e⟩) g2
      simp only [pl, pp, pu, q1, q2, q3, List.length_cons, List.length_nil]
      simp
    have ratedok : (m.parts gensetPart).head?.any (fun n => decide (ratedOf n = 0)) = false := by
      cases hgn : g.arch.genset with
      | false => rw [n2 hgn]; rfl
      | true =>
        obtain ⟨y, n, hy, hk, e⟩ := n1 hgn
        rw [e]
        simp only [List.head?_cons, Option.any_some, decide_eq_false_iff_not, ratedOf, (hn ⟨y, hy, hk⟩).1]
        have := hg hgn
        rw [mul_comm] at this
        exact div_ne_zero this (by norm_num)
    have fuelok : ∃ f, fuelOf (m.parts gensetPart).head? = .ok f := by
      cases hgn : g.arch.genset with
      | false => rw [n2 hgn]; exact ⟨_, rfl⟩
      | true =>
        obtain ⟨y, n, hy, hk, e⟩ := n1 hgn
        rw [e]
        simp only [List.head?_cons, fuelOf, (hn ⟨y, hy, hk⟩).2]
        exact ⟨_, rfl⟩
    obtain ⟨f, hf⟩ := fuelok
    have cl : ∃ q, currentOf (tl, 0) = .ok q := by
      unfold currentOf
      rw [rl]
      match hq : g.loads, h2 with
      | a :: b :: rest, _ => exact ⟨_, rfl⟩
    have cp : ∃ q, currentOf (tp, 0) = .ok q := by
      unfold currentOf
      rw [rp]
      have h2' : 2 ≤ g.pvs.length := by rw [conv.pv_length]; exact h2
      match hq : g.pvs, h2' with
      | a :: b :: rest, _ => exact ⟨_, rfl⟩
    obtain ⟨q1, hq1⟩ := cl
    obtain ⟨q2, hq2⟩ := cp
    have cols : (m.parts gridPart).head?.isSome = true → ∀ k, 0 < (columnOf (m.parts gridPart).head? k).length := by
      intro hs k
      cases hgg : g.arch.grid with
      | false => rw [g2 hgg] at hs; simp at hs
      | true =>
        obtain ⟨y, p, t, hy, hk, e⟩ := g1 hgg
        obtain ⟨p', t', k', -, -, -, -, e4⟩ := grid_inv hy
        rw [hk] at k'; injection k' with k1 k2; subst k1 k2
        rw [e]
        simp only [List.head?_cons, columnOf, e4, List.length_map, gridSeries_length ha hgg, conv.grid_length hgg]
        omega
    obtain ⟨x, hx⟩ := create_total (a := ⟨(m.parts batteryPart).head?.isSome, (m.parts gensetPart).head?.isSome,
        (m.parts gridPart).head?.isSome⟩)
      (p := paramsOf (m.parts batteryPart).head? (m.parts gensetPart).head? f (m.parts gridPart).head?
          (m.parts balancingPart).head?) (loads := tl.rows.flatten) (pvs := tp.rows.flatten)
      (st := columnOf (m.parts gridPart).head? 3) (im := columnOf (m.parts gridPart).head? 0)
      (ex := columnOf (m.parts gridPart).head? 1) (co := columnOf (m.parts gridPart).head? 2) (hz := g.horizon - 1 + 1)
      (s := ((m.parts batteryPart).head?.map fun b => b.soc).getD 0)
      (row := statusOf (-1 * q1) q2 (m.parts batteryPart).head? (m.parts gridPart).head?)
      (by rw [rl, flatten_column, List.length_map]; exact h2)
      (by rw [rp, flatten_column, List.length_map, conv.pv_length]; exact h2)
      (fun hs => ⟨cols hs 3, cols hs 0, cols hs 1, cols hs 2⟩)
    refine ⟨⟨x, (m.parts balancingPart).head?.isSome && (costCo2Of (m.parts gridPart).head? (m.parts gensetPart).head?).isSome⟩, ?_⟩
    unfold Microgrid.toNonmodular
    rw [v]
    simp only [pl, pp, List.head?_cons, hq1, hq2, hf, hor, ratedok, hx, Bool.false_eq_true, if_false]

end

end Pymgrid.Legacy
