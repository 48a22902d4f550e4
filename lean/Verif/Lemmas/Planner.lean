import Verif.Lemmas.Revert
import Verif.Lemmas.RBC
import Verif.Lemmas.Serialize
import Verif.Spec.ModularMPC

set_option autoImplicit false

/-! What the constructor of the model predictive control finds in a modular microgrid. -/

namespace Pymgrid

open Module

/-! ### The part of a module that never changes -/

/-- The parameters of a module. -/
def Kind.core : Kind → Kind
  | .battery b => .battery { b with charge := 0, soc := 0 }
  | .genset g => .genset { g with status := 0, goal := 0, untilUp := 0, untilDown := 0 }
  | .grid p t => .grid p { t with finalStep := 0, cur := none, draws := 0 }
  | .load t => .load { t with finalStep := 0, cur := none, draws := 0 }
  | .renewable t => .renewable { t with finalStep := 0, cur := none, draws := 0 }
  | .balancing u => .balancing u

theorem TS.Same.core {t t' : TS} (s : TS.Same t t') :
    ({ t' with finalStep := 0, cur := none, draws := 0 } : TS) = { t with finalStep := 0, cur := none, draws := 0 } := by
  rw [s]

theorem Kind.Sib.core {k k' : Kind} (h : k.Sib k') : k'.core = k.core := by
  cases h with
  | battery b c s => rfl
  | genset g a b c d => rfl
  | grid p s => simp only [Kind.core, s.core]
  | load s => simp only [Kind.core, s.core]
  | renewable s => simp only [Kind.core, s.core]
  | balancing u => rfl

theorem kept_core : Kept fun m m' => m.WF → m'.WF ∧ m'.kind.core = m.kind.core where
  refl _ h := ⟨h, rfl⟩
  trans h h' hw := ⟨(h' (h hw).1).1, (h' (h hw).1).2.trans (h hw).2⟩
  step m a n h := ⟨h.step a n, (h.sib_step a n).kind.core⟩
  reset m h := ⟨h.reset, h.sib_reset.kind.core⟩
  initial m v h := ⟨h.withInitial v, rfl⟩
  final m v h := by
    refine ⟨h.setFinal v, ?_⟩
    have hs : ∀ (t : TS) (i : Nat), ({ (t.setFinalStep i v).1 with finalStep := 0, cur := none, draws := 0 } : TS) =
        { t with finalStep := 0, cur := none, draws := 0 } := by
      intro t i
      rfl
    unfold Microgrid.setFinalOne
    cases hk : m.kind with
    | grid p t =>
      have := hs t m.initialStep
      simp only
      split <;> rename_i e <;> rw [e] at this <;> simp only [Kind.core] <;> rw [this]
    | load t =>
      have := hs t m.initialStep
      simp only
      split <;> rename_i e <;> rw [e] at this <;> simp only [Kind.core] <;> rw [this]
    | renewable t =>
      have := hs t m.initialStep
      simp only
      split <;> rename_i e <;> rw [e] at this <;> simp only [Kind.core] <;> rw [this]
    | _ => simp [hk]

/-- The forecast horizon of a series. -/
def Kind.horizon : Kind → Option Nat
  | .grid _ t | .load t | .renewable t => some t.horizon
  | _ => none

theorem Kind.core_horizon (k : Kind) : k.core.horizon = k.horizon := by cases k <;> rfl

theorem Kind.core_cls (k : Kind) : k.core.cls = k.cls := by cases k <;> rfl

/-! ### Reading the container -/

namespace MPC

section
variable {mods : List (String × Nat)} {m : Microgrid}

theorem nameOf_spec {α : Type} {f : Module → Option α} (hp : (Container.toTuples m.cont.fullDict).Perm mods) :
    (∃ nm ∈ mods, nameOf m f = some nm.1 ∧ (f (m.heap nm.2)).isSome = true) ∨
      (nameOf m f = none ∧ ∀ nm ∈ mods, (f (m.heap nm.2)).isSome = false) := by
  unfold nameOf
  cases hl : ((Container.toTuples m.cont.fullDict).filter fun ni => (f (m.heap ni.2)).isSome).getLast? with
  | none =>
    right
    refine ⟨rfl, fun nm hm => ?_⟩
    rw [List.getLast?_eq_none_iff] at hl
    have := List.filter_eq_nil_iff.mp hl nm (hp.mem_iff.mpr hm)
    simpa using this
  | some x =>
    left
    have := List.mem_of_getLast? hl
    rw [List.mem_filter] at this
    exact ⟨x, hp.mem_iff.mp this.1, rfl, this.2⟩

theorem part_unique {α : Type} {f : Module → Option α} (hp : (Container.toTuples m.cont.fullDict).Perm mods)
    (h1 : ¬ 1 < (m.parts f).length) {x y : String × Nat} (hx : x ∈ mods) (hy : y ∈ mods)
    (ex : (f (m.heap x.2)).isSome = true) (ey : (f (m.heap y.2)).isSome = true) : x = y := by
  have hl : ((Container.toTuples m.cont.fullDict).filter fun ni => (f (m.heap ni.2)).isSome).length = (m.parts f).length := by
    unfold Microgrid.parts
    generalize Container.toTuples m.cont.fullDict = l
    induction l with
    | nil => rfl
    | cons a l ih =>
      simp only [List.filter_cons, List.filterMap_cons]
      cases ha : f (m.heap a.2) <;> simp [ih]
  rw [← hl] at h1
  have mx : x ∈ (Container.toTuples m.cont.fullDict).filter fun ni => (f (m.heap ni.2)).isSome :=
    List.mem_filter.mpr ⟨hp.mem_iff.mpr hx, ex⟩
  have my : y ∈ (Container.toTuples m.cont.fullDict).filter fun ni => (f (m.heap ni.2)).isSome :=
    List.mem_filter.mpr ⟨hp.mem_iff.mpr hy, ey⟩
  rw [Legacy.mem_head h1] at mx my
  exact Option.some.inj (mx.symm.trans my)

theorem loadPart_cls (m : Module) : m.loadPart.isSome = true ↔ m.kind.cls = .load := by
  unfold loadPart; cases m.kind <;> simp [Kind.cls]
theorem pvPart_cls (m : Module) : m.pvPart.isSome = true ↔ m.kind.cls = .renewable := by
  unfold pvPart; cases m.kind <;> simp [Kind.cls]
theorem batteryPart_cls (m : Module) : m.batteryPart.isSome = true ↔ m.kind.cls = .battery := by
  unfold batteryPart; cases m.kind <;> simp [Kind.cls]
theorem gensetPart_cls (m : Module) : m.gensetPart.isSome = true ↔ m.kind.cls = .genset := by
  unfold gensetPart; cases m.kind <;> simp [Kind.cls]
theorem gridPart_cls (m : Module) : m.gridPart.isSome = true ↔ m.kind.cls = .grid := by
  unfold gridPart; cases m.kind <;> simp [Kind.cls]
theorem balancingPart_cls (m : Module) : m.balancingPart.isSome = true ↔ m.kind.cls = .balancing := by
  unfold balancingPart; cases m.kind <;> simp [Kind.cls]

/-- The lists of the dictionary of all modules have one entry each. -/
def Singles (m : Microgrid) : Prop := ∀ nl ∈ m.cont.fullDict, nl.2.length ≤ 1

theorem fullDict_nodup (m : Microgrid) : (m.cont.fullDict.map Prod.fst).Nodup := Container.toDict_nodup _

theorem itemOf_ok (hs : Singles m) (hp : (Container.toTuples m.cont.fullDict).Perm mods) {nm : String × Nat}
    (hm : nm ∈ mods) : dictGet? m.cont.fullDict nm.1 = some [nm.2] := by
  have := hp.mem_iff.mpr hm
  simp only [Container.toTuples, List.mem_flatMap, List.mem_map] at this
  obtain ⟨nl, hnl, i, hi, rfl⟩ := this
  have h1 := hs nl hnl
  have : nl.2 = [i] := by
    obtain ⟨n, l⟩ := nl
    match l, h1, hi with
    | [a], _, h => simp only [List.mem_singleton] at h; rw [h]
    | _ :: _ :: _, h, _ => simp at h
  rw [← this]
  exact dictGet?_of_mem (fullDict_nodup m) hnl

theorem names_nodup (hs : Singles m) (hp : (Container.toTuples m.cont.fullDict).Perm mods) :
    (mods.map Prod.fst).Nodup := by
  refine (hp.map Prod.fst).nodup_iff.mp ?_
  have hn := fullDict_nodup m
  unfold Singles at hs
  unfold Container.toTuples
  generalize m.cont.fullDict = d at *
  have : ∀ d : ModDict, (∀ nl ∈ d, nl.2.length ≤ 1) →
      List.Sublist ((d.flatMap fun nl => nl.2.map fun i => (nl.1, i)).map Prod.fst) (d.map Prod.fst) := by
    intro d hd
    induction d with
    | nil => exact .slnil
    | cons x d ih =>
      obtain ⟨n, l⟩ := x
      have hl : l.length ≤ 1 := hd (n, l) (by simp)
      have ih := ih fun nl h => hd nl (by simp [h])
      match l, hl with
      | [], _ => simpa using ih.cons n
      | [i], _ => simpa using ih.cons_cons n
  exact hn.sublist (this d hs)

end

/-- What a planner knows about the modules. -/
structure Placed (mods : List (String × Nat)) (h : Heap) (pl : Planner) : Prop where
  names : (mods.map Prod.fst).Nodup
  uniq : ∀ x ∈ mods, ∀ y ∈ mods, (h x.2).kind.cls = (h y.2).kind.cls → x = y
  load : ∃ nm ∈ mods, pl.names.load = some nm.1 ∧ (h nm.2).kind.cls = .load
  pv : ∃ nm ∈ mods, pl.names.pv = some nm.1 ∧ (h nm.2).kind.cls = .renewable
  battery : ∃ nm ∈ mods, pl.names.battery = some nm.1 ∧ nm.1 = "battery" ∧ (h nm.2).kind.cls = .battery
  balancing : ∃ nm ∈ mods, (h nm.2).kind.cls = .balancing
  grid : (∃ nm ∈ mods, pl.names.grid = some nm.1 ∧ (h nm.2).kind.cls = .grid) ∨
    (pl.names.grid = none ∧ ∀ nm ∈ mods, (h nm.2).kind.cls ≠ .grid)
  genset : (∃ nm ∈ mods, pl.names.genset = some nm.1 ∧ (h nm.2).kind.cls = .genset) ∨
    (pl.names.genset = none ∧ ∀ nm ∈ mods, (h nm.2).kind.cls ≠ .genset)
  horizon : ∀ nm ∈ mods, ∀ k, (h nm.2).kind.horizon = some k → pl.horizon = k + 1
  sBattery : ∀ nm ∈ mods, ∀ b, (h nm.2).kind.core = .battery b →
    pl.static.eta = b.efficiency ∧ pl.static.capacity = b.maxCapacity ∧ pl.static.cycle = b.costCycle
  sBalancing : ∀ nm ∈ mods, ∀ u, (h nm.2).kind.core = .balancing u → pl.static.lossLoad = u.lossLoadCost
  sGenset : ∀ nm ∈ mods, ∀ n, (h nm.2).kind.core = .genset n →
    n.cost = .const pl.static.fuel ∧ pl.static.gensetMin = n.runMin ∧ pl.static.gensetMax = n.runMax ∧
      pl.static.costCo2 = n.costPerCo2 ∧ pl.static.gensetCo2 = n.co2PerUnit
  sNone : pl.names.genset = none → pl.static.gensetMin = 0 ∧ pl.static.gensetMax = 0

section
variable {mods : List (String × Nat)} {m : Microgrid} {pl : Planner}

theorem convertible_singles {x : Nonmodular} (h : m.toNonmodular = .ok x) : Singles m := by
  unfold Microgrid.toNonmodular at h
  split at h
  · simp at h
  rename_i hv
  unfold Microgrid.checkViability at hv
  split at hv
  · simp at hv
  rename_i hc
  intro nl hnl
  by_contra hh
  apply hc
  rw [List.any_eq_true]
  exact ⟨nl, hnl, by simpa using hh⟩

theorem fieldsOf_at {α : Type} {f : Module → Option α} (hs : Singles m)
    (hp : (Container.toTuples m.cont.fullDict).Perm mods) {nm : String × Nat} (hm : nm ∈ mods) {a : α}
    (ha : f (m.heap nm.2) = some a) : fieldsOf m f nm.1 = .ok a := by
  unfold fieldsOf itemOf
  simp only [itemOf_ok hs hp hm, ha]

theorem fieldsOf_inv {α : Type} {f : Module → Option α} (hp : (Container.toTuples m.cont.fullDict).Perm mods)
    {name : String} {a : α} (h : fieldsOf m f name = .ok a) : ∃ i, (name, i) ∈ mods ∧ f (m.heap i) = some a := by
  unfold fieldsOf itemOf at h
  cases hd : dictGet? m.cont.fullDict name with
  | none => rw [hd] at h; simp at h
  | some l =>
    rw [hd] at h
    match l, hd, h with
    | [], _, h => simp at h
    | _ :: _ :: _, _, h => simp at h
    | [i], hd, h =>
      simp only at h
      refine ⟨i, hp.mem_iff.mp ?_, ?_⟩
      · simp only [Container.toTuples, List.mem_flatMap, List.mem_map]
        exact ⟨_, dictGet?_mem hd, i, by simp, rfl⟩
      · cases hf : f (m.heap i) with
        | none => rw [hf] at h; simp at h
        | some a' => rw [hf] at h; simp only [Except.ok.injEq] at h; rw [h]

theorem parse_inv {names : Names} {s : Static} (h : parseModular m names = .ok s) :
    ∃ b nu u, fieldsOf m batteryPart "battery" = .ok b ∧ names.balancing = some nu ∧ fieldsOf m balancingPart nu = .ok u ∧
      ((names.genset = none ∧ s = ⟨b.efficiency, b.maxCapacity, 0, b.costCycle, u.lossLoadCost, 0, 0, 0, 0⟩) ∨
        ∃ ng n fuel, names.genset = some ng ∧ fieldsOf m gensetPart ng = .ok n ∧ n.cost = .const fuel ∧
          s = ⟨b.efficiency, b.maxCapacity, fuel, b.costCycle, u.lossLoadCost, n.runMin, n.runMax, n.costPerCo2, n.co2PerUnit⟩) := by
  unfold parseModular at h
  cases hb : batteryOf m with
  | error e => rw [hb] at h; simp at h
  | ok b =>
    rw [hb] at h
    have hb' : fieldsOf m batteryPart "battery" = .ok b := by
      unfold batteryOf at hb
      split at hb
      · simp at hb
      · exact hb
    simp only at h
    cases hn : names.balancing with
    | none => rw [hn] at h; simp at h
    | some nu =>
      rw [hn] at h
      simp only at h
      cases hu : fieldsOf m balancingPart nu with
      | error e => rw [hu] at h; simp at h
      | ok u =>
        rw [hu] at h
        simp only at h
        refine ⟨b, nu, u, hb', rfl, hu, ?_⟩
        cases hg : names.genset with
        | none =>
          rw [hg] at h
          exact .inl ⟨rfl, (Except.ok.inj h).symm⟩
        | some ng =>
          rw [hg] at h
          simp only at h
          cases hn : fieldsOf m gensetPart ng with
          | error e => rw [hn] at h; simp at h
          | ok n =>
            rw [hn] at h
            simp only at h
            cases hc : n.cost with
            | fn f => rw [hc] at h; simp at h
            | const fuel =>
              rw [hc] at h
              exact .inr ⟨ng, n, fuel, rfl, hn, hc, (Except.ok.inj h).symm⟩

theorem create_inv (h : createModular m = .ok pl) :
    ∃ x k, m.toNonmodular = .ok x ∧ m.forecastHorizon = .ok k ∧ pl.names = getModules m ∧ pl.horizon = k + 1 ∧
      parseModular m (getModules m) = .ok pl.static := by
  unfold createModular at h
  cases hx : m.toNonmodular with
  | error e => rw [hx] at h; simp at h
  | ok x =>
    rw [hx] at h
    simp only at h
    cases hk : m.forecastHorizon with
    | error e => rw [hk] at h; simp at h
    | ok k =>
      rw [hk] at h
      simp only at h
      cases hs : parseModular m (getModules m) with
      | error e => rw [hs] at h; simp at h
      | ok s =>
        rw [hs] at h
        simp only [Except.ok.injEq] at h
        subst h
        exact ⟨x, k, rfl, rfl, rfl, rfl, rfl⟩

theorem parts_some {α : Type} {f : Module → Option α} (hp : (Container.toTuples m.cont.fullDict).Perm mods) {a : α}
    (h : (m.parts f).head? = some a) : ∃ nm ∈ mods, f (m.heap nm.2) = some a := by
  have := List.mem_of_head? h
  rw [Legacy.mem_parts] at this
  obtain ⟨ni, h1, h2⟩ := this
  exact ⟨ni, hp.mem_iff.mp h1, h2⟩

theorem GridOK.tuples (ok : GridOK mods m) (hd : DistinctNames m.heap mods) :
    (Container.toTuples m.cont.fullDict).Perm mods := by
  rw [ok.cont]
  exact Container.full_perm hd

theorem not_true {b : Bool} {p : Prop} (h : b = true ↔ p) (hb : b = false) : ¬ p := by
  intro hp; rw [h.mpr hp] at hb; simp at hb

theorem create_uniq {x : Nonmodular} (hp : (Container.toTuples m.cont.fullDict).Perm mods) (hx : m.toNonmodular = .ok x) :
    ∀ a ∈ mods, ∀ b ∈ mods, (m.heap a.2).kind.cls = (m.heap b.2).kind.cls → a = b := by
  obtain ⟨load, pv, l, p, fuel, horizon, ⟨c1, c2, c3, c4, c5, c6⟩, -⟩ := Legacy.toNonmodular_ok hx
  intro a ha b hb he
  cases hc : (m.heap a.2).kind.cls with
  | load => exact part_unique hp c1 ha hb ((loadPart_cls _).mpr hc) ((loadPart_cls _).mpr (he ▸ hc))
  | renewable => exact part_unique hp c2 ha hb ((pvPart_cls _).mpr hc) ((pvPart_cls _).mpr (he ▸ hc))
  | battery => exact part_unique hp c3 ha hb ((batteryPart_cls _).mpr hc) ((batteryPart_cls _).mpr (he ▸ hc))
  | grid => exact part_unique hp c4 ha hb ((gridPart_cls _).mpr hc) ((gridPart_cls _).mpr (he ▸ hc))
  | genset => exact part_unique hp c5 ha hb ((gensetPart_cls _).mpr hc) ((gensetPart_cls _).mpr (he ▸ hc))
  | balancing => exact part_unique hp c6 ha hb ((balancingPart_cls _).mpr hc) ((balancingPart_cls _).mpr (he ▸ hc))

/-- What the constructor has found. -/
theorem create_placed (hp : (Container.toTuples m.cont.fullDict).Perm mods) (h : createModular m = .ok pl) :
    Placed mods m.heap pl := by
  obtain ⟨x, k, hx, hk, hn, hh, hs⟩ := create_inv h
  have hu := create_uniq hp hx
  have hsing := convertible_singles hx
  obtain ⟨load, pv, l, p, fuel, horizon, -, hl, hpv, -⟩ := Legacy.toNonmodular_ok hx
  obtain ⟨b, nu, u, hb, hnu, hub, hg⟩ := parse_inv hs
  obtain ⟨i, hi, hbi⟩ := fieldsOf_inv hp hb
  obtain ⟨iu, hiu, hbu⟩ := fieldsOf_inv hp hub
  have ci : (m.heap i).kind.cls = .battery := (batteryPart_cls _).mp (by rw [hbi]; rfl)
  have cu : (m.heap iu).kind.cls = .balancing := (balancingPart_cls _).mp (by rw [hbu]; rfl)
  refine ⟨names_nodup hsing hp, hu, ?_, ?_, ?_, ⟨_, hiu, cu⟩, ?_, ?_, ?_, ?_, ?_, ?_, ?_⟩
  · obtain ⟨nm, hm, hf⟩ := parts_some hp hl
    rw [hn]
    rcases nameOf_spec (f := loadPart) hp with ⟨nm', hm', e, hf'⟩ | ⟨-, e⟩
    · exact ⟨nm', hm', e, (loadPart_cls _).mp hf'⟩
    · have := e nm hm; rw [hf] at this; simp at this
  · obtain ⟨nm, hm, hf⟩ := parts_some hp hpv
    rw [hn]
    rcases nameOf_spec (f := pvPart) hp with ⟨nm', hm', e, hf'⟩ | ⟨-, e⟩
    · exact ⟨nm', hm', e, (pvPart_cls _).mp hf'⟩
    · have := e nm hm; rw [hf] at this; simp at this
  · rw [hn]
    rcases nameOf_spec (f := batteryPart) hp with ⟨nm', hm', e, hf'⟩ | ⟨-, e⟩
    · have c' := (batteryPart_cls _).mp hf'
      have := hu nm' hm' _ hi (c'.trans ci.symm)
      exact ⟨nm', hm', e, by rw [this], c'⟩
    · have := e _ hi; simp only [hbi] at this; simp at this
  · rw [hn]
    rcases nameOf_spec (f := gridPart) hp with ⟨nm', hm', e, hf'⟩ | ⟨e', e⟩
    · exact .inl ⟨nm', hm', e, (gridPart_cls _).mp hf'⟩
    · exact .inr ⟨e', fun nm hm => not_true (gridPart_cls _) (e nm hm)⟩
  · rw [hn]
    rcases nameOf_spec (f := gensetPart) hp with ⟨nm', hm', e, hf'⟩ | ⟨e', e⟩
    · exact .inl ⟨nm', hm', e, (gensetPart_cls _).mp hf'⟩
    · exact .inr ⟨e', fun nm hm => not_true (gensetPart_cls _) (e nm hm)⟩
  · intro nm hm k' hk'
    rw [hh]
    have := (uniqueVal_ok hk).1 k' (by
      rw [Legacy.mem_parts]
      refine ⟨nm, hp.mem_iff.mpr hm, ?_⟩
      unfold Kind.horizon at hk'
      unfold horizon?
      cases hkk : (m.heap nm.2).kind <;> rw [hkk] at hk' <;> simp at hk' <;> simp [hk'])
    rw [this]
  · intro nm hm b' hb'
    have c' : (m.heap nm.2).kind.cls = .battery := by rw [← Kind.core_cls, hb']; rfl
    obtain rfl := hu nm hm _ hi (c'.trans ci.symm)
    have hkind : (m.heap i).kind = .battery b := by
      unfold batteryPart at hbi
      split at hbi <;> simp_all
    rw [hkind] at hb'
    simp only [Kind.core, Kind.battery.injEq] at hb'
    subst hb'
    rcases hg with ⟨-, e⟩ | ⟨_, _, _, -, -, -, e⟩ <;> rw [e] <;> exact ⟨rfl, rfl, rfl⟩
  · intro nm hm u' hu'
    have c' : (m.heap nm.2).kind.cls = .balancing := by rw [← Kind.core_cls, hu']; rfl
    obtain rfl := hu nm hm _ hiu (c'.trans cu.symm)
    have hkind : (m.heap iu).kind = .balancing u := by
      unfold balancingPart at hbu
      split at hbu <;> simp_all
    rw [hkind] at hu'
    simp only [Kind.core, Kind.balancing.injEq] at hu'
    subst hu'
    rcases hg with ⟨-, e⟩ | ⟨_, _, _, -, -, -, e⟩ <;> rw [e]
  · intro nm hm n' hn'
    have c' : (m.heap nm.2).kind.cls = .genset := by rw [← Kind.core_cls, hn']; rfl
    rcases hg with ⟨e0, -⟩ | ⟨ng, n, fl, -, hf, hc, e⟩
    · exfalso
      rcases nameOf_spec (f := gensetPart) hp with ⟨nm', hm', e, hf'⟩ | ⟨e', e⟩
      · have : nameOf m gensetPart = none := e0
        rw [this] at e
        simp at e
      · exact not_true (gensetPart_cls _) (e nm hm) c'
    · obtain ⟨ig, hig, hfg⟩ := fieldsOf_inv hp hf
      have cg : (m.heap ig).kind.cls = .genset := (gensetPart_cls _).mp (by rw [hfg]; rfl)
      obtain rfl := hu nm hm _ hig (c'.trans cg.symm)
      have hkind : (m.heap ig).kind = .genset n := by
        unfold gensetPart at hfg
        split at hfg <;> simp_all
      rw [hkind] at hn'
      simp only [Kind.core, Kind.genset.injEq] at hn'
      subst hn'
      rw [e]
      exact ⟨hc, rfl, rfl, rfl, rfl⟩
  · intro h0
    rw [hn] at h0
    rcases hg with ⟨-, e⟩ | ⟨ng, n, fl, e0, -⟩
    · rw [e]; exact ⟨rfl, rfl⟩
    · rw [h0] at e0; simp at e0

/-- The planner fits every later state of the modules. -/
theorem Placed.later {h h' : Heap} (p : Placed mods h pl) (he : ∀ nm ∈ mods, (h' nm.2).kind.core = (h nm.2).kind.core) :
    Placed mods h' pl := by
  have hc : ∀ nm ∈ mods, (h' nm.2).kind.cls = (h nm.2).kind.cls := fun nm hm => by
    rw [← Kind.core_cls, he nm hm, Kind.core_cls]
  have hz : ∀ nm ∈ mods, (h' nm.2).kind.horizon = (h nm.2).kind.horizon := fun nm hm => by
    rw [← Kind.core_horizon, he nm hm, Kind.core_horizon]
  refine ⟨p.names, fun x hx y hy => by rw [hc x hx, hc y hy]; exact p.uniq x hx y hy, ?_, ?_, ?_, ?_, ?_, ?_, ?_, ?_, ?_, ?_,
    p.sNone⟩
  · obtain ⟨nm, hm, e, e'⟩ := p.load; exact ⟨nm, hm, e, (hc nm hm).trans e'⟩
  · obtain ⟨nm, hm, e, e'⟩ := p.pv; exact ⟨nm, hm, e, (hc nm hm).trans e'⟩
  · obtain ⟨nm, hm, e, e'', e'⟩ := p.battery; exact ⟨nm, hm, e, e'', (hc nm hm).trans e'⟩
  · obtain ⟨nm, hm, e'⟩ := p.balancing; exact ⟨nm, hm, (hc nm hm).trans e'⟩
  · rcases p.grid with ⟨nm, hm, e, e'⟩ | ⟨e, e'⟩
    · exact .inl ⟨nm, hm, e, (hc nm hm).trans e'⟩
    · exact .inr ⟨e, fun nm hm => by rw [hc nm hm]; exact e' nm hm⟩
  · rcases p.genset with ⟨nm, hm, e, e'⟩ | ⟨e, e'⟩
    · exact .inl ⟨nm, hm, e, (hc nm hm).trans e'⟩
    · exact .inr ⟨e, fun nm hm => by rw [hc nm hm]; exact e' nm hm⟩
  · intro nm hm; rw [hz nm hm]; exact p.horizon nm hm
  · intro nm hm; rw [he nm hm]; exact p.sBattery nm hm
  · intro nm hm; rw [he nm hm]; exact p.sBalancing nm hm
  · intro nm hm; rw [he nm hm]; exact p.sGenset nm hm

end

end MPC

end Pymgrid
