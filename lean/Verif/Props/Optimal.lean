import Verif.Lemmas.OptimalRun
import Verif.Props.PriorityList
import Verif.Props.Dual

set_option autoImplicit false

/-!
# C98: where there is nothing to plan ahead, rule-based control is as good as any policy

Microgrids without batteries whose gensets start at once, have no minimum production and burn fuel in proportion.
-/

namespace Pymgrid

open Module PriorityList

section
variable {h : Heap} {mods : List (String × Nat)} {tr : Option (Nat → Nat → Option Nat → Except Err (Nat × Nat))} {g₀ : Microgrid}

/-- C98: where there is nothing to plan ahead, and the list is ordered by price, then no controls whatsoever earn more than the
    runs planned from the list, up to the tolerance of the plans (0.0001 units of energy per step, at the price of loss of
    load). -/
theorem C98_planned (hc : Microgrid.create h mods none tr = .ok g₀) (hl : ∀ nm ∈ mods, LibraryModule (h nm.2))
    (hb : ∃ nm ∈ mods, ∃ u, (h nm.2).kind = .balancing u)
    (hid : (mods.map Prod.snd).Nodup) (hn : (mods.map Prod.fst).Nodup) (L : ℚ) (N : NothingToPlan h mods L)
    (ops ops' : List GOp) (pl : List Element) (hp : IsPriorityList (runG g₀ ops).heap mods pl) (c : Nat)
    (hlock : LockStep mods (runG g₀ ops') c) (os : List RunOut) (O : OrderedByPrice h mods pl L c os.length)
    (g' : Microgrid) (P : PlannedRuns mods pl (runG g₀ ops') os g')
    (cs : List (List (String × Ctrl) × Bool)) (hs : ∀ cn ∈ cs, Supplies h mods cn.1) (os' : List RunOut) (g'' : Microgrid)
    (hr : Runs (runG g₀ ops') cs os' g'') (hlen : os'.length = os.length) :
    (os'.map RunOut.reward).sum ≤ (os.map RunOut.reward).sum + os.length * (L / 10000) := by
  have hb' : ∃ nm ∈ mods, (h nm.2).kind.isBalancing = true := by
    obtain ⟨nm, hm, u, hu⟩ := hb
    exact ⟨nm, hm, by rw [hu]; rfl⟩
  have wf₀ : ∀ nm ∈ mods, (h nm.2).WF := (Microgrid.create_ok hc).1 ▸ (GridOK.created hc hl).wf
  have fit : Fits h mods pl := by
    have := user_fits hc hl ops [] hp
    rwa [show runG g₀ [] = g₀ from rfl, (Microgrid.create_ok hc).1] at this
  exact (user_follows hc hl ops').optimal wf₀ hid hn hb' N hlock fit O P hr hs hlen

/-- The default list is ordered by price where prices never change. -/
theorem default_ordered (hc : Microgrid.create h mods none tr = .ok g₀) (hl : ∀ nm ∈ mods, LibraryModule (h nm.2))
    {L b : ℚ} (N : NothingToPlan h mods L) (T : FlatTariff h mods L b)
    (ops : List GOp) (live : ∀ nm ∈ mods, ((runG g₀ ops).heap nm.2).Live) (pl : List Element)
    (hp : IsPriorityList (runG g₀ ops).heap mods pl) (hi : NoIdleGenset (runG g₀ ops).heap mods pl)
    (hsort : pl.Pairwise fun a b => a.cost ≤ b.cost) {c n : Nat}
    (hdata : ∀ nm ∈ mods, ∀ p t, (h nm.2).kind = .grid p t → c + n ≤ t.rows.length) :
    OrderedByPrice h mods pl L c n := by
  have wf₀ : ∀ nm ∈ mods, (h nm.2).WF := (Microgrid.create_ok hc).1 ▸ (GridOK.created hc hl).wf
  have f := user_follows hc hl ops
  have hff : ∀ j, ((runG g₀ ops).heap j).ffc = (h j).ffc := fun j => (f.alike j).ffc
  have hD : ∀ {key i}, Denotes (runG g₀ ops).heap mods key i ↔ Denotes h mods key i := Denotes.congr hff
  have kinds : ∀ nm ∈ mods, (h nm.2).ffc = .controllable →
      (∃ p t, (h nm.2).kind = .grid p t) ∨ ∃ s, (h nm.2).kind = .genset s := by
    intro nm hm hf
    cases wf₀ nm hm with
    | battery b h' => exact absurd h'.kind (N.battery nm hm b)
    | genset g h' => exact .inr ⟨g, h'.kind⟩
    | grid p t h' w => exact .inl ⟨p, t, h'.kind⟩
    | load t h' w => rw [h'.ffc] at hf; simp at hf
    | renewable t h' w => rw [h'.ffc] at hf; simp at hf
    | balancing u h' => rw [h'.ffc] at hf; simp at hf
  have price : ∀ e ∈ pl, ∀ i, Denotes h mods e.module i → ∀ j, c ≤ j → j < c + n → (h i).kind.unitPrice j = e.cost := by
    intro e he i hd j h1 h2
    obtain ⟨i', d1, -, -, d4⟩ := hp.element e he
    obtain rfl : i' = i := Option.some.inj ((hD.mp d1).symm.trans hd)
    have hcore := f.core _ hd.mem.1
    rcases kinds _ hd.mem.1 hd.mem.2 with ⟨p, t, hk⟩ | ⟨s, hk⟩
    · obtain ⟨imp, -, -, ht⟩ := T.grid _ hd.mem.1 p t hk
      have hjl := ht j (lt_of_lt_of_le h2 (hdata _ hd.mem.1 p t hk))
      simp only at hk hcore
      rw [hk] at hcore
      obtain ⟨t', hk', hrows⟩ := core_grid_inv hcore
      have wg := (f.ok.wf _ hd.mem.1).toGrid hk'
      obtain ⟨r, hr⟩ := (live _ hd.mem.1).row (t := t') (by simp [Module.series?, hk'])
      obtain ⟨a, b', c', d', rfl, -⟩ := wg.row hr
      have hlt : ((runG g₀ ops).heap i').currentStep < t.rows.length := by
        rw [← hrows]
        exact (List.getElem?_eq_some_iff.mp hr).1
      have ha := (ht _ hlt).1
      rw [cell_eq (hrows ▸ hr)] at ha
      simp only [Module.marginalCost, hk', wg.ts.state, TS.obsAt, hr] at d4
      simp at d4 ha
      rw [hk]
      simp only [Kind.unitPrice]
      rw [hjl.1, hjl.2.2, add_zero, ← ha, d4]
    · simp only at hk hcore
      rw [hk] at hcore ⊢
      obtain ⟨s', hk', -⟩ := core_genset_inv hcore
      rw [hk'] at hcore
      simp only [Kind.core, Kind.genset.injEq, Genset.mk.injEq] at hcore
      simp only [Module.marginalCost, hk', Except.ok.injEq] at d4
      rw [← d4]
      simp only [Kind.unitPrice, Genset.getCost, Genset.getCo2Cost, Genset.getCo2, Genset.fuelCost, fuelPrice, hcore, mul_one]
      cases s.cost <;> rfl
  have limits : ∀ key i, Denotes h mods key i → ∀ j, c ≤ j → j < c + n →
      (h i).kind.resale j ≤ b ∧ b ≤ (h i).kind.unitPrice j ∧ (h i).kind.unitPrice j ≤ L := by
    intro key i hd j h1 h2
    rcases kinds _ hd.mem.1 hd.mem.2 with ⟨p, t, hk⟩ | ⟨s, hk⟩
    · obtain ⟨imp, t1, t2, ht⟩ := T.grid _ hd.mem.1 p t hk
      obtain ⟨k1, k2, k3⟩ := ht j (lt_of_lt_of_le h2 (hdata _ hd.mem.1 p t hk))
      simp only at hk
      rw [hk]
      simp only [Kind.resale, Kind.unitPrice]
      rw [k1, k3, add_zero]
      exact ⟨k2, t1, t2⟩
    · have := T.genset _ hd.mem.1 s hk
      simp only at hk
      rw [hk]
      exact ⟨T.bounds.1, this.1, this.2⟩
  constructor
  · intro e he i s hd hk
    have hcore := f.core _ hd.mem.1
    simp only at hcore
    rw [hk] at hcore
    obtain ⟨s', hk', e1, -⟩ := core_genset_inv hcore
    exact hi e he i s' (hD.mpr hd) hk' (by rw [e1]; exact (N.genset _ hd.mem.1 s hk).1)
  · intro j h1 h2
    refine (List.Pairwise.and_mem.mp hsort).imp ?_
    rintro e e' ⟨he, he', hle⟩ i i' hd hd'
    rw [price e he i hd j h1 h2, price e' he' i' hd' j h1 h2]
    exact hle
  · intro j h1 h2
    refine hsort.imp ?_
    rintro e e' - i i' hd hd' hg hg'
    have := T.one _ hd.mem.1 _ hd'.mem.1 hg hg'
    rw [(Prod.mk.inj this).2]
  · intro j h1 h2 key i hd
    exact (limits key i hd j h1 h2).2.2
  · intro j h1 h2
    exact ⟨b, T.bounds.1, T.bounds.2, fun key i hd => ⟨(limits key i hd j h1 h2).1, (limits key i hd j h1 h2).2.1⟩⟩

/-- C98, partial: where there is nothing to plan ahead and prices never change, rule-based control with its default list
    completes its run after any history, and no controls for the same number of steps after the reset earn more, up to the
    tolerance of the plans.  Missing: prices that change, and a price of the emissions of the grid, which the default list
    ignores (`C98_emissions_ignored`). -/
theorem C98_default_partial (hc : Microgrid.create h mods none none = .ok g₀) (hl : ∀ nm ∈ mods, LibraryModule (h nm.2))
    (hb : ∃ nm ∈ mods, ∃ u, (h nm.2).kind = .balancing u)
    (hid : (mods.map Prod.snd).Nodup) (hn : (mods.map Prod.fst).Nodup) (hr : ∀ nm ∈ mods, (h nm.2).raiseErrors = false)
    (hdata : ∀ nm ∈ mods, ∀ t, (h nm.2).series? = some t →
      (h nm.2).initialStep < t.finalStep ∧ t.finalStep ≤ t.rows.length)
    (L b : ℚ) (N : NothingToPlan h mods L) (T : FlatTariff h mods L b)
    (ops ops' : List GOp) (live : ∀ nm ∈ mods, ((runG g₀ ops).heap nm.2).Live) (n : Nat) :
    ∃ r, RBC.create (runG g₀ ops) none true = .ok r ∧
    ∃ F g₁ g' os, g₀.finalStep = some F ∧ (runG g₀ ops').reset = (g₁, .ok ()) ∧
      RBC.run ⟨runG g₀ ops', r.list⟩ n = (⟨g', r.list⟩, .ok ()) ∧ PlannedRuns mods r.list g₁ os g' ∧
      os.length = min n (F - g₀.initialStep) ∧
      ∀ cs os' g'', (∀ cn ∈ cs, Supplies h mods cn.1) → Runs g₁ cs os' g'' → os'.length = os.length →
        (os'.map RunOut.reward).sum ≤ (os.map RunOut.reward).sum + os.length * (L / 10000) := by
  have hu : ClearNames h mods := unique_clear hn
  have hd : DistinctNames h mods := by
    intro x hx y hy he
    obtain rfl := List.inj_on_of_nodup_map hn hx hy he
    exact ⟨rfl, rfl⟩
  have hs : ∀ f, (none : Option Shaper) = some f → ∀ i c, ∃ r, f i c = .ok r := by simp
  obtain ⟨pl, hcr, hp, hidle, hsort⟩ := C37_default_list hc hl hu ops true
  refine ⟨_, hcr, ?_⟩
  obtain ⟨F, g₁, hF, hrs, hg₁, hIF, hR⟩ := user_running hc hl hb hid hd hr hs hdata ops'
  have R := hR pl (by rw [hg₁]; exact user_fits hc hl ops _ hp)
  obtain ⟨F', g₁', g', os, hF', hrs', hrun, pr, hlen⟩ := C36_rbc_run hc hl hb hid hd hr hs hdata ops ops' pl hp n
  obtain rfl : F' = F := Option.some.inj (hF'.symm.trans hF)
  obtain rfl : g₁' = g₁ := (Prod.mk.inj (hrs'.symm.trans hrs)).1
  refine ⟨F', g₁', g', os, hF, hrs, hrun, pr, hlen, ?_⟩
  intro cs os' g'' hsup hruns hlen'
  have hdata' : ∀ nm ∈ mods, ∀ p t, (h nm.2).kind = .grid p t → g₀.initialStep + os.length ≤ t.rows.length := by
    intro nm hm p t hk
    have hcore := (user_follows hc hl (ops' ++ [.reset])).core nm hm
    rw [← hg₁, hk] at hcore
    obtain ⟨t', hk', hrows⟩ := core_grid_inv hcore
    have := R.size nm hm t'.rows.length (by simp [Kind.size, hk'])
    rw [hrows] at this
    omega
  rw [hg₁] at pr hruns
  exact C98_planned hc hl hb hid hn L N ops (ops' ++ [.reset]) pl hp g₀.initialStep (hg₁ ▸ R.lock) os
    (default_ordered hc hl N T ops live pl hp (hidle rfl) hsort hdata') g' pr cs hsup os' g'' hruns hlen'

end

/-! ### Findings and examples -/

/-- Load, renewable production, a genset without minimum production, a grid with a flat tariff and an outage in the second step,
    whose emissions cost `price` per unit, and a balancing module. -/
def hamletHeap (price : ℚ) : Heap
  | 0 => exLoad
  | 1 => exPv
  | 2 => okModule (mkGenset 0 50 (.const (2/5)) 2 (1/10) 0 0 true false 0 false)
  | 3 => okModule (mkGrid 20 50 4 [[3/10, 1/10, 1/2, 1], [3/10, 1/10, 1/2, 0], [3/10, 1/10, 1/2, 1]] .oracle 2 0 (-1) price false)
  | _ => mkBalancing false 0 10 5

/-- Their names. -/
def hamletMods : List (String × Nat) := [("load", 0), ("pv", 1), ("genset", 2), ("grid", 3), ("balancing", 4)]

/-- The microgrid. -/
def hamlet (price : ℚ) : Microgrid := okGrid (Microgrid.create (hamletHeap price) hamletMods none none)

/-- Its rule-based control. -/
def hamletRBC (price : ℚ) : RBC := ((RBC.create (hamlet price) none true).toOption).getD ⟨hamlet price, []⟩

/-- The reward of the first step of rule-based control, and of a control. -/
def hamletRewards (price : ℚ) (ctl : List (String × Ctrl)) : Option ℚ × Option ℚ :=
  ((RBC.step ⟨(hamlet price).reset.1, (hamletRBC price).list⟩).2.toOption.map RunOut.reward,
    ((hamlet price).reset.1.run ctl false).2.toOption.map RunOut.reward)

/-- Finding, C98: the default list ignores what the emissions of the grid cost.  Energy from the grid costs 3/10 and its
    emissions 5 per unit, energy from the genset 3/5; rule-based control imports all it can, and pays 112, where the genset
    would have covered the load for 18. -/
theorem C98_emissions_ignored : (RBC.create (hamlet 10) none true).toOption.map RBC.list = some (hamletRBC 10).list ∧
    (hamletRBC 10).list.map (fun e => e.module.1) = ["grid", "genset"] ∧
    hamletRewards 10 [("grid", .seq [.num 0]), ("genset", .seq [.arr [1, 30]])] = (some (-112), some (-18)) := by
  decide +kernel

/-- Without a price of emissions the control makes the best of it: 20 units are imported, 10 come from the genset. -/
example : hamletRewards 0 [("grid", .seq [.num 0]), ("genset", .seq [.arr [1, 30]])] = (some (-12), some (-18)) := by
  decide +kernel

theorem hamlet_ok : Microgrid.create (hamletHeap 0) hamletMods none none = .ok (hamlet 0) := okGrid_eq (by decide +kernel)

theorem hamlet_library : ∀ nm ∈ hamletMods, LibraryModule (hamletHeap 0 nm.2) := by
  intro nm hm
  simp only [hamletMods, List.mem_cons, List.not_mem_nil, or_false] at hm
  rcases hm with rfl | rfl | rfl | rfl | rfl
  · exact demo_library ("load", 0) (by simp [demoMods])
  · exact demo_library ("pv", 1) (by simp [demoMods])
  · have : mkGenset 0 50 (.const (2/5)) 2 (1/10) 0 0 true false 0 false = .ok (hamletHeap 0 2) := okModule_eq (by decide +kernel)
    exact .genset this le_rfl
  · have : mkGrid 20 50 4 [[3/10, 1/10, 1/2, 1], [3/10, 1/10, 1/2, 0], [3/10, 1/10, 1/2, 1]] .oracle 2 0 (-1) 0 false =
        .ok (hamletHeap 0 3) := okModule_eq (by decide +kernel)
    exact .series (.grid (by decide +kernel) this) trivial
  · exact .balancing (by norm_num) (by norm_num)

/-- How long a genset takes to start (examples only). -/
def Kind.delay : Kind → Nat
  | .genset s => s.startUpTime
  | _ => 0

theorem hamlet_kinds : hamletMods.map (fun nm => ((hamletHeap 0 nm.2).kind.cls, (hamletHeap 0 nm.2).kind.tariff)) =
      [(.load, []), (.renewable, []), (.genset, [2/5, 1/10, 2, 0]),
        (.grid, [0, 3/10, 1/10, 1/2, 3/10, 1/10, 1/2, 3/10, 1/10, 1/2]), (.balancing, [5, 10])] := by decide +kernel

theorem hamlet_genset {s : Genset} (hk : (hamletHeap 0 2).kind = .genset s) :
    s.cost = .const (2/5) ∧ s.costPerCo2 = 1/10 ∧ s.co2PerUnit = 2 ∧ s.runMin = 0 ∧ s.startUpTime = 0 := by
  have t2 : (hamletHeap 0 2).kind.tariff = [2/5, 1/10, 2, 0] := by decide +kernel
  have d2 : (hamletHeap 0 2).kind.delay = 0 := by decide +kernel
  rw [hk] at t2 d2
  simp only [Kind.tariff] at t2
  cases hc : s.cost with
  | fn f => rw [hc] at t2; simp at t2
  | const q =>
    rw [hc] at t2
    simp only [List.cons_append, List.nil_append, List.cons.injEq, and_true] at t2
    obtain ⟨h0, h1, h2, h3⟩ := t2
    exact ⟨by rw [h0], h1, h2, h3, d2⟩

theorem hamlet_plan : NothingToPlan (hamletHeap 0) hamletMods 10 := by
  have hk := hamlet_kinds
  simp only [hamletMods, List.map_cons, List.map_nil, List.cons.injEq, Prod.mk.injEq] at hk
  obtain ⟨⟨k0, -⟩, ⟨k1, -⟩, ⟨k2, -⟩, ⟨k3, -⟩, ⟨k4, t4⟩, -⟩ := hk
  constructor
  · intro nm hm b hu
    simp only [hamletMods, List.mem_cons, List.not_mem_nil, or_false] at hm
    rcases hm with rfl | rfl | rfl | rfl | rfl
    · rw [hu] at k0; cases k0
    · rw [hu] at k1; cases k1
    · rw [hu] at k2; cases k2
    · rw [hu] at k3; cases k3
    · rw [hu] at k4; cases k4
  · intro nm hm s hu
    simp only [hamletMods, List.mem_cons, List.not_mem_nil, or_false] at hm
    rcases hm with rfl | rfl | rfl | rfl | rfl
    · rw [hu] at k0; cases k0
    · rw [hu] at k1; cases k1
    · obtain ⟨h0, -, -, h3, h4⟩ := hamlet_genset hu
      exact ⟨h3, h4, fun p _ _ => by simp [fuelPrice, h0]⟩
    · rw [hu] at k3; cases k3
    · rw [hu] at k4; cases k4
  · intro nm hm p t hu
    simp only [hamletMods, List.mem_cons, List.not_mem_nil, or_false] at hm
    rcases hm with rfl | rfl | rfl | rfl | rfl
    · rw [hu] at k0; cases k0
    · rw [hu] at k1; cases k1
    · rw [hu] at k2; cases k2
    · decide +kernel
    · rw [hu] at k4; cases k4
  · intro nm hm u hu
    simp only [hamletMods, List.mem_cons, List.not_mem_nil, or_false] at hm
    rcases hm with rfl | rfl | rfl | rfl | rfl
    · rw [hu] at k0; cases k0
    · rw [hu] at k1; cases k1
    · rw [hu] at k2; cases k2
    · rw [hu] at k3; cases k3
    · rw [hu] at t4
      simp only [Kind.tariff, List.cons.injEq, and_true] at t4
      exact ⟨t4.2, by rw [t4.1]; norm_num⟩

theorem hamlet_flat : FlatTariff (hamletHeap 0) hamletMods 10 (1/5) := by
  have hk := hamlet_kinds
  simp only [hamletMods, List.map_cons, List.map_nil, List.cons.injEq, Prod.mk.injEq] at hk
  obtain ⟨⟨k0, -⟩, ⟨k1, -⟩, ⟨k2, -⟩, ⟨k3, t3⟩, ⟨k4, -⟩, -⟩ := hk
  have isg : ∀ nm ∈ hamletMods, (hamletHeap 0 nm.2).kind.isGrid = true → nm = ("grid", 3) := by decide +kernel
  constructor
  · norm_num
  · intro nm hm nm' hm' hg hg'
    rw [isg nm hm hg, isg nm' hm' hg']
  · intro nm hm p t hu
    obtain rfl := isg nm hm (by rw [hu]; rfl)
    have hs : (hamletHeap 0 3).kind.size = some 3 := by decide +kernel
    simp only at hu
    rw [hu] at t3 hs
    simp only [Kind.tariff, List.range_succ, List.range_zero, List.nil_append, List.cons_append, List.flatMap_cons,
      List.flatMap_nil, List.cons.injEq, and_true] at t3
    obtain ⟨h0, h1, h2, h3, h4, h5, h6, h7, h8, h9⟩ := t3
    simp only [Kind.size, Option.some.injEq] at hs
    refine ⟨3/10, by norm_num, by norm_num, ?_⟩
    intro j hj
    rw [hs] at hj
    have : j = 0 ∨ j = 1 ∨ j = 2 := by omega
    rcases this with rfl | rfl | rfl
    · rw [h0, h1, h2, h3]; norm_num
    · rw [h0, h4, h5, h6]; norm_num
    · rw [h0, h7, h8, h9]; norm_num
  · intro nm hm s hu
    simp only [hamletMods, List.mem_cons, List.not_mem_nil, or_false] at hm
    rcases hm with rfl | rfl | rfl | rfl | rfl
    · rw [hu] at k0; cases k0
    · rw [hu] at k1; cases k1
    · obtain ⟨h0, h1, h2, -⟩ := hamlet_genset hu
      simp only [fuelPrice, h0, h1, h2]
      norm_num
    · rw [hu] at k3; cases k3
    · rw [hu] at k4; cases k4

/-- The hypotheses of C98 hold for the hamlet: no three steps of any policy earn more than rule-based control. -/
example : ∃ r, RBC.create (hamlet 0) none true = .ok r ∧ ∃ F g₁ g' os, (hamlet 0).finalStep = some F ∧
    (hamlet 0).reset = (g₁, .ok ()) ∧ RBC.run ⟨hamlet 0, r.list⟩ 3 = (⟨g', r.list⟩, .ok ()) ∧
    PlannedRuns hamletMods r.list g₁ os g' ∧ os.length = min 3 (F - (hamlet 0).initialStep) ∧
    ∀ cs os' g'', (∀ cn ∈ cs, Supplies (hamletHeap 0) hamletMods cn.1) → Runs g₁ cs os' g'' → os'.length = os.length →
      (os'.map RunOut.reward).sum ≤ (os.map RunOut.reward).sum + os.length * (10 / 10000) :=
  C98_default_partial hamlet_ok hamlet_library ⟨("balancing", 4), by simp [hamletMods], _, rfl⟩ (by decide) (by decide)
    (by decide +kernel) (by
      have : ∀ nm ∈ hamletMods, ((hamletHeap 0 nm.2).series?.all fun t =>
          decide ((hamletHeap 0 nm.2).initialStep < t.finalStep) && decide (t.finalStep ≤ t.rows.length)) = true := by decide +kernel
      intro nm hm t ht
      have := this nm hm
      rw [ht] at this
      simpa using this) 10 (1/5) hamlet_plan hamlet_flat [] [] (by
      have : ∀ nm ∈ hamletMods, (((hamlet 0).heap nm.2).series?.all fun t =>
        decide (((hamlet 0).heap nm.2).currentStep < t.rows.length)) = true := by decide +kernel
      intro nm hm t ht
      have := this nm hm
      rw [show ((hamlet 0).heap nm.2).series? = some t from ht] at this
      show ((hamlet 0).heap nm.2).currentStep < t.rows.length
      simpa using this) 3

/-- What it imports and produces in the three steps. -/
example : ((hamletRBC 0).run 3).2.isOk = true ∧
    (((hamletRBC 0).run 3).1.g.heap 3).logger.column (.str "grid_import") = [some 20, some 0, some 20] ∧
    (((hamletRBC 0).run 3).1.g.heap 2).logger.column (.str "genset_production") = [some 10, some 0, some 0] := by decide +kernel

end Pymgrid
