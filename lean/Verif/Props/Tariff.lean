import Verif.Lemmas.Tariff
import Verif.Props.Upgrade

set_option autoImplicit false

/-!
# C105: prices do not move energy, and higher prices never pay

Two microgrids that differ only in the prices of their devices.  The same calls move the same energy in both; if every price
of the second is at least as bad for the user, no call yields more there.
-/

namespace Pymgrid

open Module

/-! ### Other prices in constructor calls -/

/-- C105: two batteries built with different costs per unit charged or discharged. -/
theorem C105_battery {P : Prop} {minC maxC ch dis eff cost cost' : ℚ} {tr : Option (ℚ → TransitionArgs → ℚ)} {c s : Option ℚ}
    {i : Nat} {r : Bool} {m m' : Module} (hm : mkBattery minC maxC ch dis eff cost tr c s i r = .ok m)
    (hm' : mkBattery minC maxC ch dis eff cost' tr c s i r = .ok m') (h : P → cost ≤ cost') : Tariff P m m' :=
  mkBattery_tariff hm hm' h

/-- C105: two gensets built with different fuel and CO2 prices. -/
theorem C105_genset {P : Prop} {lo hi : ℚ} {cost cost' : GensetCost} {co2 c c' : ℚ} {S W : Nat} {ab iu : Bool} {i : Nat}
    {r : Bool} {m m' : Module} (hm : mkGenset lo hi cost co2 c S W ab iu i r = .ok m)
    (hm' : mkGenset lo hi cost' co2 c' S W ab iu i r = .ok m') (h1 : P → ∀ x, 0 ≤ x → cost.eval x ≤ cost'.eval x)
    (h2 : P → 0 ≤ co2 ∧ c ≤ c') : Tariff P m m' :=
  mkGenset_tariff hm hm' h1 h2

/-- C105: two grids built with different series of import and export prices and different CO2 prices.  Forecasters and horizons
    may differ. -/
theorem C105_grid {P : Prop} {mi me c c' : ℚ} {ncols : Nat} {rows rows' : List (List ℚ)} {param param' : FKind}
    {horizon horizon' i : Nat} {fs : Int} {r : Bool} {m m' : Module} (hrect : ∀ r ∈ rows, r.length = ncols)
    (hrect' : ∀ r ∈ rows', r.length = ncols) (hm : mkGrid mi me ncols rows param horizon i fs c r = .ok m)
    (hm' : mkGrid mi me ncols rows' param' horizon' i fs c' r = .ok m') (h1 : List.Forall₂ (RowPrices P) rows rows')
    (h2 : P → c ≤ c') : Tariff P m m' :=
  mkGrid_tariff hrect hrect' hm hm' h1 h2

/-- C105: two balancing modules built with different costs of lost load and overgeneration. -/
theorem C105_balancing {P : Prop} {r : Bool} {i : Nat} {l o l' o' : ℚ} (h1 : P → l ≤ l') (h2 : P → o ≤ o') :
    Tariff P (mkBalancing r i l o) (mkBalancing r i l' o') :=
  ⟨.balancing _ _ h1 h2, rfl, rfl, rfl, rfl, rfl⟩

/-! ### What they change -/

section
variable {P : Prop} {h h' : Heap} {mods : List (String × Nat)} {sh : Option Shaper}
  {tr : Option (Nat → Nat → Option Nat → Except Err (Nat × Nat))} {g g' : Microgrid}

/-- C105: if modules are replaced by ones with prices that are no better, then the microgrid can still be built, and every
    history of successful runs and resets is one of the new microgrid as well: every run has the same done flag and the same
    flows at every module, and yields no more reward. -/
theorem C105_dearer (hl : ∀ nm ∈ mods, LibraryModule (h nm.2)) (hl' : ∀ nm ∈ mods, LibraryModule (h' nm.2))
    (hs : ∀ nm ∈ mods, h' nm.2 = h nm.2 ∨ Tariff P (h nm.2) (h' nm.2)) (free : PriceFree sh)
    (hc : Microgrid.create h mods sh tr = .ok g) :
    ∃ g', Microgrid.create h' mods sh tr = .ok g' ∧ ∀ ops os g₁, Transcript g ops os g₁ →
      ∃ os' g₁', Transcript g' ops os' g₁' ∧ List.Forall₂ (NoBetter P) os os' := by
  obtain ⟨g', h1, t⟩ := create_tariff (fun nm hn => ⟨(hl nm hn).wf, (hl' nm hn).wf, by
    rcases hs nm hn with e | e
    · rw [e]; exact .inl (.refl _)
    · exact .inr e⟩) free hc
  refine ⟨g', h1, fun ops os g₁ ht => ?_⟩
  obtain ⟨os', g₁', k1, k2, -⟩ := TarGrid.transcript ht t
  exact ⟨os', g₁', k1, k2⟩

theorem Tariff.swap {m m' : Module} (u : Tariff P m m') : Tariff False m' m := u.symm

/-- C105: whatever the prices, exactly the same calls succeed in both microgrids, and they move the same energy at every module
    and end the episode at the same time. -/
theorem C105_flows (hl : ∀ nm ∈ mods, LibraryModule (h nm.2)) (hl' : ∀ nm ∈ mods, LibraryModule (h' nm.2))
    (hs : ∀ nm ∈ mods, h' nm.2 = h nm.2 ∨ Tariff False (h nm.2) (h' nm.2)) (free : PriceFree sh)
    (hc : Microgrid.create h mods sh tr = .ok g) (hc' : Microgrid.create h' mods sh tr = .ok g') (ops : List GOp) :
    ((∃ os g₁, Transcript g ops os g₁) ↔ ∃ os g₁, Transcript g' ops os g₁) ∧
      ∀ os g₁ os' g₁', Transcript g ops os g₁ → Transcript g' ops os' g₁' → List.Forall₂ (NoBetter False) os os' := by
  obtain ⟨x, h1, k⟩ := C105_dearer hl hl' hs free hc
  rw [hc'] at h1
  injection h1 with h1
  subst h1
  obtain ⟨x, h1, k'⟩ := C105_dearer (P := False) hl' hl (fun nm hn => (hs nm hn).imp Eq.symm Tariff.swap) free hc'
  rw [hc] at h1
  injection h1 with h1
  subst h1
  refine ⟨⟨fun ⟨os, g₁, ht⟩ => ?_, fun ⟨os, g₁, ht⟩ => ?_⟩, fun os g₁ os' g₁' ht ht' => ?_⟩
  · obtain ⟨os', g₁', a, -⟩ := k ops os g₁ ht
    exact ⟨os', g₁', a⟩
  · obtain ⟨os', g₁', a, -⟩ := k' ops os g₁ ht
    exact ⟨os', g₁', a⟩
  · obtain ⟨os₂, g₂, a, b⟩ := k ops os g₁ ht
    obtain ⟨rfl, -⟩ := transcript_det a ht'
    exact b

theorem total_worse {os os' : List (Option RunOut)} (h : List.Forall₂ (NoBetter True) os os') : total os' ≤ total os := by
  unfold total
  induction h with
  | nil => exact le_rfl
  | @cons a b l l' hab _ ih =>
    simp only [List.map_cons, List.sum_cons]
    refine add_le_add ?_ ih
    cases a <;> cases b <;> simp only [NoBetter] at hab
    · exact le_rfl
    · exact hab.1 trivial

/-- C105: so no bound on what histories of a given length earn at the old prices is exceeded at the new ones: the best that can
    be earned does not go up. -/
theorem C105_value (hl : ∀ nm ∈ mods, LibraryModule (h nm.2)) (hl' : ∀ nm ∈ mods, LibraryModule (h' nm.2))
    (hs : ∀ nm ∈ mods, h' nm.2 = h nm.2 ∨ Tariff True (h nm.2) (h' nm.2)) (free : PriceFree sh)
    (hc : Microgrid.create h mods sh tr = .ok g) (hc' : Microgrid.create h' mods sh tr = .ok g') (n : Nat) (B : ℚ)
    (hB : ∀ ops os g₁, Transcript g ops os g₁ → os.length = n → total os ≤ B) (ops : List GOp)
    (os : List (Option RunOut)) (g₁ : Microgrid) (ht : Transcript g' ops os g₁) (hn : os.length = n) : total os ≤ B := by
  obtain ⟨x, h1, k⟩ := C105_dearer hl hl' hs free hc
  rw [hc'] at h1
  injection h1 with h1
  subst h1
  obtain ⟨x, h1, k'⟩ := C105_dearer (P := False) hl' hl (fun nm hn => (hs nm hn).imp Eq.symm Tariff.swap) free hc'
  rw [hc] at h1
  injection h1 with h1
  subst h1
  obtain ⟨os₀, g₀, a, b⟩ := k' ops os g₁ ht
  obtain ⟨os₂, g₂, a₂, b₂⟩ := k ops os₀ g₀ a
  obtain ⟨rfl, -⟩ := transcript_det a₂ ht
  exact (total_worse b₂).trans (hB ops os₀ g₀ a (b.length_eq.symm.trans hn))

end

/-- C105: no reward shaping, and the shapers of the library, are covered. -/
theorem C105_shapers : PriceFree none ∧ PriceFree (some Shaper.pvCurtailment) ∧ PriceFree (some Shaper.batteryDischarge) := by
  refine ⟨by simp [PriceFree], ?_, ?_⟩ <;>
  · intro f hf l ci ci'
    injection hf with hf
    subst hf
    rfl

/-! ### Examples -/

/-- The devices of the demo microgrid with higher costs, dearer imports and cheaper exports.  The genset has a cost function. -/
def costlyHeap : Heap
  | 2 => okModule (mkBattery 10 100 20 30 (1/2) 4 none (some 60) none 0 false)
  | 3 => okModule (mkGenset 10 50 (.fn fun x => x * x + x) 2 (1/5) 2 1 true true 0 false)
  | 4 => okModule (mkGrid 100 50 4 [[1/4, 1/20, 1/2, 1], [3/10, 0, 1/2, 0], [1, 1/10, 1/2, 1]] .none 3 0 (-1) (1/5) false)
  | 5 => mkBalancing false 0 11 5
  | i => demoHeap i

theorem costly_battery : mkBattery 10 100 20 30 (1/2) 4 none (some 60) none 0 false = .ok (costlyHeap 2) :=
  okModule_eq (by decide +kernel)
theorem costly_genset : mkGenset 10 50 (.fn fun x => x * x + x) 2 (1/5) 2 1 true true 0 false = .ok (costlyHeap 3) :=
  okModule_eq (by decide +kernel)
theorem costly_grid : mkGrid 100 50 4 [[1/4, 1/20, 1/2, 1], [3/10, 0, 1/2, 0], [1, 1/10, 1/2, 1]] .none 3 0 (-1) (1/5)
    false = .ok (costlyHeap 4) := okModule_eq (by decide +kernel)

theorem costly_library : ∀ nm ∈ demoMods, LibraryModule (costlyHeap nm.2) := by
  intro nm hm
  have hd := demo_library nm hm
  simp only [demoMods, List.mem_cons, List.not_mem_nil, or_false] at hm
  rcases hm with rfl | rfl | rfl | rfl | rfl | rfl
  · exact hd
  · exact hd
  · exact .battery costly_battery (by constructor <;> decide +kernel)
  · exact .genset costly_genset (by norm_num)
  · exact .series (.grid (by decide +kernel) costly_grid) trivial
  · exact .balancing (by norm_num) (by norm_num)

theorem costly_tariff : ∀ nm ∈ demoMods, costlyHeap nm.2 = demoHeap nm.2 ∨ Tariff True (demoHeap nm.2) (costlyHeap nm.2) := by
  intro nm hm
  simp only [demoMods, List.mem_cons, List.not_mem_nil, or_false] at hm
  rcases hm with rfl | rfl | rfl | rfl | rfl | rfl
  · exact .inl rfl
  · exact .inl rfl
  · exact .inr (C105_battery sampleBattery_ok costly_battery (by norm_num))
  · refine .inr (C105_genset sampleGenset_ok costly_genset (fun _ x hx => ?_) (by norm_num))
    simp only [GensetCost.eval]
    nlinarith
  · refine .inr (C105_grid (by decide +kernel) (by decide +kernel) demo_grid costly_grid (.cons ?_ (.cons ?_ (.cons ?_ .nil)))
      (by norm_num)) <;>
    · constructor <;> first
        | rfl
        | (intro _ x x' h1 h2
           simp only [List.getElem?_cons_zero, List.getElem?_cons_succ, Option.some.injEq] at h1 h2
           subst h1 h2
           norm_num)
  · exact .inr (C105_balancing (by norm_num) (by norm_num))

/-- Non-vacuity of `C105_dearer` and `C105_value`: the two microgrids meet the hypotheses. -/
example : ∃ g', Microgrid.create costlyHeap demoMods none none = .ok g' ∧ ∀ ops os g₁, Transcript demoGrid ops os g₁ →
    ∃ os' g₁', Transcript g' ops os' g₁' ∧ List.Forall₂ (NoBetter True) os os' :=
  C105_dearer demo_library costly_library costly_tariff C105_shapers.1 demoGrid_ok

/-- And the price rise is felt. -/
example : ∃ g', Microgrid.create costlyHeap demoMods none none = .ok g' ∧
    (demoGrid.run eagerControl true).2.isOk ∧ (demoGrid.run demoControl false).2.isOk ∧
    earned (g'.results [.run demoControl false, .reset, .run eagerControl true]) <
      earned (demoGrid.results [.run demoControl false, .reset, .run eagerControl true]) :=
  ⟨_, okGrid_eq (by decide +kernel), by decide +kernel, by decide +kernel, by decide +kernel⟩

/-! ### The limits -/

/-- A load, a battery, a grid with the import price `p` in the first step and 5 in the second, and the balance. -/
def waryHeap (p : ℚ) : Heap
  | 0 => okModule (mkLoad [0, 10] .none 1 0 (-1) false)
  | 1 => okModule (mkBattery 0 10 10 10 1 (1/5) none (some 10) none 0 false)
  | 2 => okModule (mkGrid 100 50 4 [[p, 0, 0, 1], [5, 0, 0, 1]] .none 1 0 (-1) 0 false)
  | _ => mkBalancing false 0 10 5

/-- The microgrid. -/
def wary (p : ℚ) : Microgrid := okGrid (Microgrid.create (waryHeap p) drainMods none none)

/-- C105, the limit: the claim is about fixed controls and about the best ones.  Rule-based control ranks the devices by their
    prices in the first step, and may earn more when one goes up: here it then uses the battery, not the grid. -/
theorem C105_rule_based : (Microgrid.create (waryHeap (1/10)) drainMods none none).isOk ∧
    (Microgrid.create (waryHeap (1/4)) drainMods none none).isOk ∧ Tariff True (waryHeap (1/10) 2) (waryHeap (1/4) 2) ∧
    ((afterReset (wary (1/10))).step.2.toOption.map RunOut.reward,
      (afterReset (wary (1/10))).step.1.step.2.toOption.map RunOut.reward) = (some 0, some (-50)) ∧
    ((afterReset (wary (1/4))).step.2.toOption.map RunOut.reward,
      (afterReset (wary (1/4))).step.1.step.2.toOption.map RunOut.reward) = (some 0, some (-2)) := by
  refine ⟨by decide +kernel, by decide +kernel, ?_, by decide +kernel, by decide +kernel⟩
  have h1 : mkGrid 100 50 4 [[1/10, 0, 0, 1], [5, 0, 0, 1]] .none 1 0 (-1) 0 false = .ok (waryHeap (1/10) 2) :=
    okModule_eq (by decide +kernel)
  have h2 : mkGrid 100 50 4 [[1/4, 0, 0, 1], [5, 0, 0, 1]] .none 1 0 (-1) 0 false = .ok (waryHeap (1/4) 2) :=
    okModule_eq (by decide +kernel)
  refine C105_grid (by decide +kernel) (by decide +kernel) h1 h2 (.cons ?_ (.cons ?_ .nil)) (by norm_num) <;>
  · constructor <;> first
      | rfl
      | (intro _ x x' h1 h2
         simp only [List.getElem?_cons_zero, List.getElem?_cons_succ, Option.some.injEq] at h1 h2
         subst h1 h2
         norm_num)

end Pymgrid
