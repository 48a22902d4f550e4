import Verif.Lemmas.Sunnier
import Verif.Model.Shaper
import Verif.Props.Microgrid

set_option autoImplicit false

/-!
# C87: more renewable energy never lowers the reward

Two microgrids that differ only in their renewable modules, of which the second ones have at least as much energy available
in every step.  The user calls the same methods with the same controls.
-/

namespace Pymgrid

open Module

/-- C87: what `Sunnier` means for constructor calls.  Forecasters and horizons may differ. -/
theorem C87_constructors {xs xs' : List ℚ} {param param' : FKind} {hz hz' i : Nat} {fs : Int} {r r' : Bool}
    {m m' : Module} (hm : mkRenewable xs param hz i fs r = .ok m) (hm' : mkRenewable xs' param' hz' i fs r' = .ok m')
    (h : List.Forall₂ (fun x x' => |x| ≤ |x'|) xs xs') : Sunnier m m' :=
  mkRenewable_sunnier hm hm' h

section
variable {h h' : Heap} {mods : List (String × Nat)} {tr : Option (Nat → Nat → Option Nat → Except Err (Nat × Nat))}
  {g : Microgrid}

/-- C87: if renewable modules are replaced by sunnier ones, then the microgrid can still be built, and for every sequence
    of runs and resets, every call that succeeded succeeds, with the same done flag and at least the same reward. -/
theorem C87_more_sun (hl : ∀ nm ∈ mods, LibraryModule (h nm.2)) (hl' : ∀ nm ∈ mods, LibraryModule (h' nm.2))
    (hf : ∀ nm ∈ mods, (h nm.2).FairFlex) (hs : ∀ nm ∈ mods, h' nm.2 = h nm.2 ∨ Sunnier (h nm.2) (h' nm.2))
    (hc : Microgrid.create h mods none tr = .ok g) :
    ∃ g', Microgrid.create h' mods none tr = .ok g' ∧ ∀ ops, List.Forall₂ NoWorse (g.results ops) (g'.results ops) := by
  obtain ⟨g', h1, t⟩ := create_sunnier (fun nm hn => ⟨rfl, (hl nm hn).wf, (hl' nm hn).wf, hf nm hn, by
    rcases hs nm hn with e | e
    · rw [e]; exact .inl (.refl _)
    · exact .inr e⟩) hc
  exact ⟨g', h1, fun ops => (t.results ops).1⟩

/-- C87: so a history of calls that all succeed earns at least as much with more sun. -/
theorem C87_earned (hl : ∀ nm ∈ mods, LibraryModule (h nm.2)) (hl' : ∀ nm ∈ mods, LibraryModule (h' nm.2))
    (hf : ∀ nm ∈ mods, (h nm.2).FairFlex) (hs : ∀ nm ∈ mods, h' nm.2 = h nm.2 ∨ Sunnier (h nm.2) (h' nm.2))
    {g' : Microgrid} (hc : Microgrid.create h mods none tr = .ok g) (hc' : Microgrid.create h' mods none tr = .ok g')
    (ops : List GOp) (hok : ∀ x ∈ g.results ops, x.isOk) :
    (∀ x ∈ g'.results ops, x.isOk) ∧ earned (g.results ops) ≤ earned (g'.results ops) := by
  obtain ⟨x, h1, h2⟩ := C87_more_sun hl hl' hf hs hc
  rw [hc'] at h1
  injection h1 with h1
  subst h1
  have := h2 ops
  generalize g.results ops = l at this hok
  generalize g'.results ops = l' at this
  clear * - this hok
  unfold earned
  induction this with
  | nil => simp
  | @cons a b l l' hab _ ih =>
    obtain ⟨i1, i2⟩ := ih fun x hx => hok x (by simp [hx])
    have ha := hok a (by simp)
    simp only [List.mem_cons, forall_eq_or_imp, List.map_cons, List.sum_cons]
    cases a with
    | error e => simp [Except.isOk, Except.toBool] at ha
    | ok a =>
      cases a with
      | none =>
        rw [hab.1 rfl]
        exact ⟨⟨rfl, i1⟩, by linarith⟩
      | some o =>
        obtain ⟨o', rfl, hr, -⟩ := hab.2 o rfl
        exact ⟨⟨rfl, i1⟩, by simp only; linarith⟩

end

/-- The photovoltaics of the demo microgrid on better days. -/
def brightPv : Module := okModule (mkRenewable [45, 50, 10] .oracle 2 0 (-1) false)

/-- The demo microgrid on better days. -/
def brightHeap : Heap := fun i => if i = 1 then brightPv else demoHeap i

/-- The microgrid. -/
def brightGrid : Microgrid := okGrid (Microgrid.create brightHeap demoMods none none)

theorem pv_ok : mkRenewable [30, 50, 0] .oracle 2 0 (-1) false = .ok exPv := okModule_eq (by decide +kernel)
theorem brightPv_ok : mkRenewable [45, 50, 10] .oracle 2 0 (-1) false = .ok brightPv := okModule_eq (by decide +kernel)

theorem brighter : Sunnier exPv brightPv := C87_constructors pv_ok brightPv_ok (by decide +kernel)

/-- Controls that leave energy missing. -/
def thriftyControl : List (String × Ctrl) :=
  [("battery", .seq [.num 10]), ("genset", .seq [.arr [0, 0]]), ("grid", .seq [.num 0])]

/-- Non-vacuity of `C87_more_sun` and `C87_earned`: the two microgrids meet the hypotheses, and the better days pay. -/
example : (∀ nm ∈ demoMods, LibraryModule (brightHeap nm.2)) ∧ (∀ nm ∈ demoMods, (demoHeap nm.2).FairFlex) ∧
    (∀ nm ∈ demoMods, brightHeap nm.2 = demoHeap nm.2 ∨ Sunnier (demoHeap nm.2) (brightHeap nm.2)) ∧
    Microgrid.create brightHeap demoMods none none = .ok brightGrid ∧
    (∀ x ∈ demoGrid.results [.run thriftyControl false, .reset, .run thriftyControl false], x.isOk) ∧
    earned (demoGrid.results [.run thriftyControl false, .reset, .run thriftyControl false]) <
      earned (brightGrid.results [.run thriftyControl false, .reset, .run thriftyControl false]) := by
  refine ⟨?_, ?_, ?_, okGrid_eq (by decide +kernel), by decide +kernel, by decide +kernel⟩
  · intro nm hm
    have := demo_library nm hm
    unfold brightHeap
    split
    · exact .series (.renewable brightPv_ok) trivial
    · exact this
  · intro nm hm
    simp only [demoMods, List.mem_cons, List.not_mem_nil, or_false] at hm
    rcases hm with rfl | rfl | rfl | rfl | rfl | rfl
    all_goals
      intro hf
      first
      | (exfalso; revert hf; decide +kernel)
      | skip
    · intro p t hk
      obtain ⟨u, -, -, wf, -⟩ := mkRenewable_inv pv_ok
      rw [show demoHeap 1 = exPv from rfl, wf.kind] at hk
      cases hk
    · intro p t hk
      simp [demoHeap, mkBalancing] at hk
  · intro nm hm
    unfold brightHeap
    split
    · rename_i e
      rw [e]
      exact .inr brighter
    · exact .inl rfl

/-! ### The limits -/

/-- The modules of the demo microgrid on days with an oversupply. -/
def glaringHeap : Heap := fun i => if i = 1 then okModule (mkRenewable [90, 90, 90] .oracle 2 0 (-1) false) else demoHeap i

/-- C87, the limit: a reward shaper that punishes curtailment makes more sun a disadvantage. -/
theorem C87_curtailment_shaper : ∃ g g', Microgrid.create brightHeap demoMods (some Shaper.pvCurtailment) none = .ok g ∧
    Microgrid.create glaringHeap demoMods (some Shaper.pvCurtailment) none = .ok g' ∧
    earned (g'.results [.run thriftyControl false]) < earned (g.results [.run thriftyControl false]) :=
  ⟨_, _, okGrid_eq (by decide +kernel), okGrid_eq (by decide +kernel), by decide +kernel⟩

/-- A load, photovoltaics and a flexible grid that pays for emissions. -/
def unfairHeap (sun : ℚ) : Heap
  | 0 => okModule (mkLoad [10, 10] .oracle 1 0 (-1) false)
  | 1 => okModule (mkRenewable [sun, sun] .oracle 1 0 (-1) false)
  | _ => { okModule (mkGrid 100 50 4 [[1/10, 1/10, 1, 1], [1/10, 1/10, 1, 1]] .oracle 1 0 (-1) (-1) false) with ffc := .flex }

/-- C87, the limit: `GridModule` accepts a negative price of emissions, and a flexible grid is then paid for every import. -/
theorem C87_negative_emission_price : ∃ g g',
    Microgrid.create (unfairHeap 2) [("load", 0), ("pv", 1), ("grid", 2)] none none = .ok g ∧
    Microgrid.create (unfairHeap 6) [("load", 0), ("pv", 1), ("grid", 2)] none none = .ok g' ∧
    earned (g'.results [.run [] false]) < earned (g.results [.run [] false]) :=
  ⟨_, _, okGrid_eq (by decide +kernel), okGrid_eq (by decide +kernel), by decide +kernel⟩

end Pymgrid
