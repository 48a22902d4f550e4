import Verif.Lemmas.Order
import Verif.Model.Shaper
import Verif.Props.Microgrid

set_option autoImplicit false

/-! # C84: the order in which the modules are listed -/

namespace Pymgrid

open Module

variable {h : Heap} {mods mods' : List (String × Nat)} {sh : Option Shaper}
  {tr : Option (Nat → Nat → Option Nat → Except Err (Nat × Nat))} {g : Microgrid}

theorem Shuffled.transcript {g g' : Microgrid} (hs : Shuffled g g') {ops : List GOp} {os : List (Option RunOut)}
    {g₁ : Microgrid} (t : Transcript g ops os g₁) :
    ∃ os' g₁', Transcript g' ops os' g₁' ∧ Shuffled g₁ g₁' ∧ List.Forall₂ (Option.Rel SameOut) os os' := by
  induction t generalizing g' with
  | nil g => exact ⟨[], g', .nil _, hs, .nil⟩
  | run hr _ ih =>
    obtain ⟨g₂, o, e, so, s⟩ := hs.run hr
    obtain ⟨os', g₁', t', s', f⟩ := ih s
    exact ⟨some o :: os', g₁', .run e t', s', .cons (.some so) f⟩
  | reset hr _ ih =>
    obtain ⟨g₂, e, s⟩ := hs.reset hr
    obtain ⟨os', g₁', t', s', f⟩ := ih s
    exact ⟨none :: os', g₁', .reset e t', s', .cons .none f⟩

theorem Shuffled.run_isOk {g g' : Microgrid} (hs : Shuffled g g') (c : List (String × Ctrl)) (n : Bool) :
    (g'.run c n).2.isOk = (g.run c n).2.isOk := by
  have one : ∀ {a b : Microgrid}, Shuffled a b → (a.run c n).2.isOk = true → (b.run c n).2.isOk = true := by
    intro a b s hok
    cases e : (a.run c n).2 with
    | error x => rw [e] at hok; simp [Except.isOk, Except.toBool] at hok
    | ok o =>
      obtain ⟨b₁, o', e', -, -⟩ := s.run (g₁ := (a.run c n).1) (Prod.ext rfl e)
      rw [e']; rfl
  rw [Bool.eq_iff_iff]
  exact ⟨one hs.symm, one hs⟩

theorem Shuffled.reset_isOk {g g' : Microgrid} (hs : Shuffled g g') : g'.reset.2.isOk = g.reset.2.isOk := by
  have one : ∀ {a b : Microgrid}, Shuffled a b → a.reset.2.isOk = true → b.reset.2.isOk = true := by
    intro a b s hok
    cases e : a.reset.2 with
    | error x => rw [e] at hok; simp [Except.isOk, Except.toBool] at hok
    | ok o =>
      obtain ⟨b₁, e', -⟩ := s.reset (g₁ := a.reset.1) (Prod.ext rfl e)
      rw [e']; rfl
  rw [Bool.eq_iff_iff]
  exact ⟨one hs.symm, one hs⟩

/-- C84: listing the modules in another order gives a microgrid that cannot be told apart.  The constructor accepts the
    other list too; every sequence of successful runs and resets is successful with it, returns the same rewards and
    done flags, the same observations and infos under every name, and leaves the same module states and the same balance
    log; and the next call raises on one if and only if it raises on the other.  Modules sharing a name, and the flexible
    modules of a category, keep their order. -/
theorem C84_order (hc : Microgrid.create h mods sh tr = .ok g) (r : Reordered h mods mods')
    (hid : (mods.map Prod.snd).Nodup) (hs : Orderless sh) :
    ∃ g', Microgrid.create h mods' sh tr = .ok g' ∧
      ∀ ops os g₁, Transcript g ops os g₁ → ∃ os' g₁', Transcript g' ops os' g₁' ∧
        List.Forall₂ (Option.Rel SameOut) os os' ∧ SameParts g₁ g₁' ∧
        (∀ c n, (g₁'.run c n).2.isOk = (g₁.run c n).2.isOk) ∧ g₁'.reset.2.isOk = g₁.reset.2.isOk := by
  obtain ⟨g', hc', s⟩ := Shuffled.create hc r hid hs
  refine ⟨g', hc', ?_⟩
  intro ops os g₁ t
  obtain ⟨os', g₁', t', s', f⟩ := s.transcript t
  exact ⟨os', g₁', t', f, s'.same, s'.run_isOk, s'.reset_isOk⟩

theorem filter_small {α : Type} {l l' : List α} {p : α → Bool} (hn : l.Nodup) (hp : l.Perm l')
    (h1 : ∀ x ∈ l, ∀ y ∈ l, p x = true → p y = true → x = y) : l'.filter p = l.filter p := by
  have hf := hp.filter p
  have hnd : (l.filter p).Nodup := hn.filter p
  have h2 : ∀ x ∈ l.filter p, ∀ y ∈ l.filter p, x = y := by
    intro x hx y hy
    rw [List.mem_filter] at hx hy
    exact h1 x hx.1 y hy.1 hx.2 hy.2
  generalize l.filter p = e at hf hnd h2
  cases e with
  | nil => exact hf.symm.eq_nil
  | cons x e =>
    cases e with
    | nil => exact List.perm_singleton.mp hf.symm
    | cons y e =>
      have := h2 x (by simp) y (by simp)
      subst this
      simp at hnd

/-- C84: in particular, when the names are distinct and there is at most one flexible source, one flexible sink and one
    flexible module that is both (photovoltaics and the balancing module, say), any order will do. -/
theorem C84_any_order (hc : Microgrid.create h mods sh tr = .ok g) (hp : mods.Perm mods')
    (hnm : (mods.map Prod.fst).Nodup) (hid : (mods.map Prod.snd).Nodup)
    (hf : ∀ x ∈ mods, ∀ y ∈ mods, (h x.2).ffc = .flex → (h y.2).ffc = .flex → (h x.2).ss = (h y.2).ss → x = y)
    (hs : Orderless sh) :
    ∃ g', Microgrid.create h mods' sh tr = .ok g' ∧
      ∀ ops os g₁, Transcript g ops os g₁ → ∃ os' g₁', Transcript g' ops os' g₁' ∧
        List.Forall₂ (Option.Rel SameOut) os os' ∧ SameParts g₁ g₁' ∧
        (∀ c n, (g₁'.run c n).2.isOk = (g₁.run c n).2.isOk) ∧ g₁'.reset.2.isOk = g₁.reset.2.isOk := by
  have hnd : mods.Nodup := List.Nodup.of_map _ hid
  refine C84_order hc ⟨?_, ?_⟩ hid hs
  · intro n
    refine filter_small hnd hp ?_
    intro x hx y hy ex ey
    simp only [decide_eq_true_eq] at ex ey
    exact List.inj_on_of_nodup_map hnm hx hy (ex.trans ey.symm)
  · intro s
    refine filter_small hnd hp ?_
    intro x hx y hy ex ey
    simp only [decide_eq_true_eq] at ex ey
    exact hf x hx y hy ex.1 ey.1 (ex.2.trans ey.2.symm)

/-- C84: the reward shapers of the library look modules up by name, and so does having none. -/
theorem C84_shapers : Orderless none ∧ Orderless (some Shaper.batteryDischarge) ∧
    Orderless (some Shaper.pvCurtailment) := by
  have key : ∀ {i i' : List (String × List Info)}, SameDict i i' → ∀ n a,
      Shaper.sumModuleVal i' n a = Shaper.sumModuleVal i n a := by
    intro i i' hi n a
    unfold Shaper.sumModuleVal
    rw [hi n]
  refine ⟨by intro f hf; simp at hf, ?_, ?_⟩ <;> intro f hf i i' c c' hi _ <;>
    simp only [Option.some.injEq] at hf <;> subst hf
  · unfold Shaper.batteryDischarge
    simp only [key hi]
  · unfold Shaper.pvCurtailment
    simp only [key hi]

/-- The modules of the demo microgrid, backwards. -/
def backMods : List (String × Nat) := demoMods.reverse

@[inherit_doc backMods] def backGrid : Microgrid := okGrid (Microgrid.create demoHeap backMods none none)

/-- Non-vacuity of `C84_any_order`: the two containers differ, the runs return dictionaries in different orders with equal
    entries. -/
example : demoMods.Perm backMods ∧ (demoMods.map Prod.fst).Nodup ∧
    (∀ x ∈ demoMods, ∀ y ∈ demoMods, (demoHeap x.2).ffc = .flex → (demoHeap y.2).ffc = .flex →
      (demoHeap x.2).ss = (demoHeap y.2).ss → x = y) ∧
    Microgrid.create demoHeap backMods none none = .ok backGrid ∧
    (demoGrid.run demoControl false).2.toOption.map (fun o => o.infos.map Prod.fst) =
      some ["load", "genset", "battery", "grid", "pv", "balancing"] ∧
    (backGrid.run demoControl false).2.toOption.map (fun o => o.infos.map Prod.fst) =
      some ["load", "genset", "grid", "battery", "pv", "balancing"] ∧
    (backGrid.run demoControl false).2.toOption.map (fun o => o.reward) = some (-243/2) :=
  ⟨(List.reverse_perm _).symm, by decide, by decide +kernel, okGrid_eq (by decide +kernel), by decide +kernel,
    by decide +kernel, by decide +kernel⟩

/-- A load of 60 and two photovoltaic modules of 50 and 30. -/
def twinPvHeap : Heap
  | 0 => exLoad
  | 1 => okModule (mkRenewable [50, 50, 0] .oracle 2 0 (-1) false)
  | 2 => exPv
  | _ => mkBalancing false 0 10 5

/-- C84: the order of two flexible sources does matter: the first one listed is curtailed last. -/
theorem C84_flex_order_matters :
    let a := Microgrid.create twinPvHeap [("load", 0), ("east", 1), ("west", 2), ("balancing", 3)] none none
    let b := Microgrid.create twinPvHeap [("load", 0), ("west", 2), ("east", 1), ("balancing", 3)] none none
    a.isOk = true ∧ b.isOk = true ∧
    ((okGrid a).run [] false).2.toOption.map (fun o => ["east", "west"].map fun k =>
      (dictGet? o.infos k).map fun l => l.map fun i => i.provided) = some [some [some 50], some [some 10]] ∧
    ((okGrid b).run [] false).2.toOption.map (fun o => ["east", "west"].map fun k =>
      (dictGet? o.infos k).map fun l => l.map fun i => i.provided) = some [some [some 30], some [some 30]] := by
  decide +kernel

end Pymgrid
