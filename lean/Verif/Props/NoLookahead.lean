import Verif.Lemmas.NoLookahead
import Verif.Props.Window

set_option autoImplicit false

/-!
# C104: rule-based control does not look ahead

Two microgrids whose series agree from their initial steps on for `N` steps (`SameWindow`, see C88 for constructor calls that
give such modules).  Forecasters, forecast horizons and all rows outside the window may differ.
-/

namespace Pymgrid

open Module

section
variable {N : Nat} {h h' : Heap} {mods : List (String × Nat)} {sh : Option Shaper} {g g' : Microgrid}

/-- C104: after any calls that stay in the window, the two microgrids have the same priority lists, and a rule-based controller
    is created for both or for neither, with the same list. -/
theorem C104_lists (hl : ∀ nm ∈ mods, LibraryModule (h nm.2)) (hl' : ∀ nm ∈ mods, LibraryModule (h' nm.2))
    (hw : ∀ nm ∈ mods, SameWindow N (h nm.2) (h' nm.2)) (hid : (mods.map Prod.snd).Nodup) (hn : DistinctNames h mods)
    (hc : Microgrid.create h mods sh none = .ok g) (hc' : Microgrid.create h' mods sh none = .ok g')
    (ops : List GOp) {k : Nat} (hk : stepsLeft N N ops = some k) (pos : 0 < k) (user : Option (List Element)) (rg : Bool) :
    PriorityList.getPriorityLists (runG g' ops) rg = PriorityList.getPriorityLists (runG g ops) rg ∧
      (RBC.create (runG g' ops) user rg).map RBC.list = (RBC.create (runG g ops) user rg).map RBC.list := by
  obtain ⟨k, rfl⟩ : ∃ k', k = k' + 1 := ⟨k - 1, by omega⟩
  have t := (RuleWin.created hl hl' hw hid hn hc hc').after ops hk
  exact ⟨t.lists rg, (t.create user rg).1⟩

/-- C104: what the controllers do in the rest of the window - right away or after a reset - is the same in every step: rewards,
    done flags, the energy that every module provides or absorbs, and errors.  Their `run` succeeds for both or for neither. -/
theorem C104_rule_based (hl : ∀ nm ∈ mods, LibraryModule (h nm.2)) (hl' : ∀ nm ∈ mods, LibraryModule (h' nm.2))
    (hw : ∀ nm ∈ mods, SameWindow N (h nm.2) (h' nm.2)) (hid : (mods.map Prod.snd).Nodup) (hn : DistinctNames h mods)
    (hc : Microgrid.create h mods sh none = .ok g) (hc' : Microgrid.create h' mods sh none = .ok g')
    (ops : List GOp) {k : Nat} (hk : stepsLeft N N ops = some k) (pos : 0 < k) (user : Option (List Element)) (rg : Bool)
    {r r' : RBC} (hr : RBC.create (runG g ops) user rg = .ok r) (hr' : RBC.create (runG g' ops) user rg = .ok r') :
    (∀ n ≤ k, RBC.acts n r' = RBC.acts n r) ∧
      ∀ n ≤ N, RBC.acts n { r' with g := r'.g.reset.1 } = RBC.acts n { r with g := r.g.reset.1 } ∧
        (r'.run n).2 = (r.run n).2 := by
  obtain ⟨k, rfl⟩ : ∃ k', k = k' + 1 := ⟨k - 1, by omega⟩
  have t := (RuleWin.created hl hl' hw hid hn hc hc').after ops hk
  obtain ⟨e, eg, eg'⟩ := t.create user rg
  rw [hr, hr'] at e
  simp only [Except.map, Except.ok.injEq] at e
  have eg := eg r hr
  have eg' := eg' r' hr'
  rw [← eg, ← eg'] at t
  obtain ⟨t₀, e₀⟩ := t.reset
  refine ⟨fun n hn => t.acts e hn, fun n hn => ⟨?_, ?_⟩⟩
  · exact RuleWin.acts (r := { r with g := r.g.reset.1 }) (r' := { r' with g := r'.g.reset.1 }) t₀ e hn
  · have hloop := RuleWin.loop (r := { r with g := r.g.reset.1 }) (r' := { r' with g := r'.g.reset.1 }) t₀ e hn
    unfold RBC.run
    cases e1 : r.g.reset with
    | mk a x =>
    cases e2 : r'.g.reset with
    | mk a' x' =>
    rw [e1, e2] at hloop e₀
    simp only at hloop e₀
    subst e₀
    cases x' with
    | error er => rfl
    | ok u => exact hloop

/-- C104: environments with discrete actions, created after such calls: the same actions exist, and whatever steps, removals of
    actions and resets follow, with at most as many steps between resets as the window has, they do the same. -/
theorem C104_environment (hl : ∀ nm ∈ mods, LibraryModule (h nm.2)) (hl' : ∀ nm ∈ mods, LibraryModule (h' nm.2))
    (hw : ∀ nm ∈ mods, SameWindow N (h nm.2) (h' nm.2)) (hid : (mods.map Prod.snd).Nodup) (hn : DistinctNames h mods)
    (hc : Microgrid.create h mods sh none = .ok g) (hc' : Microgrid.create h' mods sh none = .ok g')
    (ops : List GOp) {k : Nat} (hk : stepsLeft N N ops = some k) (pos : 0 < k) (rg es : Bool) {e : DiscreteEnv}
    (he : DiscreteEnv.create (runG g ops) rg es = .ok e) :
    ∃ e', DiscreteEnv.create (runG g' ops) rg es = .ok e' ∧ e'.lists = e.lists ∧ e'.n = e.n ∧
      ∀ acts, EOp.fits N k acts → e'.doings acts = e.doings acts := by
  obtain ⟨k, rfl⟩ : ∃ k', k = k' + 1 := ⟨k - 1, by omega⟩
  obtain ⟨e', h1, t⟩ := ((RuleWin.created hl hl' hw hid hn hc hc').after ops hk).env rg es he
  exact ⟨e', h1, t.lists, t.count, fun acts hf => t.doings acts hf⟩

end

/-! ### An example -/

/-- Non-vacuity: the demo microgrid, with oracle forecasts, and the one of C88 with other rows around its series, without
    forecasts, meet the hypotheses (`moved_window` and the example of `C88_window`), also after calls.  Controllers exist, and
    what they do in the three steps of an episode is not trivial. -/
example : (∀ nm ∈ demoMods, SameWindow 3 (demoHeap nm.2) (movedHeap nm.2)) ∧
    stepsLeft 3 3 [.run demoControl false, .reset, .run demoControl false] = some 2 ∧
    (RBC.create demoGrid none false).toOption.map (fun r => r.list.length) = some 3 ∧
    (RBC.create movedGrid none false).toOption.map (fun r => r.list.length) = some 3 ∧
    ((RBC.create movedGrid none false).toOption.map fun r =>
      (RBC.acts 3 r).map fun x => x.toOption.map fun o => (o.1, o.2.1)) =
    (RBC.create demoGrid none false).toOption.map (fun r =>
      (RBC.acts 3 r).map fun x => x.toOption.map fun o => (o.1, o.2.1)) ∧
    ((RBC.create demoGrid none false).toOption.map fun r =>
      (RBC.acts 3 r).map fun x => x.toOption.map fun o => (decide (o.1 < 0), o.2.1)) =
      some [some (true, false), some (true, false), some (true, true)] := by
  exact ⟨moved_window, rfl, by decide +kernel, by decide +kernel, by decide +kernel, by decide +kernel⟩

/-- Non-vacuity of `C104_environment`: steps with different actions, one of which does not exist, after the removal of an
    action. -/
example : EOp.fits 3 3 [.step 1, .remove 0, .step 0, .reset, .step 2, .step 1, .step 100] ∧
    ((DiscreteEnv.create movedGrid false false).toOption.map fun e =>
      (e.doings [.step 1, .remove 0, .step 0, .reset, .step 2, .step 1, .step 100]).map fun x =>
        (x.toOption.map (Option.map fun o => decide (o.1 < 0)))) =
      some [some (some true), some none, some (some true), some none, some (some true), some (some true), none] := by
  exact ⟨by simp [EOp.fits], by decide +kernel⟩

end Pymgrid
