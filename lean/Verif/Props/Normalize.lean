import Verif.Lemmas.NormalizedRun
import Verif.Props.Microgrid

set_option autoImplicit false

/-!
# C28: normalisation of whole actions and observations; C59: normalised runs

The microgrid is arbitrary: nothing is assumed about how its modules were built, except for C59.
-/

namespace Pymgrid

open Module

/-- C28, entries: `to_normalized` succeeds on data whose entries fit the spaces of the modules at the same name and
    index, keeps the shape of the data, and normalises every entry with the space of that module. -/
theorem C28_to_normalized (g : Microgrid) (act : Bool) (d : Data) (hd : d.Covered act g.heap g.cont.fullDict) :
    ∃ d', g.toNormalized act d = .ok d' ∧
      d.Entrywise (fun m v w => ∃ s, m.spaceOf act = .ok s ∧ s.normalize v = .ok w) g.heap g.cont.fullDict d' :=
  Microgrid.mapData_covered norm1 (Microgrid.fullDict_nodup _) hd

/-- C28, entries: the same for `from_normalized`. -/
theorem C28_from_normalized (g : Microgrid) (act : Bool) (d : Data) (hd : d.Covered act g.heap g.cont.fullDict) :
    ∃ d', g.fromNormalized act d = .ok d' ∧
      d.Entrywise (fun m v w => ∃ s, m.spaceOf act = .ok s ∧ s.denormalize v = .ok w) g.heap g.cont.fullDict d' :=
  Microgrid.mapData_covered denorm1 (Microgrid.fullDict_nodup _) hd

/-- C28, round trips: `from_normalized(to_normalized(d))` and `to_normalized(from_normalized(d))` both succeed and give
    the numbers of `d` back, name by name and index by index. -/
theorem C28_round_trip (g : Microgrid) (act : Bool) (d : Data) (hd : d.Covered act g.heap g.cont.fullDict) :
    (∃ d₁ d₂, g.toNormalized act d = .ok d₁ ∧ g.fromNormalized act d₁ = .ok d₂ ∧ d.Same d₂) ∧
    (∃ d₁ d₂, g.fromNormalized act d = .ok d₁ ∧ g.toNormalized act d₁ = .ok d₂ ∧ d.Same d₂) := by
  constructor
  · obtain ⟨d₁, h1, e1⟩ := C28_to_normalized g act d hd
    obtain ⟨d₂, h2, e2⟩ := C28_from_normalized g act d₁ (hd.image norm1 e1)
    exact ⟨d₁, d₂, h1, h2, e1.round denorm1_norm1 hd e2⟩
  · obtain ⟨d₁, h1, e1⟩ := C28_from_normalized g act d hd
    obtain ⟨d₂, h2, e2⟩ := C28_to_normalized g act d₁ (hd.image denorm1 e1)
    exact ⟨d₁, d₂, h1, h2, e1.round norm1_denorm1 hd e2⟩

/-- C28, `MicrogridSpace`: both directions succeed on fitting data, keep names and lengths, and give in every entry the
    numbers that the `ModuleSpace` at this name and index gives. -/
theorem C28_space_entries (d : List (String × List Space)) (v : Data) (hv : Spaces.Covered d v) :
    (∃ w, (GridSpace.ofSpaces d).normalize v = .ok w ∧
      Spaces.Entrywise (fun s x y => ∃ z, s.normalize x = .ok z ∧ y.vals = z.vals) d v w) ∧
    (∃ w, (GridSpace.ofSpaces d).denormalize v = .ok w ∧
      Spaces.Entrywise (fun s x y => ∃ z, s.denormalize x = .ok z ∧ y.vals = z.vals) d v w) := by
  have up : ∀ (k : ℚ → ℚ → ℚ → ℚ) (w : Data),
      Spaces.Entrywise (fun s x y => y.vals = mapBounds k s.low s.high x.vals) d v w →
      Spaces.Entrywise (fun s x y => ∃ z, s.apply k x = .ok z ∧ y.vals = z.vals) d v w := by
    intro k w he
    refine ⟨he.1, ?_⟩
    intro n xs ss hx hs
    obtain ⟨ys, h1, h2, h3⟩ := he.2 n xs ss hx hs
    refine ⟨ys, h1, h2, ?_⟩
    intro j x s y hxj hsj hyj
    obtain ⟨ss', hs', -, -, hfit⟩ := hv.2.2 n xs hx
    rw [hs] at hs'
    injection hs' with hs'
    subst hs'
    refine ⟨_, Space.apply_ok k s x (hfit j x s hxj hsj).len, ?_⟩
    rw [Space.item_vals]
    exact h3 j x s y hxj hsj hyj
  constructor
  · obtain ⟨w, h1, h2⟩ := gridSpace_ok hv (.inl ⟨rfl, rfl⟩)
    exact ⟨w, h1, up norm1 w h2⟩
  · obtain ⟨w, h1, h2⟩ := gridSpace_ok hv (.inr ⟨rfl, rfl⟩)
    exact ⟨w, h1, up denorm1 w h2⟩

/-- C28, `MicrogridSpace`: `normalize` and `denormalize` are mutually inverse. -/
theorem C28_space_round_trip (d : List (String × List Space)) (v : Data) (hv : Spaces.Covered d v) :
    (∃ w x, (GridSpace.ofSpaces d).normalize v = .ok w ∧ (GridSpace.ofSpaces d).denormalize w = .ok x ∧ v.Same x) ∧
    (∃ w x, (GridSpace.ofSpaces d).denormalize v = .ok w ∧ (GridSpace.ofSpaces d).normalize w = .ok x ∧ v.Same x) := by
  constructor
  · obtain ⟨w, h1, e1⟩ := gridSpace_ok hv (.inl ⟨rfl, rfl⟩)
    obtain ⟨x, h2, e2⟩ := gridSpace_ok (hv.image e1) (.inr ⟨rfl, rfl⟩)
    exact ⟨w, x, h1, h2, e1.round denorm1_norm1 hv e2⟩
  · obtain ⟨w, h1, e1⟩ := gridSpace_ok hv (.inr ⟨rfl, rfl⟩)
    obtain ⟨x, h2, e2⟩ := gridSpace_ok (hv.image e1) (.inl ⟨rfl, rfl⟩)
    exact ⟨w, x, h1, h2, e1.round norm1_denorm1 hv e2⟩

/-- C28, series: a module with one action (or observation) can be given a whole series at once; every entry is then treated as if it
    were given alone: the lower bound is subtracted and the result divided by the range (1 if it is empty), and the other way
    round. -/
theorem C28_space_series (n : String) (s : Space) {lo hi : ℚ} (h1 : s.low = [lo]) (h2 : s.high = [hi]) (l : List ℚ) :
    (GridSpace.ofSpaces [(n, [s])]).normalize [(n, [.arr l])] =
      .ok [(n, [.arr (l.map fun v => (v - lo) / (if hi - lo = 0 then 1 else hi - lo))])] ∧
    (GridSpace.ofSpaces [(n, [s])]).denormalize [(n, [.arr l])] =
      .ok [(n, [.arr (l.map fun v => lo + (if hi - lo = 0 then 1 else hi - lo) * v)])] := by
  have hb : ∀ (op : ℚ → ℚ → ℚ) (q : ℚ) (l : List ℚ), broadcast op (.arr l) [q] = .ok (.arr (l.map fun v => op v q)) := by
    intro op q l
    match l with
    | [] => rfl
    | [v] => rfl
    | v :: w :: l => simp [broadcast]
  have hs : spread1 lo hi = if hi - lo = 0 then 1 else hi - lo := by
    unfold spread1
    rfl
  have e : GridSpace.ofSpaces [(n, [s])] = ⟨[(n, [[lo]])], [(n, [[spread1 lo hi]])]⟩ := by
    simp [GridSpace.ofSpaces, h1, h2]
  rw [e, ← hs]
  constructor
  · simp [GridSpace.normalize, dictOp, listOp, hb, dictGet?, Function.comp_def]
  · simp [GridSpace.denormalize, dictOp, listOp, hb, dictGet?, Function.comp_def, add_comm, mul_comm]

/-- Non-vacuity of `C28_space_series`: three actions of a battery at once. -/
example : (GridSpace.ofSpaces [("battery", [⟨[-50], [30]⟩])]).normalize [("battery", [.arr [-50, -10, 30]])] =
    .ok [("battery", [.arr [0, 1/2, 1]])] := by
  decide +kernel

/-- C28, agreement: the action space of a microgrid normalises the actions of its controllable modules to the same
    numbers as `to_normalized(act=True)`.  `hv` says that the data has as many names as the action space and that
    the modules under these names are controllable. -/
theorem C28_action_space_agrees (g : Microgrid) (d : Data) (hn : (d.map Prod.fst).Nodup)
    (hd : d.Covered true g.heap g.cont.fullDict)
    (hv : d.length = ((g.cont.fullDict.map fun nl => (nl.1, actSpaces g.heap nl.2)).filter (fun ns => !ns.2.isEmpty)).length)
    (hne : ∀ n vs, dictGet? d n = some vs → vs ≠ [])
    (hctrl : ∀ n is, dictGet? g.cont.fullDict n = some is → (dictGet? d n).isSome →
      ∀ i ∈ is, (g.heap i).ffc = .controllable ∧ (g.heap i).actSpace.isSome) :
    ∃ w d', g.actionSpace.normalize d = .ok w ∧ g.toNormalized true d = .ok d' ∧ d'.Same w := by
  have spaces : ∀ is : List Nat, (∀ i ∈ is, (g.heap i).ffc = .controllable ∧ (g.heap i).actSpace.isSome) →
      (actSpaces g.heap is).length = is.length ∧
      ∀ (j i : Nat), is[j]? = some i → (actSpaces g.heap is)[j]? = (g.heap i).actSpace := by
    intro is
    induction is with
    | nil => intro _; exact ⟨rfl, by simp⟩
    | cons i is ih =>
      intro hall
      obtain ⟨h1, h2⟩ := hall i (by simp)
      obtain ⟨l, ih⟩ := ih (fun j hj => hall j (List.mem_cons_of_mem _ hj))
      obtain ⟨s, hs⟩ := Option.isSome_iff_exists.mp h2
      have e : actSpaces g.heap (i :: is) = s :: actSpaces g.heap is := by
        simp [actSpaces, h1, hs]
      rw [e]
      refine ⟨by simp [l], ?_⟩
      intro j i' hj
      cases j with
      | zero => simp only [List.getElem?_cons_zero, Option.some.injEq] at hj ⊢; rw [← hj, hs]
      | succ j => simpa using ih j i' (by simpa using hj)
  have look : ∀ n, dictGet? (g.cont.fullDict.map fun nl => (nl.1, actSpaces g.heap nl.2)) n =
      (dictGet? g.cont.fullDict n).map (actSpaces g.heap) := fun n => dictGet?_mapVal _ _ _
  have toSpace : ∀ {i : Nat} {s : Space}, (g.heap i).spaceOf true = .ok s → (g.heap i).actSpace = some s := by
    intro i s hs
    unfold spaceOf at hs
    simp only [if_true] at hs
    split at hs
    · rename_i x hx; injection hs with hs; rw [hx, hs]
    · simp at hs
  have hcov : Spaces.Covered (g.cont.fullDict.map fun nl => (nl.1, actSpaces g.heap nl.2)) d := by
    refine ⟨hn, hv, ?_⟩
    intro n xs hx
    obtain ⟨is, hm, hl, hfit⟩ := hd n xs hx
    obtain ⟨l, hsp⟩ := spaces is (hctrl n is hm (by simp [hx]))
    refine ⟨actSpaces g.heap is, by rw [look, hm]; rfl, ?_, by rw [l]; exact hl, ?_⟩
    · intro he
      rw [he] at l
      have := hne n xs hx
      cases xs with
      | nil => exact this rfl
      | cons _ _ => simp only [List.length_nil, List.length_cons] at l hl; omega
    · intro j x s hxj hsj
      have hj : j < is.length := by
        have := (List.getElem?_eq_some_iff.mp hsj).1
        omega
      have hij : is[j]? = some is[j] := List.getElem?_eq_getElem hj
      obtain ⟨s', hs', hf⟩ := hfit j x _ hxj hij
      rw [hsp j _ hij, toSpace hs'] at hsj
      injection hsj with hsj
      subst hsj
      exact hf
  obtain ⟨⟨w, hw, he⟩, -⟩ := C28_space_entries _ d hcov
  obtain ⟨d', hd', he'⟩ := C28_to_normalized g true d hd
  refine ⟨w, d', hw, hd', ?_⟩
  intro n
  have hlen := he'.1 n
  cases hx : dictGet? d n with
  | none =>
    have h1 : dictGet? w n = none := by rw [dictGet?_none] at hx ⊢; rw [he.1]; exact hx
    rw [hx] at hlen
    simp only [Option.map_none, Option.map_eq_none_iff] at hlen
    rw [h1, hlen]
  | some xs =>
    obtain ⟨is, hm, hl, hfit⟩ := hd n xs hx
    obtain ⟨l, hsp⟩ := spaces is (hctrl n is hm (by simp [hx]))
    obtain ⟨ys, hy, hyl, hye⟩ := he.2 n xs (actSpaces g.heap is) hx (by rw [look, hm]; rfl)
    rw [hx] at hlen
    cases hz : dictGet? d' n with
    | none => rw [hz] at hlen; simp at hlen
    | some zs =>
      rw [hz] at hlen
      simp only [Option.map_some, Option.some.injEq] at hlen
      rw [hy]
      simp only [Option.map_some, Option.some.injEq]
      apply List.ext_getElem
      · simp; omega
      · intro j h1 h2
        simp only [List.length_map] at h1 h2
        simp only [List.getElem_map]
        have hj1 : j < xs.length := by omega
        have hj2 : j < is.length := by omega
        have e1 : xs[j]? = some xs[j] := List.getElem?_eq_getElem hj1
        have e2 : is[j]? = some is[j] := List.getElem?_eq_getElem hj2
        have e3 : ys[j]? = some ys[j] := List.getElem?_eq_getElem h1
        have e4 : zs[j]? = some zs[j] := List.getElem?_eq_getElem h2
        obtain ⟨s, hs, hz'⟩ := he'.2 n xs zs is j _ _ _ hx hz hm e1 e4 e2
        obtain ⟨z, hz'', hv'⟩ := hye j _ s _ e1 ((hsp j _ e2).trans (toSpace hs)) e3
        rw [hv']
        rw [hz'] at hz''
        injection hz'' with hz''
        rw [← hz'']

section
variable {h : Heap} {mods : List (String × Nat)} {sh : Option Shaper}
  {tr : Option (Nat → Nat → Option Nat → Except Err (Nat × Nat))} {g₀ : Microgrid}

/-- C59: after any sequence of runs and resets, running a normalised control is the same (new state, result, exception)
    as running the control that `from_normalized` gives, un-normalised; and running an un-normalised control is the
    same as running what `to_normalized` gives, normalised. -/
theorem C59_normalized_run (hc : Microgrid.create h mods sh tr = .ok g₀) (hl : ∀ nm ∈ mods, LibraryModule (h nm.2))
    (ops : List GOp) (d : Data) (hd : d.Covered true (runG g₀ ops).heap (runG g₀ ops).cont.fullDict) :
    (∃ d', (runG g₀ ops).fromNormalized true d = .ok d' ∧
      (runG g₀ ops).run d.control true = (runG g₀ ops).run d'.control false) ∧
    (∃ d', (runG g₀ ops).toNormalized true d = .ok d' ∧
      (runG g₀ ops).run d.control false = (runG g₀ ops).run d'.control true) := by
  have hg := (user_grid hc hl ops).1
  have hsp : ∀ nm ∈ mods, ((runG g₀ ops).heap nm.2).Spaced := by
    obtain ⟨rfl, -⟩ := Microgrid.create_ok hc
    exact fun nm hm => kept_spaced.runG g₀ ops nm.2 (hl nm hm).spaced
  constructor
  · obtain ⟨d', h1, e1⟩ := C28_from_normalized (runG g₀ ops) true d hd
    exact ⟨d', h1, hg.run_normalized hsp hd (e1.interchange hd interchange_denorm)⟩
  · obtain ⟨d', h1, e1⟩ := C28_to_normalized (runG g₀ ops) true d hd
    exact ⟨d', h1, hg.run_normalized hsp hd (e1.interchange hd interchange_norm)⟩

end

/-! ### Examples -/

/-- An action of the example microgrid. -/
def demoAction : Data := [("genset", [.arr [1, 20]]), ("battery", [.num 10]), ("grid", [.num (-5)])]

theorem demoAction_covered : demoAction.Covered true demoGrid.heap demoGrid.cont.fullDict := by
  intro n vs hv
  have hmem := dictGet?_mem hv
  simp only [demoAction, List.mem_cons, Prod.mk.injEq, List.not_mem_nil, or_false] at hmem
  have one : ∀ (v : Act) (i : Nat) (lo hi : ℚ), (demoGrid.heap i).actSpace = some ⟨[lo], [hi]⟩ → v.vals.length = 1 →
      ∃ s, (demoGrid.heap i).spaceOf true = .ok s ∧ s.Fits v := by
    intro v i lo hi hs hv
    exact ⟨⟨[lo], [hi]⟩, by simp [spaceOf, hs], rfl, hv⟩
  rcases hmem with ⟨rfl, rfl⟩ | ⟨rfl, rfl⟩ | ⟨rfl, rfl⟩
  · refine ⟨[3], by decide +kernel, by simp, ?_⟩
    intro j v i hvj hij
    match j with
    | 0 =>
      simp only [List.getElem?_cons_zero, Option.some.injEq] at hvj hij
      subst hvj hij
      have hs : (demoGrid.heap 3).actSpace = some ⟨[0, 0], [1, 50]⟩ := by decide +kernel
      exact ⟨⟨[0, 0], [1, 50]⟩, by simp [spaceOf, hs], rfl, rfl⟩
    | j + 1 => simp at hvj
  · refine ⟨[2], by decide +kernel, by simp, ?_⟩
    intro j v i hvj hij
    match j with
    | 0 =>
      simp only [List.getElem?_cons_zero, Option.some.injEq] at hvj hij
      subst hvj hij
      exact one _ 2 (-60) 10 (by decide +kernel) rfl
    | j + 1 => simp at hvj
  · refine ⟨[4], by decide +kernel, by simp, ?_⟩
    intro j v i hvj hij
    match j with
    | 0 =>
      simp only [List.getElem?_cons_zero, Option.some.injEq] at hvj hij
      subst hvj hij
      exact one _ 4 (-50) 100 (by decide +kernel) rfl
    | j + 1 => simp at hvj

/-- Round trip, agreement and the two ways to run it. -/
example : (demoGrid.toNormalized true demoAction).toOption =
      some [("genset", [.arr [1, 2/5]]), ("battery", [.num 1]), ("grid", [.num (3/10)])] ∧
    (demoGrid.actionSpace.normalize demoAction).toOption =
      some [("genset", [.arr [1, 2/5]]), ("battery", [.arr [1]]), ("grid", [.arr [3/10]])] := by decide +kernel

example : (demoGrid.run demoAction.control false).2.toOption.map (fun o => (o.provided, o.reward)) =
    some (65, -243/2) ∧
    (demoGrid.run (Data.control [("genset", [.arr [1, 2/5]]), ("battery", [.num 1]), ("grid", [.num (3/10)])]) true).2.toOption.map
      (fun o => (o.provided, o.reward)) = some (65, -243/2) := by decide +kernel

/-- The hypotheses of `C28_action_space_agrees` hold for it. -/
example : (demoAction.map Prod.fst).Nodup ∧
    demoAction.length = ((demoGrid.cont.fullDict.map fun nl => (nl.1, actSpaces demoGrid.heap nl.2)).filter
      (fun ns => !ns.2.isEmpty)).length ∧
    (∀ nl ∈ demoGrid.cont.fullDict, (dictGet? demoAction nl.1).isSome →
      ∀ i ∈ nl.2, (demoGrid.heap i).ffc = .controllable ∧ (demoGrid.heap i).actSpace.isSome) := by decide +kernel

/-- Observations of the example microgrid, covering every module. -/
example : (GridSpace.normalize demoGrid.observationSpace [("load", [.arr [-60, -40, -20]]), ("pv", [.arr [30, 50, 0]]),
    ("battery", [.arr [3/5, 60]]), ("genset", [.arr [0, 0, 0, 0]]), ("grid", [.arr (List.replicate 12 1)]),
    ("balancing", [.arr []])]).toOption.map (fun d => dictGet? d "battery") = some (some [.arr [5/9, 5/9]]) := by
  decide +kernel

end Pymgrid
