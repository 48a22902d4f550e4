import Verif.Lemmas.Foresight
import Verif.Lemmas.GridSetters
import Verif.Lemmas.NoLookahead
import Verif.Spec.Foreseen

set_option autoImplicit false

/-! Lemmas for C108: model predictive control sees no further than its forecasts. -/

namespace Pymgrid

open Module

/-! ### Modules -/

theorem core_series {m m₂ : Module} (hc : m₂.kind.core = m.kind.core) {t₂ : TS} (hs : m₂.series? = some t₂) :
    ∃ t, m.series? = some t ∧ t₂.horizon = t.horizon ∧ t₂.forecaster = t.forecaster := by
  have key : ∀ {u v : TS}, ({ u with finalStep := 0, cur := none, draws := 0 } : TS) =
      { v with finalStep := 0, cur := none, draws := 0 } → u.horizon = v.horizon ∧ u.forecaster = v.forecaster := by
    intro u v e
    simp only [TS.mk.injEq] at e
    exact ⟨e.2.2.2.2.2.1, e.2.2.2.2.2.2.2.1⟩
  unfold series? at *
  cases h1 : m₂.kind <;> rw [h1] at hs hc <;> simp at hs <;> subst hs <;>
    cases h2 : m.kind <;> rw [h2] at hc <;> simp only [Kind.core, reduceCtorEq, Kind.grid.injEq, Kind.load.injEq,
      Kind.renewable.injEq] at hc
  · exact ⟨_, rfl, key hc.2⟩
  · exact ⟨_, rfl, key hc⟩
  · exact ⟨_, rfl, key hc⟩

theorem SameForesight.later {H : Nat} {m m' m₂ m₂' : Module} (h : SameForesight H m m') (hc : m₂.kind.core = m.kind.core)
    (hc' : m₂'.kind.core = m'.kind.core) : SameForesight H m₂ m₂' := by
  intro t t' ht ht'
  obtain ⟨u, hu, e1, e2⟩ := core_series hc ht
  obtain ⟨u', hu', e1', e2'⟩ := core_series hc' ht'
  rw [e1, e1', e2, e2']
  exact h u u' hu hu'

theorem oracle_cur {t : TS} {c : Nat} (hv : t.Valid) (fresh : t.Fresh c) (ho : t.forecaster.kind = .oracle) :
    t.cur = some (trueFuture t.rows (midpoints t.minRow t.maxRow) c t.horizon) := by
  obtain ⟨d, hd⟩ := fresh
  have := TS.Valid.oracle (t := { t with draws := d }) ⟨hv.minLen, hv.box, hv.inBox, hv.fMin, hv.fMax, hv.fObs, hv.fRows, hv.noneH⟩
    ho c
  rw [hd] at this
  simpa using this

section
variable {f : FFC} {N n H : Nat} {m m' : Module}

theorem WinTS.same_state {t t' : TS} (h : WinTS N n m m' t t') (fresh : m.FreshNow) (fresh' : m'.FreshNow)
    (sees : SameForesight H m m') (hn : H + 1 ≤ n) : m'.state = m.state := by
  obtain ⟨d, c1, c2, c3⟩ := h.clock
  obtain ⟨e1, e2, e3⟩ := sees t t' h.ts.series h.ts'.series
  have rows : ∀ j ≤ H, t'.rows[m'.currentStep + j]? = t.rows[m.currentStep + j]? ∧ m.currentStep + j < t.rows.length := by
    intro j hj
    have r := h.rows.rows (d + j) (by omega)
    have l := h.rows.there (d + j) (by omega)
    rw [c1, c2]
    rw [Nat.add_assoc, Nat.add_assoc]
    exact ⟨r, l⟩
  have r0 := rows 0 (by omega)
  rw [Nat.add_zero, Nat.add_zero] at r0
  have live : m.currentStep < t.rows.length := r0.2
  have ho : t'.obsAt m'.currentStep = t.obsAt m.currentStep := by
    unfold TS.obsAt
    rw [r0.1, List.getElem?_eq_getElem live]
    rfl
  rw [h.ts.state, h.ts'.state, ho]
  congr 2
  rcases e3 with h0 | ⟨o1, o2⟩
  · have l1 := TS.Shaped.flat_length h.ts.valid h.ts.shaped
    have l2 := TS.Shaped.flat_length h.ts'.valid h.ts'.shaped
    rw [h0, Nat.zero_mul] at l1
    rw [e1, h0, Nat.zero_mul] at l2
    rw [List.length_eq_zero_iff.mp l1, List.length_eq_zero_iff.mp l2]
  · have f1 := oracle_cur h.ts.valid (fresh t h.ts.series) o1
    have f2 := oracle_cur h.ts'.valid (fresh' t' h.ts'.series) o2
    unfold TS.flatCur
    rw [f1, f2, e1]
    simp only [Option.getD_some, trueFuture]
    congr 1
    apply List.map_congr_left
    intro j hj
    have hj := List.mem_range.mp hj
    have r := rows (j + 1) (by omega)
    rw [show m'.currentStep + (j + 1) = m'.currentStep + 1 + j by omega,
      show m.currentStep + (j + 1) = m.currentStep + 1 + j by omega] at r
    rw [r.1, List.getElem?_eq_getElem r.2]
    rfl

theorem WinMod.same_state (h : WinMod f N n m m') (fresh : m.FreshNow) (fresh' : m'.FreshNow)
    (sees : SameForesight H m m') (hn : H + 1 ≤ n) : m'.state = m.state := by
  obtain ⟨-, -, ⟨hs, L, i, c, rfl⟩ | ⟨t, t', h⟩⟩ := h
  · have := stateDict_clock m L i c hs
    unfold Module.state
    simp only [Module.clocked] at this
    rw [this]
  · exact h.same_state fresh fresh' sees hn

theorem WinMod.parts (h : WinMod f N n m m') : batteryPart m' = batteryPart m ∧ gensetPart m' = gensetPart m ∧
    balancingPart m' = balancingPart m ∧ (gridPart m').map Prod.fst = (gridPart m).map Prod.fst ∧
    (loadPart m').isSome = (loadPart m).isSome ∧ (pvPart m').isSome = (pvPart m).isSome := by
  obtain ⟨-, -, ⟨hs, L, i, c, rfl⟩ | ⟨t, t', h⟩⟩ := h
  · unfold loadPart pvPart
    refine ⟨rfl, rfl, rfl, rfl, ?_, ?_⟩ <;> · simp only; cases m.kind <;> rfl
  · have hs := h.ts.series
    have hk' := h.kind
    unfold series? at hs
    unfold batteryPart gensetPart balancingPart gridPart loadPart pvPart
    rw [hk']
    cases hk : m.kind <;> rw [hk] at hs <;> simp at hs <;> exact ⟨rfl, rfl, rfl, rfl, rfl, rfl⟩

end

/-! ### Microgrids -/

/-- Two microgrids with `n` rows left whose forecasts are those of the rows. -/
structure MpcWin (F : Nat → FFC) (N n H : Nat) (g g' : Microgrid) : Prop where
  rule : RuleWin F N n g g'
  fresh : ∀ i ∈ g.cont.fullList, (g.heap i).WF ∧ (g.heap i).FreshNow
  fresh' : ∀ i ∈ g.cont.fullList, (g'.heap i).WF ∧ (g'.heap i).FreshNow
  sees : ∀ i ∈ g.cont.fullList, SameForesight H (g.heap i) (g'.heap i)

section
variable {F : Nat → FFC} {N n H : Nat} {g g' : Microgrid}

theorem MpcWin.less {k : Nat} (t : MpcWin F N n H g g') (hk : k ≤ n) : MpcWin F N k H g g' :=
  ⟨t.rule.less hk, t.fresh, t.fresh', t.sees⟩

theorem MpcWin.op (t : MpcWin F N n H g g') (op : GOp) {k : Nat} (r : RuleWin F N k (runG g [op]) (runG g' [op])) :
    MpcWin F N k H (runG g [op]) (runG g' [op]) := by
  have hc := (runG_fixed g [op]).cont
  refine ⟨r, ?_, ?_, ?_⟩ <;> rw [hc] <;> intro i hi
  · exact kept_fresh.runG g [op] i (t.fresh i hi)
  · exact kept_fresh.runG g' [op] i (t.fresh' i hi)
  · exact (t.sees i hi).later (kept_core.runG g [op] i (t.fresh i hi).1).2 (kept_core.runG g' [op] i (t.fresh' i hi).1).2

theorem MpcWin.run (t : MpcWin F N (n + 1) H g g') (c : List (String × Ctrl)) (b : Bool) :
    MpcWin F N n H (g.run c b).1 (g'.run c b).1 ∧ (g'.run c b).2.map RunOut.deeds = (g.run c b).2.map RunOut.deeds :=
  ⟨t.op (.run c b) (t.rule.run c b).1, (t.rule.run c b).2⟩

theorem MpcWin.reset (t : MpcWin F N n H g g') :
    MpcWin F N N H g.reset.1 g'.reset.1 ∧ g'.reset.2 = g.reset.2 :=
  ⟨t.op .reset t.rule.reset.1, t.rule.reset.2⟩

theorem MpcWin.after (t : MpcWin F N n H g g') (ops : List GOp) {k : Nat} (hk : stepsLeft N n ops = some k) :
    MpcWin F N k H (runG g ops) (runG g' ops) := by
  unfold runG
  induction ops generalizing g g' n with
  | nil => simp only [stepsLeft, Option.some.injEq] at hk; subst hk; exact t
  | cons op ops ih =>
    cases op with
    | run c b =>
      cases n with
      | zero => simp [stepsLeft] at hk
      | succ n => exact ih (t.run c b).1 hk
    | reset => exact ih t.reset.1 (by cases n <;> exact hk)

open MPC

theorem itemOf_mem {g : Microgrid} {name : String} {i : Nat} (h : itemOf g name = .ok i) : i ∈ g.cont.fullList := by
  unfold itemOf at h
  split at h
  · simp at h
  · rename_i j e
    simp only [Except.ok.injEq] at h
    subst h
    exact Container.full_fullList (toTuples_mem (dictGet?_mem e) (by simp))
  · simp at h

theorem MpcWin.item (t : MpcWin F N n H g g') (name : String) : itemOf g' name = itemOf g name := by
  unfold itemOf
  rw [t.rule.win.cont]

theorem MpcWin.stateOf (t : MpcWin F N n H g g') (hn : H + 1 ≤ n) (name : Option String) :
    stateOf g' name = stateOf g name := by
  unfold MPC.stateOf
  cases name with
  | none => rfl
  | some name =>
    simp only [t.item]
    cases h : itemOf g name with
    | error e => rfl
    | ok i =>
      have hi := itemOf_mem h
      exact (t.rule.win.heap i hi).same_state (t.fresh i hi).2 (t.fresh' i hi).2 (t.sees i hi) hn

theorem MpcWin.fieldsOf {α : Type} (t : MpcWin F N n H g g') (f : Module → Option α)
    (hf : ∀ i ∈ g.cont.fullList, f (g'.heap i) = f (g.heap i)) (name : String) : fieldsOf g' f name = fieldsOf g f name := by
  unfold MPC.fieldsOf
  rw [t.item]
  cases h : itemOf g name with
  | error e => rfl
  | ok i => simp only; rw [hf i (itemOf_mem h)]

theorem MpcWin.batteryOf (t : MpcWin F N n H g g') : batteryOf g' = batteryOf g := by
  unfold MPC.batteryOf
  rw [t.rule.win.cont, t.fieldsOf _ fun i hi => (t.rule.win.heap i hi).parts.1]

theorem MpcWin.gridFields (t : MpcWin F N n H g g') (name : String) :
    (MPC.fieldsOf g' gridPart name).map Prod.fst = (MPC.fieldsOf g gridPart name).map Prod.fst := by
  unfold MPC.fieldsOf
  rw [t.item]
  cases h : itemOf g name with
  | error e => rfl
  | ok i =>
    have := (t.rule.win.heap i (itemOf_mem h)).parts.2.2.2.1
    simp only
    cases h1 : gridPart (g.heap i) <;> cases h2 : gridPart (g'.heap i) <;> rw [h1, h2] at this <;>
      simp at this ⊢
    simp [Except.map, this]

theorem MpcWin.problem (t : MpcWin F N n H g g') (hn : H + 1 ≤ n) (pl : Planner) :
    modularProblem pl g' = modularProblem pl g := by
  have h1 : gridInputs pl g' = gridInputs pl g := by
    unfold gridInputs
    cases hg : pl.names.grid with
    | none => rfl
    | some name =>
      have := t.gridFields name
      simp only [t.stateOf hn]
      cases h1 : MPC.fieldsOf g gridPart name <;> cases h2 : MPC.fieldsOf g' gridPart name <;> rw [h1, h2] at this <;>
        simp [Except.map] at this
      · subst this; rfl
      · cases MPC.stateOf g (some name) <;> simp only [this]
  have h2 : gensetCo2Cost pl g' = gensetCo2Cost pl g := by
    unfold gensetCo2Cost
    cases pl.names.genset with
    | none => rfl
    | some name => simp only [t.fieldsOf _ fun i hi => (t.rule.win.heap i hi).parts.2.1]
  unfold modularProblem
  rw [t.stateOf hn, t.stateOf hn, h1, h2, t.batteryOf]

theorem MpcWin.step (t : MpcWin F N (n + 1) H g g') (hn : H ≤ n) (solve : Solver) (pl : Planner) :
    MpcWin F N n H (modularStep solve pl g).1 (modularStep solve pl g').1 ∧
      (modularStep solve pl g').2.map RunOut.deeds = (modularStep solve pl g).2.map RunOut.deeds := by
  unfold modularStep
  rw [t.problem (by omega)]
  cases modularProblem pl g with
  | error e => exact ⟨t.less (by omega), rfl⟩
  | ok P =>
    simp only
    cases solve P with
    | none => exact ⟨t.less (by omega), rfl⟩
    | some x => exact t.run _ _

theorem MpcWin.doings {k : Nat} (t : MpcWin F N n H g g') (hk : k + H ≤ n) (solve : Solver) (pl : Planner) :
    MPC.doings solve pl k g' = MPC.doings solve pl k g ∧
      (modularLoop solve pl k g').2 = (modularLoop solve pl k g).2 := by
  induction k generalizing g g' n with
  | zero => exact ⟨rfl, rfl⟩
  | succ k ih =>
    obtain ⟨n, rfl⟩ : ∃ n', n = n' + 1 := ⟨n - 1, by omega⟩
    obtain ⟨h1, h2⟩ := t.step (by omega) solve pl
    have ih := ih h1 (by omega)
    unfold MPC.doings modularLoop
    cases e : modularStep solve pl g with
    | mk s x =>
    cases e' : modularStep solve pl g' with
    | mk s' x' =>
    rw [e, e'] at ih h2
    simp only at ih h2
    cases x <;> cases x' <;> simp only [Except.map, Except.error.injEq, Except.ok.injEq, reduceCtorEq] at h2
    · subst h2; exact ⟨rfl, rfl⟩
    · rename_i o o'
      have : o'.done = o.done := by
        unfold RunOut.deeds at h2
        simp only [Prod.mk.injEq] at h2
        exact h2.2.1
      simp only [this, h2, ih.1, true_and]
      split
      · rfl
      · exact ih.2

/-! ### Planners -/

theorem MpcWin.nameOf {α : Type} (t : MpcWin F N n H g g') (f : Module → Option α)
    (hf : ∀ i ∈ g.cont.fullList, (f (g'.heap i)).isSome = (f (g.heap i)).isSome) : nameOf g' f = nameOf g f := by
  unfold MPC.nameOf
  rw [t.rule.win.cont]
  congr 2
  apply List.filter_congr
  intro ni hni
  exact hf _ (Container.full_fullList hni)

theorem MpcWin.modules (t : MpcWin F N n H g g') : getModules g' = getModules g := by
  have p := fun i hi => (t.rule.win.heap i hi).parts
  unfold getModules
  rw [t.nameOf loadPart fun i hi => (p i hi).2.2.2.2.1, t.nameOf pvPart fun i hi => (p i hi).2.2.2.2.2,
    t.nameOf batteryPart fun i hi => congrArg _ (p i hi).1, t.nameOf gensetPart fun i hi => congrArg _ (p i hi).2.1,
    t.nameOf balancingPart fun i hi => congrArg _ (p i hi).2.2.1, t.nameOf gridPart fun i hi => ?_]
  have := congrArg Option.isSome (p i hi).2.2.2.1
  simpa using this

theorem MpcWin.static (t : MpcWin F N n H g g') (names : Names) : parseModular g' names = parseModular g names := by
  have p := fun i hi => (t.rule.win.heap i hi).parts
  unfold parseModular
  rw [t.batteryOf]
  cases MPC.batteryOf g with
  | error e => rfl
  | ok b =>
    simp only
    cases names.balancing with
    | none => rfl
    | some name =>
      simp only [t.fieldsOf balancingPart fun i hi => (p i hi).2.2.1]
      cases MPC.fieldsOf g balancingPart name with
      | error e => rfl
      | ok u =>
        simp only
        cases names.genset with
        | none => rfl
        | some name => simp only [t.fieldsOf gensetPart fun i hi => (p i hi).2.1]

theorem MpcWin.horizon (t : MpcWin F N n H g g') : g'.forecastHorizon = g.forecastHorizon := by
  unfold Microgrid.forecastHorizon Microgrid.parts
  rw [t.rule.win.cont]
  congr 1
  apply List.filterMap_congr
  intro ni hni
  have hi := Container.full_fullList hni
  have hs := t.sees _ hi
  obtain ⟨-, -, ⟨h0, L, i, c, e⟩ | ⟨u, u', h⟩⟩ := t.rule.win.heap _ hi
  · rw [e]; rfl
  · have e := (hs u u' h.ts.series h.ts'.series).1
    have key : ∀ {m : Module} {v : TS}, m.series? = some v → m.horizon? = some v.horizon := by
      intro m v hv
      unfold Module.series? at hv
      unfold Module.horizon?
      cases hk : m.kind <;> rw [hk] at hv <;> simp at hv <;> simp [hv]
    rw [key h.ts.series, key h.ts'.series, e]

theorem MpcWin.planner (t : MpcWin F N n H g g') {pl pl' : Planner} (h : createModular g = .ok pl)
    (h' : createModular g' = .ok pl') : pl' = pl := by
  obtain ⟨x, k, -, hk, hn, hh, hs⟩ := create_inv h
  obtain ⟨x', k', -, hk', hn', hh', hs'⟩ := create_inv h'
  rw [t.horizon, hk] at hk'
  rw [t.modules] at hn' hs'
  rw [t.static, hs] at hs'
  simp only [Except.ok.injEq] at hk' hs'
  obtain ⟨a, b, c⟩ := pl
  obtain ⟨a', b', c'⟩ := pl'
  simp only at *
  subst hk' hn hn' hs' hh hh'
  rfl

/-- Both have at least as many rows as there are in the window. -/
theorem MpcWin.long (t : MpcWin F N n H g g') {i : Nat} (hi : i ∈ g.cont.fullList) :
    (∀ u, (g.heap i).series? = some u → N ≤ u.rows.length) ∧ ∀ u, (g'.heap i).series? = some u → N ≤ u.rows.length := by
  obtain ⟨-, -, ⟨h0, L, j, c, e⟩ | ⟨u, u', h⟩⟩ := t.rule.win.heap i hi
  · rw [e]
    refine ⟨fun u hu => ?_, fun u hu => ?_⟩
    · rw [h0] at hu; cases hu
    · have : (g.heap i).series? = some u := hu
      rw [h0] at this; cases this
  · have key : N ≤ u.rows.length ∧ N ≤ u'.rows.length := by
      cases N with
      | zero => exact ⟨Nat.zero_le _, Nat.zero_le _⟩
      | succ N =>
        have h1 := h.rows.there N (by omega)
        have h2 := h.rows.rows N (by omega)
        rw [List.getElem?_eq_getElem h1] at h2
        have h3 := (List.getElem?_eq_some_iff.mp h2).1
        omega
    refine ⟨fun v hv => ?_, fun v hv => ?_⟩
    · rw [h.ts.series] at hv; cases hv; exact key.1
    · rw [h.ts'.series] at hv; cases hv; exact key.2

theorem MpcWin.runs (t : MpcWin F N n H g g') {mods : List (String × Nat)} (ok : GridOK mods g) (ok' : GridOK mods g')
    (has : ∃ nm ∈ mods, ∃ u, (g.heap nm.2).series? = some u) {k : Nat} (hk : k + H ≤ N) (solve : Solver) (pl : Planner) :
    (runModular solve pl g' (some k)).2 = (runModular solve pl g (some k)).2 ∧
      MPC.doings solve pl k g'.reset.1 = MPC.doings solve pl k g.reset.1 := by
  have mem : ∀ nm ∈ mods, nm.2 ∈ g.cont.fullList := by
    intro nm hm
    rw [ok.cont]
    exact (Container.fullList_perm _ _).mem_iff.mpr (List.mem_map_of_mem hm)
  have has' : ∃ nm ∈ mods, ∃ u, (g'.heap nm.2).series? = some u := by
    obtain ⟨nm, hm, u, hu⟩ := has
    refine ⟨nm, hm, ?_⟩
    obtain ⟨-, -, ⟨h0, -⟩ | ⟨v, v', h⟩⟩ := t.rule.win.heap _ (mem nm hm)
    · rw [h0] at hu; cases hu
    · exact ⟨v', h.ts'.series⟩
  obtain ⟨l, hl, hn⟩ := lengthOf_spec ok has
  obtain ⟨l', hl', hn'⟩ := lengthOf_spec ok' has'
  have i1 : iterations g (some k) = .ok k := by
    unfold iterations
    simp only [hl, if_pos ((hn k).mpr fun nm hm u hu => le_trans (by omega) ((t.long (mem nm hm)).1 u hu))]
  have i2 : iterations g' (some k) = .ok k := by
    unfold iterations
    simp only [hl', if_pos ((hn' k).mpr fun nm hm u hu => le_trans (by omega) ((t.long (mem nm hm)).2 u hu))]
  obtain ⟨t₀, e₀⟩ := t.reset
  obtain ⟨d1, d2⟩ := t₀.doings hk solve pl
  refine ⟨?_, d1⟩
  unfold runModular
  rw [i1, i2]
  simp only
  cases e1 : g.reset with
  | mk a x =>
  cases e2 : g'.reset with
  | mk a' x' =>
  rw [e1, e2] at d2 e₀
  simp only at d2 e₀
  subst e₀
  cases x' with
  | error er => rfl
  | ok u => exact d2

end

theorem MpcWin.created {N H : Nat} {h h' : Heap} {mods : List (String × Nat)} {sh : Option Shaper} {g g' : Microgrid}
    (hl : ∀ nm ∈ mods, LibraryModule (h nm.2)) (hl' : ∀ nm ∈ mods, LibraryModule (h' nm.2))
    (hw : ∀ nm ∈ mods, SameWindow N (h nm.2) (h' nm.2)) (hf : ∀ nm ∈ mods, SameForesight H (h nm.2) (h' nm.2))
    (hid : (mods.map Prod.snd).Nodup) (hn : DistinctNames h mods)
    (hc : Microgrid.create h mods sh none = .ok g) (hc' : Microgrid.create h' mods sh none = .ok g') :
    MpcWin (fun i => (h i).ffc) N N H g g' := by
  have ok := GridOK.created hc hl
  have e := (Microgrid.create_ok hc).1
  have e' := (Microgrid.create_ok hc').1
  have mem : ∀ i ∈ g.cont.fullList, ∃ nm ∈ mods, nm.2 = i := by
    intro i hi
    rw [ok.cont] at hi
    exact List.mem_map.mp ((Container.fullList_perm _ mods).mem_iff.mp hi)
  refine ⟨.created hl hl' hw hid hn hc hc', ?_, ?_, ?_⟩ <;> intro i hi <;> obtain ⟨nm, hm, rfl⟩ := mem i hi
  · rw [e]; exact ⟨(hl nm hm).wf, (hl nm hm).fresh⟩
  · rw [e']; exact ⟨(hl' nm hm).wf, (hl' nm hm).fresh⟩
  · rw [e, e']; exact hf nm hm

end Pymgrid
