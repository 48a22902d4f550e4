import Verif.Spec.LegacySplit

set_option autoImplicit false

/-! A legacy microgrid on part of its data is the legacy microgrid of that part. -/

namespace Pymgrid.Legacy

namespace SplitGrid

/-- The microgrid of the part of the data that is in use. -/
def sub (s : SplitGrid) : Grid :=
  { s.grid with
    loads := s.part s.grid.loads, pvs := s.part s.grid.pvs, statuses := s.part s.grid.statuses
    importPrices := s.part s.grid.importPrices, exportPrices := s.part s.grid.exportPrices, co2s := s.part s.grid.co2s }

theorem sub_view (s : SplitGrid) : s.sub.view = s.grid.view := rfl

theorem gridAt_of {s : SplitGrid} (g : Grid) (i : Nat) (h₁ : g.statuses = s.part s.grid.statuses)
    (h₂ : g.importPrices = s.part s.grid.importPrices) (h₃ : g.exportPrices = s.part s.grid.exportPrices)
    (h₄ : g.co2s = s.part s.grid.co2s) : g.gridAt i = s.gridAt i := by
  unfold Grid.gridAt gridAt
  rw [h₁, h₂, h₃, h₄]
  rfl

/-- What stays as it is. -/
structure Stays (s s' : SplitGrid) : Prop where
  inUse : s'.inUse = s.inUse
  default : s'.default = s.default
  hasSplit : s'.hasSplit = s.hasSplit
  limit : s'.limit = s.limit
  arch : s'.grid.arch = s.grid.arch
  params : s'.grid.params = s.grid.params
  horizon : s'.grid.horizon = s.grid.horizon
  loads : s'.grid.loads = s.grid.loads
  pvs : s'.grid.pvs = s.grid.pvs
  statuses : s'.grid.statuses = s.grid.statuses
  importPrices : s'.grid.importPrices = s.grid.importPrices
  exportPrices : s'.grid.exportPrices = s.grid.exportPrices
  co2s : s'.grid.co2s = s.grid.co2s
  noGrid : s.grid.arch.grid = false → s'.grid.cur = s.grid.cur ∧ s'.grid.next = s.grid.next

theorem Stays.trans {a b c : SplitGrid} (h : Stays a b) (h' : Stays b c) : Stays a c :=
  ⟨h'.inUse.trans h.inUse, h'.default.trans h.default, h'.hasSplit.trans h.hasSplit, h'.limit.trans h.limit,
    h'.arch.trans h.arch, h'.params.trans h.params, h'.horizon.trans h.horizon, h'.loads.trans h.loads,
    h'.pvs.trans h.pvs, h'.statuses.trans h.statuses, h'.importPrices.trans h.importPrices,
    h'.exportPrices.trans h.exportPrices, h'.co2s.trans h.co2s, fun hg =>
      have a := h.noGrid hg
      have b := h'.noGrid (by rw [h.arch]; exact hg)
      ⟨b.1.trans a.1, b.2.trans a.2⟩⟩

theorem update_stays (s : SplitGrid) : Stays s s.updateVariables.1 ∧ s.updateVariables.1.dataLength = s.dataLength ∧
    s.updateVariables.1.grid.states = s.grid.states ∧ s.updateVariables.1.grid.t = s.grid.t := by
  unfold updateVariables
  simp only
  split
  · split
    · exact ⟨⟨rfl, rfl, rfl, rfl, rfl, rfl, rfl, rfl, rfl, rfl, rfl, rfl, rfl, fun _ => ⟨rfl, rfl⟩⟩, rfl, rfl, rfl⟩
    · split
      · rename_i hg
        split
        · exact ⟨⟨rfl, rfl, rfl, rfl, rfl, rfl, rfl, rfl, rfl, rfl, rfl, rfl, rfl, fun _ => ⟨rfl, rfl⟩⟩, rfl, rfl, rfl⟩
        · split
          · split
            · exact ⟨⟨rfl, rfl, rfl, rfl, rfl, rfl, rfl, rfl, rfl, rfl, rfl, rfl, rfl, fun h => by simp [hg] at h⟩, rfl, rfl,
                rfl⟩
            · exact ⟨⟨rfl, rfl, rfl, rfl, rfl, rfl, rfl, rfl, rfl, rfl, rfl, rfl, rfl, fun h => by simp [hg] at h⟩, rfl, rfl,
                rfl⟩
          · exact ⟨⟨rfl, rfl, rfl, rfl, rfl, rfl, rfl, rfl, rfl, rfl, rfl, rfl, rfl, fun h => by simp [hg] at h⟩, rfl, rfl,
              rfl⟩
      · exact ⟨⟨rfl, rfl, rfl, rfl, rfl, rfl, rfl, rfl, rfl, rfl, rfl, rfl, rfl, fun _ => ⟨rfl, rfl⟩⟩, rfl, rfl, rfl⟩
  · exact ⟨⟨rfl, rfl, rfl, rfl, rfl, rfl, rfl, rfl, rfl, rfl, rfl, rfl, rfl, fun _ => ⟨rfl, rfl⟩⟩, rfl, rfl, rfl⟩

theorem part_stays {s s' : SplitGrid} (h : Stays s s') (l : List ℚ) : s'.part l = s.part l := by
  unfold part
  rw [h.inUse, h.limit]

/-- Away from the end of the data the variables are updated as in the microgrid of the part. -/
theorem update_sub {s : SplitGrid} (hd : s.dataLength = s.sub.dataLength)
    (hi : s.inUse ≠ .all → s.grid.t + 1 < s.dataLength) :
    s.sub.updateVariables = (s.updateVariables.1.sub, s.updateVariables.2) := by
  have hin : (s.inUse ≠ .all ∨ s.grid.t + 1 < s.dataLength) ↔ s.grid.t + 1 < s.dataLength :=
    ⟨fun h => h.elim hi id, Or.inr⟩
  unfold updateVariables Grid.updateVariables
  simp only [hin]
  have e1 : s.sub.pvs = s.part s.grid.pvs := rfl
  have e2 : s.sub.loads = s.part s.grid.loads := rfl
  have e3 : s.sub.t = s.grid.t := rfl
  rw [e1, e2, e3, ← hd]
  cases h1 : (s.part s.grid.pvs)[s.grid.t]? with
  | none => rfl
  | some pv =>
    cases h2 : (s.part s.grid.loads)[s.grid.t]? with
    | none => rfl
    | some load =>
      simp only
      by_cases hc : s.grid.t + 1 < s.dataLength
      · have hlen := hc
        rw [hd] at hlen
        unfold Grid.dataLength at hlen
        rw [e1, e2, lt_min_iff] at hlen
        obtain ⟨p, hp⟩ : ∃ p, (s.part s.grid.pvs)[s.grid.t + 1]? = some p := ⟨_, List.getElem?_eq_getElem hlen.2⟩
        obtain ⟨l, hl⟩ : ∃ l, (s.part s.grid.loads)[s.grid.t + 1]? = some l := ⟨_, List.getElem?_eq_getElem hlen.1⟩
        simp only [hc, if_true, hp, hl]
        have e4 : s.sub.arch.grid = s.grid.arch.grid := rfl
        rw [e4]
        cases hg : s.grid.arch.grid with
        | false => rfl
        | true =>
          simp only [↓reduceIte]
          rw [gridAt_of (s := s) _ _ rfl rfl rfl rfl]
          cases s.gridAt s.grid.t with
          | error e => rfl
          | ok cur =>
            simp only
            rw [gridAt_of (s := s) _ _ rfl rfl rfl rfl]
            cases s.gridAt (s.grid.t + 1) with
            | error e => rfl
            | ok nx => rfl
      · simp only [hc, if_false]
        have e4 : s.sub.arch.grid = s.grid.arch.grid := rfl
        rw [e4]
        cases hg : s.grid.arch.grid with
        | false => rfl
        | true =>
          simp only [↓reduceIte]
          rw [gridAt_of (s := s) _ _ rfl rfl rfl rfl]
          cases s.gridAt s.grid.t with
          | error e => rfl
          | ok cur => rfl

/-- The run has not passed the last step that the code reaches with training or testing data. -/
def Safe (s : SplitGrid) : Prop :=
  s.inUse ≠ .all → 2 ≤ s.grid.horizon ∧ s.grid.t + s.grid.horizon ≤ s.dataLength

/-- The first part of `run`: everything up to the check for the end of the data. -/
def _root_.Pymgrid.Legacy.Grid.front (g : Grid) (c : Control) : Grid × Except Err StateRow :=
  match record g.arch g.params g.load g.pv g.soc c g.production with
  | (r, .error e) => ({ g with production := r }, .error e)
  | (r, .ok ()) =>
    match r.last g.arch with
    | .error e => ({ g with production := r }, .error e)
    | .ok l =>
      let co2 := co2Of g.arch g.params l (if g.arch.grid then g.cur.co2 else 0)
      let cost := costRow g.arch g.params l co2 (if g.arch.grid then g.cur.priceImport else 0)
        (if g.arch.grid then g.cur.priceExport else 0)
      let row :=
        if g.arch.grid then nextRow g.arch g.params g.soc l.charge l.discharge g.nextLoad g.nextPv g.t g.next
        else nextRow g.arch g.params g.soc (c.charge.getD 0) (c.discharge.getD 0) g.nextLoad g.nextPv g.t none
      ({ g with production := r, co2 := g.co2 ++ [co2], costs := g.costs ++ [cost], states := g.states ++ [row] }, .ok row)

theorem grid_run_eq (g : Grid) (c : Control) : g.run c = match g.front c with
    | (g₁, .error e) => (g₁, .error e)
    | (g₁, .ok row) =>
      if (g₁.t : Int) = (g₁.dataLength : Int) - g₁.horizon ∨ (g₁.t : Int) = (g₁.dataLength : Int) - 1 then
        ({ g₁ with done := true }, .ok row)
      else
        match { g₁ with t := g₁.t + 1 }.updateVariables with
        | (g₂, .error e) => (g₂, .error e)
        | (g₂, .ok ()) => (g₂, .ok row) := by
  unfold Grid.run Grid.front
  cases record g.arch g.params g.load g.pv g.soc c g.production with
  | mk r x =>
    cases x with
    | error e => rfl
    | ok u =>
      cases h : r.last g.arch with
      | error e => simp only [h]
      | ok l => simp only [h]; rfl

theorem run_eq (s : SplitGrid) (c : Control) : s.run c = match s.grid.front c with
    | (g₁, .error e) => ({ s with grid := g₁ }, .error e)
    | (g₁, .ok row) =>
      if (g₁.t : Int) = (s.dataLength : Int) - g₁.horizon ∨ (g₁.t : Int) = (s.dataLength : Int) - 1 then
        ({ s with grid := { g₁ with done := true } }, .ok row)
      else
        match { s with grid := { g₁ with t := g₁.t + 1 } }.updateVariables with
        | (s₂, .error e) => (s₂, .error e)
        | (s₂, .ok ()) => (s₂, .ok row) := by
  unfold run Grid.front
  simp only
  cases record s.grid.arch s.grid.params s.grid.load s.grid.pv s.grid.soc c s.grid.production with
  | mk r x =>
    cases x with
    | error e => rfl
    | ok u =>
      cases h : r.last s.grid.arch with
      | error e => simp only [h]
      | ok l => simp only [h]; rfl

theorem front_sub (s : SplitGrid) (c : Control) :
    s.sub.front c = (({ s with grid := (s.grid.front c).1 } : SplitGrid).sub, (s.grid.front c).2) ∧
      Stays s { s with grid := (s.grid.front c).1 } ∧ (s.grid.front c).1.t = s.grid.t ∧
      (s.grid.states ≠ [] → (s.grid.front c).1.states.take 1 = s.grid.states.take 1) := by
  have key : ∀ (x : Grid × Except Err StateRow) (y : Grid × Except Err StateRow), x = s.sub.front c → y = s.grid.front c →
      x = (({ s with grid := y.1 } : SplitGrid).sub, y.2) ∧ Stays s { s with grid := y.1 } ∧ y.1.t = s.grid.t ∧
        (s.grid.states ≠ [] → y.1.states.take 1 = s.grid.states.take 1) := by
    intro x y hx hy
    unfold Grid.front at hx hy
    rw [show record s.sub.arch s.sub.params s.sub.load s.sub.pv s.sub.soc c s.sub.production =
      record s.grid.arch s.grid.params s.grid.load s.grid.pv s.grid.soc c s.grid.production from rfl] at hx
    have stay : ∀ g : Grid, g.arch = s.grid.arch → g.params = s.grid.params → g.horizon = s.grid.horizon →
        g.loads = s.grid.loads → g.pvs = s.grid.pvs → g.statuses = s.grid.statuses →
        g.importPrices = s.grid.importPrices → g.exportPrices = s.grid.exportPrices → g.co2s = s.grid.co2s →
        g.cur = s.grid.cur → g.next = s.grid.next → Stays s { s with grid := g } :=
      fun g a b c d e f g h i j k => ⟨rfl, rfl, rfl, rfl, a, b, c, d, e, f, g, h, i, fun _ => ⟨j, k⟩⟩
    cases hr : record s.grid.arch s.grid.params s.grid.load s.grid.pv s.grid.soc c s.grid.production with
    | mk r z =>
      rw [hr] at hx hy
      cases z with
      | error e =>
        subst hx hy
        exact ⟨rfl, stay _ rfl rfl rfl rfl rfl rfl rfl rfl rfl rfl rfl, rfl, fun _ => rfl⟩
      | ok u =>
        simp only at hx hy
        rw [show r.last s.sub.arch = r.last s.grid.arch from rfl] at hx
        cases hl : r.last s.grid.arch with
        | error e =>
          rw [hl] at hx hy
          subst hx hy
          exact ⟨rfl, stay _ rfl rfl rfl rfl rfl rfl rfl rfl rfl rfl rfl, rfl, fun _ => rfl⟩
        | ok l =>
          rw [hl] at hx hy
          simp only at hx hy
          subst hx hy
          refine ⟨rfl, stay _ rfl rfl rfl rfl rfl rfl rfl rfl rfl rfl rfl, rfl, ?_⟩
          intro hne
          simp only
          rw [List.take_append_of_le_length (List.length_pos_iff.mpr hne)]
  exact key _ _ rfl rfl

theorem run_sub {s : SplitGrid} (hd : s.dataLength = s.sub.dataLength) (hs : s.Safe) (c : Control) :
    s.sub.run c = ((s.run c).1.sub, (s.run c).2) ∧ (s.run c).1.dataLength = (s.run c).1.sub.dataLength ∧
      (s.run c).1.Safe := by
  obtain ⟨fs, st, ft, -⟩ := front_sub s c
  rw [grid_run_eq, run_eq, fs]
  cases hf : s.grid.front c with
  | mk g₁ x =>
    rw [hf] at st ft
    simp only at st ft
    generalize hS : ({ s with grid := g₁ } : SplitGrid) = S at st
    have hg : S.grid = g₁ := by subst hS; rfl
    have hl : S.dataLength = s.dataLength := by subst hS; rfl
    have dl : S.dataLength = S.sub.dataLength := by
      rw [hl, hd]
      unfold Grid.dataLength sub
      simp only [part_stays st, st.loads, st.pvs]
    have sf : S.Safe := by
      intro hne
      rw [st.inUse] at hne
      rw [st.horizon, hg, ft, hl]
      exact hs hne
    cases x with
    | error e => subst hS; exact ⟨rfl, dl, sf⟩
    | ok row =>
      simp only
      have c1 : S.sub.t = g₁.t := by subst hS; rfl
      have c2 : S.sub.horizon = g₁.horizon := by subst hS; rfl
      rw [c1, c2, ← dl, hl]
      by_cases hc : (g₁.t : Int) = (s.dataLength : Int) - g₁.horizon ∨ (g₁.t : Int) = (s.dataLength : Int) - 1
      · rw [if_pos hc, if_pos hc]
        subst hS
        exact ⟨rfl, dl, sf⟩
      · rw [if_neg hc, if_neg hc]
        generalize hs₁ : ({ s with grid := { g₁ with t := g₁.t + 1 } } : SplitGrid) = s₁
        have e : ({ S.sub with t := g₁.t + 1, horizon := g₁.horizon } : Grid) = s₁.sub := by subst hs₁ hS; rfl
        have hd₁ : s₁.dataLength = s₁.sub.dataLength := by
          rw [← e]
          subst hs₁ hS
          exact dl
        have hu : s₁.inUse = s.inUse := by subst hs₁; rfl
        have hh : s₁.grid.horizon = g₁.horizon := by subst hs₁; rfl
        have ht : s₁.grid.t = g₁.t + 1 := by subst hs₁; rfl
        have hl₁ : s₁.dataLength = s.dataLength := by subst hs₁; rfl
        have safe : s₁.Safe := by
          intro hne
          rw [hu, ← st.inUse] at hne
          obtain ⟨a, b⟩ := sf hne
          rw [hg] at a b
          rw [hh, ht, hl₁]
          rw [hl] at b
          omega
        have hup := update_sub hd₁ (by
          intro hne
          obtain ⟨a, b⟩ := safe hne
          omega)
        obtain ⟨k1, k2, k3, k4⟩ := update_stays s₁
        rw [e, hup]
        have d₂ : s₁.updateVariables.1.dataLength = s₁.updateVariables.1.sub.dataLength := by
          rw [k2, hd₁]
          unfold Grid.dataLength sub
          simp only [part_stays k1, k1.loads, k1.pvs]
        have safe₂ : s₁.updateVariables.1.Safe := by
          intro hne
          rw [k1.inUse] at hne
          rw [k1.horizon, k4, k2]
          exact safe hne
        revert d₂ safe₂
        cases s₁.updateVariables with
        | mk s₂ x =>
          cases x with
          | error e => exact fun a b => ⟨rfl, a, b⟩
          | ok u => exact fun a b => ⟨rfl, a, b⟩

theorem run_stays (s : SplitGrid) (c : Control) : Stays s (s.run c).1 ∧ (s.run c).1.dataLength = s.dataLength ∧
    (s.grid.states ≠ [] → (s.run c).1.grid.states.take 1 = s.grid.states.take 1) := by
  obtain ⟨-, st, -, hh⟩ := front_sub s c
  rw [run_eq]
  cases hf : s.grid.front c with
  | mk g₁ x =>
    rw [hf] at st hh
    simp only at st hh
    cases x with
    | error e => exact ⟨st, rfl, hh⟩
    | ok row =>
      simp only
      split
      · exact ⟨⟨st.inUse, st.default, st.hasSplit, st.limit, st.arch, st.params, st.horizon, st.loads, st.pvs, st.statuses,
          st.importPrices, st.exportPrices, st.co2s, st.noGrid⟩, rfl, hh⟩
      · have st₁ : Stays s { s with grid := { g₁ with t := g₁.t + 1 } } :=
          ⟨st.inUse, st.default, st.hasSplit, st.limit, st.arch, st.params, st.horizon, st.loads, st.pvs, st.statuses,
            st.importPrices, st.exportPrices, st.co2s, st.noGrid⟩
        obtain ⟨k1, k2, k3, -⟩ := update_stays { s with grid := { g₁ with t := g₁.t + 1 } }
        revert k1 k2 k3
        cases ({ s with grid := { g₁ with t := g₁.t + 1 } } : SplitGrid).updateVariables with
        | mk s₂ x =>
          intro k1 k2 k3
          have fin : (s.grid.states ≠ [] → s₂.grid.states.take 1 = s.grid.states.take 1) := by
            intro hne
            simp only at k3
            rw [k3]
            exact hh hne
          cases x with
          | error e => exact ⟨st₁.trans k1, k2, fin⟩
          | ok u => exact ⟨st₁.trans k1, k2, fin⟩

theorem story_sub {s : SplitGrid} (hd : s.dataLength = s.sub.dataLength) (hs : s.Safe) (cs : List Control) :
    s.story cs = s.sub.story cs := by
  induction cs generalizing s with
  | nil => rfl
  | cons c cs ih =>
    obtain ⟨e, hd', hs'⟩ := run_sub hd hs c
    simp only [SplitGrid.story, Grid.story, e, ih hd' hs', sub_view]

theorem _root_.Pymgrid.Legacy.Grid.update_eq (a : Grid) : a.updateVariables = match a.pvs[a.t]?, a.loads[a.t]? with
    | some pv, some load =>
      let nextPv := if a.t + 1 < a.dataLength then a.pvs[a.t + 1]? else none
      let nextLoad := if a.t + 1 < a.dataLength then a.loads[a.t + 1]? else none
      if a.arch.grid then
        match a.gridAt a.t with
        | .error e => ({ a with pv, load, nextPv, nextLoad }, .error e)
        | .ok cur =>
          if a.t + 1 < a.dataLength then
            match a.gridAt (a.t + 1) with
            | .error e => ({ a with pv, load, nextPv, nextLoad, cur }, .error e)
            | .ok next => ({ a with pv, load, nextPv, nextLoad, cur, next := some next, batterySoc := a.soc }, .ok ())
          else ({ a with pv, load, nextPv, nextLoad, cur, next := none, batterySoc := a.soc }, .ok ())
      else ({ a with pv, load, nextPv, nextLoad, batterySoc := a.soc }, .ok ())
    | _, _ => (a, .error .index) := rfl

/-- Updating the variables overwrites them. -/
theorem update_fresh (a : Grid) (load pv : ℚ) (nextLoad nextPv : Option ℚ) (cur : GridRow) (next : Option GridRow)
    (done : Bool) (batterySoc : ℚ) (hn : a.arch.grid = false → cur = a.cur ∧ next = a.next) :
    ({ a with load, pv, nextLoad, nextPv, cur, next, done, batterySoc } : Grid).updateVariables.2 = a.updateVariables.2 ∧
      (a.updateVariables.2 = .ok () →
        ({ ({ a with load, pv, nextLoad, nextPv, cur, next, done, batterySoc } : Grid).updateVariables.1 with
          done := false } : Grid) = { a.updateVariables.1 with done := false }) := by
  rw [Grid.update_eq, Grid.update_eq]
  simp only
  cases a.pvs[a.t]? with
  | none => exact ⟨rfl, by simp⟩
  | some p =>
    cases a.loads[a.t]? with
    | none => exact ⟨rfl, by simp⟩
    | some l =>
      simp only
      cases hg : a.arch.grid with
      | false =>
        obtain ⟨h1, h2⟩ := hn hg
        subst h1 h2
        exact ⟨rfl, fun _ => rfl⟩
      | true =>
        simp only [↓reduceIte]
        have ga : ∀ i, ({ a with load, pv, nextLoad, nextPv, cur, next, done, batterySoc } : Grid).gridAt i = a.gridAt i :=
          fun _ => rfl
        have gl : ({ a with load, pv, nextLoad, nextPv, cur, next, done, batterySoc } : Grid).dataLength = a.dataLength := rfl
        have gs : ({ a with load, pv, nextLoad, nextPv, cur, next, done, batterySoc } : Grid).soc = a.soc := rfl
        rw [ga, ga, gl, gs]
        cases a.gridAt a.t with
        | error e => exact ⟨rfl, by simp⟩
        | ok cu =>
          simp only
          by_cases hc : a.t + 1 < a.dataLength
          · simp only [hc, if_true]
            cases a.gridAt (a.t + 1) with
            | error e => exact ⟨rfl, by simp⟩
            | ok nx => exact ⟨rfl, fun _ => rfl⟩
          · simp only [hc, if_false]
            exact ⟨trivial, fun _ => trivial⟩

end SplitGrid

/-- The parts of a microgrid that no call changes. -/
structure SameData (g₀ g : Grid) : Prop where
  arch : g.arch = g₀.arch
  params : g.params = g₀.params
  horizon : g.horizon = g₀.horizon
  loads : g.loads = g₀.loads
  pvs : g.pvs = g₀.pvs
  statuses : g.statuses = g₀.statuses
  importPrices : g.importPrices = g₀.importPrices
  exportPrices : g.exportPrices = g₀.exportPrices
  co2s : g.co2s = g₀.co2s
  noGrid : g₀.arch.grid = false → g.cur = g₀.cur ∧ g.next = g₀.next
  first : g.states.take 1 = g₀.states

theorem SameData.stays {g₀ : Grid} {s s' : SplitGrid} (h : SameData g₀ s.grid) (st : s.Stays s')
    (hf : s'.grid.states.take 1 = s.grid.states.take 1) : SameData g₀ s'.grid where
  arch := st.arch.trans h.arch
  params := st.params.trans h.params
  horizon := st.horizon.trans h.horizon
  loads := st.loads.trans h.loads
  pvs := st.pvs.trans h.pvs
  statuses := st.statuses.trans h.statuses
  importPrices := st.importPrices.trans h.importPrices
  exportPrices := st.exportPrices.trans h.exportPrices
  co2s := st.co2s.trans h.co2s
  noGrid hg := by
    have a := h.noGrid hg
    have b := st.noGrid (by rw [h.arch]; exact hg)
    exact ⟨b.1.trans a.1, b.2.trans a.2⟩
  first := hf.trans h.first

/-- The flags of the data sets. -/
def Mode (n : Nat) (s : SplitGrid) : Option ℚ → Prop
  | none => s.hasSplit = false ∧ s.default = .all ∧ s.inUse = .all ∧ s.dataLength = n
  | some p => s.hasSplit = true ∧ s.default = .training ∧ s.limit = trainRows n p

namespace SplitGrid

/-- What `reset` prepares before it updates the variables. -/
def prepared (s : SplitGrid) (b : Bool) : SplitGrid :=
  let g := { s.grid with states := s.grid.states.take 1, production := {}, costs := [], co2 := [], t := 0 }
  let s₁ := { s with grid := g, inUse := if b = true ∧ s.default = DataSet.training then .testing else s.default }
  { s₁ with dataLength := min (s₁.part g.loads).length (s₁.part g.pvs).length }

theorem reset_eq (s : SplitGrid) (b : Bool) : s.reset b = match (s.prepared b).updateVariables with
    | (s, .error e) => (s, .error e)
    | (s, .ok ()) => ({ s with grid := { s.grid with done := false } }, .ok ()) := rfl

end SplitGrid

theorem SameData.prepared {g₀ : Grid} {s : SplitGrid} (h : SameData g₀ s.grid) (b : Bool) :
    SameData g₀ (s.prepared b).grid where
  arch := h.arch
  params := h.params
  horizon := h.horizon
  loads := h.loads
  pvs := h.pvs
  statuses := h.statuses
  importPrices := h.importPrices
  exportPrices := h.exportPrices
  co2s := h.co2s
  noGrid := h.noGrid
  first := by
    have := h.first
    simp only [SplitGrid.prepared, List.take_take]
    simpa using this

theorem reset_fields (s : SplitGrid) (b : Bool) : (s.prepared b).Stays (s.reset b).1 ∧
    (s.reset b).1.dataLength = (s.prepared b).dataLength ∧
    (s.reset b).1.grid.states = (s.prepared b).grid.states ∧ (s.reset b).1.grid.t = 0 := by
  obtain ⟨k1, k2, k3, k4⟩ := (s.prepared b).update_stays
  rw [SplitGrid.reset_eq]
  revert k1 k2 k3 k4
  cases (s.prepared b).updateVariables with
  | mk s₂ x =>
    intro k1 k2 k3 k4
    cases x with
    | error e => exact ⟨k1, k2, k3, k4⟩
    | ok u =>
      exact ⟨⟨k1.inUse, k1.default, k1.hasSplit, k1.limit, k1.arch, k1.params, k1.horizon, k1.loads, k1.pvs, k1.statuses,
        k1.importPrices, k1.exportPrices, k1.co2s, k1.noGrid⟩, k2, k3, k4⟩

theorem Mode.congr {n : Nat} {s s' : SplitGrid} {o : Option ℚ} (h : Mode n s o) (h1 : s'.hasSplit = s.hasSplit)
    (h2 : s'.default = s.default) (h3 : s'.limit = s.limit) (h4 : o = none → s'.inUse = .all ∧ s'.dataLength = n) :
    Mode n s' o := by
  cases o with
  | none => exact ⟨h1.trans h.1, h2.trans h.2.1, (h4 rfl).1, (h4 rfl).2⟩
  | some p => exact ⟨h1.trans h.1, h2.trans h.2.1, h3.trans h.2.2⟩

/-- What is known after any history. -/
structure Known (g₀ : Grid) (s : SplitGrid) (o : Option ℚ) : Prop where
  data : SameData g₀ s.grid
  mode : Mode g₀.dataLength s o

theorem Known.reset {g₀ : Grid} {s : SplitGrid} {o : Option ℚ} (h : SameData g₀ s.grid)
    (h1 : o = none → s.hasSplit = false ∧ s.default = .all)
    (h2 : ∀ p, o = some p → s.hasSplit = true ∧ s.default = .training ∧ s.limit = trainRows g₀.dataLength p) (b : Bool) :
    Known g₀ (s.reset b).1 o := by
  obtain ⟨k1, k2, k3, -⟩ := reset_fields s b
  refine ⟨(h.prepared b).stays k1 (by rw [k3]), ?_⟩
  cases o with
  | none =>
    obtain ⟨a, d⟩ := h1 rfl
    have u : (s.prepared b).inUse = .all := by simp [SplitGrid.prepared, d]
    refine ⟨k1.hasSplit.trans a, k1.default.trans d, k1.inUse.trans u, k2.trans ?_⟩
    have e : ∀ l, (s.prepared b).part l = l := by intro l; unfold SplitGrid.part; rw [u]
    show min ((s.prepared b).part s.grid.loads).length ((s.prepared b).part s.grid.pvs).length = _
    rw [e, e, h.loads, h.pvs]
    rfl
  | some p =>
    obtain ⟨a, d, l⟩ := h2 p rfl
    exact ⟨k1.hasSplit.trans a, k1.default.trans d, k1.limit.trans l⟩

theorem Known.apply {g₀ : Grid} (hne : g₀.states ≠ []) {s : SplitGrid} {o : Option ℚ} (h : Known g₀ s o) (op : SOp) :
    Known g₀ (op.apply s) (op.inForce o) := by
  cases op with
  | run c =>
    have : SOp.inForce o (.run c) = o := by cases o <;> rfl
    rw [this]
    obtain ⟨k1, k2, k3⟩ := s.run_stays c
    have hs : s.grid.states ≠ [] := by
      intro e
      apply hne
      rw [← h.data.first, e]
      rfl
    refine ⟨h.data.stays k1 (k3 hs), h.mode.congr k1.hasSplit k1.default k1.limit ?_⟩
    rintro rfl
    exact ⟨k1.inUse.trans h.mode.2.2.1, k2.trans h.mode.2.2.2⟩
  | reset b =>
    have : SOp.inForce o (.reset b) = o := by cases o <;> rfl
    rw [this]
    refine Known.reset h.data ?_ ?_ b
    · rintro rfl
      exact ⟨h.mode.1, h.mode.2.1⟩
    · rintro p rfl
      exact h.mode
  | split p c =>
    unfold SOp.apply SplitGrid.trainTestSplit
    cases o with
    | none =>
      simp only [h.mode.1, ↓reduceIte]
      refine Known.reset (s := { s with limit := _, hasSplit := true, default := .training, inUse := .training }) h.data
        ?_ ?_ false
      · intro e; cases c <;> simp [SOp.inForce] at e
      · intro q e
        have : q = p := by cases c <;> simpa [SOp.inForce, eq_comm] using e
        subst this
        refine ⟨rfl, rfl, ?_⟩
        simp only [trainRows, h.mode.2.2.2]
    | some q =>
      cases c with
      | true =>
        simp only [h.mode.1, Bool.true_eq_false, ↓reduceIte]
        refine Known.reset (s := { s with hasSplit := false, default := .all, inUse := .all }) h.data ?_ ?_ false
        · exact fun _ => ⟨rfl, rfl⟩
        · intro r e; simp [SOp.inForce] at e
      | false =>
        simp only [h.mode.1, Bool.true_eq_false, Bool.false_eq_true, ↓reduceIte]
        refine Known.reset (s := s) h.data ?_ ?_ false
        · intro e; simp [SOp.inForce] at e
        · intro r e
          have : q = r := by simpa [SOp.inForce] using e
          subst this
          exact h.mode

theorem Known.after {g₀ : Grid} (hne : g₀.states ≠ []) {s : SplitGrid} {o : Option ℚ} (h : Known g₀ s o) (ops : List SOp) :
    Known g₀ (afterS s ops) (ops.foldl SOp.inForce o) := by
  induction ops generalizing s o with
  | nil => exact h
  | cons op ops ih => exact ih (h.apply hne op)

/-- What the constructor leaves behind. -/
theorem create_shape {arch : Arch} {params : Params} {loads pvs statuses importPrices exportPrices co2s : List ℚ}
    {horizon : Nat} {socStart : ℚ} {status : StateRow} {g : Grid}
    (h : create arch params loads pvs statuses importPrices exportPrices co2s horizon socStart status = .ok g) :
    ∃ load pv nextLoad nextPv cur next, g =
      { arch := arch, params := params, loads := loads, pvs := pvs, statuses := statuses, importPrices := importPrices,
        exportPrices := exportPrices, co2s := co2s, horizon := horizon, load := load, pv := pv, nextLoad := nextLoad,
        nextPv := nextPv, cur := cur, next := next, states := [status], batterySoc := socStart } ∧
      (arch.grid = false → cur = ⟨0, 0, 0, 0⟩ ∧ next = none) := by
  unfold create at h
  split at h
  · simp only at h
    split at h
    · rename_i hg
      split at h
      · simp at h
      · injection h with h
        exact ⟨_, _, _, _, _, _, h.symm, fun k => by simp [hg] at k⟩
    · injection h with h
      exact ⟨_, _, _, _, _, _, h.symm, fun _ => ⟨rfl, rfl⟩⟩
  · simp at h

theorem Known.create {arch : Arch} {params : Params} {loads pvs statuses importPrices exportPrices co2s : List ℚ}
    {horizon : Nat} {socStart : ℚ} {status : StateRow} {g : Grid}
    (h : create arch params loads pvs statuses importPrices exportPrices co2s horizon socStart status = .ok g) :
    Known g (SplitGrid.ofGrid g) none ∧ g.states ≠ [] := by
  obtain ⟨_, _, _, _, _, _, rfl, -⟩ := create_shape h
  exact ⟨⟨⟨rfl, rfl, rfl, rfl, rfl, rfl, rfl, rfl, rfl, fun _ => ⟨rfl, rfl⟩, rfl⟩, rfl, rfl, rfl, rfl⟩, by simp⟩

/-- What the next reset depends on. -/
def Settled (n : Nat) (s : SplitGrid) : Option ℚ → Prop
  | none => s.default = .all
  | some p => s.default = .training ∧ s.limit = trainRows n p

theorem Mode.settled {n : Nat} {s : SplitGrid} {o : Option ℚ} (h : Mode n s o) : Settled n s o := by
  cases o with
  | none => exact h.2.1
  | some p => exact h.2

/-- A reset chooses a part of the data, and what follows is what the microgrid of that part does. -/
theorem Settled.reset_sub {arch : Arch} {params : Params} {loads pvs statuses importPrices exportPrices co2s : List ℚ}
    {horizon : Nat} {socStart : ℚ} {status : StateRow} {g₀ g : Grid} {s : SplitGrid} {o : Option ℚ} {b : Bool}
    (h₀ : Legacy.create arch params loads pvs statuses importPrices exportPrices co2s horizon socStart status = .ok g₀)
    (hd : SameData g₀ s.grid) (hm : Settled g₀.dataLength s o)
    (h : Legacy.create arch params (chosen g₀.dataLength o b loads) (chosen g₀.dataLength o b pvs)
      (chosen g₀.dataLength o b statuses) (chosen g₀.dataLength o b importPrices) (chosen g₀.dataLength o b exportPrices)
      (chosen g₀.dataLength o b co2s) horizon socStart status = .ok g)
    (hs : o ≠ none → 2 ≤ horizon ∧ horizon ≤ g.dataLength) :
    (s.reset b).2 = g.reset.2 ∧ ((s.reset b).2 = .ok () →
      (s.reset b).1.sub = g.reset.1 ∧ ∀ cs, (s.reset b).1.story cs = g.reset.1.story cs) := by
  have hpart : ∀ l, (s.prepared b).part l = chosen g₀.dataLength o b l := by
    intro l
    cases o with
    | none =>
      have : (s.prepared b).inUse = .all := by simp [SplitGrid.prepared, show s.default = .all from hm]
      unfold SplitGrid.part
      rw [this]
      rfl
    | some p =>
      have hl : (s.prepared b).limit = trainRows g₀.dataLength p := hm.2
      cases b with
      | false =>
        have : (s.prepared false).inUse = .training := by simp [SplitGrid.prepared, hm.1]
        unfold SplitGrid.part
        rw [this, hl]
        rfl
      | true =>
        have : (s.prepared true).inUse = .testing := by simp [SplitGrid.prepared, hm.1]
        unfold SplitGrid.part
        rw [this, hl]
        rfl
  have dp := hd.prepared b
  have hfirst : (s.prepared b).grid.states = g₀.states := by
    have := dp.first
    simpa [SplitGrid.prepared, List.take_take] using this
  obtain ⟨l₀, p₀, nl₀, np₀, cu₀, nx₀, e₀, z₀⟩ := create_shape h₀
  obtain ⟨l₁, p₁, nl₁, np₁, cu₁, nx₁, e₁, z₁⟩ := create_shape h
  have hg : g.states = [status] := by subst e₁; rfl
  generalize ha : ({ g with states := g.states.take 1, production := {}, costs := [], co2 := [], t := 0 } : Grid) = a
  have hsub : (s.prepared b).sub =
      { a with
        load := s.grid.load, pv := s.grid.pv, nextLoad := s.grid.nextLoad, nextPv := s.grid.nextPv, cur := s.grid.cur,
        next := s.grid.next, done := s.grid.done, batterySoc := s.grid.batterySoc } := by
    have t1 : (s.prepared b).grid.states = [status] := by rw [hfirst, e₀]
    have t2 := dp.loads
    have t3 := dp.pvs
    have t4 := dp.statuses
    have t5 := dp.importPrices
    have t6 := dp.exportPrices
    have t7 := dp.co2s
    have t8 := dp.arch
    have t9 := dp.params
    have t10 := dp.horizon
    rw [e₀] at t2 t3 t4 t5 t6 t7 t8 t9 t10
    subst ha
    rw [hg]
    unfold SplitGrid.sub
    simp only [hpart, t1, t2, t3, t4, t5, t6, t7, t8, t9, t10]
    rw [e₁]
    rfl
  have hdl : (s.prepared b).dataLength = (s.prepared b).sub.dataLength := rfl
  have hag : a.arch = arch ∧ a.cur = cu₁ ∧ a.next = nx₁ ∧ a.t = 0 := by subst ha e₁; exact ⟨rfl, rfl, rfl, rfl⟩
  have hno : a.arch.grid = false → s.grid.cur = a.cur ∧ s.grid.next = a.next := by
    intro hf
    rw [hag.1] at hf
    rw [hag.2.1, hag.2.2.1, (z₁ hf).1, (z₁ hf).2]
    have := hd.noGrid (by rw [e₀]; exact hf)
    rw [e₀] at this
    exact ⟨this.1.trans (z₀ hf).1, this.2.trans (z₀ hf).2⟩
  have hall : (s.prepared b).inUse ≠ .all → o ≠ none := by
    rintro hne rfl
    exact hne (by simp [SplitGrid.prepared, show s.default = .all from hm])
  have hlen : (s.prepared b).dataLength = g.dataLength := by rw [hdl, hsub]; subst ha; rfl
  have hhor : (s.prepared b).grid.horizon = horizon := by rw [dp.horizon, e₀]
  have safe : (s.prepared b).Safe := by
    intro hne
    obtain ⟨k1, k2⟩ := hs (hall hne)
    have : (s.prepared b).grid.t = 0 := rfl
    rw [hhor, hlen, this]
    omega
  have hup := SplitGrid.update_sub hdl (by
    intro hne
    obtain ⟨k1, k2⟩ := safe hne
    omega)
  obtain ⟨f1, f2⟩ := SplitGrid.update_fresh a s.grid.load s.grid.pv s.grid.nextLoad s.grid.nextPv s.grid.cur s.grid.next
    s.grid.done s.grid.batterySoc hno
  rw [← hsub, hup] at f1 f2
  obtain ⟨r1, r2, r3, r4⟩ := reset_fields s b
  have gr : g.reset = match a.updateVariables with
      | (g, .error e) => (g, .error e)
      | (g, .ok ()) => ({ g with done := false }, .ok ()) := by subst ha; rfl
  have dl' : (s.reset b).1.dataLength = (s.reset b).1.sub.dataLength := by
    rw [r2, hdl]
    unfold Grid.dataLength SplitGrid.sub
    simp only [SplitGrid.part_stays r1, r1.loads, r1.pvs]
  have safe' : (s.reset b).1.Safe := by
    intro hne
    rw [r1.inUse] at hne
    have := safe hne
    rw [r1.horizon, r4, r2]
    exact this
  have main : (s.reset b).2 = g.reset.2 ∧ ((s.reset b).2 = .ok () → (s.reset b).1.sub = g.reset.1) := by
    rw [SplitGrid.reset_eq, gr]
    revert f1 f2
    cases (s.prepared b).updateVariables with
    | mk s₂ x =>
      cases a.updateVariables with
      | mk a₂ y =>
        intro f1 f2
        simp only at f1 f2
        subst f1
        cases x with
        | error e => exact ⟨rfl, by simp⟩
        | ok u => exact ⟨rfl, fun _ => f2 rfl⟩
  refine ⟨main.1, fun ok => ⟨main.2 ok, fun cs => ?_⟩⟩
  rw [SplitGrid.story_sub dl' safe', main.2 ok]

/-- A split is a reset of a microgrid whose flags have been set. -/
theorem Known.split {g₀ : Grid} {s : SplitGrid} {o : Option ℚ} (h : Known g₀ s o) (p : ℚ) (c : Bool) :
    ∃ s', s.trainTestSplit p c = s'.reset false ∧ SameData g₀ s'.grid ∧
      Settled g₀.dataLength s' (SOp.inForce o (.split p c)) := by
  refine ⟨_, rfl, ?_⟩
  cases o with
  | none =>
    simp only [h.mode.1, ↓reduceIte]
    refine ⟨h.data, ?_⟩
    have : SOp.inForce none (.split p c) = some p := by cases c <;> rfl
    rw [this]
    exact ⟨rfl, by simp only [trainRows, h.mode.2.2.2]⟩
  | some q =>
    cases c with
    | true =>
      simp only [h.mode.1, Bool.true_eq_false, ↓reduceIte]
      exact ⟨h.data, rfl⟩
    | false =>
      simp only [h.mode.1, Bool.true_eq_false, Bool.false_eq_true, ↓reduceIte]
      exact ⟨h.data, h.mode.2⟩

end Pymgrid.Legacy
