import Verif.Model.WeakGrid
import Verif.Lemmas.PlanCarried
import Verif.Lemmas.SeriesHist
import Verif.Props.Convert
import Verif.Props.Window

set_option autoImplicit false

/-!
# C107: `weak_grid` tells whether the grid ever fails
-/

namespace Pymgrid

open Module

/-- The series handed to the constructor has an outage in row `i`. -/
def GridDown (rows : List (List ℚ)) (i : Nat) : Prop := ∃ a b c, rows[i]? = some [a, b, c, 0]

section
variable {mi me cc : ℚ} {ncols : Nat} {rows : List (List ℚ)} {param : FKind} {horizon i : Nat} {fs : Int} {r : Bool}
  {m : Module}

theorem gridRows_down (hrect : ∀ r ∈ rows, r.length = ncols) (h34 : ncols = 3 ∨ ncols = 4) (i : Nat) :
    GridDown (gridRows ncols rows) i ↔ GridDown rows i := by
  unfold GridDown gridRows
  rcases h34 with rfl | rfl
  · constructor
    · rintro ⟨a, b, c, h⟩
      rw [if_neg (by decide), List.getElem?_map, Option.map_eq_some_iff] at h
      obtain ⟨row, h1, h2⟩ := h
      have h3 := hrect row (List.mem_of_getElem? h1)
      match row, h3 with
      | [x, y, z], _ => simp at h2
    · rintro ⟨a, b, c, h⟩
      have := hrect _ (List.mem_of_getElem? h)
      simp at this
  · rw [if_pos rfl]

/-- The module after any history: it still has the series it was made with. -/
theorem grid_history (hrect : ∀ r ∈ rows, r.length = ncols) (hm : mkGrid mi me ncols rows param horizon i fs cc r = .ok m)
    (ops : List MOp) : ∃ t, (runOps m ops).GridWF ⟨mi, me, cc⟩ t ∧ rows ≠ [] ∧ t.rows = gridRows ncols rows ∧
      (ncols = 3 ∨ ncols = 4) ∧ (param.Works 4 horizon → t.Works) := by
  obtain ⟨t, mn, mx, wf, -, hne, s, h34, -⟩ := mkGrid_inv hrect hm
  obtain ⟨t', s', wf'⟩ := wf.ops ops
  exact ⟨t', wf', hne, by rw [s'.rows, s.rows]; rfl, h34, fun hw => s'.works (s.works (TS.blank_works hw))⟩

/-- C107: after any history `weak_grid` is defined, and true exactly if some row of the series has status 0. -/
theorem C107_weak_iff (hrect : ∀ r ∈ rows, r.length = ncols)
    (hm : mkGrid mi me ncols rows param horizon i fs cc r = .ok m) (ops : List MOp) :
    ∃ b, (runOps m ops).weakGrid = .ok b ∧ (b = true ↔ ∃ k, GridDown rows k) := by
  obtain ⟨t, wf, hne, hrows, h34, hwk⟩ := grid_history hrect hm ops
  have hne' : t.rows ≠ [] := by
    rw [hrows]; unfold gridRows; split
    · exact hne
    · simpa using hne
  cases hmin : (t.rows.map fun r => r.getLast?.getD 0).min? with
  | none =>
    rw [List.min?_eq_none_iff, List.map_eq_nil_iff] at hmin
    exact absurd hmin hne'
  | some x =>
    refine ⟨decide (x < 1), by unfold weakGrid; rw [wf.kind]; simp only [hmin], ?_⟩
    rw [List.min?_eq_some_iff] at hmin
    obtain ⟨hx, hle⟩ := hmin
    rw [decide_eq_true_eq]
    have last : ∀ (k : Nat) (row : List ℚ), t.rows[k]? = some row → ∃ a b c st, row = [a, b, c, st] ∧ (st = 0 ∨ st = 1) := by
      intro k row hk
      obtain ⟨a, b, c, st, h1, h2, -⟩ := wf.row hk
      exact ⟨a, b, c, st, h1, h2⟩
    constructor
    · intro h1
      obtain ⟨row, hrow, rfl⟩ := List.mem_map.mp hx
      obtain ⟨k, hk⟩ := List.mem_iff_getElem?.mp hrow
      obtain ⟨a, b, c, st, rfl, hst⟩ := last k row hk
      refine ⟨k, (gridRows_down hrect h34 k).mp ⟨a, b, c, ?_⟩⟩
      rw [← hrows, hk]
      simp only [List.getLast?_cons_cons, List.getLast?_singleton, Option.getD_some] at h1
      rcases hst with rfl | rfl
      · rfl
      · exact absurd h1 (lt_irrefl _)
    · rintro ⟨k, hk⟩
      obtain ⟨a, b, c, hk⟩ := (gridRows_down hrect h34 k).mpr hk
      rw [← hrows] at hk
      have := hle 0 (List.mem_map.mpr ⟨_, List.mem_of_getElem? hk, by simp⟩)
      linarith

/-- C107: a grid that is not weak never fails.  Whatever happened before, as long as there is data, every request within the
    capacity of the line is met in full. -/
theorem C107_strong (hrect : ∀ r ∈ rows, r.length = ncols)
    (hm : mkGrid mi me ncols rows param horizon i fs cc r = .ok m) (hw : param.Works 4 horizon) (ops : List MOp)
    (hs : (runOps m ops).weakGrid = .ok false) (hl : (runOps m ops).currentStep < rows.length) {q : ℚ}
    (hq : -me ≤ q ∧ q ≤ mi) :
    ∃ m' o, (runOps m ops).step (.num q) false = (m', .ok o) ∧ o.info.provided.getD 0 - o.info.absorbed.getD 0 = q := by
  obtain ⟨b, h1, h2⟩ := C107_weak_iff hrect hm ops
  rw [hs] at h1
  injection h1 with h1
  subst h1
  have hno : ¬ ∃ k, GridDown rows k := fun h => absurd (h2.mpr h) (by decide)
  obtain ⟨t, wf, hne, hrows, h34, hwk⟩ := grid_history hrect hm ops
  have hlen : t.rows.length = rows.length := by
    rw [hrows]; unfold gridRows; split
    · rfl
    · rw [List.length_map]
  have hr : t.rows[(runOps m ops).currentStep]? = some (t.rows[(runOps m ops).currentStep]'(by omega)) :=
    List.getElem?_eq_getElem _
  obtain ⟨a, b, c, st, hrow, hst, -⟩ := wf.row hr
  rw [hrow] at hr
  have hst1 : st = 1 := by
    rcases hst with rfl | h
    · exact absurd ⟨_, (gridRows_down hrect h34 _).mp ⟨a, b, c, by rw [← hrows]; exact hr⟩⟩ hno
    · exact h
  subst hst1
  have hun := (wf.unnormalizedStep q).2 _ _ _ _ hr
  rw [wf.ts.step_eq, request_num]
  simp only [mul_one] at hun
  rcases le_or_gt 0 q with h0 | h0
  · have hun := hun.1 h0
    rw [if_neg (fun hh => absurd hh.2 (not_lt.mpr hq.2)), min_eq_left hq.2] at hun
    obtain ⟨pre, row, f, obs, -, -, -, -, he'⟩ := wf.ts.stepEnergy_ok hun (by simp [wf.prov]) (by simp) (hwk hw)
    simp only [he']
    exact ⟨_, _, rfl, by simp⟩
  · have hun := hun.2 h0
    have hq' : -q ≤ me := by linarith [hq.1]
    rw [if_neg (fun hh => absurd hh.2 (not_lt.mpr hq')), min_eq_left hq'] at hun
    obtain ⟨pre, row, f, obs, -, -, -, -, he'⟩ := wf.ts.stepEnergy_ok hun (by simp) (by simp [wf.abs]) (hwk hw)
    simp only [he']
    exact ⟨_, _, rfl, by simp⟩

/-- C107: during an outage nothing is exchanged, whatever is asked for. -/
theorem C107_down (hrect : ∀ r ∈ rows, r.length = ncols)
    (hm : mkGrid mi me ncols rows param horizon i fs cc r = .ok m) (ops : List MOp)
    (hd : GridDown rows (runOps m ops).currentStep) {a : Act} {n : Bool} {m' : Module} {o : StepOut}
    (hst : (runOps m ops).step a n = (m', .ok o)) : o.info.provided.getD 0 = 0 ∧ o.info.absorbed.getD 0 = 0 := by
  obtain ⟨t, wf, hne, hrows, h34, hwk⟩ := grid_history hrect hm ops
  obtain ⟨x, y, z, hr⟩ := (gridRows_down hrect h34 _).mpr hd
  rw [← hrows] at hr
  rw [wf.ts.step_eq] at hst
  cases hq : (runOps m ops).request a n with
  | error e => rw [hq] at hst; simp at hst
  | ok q =>
    rw [hq] at hst
    simp only at hst
    have hun := (wf.unnormalizedStep q).2 _ _ _ _ hr
    simp only [mul_zero] at hun
    rcases wf.ts.stepEnergy q with ⟨e, h1⟩ | ⟨u, pre, row, hu, -, -, h1⟩
    · rw [h1] at hst; simp at hst
    · have hinfo : u.info.provided.getD 0 = 0 ∧ u.info.absorbed.getD 0 = 0 := by
        rcases le_or_gt 0 q with h0 | h0
        · have := hun.1 h0
          split at this
          · rw [this] at hu; simp at hu
          · rw [this] at hu
            simp only [Prod.mk.injEq, Except.ok.injEq, true_and] at hu
            subst hu
            simp [min_eq_right h0]
        · have := hun.2 h0
          split at this
          · rw [this] at hu; simp at hu
          · rw [this] at hu
            simp only [Prod.mk.injEq, Except.ok.injEq, true_and] at hu
            subst hu
            simp [min_eq_right (by linarith : (0 : ℚ) ≤ -q)]
      rcases h1 with ⟨f, -, -, obs, h1⟩ | ⟨e, -, h1⟩
      · rw [h1] at hst
        simp only [Prod.mk.injEq, Except.ok.injEq] at hst
        obtain ⟨-, rfl⟩ := hst
        exact hinfo
      · rw [h1] at hst; simp at hst

end

/-! ### Converted microgrids -/

/-- C107: the grid of a converted microgrid is weak exactly if the legacy microgrid has an hour with status 0. -/
theorem C107_converted {g : Legacy.Grid} {r : Bool} {m : Microgrid} (ha : g.Aligned) (h : g.toModular r = .ok m)
    (hg : g.arch.grid = true) : ∃ x b, m.modulesOf "grid" = [x] ∧ x.weakGrid = .ok b ∧ (b = true ↔ (0 : ℚ) ∈ g.statuses) := by
  obtain ⟨x, p, t, h1, h2, -, -, -, -, -, -⟩ := (Legacy.C54_components_partial ha h).grid hg
  have hf := Legacy.find_grid g r
  rw [if_pos hg] at hf
  obtain ⟨y, hy, hm⟩ := Legacy.modulesOf_one h hf
  rw [h1] at hm
  injection hm with hm
  subst hm
  obtain ⟨b, h3, h4⟩ := C107_weak_iff (Legacy.gridSeries_rect g) hy []
  refine ⟨x, b, h1, h3, h4.trans ⟨?_, fun h0 => ?_⟩⟩
  · rintro ⟨k, a, b, c, hk⟩
    obtain ⟨a', b', c', d', he, -, -, -, hd⟩ := Legacy.gridSeries_entries _ (List.mem_of_getElem? hk)
    simp only [List.cons.injEq, and_true] at he
    rw [he.2.2.2]
    exact hd
  · obtain ⟨k, hk, h0⟩ := List.mem_iff_getElem.mp h0
    obtain ⟨a1, a2, a3⟩ := ha hg
    refine ⟨k, g.importPrices[k]'(by omega), g.exportPrices[k]'(by omega), g.co2s[k]'(by omega), ?_⟩
    exact Legacy.gridSeries_get (row := ⟨0, _, _, _⟩) ⟨by rw [List.getElem?_eq_getElem hk, h0], List.getElem?_eq_getElem _,
      List.getElem?_eq_getElem _, List.getElem?_eq_getElem _⟩

/-! ### Examples and limits -/

/-- Non-vacuity: the example grid fails in its second step and is weak, also after a step. -/
example : exGrid.weakGrid = .ok true ∧ (runOps exGrid [.step (.num 20) false]).weakGrid = .ok true ∧
    GridDown [[1/5, 1/10, 1/2, 1], [3/10, 1/10, 1/2, 0], [2/5, 1/10, 1/2, 1]]
      (runOps exGrid [.step (.num 20) false]).currentStep := by
  have key : ∀ m : Module, m.weakGrid.toOption = some true → m.weakGrid = .ok true := by
    intro m h
    cases hw : m.weakGrid with
    | error e => rw [hw] at h; simp [Except.toOption] at h
    | ok b => rw [hw] at h; simpa [Except.toOption] using h
  exact ⟨key _ (by decide +kernel), key _ (by decide +kernel), 3/10, 1/10, 1/2, by decide +kernel⟩

/-- The same grid without status column. -/
def solidGrid : Module := okModule (mkGrid 100 50 3 [[1/5, 1/10, 1/2], [3/10, 1/10, 1/2], [2/5, 1/10, 1/2]] .oracle 2 0 (-1)
  (1/10) true)

theorem solidGrid_ok : mkGrid 100 50 3 [[1/5, 1/10, 1/2], [3/10, 1/10, 1/2], [2/5, 1/10, 1/2]] .oracle 2 0 (-1) (1/10) true =
    .ok solidGrid := okModule_eq (by decide +kernel)

/-- Non-vacuity of `C107_strong`: it is not weak, and exports 50 units in its second step. -/
example : ∃ m' o, (runOps solidGrid [.step (.num 20) false]).step (.num (-50)) false = (m', .ok o) ∧
    o.info.provided.getD 0 - o.info.absorbed.getD 0 = -50 := by
  refine C107_strong (by simp) solidGrid_ok (by simp [FKind.Works]) [.step (.num 20) false] ?_ (by decide +kernel)
    (by norm_num)
  obtain ⟨b, h1, h2⟩ := C107_weak_iff (by simp) solidGrid_ok [.step (.num 20) false]
  rw [h1]
  cases b with
  | false => rfl
  | true =>
    obtain ⟨k, a, b, c, hk⟩ := h2.mp rfl
    have := List.mem_of_getElem? hk
    simp at this

/-- Limit: `weak_grid` looks at the whole series, not at the episode.  The only outages of this grid are before its initial
    step, so none of them happens, yet it is weak. -/
theorem C107_outside_episode : ∃ m, mkGrid 100 50 4 [[1, 1, 1, 0], [1/5, 1/10, 1/2, 1], [2/5, 1/10, 1/2, 1]] .none 0 1 3 (1/10) false =
      .ok m ∧ m.weakGrid = .ok true ∧ m.initialStep = 1 ∧
      ∀ k, 1 ≤ k → ¬ GridDown [[1, 1, 1, 0], [1/5, 1/10, 1/2, 1], [2/5, 1/10, 1/2, 1]] k := by
  have hm : mkGrid 100 50 4 [[1, 1, 1, 0], [1/5, 1/10, 1/2, 1], [2/5, 1/10, 1/2, 1]] .none 0 1 3 (1/10) false =
      .ok (okModule (mkGrid 100 50 4 [[1, 1, 1, 0], [1/5, 1/10, 1/2, 1], [2/5, 1/10, 1/2, 1]] .none 0 1 3 (1/10) false)) :=
    okModule_eq (by decide +kernel)
  obtain ⟨b, h1, h2⟩ := C107_weak_iff (by simp) hm []
  refine ⟨_, hm, ?_, by decide +kernel, ?_⟩
  · have : b = true := h2.mpr ⟨0, 1, 1, 1, rfl⟩
    rw [← this]
    exact h1
  · rintro k hk ⟨a, b, c, h⟩
    match k, hk with
    | 1, _ => simp at h
    | 2, _ => simp at h
    | k + 3, _ => simp at h

end Pymgrid
