import Verif.Model.LegacyForecast
import Verif.Props.Legacy

set_option autoImplicit false

/-!
# C115: forecasts of the legacy microgrid are the values to come
-/

namespace Pymgrid.Legacy

/-- Runs that all succeed. -/
def Grid.runs (g : Grid) : List Control → Option Grid
  | [] => some g
  | c :: cs =>
    match g.run c with
    | (g', .ok _) => g'.runs cs
    | (_, .error _) => none

private theorem runs_after {g g' : Grid} {cs : List Control} (h : g.runs cs = some g') : g' = after g (cs.map Op.run) := by
  induction cs generalizing g with
  | nil => simpa [Grid.runs, after] using h.symm
  | cons c cs ih =>
    unfold Grid.runs at h
    split at h
    · rename_i g₁ row he
      have := ih h
      simp only [after, List.map_cons, List.foldl_cons, Op.apply, he] at this ⊢
      exact this
    · simp at h

private theorem run_time {g g' : Grid} {c : Control} {row : StateRow} (h : g.run c = (g', .ok row)) :
    (g.done = true → g'.done = true) ∧ (g'.done = false → g'.t = g.t + 1) := by
  obtain ⟨e, -, -, -, -, -, -, -, -, h1, h2⟩ := Grid.run_ok h
  by_cases hend : g.AtEnd
  · rw [h1 hend]
    simp
  · have fr := ({ g.written c e g'.production with t := g.t + 1 } : Grid).updateVariables_frame.2
    rw [h2 hend] at fr
    exact ⟨fun hd => fr.done.trans hd, fun _ => fr.t⟩

private theorem runs_time {g g' : Grid} {cs : List Control} (h : g.runs cs = some g') (hd : g'.done = false) :
    g'.t = g.t + cs.length := by
  have sticky : ∀ {cs : List Control} {g : Grid}, g.runs cs = some g' → g.done = true → g'.done = true := by
    intro cs
    induction cs with
    | nil =>
      intro g h h'
      simp only [Grid.runs, Option.some.injEq] at h
      exact h ▸ h'
    | cons c cs ih =>
      intro g h h'
      unfold Grid.runs at h
      split at h
      · rename_i g₁ row he
        exact ih h ((run_time he).1 h')
      · simp at h
  induction cs generalizing g with
  | nil =>
    simp only [Grid.runs, Option.some.injEq] at h
    simp [h]
  | cons c cs ih =>
    unfold Grid.runs at h
    split at h
    · rename_i g₁ row he
      have h1 := ih h
      have : g₁.done = false := by
        cases hb : g₁.done with
        | false => rfl
        | true => rw [sticky h hb] at hd; simp at hd
      rw [h1, (run_time he).2 this, List.length_cons]
      omega
    · simp at h

private theorem slice_get (l : List ℚ) (t n j : Nat) (hj : j < n) : ((l.drop t).take n)[j]? = l[t + j]? := by
  rw [List.getElem?_take_of_lt hj, List.getElem?_drop]

section
variable {arch : Arch} {params : Params} {loads pvs statuses importPrices exportPrices co2s : List ℚ} {horizon : Nat} {socStart : ℚ}
  {status : StateRow} {g : Grid}

private theorem create_series
    (h : create arch params loads pvs statuses importPrices exportPrices co2s horizon socStart status = .ok g) :
    g.loads = loads ∧ g.pvs = pvs ∧ g.statuses = statuses ∧ g.importPrices = importPrices ∧ g.exportPrices = exportPrices ∧
    g.co2s = co2s ∧ g.horizon = horizon ∧ g.arch = arch ∧ g.t = 0 := by
  unfold create at h
  split at h
  · simp only at h
    split at h
    · split at h
      · simp at h
      · injection h with h; subst h; exact ⟨rfl, rfl, rfl, rfl, rfl, rfl, rfl, rfl, rfl⟩
    · injection h with h; subst h; exact ⟨rfl, rfl, rfl, rfl, rfl, rfl, rfl, rfl, rfl⟩
  · simp at h

/-- C115: after any history, the entry `j` of a forecast is what the microgrid works with after `j` successful runs, whatever the
    controls are, unless the data end before.  With `j = 0` it is what it works with now. -/
theorem C115_true
    (h : create arch params loads pvs statuses importPrices exportPrices co2s horizon socStart status = .ok g)
    (hf : g.FullSeries) (ops : List Op) (cs : List Control) {s' : Grid} (hs : (after g ops).runs cs = some s') (hd : s'.done = false)
    (hj : cs.length < horizon) :
    let F := (after g ops).forecastAll
    F.load[cs.length]? = some s'.load ∧ F.pv[cs.length]? = some s'.pv ∧
    (arch.grid = true → ∃ G, F.grid = some G ∧ G.status[cs.length]? = some s'.cur.status ∧
      G.imp[cs.length]? = some s'.cur.priceImport ∧ G.exp[cs.length]? = some s'.cur.priceExport ∧
      G.co2[cs.length]? = some s'.cur.co2) := by
  obtain ⟨e1, e2, e3, e4, e5, e6, e7, e8, -⟩ := create_series h
  have fr := g.after_frame ops
  have ht := runs_time hs hd
  have ha : s' = after g (ops ++ cs.map Op.run) := by
    rw [runs_after hs]; simp [after, List.foldl_append]
  obtain ⟨-, k1, k2, k3, -⟩ := C61_next_step_partial (c := {}) (g' := g) (row := status) h hf (ops ++ cs.map Op.run)
  rw [← ha, ht] at k1 k2 k3
  simp only [Grid.forecastAll, SplitGrid.forecastAll, SplitGrid.ofGrid, SplitGrid.forecastOf, SplitGrid.part, fr.loads, fr.pvs, fr.statuses,
    fr.importPrices, fr.exportPrices, fr.co2s, fr.horizon, fr.arch, e1, e2, e3, e4, e5, e6, e7, e8]
  refine ⟨(slice_get _ _ _ _ hj).trans k1, (slice_get _ _ _ _ hj).trans k2, fun hg => ?_⟩
  obtain ⟨k4, k5, k6, k7⟩ := k3 hg
  exact ⟨_, if_pos hg, (slice_get _ _ _ _ hj).trans k4, (slice_get _ _ _ _ hj).trans k5, (slice_get _ _ _ _ hj).trans k6,
    (slice_get _ _ _ _ hj).trans k7⟩

private theorem time_bound {s : Grid} (ops : List Op) (h : (s.t : Int) ≤ (s.dataLength : Int) - s.horizon)
    (h' : s.horizon ≤ s.dataLength) : ((after s ops).t : Int) ≤ (s.dataLength : Int) - s.horizon := by
  induction ops generalizing s with
  | nil => exact h
  | cons op ops ih =>
    have fr : s.Frame (op.apply s) := by
      cases op with
      | run c => exact s.run_frame c
      | reset => exact s.reset_frame
    have hlen : (op.apply s).dataLength = s.dataLength := fr.dataLength
    have hh : (op.apply s).horizon = s.horizon := fr.horizon
    have := ih (s := op.apply s) (by
      rw [hlen, hh]
      cases op with
      | reset =>
        have r : s.reset.1.t = 0 := by
          unfold Grid.reset
          simp only
          have := ({ s with states := s.states.take 1, production := {}, costs := [], co2 := [], t := 0 } : Grid).updateVariables_frame.2
          split <;> rename_i hu <;> rw [hu] at this <;> exact this.t
        simp only [Op.apply, r]
        push_cast
        omega
      | run c =>
        simp only [Op.apply]
        rcases s.run_cases c with ⟨r, e, -, hr⟩ | ⟨r, e, -, -, -, -, -, hr⟩
        · rw [hr]; exact h
        · rw [hr]
          split
          · exact h
          · rename_i hend
            have fr := ({ s.written c e r with t := s.t + 1 } : Grid).updateVariables_frame.2
            have hlt : ((s.t + 1 : Nat) : Int) ≤ (s.dataLength : Int) - s.horizon := by
              unfold Grid.AtEnd at hend
              push Not at hend
              omega
            split <;> rename_i hu <;> rw [hu] at fr <;> exact le_of_eq_of_le (congrArg Nat.cast fr.t) hlt) (by rw [hlen, hh]; exact h')
    rw [hlen, hh] at this
    exact this

/-- C115: after any history a forecast has as many entries as the horizon, provided that the data have. -/
theorem C115_length
    (h : create arch params loads pvs statuses importPrices exportPrices co2s horizon socStart status = .ok g)
    (hh : horizon ≤ min loads.length pvs.length) (ops : List Op) :
    let F := (after g ops).forecastAll
    F.load.length = horizon ∧ F.pv.length = horizon ∧
    (g.FullSeries → ∀ G, F.grid = some G →
      G.status.length = horizon ∧ G.imp.length = horizon ∧ G.exp.length = horizon ∧ G.co2.length = horizon) := by
  obtain ⟨e1, e2, e3, e4, e5, e6, e7, e8, e9⟩ := create_series h
  have fr := g.after_frame ops
  have hl : g.dataLength = min loads.length pvs.length := by unfold Grid.dataLength; rw [e1, e2]
  have tb := time_bound (s := g) ops (by rw [e9, e7, hl]; push_cast; omega) (by rw [e7, hl]; exact hh)
  rw [hl, e7] at tb
  have key : ∀ l : List ℚ, min loads.length pvs.length ≤ l.length → ((l.drop (after g ops).t).take horizon).length = horizon := by
    intro l hl'
    rw [List.length_take, List.length_drop]
    omega
  simp only [Grid.forecastAll, SplitGrid.forecastAll, SplitGrid.ofGrid, SplitGrid.forecastOf, SplitGrid.part, fr.loads, fr.pvs, fr.statuses,
    fr.importPrices, fr.exportPrices, fr.co2s, fr.horizon, fr.arch, e1, e2, e3, e4, e5, e6, e7, e8]
  refine ⟨key _ (by omega), key _ (by omega), fun hf G hG => ?_⟩
  cases hg : arch.grid with
  | false => rw [hg] at hG; simp at hG
  | true =>
    rw [hg, if_pos rfl, Option.some.injEq] at hG
    subst hG
    obtain ⟨f1, f2, f3, f4⟩ := hf (e8 ▸ hg)
    rw [hl] at f1 f2 f3 f4
    rw [e3] at f1
    rw [e4] at f2
    rw [e5] at f3
    rw [e6] at f4
    exact ⟨key _ f1, key _ f2, key _ f3, key _ f4⟩

end

/-- C115: forecasts in training are values of the training data only, and forecasts in testing of the testing data only. -/
theorem C115_split (s : SplitGrid) (series : List ℚ) (j : Nat) (x : ℚ) (hx : (s.forecastOf series)[j]? = some x) :
    (s.inUse = .training → series[s.grid.t + j]? = some x ∧ s.grid.t + j < s.limit) ∧
    (s.inUse = .testing → series[s.limit + (s.grid.t + j)]? = some x) := by
  unfold SplitGrid.forecastOf at hx
  have hj : j < s.grid.horizon := by
    have := (List.getElem?_eq_some_iff.mp hx).1
    rw [List.length_take] at this
    omega
  rw [slice_get _ _ _ _ hj] at hx
  constructor
  · intro hu
    simp only [SplitGrid.part, hu] at hx
    have hlt : s.grid.t + j < s.limit := by
      have := (List.getElem?_eq_some_iff.mp hx).1
      rw [List.length_take] at this
      omega
    rw [List.getElem?_take_of_lt hlt] at hx
    exact ⟨hx, hlt⟩
  · intro hu
    simp only [SplitGrid.part, hu] at hx
    rw [List.getElem?_drop] at hx
    exact hx

/-- Hypotheses of `C115_true` and `C115_length`: a horizon of 2, one run. The forecast of the load is 60, 40, and 40 is the load after
    the run; the grid is forecast to fail and does. -/
example :
    (match create ⟨true, true, true⟩ demoParams [60, 40, 0, 20] [30, 50, 10, 0] [1, 0, 1, 1] [1/5, 3/10, 1/5, 1/5]
      [0, 0, 1/10, 0] [1/4, 1/3, 1/4, 1/4] 2 (1/2) demoStatus with
    | .ok g =>
      decide (g.forecastAll = ⟨[30, 50], [60, 40], some ⟨[1, 0], [1/5, 3/10], [0, 0], [1/4, 1/3]⟩⟩) &&
      (match g.runs [⟨some 10, some 40, some 0, some 0, some 3⟩] with
      | some s' => !s'.done && decide (s'.load = 40 ∧ s'.pv = 50 ∧ s'.cur.status = 0 ∧ s'.cur.priceImport = 3/10 ∧ s'.cur.co2 = 1/3)
      | none => false)
    | .error _ => false) = true := by
  decide +kernel

end Pymgrid.Legacy
