import Verif.Lemmas.LegacyMPC
import Verif.Spec.SAA
import Mathlib.Algebra.BigOperators.Ring.Finset
import Mathlib.Algebra.Order.Floor.Ring
import Mathlib.Data.List.Forall2

set_option autoImplicit false

/-! # Lemmas: sample average approximation -/

namespace Pymgrid.MPC

open Legacy

variable {solve : Solver} {select : Selector} {g : Grid} {p : ℚ}

theorem sampleProblem_eq (g : Grid) (s : Frame) (j : Nat) (soc : ℚ) :
    sampleProblem g s j soc = legacyProblem (g.withData s) j soc := rfl

theorem actualRow_iff {j : Nat} {row : DataRow} : actualRow g j = some row ↔ Actual g j row := by
  unfold actualRow Actual
  cases h1 : g.loads[j]? with
  | none => simp
  | some a =>
    cases h2 : g.pvs[j]? with
    | none => simp
    | some v =>
      cases hg : g.arch.grid with
      | false =>
        obtain ⟨l, q, r⟩ := row
        simp only [Bool.false_eq_true, if_false, Option.some.injEq, DataRow.mk.injEq]
        constructor
        · rintro ⟨a, b, c⟩; exact ⟨a, b, c.symm⟩
        · rintro ⟨a, b, c⟩; exact ⟨a, b, c.symm⟩
      | true =>
        obtain ⟨l, q, r⟩ := row
        simp only [if_true]
        cases h3 : g.statuses[j]? with
        | none => simp
        | some c => simp

theorem exists_actual (h : g.FullSeries) {j : Nat} (hj : j < g.dataLength) : ∃ row, Actual g j row := by
  have hd : g.dataLength = min g.loads.length g.pvs.length := rfl
  have i1 : j < g.loads.length := by omega
  have i2 : j < g.pvs.length := by omega
  cases hg : g.arch.grid with
  | false => exact ⟨⟨g.loads[j], g.pvs[j], 0⟩, List.getElem?_eq_getElem i1, List.getElem?_eq_getElem i2, by simp [hg]⟩
  | true =>
    have i3 : j < g.statuses.length := by have := (h hg).1; omega
    exact ⟨⟨g.loads[j], g.pvs[j], g.statuses[j]⟩, List.getElem?_eq_getElem i1, List.getElem?_eq_getElem i2, by
      simp [hg, List.getElem?_eq_getElem i3]⟩

theorem Actual.unique {j : Nat} {r r' : DataRow} (h : Actual g j r) (h' : Actual g j r') : r = r' := by
  have := actualRow_iff.mpr h
  rw [actualRow_iff.mpr h'] at this
  exact (Option.some.inj this).symm

theorem withData_usual (h : Usual g) {s : Frame} (hs : GoodFrame g s) : Usual (g.withData s) := by
  have hd : (g.withData s).dataLength = s.length := by simp [Grid.dataLength, Grid.withData]
  refine ⟨h.params, h.socMin, fun hg => ?_, ?_, ?_, ?_, h.battery, h.horizon⟩
  · rw [hd]
    obtain ⟨-, a, b, c⟩ := h.series hg
    have := hs.length
    exact ⟨by simp [Grid.withData], this.trans a, this.trans b, this.trans c⟩
  · intro x hx
    obtain ⟨r, hr, rfl⟩ := List.mem_map.mp hx
    exact hs.grid r hr
  · intro x hx
    obtain ⟨r, hr, rfl⟩ := List.mem_map.mp hx
    exact hs.load r hr
  · intro x hx
    obtain ⟨r, hr, rfl⟩ := List.mem_map.mp hx
    exact hs.pv r hr

theorem GoodFrame.set (h : Usual g) {s : Frame} (hs : GoodFrame g s) {j : Nat} {row : DataRow} (hr : Actual g j row) :
    GoodFrame g (s.set j row) := by
  have hm : ∀ r ∈ s.set j row, r ∈ s ∨ r = row := fun r hr => List.mem_or_eq_of_mem_set hr
  refine ⟨by rw [List.length_set]; exact hs.length, fun r q => ?_, fun r q => ?_, fun r q => ?_⟩
  · rcases hm r q with q | rfl
    · exact hs.load r q
    · exact h.loads _ (List.mem_of_getElem? hr.1)
  · rcases hm r q with q | rfl
    · exact hs.pv r q
    · exact h.pvs _ (List.mem_of_getElem? hr.2.1)
  · rcases hm r q with q | rfl
    · exact hs.grid r q
    · have := hr.2.2
      split at this
      · exact h.statuses _ (List.mem_of_getElem? this)
      · exact .inl this

theorem zip_sum (l : List ℚ) (j h : Nat) (f : Nat → ℚ) :
    (List.zipWith (· * ·) (slice l j h) ((List.range h).map f)).sum = ∑ k ∈ Finset.range h, l.getD (j + k) 0 * f k := by
  have key : ∀ (h : Nat) (m : List ℚ) (f : Nat → ℚ), (List.zipWith (· * ·) (m.take h) ((List.range h).map f)).sum =
      ∑ k ∈ Finset.range h, m.getD k 0 * f k := by
    intro h
    induction h with
    | zero => intro m f; simp
    | succ h ih =>
      intro m f
      rw [List.range_succ_eq_map, Finset.sum_range_succ']
      cases m with
      | nil => simp
      | cons a m =>
        simp only [List.take_succ_cons, List.map_cons, List.map_map, List.zipWith_cons_cons, List.sum_cons]
        have := ih m (fun k => f (k + 1))
        simp only [List.getD_cons_zero, List.getD_cons_succ]
        rw [← this, add_comm]
        rfl
  unfold slice
  rw [key]
  refine Finset.sum_congr rfl fun k _ => ?_
  rw [List.getD_eq_getElem?_getD, List.getElem?_drop, List.getD_eq_getElem?_getD]

theorem range_sum (h : Nat) (f : Nat → ℚ) : ((List.range h).map f).sum = ∑ k ∈ Finset.range h, f k := by
  induction h with
  | zero => simp
  | succ h ih => rw [List.range_succ, Finset.sum_range_succ, List.map_append, List.sum_append, ih]; simp

/-- The cost of a plan in terms of its energies. -/
theorem horizonCost_eq (g : Grid) (x : Point) (j : Nat) : horizonCost g x j = planCost g j (x.flow g.arch.genset) := by
  unfold horizonCost planCost
  simp only
  rw [Finset.sum_add_distrib, Finset.sum_add_distrib, range_sum, range_sum]
  congr 1
  · congr 1
    · rw [zero_add, Finset.sum_mul]
      refine Finset.sum_congr rfl fun k _ => ?_
      unfold Point.flow
      cases g.arch.genset <;> simp [mul_comm]
    · cases hg : g.arch.genset
      · simp
      · simp only [if_true]
        rw [Finset.sum_mul]
        refine Finset.sum_congr rfl fun k _ => ?_
        simp [Point.flow, mul_comm]
  · cases g.arch.grid
    · simp
    · simp only [if_true]
      rw [zip_sum, zip_sum, Finset.sum_sub_distrib]
      congr 1 <;> refine Finset.sum_congr rfl fun k _ => ?_ <;> unfold Point.flow <;> cases g.arch.genset <;> simp [mul_comm]

theorem slice_length {l : List ℚ} {j h : Nat} (hl : j + h ≤ l.length) : (slice l j h).length = h := by
  unfold slice
  rw [List.length_take, List.length_drop]
  omega

/-- For usual data a plan is found for every sample. -/
theorem singleStep_ok (hs : solve.Sound) (h : Usual g) {s : Frame} (hf : GoodFrame g s) {soc : ℚ} {j : Nat}
    (hj : j + g.horizon ≤ s.length) (hw : g.params.socMin ≤ soc ∧ soc ≤ g.params.socMax) :
    ∃ x, solve (sampleProblem g s j soc) = some x ∧ singleStep solve g s soc j =
      .ok ⟨x, planCost g j (x.flow g.arch.genset), control (sampleProblem g s j soc) x 0,
        (sampleProblem g s j soc).inputs.load.getD 0 0, (sampleProblem g s j soc).inputs.pv.getD 0 0, j⟩ := by
  obtain ⟨y, hy⟩ := exists_feasible (legacyProblem_good (withData_usual h hf) j soc) hw
  obtain ⟨x, hx⟩ := hs.complete _ y hy
  rw [← sampleProblem_eq] at hx
  refine ⟨x, hx, ?_⟩
  unfold singleStep
  have hl := hf.length
  have hp : (if g.arch.grid then slice g.importPrices j g.horizon else List.replicate g.horizon 0).length = g.horizon ∧
      (if g.arch.grid then slice g.exportPrices j g.horizon else List.replicate g.horizon 0).length = g.horizon ∧
      (if g.arch.grid then slice g.co2s j g.horizon else List.replicate g.horizon 0).length = g.horizon := by
    cases hg : g.arch.grid with
    | false => simp
    | true =>
      obtain ⟨-, a, b, c⟩ := h.series hg
      simp only [if_true]
      exact ⟨slice_length (by omega), slice_length (by omega), slice_length (by omega)⟩
  have hload : (slice (s.map (·.load)) j g.horizon).length = g.horizon := slice_length (by simpa using hj)
  rw [if_neg]
  · rw [hx, ← horizonCost_eq]
  · show ¬ ((slice (s.map (·.load)) j g.horizon).length ≠ g.horizon ∨ _ ∨ _ ∨ _)
    rintro (q | q | q | q)
    · exact q hload
    · exact q hp.1
    · exact q hp.2.1
    · exact q hp.2.2

/-- What `solveAll` returns when all goes well. -/
theorem solveAll_ok (hs : solve.Sound) (h : Usual g) {soc : ℚ} {j : Nat} {row : DataRow} (hr : Actual g j row)
    (hw : g.params.socMin ≤ soc ∧ soc ≤ g.params.socMax) (frames : List Frame)
    (hf : ∀ s ∈ frames, GoodFrame g s ∧ j + g.horizon ≤ s.length) :
    ∃ os, solveAll solve g soc j row frames = (frames.map fun s => s.set j row, .ok os) ∧
      List.Forall₂ (fun s o => singleStep solve g s soc j = .ok o ∧ solve (sampleProblem g s j soc) = some o.plan ∧
        o.cost = planCost g j (o.plan.flow g.arch.genset)) (frames.map fun s => s.set j row) os := by
  induction frames with
  | nil => exact ⟨[], rfl, .nil⟩
  | cons s frames ih =>
    obtain ⟨os, h1, h2⟩ := ih fun t ht => hf t (by simp [ht])
    obtain ⟨hg, hl⟩ := hf s (by simp)
    obtain ⟨x, hx, ho⟩ := singleStep_ok hs h (hg.set h hr) (j := j) (soc := soc) (by rw [List.length_set]; exact hl) hw
    refine ⟨_ :: os, ?_, .cons ⟨ho, hx, rfl⟩ h2⟩
    simp only [solveAll]
    rw [ho]
    simp only [h1, List.map_cons]

theorem slice_head {l : List ℚ} {j h : Nat} {x : ℚ} (hh : 0 < h) (hx : l[j]? = some x) : (slice l j h).getD 0 0 = x := by
  rw [slice_getD _ _ hh, Nat.add_zero, List.getD_eq_getElem?_getD, hx, Option.getD_some]

/-- Appending the plan for a sample is one iteration of model predictive control on the microgrid with the data of the sample,
    except for what the new state shows. -/
theorem append_legacy (h : Usual g) {s : Frame} {b : Baseline} {j : Nat} {now : DataRow} {x : Point} {c : ℚ}
    (hl : j + 1 < s.length) (hd : j + 1 < g.dataLength) (hnow : s[j]? = some now)
    (hx : solve (sampleProblem g s j b.soc) = some x) :
    appendOutput g b ⟨x, c, control (sampleProblem g s j b.soc) x 0, (sampleProblem g s j b.soc).inputs.load.getD 0 0,
        (sampleProblem g s j b.soc).inputs.pv.getD 0 0, j⟩ now =
      match legacyStep solve (g.withData s) b j with
      | .error e => .error e
      | .ok b' => .ok { b' with states := b.states ++ [{ (b'.states.getLast?.getD ⟨none, none, 0, 0, 0, 0, none⟩) with
          load := some now.load, pv := some now.pv
          grid := (b'.states.getLast?.getD ⟨none, none, 0, 0, 0, 0, none⟩).grid.map fun r => { r with status := now.grid } }] } := by
  obtain ⟨next, hnext⟩ : ∃ next, s[j + 1]? = some next := ⟨_, List.getElem?_eq_getElem hl⟩
  have hh : 0 < g.horizon := h.horizon
  have a1 : (s.map (·.load))[j]? = some now.load := by rw [List.getElem?_map, hnow]; rfl
  have a2 : (s.map (·.pv))[j]? = some now.pv := by rw [List.getElem?_map, hnow]; rfl
  have a3 : (s.map (·.grid))[j]? = some now.grid := by rw [List.getElem?_map, hnow]; rfl
  have b1 : (s.map (·.load))[j + 1]? = some next.load := by rw [List.getElem?_map, hnext]; rfl
  have b2 : (s.map (·.pv))[j + 1]? = some next.pv := by rw [List.getElem?_map, hnext]; rfl
  have b3 : (s.map (·.grid))[j + 1]? = some next.grid := by rw [List.getElem?_map, hnext]; rfl
  have c1 : (sampleProblem g s j b.soc).inputs.load.getD 0 0 = now.load := slice_head hh a1
  have c2 : (sampleProblem g s j b.soc).inputs.pv.getD 0 0 = now.pv := slice_head hh a2
  have hsoc : (b.states.getLast?.map (·.soc)).getD 0 = b.soc := rfl
  have hsol : solve (legacyProblem (g.withData s) j b.soc) = some x := hx
  rw [c1, c2]
  unfold appendOutput legacyStep
  have e1 : (g.withData s).loads = s.map (·.load) := rfl
  have e2 : (g.withData s).pvs = s.map (·.pv) := rfl
  have e4 : (g.withData s).arch = g.arch := rfl
  have e5 : (g.withData s).params = g.params := rfl
  have e6 : (g.withData s).t = g.t := rfl
  rw [e1, e2, a1, a2, b1, b2, hsoc]
  simp only
  rw [e4, e5, e6]
  cases hg : g.arch.grid with
  | false =>
    simp only [Bool.false_eq_true, if_false]
    rw [hsol]
    simp only [← sampleProblem_eq]
    rcases record g.arch g.params now.load now.pv b.soc (control (sampleProblem g s j b.soc) x 0) b.production with ⟨r, e | u⟩
    · rfl
    · simp only
      cases r.last g.arch with
      | error e => rfl
      | ok l => simp [nextRow, hg]
  | true =>
    obtain ⟨-, q1, q2, q3⟩ := h.series hg
    have g1 : (g.withData s).gridAt j = .ok ⟨now.grid, g.importPrices[j], g.exportPrices[j], g.co2s[j]⟩ := by
      unfold Grid.gridAt
      show (match (s.map (·.grid))[j]?, g.importPrices[j]?, g.exportPrices[j]?, g.co2s[j]? with | some s, some p, some e, some c => _ | _, _, _, _ => _) = _
      rw [a3, List.getElem?_eq_getElem (show j < g.importPrices.length by omega),
        List.getElem?_eq_getElem (show j < g.exportPrices.length by omega), List.getElem?_eq_getElem (show j < g.co2s.length by omega)]
    have g2 : (g.withData s).gridAt (j + 1) = .ok ⟨next.grid, g.importPrices[j + 1], g.exportPrices[j + 1], g.co2s[j + 1]⟩ := by
      unfold Grid.gridAt
      show (match (s.map (·.grid))[j + 1]?, g.importPrices[j + 1]?, g.exportPrices[j + 1]?, g.co2s[j + 1]? with | some s, some p, some e, some c => _ | _, _, _, _ => _) = _
      rw [b3, List.getElem?_eq_getElem (show j + 1 < g.importPrices.length by omega),
        List.getElem?_eq_getElem (show j + 1 < g.exportPrices.length by omega),
        List.getElem?_eq_getElem (show j + 1 < g.co2s.length by omega)]
    simp only [if_true]
    rw [g1, g2]
    simp only
    rw [hsol]
    simp only [← sampleProblem_eq]
    rcases record g.arch g.params now.load now.pv b.soc (control (sampleProblem g s j b.soc) x 0) b.production with ⟨r, e | u⟩
    · rfl
    · simp only
      cases r.last g.arch with
      | error e => rfl
      | ok l =>
        simp only
        rw [List.getElem?_eq_getElem (show j < g.importPrices.length by omega),
          List.getElem?_eq_getElem (show j < g.exportPrices.length by omega), List.getElem?_eq_getElem (show j < g.co2s.length by omega),
          List.getElem?_eq_getElem (show j + 1 < g.importPrices.length by omega),
          List.getElem?_eq_getElem (show j + 1 < g.exportPrices.length by omega),
          List.getElem?_eq_getElem (show j + 1 < g.co2s.length by omega)]
        simp [nextRow, hg]

theorem legacyStep_row {b b' : Baseline} {i : Nat} (h : legacyStep solve g b i = .ok b') :
    ∃ row, b'.states = b.states ++ [row] ∧ row.hour = g.t % 24 ∧ row.grid.isSome = g.arch.grid := by
  unfold legacyStep at h
  split at h
  · split at h
    · simp only at h
      split at h
      · simp at h
      · split at h
        · simp at h
        · split at h
          · simp at h
          · obtain rfl := Except.ok.inj h
            refine ⟨_, rfl, rfl, ?_⟩
            unfold nextRow
            cases g.arch.grid <;> rfl
    · simp at h
    · simp at h
  · simp at h

theorem rank_lt {n : Nat} (hn : 0 < n) (h1 : p < 1) : ⌊(n : ℚ) * p⌋.toNat < n := by
  have hq : (n : ℚ) * p < n := by
    have : (0 : ℚ) < n := by exact_mod_cast hn
    nlinarith
  have : ⌊(n : ℚ) * p⌋ < (n : Int) := Int.floor_lt.mpr (by exact_mod_cast hq)
  omega

theorem forall₂_get {α β : Type} {R : α → β → Prop} {l : List α} {m : List β} (h : List.Forall₂ R l m) {i : Nat} {b : β}
    (hb : m[i]? = some b) : ∃ a, l[i]? = some a ∧ R a b := by
  induction h generalizing i with
  | nil => simp at hb
  | cons hr _ ih =>
    cases i with
    | zero =>
      rw [List.getElem?_cons_zero] at hb
      obtain rfl := Option.some.inj hb
      exact ⟨_, rfl, hr⟩
    | succ i => exact ih hb

/-- One step: the plan of the right rank is chosen and enacted, unless nothing is required of PV although there is some. -/
theorem groupStep_enacted (hs : solve.Sound) (hsel : select.Sound) (h : Usual g) (h0 : 0 ≤ p) (h1 : p < 1) {frames : List Frame}
    (hne : frames ≠ []) {b : Baseline} {j : Nat} (hf : ∀ s ∈ frames, GoodFrame g s ∧ j + g.horizon < s.length)
    (hw : g.params.socMin ≤ b.soc ∧ b.soc ≤ g.params.socMax) :
    ∃ now s x, Actual g j now ∧ Chosen solve g (frames.map fun t => t.set j now) j b.soc ⌊(frames.length : ℚ) * p⌋.toNat s x ∧
      Admissible (sampleProblem g s j b.soc) (x.flow g.arch.genset) x.u ∧
      ((groupStep solve select g p frames b j = (frames.map fun t => t.set j now, .error .assertion) ∧
        NoPvNeeded g j b.soc (x.flow g.arch.genset 0)) ∨
      ∃ b' e row, groupStep solve select g p frames b j = (frames.map fun t => t.set j now, .ok b') ∧
        Enacted g j s b b' e now row (x.flow g.arch.genset 0) ∧ ¬ NoPvNeeded g j b.soc (x.flow g.arch.genset 0)) := by
  have hh := h.horizon
  obtain ⟨s₀, hs₀⟩ := List.exists_mem_of_ne_nil frames hne
  have hjd : j + 1 < g.dataLength := by
    have := (hf s₀ hs₀).1.length
    have := (hf s₀ hs₀).2
    omega
  obtain ⟨now, hnow⟩ := exists_actual h.series (j := j) (by omega)
  obtain ⟨os, ho, h2⟩ := solveAll_ok hs h hnow hw frames fun s hs => ⟨(hf s hs).1, (hf s hs).2.le⟩
  have hlen : os.length = frames.length := by
    have := h2.length_eq
    rw [List.length_map] at this
    exact this.symm
  have hk : ⌊(os.length : ℚ) * p⌋.toNat < os.length := by
    rw [hlen]
    exact rank_lt (List.length_pos_iff.mpr hne) h1
  obtain ⟨c, hc, hr⟩ := hsel (os.map (·.cost)) _ (by rw [List.length_map]; exact hk)
  rw [List.getElem?_map] at hc
  cases hget : os[select (os.map (·.cost)) ⌊(os.length : ℚ) * p⌋.toNat]? with
  | none => rw [hget] at hc; simp at hc
  | some o =>
  rw [hget] at hc
  obtain rfl : o.cost = c := Option.some.inj hc
  obtain ⟨s, hsg, hso, hsp, hsc⟩ := forall₂_get h2 hget
  have hmem : s ∈ frames.map fun t => t.set j now := List.mem_of_getElem? hsg
  obtain ⟨t, ht, hts⟩ := List.mem_map.mp hmem
  have hgood : GoodFrame g s := hts ▸ (hf t ht).1.set h hnow
  have hsl : j + g.horizon < s.length := by rw [← hts, List.length_set]; exact (hf t ht).2
  have hsj : s[j]? = some now := by
    have : j < t.length := by have := (hf t ht).2; omega
    rw [← hts, List.getElem?_set_self this]
  have hstep : groupStep solve select g p frames b j = (frames.map fun t => t.set j now, appendOutput g b o now) := by
    unfold groupStep
    rw [actualRow_iff.mpr hnow]
    have hsoc : (b.states.getLast?.map (·.soc)).getD 0 = b.soc := rfl
    simp only [hsoc, ho]
    unfold determine
    rw [if_neg (by rintro (q | q) <;> linarith)]
    simp only
    rw [if_neg (by omega), hget]
  have hout : o = ⟨o.plan, o.cost, control (sampleProblem g s j b.soc) o.plan 0,
      (sampleProblem g s j b.soc).inputs.load.getD 0 0, (sampleProblem g s j b.soc).inputs.pv.getD 0 0, j⟩ := by
    unfold singleStep at hso
    simp only at hso
    split at hso
    · simp at hso
    · rw [hsp] at hso
      have := Except.ok.inj hso
      rw [← this]
  have hap := append_legacy h (b := b) (c := o.cost) (by omega) hjd hsj hsp
  rw [← hout] at hap
  obtain ⟨x, hx, hadm, hcase⟩ := legacyStep_followed hs (withData_usual h hgood) (b := b) (i := j)
    (by show j + 1 < min (s.map _).length (s.map _).length; simp; omega) hw
  rw [← sampleProblem_eq] at hx hadm
  rw [hsp] at hx
  obtain rfl := Option.some.inj hx
  have hno : NoPvNeeded (g.withData s) j b.soc (o.plan.flow g.arch.genset 0) ↔ NoPvNeeded g j b.soc (o.plan.flow g.arch.genset 0) := by
    have q1 : (g.withData s).loads[j]? = g.loads[j]? := by
      show (s.map (·.load))[j]? = _
      rw [List.getElem?_map, hsj, hnow.1]; rfl
    have q2 : (g.withData s).pvs[j]? = g.pvs[j]? := by
      show (s.map (·.pv))[j]? = _
      rw [List.getElem?_map, hsj, hnow.2.1]; rfl
    unfold NoPvNeeded
    rw [q1, q2]
    rfl
  refine ⟨now, s, o.plan, hnow, ⟨hmem, hsp, os.map (·.cost), ?_, ?_⟩, hadm, ?_⟩
  · rw [List.forall₂_map_right_iff]
    exact h2.imp fun t o ho => ⟨o.plan, ho.2.1, ho.2.2⟩
  · rw [← hsc, ← hlen]
    exact hr
  · rw [hstep]
    rcases hcase with ⟨hq, hn⟩ | ⟨b', e, load, pv, row, hq, hfo, hn⟩
    · left
      rw [hq] at hap
      exact ⟨by rw [hap], hno.mp hn⟩
    · right
      rw [hq] at hap
      simp only at hap
      have hld : load = now.load := by
        have := hfo.turn.demand
        change (s.map (·.load))[j]? = some load at this
        rw [List.getElem?_map, hsj] at this
        exact (Option.some.inj this).symm
      have hpv : pv = now.pv := by
        have := hfo.turn.sun
        change (s.map (·.pv))[j]? = some pv at this
        rw [List.getElem?_map, hsj] at this
        exact (Option.some.inj this).symm
      have hrow : b'.states.getLast?.getD ⟨none, none, 0, 0, 0, 0, none⟩ = row := by
        rw [hfo.turn.states]
        simp
      rw [hrow] at hap
      subst hld
      subst hpv
      have hrg : row.hour = g.t % 24 ∧ (row.grid.isSome = g.arch.grid) := by
        obtain ⟨row', q1, q2, q3⟩ := legacyStep_row hq
        have := hfo.turn.states
        rw [q1] at this
        obtain rfl : row' = row := by simpa using this
        exact ⟨q2, q3⟩
      refine ⟨{ b' with states := b.states ++ [{ row with load := some now.load, pv := some now.pv, grid := row.grid.map fun r => { r with status := now.grid } }] }, e, _, by rw [hap], ⟨hnow, hfo.turn.recorded, hfo.turn.within, hfo.turn.balanced, rfl, ⟨rfl, rfl, ?_⟩, hrg.1,
        hfo.turn.soc h.battery, hfo.possible, hfo.genset, hfo.imp, hfo.exp, hfo.charge, hfo.discharge, hfo.exact, ?_, hfo.cost⟩,
        fun q => hn (hno.mpr q)⟩
      · have := hrg.2
        cases hq : row.grid with
        | none => rw [hq] at this; simp only [Option.isSome_none] at this; simp [← this]
        | some r => rw [hq] at this; simp only [Option.isSome_some] at this; simp [← this]
      · intro hg h0
        refine hfo.outage hg ?_
        show (s.map (·.grid))[j]? = some 0
        rw [List.getElem?_map, hsj]
        simpa using h0

theorem Enacted.window (h : Usual g) {j : Nat} {s : Frame} {b b' : Baseline} {e : Entry} {now : DataRow} {row : StateRow} {f : Flow}
    (he : Enacted g j s b b' e now row f) (hw : g.params.socMin ≤ b.soc ∧ b.soc ≤ g.params.socMax) :
    g.params.socMin ≤ row.soc ∧ row.soc ≤ g.params.socMax := by
  have hc := h.params.capacity
  have hf := h.params.eff
  have h1 := he.within.full hw.2
  have h2 := he.within.empty hw.1
  have h3 : 0 ≤ e.charge * g.params.eff := mul_nonneg he.within.charge.1 hf.le
  have h4 : 0 ≤ e.discharge / g.params.eff := div_nonneg he.within.discharge.1 hf.le
  have h5 := he.soc
  exact ⟨le_of_mul_le_mul_right (by linarith) hc, le_of_mul_le_mul_right (by linarith) hc⟩

theorem Enacted.soc_eq {j : Nat} {s : Frame} {b b' : Baseline} {e : Entry} {now : DataRow} {row : StateRow} {f : Flow}
    (he : Enacted g j s b b' e now row f) : b'.soc = row.soc := by
  unfold Baseline.soc
  rw [he.states]
  simp

/-- The loop. -/
theorem groupFrom_run (hs : solve.Sound) (hsel : select.Sound) (h : Usual g) (h0 : 0 ≤ p) (h1 : p < 1) (n : Nat) :
    ∀ (j : Nat) (frames : List Frame) (b : Baseline), frames ≠ [] →
    (∀ s ∈ frames, GoodFrame g s ∧ j + n + g.horizon ≤ s.length) →
    (g.params.socMin ≤ b.soc ∧ b.soc ≤ g.params.socMax) →
    ((groupFrom solve select g p j n frames b).2 = .error .assertion ∧ ∃ m frames₁ b₁ now s x, m < n ∧
      GroupRun solve g ⌊(frames.length : ℚ) * p⌋.toNat j m frames frames₁ b b₁ ∧
      Chosen solve g (frames₁.map fun t => t.set (j + m) now) (j + m) b₁.soc ⌊(frames.length : ℚ) * p⌋.toNat s x ∧
      NoPvNeeded g (j + m) b₁.soc (x.flow g.arch.genset 0)) ∨
      ∃ frames' b', groupFrom solve select g p j n frames b = (frames', .ok b') ∧
        GroupRun solve g ⌊(frames.length : ℚ) * p⌋.toNat j n frames frames' b b' := by
  induction n with
  | zero => intro j frames b _ _ _; exact .inr ⟨frames, b, rfl, .none j frames b⟩
  | succ n ih =>
    intro j frames b hne hf hw
    obtain ⟨now, s, x, hnow, hch, -, ⟨hq, hno⟩ | ⟨b₁, e, row, hq, he, -⟩⟩ :=
      groupStep_enacted hs hsel h h0 h1 hne (b := b) (j := j) (fun s hs => ⟨(hf s hs).1, by have := (hf s hs).2; omega⟩) hw
    · refine .inl ⟨?_, 0, frames, b, now, s, x, by omega, .none j frames b, hch, hno⟩
      unfold groupFrom
      rw [hq]
    · have hlen : (frames.map fun t => t.set j now).length = frames.length := List.length_map ..
      rcases ih (j + 1) (frames.map fun t => t.set j now) b₁ (by simpa using hne)
        (by
          intro t ht
          obtain ⟨u, hu, rfl⟩ := List.mem_map.mp ht
          refine ⟨(hf u hu).1.set h hnow, ?_⟩
          rw [List.length_set]
          have := (hf u hu).2
          omega)
        (by rw [he.soc_eq]; exact he.window h hw) with ⟨q, m, frames₁, b₂, now', s', x', hm, r, c, hno⟩ | ⟨frames', b', q, r⟩
      · rw [hlen] at r c
        rw [show j + 1 + m = j + (m + 1) by omega] at c hno
        refine .inl ⟨?_, m + 1, frames₁, b₂, now', s', x', by omega, .more hch he r, c, hno⟩
        unfold groupFrom
        rw [hq]
        exact q
      · right
        refine ⟨frames', b', ?_, ?_⟩
        · unfold groupFrom
          rw [hq]
          exact q
        · rw [hlen] at r
          exact .more hch he r

end Pymgrid.MPC
