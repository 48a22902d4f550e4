import Mathlib.Tactic.Linarith
import Mathlib.Tactic.Ring
import Mathlib.Algebra.BigOperators.Group.List.Basic
import Verif.Lemmas.Legacy
import Verif.Props.Legacy
import Verif.Spec.Penalty

set_option autoImplicit false

/-!
# C112: the penalty measures how far what happened is from what was asked for

The claim in full: after a step, `penalty(coef)` is `coef` times the sum of the deviations of production from control.  On every
microgrid of the generator and of the converter it raises instead, since the record of controls has columns (`load` and `pv`) that
the record of production does not have.
-/

namespace Pymgrid.Legacy

private theorem lookup_filter {k j : String} (h : k ≠ j) (d : Dict) : (d.filter fun e => e.1 != j).lookup k = d.lookup k := by
  induction d with
  | nil => rfl
  | cons e d ih =>
    obtain ⟨n, x⟩ := e
    by_cases hn : n = j
    · subst hn
      have : (k == n) = false := by simpa using h
      simp [List.lookup, this, ih]
    · have : (n != j) = true := by simpa using hn
      rw [List.filter_cons_of_pos (by simpa using this)]
      simp only [List.lookup]
      split
      · rfl
      · exact ih

private theorem lookup_gone (k : String) (d : Dict) : (d.filter fun e => e.1 != k).lookup k = none := by
  induction d with
  | nil => rfl
  | cons e d ih =>
    obtain ⟨n, x⟩ := e
    by_cases hn : n = k
    · subst hn; simpa using ih
    · rw [List.filter_cons_of_pos (by simpa using hn)]
      have : (k == n) = false := by simpa using fun h => hn h.symm
      simp only [List.lookup, this, ih]

private theorem lookup_set (k : String) (x : ℚ) (d : Dict) : (d.set k x).lookup k = some x := by
  simp [Dict.set]

private theorem lookup_set_ne {k j : String} (h : k ≠ j) (x : ℚ) (d : Dict) : (d.set j x).lookup k = d.lookup k := by
  have : (k == j) = false := by simpa using h
  simp only [Dict.set, List.lookup, this]
  exact lookup_filter h d

/-- C112: `run` changes the dict it is given: afterwards it holds the load and the PV of the step and no `pv_consummed`, whatever it
    held before; the other entries are left alone. -/
theorem C112_dict (b : Kept) (d : Dict) :
    (b.run d).2.1.lookup "load" = some b.grid.load ∧ (b.run d).2.1.lookup "pv" = some b.grid.pv ∧
    (b.run d).2.1.lookup "pv_consummed" = none ∧
    ∀ k, k ≠ "load" → k ≠ "pv" → k ≠ "pv_consummed" → (b.run d).2.1.lookup k = d.lookup k := by
  refine ⟨?_, ?_, lookup_gone _ _, fun k h1 h2 h3 => ?_⟩
  · exact (lookup_filter (by decide) _).trans ((lookup_set_ne (by decide) _ _).trans (lookup_set _ _ _))
  · exact (lookup_filter (by decide) _).trans (lookup_set _ _ _)
  · exact (lookup_filter h3 _).trans ((lookup_set_ne h2 _ _).trans (lookup_set_ne h1 _ _))

/-- C112: the record of controls grows by one row with every `run`, even one that raises: the values of the dict, with the load and
    the PV of the step; columns without a value get a dict in place of a number. -/
theorem C112_record (b : Kept) (d : Dict) : (b.run d).1.actions = b.actions.map fun c =>
    (c.1, c.2 ++ [if c.1 = "load" then Cell.num b.grid.load else if c.1 = "pv" then Cell.num b.grid.pv else
      match d.lookup c.1 with | some x => Cell.num x | none => Cell.dict]) := by
  change recordAction _ _ = _
  unfold recordAction
  refine List.map_congr_left fun c _ => ?_
  congr 3
  by_cases h1 : c.1 = "load"
  · rw [if_pos h1, h1, lookup_set_ne (by decide), lookup_set]
  · rw [if_neg h1]
    by_cases h2 : c.1 = "pv"
    · rw [if_pos h2, h2, lookup_set]
    · rw [if_neg h2, lookup_set_ne h2, lookup_set_ne h1]
      cases d.lookup c.1 <;> rfl

private theorem columns_kept (b : Kept) (ops : List KOp) : (b.after ops).actions.map (·.1) = b.actions.map (·.1) := by
  unfold Kept.after
  induction ops generalizing b with
  | nil => rfl
  | cons op ops ih =>
    rw [List.foldl_cons, ih]
    cases op with
    | run d => simp [KOp.apply, Kept.run, recordAction, List.map_map, Function.comp_def]
    | reset => simp [KOp.apply, Kept.reset, List.map_map, Function.comp_def]

/-- C112 fails on every microgrid with the columns of the generator: `penalty` raises a `KeyError` after every `run` and an
    `IndexError` before the first one and after every `reset`, whatever happened before. -/
theorem C112_raises (b : Kept) (h : b.actions.map (·.1) = actionColumns b.grid.arch) (h0 : ∀ c ∈ b.actions, c.2 = [])
    (ops : List KOp) (coef : ℚ) :
    b.penalty coef = .error .index ∧ ((b.after ops).reset).penalty coef = .error .index ∧
    ∀ d, ((b.after ops).run d).1.penalty coef = .error .key := by
  have first : ∀ b' : Kept, b'.actions.map (·.1) = actionColumns b.grid.arch → ∃ l rest, b'.actions = ("load", l) :: rest := by
    intro b' hb
    cases ha : b'.actions with
    | nil => rw [ha] at hb; simp [actionColumns] at hb
    | cons c rest =>
      rw [ha] at hb
      simp only [List.map_cons, actionColumns, List.cons_append, List.cons.injEq] at hb
      exact ⟨c.2, rest, by rw [← hb.1]⟩
  have hk := (columns_kept b ops).trans h
  refine ⟨?_, ?_, fun d => ?_⟩
  · obtain ⟨l, rest, e⟩ := first b h
    have : l = [] := h0 ("load", l) (by rw [e]; exact List.mem_cons_self)
    subst this
    simp [Kept.penalty, e, penaltyOf]
  · obtain ⟨l, rest, e⟩ := first _ hk
    simp [Kept.penalty, Kept.reset, e, penaltyOf]
  · obtain ⟨l, rest, e⟩ := first _ hk
    have := C112_record (b.after ops) d
    rw [e] at this
    simp [Kept.penalty, this, penaltyOf, Production.column]

private theorem penaltyOf_error {a : Arch} {r : Production} {k : String} (hk : r.column a k = .error .key)
    (l : List (String × List Cell)) (h : k ∈ l.map (·.1)) : ∃ e, penaltyOf a r l = .error e := by
  induction l with
  | nil => simp at h
  | cons c l ih =>
    obtain ⟨n, cells⟩ := c
    simp only [penaltyOf]
    rw [List.map_cons, List.mem_cons] at h
    split
    · exact ⟨_, rfl⟩
    · split
      · exact ⟨_, rfl⟩
      · rename_i p hp
        split
        · exact ⟨_, rfl⟩
        · split
          · exact ⟨_, rfl⟩
          · rcases h with h | h
            · rw [h] at hk
              rw [hk] at hp
              simp at hp
            · obtain ⟨e, he⟩ := ih h
              rw [he]
              exact ⟨e, rfl⟩

/-- C112 fails on every microgrid whose record of controls has the column `load`, as those of the generator
    (`MicrogridGenerator.py:481`) and of the converter (`to_nonmodular_ops.py:85`) have, in whatever order: `penalty` raises after
    every history. -/
theorem C112_never (b : Kept) (h : "load" ∈ b.actions.map (·.1)) (ops : List KOp) (coef : ℚ) :
    ∃ e, (b.after ops).penalty coef = .error e := by
  rw [← columns_kept b ops] at h
  obtain ⟨e, he⟩ := penaltyOf_error (a := (b.after ops).grid.arch) (r := (b.after ops).grid.production) (k := "load")
    (by simp [Production.column]) _ h
  exact ⟨e, by simp [Kept.penalty, he]⟩

private theorem column_last {a : Arch} {e : Entry} {r r' : Production} (h : e.Recorded a r r') {k : String}
    (hk : k ∈ productionColumns a) : ∃ p, r'.column a k = .ok p ∧ p.getLast? = some (e.at k) := by
  obtain ⟨h1, -, h2, -, h3, -, h4⟩ := h
  simp only [productionColumns, List.mem_append, List.mem_cons, List.not_mem_nil, or_false] at hk
  rcases hk with (((rfl | rfl | rfl | rfl) | hk) | hk) | hk
  · exact ⟨_, rfl, by simp [h4, Entry.at, Entry.named, List.lookup]⟩
  · exact ⟨_, rfl, by simp [h4, Entry.at, Entry.named, List.lookup]⟩
  · exact ⟨_, rfl, by simp [h4, Entry.at, Entry.named, List.lookup]⟩
  · exact ⟨_, rfl, by simp [h4, Entry.at, Entry.named, List.lookup]⟩
  · cases hb : a.battery with
    | false => rw [hb] at hk; simp at hk
    | true =>
      rw [hb] at hk h1
      simp only [if_true, List.mem_cons, List.not_mem_nil, or_false] at hk
      rcases hk with rfl | rfl
      · exact ⟨r'.battery.map (·.1), by simp [Production.column, hb], by simp [h1, Entry.at, Entry.named]⟩
      · exact ⟨r'.battery.map (·.2), by simp [Production.column, hb], by simp [h1, Entry.at, Entry.named, List.lookup]⟩
  · cases hb : a.grid with
    | false => rw [hb] at hk; simp at hk
    | true =>
      rw [hb] at hk h2
      simp only [if_true, List.mem_cons, List.not_mem_nil, or_false] at hk
      rcases hk with rfl | rfl
      · exact ⟨r'.grid.map (·.1), by simp [Production.column, hb], by simp [h2, Entry.at, Entry.named, List.lookup]⟩
      · exact ⟨r'.grid.map (·.2), by simp [Production.column, hb], by simp [h2, Entry.at, Entry.named, List.lookup]⟩
  · cases hb : a.genset with
    | false => rw [hb] at hk; simp at hk
    | true =>
      rw [hb] at hk h3
      simp only [if_true, List.mem_cons, List.not_mem_nil, or_false] at hk
      subst hk
      exact ⟨r'.genset, by simp [Production.column, hb], by simp [h3, Entry.at, Entry.named, List.lookup]⟩

private theorem not_given {a : Arch} {k : String} (hk : k ∈ productionColumns a) : k ≠ "load" ∧ k ≠ "pv" := by
  constructor <;> rintro rfl <;> revert hk <;> unfold productionColumns <;>
    cases a.battery <;> cases a.grid <;> cases a.genset <;> decide

/-- C112, in part: on a microgrid whose record of controls only has columns of production, after a successful `run` with a dict that
    has a value for each of them, the penalty is `coef` times the total deviation of the entry that was recorded.  Missing are the
    microgrids of the library, which have further columns. -/
theorem C112_penalty_partial (b b' : Kept) (d d' : Dict) (row : StateRow) (coef : ℚ)
    (hcol : ∀ c ∈ b.actions, c.1 ∈ productionColumns b.grid.arch) (hd : ∀ c ∈ b.actions, d.lookup c.1 ≠ none)
    (h : b.run d = (b', d', .ok row)) :
    ∃ e : Entry, e.Recorded b.grid.arch b.grid.production b'.grid.production ∧
      b'.penalty coef = .ok (coef * deviation d e (b.actions.map (·.1))) := by
  have hr : b.grid.run d'.control = (b'.grid, .ok row) := by
    simp only [Kept.run, Prod.mk.injEq] at h
    obtain ⟨rfl, rfl, h⟩ := h
    exact Prod.ext rfl h
  obtain ⟨e, -, -, hrec, -⟩ := Grid.run_ok hr
  refine ⟨e, hrec, ?_⟩
  have ha : b'.grid.arch = b.grid.arch := by
    have := (b.grid.run_frame d'.control).arch
    rw [hr] at this
    exact this
  have hact := C112_record b d
  rw [h] at hact
  simp only at hact
  unfold Kept.penalty
  rw [ha, hact]
  have key : ∀ l : List (String × List Cell), (∀ c ∈ l, c.1 ∈ productionColumns b.grid.arch) → (∀ c ∈ l, d.lookup c.1 ≠ none) →
      penaltyOf b.grid.arch b'.grid.production (l.map fun c =>
        (c.1, c.2 ++ [if c.1 = "load" then Cell.num b.grid.load else if c.1 = "pv" then Cell.num b.grid.pv else
          match d.lookup c.1 with | some x => Cell.num x | none => Cell.dict])) = .ok (deviation d e (l.map (·.1))) := by
    intro l
    induction l with
    | nil => intro _ _; rfl
    | cons c l ih =>
      intro h1 h2
      obtain ⟨p, hp, hl⟩ := column_last hrec (h1 c List.mem_cons_self)
      obtain ⟨n1, n2⟩ := not_given (h1 c List.mem_cons_self)
      obtain ⟨x, hx⟩ := Option.ne_none_iff_exists'.mp (h2 c List.mem_cons_self)
      have hi := ih (fun c' hc => h1 c' (List.mem_cons_of_mem _ hc)) (fun c' hc => h2 c' (List.mem_cons_of_mem _ hc))
      simp only [List.map_cons, penaltyOf, List.getLast?_append, List.getLast?_singleton, Option.some_or, hp, hl, if_neg n1, if_neg n2,
        hx, hi, deviation, List.sum_cons, Option.getD_some]
  rw [key b.actions hcol hd]
  simp [mul_comm]

private theorem sum_zero {l : List ℚ} (h : ∀ x ∈ l, 0 ≤ x) : 0 ≤ l.sum ∧ (l.sum = 0 ↔ ∀ x ∈ l, x = 0) := by
  induction l with
  | nil => simp
  | cons x l ih =>
    obtain ⟨h1, h2⟩ := ih fun y hy => h y (List.mem_cons_of_mem _ hy)
    have hx := h x List.mem_cons_self
    refine ⟨by rw [List.sum_cons]; linarith, ?_⟩
    rw [List.sum_cons, List.forall_mem_cons, ← h2]
    constructor
    · intro h; constructor <;> linarith
    · rintro ⟨h3, h4⟩; linarith

/-- C112, in part (see `C112_penalty_partial`): with a positive coefficient the penalty is not negative, and it is 0 if and only if
    everything in the columns happened as asked. -/
theorem C112_zero_partial (b b' : Kept) (d d' : Dict) (row : StateRow) (coef : ℚ) (hcoef : 0 < coef)
    (hcol : ∀ c ∈ b.actions, c.1 ∈ productionColumns b.grid.arch) (hd : ∀ c ∈ b.actions, d.lookup c.1 ≠ none)
    (h : b.run d = (b', d', .ok row)) :
    ∃ e : Entry, e.Recorded b.grid.arch b.grid.production b'.grid.production ∧
      ∃ x, b'.penalty coef = .ok x ∧ 0 ≤ x ∧ (x = 0 ↔ ∀ c ∈ b.actions, d.lookup c.1 = some (e.at c.1)) := by
  obtain ⟨e, h1, h2⟩ := C112_penalty_partial b b' d d' row coef hcol hd h
  refine ⟨e, h1, _, h2, ?_⟩
  obtain ⟨p, z⟩ := sum_zero (l := (b.actions.map (·.1)).map fun k => |(d.lookup k).getD 0 - e.at k|) (by
    intro x hx
    obtain ⟨k, -, rfl⟩ := List.mem_map.mp hx
    exact abs_nonneg _)
  refine ⟨mul_nonneg hcoef.le p, ?_⟩
  rw [mul_eq_zero, or_iff_right hcoef.ne']
  unfold deviation
  rw [z]
  simp only [List.mem_map, forall_exists_index, and_imp, forall_apply_eq_imp_iff₂, abs_eq_zero]
  refine forall₂_congr fun c hc => ?_
  obtain ⟨x, hx⟩ := Option.ne_none_iff_exists'.mp (hd c hc)
  rw [hx]
  simp [sub_eq_zero]

/-- A control dict for the microgrid `demo`, which asks for more than the genset can give. -/
def penaltyDict : Dict :=
  [("battery_charge", 0), ("battery_discharge", 0), ("grid_import", 10), ("grid_export", 0), ("genset", 1000), ("pv_consummed", 30)]

/-- C112: handing in the same dict again changes the record of controls: `pv_consummed` is a number in the first row and a dict in the
    second. -/
theorem C112_reuse : ∃ (b : Kept) (d : Dict), b.grid = demo true ∧ b.actions = [("pv_consummed", [])] ∧
    ((b.run d).1.run (b.run d).2.1).1.actions = [("pv_consummed", [.num 30, .dict])] :=
  ⟨⟨demo true, [("pv_consummed", [])]⟩, penaltyDict, rfl, rfl, by decide +kernel⟩

/-- Non-vacuity of `C112_raises` and `C112_never`: the columns of the generator. -/
example : "load" ∈ actionColumns (demo true).arch ∧ ((actionColumns (demo true).arch).map fun k => (k, ([] : List Cell))).map (·.1) = actionColumns (demo true).arch ∧
    "genset" ∈ actionColumns (demo true).arch := by
  decide +kernel

/-- Non-vacuity of `C112_penalty_partial` and `C112_zero_partial`: a record of the grid and the genset.  The run succeeds, and the
    penalty is what the genset could not give. -/
example : let b : Kept := ⟨demo true, [("grid_import", []), ("genset", [])]⟩
    (∀ c ∈ b.actions, c.1 ∈ productionColumns b.grid.arch) ∧ (∀ c ∈ b.actions, penaltyDict.lookup c.1 ≠ none) ∧
    (b.run penaltyDict).2.2.toOption.isSome = true ∧ ((b.run penaltyDict).1.penalty 2).toOption = some 1820 := by
  decide +kernel

end Pymgrid.Legacy
