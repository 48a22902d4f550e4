import Verif.Model.ShortEpisode
import Verif.Props.Legacy
import Mathlib.Tactic.Linarith
import Mathlib.Tactic.Ring

/-!
# C119: episodes of the deprecated environments have the length and the data asked for
-/

namespace Pymgrid.Legacy

/-- Specification: the step with number `n`, and no earlier one, reports the end of the episode. -/
def EndsAt (e : Episode) (n : Nat) : Prop := (∀ k < n, (e.runs k).done = false) ∧ (e.runs n).done = true

/-- Before the end the clock counts the steps. -/
theorem Episode.runs_before (e : Episode) (stop : Nat)
    (hs : ∀ k < stop, ((e.t + k : Nat) : Int) ≠ (e.len : Int) - e.horizon ∧ ((e.t + k : Nat) : Int) ≠ (e.len : Int) - 1) :
    ∀ k ≤ stop, e.runs k = { e with t := e.t + k, row := if k = 0 then e.row else e.t + k } := by
  intro k
  induction k with
  | zero => intro _; simp [Episode.runs]
  | succ k ih =>
    intro hk
    have h := ih (by omega)
    obtain ⟨h1, h2⟩ := hs k (by omega)
    simp only [Episode.runs, h, Episode.run]
    rw [if_neg (by push Not; exact ⟨h1, h2⟩)]
    simp [Nat.add_assoc]

theorem Episode.ends (e : Episode) (hd : e.done = false) (stop : Nat)
    (hs : ∀ k < stop, ((e.t + k : Nat) : Int) ≠ (e.len : Int) - e.horizon ∧ ((e.t + k : Nat) : Int) ≠ (e.len : Int) - 1)
    (he : ((e.t + stop : Nat) : Int) = (e.len : Int) - e.horizon ∨ ((e.t + stop : Nat) : Int) = (e.len : Int) - 1) :
    EndsAt e (stop + 1) := by
  constructor
  · intro k hk
    rw [e.runs_before stop hs k (by omega)]
    exact hd
  · simp only [Episode.runs, e.runs_before stop hs stop le_rfl, Episode.run]
    rw [if_pos he]

/-- `update_variables` leaves the time alone and reads the row of that time. -/
theorem Grid.updateVariables_clock (g g' : Grid) (hu : g.updateVariables = (g', .ok ())) :
    g'.t = g.t ∧ g'.done = g.done ∧ g'.loads[g.t]? = some g'.load ∧ g'.pvs[g.t]? = some g'.pv := by
  unfold Grid.updateVariables at hu
  split at hu
  · rename_i pv load hpv hload
    simp only [] at hu
    split at hu
    · split at hu
      · cases hu
      · split at hu
        · split at hu
          · cases hu
          · cases hu; exact ⟨rfl, rfl, hload, hpv⟩
        · cases hu; exact ⟨rfl, rfl, hload, hpv⟩
    · cases hu; exact ⟨rfl, rfl, hload, hpv⟩
  · cases hu

/-- The clock of the environment is that of the microgrid: a step of the legacy microgrid that succeeds moves time and `done` as
    `Episode.run` does, and the load and PV of the new step are those of the row `Episode.run` names. -/
theorem C119_clock (g g' : Grid) (c : Control) (out : StateRow) (h : g.run c = (g', .ok out)) (e : Episode)
    (hlen : e.len = g.dataLength) (hh : e.horizon = g.horizon) (ht : e.t = g.t) (hd : e.done = g.done)
    (hl : g.loads[e.row]? = some g.load) (hp : g.pvs[e.row]? = some g.pv) :
    g'.t = e.run.t ∧ g'.done = e.run.done ∧ g'.loads[e.run.row]? = some g'.load ∧ g'.pvs[e.run.row]? = some g'.pv := by
  unfold Grid.run at h
  split at h
  · cases h
  simp only [] at h
  split at h
  · cases h
  split at h
  all_goals
    split at h
    · rename_i hend
      have hend' : (e.t : Int) = (e.len : Int) - e.horizon ∨ (e.t : Int) = (e.len : Int) - 1 := by
        rw [ht, hlen, hh]; exact hend
      cases h
      simp only [Episode.run, if_pos hend']
      exact ⟨ht.symm, trivial, hl, hp⟩
    · rename_i hend
      have hend' : ¬((e.t : Int) = (e.len : Int) - e.horizon ∨ (e.t : Int) = (e.len : Int) - 1) := by
        rw [ht, hlen, hh]; exact hend
      simp only [Episode.run, if_neg hend']
      split at h
      · cases h
      · rename_i g₂ hu
        cases h
        obtain ⟨h1, h2, h3, h4⟩ := Grid.updateVariables_clock _ _ hu
        rw [ht, hd]
        exact ⟨h1, h2, h3, h4⟩

/-- Without `max_episode_len` an episode of trajectory length `n` ends with the `n`th step, for every start that can be drawn, and
    every step but the first is on the row of its time.  Missing: the first step (`C119_first`) and `max_episode_len`
    (`C119_longer`). -/
theorem C119_trajectory_partial (full n draw : Nat) (hn : 0 < n) (e : Episode)
    (h : Episode.init full none (some n) draw = some e) :
    EndsAt e n ∧ (∀ k, 0 < k → k < n → (e.runs k).row = draw + k) ∧ ∀ k < n, (e.runs k).t = draw + k := by
  simp only [Episode.init, Episode.shortSet] at h
  split at h
  swap
  · cases h
  cases h
  obtain ⟨m, rfl⟩ : ∃ m, n = m + 1 := ⟨n - 1, by omega⟩
  have hs : ∀ k < m, ((draw + k : Nat) : Int) ≠ ((draw + (m + 1) + 0 : Nat) : Int) - (0 : Nat) ∧
      ((draw + k : Nat) : Int) ≠ ((draw + (m + 1) + 0 : Nat) : Int) - 1 := by
    intro k hk; omega
  refine ⟨Episode.ends _ rfl m hs (Or.inr (by simp only [Episode.horizonFor]; push_cast; ring)), ?_, ?_⟩
  · intro k h0 hk
    rw [Episode.runs_before _ m hs k (by omega)]
    exact if_neg (by omega)
  · intro k hk
    rw [Episode.runs_before _ m hs k (by omega)]

/-- The first observation and the first step of an episode are on the first row of the data, wherever it starts. -/
theorem C119_first (e e' : Episode) (trajectory : Option Nat) (draw : Nat) (h : e.reset trajectory draw = some e') : e'.row = 0 := by
  unfold Episode.reset Episode.shortSet at h
  split at h
  · cases h; rfl
  · split at h
    · cases h; rfl
    · cases h

/-- With `max_episode_len` less than the number of rows an episode of trajectory length `n` has a step more than asked for. -/
theorem C119_longer (full m n draw : Nat) (hm : m < full) (e : Episode)
    (h : Episode.init full (some m) (some n) draw = some e) : EndsAt e (n + 1) := by
  simp only [Episode.init, Episode.shortSet] at h
  split at h
  swap
  · cases h
  cases h
  refine Episode.ends _ rfl n ?_ (Or.inl ?_)
  · intro k hk
    dsimp only [Episode.horizonFor]
    omega
  · dsimp only [Episode.horizonFor]
    omega

/-- So has an episode limited by `max_episode_len` only. -/
theorem C119_limit (full m : Nat) (hm : m < full) (draw : Nat) (e : Episode)
    (h : Episode.init full (some m) none draw = some e) : EndsAt e (m + 1) := by
  simp only [Episode.init, Episode.shortSet, Episode.horizonFor] at h
  cases h
  refine Episode.ends _ rfl m ?_ (Or.inl ?_)
  · intro k hk
    dsimp only
    omega
  · dsimp only
    omega

/-- Without either, an episode has as many steps as there are rows. -/
theorem C119_all (full : Nat) (hf : 0 < full) (draw : Nat) (e : Episode)
    (h : Episode.init full none none draw = some e) : EndsAt e full := by
  simp only [Episode.init, Episode.shortSet, Episode.horizonFor] at h
  cases h
  obtain ⟨m, rfl⟩ : ∃ m, full = m + 1 := ⟨full - 1, by omega⟩
  refine Episode.ends _ rfl m ?_ (Or.inr ?_)
  · intro k hk
    dsimp only
    omega
  · dsimp only
    omega

/-- Time never passes the number of rows, so no step fails for want of data. -/
theorem C119_within (full : Nat) (hf : 0 < full) (maxLen trajectory : Option Nat) (hn : ∀ n, trajectory = some n → 0 < n)
    (draw : Nat) (e : Episode) (h : Episode.init full maxLen trajectory draw = some e) (k : Nat) :
    (e.runs k).t < full ∧ (e.runs k).row < full := by
  suffices hI : ∀ k, (e.runs k).t < full ∧ (e.runs k).row < full ∧ (e.runs k).len ≤ full ∧ (e.runs k).t < (e.runs k).len from
    ⟨(hI k).1, (hI k).2.1⟩
  intro k
  induction k with
  | zero =>
    simp only [Episode.runs]
    simp only [Episode.init, Episode.shortSet] at h
    cases trajectory with
    | none =>
      simp only [Option.some.injEq] at h
      subst h
      exact ⟨hf, hf, le_rfl, hf⟩
    | some n =>
      have := hn n rfl
      simp only [] at h
      split at h
      · rename_i hlt
        simp only [Option.some.injEq] at h
        subst h
        dsimp only
        refine ⟨by omega, hf, by omega, by omega⟩
      · cases h
  | succ k ih =>
    obtain ⟨h1, h2, h3, h4⟩ := ih
    simp only [Episode.runs, Episode.run]
    split
    · exact ⟨h1, h2, h3, h4⟩
    · rename_i hne
      push Not at hne
      have h5 := hne.2
      dsimp only
      refine ⟨by omega, by omega, h3, by omega⟩

theorem Episode.runs_fixed (e : Episode) (k : Nat) : (e.runs k).full = e.full ∧ (e.runs k).horizon = e.horizon := by
  induction k with
  | zero => exact ⟨rfl, rfl⟩
  | succ k ih =>
    simp only [Episode.runs, Episode.run]
    split <;> exact ih

/-- A reset after any number of steps gives what the constructor gives for the same draw: all starts stay possible. -/
theorem C119_reset (full : Nat) (maxLen trajectory : Option Nat) (draw draw' : Nat) (e : Episode)
    (h : Episode.init full maxLen trajectory draw = some e) (k : Nat) :
    (e.runs k).reset trajectory draw' = Episode.init full maxLen trajectory draw' := by
  obtain ⟨hf, hh⟩ := e.runs_fixed k
  have he : e.full = full ∧ e.horizon = Episode.horizonFor full maxLen := by
    simp only [Episode.init, Episode.shortSet] at h
    cases trajectory with
    | none => simp only [Option.some.injEq] at h; subst h; exact ⟨rfl, rfl⟩
    | some n =>
      simp only [] at h
      split at h
      · simp only [Option.some.injEq] at h; subst h; exact ⟨rfl, rfl⟩
      · cases h
  unfold Episode.reset Episode.init Episode.clear
  rw [hf, hh, he.1, he.2]

/-- The starts that can be drawn: a trajectory as long as the data has none and always raises, though it would fit, and the last
    start that fits is never drawn. -/
theorem C119_starts (full n draw : Nat) : (Episode.init full none (some n) draw).isSome ↔ draw + n < full := by
  simp only [Episode.init, Episode.shortSet]
  split
  · rename_i h; dsimp only [Episode.horizonFor] at h; simp; omega
  · rename_i h; dsimp only [Episode.horizonFor] at h; simp; omega

/-- The claim fails: of 10 rows a trajectory of 3 from row 5 shows row 0 first, and with `max_episode_len` 8 it has 4 steps. -/
theorem C119_violated :
    (∃ e, Episode.init 10 none (some 3) 5 = some e ∧ e.t = 5 ∧ e.row = 0) ∧
      (∃ e, Episode.init 10 (some 8) (some 3) 4 = some e ∧ ¬EndsAt e 3 ∧ EndsAt e 4) := by
  refine ⟨⟨_, rfl, rfl, rfl⟩, ⟨_, rfl, ?_, C119_longer 10 8 3 4 (by omega) _ rfl⟩⟩
  intro h
  have := h.2
  revert this
  decide

/-- A case meeting the hypotheses. -/
example : ∃ e, Episode.init 8760 none (some 24) 100 = some e ∧ EndsAt e 24 ∧ (e.runs 1).row = 101 := by
  have h := C119_trajectory_partial 8760 24 100 (by omega) _ rfl
  exact ⟨_, rfl, h.1, h.2.1 1 (by omega) (by omega)⟩

/-- A case meeting the hypotheses of `C119_clock`: the sample microgrid, whose second step is on row 1. -/
example :
    let g := demo true
    let e : Episode := { full := 4, len := 4, horizon := 1 }
    (g.run ⟨some 10, some 40, some 0, some 0, some 3⟩).2.isOk = true ∧ e.len = g.dataLength ∧ e.horizon = g.horizon ∧ e.t = g.t ∧
      e.done = g.done ∧ g.loads[e.row]? = some g.load ∧ g.pvs[e.row]? = some g.pv ∧ e.run.row = 1 := by
  decide +kernel

end Pymgrid.Legacy
