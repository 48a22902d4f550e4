import Verif.Model.Trajectory
import Verif.Props.Episode

set_option autoImplicit false

/-!
# Trajectory functions (C40)

`u`, `v` are the draws of the random generator; all theorems hold for every draw.
-/

namespace Pymgrid

/-- What `randint` returns lies in the half-open interval, and it fails only on empty intervals. -/
theorem randint_spec {u : Nat} {lo hi : Int} :
    (∀ x, randint u lo hi = .ok x → lo ≤ x ∧ x < hi) ∧ ((∃ x, randint u lo hi = .ok x) ↔ lo < hi) := by
  unfold randint
  split
  · rename_i h
    exact ⟨by simp, by simp; omega⟩
  · rename_i h
    have h0 : 0 ≤ (u : Int) % (hi - lo) := Int.emod_nonneg _ (by omega)
    have h1 : (u : Int) % (hi - lo) < hi - lo := Int.emod_lt_of_pos _ (by omega)
    refine ⟨?_, ⟨fun _ => by omega, fun _ => ⟨_, rfl⟩⟩⟩
    rintro x hx
    simp only [Except.ok.injEq] at hx
    omega

/-- Every value of the interval is drawn by some draw. -/
theorem randint_onto {lo hi x : Int} (h : lo ≤ x ∧ x < hi) : randint (x - lo).toNat lo hi = .ok x := by
  unfold randint
  rw [if_neg (by omega), Int.toNat_of_nonneg (by omega), Int.emod_eq_of_lt (by omega) (by omega)]
  congr 1
  omega

/-- C40 (partial; missing: `i < f`, which fails for some draws, see `C40_stochastic_empty`):
    `StochasticTrajectory` succeeds exactly if the range has at least three steps, and then returns bounds within the
    range in the right order; conversely all pairs `a ≤ i ≤ f < b`, `i < b - 2` occur. -/
theorem C40_stochastic_partial (a b : Int) :
    (∀ u v, (∃ p, Trajectory.stochastic u v a b = .ok p) ↔ a + 2 < b) ∧
    (∀ u v i f, Trajectory.stochastic u v a b = .ok (i, f) → a ≤ i ∧ i ≤ f ∧ f ≤ b) ∧
    (∀ i f, a ≤ i → i < b - 2 → i ≤ f → f < b → ∃ u v, Trajectory.stochastic u v a b = .ok (i, f)) := by
  have key : ∀ u v, (Trajectory.stochastic u v a b = .error .value ∧ b ≤ a + 2) ∨
      ∃ i f, Trajectory.stochastic u v a b = .ok (i, f) ∧ a ≤ i ∧ i < b - 2 ∧ i ≤ f ∧ f < b := by
    intro u v
    unfold Trajectory.stochastic
    by_cases h : a < b - 2
    · obtain ⟨i, hi⟩ := (randint_spec (u := u)).2.mpr h
      have hib := (randint_spec).1 i hi
      obtain ⟨f, hf⟩ := (randint_spec (u := v) (lo := i) (hi := b)).2.mpr (by omega)
      have hfb := (randint_spec).1 f hf
      exact .inr ⟨i, f, by simp [hi, hf], by omega⟩
    · refine .inl ⟨?_, by omega⟩
      have : randint u a (b - 2) = .error .value := by unfold randint; rw [if_pos (by omega)]
      rw [this]
  refine ⟨fun u v => ?_, fun u v i f h => ?_, fun i f h1 h2 h3 h4 => ?_⟩
  · rcases key u v with ⟨h, hb⟩ | ⟨i, f, h, hb⟩
    · rw [h]; constructor
      · rintro ⟨p, hp⟩; simp at hp
      · intro; omega
    · exact ⟨fun _ => by omega, fun _ => ⟨_, h⟩⟩
  · rcases key u v with ⟨h', hb⟩ | ⟨i', f', h', hb⟩
    · rw [h'] at h; simp at h
    · rw [h'] at h
      simp only [Except.ok.injEq, Prod.mk.injEq] at h
      omega
  · refine ⟨(i - a).toNat, (f - i).toNat, ?_⟩
    unfold Trajectory.stochastic
    rw [randint_onto ⟨h1, h2⟩]
    simp only [randint_onto (lo := i) (hi := b) ⟨h3, h4⟩]

/-- C40 does not hold for `StochasticTrajectory`: on every range on which it succeeds, some draws give an empty
    episode. -/
theorem C40_stochastic_empty (a b : Int) (h : a + 2 < b) :
    ∃ u v i, Trajectory.stochastic u v a b = .ok (i, i) := by
  obtain ⟨u, v, huv⟩ := (C40_stochastic_partial a b).2.2 a a (by omega) (by omega) (by omega) (by omega)
  exact ⟨u, v, a, huv⟩

/-- C40 (partial; missing: ranges of exactly the requested length, see `C40_full_length_rejected`):
    on longer ranges `FixedLengthStochasticTrajectory` returns, for every draw, an interval of the requested length
    within the range; every start position except the last possible one can be drawn. -/
theorem C40_fixed_length_partial (a b length : Int) (h0 : 0 < length) (h : length < b - a) :
    (∀ u, ∃ i, Trajectory.fixedLength length u a b = .ok (i, i + length) ∧ a ≤ i ∧ i < i + length ∧ i + length ≤ b) ∧
    (∀ i, a ≤ i → i + length < b → ∃ u, Trajectory.fixedLength length u a b = .ok (i, i + length)) := by
  refine ⟨fun u => ?_, fun i h1 h2 => ⟨(i - a).toNat, ?_⟩⟩
  · unfold Trajectory.fixedLength
    rw [if_neg (by omega)]
    obtain ⟨i, hi⟩ := (randint_spec (u := u) (lo := a) (hi := b - length)).2.mpr (by omega)
    have := (randint_spec).1 i hi
    exact ⟨i, by rw [hi], by omega⟩
  · unfold Trajectory.fixedLength
    rw [if_neg (by omega), randint_onto ⟨h1, by omega⟩]

/-- C40: too short ranges raise `ValueError`. -/
theorem C40_fixed_length_rejected (a b length : Int) (u : Nat) (h : b - a < length) :
    Trajectory.fixedLength length u a b = .error .value := by
  unfold Trajectory.fixedLength; rw [if_pos h]

/-- C40 does not hold for `FixedLengthStochasticTrajectory`: a range of exactly the requested length is rejected too. -/
theorem C40_full_length_rejected (a length : Int) (u : Nat) :
    Trajectory.fixedLength length u a (a + length) = .error .value := by
  unfold Trajectory.fixedLength
  rw [if_neg (by omega)]
  have : randint u a (a + length - length) = .error .value := by unfold randint; rw [if_pos (by omega)]
  rw [this]

/-- C40: in a microgrid with a `FixedLengthStochasticTrajectory` of length between 1 and the number of steps minus 1,
    every successful reset starts an episode of exactly that length within the microgrid's range, whatever the draws. -/
theorem C40_fixed_length_episodes {h : Heap} {mods : List (String × Nat)} {sh : Option Shaper} {g₀ : Microgrid}
    (length : Nat) (h0 : 0 < length) (draws : Nat → Nat)
    (hc : Microgrid.create h mods sh (some (Trajectory.ofCall fun k => Trajectory.fixedLength length (draws k))) = .ok g₀)
    (hl : ∀ nm ∈ mods, LibraryModule (h nm.2)) (hid : (mods.map Prod.snd).Nodup) (hd : DistinctNames h mods)
    (ops : List GOp) (g' : Microgrid) (hr : (runG g₀ ops).reset = (g', .ok ())) :
    ∃ F₀ I, g₀.finalStep = some F₀ ∧ g₀.initialStep ≤ I ∧ I + length ≤ F₀ ∧
      ∀ nm ∈ mods, (g'.heap nm.2).initialStep = I ∧ (g'.heap nm.2).currentStep = I ∧
        ∀ x, (g'.heap nm.2).finalStep? = some x → x = I + length := by
  have hval : ∀ k a b i fin, Trajectory.ofCall (fun k => Trajectory.fixedLength length (draws k)) k a (some b) =
      .ok (i, fin) → a ≤ i ∧ fin = i + length ∧ fin ≤ b := by
    intro k a b i fin hf
    unfold Trajectory.ofCall at hf
    simp only at hf
    unfold Trajectory.fixedLength at hf
    split at hf
    · simp at hf
    · rename_i p q hq
      split at hq
      · simp at hq
      cases hx : randint (draws k) a (b - length) with
      | error e => rw [hx] at hq; simp at hq
      | ok x =>
        have := (randint_spec).1 x hx
        rw [hx] at hq
        simp only [Except.ok.injEq, Prod.mk.injEq] at hq hf
        omega
  obtain ⟨ok, alike, -, -⟩ := user_grid hc hl ops
  have htr := (Microgrid.create_ok hc).2.2.2.1
  have hfx := runG_fixed g₀ ops
  obtain ⟨F₀, hF₀, -⟩ := created_episode hc hd (ok.reset_nonempty (hfx.trajectory.trans htr) hr)
  obtain ⟨hcur, -, -, hlim⟩ := ok.reset_modules hid (hd.congr alike) hr
  obtain ⟨I, F, hf, hlim⟩ := hlim _ (hfx.trajectory.trans htr)
  rw [hfx.initialStep, hfx.finalStep, hF₀] at hf
  obtain ⟨h1, h2, h3⟩ := hval _ _ _ _ _ hf
  refine ⟨F₀, I, hF₀, h1, by omega, fun nm hm => ⟨(hlim nm hm).1, (hcur nm hm).1.trans (hlim nm hm).1, fun x hx => ?_⟩⟩
  rw [((hlim nm hm).2.2 (by omega) x hx).1, h2]

/-- C40: ... and such a microgrid is always accepted by the constructor, and its resets do not raise because of the
    trajectory: the function succeeds at every call. -/
theorem C40_fixed_length_accepted {h : Heap} {mods : List (String × Nat)} {sh : Option Shaper} {g : Microgrid} {F₀ : Nat}
    (hc : Microgrid.create h mods sh none = .ok g) (hF : g.finalStep = some F₀) (length : Nat) (h0 : 0 < length)
    (hlt : g.initialStep + length < F₀) (draws : Nat → Nat) :
    (Microgrid.create h mods sh (some (Trajectory.ofCall fun k => Trajectory.fixedLength length (draws k)))).isOk = true ∧
    ∀ k, (Trajectory.ofCall (fun k => Trajectory.fixedLength length (draws k)) k g.initialStep g.finalStep).isOk = true := by
  have key : ∀ k, ∃ i fin, Trajectory.ofCall (fun k => Trajectory.fixedLength length (draws k)) k g.initialStep g.finalStep =
      .ok (i, fin) ∧ g.initialStep ≤ i ∧ i < fin ∧ fin ≤ F₀ := by
    intro k
    obtain ⟨i, hi, h1, h2, h3⟩ := (C40_fixed_length_partial g.initialStep F₀ length (by omega) (by omega)).1 (draws k)
    refine ⟨i.toNat, (i + length).toNat, ?_, by omega, by omega, by omega⟩
    unfold Trajectory.ofCall
    rw [hF]
    simp only [hi]
  constructor
  · obtain ⟨i, fin, hf, h1, h2, h3⟩ := key 0
    rw [C41_rejects_bad_trajectory h mods sh _ g hc i fin hf]
    refine ⟨h1, h2, fun F hF' => ?_⟩
    rw [hF] at hF'
    simp only [Option.some.injEq] at hF'
    omega
  · intro k
    obtain ⟨i, fin, hf, -⟩ := key k
    rw [hf]
    rfl

example : (Trajectory.stochastic 7 3 0 10).toOption = some (7, 7) := by decide +kernel
example : (Trajectory.fixedLength 3 12 0 10).toOption = some (5, 8) := by decide +kernel

/-- Five steps of load with a balancing module. -/
def fiveHeap : Heap
  | 0 => okModule (Module.mkLoad [1, 2, 3, 4, 5] .none 0 0 (-1) false)
  | _ => Module.mkBalancing false 0 10 5

/-- Draws: a good episode first, then an empty one. -/
def unluckyDraws (k : Nat) : Nat × Nat := if k = 0 then (1, 1) else (1, 0)

/-- The microgrid with these draws. -/
def unlucky : Microgrid := okGrid (Microgrid.create fiveHeap [("load", 0), ("balancing", 1)] none
  (some (Trajectory.ofCall fun k => Trajectory.stochastic (unluckyDraws k).1 (unluckyDraws k).2)))

/-- C40: the empty episodes of `StochasticTrajectory` make microgrids fail: with draws that are fine at construction,
    a reset raises `ValueError`. -/
theorem C40_stochastic_reset_fails : ∃ (draws : Nat → Nat × Nat) (g : Microgrid),
    Microgrid.create fiveHeap [("load", 0), ("balancing", 1)] none
      (some (Trajectory.ofCall fun k => Trajectory.stochastic (draws k).1 (draws k).2)) = .ok g ∧
    g.reset.2 = .error .value := by
  refine ⟨unluckyDraws, unlucky, okGrid_eq (by decide +kernel), ?_⟩
  decide +kernel

/-- A microgrid with episodes of two steps out of three. -/
def twoSteps : Microgrid := okGrid (Microgrid.create demoHeap demoMods none (some (Trajectory.ofCall fun k =>
    Trajectory.fixedLength 2 k)))
example : Microgrid.create demoHeap demoMods none (some (Trajectory.ofCall fun k => Trajectory.fixedLength 2 k)) =
    .ok twoSteps := okGrid_eq (by decide +kernel)
example : twoSteps.reset.2 = .ok () := by decide +kernel
example : demoGrid.finalStep = some 3 ∧ demoGrid.initialStep + 2 < 3 := by decide +kernel

end Pymgrid
