import Verif.Lemmas.LegacyPast
import Verif.Props.LegacyRBC

set_option autoImplicit false

/-! C109: what legacy microgrids and their benchmark algorithms do depends on the data of the steps done, and for the optimizing
    ones on those of the horizon, but not on later data. -/

namespace Pymgrid.Legacy

variable {N n k : Nat} {s s' : Series} {a : Arch} {p : Params} {soc : ℚ} {row : StateRow} {g g' : Grid}

/-- C109: for the same sequence of at most `N` controls, microgrids whose data agree in the first `N` rows do the same and fail in
    the same way. -/
theorem C109_run (hs : s.SameStart N a.grid s') (hc : s.create a p k soc row = .ok g) (hc' : s'.create a p k soc row = .ok g')
    (hf : s.Full a.grid) (hf' : s'.Full a.grid) (hl : N + k ≤ min s.loads.length s.pvs.length)
    (hl' : N + k ≤ min s'.loads.length s'.pvs.length) (cs : List Control) (hn : cs.length ≤ N) :
    (g'.runAll cs).2 = (g.runAll cs).2 ∧ (g'.runAll cs).1.deeds = (g.runAll cs).1.deeds := by
  obtain ⟨h1, h2, h3, h4, h5, h6, h7, h8, h9⟩ := created_alike hs hc hc'
  exact runAll_alike cs ⟨h1, h8 hf, h9 hf', by rw [h4, h5]; exact hl, by rw [h4, h6]; exact hl', h2, fun h => h7 (by omega)⟩ (by omega)

/-- C109: `n` steps of rule-based control depend on the first `n` rows only. -/
theorem C109_rule_based (hs : s.SameStart N a.grid s') (hc : s.create a p k soc row = .ok g)
    (hc' : s'.create a p k soc row = .ok g') (hn : n ≤ N) (hl : n + k < min s.loads.length s.pvs.length)
    (hl' : n + k < min s'.loads.length s'.pvs.length) :
    (runRuleBased g' (some (n + k))).map Baseline.deeds = (runRuleBased g (some (n + k))).map Baseline.deeds := by
  obtain ⟨h1, h2, h3, h4, h5, h6, _, _, _⟩ := created_alike hs hc hc'
  unfold runRuleBased
  simp only [h1.horizon, h4, h5, h6, ge_iff_le, Nat.not_le.mpr hl, Nat.not_le.mpr hl', if_false, Nat.add_sub_cancel]
  exact rule_from h1 n 0 h2 (by omega)

/-- C109: `n` steps of model predictive control depend on the first `n - 1 + horizon` rows only, whatever the solver. -/
theorem C109_mpc (solve : MPC.Solver) (hs : s.SameStart N a.grid s') (hc : s.create a p k soc row = .ok g)
    (hc' : s'.create a p k soc row = .ok g') (hf : s.Full a.grid) (hf' : s'.Full a.grid) (hn : n ≤ N) (hk : n + k ≤ N + 1) :
    (MPC.runLegacy solve g' (some n)).2.map Baseline.deeds = (MPC.runLegacy solve g (some n)).2.map Baseline.deeds := by
  obtain ⟨h1, h2, h3, h4, h5, h6, _, h8, h9⟩ := created_alike hs hc hc'
  obtain ⟨x, x', r1, r2, r3, r4, r5, r6, r7⟩ := reset_alike h1 (h8 hf) (h9 hf') h2
  have hd := h1.dataLength
  unfold MPC.runLegacy
  rw [r1, r2]
  simp only
  rw [if_pos (by rw [r6, r4.horizon, r3, h4]; omega), if_pos (by rw [r5, r3, h4]; omega)]
  exact mpc_from solve r4 n 0 r7 (by omega) (by rw [r3, h4]; omega)

/-- C109: given the samples, `n` steps of the sample average approximation depend on the first `n - 1 + horizon` rows only,
    whatever the solver and the choice among the samples. -/
theorem C109_saa (solve : MPC.Solver) (select : MPC.Selector) (hs : s.SameStart N a.grid s')
    (hc : s.create a p k soc row = .ok g) (hc' : s'.create a p k soc row = .ok g') (fs : List MPC.Frame) (q : ℚ) (hn : n ≤ N)
    (hk : n + k ≤ N + 1) :
    (MPC.runGroup solve select g' fs (some n) q).1 = (MPC.runGroup solve select g fs (some n) q).1 ∧
    (MPC.runGroup solve select g' fs (some n) q).2.map Baseline.deeds =
      (MPC.runGroup solve select g fs (some n) q).2.map Baseline.deeds := by
  obtain ⟨h1, h2, h3, h4, _, _, _, _, _⟩ := created_alike hs hc hc'
  unfold MPC.runGroup
  simp only [h1.horizon]
  split
  · exact ⟨rfl, rfl⟩
  · split
    · exact ⟨rfl, rfl⟩
    · exact group_from solve select q h1 n 0 fs h2 (by omega) (by rw [h4]; omega)

/-- Series that differ from row 3 on. -/
def pastSeries (load price : ℚ) : Series :=
  ⟨[60, 40, 30, load, 20], [30, 50, 10, load / 2, 0], [1, 0, 1, 0, 1], [1/5, 1/5, 3/10, price, 1/5], [1/10, 0, 1/10, price, 0],
    [1/2, 1/2, 1/4, price, 0]⟩

/-- A microgrid with all components. -/
def pastGrid (load price : ℚ) : Grid :=
  match (pastSeries load price).create ⟨true, true, true⟩ demoParams 2 (1/2) ⟨some 60, some 30, 0, 1/2, 50, 27, none⟩ with
  | .ok g => g
  | .error _ => demo false

theorem pastGrid_ok (load price : ℚ) : (pastSeries load price).create ⟨true, true, true⟩ demoParams 2 (1/2)
    ⟨some 60, some 30, 0, 1/2, 50, 27, none⟩ = .ok (pastGrid load price) := rfl

/-- Non-vacuity of the C109 theorems: a microgrid with all components and two futures.  The controls of two steps by hand, the
    baseline and a plan agree and are not trivial. -/
example : (pastSeries 80 (1/3)).SameStart 3 true (pastSeries 10 2) ∧ (pastSeries 80 (1/3)).Full true ∧
    (pastSeries 10 2).Full true ∧ 3 + 2 ≤ min (pastSeries 80 (1/3)).loads.length (pastSeries 80 (1/3)).pvs.length ∧
    (pastGrid 80 (1/3)).loads ≠ (pastGrid 10 2).loads ∧
    ((runRuleBased (pastGrid 80 (1/3)) (some 4)).toOption.map fun b => b.deeds.socs) = some [1/2, 2/9, 281/900] ∧
    ((runRuleBased (pastGrid 10 2) (some 4)).toOption.map fun b => b.deeds.socs) = some [1/2, 2/9, 281/900] := by
  refine ⟨⟨⟨?_, ?_, ?_⟩, ⟨?_, ?_, ?_⟩, fun _ => ⟨?_, ?_, ?_⟩, fun _ => ⟨?_, ?_, ?_⟩, fun _ => ⟨?_, ?_, ?_⟩, fun _ => ⟨?_, ?_, ?_⟩⟩,
    fun _ => ?_, fun _ => ?_, ?_, ?_, ?_, ?_⟩ <;> decide +kernel

/-- A solver that imports what the forecast says about the second step. -/
def pastSolver : MPC.Solver := fun P => some ⟨fun i => if i = 1 then P.inputs.load.getD 1 0 else 0, fun _ => 0⟩

/-- The imports of a result. -/
def imported (r : Except Err Baseline) : Option (List (ℚ × ℚ)) := r.toOption.map fun b => b.production.grid

/-- C109: the bounds are met.  With a horizon of 2, two steps of a plan depend on the first three rows and not on the fourth, three
    steps depend on the fourth; rule-based control of three steps does not. -/
theorem C109_limit :
    imported (MPC.runLegacy pastSolver (pastGrid 80 (1/3)) (some 2)).2 = some [(40, 0), (30, 0)] ∧
    imported (MPC.runLegacy pastSolver (pastGrid 10 2) (some 2)).2 = some [(40, 0), (30, 0)] ∧
    imported (MPC.runLegacy pastSolver (pastGrid 80 (1/3)) (some 3)).2 = some [(40, 0), (30, 0), (80, 0)] ∧
    imported (MPC.runLegacy pastSolver (pastGrid 10 2) (some 3)).2 = some [(40, 0), (30, 0), (10, 0)] := by
  decide +kernel

/-- C109: the records of the states show the next row, so they are not part of the comparison. -/
theorem C109_states_ahead :
    ((runRuleBased { pastGrid 80 (1/3) with horizon := 1 } (some 4)).toOption.map fun b => b.states.map (·.load)) =
      some [some 60, some 40, some 30, some 80] ∧
    ((runRuleBased { pastGrid 10 2 with horizon := 1 } (some 4)).toOption.map fun b => b.states.map (·.load)) =
      some [some 60, some 40, some 30, some 10] := by
  decide +kernel

end Pymgrid.Legacy
