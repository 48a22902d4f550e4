import Verif.Model.Wrap
import Verif.Model.EnvObs
import Verif.Lemmas.GridSerialize
import Verif.Props.GridSetters
import Verif.Props.BalanceLog

set_option autoImplicit false

/-! Microgrids on the same modules. -/

namespace Pymgrid

open Module

/-- Two microgrids share their modules. -/
structure Shares (e g : Microgrid) : Prop where
  heap : e.heap = g.heap
  cont : e.cont = g.cont
  shaper : e.shaper = g.shaper

theorem Shares.run {e g : Microgrid} (s : Shares e g) (c : List (String × Ctrl)) (n : Bool) :
    (e.run c n).2 = (g.run c n).2 ∧ Shares (e.run c n).1 (g.run c n).1 := by
  obtain ⟨h, k, i, f, sh, t, cl, b, o⟩ := e
  obtain ⟨h', k', i', f', sh', t', cl', b', o'⟩ := g
  obtain ⟨h1, h2, h3⟩ := s
  simp only at h1 h2 h3
  subst h1 h2 h3
  unfold Microgrid.run Microgrid.finish
  simp only [Microgrid.fixedSteps, Microgrid.dispatch, Microgrid.flexList]
  repeat' split
  all_goals exact ⟨rfl, rfl, rfl, rfl⟩

/-- Trajectory functions that do not look at their arguments: none, or always the same steps. -/
def Steady (t : Option (Nat → Nat → Option Nat → Except Err (Nat × Nat))) (i F : Nat) : Prop :=
  t = none ∨ t = some fun _ _ _ => .ok (i, F)

/-- What is left of a reset after the trajectory. -/
theorem Shares.reset {e g : Microgrid} (s : Shares e g) (he : e.trajectory = g.trajectory) {i F : Nat}
    (hg : Steady g.trajectory i F) :
    e.resetObs.2 = g.resetObs.2 ∧ e.reset.2 = g.reset.2 ∧ Shares e.reset.1 g.reset.1 ∧
      (g.reset.2 = .ok () → e.reset.1.balanceLog = g.reset.1.balanceLog ∧ e.reset.1.otherLog = g.reset.1.otherLog) := by
  obtain ⟨h, k, ei, f, sh, t, cl, b, o⟩ := e
  obtain ⟨h', k', i', f', sh', t', cl', b', o'⟩ := g
  obtain ⟨h1, h2, h3⟩ := s
  simp only at h1 h2 h3 he
  subst h1 h2 h3 he
  unfold Microgrid.resetObs Microgrid.reset Microgrid.setTrajectory
  rcases hg with hg | hg
  · simp only at hg
    subst hg
    simp only
    refine ⟨?_, ?_⟩
    · repeat' split
      all_goals rfl
    · repeat' split
      all_goals exact ⟨rfl, ⟨rfl, rfl, rfl⟩, by simp [Logger.flush]⟩
  · simp only at hg
    subst hg
    simp only
    refine ⟨?_, ?_⟩
    · cases hm : Microgrid.setFinalMany (Microgrid.setInitialMany h i k.fullList) F false k.fullList with
      | mk h₂ r =>
        cases r <;> simp only
        repeat' split
        all_goals rfl
    · cases hm : Microgrid.setFinalMany (Microgrid.setInitialMany h i k.fullList) F false k.fullList with
      | mk h₂ r =>
        cases r <;> simp only
        · exact ⟨trivial, ⟨rfl, rfl, rfl⟩, by simp⟩
        · repeat' split
          all_goals exact ⟨rfl, ⟨rfl, rfl, rfl⟩, by simp [Logger.flush]⟩

theorem Shares.runG {e g : Microgrid} (s : Shares e g) (he : e.trajectory = g.trajectory) {i F : Nat}
    (hg : Steady g.trajectory i F) (ops : List GOp) : Shares (runG e ops) (runG g ops) := by
  induction ops using List.reverseRecOn with
  | nil => exact s
  | append_singleton ops op ih =>
    rw [Pymgrid.runG, Pymgrid.runG, List.foldl_append, List.foldl_append]
    cases op with
    | run c n => exact (ih.run c n).2
    | reset =>
      exact (ih.reset (by rw [(runG_fixed e ops).trajectory, (runG_fixed g ops).trajectory, he])
        (by rw [(runG_fixed g ops).trajectory]; exact hg)).2.2.1

section
variable {mods : List (String × Nat)} {g : Microgrid}

/-- The constructor on the modules of a microgrid in an episode. -/
theorem GridOK.wrap (ok : GridOK mods g) (hd : DistinctNames g.heap mods) {I F : Nat} (he : Episode mods g I F) :
    g.wrap = match g.trajectory with
      | none => .ok { heap := g.heap, cont := g.cont, initialStep := I, finalStep := some F, shaper := g.shaper }
      | some f =>
        match f g.calls I (some F) with
        | .error e => .error e
        | .ok (i, fin) =>
          if i < I ∨ fin > F ∨ i ≥ fin then .error .value
          else .ok { heap := g.heap, cont := g.cont, initialStep := I, finalStep := some F, shaper := g.shaper,
                     trajectory := some fun k => f (g.calls + k), calls := 1 } := by
  have hb : Container.build g.heap (Container.toTuples g.cont.fullDict) = g.cont := by
    rw [ok.cont]
    exact build_tuples hd
  have hp := (Container.full_perm hd).map Prod.snd
  rw [← ok.cont] at hp
  have h1 : uniqueVal (((Container.toTuples g.cont.fullDict).map Prod.snd).map fun i => (g.heap i).initialStep) = .ok I := by
    refine uniqueVal_of ?_ ?_
    · intro y hy
      obtain ⟨i, hi, rfl⟩ := List.mem_map.mp hy
      obtain ⟨nm, hm, rfl⟩ := List.mem_map.mp (hp.subset hi)
      exact (he.1 nm hm).1
    · obtain ⟨nm, hm, -⟩ := he.2
      intro hn
      have := hp.symm.subset (List.mem_map_of_mem (f := Prod.snd) hm)
      rw [List.map_eq_nil_iff.mp hn] at this
      simp at this
  have h2 : uniqueVal (((Container.toTuples g.cont.fullDict).map Prod.snd).filterMap fun i => (g.heap i).finalStep?) =
      .ok F := by
    refine uniqueVal_of ?_ ?_
    · intro y hy
      obtain ⟨i, hi, hiF⟩ := List.mem_filterMap.mp hy
      obtain ⟨nm, hm, rfl⟩ := List.mem_map.mp (hp.subset hi)
      exact (he.1 nm hm).2 y hiF
    · obtain ⟨nm, hm, hne⟩ := he.2
      obtain ⟨F', hF'⟩ := Option.ne_none_iff_exists'.mp hne
      intro hn
      have : F' ∈ ((Container.toTuples g.cont.fullDict).map Prod.snd).filterMap fun i => (g.heap i).finalStep? :=
        List.mem_filterMap.mpr ⟨nm.2, hp.symm.subset (List.mem_map_of_mem (f := Prod.snd) hm), hF'⟩
      rw [hn] at this
      simp at this
  have hne : Container.toTuples g.cont.fullDict ≠ [] := fun e => by
    rw [e] at h1
    simp [uniqueVal] at h1
  unfold Microgrid.wrap Microgrid.create
  rw [if_neg (by simpa using hne)]
  simp only [hb, h1, h2, Microgrid.checkTrajectory, Microgrid.exceeds, decide_eq_true_eq]
  cases g.trajectory with
  | none => rfl
  | some f =>
    simp only [Option.map_some, Nat.add_zero]
    cases f g.calls I (some F) with
    | error e => rfl
    | ok x =>
      obtain ⟨i, fin⟩ := x
      simp only
      by_cases a : i < I
      · simp [a]
      by_cases b : fin > F
      · simp [a, b]
      by_cases c : i ≥ fin
      · simp [a, b, c]
      · simp [a, b, c]

/-- The balance log of runs. -/
theorem Runs.balance_rows {g₁ g' : Microgrid} {cs : List (List (String × Ctrl) × Bool)} {os : List RunOut}
    (hs : Runs g₁ cs os g') (rows : List (List (Key × ℚ))) (h0 : g₁.balanceLog.Holds balanceKeys rows) :
    ∃ rows', g'.balanceLog.Holds balanceKeys (rows ++ rows') ∧ rows'.length = os.length := by
  induction hs generalizing rows with
  | nil g => exact ⟨[], by simpa using h0, rfl⟩
  | @cons g g₁ g' c n o cs os hrun _ ih =>
    obtain ⟨trF, trC, trX, h₁, h₂, ci, r⟩ := Microgrid.run_ok hrun
    obtain ⟨row, e, e1, -⟩ := run_row r
    have hh' := h0.log e1 balanceKeys_nodup
    rw [← e] at hh'
    obtain ⟨rows', k1, k2⟩ := ih _ hh'
    exact ⟨row :: rows', by simpa only [List.append_assoc, List.singleton_append] using k1, by simp [k2]⟩

end

end Pymgrid
