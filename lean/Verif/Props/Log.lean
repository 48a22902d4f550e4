import Verif.Lemmas.Log
import Verif.Props.Battery
import Verif.Props.Genset
import Verif.Props.Series

set_option autoImplicit false

/-!
# C24, C25: module logs

`transcript m ops` lists the successful steps of a history; `column l k` is `module.log[k]`.
-/

namespace Pymgrid

open Module

/-- C24: after a reset and any sequence of steps, some of which may raise, the log has exactly one row per
    successful step: every column has that many entries, none of them missing, and no column appears twice. -/
theorem C24_one_row_per_step {m : Module} (h : LibraryModule m) (ops : List MOp) (ho : StepsOnly ops) :
    let l := (runOps m.reset.1 ops).logger
    let k := (transcript m.reset.1 ops).length
    l.len = k ∧ (∀ c ∈ l.cols, c.2.length = k ∧ none ∉ c.2) ∧ (l.cols.map Prod.fst).Nodup ∧
      (0 < k → .str "reward" ∈ l.cols.map Prod.fst) := by
  have hw := h.wf
  have hlog := hw.reset_log
  have hh := (hw.reset.holds (rows := []) (by rw [hlog]; exact Logger.Holds.empty _) ops ho).1
  simp only [List.nil_append] at hh
  have hn := hw.reset.logKeys_nodup
  refine ⟨by rw [hh.len]; simp, ?_, ?_, ?_⟩
  · intro c hc
    rw [hh.cols] at hc
    split at hc
    · simp at hc
    · obtain ⟨k, hk, rfl⟩ := List.mem_map.mp hc
      refine ⟨by simp, ?_⟩
      intro hm
      obtain ⟨r, hr, he⟩ := List.mem_map.mp hm
      have := hh.keys r hr
      exact dictGet?_none.mp he (by rw [this]; exact hk)
  · rw [hh.cols]
    split
    · simp
    · simpa [Function.comp_def] using hn
  · intro hk
    rw [hh.cols, if_neg (by intro he; simp only [List.map_eq_nil_iff] at he; rw [he] at hk; simp at hk)]
    simp [Function.comp_def, logKeys]

private theorem column_of {m : Module} (h : m.WF) {ops : List MOp} (ho : StepsOnly ops) {k : Key}
    (hk : k ∈ m.reset.1.logKeys) {f : Taken → ℚ}
    (hf : ∀ t ∈ transcript m.reset.1 ops, (k, f t) ∈ rowOf t.before t.out t.after) :
    (runOps m.reset.1 ops).logger.column k = (transcript m.reset.1 ops).map fun t => some (f t) := by
  have hh := (h.reset.holds (rows := []) (by rw [h.reset_log]; exact Logger.Holds.empty _) ops ho).1
  simp only [List.nil_append] at hh
  rw [hh.column hk, List.map_map]
  refine List.map_congr_left fun t ht => ?_
  obtain ⟨hw, -, hlk, -, -, -, a, n, hs⟩ := h.reset.taken ho t ht
  have hr := (hw.logs hs).2
  exact dictGet?_of_mem (by rw [hr]; exact hw.logKeys_nodup) (hf t ht)

/-- C25, rewards and energies: the log's reward column lists the rewards of the steps, and the two energy columns
    list the energy each step provided and absorbed (0 for the direction not used). -/
theorem C25_reward_and_energy {m : Module} (h : LibraryModule m) (ops : List MOp) (ho : StepsOnly ops) :
    let l := (runOps m.reset.1 ops).logger
    let steps := transcript m.reset.1 ops
    l.column (.str "reward") = steps.map (fun t => some t.out.reward) ∧
    (∀ k, m.provName = some k → l.column k = steps.map fun t => some (t.out.info.provided.getD 0)) ∧
    (∀ k, m.absName = some k → l.column k = steps.map fun t => some (t.out.info.absorbed.getD 0)) := by
  have hw := h.wf
  have hfr := frame_reset m
  refine ⟨?_, ?_, ?_⟩
  · exact column_of hw ho (by simp [logKeys]) fun t _ => by simp [rowOf]
  · intro k hk
    refine column_of hw ho (by simp [logKeys, hfr.prov, hk]) fun t ht => ?_
    obtain ⟨-, -, -, hp, -⟩ := hw.reset.taken ho t ht
    simp [rowOf, hp, hfr.prov, hk]
  · intro k hk
    refine column_of hw ho (by simp [logKeys, hfr.abs, hk]) fun t ht => ?_
    obtain ⟨-, -, -, -, ha, -⟩ := hw.reset.taken ho t ht
    simp [rowOf, ha, hfr.abs, hk]

private theorem stateOf_keys {m : Module} (h : m.WF) (k : Key) : (m.stateOf k).isSome ↔ k ∈ m.stateKeys := by
  obtain ⟨d, hd⟩ := h.stateDict_ok
  unfold stateOf
  rw [hd, ← h.keys hd]
  simp only
  rw [← not_iff_not, Option.not_isSome_iff_eq_none, dictGet?_none]

/-- C25, states: for every module but the genset, the log's column of a state variable lists its values *before*
    each step.
    Full claim: the same for gensets.  It fails for them, see `C25_genset_state_partial` and
    `C25_not_for_gensets`. -/
theorem C25_state_partial {m : Module} (h : LibraryModule m) (hg : ∀ g, m.kind ≠ .genset g) (ops : List MOp)
    (ho : StepsOnly ops) (k : Key) (hk : (m.stateOf k).isSome) :
    (runOps m.reset.1 ops).logger.column k = (transcript m.reset.1 ops).map fun t => t.before.stateOf k := by
  have hw := h.wf
  obtain ⟨-, hrs, hre⟩ := hw.keys_reset
  have hk' : k ∈ m.reset.1.stateKeys := by rw [hrs]; exact (stateOf_keys hw k).mp hk
  have hsome : ∀ t ∈ transcript m.reset.1 ops, ∃ v, t.before.stateOf k = some v ∧
      (k, v) ∈ rowOf t.before t.out t.after := by
    intro t ht
    obtain ⟨hwt, hks, -, -, -, hep, -⟩ := hw.reset.taken ho t ht
    obtain ⟨v, hv⟩ := Option.isSome_iff_exists.mp ((stateOf_keys hwt k).mpr (by rw [hks]; exact hk'))
    refine ⟨v, hv, ?_⟩
    obtain ⟨d, hd⟩ := hwt.stateDict_ok
    have hng : ¬ ∃ g, t.before.kind = .genset g := by
      rw [genset_iff, hep, hre, ← genset_iff]
      rintro ⟨g, hg'⟩
      exact hg g hg'
    have hl : logged t.before t.after = d := by
      unfold logged
      split
      · rename_i g hg'; exact absurd ⟨g, hg'⟩ hng
      · rw [hd]
    unfold stateOf at hv
    rw [hd] at hv
    unfold rowOf
    rw [hl]
    simp [dictGet?_mem hv]
  have := column_of hw ho (k := k) (by unfold logKeys; simp [hk'])
    (f := fun t => (t.before.stateOf k).getD 0) (by
      intro t ht
      obtain ⟨v, hv, hm⟩ := hsome t ht
      rw [hv]; exact hm)
  rw [this]
  refine List.map_congr_left fun t ht => ?_
  obtain ⟨v, hv, -⟩ := hsome t ht
  rw [hv]; rfl

/-- C25 for gensets, what the code does instead: the column of a state variable lists its values *after* each step,
    because the status is changed before the state is recorded. -/
theorem C25_genset_state_partial {m : Module} (h : LibraryModule m) {g : Genset} (hg : m.kind = .genset g)
    (ops : List MOp) (ho : StepsOnly ops) (k : Key) (hk : (m.stateOf k).isSome) :
    (runOps m.reset.1 ops).logger.column k = (transcript m.reset.1 ops).map fun t => t.after.stateOf k := by
  have hw := h.wf
  obtain ⟨-, hrs, hre⟩ := hw.keys_reset
  have hk' : k ∈ m.reset.1.stateKeys := by rw [hrs]; exact (stateOf_keys hw k).mp hk
  have hsome : ∀ t ∈ transcript m.reset.1 ops, ∃ v, t.after.stateOf k = some v ∧
      (k, v) ∈ rowOf t.before t.out t.after := by
    intro t ht
    obtain ⟨hwt, hks, -, -, -, hep, a, n, hs⟩ := hw.reset.taken ho t ht
    have hwa := hwt.step a n
    have hka := (hwt.keys_step a n).2.1
    rw [hs] at hwa hka
    simp only at hwa hka
    obtain ⟨v, hv⟩ := Option.isSome_iff_exists.mp ((stateOf_keys hwa k).mpr (by rw [hka, hks]; exact hk'))
    refine ⟨v, hv, ?_⟩
    obtain ⟨d, hd⟩ := hwa.stateDict_ok
    obtain ⟨g', hg'⟩ : ∃ g, t.before.kind = .genset g := by
      rw [genset_iff, hep, hre, ← genset_iff]
      exact ⟨g, hg⟩
    have hl : logged t.before t.after = d := by
      unfold logged
      rw [hg', hd]
    unfold stateOf at hv
    rw [hd] at hv
    unfold rowOf
    rw [hl]
    simp [dictGet?_mem hv]
  have := column_of hw ho (k := k) (by unfold logKeys; simp [hk'])
    (f := fun t => (t.after.stateOf k).getD 0) (by
      intro t ht
      obtain ⟨v, hv, hm⟩ := hsome t ht
      rw [hv]; exact hm)
  rw [this]
  refine List.map_congr_left fun t ht => ?_
  obtain ⟨v, hv, -⟩ := hsome t ht
  rw [hv]; rfl

/-- C25 fails for gensets: switching the running genset off is logged as a state in which it is already winding
    down, although it was fully on before the step. -/
theorem C25_not_for_gensets :
    ∃ (m : Module) (ops : List MOp) (k : Key), LibraryModule m ∧ StepsOnly ops ∧ (m.stateOf k).isSome ∧
      (runOps m.reset.1 ops).logger.column k ≠ (transcript m.reset.1 ops).map fun t => t.before.stateOf k := by
  refine ⟨sampleGenset, [.step (.arr [0, 20]) false, .step (.arr [0, 20]) false], .str "current_status",
    .genset sampleGenset_ok (by norm_num), ?_, by decide +kernel, by decide +kernel⟩
  intro op hop
  simp only [List.mem_cons, List.not_mem_nil, or_false] at hop
  rcases hop with rfl | rfl <;> exact ⟨_, _, rfl⟩

/-! ### Non-vacuity -/

/-- Three battery steps, the second of which raises: two rows. -/
example : (runOps sampleBattery.reset.1 [.step (.num 10) false, .step (.arr [1, 2, 3]) true,
      .step (.num (-50)) false]).logger =
    { cols := [(.str "reward", [some (-60), some (-60)]), (.str "discharge_amount", [some 10, some 0]),
        (.str "charge_amount", [some 0, some 40]), (.str "soc", [some (3/5), some (2/5)]),
        (.str "current_charge", [some 60, some 40])], len := 2 } := by
  decide +kernel

/-- Two load steps with forecasts. -/
example : (runOps exLoad.reset.1 [.step (.arr []) false, .step (.num 0) false]).logger.column (.fc "load" 1) =
      [some (-20), some (-30)] ∧
    (transcript exLoad.reset.1 [.step (.arr []) false, .step (.num 0) false]).map
      (fun t => t.before.stateOf (.fc "load" 1)) = [some (-20), some (-30)] := by
  decide +kernel

/-- The genset's status column against its status before each step. -/
example : (runOps sampleGenset.reset.1 [.step (.arr [0, 20]) false, .step (.arr [0, 20]) false]).logger.column
      (.str "current_status") = [some 1, some 0] ∧
    (transcript sampleGenset.reset.1 [.step (.arr [0, 20]) false, .step (.arr [0, 20]) false]).map
      (fun t => t.before.stateOf (.str "current_status")) = [some 1, some 1] := by
  decide +kernel

end Pymgrid
