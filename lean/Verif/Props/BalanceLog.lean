import Verif.Lemmas.BalanceLog
import Verif.Props.Microgrid

set_option autoImplicit false

/-!
# C24 and C57: the balance log of a microgrid

The theorems are about every microgrid that the constructor accepts, after every history of `run` and `reset` calls
(including failing ones).
-/

namespace Pymgrid

open Module

theorem run_row {g g' : Microgrid} {control : List (String × Ctrl)} {n : Bool}
    {o : RunOut} {trF trC trX : List Event} {h₁ h₂ : Heap} {ci : CostInfo}
    (r : RunInfo g control n g' o trF trC trX h₁ h₂ ci) :
    ∃ row, g'.balanceLog = g.balanceLog.log row ∧ row.map Prod.fst = balanceKeys ∧
      dictGet? row (.str "shaped_reward") = some o.reward ∧
      dictGet? row (.str "overall_provided_to_microgrid") = some o.provided ∧
      dictGet? row (.str "overall_absorbed_from_microgrid") = some o.absorbed ∧
      dictGet? row (.str "reward") = some ((trF ++ trC ++ trX).map fun e => e.out.reward).sum ∧
      dictGet? row (.str "fixed_provided_to_microgrid") = some (provSum trF) ∧
      dictGet? row (.str "fixed_absorbed_from_microgrid") = some (absSum trF) ∧
      dictGet? row (.str "controllable_provided_to_microgrid") = some (provSum trC) ∧
      dictGet? row (.str "controllable_absorbed_from_microgrid") = some (absSum trC) := by
  refine ⟨_, r.log, rfl, rfl, ?_, ?_, ?_, ?_, ?_, ?_, ?_⟩
  · rw [r.provided, ← acc_provided]; rfl
  · rw [r.absorbed, ← acc_absorbed]; rfl
  · have : (({} : StepAcc).run (trF ++ trC ++ trX)).reward = ((trF ++ trC ++ trX).map fun e => e.out.reward).sum := by
      rw [StepAcc.run_reward]; simp
    rw [← this]; rfl
  · rw [← acc_provided]; rfl
  · rw [← acc_absorbed]; rfl
  · have : provSum trC = (({} : StepAcc).run (trF ++ trC)).provided.sum - (({} : StepAcc).run trF).provided.sum := by
      rw [acc_provided, acc_provided, provSum_append]; ring
    rw [this]; rfl
  · have : absSum trC = (({} : StepAcc).run (trF ++ trC)).absorbed.sum - (({} : StepAcc).run trF).absorbed.sum := by
      rw [acc_absorbed, acc_absorbed, absSum_append]; ring
    rw [this]; rfl

section
variable {h : Heap} {mods : List (String × Nat)} {sh : Option Shaper}
  {tr : Option (Nat → Nat → Option Nat → Except Err (Nat × Nat))} {g₀ : Microgrid}

/-- C24, balance log: after a successful reset and `k` successful runs, the balance log has `k` rows and every column
    has `k` entries, none of them missing.  The columns of the shaped reward and of the total energies list the
    rewards and the energies of the results of the runs (C57). -/
theorem C24_balance_log (g g₁ g' : Microgrid) (cs : List (List (String × Ctrl) × Bool)) (os : List RunOut)
    (hr : g.reset = (g₁, .ok ())) (hs : Runs g₁ cs os g') :
    g'.balanceLog.len = os.length ∧ (∀ c ∈ g'.balanceLog.cols, c.2.length = os.length ∧ none ∉ c.2) ∧
      (g'.balanceLog.cols.map Prod.fst).Nodup ∧
      g'.balanceLog.column (.str "shaped_reward") = os.map (fun o => some o.reward) ∧
      g'.balanceLog.column (.str "overall_provided_to_microgrid") = os.map (fun o => some o.provided) ∧
      g'.balanceLog.column (.str "overall_absorbed_from_microgrid") = os.map (fun o => some o.absorbed) := by
  have key : ∀ {g₁ g' : Microgrid} {cs : List (List (String × Ctrl) × Bool)} {os : List RunOut}, Runs g₁ cs os g' →
      ∀ rows, g₁.balanceLog.Holds balanceKeys rows → ∃ rows', g'.balanceLog.Holds balanceKeys (rows ++ rows') ∧
        rows'.map (fun r => dictGet? r (.str "shaped_reward")) = os.map (fun o => some o.reward) ∧
        rows'.map (fun r => dictGet? r (.str "overall_provided_to_microgrid")) = os.map (fun o => some o.provided) ∧
        rows'.map (fun r => dictGet? r (.str "overall_absorbed_from_microgrid")) =
          os.map (fun o => some o.absorbed) := by
    intro g₁ g' cs os hs
    induction hs with
    | nil g => exact fun rows hh => ⟨[], by simpa using hh, rfl, rfl, rfl⟩
    | @cons g g₁ g' c n o cs os hrun _ ih =>
      intro rows hh
      obtain ⟨trF, trC, trX, h₁, h₂, ci, r⟩ := Microgrid.run_ok hrun
      obtain ⟨row, e, e1, e2, e3, e4, -⟩ := run_row r
      have hh' := hh.log e1 balanceKeys_nodup
      rw [← e] at hh'
      obtain ⟨rows', k1, k2, k3, k4⟩ := ih _ hh'
      refine ⟨row :: rows', by simpa only [List.append_assoc, List.singleton_append] using k1, ?_, ?_, ?_⟩
      · simp only [List.map_cons, k2, e2]
      · simp only [List.map_cons, k3, e3]
      · simp only [List.map_cons, k4, e4]
  have hempty : g₁.balanceLog = {} := by
    unfold Microgrid.reset at hr
    split at hr
    · simp at hr
    split at hr
    · simp at hr
    · simp only [Prod.mk.injEq, and_true] at hr
      rw [← hr]; rfl
  obtain ⟨rows, k1, k2, k3, k4⟩ := key hs [] (by rw [hempty]; exact Logger.Holds.empty _)
  rw [List.nil_append] at k1
  have hlen : rows.length = os.length := by simpa using congrArg List.length k2
  refine ⟨by rw [k1.len, hlen], ?_, ?_, ?_, ?_, ?_⟩
  · intro c hc
    rw [k1.cols] at hc
    split at hc
    · simp at hc
    · obtain ⟨k, hk, rfl⟩ := List.mem_map.mp hc
      refine ⟨by simpa using hlen, ?_⟩
      intro hm
      obtain ⟨r, hr', he⟩ := List.mem_map.mp hm
      exact dictGet?_none.mp he (by rw [k1.keys r hr']; exact hk)
  · rw [k1.cols]
    split
    · simp
    · simpa [Function.comp_def] using balanceKeys_nodup
  · rw [k1.column (by decide), k2]
  · rw [k1.column (by decide), k3]
  · rw [k1.column (by decide), k4]

private theorem ffc_split {mods : List (String × Nat)} {g g' : Microgrid} {control : List (String × Ctrl)} {n : Bool}
    {o : RunOut} {trF trC trX : List Event} {h₁ h₂ : Heap} {ci : CostInfo} (h : GridOK mods g)
    (r : RunInfo g control n g' o trF trC trX h₁ h₂ ci) :
    (∀ e ∈ trF, (g.heap e.id).ffc = .fixed) ∧ (∀ e ∈ trC, (g.heap e.id).ffc = .controllable) ∧
      ∀ e ∈ trX, (g.heap e.id).ffc = .flex := by
  refine ⟨?_, ?_, ?_⟩
  · intro e he
    have : (e.name, e.id) ∈ Container.toTuples (g.cont.levelDict .fixed) :=
      fixed_pairs r ▸ List.mem_map_of_mem (f := fun e : Event => (e.name, e.id)) he
    rw [h.cont] at this
    exact (Container.mem_level this).2
  · intro e he
    have : (e.name, e.id, e.act) ∈ controlSteps control (g.cont.levelDict .controllable) :=
      r.ctrlL ▸ List.mem_map_of_mem (f := fun e : Event => (e.name, e.id, e.act)) he
    simp only [controlSteps, List.mem_flatMap, List.mem_map, Prod.mk.injEq] at this
    obtain ⟨nl, hnl, ia, hia, -, hi2, -⟩ := this
    have hmem := (List.of_mem_zip hia).1
    rw [hi2] at hmem
    exact (h.mem_levelDict nl hnl _ hmem).2
  · intro e he
    exact (h.mem_flexList (r.flexL ▸ List.mem_map_of_mem (f := fun e : Event => (e.name, e.id)) he)).2

private theorem filter_ffc {H : Heap} {trF trC trX : List Event} (hF : ∀ e ∈ trF, (H e.id).ffc = .fixed)
    (hC : ∀ e ∈ trC, (H e.id).ffc = .controllable) (hX : ∀ e ∈ trX, (H e.id).ffc = .flex) :
    (trF ++ trC ++ trX).filter (fun e => decide ((H e.id).ffc = .fixed)) = trF ∧
      (trF ++ trC ++ trX).filter (fun e => decide ((H e.id).ffc = .controllable)) = trC := by
  have aux : ∀ {l : List Event} {f f' : FFC}, (∀ e ∈ l, (H e.id).ffc = f') →
      l.filter (fun e => decide ((H e.id).ffc = f)) = if f = f' then l else [] := by
    intro l f f' hl
    split
    · rename_i e; subst e
      exact List.filter_eq_self.mpr fun x hx => by simpa using hl x hx
    · rename_i e
      refine List.filter_eq_nil_iff.mpr fun x hx => ?_
      rw [hl x hx]; simpa using Ne.symm e
  simp [List.filter_append, aux hF, aux hC, aux hX]

/-- C57: a successful run adds one entry to each column of the balance log.  The entries are, in terms of the module
    steps the run made: the sum of the module rewards, the returned (shaped) reward, the energy provided and absorbed
    by all modules, by the controllable modules, and by the fixed modules.  (Which modules are fixed, flexible or
    controllable is as the user passed them.) -/
theorem C57_balance_row (hc : Microgrid.create h mods sh tr = .ok g₀) (hl : ∀ nm ∈ mods, LibraryModule (h nm.2))
    (ops : List GOp) (control : List (String × Ctrl)) (n : Bool) (g' : Microgrid) (o : RunOut)
    (hr : (runG g₀ ops).run control n = (g', .ok o)) :
    ∃ trace : List Event, Exec (runG g₀ ops).heap trace g'.heap ∧ Reported trace o ∧
      let old := fun k => (runG g₀ ops).balanceLog.column (.str k)
      let new := fun k => g'.balanceLog.column (.str k)
      let of := fun f => trace.filter fun e => decide ((h e.id).ffc = f)
      new "reward" = old "reward" ++ [some (trace.map fun e => e.out.reward).sum] ∧
      new "shaped_reward" = old "shaped_reward" ++ [some o.reward] ∧
      new "overall_provided_to_microgrid" = old "overall_provided_to_microgrid" ++ [some (provSum trace)] ∧
      new "overall_absorbed_from_microgrid" = old "overall_absorbed_from_microgrid" ++ [some (absSum trace)] ∧
      new "controllable_provided_to_microgrid" =
        old "controllable_provided_to_microgrid" ++ [some (provSum (of .controllable))] ∧
      new "controllable_absorbed_from_microgrid" =
        old "controllable_absorbed_from_microgrid" ++ [some (absSum (of .controllable))] ∧
      new "fixed_provided_to_microgrid" = old "fixed_provided_to_microgrid" ++ [some (provSum (of .fixed))] ∧
      new "fixed_absorbed_from_microgrid" = old "fixed_absorbed_from_microgrid" ++ [some (absSum (of .fixed))] := by
  obtain ⟨gok, hal, -⟩ := user_grid hc hl ops
  obtain ⟨rows, hh⟩ : ∃ rows, (runG g₀ ops).balanceLog.Holds balanceKeys rows := by
    refine holds_runG ?_ ops
    obtain ⟨-, -, -, -, hb, -⟩ := Microgrid.create_ok hc
    exact ⟨[], by rw [hb]; exact Logger.Holds.empty _⟩
  obtain ⟨trF, trC, trX, h₁, h₂, ci, r⟩ := Microgrid.run_ok hr
  obtain ⟨hF, hC, hX⟩ := ffc_split gok r
  have hf : ∀ j, ((runG g₀ ops).heap j).ffc = (h j).ffc := fun j => (hal j).ffc
  simp only [hf] at hF hC hX
  obtain ⟨e5, e6⟩ := filter_ffc hF hC hX
  obtain ⟨row, e, e1, e2, e3, e4, e7, e8, e9, e10, e11⟩ := run_row r
  have hh' := hh.log e1 balanceKeys_nodup
  rw [← e] at hh'
  have col : ∀ k v, .str k ∈ balanceKeys → dictGet? row (.str k) = some v →
      g'.balanceLog.column (.str k) = (runG g₀ ops).balanceLog.column (.str k) ++ [some v] := by
    intro k v hk hv
    rw [hh'.column hk, hh.column hk]
    simp [hv]
  rw [r.provided] at e3
  rw [r.absorbed] at e4
  refine ⟨trF ++ trC ++ trX, r.exec, r.reported, ?_⟩
  simp only [e5, e6]
  exact ⟨col _ _ (by decide) e7, col _ _ (by decide) e2, col _ _ (by decide) e3, col _ _ (by decide) e4,
    col _ _ (by decide) e10, col _ _ (by decide) e11, col _ _ (by decide) e8, col _ _ (by decide) e9⟩

end

/-- Non-vacuity: two runs of the example microgrid from a reset. -/
example : (((demoGrid.reset).1.run demoControl false).1.run demoControl false).1.balanceLog.column
    (.str "fixed_absorbed_from_microgrid") = [some 60, some 40] := by decide +kernel

end Pymgrid
