import Verif.Spec.Continuous
import Verif.Props.Wrap

set_option autoImplicit false

/-!
# C77: environments with continuous actions

For every microgrid `g₀` that the constructor accepts for library modules.
-/

namespace Pymgrid

open Module

/-- Fixed modules are loads. -/
theorem Module.WF.fixed_load {m : Module} (h : m.WF) (hf : m.ffc = .fixed) : ∃ t, m.kind = .load t := by
  cases h with
  | battery b h => simp [h.ffc] at hf
  | genset g h => simp [h.ffc] at hf
  | grid p t h w => exact absurd hf h.ffc
  | load t h w => exact ⟨t, h.kind⟩
  | renewable t h w => simp [h.ffc] at hf
  | balancing u h => simp [h.ffc] at hf

theorem GridOK.nestedSpace {mods : List (String × Nat)} {g : Microgrid} (ok : GridOK mods g) :
    ContinuousEnv.nestedSpace g = [] := by
  unfold ContinuousEnv.nestedSpace
  rw [List.map_eq_nil_iff, List.filter_eq_nil_iff]
  intro nl hnl
  cases hi : nl.2 with
  | nil => simp
  | cons i is =>
    have hin : (nl.1, i) ∈ Container.toTuples (g.cont.levelDict .fixed) := by
      simp only [Container.toTuples, List.mem_flatMap, List.mem_map]
      exact ⟨nl, hnl, i, by simp [hi], rfl⟩
    rw [ok.cont] at hin
    obtain ⟨h1, h2⟩ := Container.mem_level hin
    obtain ⟨t, ht⟩ := (ok.wf _ h1).fixed_load h2
    simp [Module.isSource, ht]

/-- The environment is its microgrid after some calls of `run` and `reset`. -/
theorem runC_grid {e₀ : ContinuousEnv} (ops : List COp) :
    (runC e₀ ops).space = e₀.space ∧ ∃ gops, (runC e₀ ops).g = runG e₀.g gops := by
  induction ops using List.reverseRecOn with
  | nil => exact ⟨rfl, [], rfl⟩
  | append_singleton ops op ih =>
    obtain ⟨hs, gops, hg⟩ := ih
    rw [runC, List.foldl_append]
    change (op.apply (runC e₀ ops)).space = _ ∧ ∃ gops, (op.apply (runC e₀ ops)).g = _
    have app : ∀ op : GOp, runG e₀.g (gops ++ [op]) = op.apply (runC e₀ ops).g := by
      intro op; rw [hg]; simp [runG]
    cases op with
    | step a =>
      simp only [COp.apply, ContinuousEnv.step]
      split
      · exact ⟨hs, gops, hg⟩
      · rename_i c _
        exact ⟨hs, gops ++ [GOp.run c true], (app (.run c true)).symm⟩
    | run a n => exact ⟨hs, gops ++ [GOp.run a n], (app (.run a n)).symm⟩
    | reset => exact ⟨hs, gops ++ [GOp.reset], (app GOp.reset).symm⟩

theorem tupleContains_iff (dims : List Nat) (c : Ctrl) : tupleContains dims c = true ↔
    ∃ l : List (List ℚ), c = .seq (l.map .arr) ∧ l.map List.length = dims ∧ ∀ xs ∈ l, ∀ x ∈ xs, 0 ≤ x ∧ x ≤ 1 := by
  cases c with
  | scalar q => simp [tupleContains]
  | seq as =>
    simp only [tupleContains, Ctrl.seq.injEq]
    induction as generalizing dims with
    | nil =>
      cases dims with
      | nil => exact ⟨fun _ => ⟨[], by simp⟩, by simp⟩
      | cons d dims => simp
    | cons a as ih =>
      cases dims with
      | nil => simp
      | cons d dims =>
        have hi := ih dims
        simp only [List.length_cons, List.zip_cons_cons, List.all_cons]
        rw [show decide (as.length + 1 = dims.length + 1) = decide (as.length = dims.length) by simp]
        constructor
        · intro hh
          simp only [Bool.and_eq_true] at hh
          obtain ⟨l, rfl, h2, h3⟩ := hi.mp (by simp only [Bool.and_eq_true]; exact ⟨hh.1, hh.2.2⟩)
          cases a with
          | num q => simp [boxContains] at hh
          | arr xs =>
            have hx := hh.2.1
            simp only [boxContains, Bool.and_eq_true, decide_eq_true_eq, List.all_eq_true] at hx
            refine ⟨xs :: l, rfl, by simp [hx.1, h2], ?_⟩
            intro ys hys
            rcases List.mem_cons.mp hys with rfl | hys
            · exact hx.2
            · exact h3 ys hys
        · rintro ⟨l, h1, h2, h3⟩
          cases l with
          | nil => simp at h1
          | cons xs l =>
            simp only [List.map_cons, List.cons.injEq] at h1 h2
            obtain ⟨rfl, h1⟩ := h1
            have := hi.mpr ⟨l, h1, h2.2, fun ys hys => h3 ys (List.mem_cons_of_mem _ hys)⟩
            simp only [Bool.and_eq_true] at this ⊢
            refine ⟨this.1, ?_, this.2⟩
            simp only [boxContains, Bool.and_eq_true, decide_eq_true_eq, List.all_eq_true]
            exact ⟨h2.1, h3 xs List.mem_cons_self⟩

/-- C77: `step` refuses every action that is not in the nested action space with an `AssertionError`, and nothing changes:
    actions with a name too many or too few, with a number of arrays other than the number of modules, with arrays of wrong
    length and with numbers outside of [0, 1]. -/
theorem C77_checked (e : ContinuousEnv) (a : List (String × Ctrl)) :
    (dictContains e.space a = true ↔ InNormalized e.space a) ∧
      (¬ InNormalized e.space a → e.step a = (e, .error .assertion)) := by
  have key : dictContains e.space a = true ↔ InNormalized e.space a := by
    unfold dictContains InNormalized
    rw [Bool.and_eq_true, List.all_eq_true, List.all_eq_true]
    apply and_congr
    · simp
    · apply forall_congr'
      intro s
      apply imp_congr_right
      intro _
      cases dictGet? a s.1 with
      | none => simp
      | some c => simp only [tupleContains_iff, Option.some.injEq]
  refine ⟨key, fun hn => ?_⟩
  unfold ContinuousEnv.step ContinuousEnv.getAction
  rw [← key, Bool.not_eq_true] at hn
  rw [if_pos hn]

/-- A space with a genset-like module, a member of it, and actions outside. -/
example : InNormalized [("genset", [2])] [("genset", .seq [.arr [1, 1/2]])] ∧
    ¬ InNormalized [("genset", [2])] [("genset", .seq [.arr [1]])] ∧
    ¬ InNormalized [("genset", [2])] [("genset", .seq [.arr [1, -1/2]])] ∧ ¬ InNormalized [("genset", [2])] [] := by
  have k := fun a => (C77_checked ⟨okGrid (Microgrid.create demoHeap demoMods none none), [("genset", [2])]⟩ a).1
  simp only at k
  rw [← k, ← k, ← k, ← k]
  decide +kernel

section
variable {h : Heap} {mods : List (String × Nat)} {sh : Option Shaper}
  {tr : Option (Nat → Nat → Option Nat → Except Err (Nat × Nat))} {g₀ : Microgrid}

/-- C77 is violated: with the default options no microgrid, in whatever state, can be made into an environment with
    continuous actions, because the flattening of the empty action space raises `ValueError`. -/
theorem C77_flat_rejected (hc : Microgrid.create h mods sh tr = .ok g₀) (hl : ∀ nm ∈ mods, LibraryModule (h nm.2))
    (ops : List GOp) : ContinuousEnv.create (runG g₀ ops) true = .error .value := by
  obtain ⟨ok, -⟩ := user_grid hc hl ops
  simp [ContinuousEnv.create, ok.nestedSpace]

/-- C77 is violated: without flattening, the action space of every microgrid has one element, the empty dictionary; batteries,
    gensets and grids have no part in it. -/
theorem C77_only_empty_action (hc : Microgrid.create h mods sh tr = .ok g₀) (hl : ∀ nm ∈ mods, LibraryModule (h nm.2))
    (ops : List GOp) : ∃ e, ContinuousEnv.create (runG g₀ ops) false = .ok e ∧ e.g = runG g₀ ops ∧
      ∀ a, dictContains e.space a = true ↔ a = [] := by
  obtain ⟨ok, -⟩ := user_grid hc hl ops
  refine ⟨⟨runG g₀ ops, []⟩, by simp [ContinuousEnv.create, ok.nestedSpace], rfl, fun a => ?_⟩
  cases a with
  | nil => simp [dictContains]
  | cons x a => simp [dictContains]

/-- C77 is violated: if there is a load, then every `step` raises, with whatever action and after whatever history, and changes
    nothing; for an action in the action space it is a `TypeError`. -/
theorem C77_load_no_step (hc : Microgrid.create h mods sh tr = .ok g₀) (hl : ∀ nm ∈ mods, LibraryModule (h nm.2))
    {e₀ : ContinuousEnv} {flat : Bool} (he : ContinuousEnv.create g₀ flat = .ok e₀) {nm : String × Nat} (hm : nm ∈ mods)
    {t : TS} (hk : (h nm.2).kind = .load t) (ops : List COp) (a : List (String × Ctrl)) :
    (runC e₀ ops).step a =
      (runC e₀ ops, .error (if dictContains (runC e₀ ops).space a then .type else .assertion)) := by
  obtain ⟨-, gops, hg⟩ := runC_grid (e₀ := e₀) ops
  have heg : e₀.g = g₀ := by
    unfold ContinuousEnv.create at he
    simp only at he
    split at he
    · simp at he
    · exact (Except.ok.inj he) ▸ rfl
  rw [heg] at hg
  obtain ⟨ok, alike, -, -⟩ := user_grid hc hl gops
  rw [← hg] at ok alike
  generalize runC e₀ ops = e at *
  have hffc : (e.g.heap nm.2).ffc = .fixed := by
    rw [(alike nm.2).ffc]
    have := (hl nm hm).wf
    cases this with
    | load t h w => exact h.ffc
    | battery b h => simp [h.kind] at hk
    | genset g h => simp [h.kind] at hk
    | grid p t h w => simp [h.kind] at hk
    | renewable t h w => simp [h.kind] at hk
    | balancing u h => simp [h.kind] at hk
  have hss : (e.g.heap nm.2).ss = .sinks := by
    obtain ⟨t, ht⟩ := (ok.wf nm hm).fixed_load hffc
    simp [Module.ss, Module.isSink, Module.isSource, ht]
  have hin : nm.2 ∈ Container.idsOf e.g.heap mods .fixed .sinks nm.1 := by
    simp only [Container.idsOf, List.mem_map, List.mem_filter, Container.inCat, Bool.and_eq_true, decide_eq_true_eq]
    exact ⟨nm, ⟨hm, ⟨hffc, hss⟩, rfl⟩, rfl⟩
  have her : e.g.cont.dict (.lowest .fixed .sinks) = .error .type := by
    have : (nm.1, Container.idsOf e.g.heap mods .fixed .sinks nm.1) ∈ e.g.cont.cat .fixed .sinks := by
      rw [ok.cont]
      exact Container.mem_cat.mpr ⟨rfl, fun e => by rw [e] at hin; simp at hin⟩
    unfold Container.dict
    simp only
    rw [if_neg]
    intro hall
    rw [List.all_eq_true] at hall
    have h := hall _ this
    simp only [List.isEmpty_iff] at h
    rw [h] at hin
    simp at hin
  unfold ContinuousEnv.step ContinuousEnv.getAction
  by_cases hcont : dictContains e.space a = false
  · simp [hcont]
  · rw [if_neg hcont, her]
    simp [hcont]

/-- C77 is violated: if there is a controllable module, then every `step` raises, with whatever action and after whatever
    history. -/
theorem C77_controllable_no_step (hc : Microgrid.create h mods sh tr = .ok g₀) (hl : ∀ nm ∈ mods, LibraryModule (h nm.2))
    {e₀ : ContinuousEnv} {flat : Bool} (he : ContinuousEnv.create g₀ flat = .ok e₀) {nm : String × Nat} (hm : nm ∈ mods)
    (hf : (h nm.2).ffc = .controllable) (ops : List COp) (a : List (String × Ctrl)) (o : RunOut) :
    ((runC e₀ ops).step a).2 ≠ .ok o := by
  by_cases hload : ∃ x ∈ mods, ∃ t, (h x.2).kind = .load t
  · obtain ⟨x, hx, t, hk⟩ := hload
    rw [C77_load_no_step hc hl he hx hk ops a]
    simp
  obtain ⟨hs, gops, hg⟩ := runC_grid (e₀ := e₀) ops
  have heg : e₀.g = g₀ ∧ e₀.space = [] := by
    unfold ContinuousEnv.create at he
    simp only at he
    split at he
    · simp at he
    · obtain rfl := Except.ok.inj he
      exact ⟨rfl, (GridOK.created hc hl).nestedSpace⟩
  rw [heg.2] at hs
  rw [heg.1] at hg
  obtain ⟨ok, alike, -, -⟩ := user_grid hc hl gops
  rw [← hg] at ok alike
  have hcat : (runC e₀ ops).g.cont.cat .fixed .sinks = [] := by
    rw [List.eq_nil_iff_forall_not_mem]
    rintro ⟨n, l⟩ hnl
    rw [ok.cont] at hnl
    obtain ⟨h1, h2⟩ := Container.mem_cat.mp hnl
    obtain ⟨i, is, rfl⟩ := List.exists_cons_of_ne_nil h2
    have hi : i ∈ Container.idsOf (runC e₀ ops).g.heap mods .fixed .sinks n := by rw [← h1]; simp
    simp only [Container.idsOf, List.mem_map, List.mem_filter, Container.inCat, Bool.and_eq_true, decide_eq_true_eq] at hi
    obtain ⟨x, ⟨hx, ⟨hf, -⟩, -⟩, rfl⟩ := hi
    have := (hl x hx).wf.fixed_load (by rw [← (alike x.2).ffc]; exact hf)
    exact hload ⟨x, hx, this⟩
  unfold ContinuousEnv.step ContinuousEnv.getAction
  rw [hs]
  by_cases hcont : dictContains [] a = false
  · simp [hcont]
  · have ha : a = [] := by
      cases a with
      | nil => rfl
      | cons x a => simp [dictContains] at hcont
    subst ha
    simp only [if_neg hcont, hcat, ContinuousEnv.addSinks, Container.dict, List.all_nil, if_true]
    have := C19_missing_control_rejected hc hl gops [] true nm hm hf rfl o
    rw [← hg] at this
    exact this

/-- C77, as far as it holds: an environment of flexible modules only (renewables, flexible grids, balancing modules) takes the
    empty action, and its step is the step of the microgrid with no control; it succeeds if a balancing module is among
    them, the modules do not raise on infeasible requests, have data and the shaper does not raise.
    Missing: all other microgrids (`C77_load_no_step`, `C77_controllable_no_step`), and the default options
    (`C77_flat_rejected`). -/
theorem C77_flexible_partial (hc : Microgrid.create h mods sh tr = .ok g₀) (hl : ∀ nm ∈ mods, LibraryModule (h nm.2))
    (hflex : ∀ nm ∈ mods, (h nm.2).ffc = .flex) {e₀ : ContinuousEnv}
    (he : ContinuousEnv.create g₀ false = .ok e₀) (ops : List COp) :
    ∃ gops, (runC e₀ ops).g = runG g₀ gops ∧ ((runC e₀ ops).step []).2 = ((runG g₀ gops).run [] true).2 ∧
      ((runC e₀ ops).step []).1.g = ((runG g₀ gops).run [] true).1 ∧
      ((∃ nm ∈ mods, ∃ u, (h nm.2).kind = .balancing u) → (mods.map Prod.snd).Nodup →
        (∀ nm ∈ mods, (h nm.2).raiseErrors = false) → (∀ f, sh = some f → ∀ i c, ∃ r, f i c = .ok r) →
        (∀ nm ∈ mods, ((runC e₀ ops).g.heap nm.2).Live) → ((runC e₀ ops).step []).2.isOk = true) := by
  obtain ⟨hs, gops, hg⟩ := runC_grid (e₀ := e₀) ops
  have heg : e₀.g = g₀ ∧ e₀.space = [] := by
    unfold ContinuousEnv.create at he
    simp only at he
    split at he
    · simp at he
    · obtain rfl := Except.ok.inj he
      exact ⟨rfl, (GridOK.created hc hl).nestedSpace⟩
  rw [heg.2] at hs
  rw [heg.1] at hg
  refine ⟨gops, hg, ?_⟩
  obtain ⟨ok, alike, -, -⟩ := user_grid hc hl gops
  have hcat : (runG g₀ gops).cont.cat .fixed .sinks = [] := by
    rw [List.eq_nil_iff_forall_not_mem]
    rintro ⟨n, l⟩ hnl
    rw [ok.cont] at hnl
    obtain ⟨h1, h2⟩ := Container.mem_cat.mp hnl
    obtain ⟨i, is, rfl⟩ := List.exists_cons_of_ne_nil h2
    have hi : i ∈ Container.idsOf (runG g₀ gops).heap mods .fixed .sinks n := by rw [← h1]; simp
    simp only [Container.idsOf, List.mem_map, List.mem_filter, Container.inCat, Bool.and_eq_true, decide_eq_true_eq] at hi
    obtain ⟨x, ⟨hx, ⟨hf, -⟩, -⟩, rfl⟩ := hi
    rw [(alike x.2).ffc, hflex x hx] at hf
    simp at hf
  have hstep : (runC e₀ ops).step [] = (⟨((runG g₀ gops).run [] true).1, []⟩, ((runG g₀ gops).run [] true).2) := by
    unfold ContinuousEnv.step ContinuousEnv.getAction
    rw [hs, hg]
    simp [dictContains, hcat, ContinuousEnv.addSinks, Container.dict]
  rw [hstep]
  refine ⟨rfl, rfl, fun hb hid hr hsh hlive => ?_⟩
  rw [hg] at hlive
  obtain ⟨g', o, ho⟩ := C19_run_succeeds hc hl hb hid hr hsh gops hlive [] true (by
    rintro ⟨n, l⟩ hnl
    rw [ok.cont] at hnl
    exfalso
    obtain ⟨d, hd, hxd⟩ := Container.mem_toDict hnl
    simp only [Container.level, List.mem_cons, List.not_mem_nil, or_false] at hd
    have : ∃ s, (n, l) ∈ (Container.build (runG g₀ gops).heap mods).cat .controllable s := by
      rcases hd with rfl | rfl | rfl <;> exact ⟨_, hxd⟩
    obtain ⟨s, hs⟩ := this
    obtain ⟨h1, h2⟩ := Container.mem_cat.mp hs
    obtain ⟨i, is, rfl⟩ := List.exists_cons_of_ne_nil h2
    have hi : i ∈ Container.idsOf (runG g₀ gops).heap mods .controllable s n := by rw [← h1]; simp
    simp only [Container.idsOf, List.mem_map, List.mem_filter, Container.inCat, Bool.and_eq_true, decide_eq_true_eq] at hi
    obtain ⟨x, ⟨hx, ⟨hf, -⟩, -⟩, rfl⟩ := hi
    rw [(alike x.2).ffc, hflex x hx] at hf
    simp at hf)
  simp only [ho]
  rfl

end

/-! ### Examples -/

/-- The sample microgrid has loads and controllable modules: no action can be taken in its environment. -/
example : (ContinuousEnv.create demoGrid true).isOk = false ∧
    (ContinuousEnv.create demoGrid false).toOption.map (fun e => (e.space, (e.step []).2.isOk)) = some ([], false) := by
  decide +kernel

/-- A renewable and a balancing module: the empty action can be taken. -/
example : (match Microgrid.create demoHeap [("pv", 1), ("balancing", 5)] none none with
    | .error _ => none
    | .ok g => (ContinuousEnv.create g false).toOption.map fun e => (e.step []).2.isOk) = some true := by
  decide +kernel

end Pymgrid
