import Verif.Lemmas.EnvObs
import Verif.Props.Env

set_option autoImplicit false

/-!
# C72: observations of environments

An environment is a microgrid together with the observation space that was computed when it was created (`space`).
Theorems are about every microgrid that the constructor accepts, after every history of `run` and `reset` calls.
-/

namespace Pymgrid

open Module

section
variable {h : Heap} {mods : List (String × Nat)} {sh : Option Shaper}
  {tr : Option (Nat → Nat → Option Nat → Except Err (Nat × Nat))} {g₀ : Microgrid}

theorem Alphabetic.nodup {names : List String} (h1 : Alphabetic mods names) : names.Nodup := by
  refine h1.1.imp ?_
  intro _ _ hab he
  exact String.lt_irrefl _ (he ▸ hab)

/-- The names in alphabetical order are determined by the modules. -/
theorem Alphabetic.unique {names names' : List String} (h1 : Alphabetic mods names) (h2 : Alphabetic mods names') :
    names = names' :=
  List.Perm.eq_of_pairwise (le := (· < ·))
    (fun _ _ _ _ hab hba => absurd (String.lt_trans hab hba) (String.lt_irrefl _)) h1.1 h2.1
    ((List.perm_ext_iff_of_nodup h1.nodup h2.nodup).mpr fun name => (h1.2 name).trans (h2.2 name).symm)

/-- C72, the space: an environment can be created at any time, and its observation space has, for each name in alphabetical
    order, one box for each module of that name, of as many dimensions as the module shows quantities. -/
theorem C72_space_partial (hc : Microgrid.create h mods sh tr = .ok g₀) (hl : ∀ nm ∈ mods, LibraryModule (h nm.2))
    (hd : DistinctNames h mods) (ops : List GOp) :
    ∃ names, Alphabetic mods names ∧ ∀ mode, (mode = .flat ∨ mode = .nested) → obsSpaceOf (runG g₀ ops) mode =
      .ok (names.map fun name => (name, (allNamed mods name).map fun i => (h i).readings.length)) := by
  obtain ⟨hg, alike, -, -⟩ := user_grid hc hl ops
  obtain ⟨names, ha, hs⟩ := obsSpace_ok hg (hd.congr alike)
  refine ⟨names, ha, fun mode hm => ?_⟩
  rw [hs mode hm]
  congr 1
  apply List.map_congr_left
  intro name _
  congr 1
  apply List.map_congr_left
  intro i hi
  simp only [allNamed, List.mem_map, List.mem_filter, decide_eq_true_eq] at hi
  obtain ⟨nm, ⟨hm, -⟩, rfl⟩ := hi
  obtain ⟨⟨obs, ho, hv⟩, -⟩ := (hl nm hm).wf.readings (hl nm hm).spaced
  have := normalizedObs_dim (hl nm hm).wf (hl nm hm).spaced ho
  rw [hv, List.length_map] at this
  rw [(alike nm.2).obs, this]

theorem user_readings (hc : Microgrid.create h mods sh tr = .ok g₀) (hl : ∀ nm ∈ mods, LibraryModule (h nm.2))
    (ops : List GOp) {nm : String × Nat} (hm : nm ∈ mods) :
    (((runG g₀ ops).heap nm.2).readings.length = (h nm.2).readings.length ∧
      ((runG g₀ ops).heap nm.2).obsSpace.dim = (h nm.2).readings.length) ∧
    (∀ a, ((runG g₀ ops).heap nm.2).normalizedObs = .ok a →
      a = Space.item a.vals ∧ a.vals = ((runG g₀ ops).heap nm.2).readings.map Reading.pos) ∧
    ((h nm.2).PositiveCapacity → ∀ x ∈ ((runG g₀ ops).heap nm.2).readings.map Reading.pos, 0 ≤ x ∧ x ≤ 1) := by
  obtain ⟨hg, alike, -, -⟩ := user_grid hc hl ops
  have hheap := (Microgrid.create_ok hc).1
  have sp := kept_spaced.runG g₀ ops nm.2 (by rw [hheap]; exact (hl nm hm).spaced)
  obtain ⟨⟨obs, ho, hv⟩, hin⟩ := (hg.wf nm hm).readings sp
  obtain ⟨⟨obs₀, ho₀, hv₀⟩, -⟩ := (hl nm hm).wf.readings (hl nm hm).spaced
  have d1 := normalizedObs_dim (hg.wf nm hm) sp ho
  have d0 := normalizedObs_dim (hl nm hm).wf (hl nm hm).spaced ho₀
  rw [hv, List.length_map] at d1
  rw [hv₀, List.length_map] at d0
  refine ⟨⟨?_, ?_⟩, ?_, ?_⟩
  · rw [d1, d0, (alike nm.2).obs]
  · rw [d0, (alike nm.2).obs]
  · intro a ha
    refine ⟨normalizedObs_shape ha, ?_⟩
    rw [ho] at ha
    rw [← Except.ok.inj ha, hv]
  · intro hp x hx
    have hp' : ((runG g₀ ops).heap nm.2).PositiveCapacity := by
      refine box_capacity (kept_box.runG g₀ ops nm.2) ?_
      rw [hheap]; exact hp
    obtain ⟨r, hr, rfl⟩ := List.mem_map.mp hx
    exact Reading.pos_mem (hin hp' r hr).1 (hin hp' r hr).2

theorem mem_allNamed {name : String} {i : Nat} : i ∈ allNamed mods name ↔ (name, i) ∈ mods := by
  simp only [allNamed, List.mem_map, List.mem_filter, decide_eq_true_eq]
  constructor
  · rintro ⟨nm, ⟨hm, rfl⟩, rfl⟩; exact hm
  · intro hm; exact ⟨_, ⟨hm, rfl⟩, rfl⟩

/-- What is shown belongs to the flattened space. -/
theorem shown_member (hc : Microgrid.create h mods sh tr = .ok g₀) (hl : ∀ nm ∈ mods, LibraryModule (h nm.2))
    (hp : ∀ nm ∈ mods, (h nm.2).PositiveCapacity) (ops : List GOp) (names : List String) :
    InFlatSpace (names.map fun name => (name, (allNamed mods name).map fun i => (h i).readings.length))
      (shown (runG g₀ ops).heap mods names) := by
  constructor
  · induction names with
    | nil => rfl
    | cons name names ih =>
      simp only [shown, List.flatMap_cons, List.length_append, List.map_cons, List.sum_cons] at ih ⊢
      rw [ih, List.length_flatMap]
      congr 2
      apply List.map_congr_left
      intro i hi
      rw [List.length_map]
      exact (user_readings hc hl ops (mem_allNamed.mp hi)).1.1
  · intro x hx
    simp only [shown, List.mem_flatMap] at hx
    obtain ⟨name, -, i, hi, hx⟩ := hx
    have hm := mem_allNamed.mp hi
    exact (user_readings hc hl ops hm).2.2 (hp _ hm) x hx

theorem shown_flatten (hc : Microgrid.create h mods sh tr = .ok g₀) (hl : ∀ nm ∈ mods, LibraryModule (h nm.2))
    (ops : List GOp) {names : List String} {d : List (String × ObsEntry)} {dims : Nat → Nat}
    (hd : ∀ name ∈ names, ∃ l, dictGet? d name = some (.obs l) ∧
      List.Forall₂ (fun i a => ((runG g₀ ops).heap i).normalizedObs = .ok a) (allNamed mods name) l) :
    flattenObs d (names.map fun name => (name, (allNamed mods name).map dims)) =
      .ok (shown (runG g₀ ops).heap mods names) := by
  apply flatten_shown
  intro name hn
  obtain ⟨l, h1, h2⟩ := hd name hn
  refine ⟨l, h1, ?_⟩
  have hm : ∀ i ∈ allNamed mods name, (name, i) ∈ mods := fun i hi => mem_allNamed.mp hi
  clear h1
  generalize allNamed mods name = ids at h2 hm
  induction h2 with
  | nil => exact .nil
  | @cons i a ids l ha _ ih =>
    exact .cons ((user_readings hc hl ops (hm i (by simp))).2.1 a ha).2 (ih fun i hi => hm i (by simp [hi]))

theorem runG_snoc_run {ops : List GOp} {control : List (String × Ctrl)} {n : Bool} {g' : Microgrid} {r : Except Err RunOut}
    (hr : (runG g₀ ops).run control n = (g', r)) : runG g₀ (ops ++ [.run control n]) = g' := by
  simp [runG, GOp.apply] at hr ⊢
  rw [hr]

theorem runG_snoc_reset {ops : List GOp} {g' : Microgrid} {r : Except Err Unit}
    (hr : (runG g₀ ops).reset = (g', r)) : runG g₀ (ops ++ [.reset]) = g' := by
  simp [runG, GOp.apply] at hr ⊢
  rw [hr]

theorem run_dict (hc : Microgrid.create h mods sh tr = .ok g₀) (hl : ∀ nm ∈ mods, LibraryModule (h nm.2))
    (hid : (mods.map Prod.snd).Nodup) (hd : DistinctNames h mods) (ops : List GOp) {control : List (String × Ctrl)}
    {n : Bool} {g' : Microgrid} {o : RunOut} (hsup : Supplies h mods control)
    (hr : (runG g₀ ops).run control n = (g', .ok o)) {name : String} (hn : ∃ nm ∈ mods, nm.1 = name) :
    ∃ l, dictGet? (o.obs.map fun nl => (nl.1, ObsEntry.obs nl.2)) name = some (.obs l) ∧
      List.Forall₂ (fun i a => (g'.heap i).normalizedObs = .ok a) (allNamed mods name) l := by
  obtain ⟨hg, alike, -, -⟩ := user_grid hc hl ops
  have hf := run_obs hg hid (hd.congr alike) (hsup.congr alike) hr name
  have hk := (run_obs_keys hg (hd.congr alike).clear (hsup.congr alike) hr name).mpr hn
  cases hget : dictGet? o.obs name with
  | none => exact absurd hk (dictGet?_none.mp hget)
  | some l =>
    rw [hget] at hf
    exact ⟨l, by rw [dictGet?_map (f := ObsEntry.obs), hget]; rfl, hf⟩

/-- C72, steps with flat observations: whenever the microgrid's `run` succeeds, so does the environment's `step`; it passes on
    reward, done and infos, and its observation belongs to the observation space.  The observation lists, for the names in
    alphabetical order and the modules of each name in turn, the relative positions of the module's quantities after the step.
    Missing: modules that share a name but not a category. -/
theorem C72_flat_step_partial (hc : Microgrid.create h mods sh tr = .ok g₀) (hl : ∀ nm ∈ mods, LibraryModule (h nm.2))
    (hid : (mods.map Prod.snd).Nodup) (hd : DistinctNames h mods) (hp : ∀ nm ∈ mods, (h nm.2).PositiveCapacity)
    (pre ops : List GOp) {space : List (String × List Nat)} (hs : obsSpaceOf (runG g₀ pre) .flat = .ok space)
    {control : List (String × Ctrl)} {n : Bool} {g' : Microgrid} {o : RunOut} (hsup : Supplies h mods control)
    (hr : (runG g₀ ops).run control n = (g', .ok o)) :
    ∃ names v, envStep .flat space (runG g₀ ops) control n = (g', .ok ⟨.flat v, o.reward, o.done, o.infos⟩) ∧
      InFlatSpace space v ∧ Alphabetic mods names ∧ v = shown g'.heap mods names := by
  obtain ⟨names, ha, hsp⟩ := C72_space_partial hc hl hd pre
  rw [hsp _ (.inl rfl)] at hs
  obtain rfl := Except.ok.inj hs
  have hg' := runG_snoc_run hr
  refine ⟨names, shown g'.heap mods names, ?_, ?_, ha, rfl⟩
  · unfold envStep
    rw [hr]
    simp only [getObs]
    rw [← hg', shown_flatten hc hl (ops ++ [.run control n])]
    intro name hn
    rw [hg']
    exact run_dict hc hl hid hd ops hsup hr ((ha.2 name).mp hn)
  · have := shown_member hc hl hp (ops ++ [.run control n]) names
    rwa [hg'] at this

/-- C72, resets with flat observations, likewise.  Missing: modules named "balance" or "other" (see `C72_reserved_names`). -/
theorem C72_flat_reset_partial (hc : Microgrid.create h mods sh tr = .ok g₀) (hl : ∀ nm ∈ mods, LibraryModule (h nm.2))
    (hid : (mods.map Prod.snd).Nodup) (hd : DistinctNames h mods) (hp : ∀ nm ∈ mods, (h nm.2).PositiveCapacity)
    (hn : ∀ nm ∈ mods, nm.1 ≠ "balance" ∧ nm.1 ≠ "other")
    (pre ops : List GOp) {space : List (String × List Nat)} (hs : obsSpaceOf (runG g₀ pre) .flat = .ok space)
    {g' : Microgrid} (hr : (runG g₀ ops).reset = (g', .ok ())) :
    ∃ names v, envReset .flat space (runG g₀ ops) = (g', .ok (.flat v)) ∧ InFlatSpace space v ∧ Alphabetic mods names ∧
      v = shown g'.heap mods names := by
  obtain ⟨names, ha, hsp⟩ := C72_space_partial hc hl hd pre
  rw [hsp _ (.inl rfl)] at hs
  obtain rfl := Except.ok.inj hs
  have hg' := runG_snoc_reset hr
  obtain ⟨hg, alike, -, -⟩ := user_grid hc hl ops
  rw [resetObs_eq] at hr
  cases hk : (runG g₀ ops).resetObs with
  | mk g₁ r =>
    rw [hk] at hr
    cases r with
    | error e => simp [Except.map] at hr
    | ok d =>
      obtain rfl : g₁ = g' := congrArg Prod.fst hr
      obtain ⟨hdict, -, -⟩ := reset_obs_dict hg hid (hd.congr alike) hk
      refine ⟨names, shown g₁.heap mods names, ?_, ?_, ha, rfl⟩
      · unfold envReset
        rw [hk]
        simp only [getObs]
        have hfl := shown_flatten hc hl (ops ++ [GOp.reset]) (names := names) (d := d)
          (dims := fun i => (h i).readings.length) (by
            intro name hname
            obtain ⟨nm, hm, rfl⟩ := (ha.2 name).mp hname
            obtain ⟨l, h1, h2⟩ := hdict nm hm (hn nm hm).1 (hn nm hm).2
            exact ⟨l, h1, hg'.symm ▸ h2⟩)
        rw [hg'] at hfl
        rw [hfl]
      · have := shown_member hc hl hp (ops ++ [.reset]) names
        rwa [hg'] at this

/-- C72 fails for modules named "balance" or "other": the flushed logs, which `Microgrid.reset` returns under these names,
    replace their observations, and every reset of the environment raises `ValueError`. -/
theorem C72_reserved_names (hc : Microgrid.create h mods sh tr = .ok g₀) (hl : ∀ nm ∈ mods, LibraryModule (h nm.2))
    (hid : (mods.map Prod.snd).Nodup) (hd : DistinctNames h mods)
    (hn : ∃ nm ∈ mods, nm.1 = "balance" ∨ nm.1 = "other")
    (pre ops : List GOp) {space : List (String × List Nat)} (hs : obsSpaceOf (runG g₀ pre) .flat = .ok space)
    {g' : Microgrid} (hr : (runG g₀ ops).reset = (g', .ok ())) :
    envReset .flat space (runG g₀ ops) = (g', .error .value) := by
  obtain ⟨names, ha, hsp⟩ := C72_space_partial hc hl hd pre
  rw [hsp _ (.inl rfl)] at hs
  obtain rfl := Except.ok.inj hs
  obtain ⟨hg, alike, -, -⟩ := user_grid hc hl ops
  rw [resetObs_eq] at hr
  cases hk : (runG g₀ ops).resetObs with
  | mk g₁ r =>
    rw [hk] at hr
    cases r with
    | error e => simp [Except.map] at hr
    | ok d =>
      obtain rfl : g₁ = g' := congrArg Prod.fst hr
      obtain ⟨hdict, hb, ho⟩ := reset_obs_dict hg hid (hd.congr alike) hk
      unfold envReset
      rw [hk]
      simp only [getObs]
      have key : ∀ ns : List String, (∀ n ∈ ns, n ∈ names) → (∃ n ∈ ns, n = "balance" ∨ n = "other") →
          flattenObs d (ns.map fun name => (name, (allNamed mods name).map fun i => (h i).readings.length)) = .error .value := by
        intro ns
        induction ns with
        | nil => rintro - ⟨_, h0, -⟩; simp at h0
        | cons n ns ih =>
          intro hsub hex
          simp only [List.map_cons, flattenObs]
          by_cases hnb : n = "balance" ∨ n = "other"
          · have : dictGet? d n = some .log := by rcases hnb with rfl | rfl <;> assumption
            rw [this]
          · push Not at hnb
            obtain ⟨nm, hm, rfl⟩ := (ha.2 n).mp (hsub n (by simp))
            obtain ⟨l, h1, -⟩ := hdict nm hm hnb.1 hnb.2
            rw [h1]
            simp only
            rw [ih (fun n hn => hsub n (by simp [hn]))]
            obtain ⟨n', hn', he⟩ := hex
            rcases List.mem_cons.mp hn' with rfl | hn'
            · exact absurd he (by push Not; exact hnb)
            · exact ⟨n', hn', he⟩
      rw [key names (fun n hn => hn)]
      obtain ⟨nm, hm, he⟩ := hn
      exact ⟨nm.1, (ha.2 nm.1).mpr ⟨nm, hm, rfl⟩, he⟩

/-- C72, steps with nested observations: the observation belongs to the space exactly if no module shows a single quantity.
    (Normalising an array of one element yields a scalar, which is not in a box of one dimension.) -/
theorem C72_nested_step_partial (hc : Microgrid.create h mods sh tr = .ok g₀) (hl : ∀ nm ∈ mods, LibraryModule (h nm.2))
    (hid : (mods.map Prod.snd).Nodup) (hd : DistinctNames h mods) (hp : ∀ nm ∈ mods, (h nm.2).PositiveCapacity)
    (pre ops : List GOp) {space : List (String × List Nat)} (hs : obsSpaceOf (runG g₀ pre) .nested = .ok space)
    {control : List (String × Ctrl)} {n : Bool} {g' : Microgrid} {o : RunOut} (hsup : Supplies h mods control)
    (hr : (runG g₀ ops).run control n = (g', .ok o)) :
    ∃ d, envStep .nested space (runG g₀ ops) control n = (g', .ok ⟨.nested d, o.reward, o.done, o.infos⟩) ∧
      (InNestedSpace space d ↔ ∀ nm ∈ mods, (h nm.2).readings.length ≠ 1) := by
  obtain ⟨names, ha, hsp⟩ := C72_space_partial hc hl hd pre
  rw [hsp _ (.inr rfl)] at hs
  obtain rfl := Except.ok.inj hs
  have hg' := runG_snoc_run hr
  obtain ⟨hg, alike, -, -⟩ := user_grid hc hl ops
  refine ⟨o.obs.map fun nl => (nl.1, .obs nl.2), ?_, ?_⟩
  · unfold envStep
    rw [hr]
    rfl
  have box : ∀ nm ∈ mods, ∀ a, (g'.heap nm.2).normalizedObs = .ok a →
      (InBox (h nm.2).readings.length a ↔ (h nm.2).readings.length ≠ 1) := by
    intro nm hm a hobs
    obtain ⟨⟨e1, -⟩, e2, e3⟩ := user_readings hc hl (ops ++ [.run control n]) hm
    rw [hg'] at e1 e2 e3
    obtain ⟨s1, s2⟩ := e2 a hobs
    have hlen : a.vals.length = (h nm.2).readings.length := by rw [s2, List.length_map, e1]
    have hin : ∀ x ∈ a.vals, 0 ≤ x ∧ x ≤ 1 := by rw [s2]; exact e3 (hp nm hm)
    rw [← hlen]
    cases a with
    | num q => simp [InBox, Act.vals]
    | arr l =>
      simp only [InBox, Act.vals, true_and] at hin ⊢
      refine ⟨fun _ h1 => ?_, fun _ => hin⟩
      obtain ⟨x, rfl⟩ := List.length_eq_one_iff.mp h1
      simp [Act.vals, Space.item] at s1
  constructor
  · rintro ⟨-, hin⟩ nm hm
    obtain ⟨l, h1, h2⟩ := run_dict hc hl hid hd ops hsup hr ⟨nm, hm, rfl⟩
    obtain ⟨l', h1', h2'⟩ := hin (nm.1, (allNamed mods nm.1).map fun i => (h i).readings.length)
      (List.mem_map_of_mem (f := fun name => (name, (allNamed mods name).map fun i => (h i).readings.length))
        ((ha.2 nm.1).mpr ⟨nm, hm, rfl⟩))
    rw [h1] at h1'
    obtain rfl : l = l' := by simpa using h1'
    rw [List.forall₂_map_left_iff] at h2'
    have hmem : nm.2 ∈ allNamed mods nm.1 := mem_allNamed.mpr hm
    have key : ∀ (ids : List Nat) (l : List Act),
        List.Forall₂ (fun i a => (g'.heap i).normalizedObs = .ok a) ids l →
        List.Forall₂ (fun i a => InBox (h i).readings.length a) ids l → ∀ i ∈ ids, ∃ a,
          (g'.heap i).normalizedObs = .ok a ∧ InBox (h i).readings.length a := by
      intro ids l f1 f2 i hi
      induction f1 with
      | nil => simp at hi
      | cons ha _ ih =>
        cases f2 with
        | cons hb f2 =>
          rcases List.mem_cons.mp hi with rfl | hi
          · exact ⟨_, ha, hb⟩
          · exact ih f2 hi
    obtain ⟨a, ha1, ha2⟩ := key _ _ h2 h2' nm.2 hmem
    exact (box nm hm a ha1).mp ha2
  · intro hne
    refine ⟨?_, ?_⟩
    · intro name
      have : (o.obs.map fun nl => (nl.1, ObsEntry.obs nl.2)).map Prod.fst = o.obs.map Prod.fst := by
        simp [Function.comp_def]
      rw [this, run_obs_keys hg (hd.congr alike).clear (hsup.congr alike) hr name, ← ha.2 name]
      simp [Function.comp_def]
    · intro nl hnl
      obtain ⟨name, hname, rfl⟩ := List.mem_map.mp hnl
      obtain ⟨l, h1, h2⟩ := run_dict hc hl hid hd ops hsup hr ((ha.2 name).mp hname)
      refine ⟨l, h1, ?_⟩
      rw [List.forall₂_map_left_iff]
      have hm : ∀ i ∈ allNamed mods name, (name, i) ∈ mods := fun i hi => mem_allNamed.mp hi
      clear h1
      generalize allNamed mods name = ids at h2 hm
      induction h2 with
      | nil => exact .nil
      | @cons i a ids l ha' _ ih =>
        exact .cons ((box (name, i) (hm i (by simp)) a ha').mpr (hne _ (hm i (by simp))))
          (ih (fun i hi => hm i (by simp [hi])))

/-- C72 fails for resets with nested observations: the result never belongs to the observation space, because it has
    entries "balance" and "other" that are flushed logs. -/
theorem C72_nested_reset (hc : Microgrid.create h mods sh tr = .ok g₀) (hl : ∀ nm ∈ mods, LibraryModule (h nm.2))
    (hid : (mods.map Prod.snd).Nodup) (hd : DistinctNames h mods) (ops : List GOp) (space : List (String × List Nat))
    {g' : Microgrid} (hr : (runG g₀ ops).reset = (g', .ok ())) :
    ∃ d, envReset .nested space (runG g₀ ops) = (g', .ok (.nested d)) ∧ ¬ InNestedSpace space d := by
  obtain ⟨hg, alike, -, -⟩ := user_grid hc hl ops
  rw [resetObs_eq] at hr
  cases hk : (runG g₀ ops).resetObs with
  | mk g₁ r =>
    rw [hk] at hr
    cases r with
    | error e => simp [Except.map] at hr
    | ok d =>
      obtain rfl : g₁ = g' := congrArg Prod.fst hr
      obtain ⟨-, hb, -⟩ := reset_obs_dict hg hid (hd.congr alike) hk
      refine ⟨d, ?_, ?_⟩
      · unfold envReset
        rw [hk]
        rfl
      · rintro ⟨h1, h2⟩
        have : "balance" ∈ d.map Prod.fst := by
          by_contra hno
          rw [dictGet?_none.mpr hno] at hb
          simp at hb
        obtain ⟨nl, hnl, he⟩ := List.mem_map.mp ((h1 _).mp this)
        obtain ⟨l, hl', -⟩ := h2 nl hnl
        rw [he, hb] at hl'
        simp at hl'

/-- C72, discrete environments: the same for every step of a discrete environment that carries out a planned control, in
    every history of steps, removals of actions and resets.  (By C39 these are all steps with valid actions.) -/
theorem C72_discrete_partial {rg es : Bool} {e₀ : DiscreteEnv} (hc : Microgrid.create h mods sh tr = .ok g₀)
    (he : DiscreteEnv.create g₀ rg es = .ok e₀) (hl : ∀ nm ∈ mods, LibraryModule (h nm.2))
    (hid : (mods.map Prod.snd).Nodup) (hd : DistinctNames h mods) (hp : ∀ nm ∈ mods, (h nm.2).PositiveCapacity)
    {space : List (String × List Nat)} (hs : obsSpaceOf g₀ .flat = .ok space) (ops : List EOp) {a : Int} {o : RunOut}
    {e' : DiscreteEnv} (hstep : Driven mods (runE e₀ ops) [a] [o] e') :
    ∃ names v, (runE e₀ ops).stepObs .flat space a = (e', .ok ⟨.flat v, o.reward, o.done, o.infos⟩) ∧
      InFlatSpace space v ∧ Alphabetic mods names ∧ v = shown e'.g.heap mods names := by
  obtain ⟨hg₀, -, -, -⟩ := DiscreteEnv.create_ok he
  obtain ⟨gops, l, hg⟩ := DiscreteEnv.runE_grid (e := e₀) ops (g₀ := g₀) ⟨[], g₀.otherLog, by rw [hg₀]; rfl⟩
  obtain ⟨-, alike, -, -⟩ := user_grid hc hl gops
  cases hstep with
  | @cons _ e₁ _ k _ pl c rem xs _ _ hlist plan hrun hst rest =>
    cases rest
    rw [hg] at plan hrun
    have hsup : Supplies h mods c := by
      intro nm hm hf
      obtain ⟨k, h1, h2⟩ := plan.supplied nm hm ((alike nm.2).ffc.trans hf)
      exact ⟨k, h1, (modulesNamed_congr (fun j => (alike j).ffc) .controllable nm.1) ▸ h2⟩
    obtain ⟨g', ho, hg'⟩ : ∃ g', (runG g₀ gops).run c false = (g', .ok o) ∧ g'.heap = e'.g.heap := by
      have hro := Microgrid.run_other (runG g₀ gops) c false l
      rw [hrun] at hro
      cases hrr : (runG g₀ gops).run c false with
      | mk g' r =>
        rw [hrr] at hro
        simp only [Prod.mk.injEq] at hro
        exact ⟨g', by rw [← hro.2], (congrArg Microgrid.heap hro.1).symm⟩
    obtain ⟨names, v, h1, h2, h3, h4⟩ := C72_flat_step_partial hc hl hid hd hp [] gops hs hsup ho
    refine ⟨names, v, ?_, h2, h3, hg' ▸ h4⟩
    unfold DiscreteEnv.stepObs
    rw [hst]
    unfold envStep at h1
    rw [ho] at h1
    simp only [getObs] at h1 ⊢
    cases hf : flattenObs (o.obs.map fun nl => (nl.1, .obs nl.2)) space with
    | error er => rw [hf] at h1; simp at h1
    | ok l =>
      rw [hf] at h1
      simp only [Prod.mk.injEq, Except.ok.injEq, EnvOut.mk.injEq, true_and, and_true] at h1
      simp only [h1]

end

/-! ### Findings and cases -/

theorem eq_ok {α : Type} {x : Except Err α} {v : α} (h : x.toOption = some v) : x = .ok v := by
  cases x with
  | error e => simp [Except.toOption] at h
  | ok y => simp only [Except.toOption, Option.some.injEq] at h; rw [h]

/-- The observation space of the microgrid of the examples. -/
def demoSpace : List (String × List Nat) :=
  [("balancing", [0]), ("battery", [2]), ("genset", [4]), ("grid", [12]), ("load", [3]), ("pv", [3])]

theorem demoSpace_ok : obsSpaceOf demoGrid .flat = .ok demoSpace ∧ obsSpaceOf demoGrid .nested = .ok demoSpace := by
  constructor <;> exact eq_ok (by decide +kernel)

theorem demo_capacity : ∀ nm ∈ demoMods, (demoHeap nm.2).PositiveCapacity := by
  intro nm hm b hb
  have : (match (demoHeap nm.2).kind with | .battery b => decide (0 < b.maxCapacity) | _ => true) = true := by
    clear hb
    revert nm
    decide +kernel
  rw [hb] at this
  simpa using this

/-- The numbers of a flat observation. -/
def EnvObs.numbers? : EnvObs → Option (List ℚ)
  | .flat l => some l
  | .nested _ => none

/-- A load without forecaster, a battery, a balancing module and another load. -/
def scalarHeap : Heap
  | 0 => okModule (mkLoad [60, 40, 20] .none 23 0 (-1) false)
  | 1 => sampleBattery
  | 2 => mkBalancing false 0 10 5
  | _ => okModule (mkLoad [30, 20, 10] .none 23 0 (-1) false)

def scalarMods : List (String × Nat) := [("load", 0), ("battery", 1), ("balancing", 2)]

def scalarGrid : Microgrid := okGrid (Microgrid.create scalarHeap scalarMods none none)

theorem scalarGrid_ok : Microgrid.create scalarHeap scalarMods none none = .ok scalarGrid := okGrid_eq (by decide +kernel)

theorem scalar_library : ∀ nm ∈ scalarMods, LibraryModule (scalarHeap nm.2) := by
  intro nm hm
  simp only [scalarMods, List.mem_cons, List.not_mem_nil, or_false] at hm
  rcases hm with rfl | rfl | rfl
  · have : mkLoad [60, 40, 20] .none 23 0 (-1) false = .ok (scalarHeap 0) := okModule_eq (by decide +kernel)
    exact .series (.load this) trivial
  · exact .battery sampleBattery_ok sampleBattery_good
  · exact .balancing (by norm_num) (by norm_num)

/-- The hypotheses of the theorems about flat observations hold for the microgrid of the examples; the observation after a step
    is: nothing for the balancing module, then battery, genset, grid, load, photovoltaics. -/
example : ((envStep .flat demoSpace demoGrid demoControl false).2.toOption.bind fun o => o.obs.numbers?) =
      some (shown (demoGrid.run demoControl false).1.heap demoMods ["balancing", "battery", "genset", "grid", "load", "pv"]) ∧
    (shown (demoGrid.run demoControl false).1.heap demoMods ["balancing", "battery", "genset", "grid", "load", "pv"]).length = 24 ∧
    (demoGrid.run demoControl false).2.isOk = true ∧ demoGrid.reset.2.isOk = true ∧
    Alphabetic demoMods ["balancing", "battery", "genset", "grid", "load", "pv"] := by
  refine ⟨by decide +kernel, by decide +kernel, by decide +kernel, by decide +kernel, by decide +kernel, ?_⟩
  intro name
  simp [demoMods, eq_comm, or_comm, or_left_comm, or_assoc]

example : Supplies demoHeap demoMods demoControl ∧ (∀ nm ∈ demoMods, nm.1 ≠ "balance" ∧ nm.1 ≠ "other") ∧
    (∀ nm ∈ demoMods, (demoHeap nm.2).readings.length ≠ 1) := by
  exact ⟨demo_supplies, by decide +kernel, by decide +kernel⟩

/-- Finding, C72: nested observations of a microgrid with a load that has no forecaster never belong to the space. -/
theorem C72_scalar_observation : Microgrid.create scalarHeap scalarMods none none = .ok scalarGrid ∧
    (scalarHeap 0).readings.length = 1 ∧
    (scalarGrid.run [("battery", .seq [.num 10])] false).2.isOk = true :=
  ⟨scalarGrid_ok, by decide +kernel, by decide +kernel⟩

/-- A load and a battery that share a name, another load and a balancing module. -/
def sharedMods : List (String × Nat) := [("load", 0), ("a", 3), ("a", 1), ("balancing", 2)]

def sharedGrid : Microgrid := okGrid (Microgrid.create scalarHeap sharedMods none none)

/-- Finding, C72: without distinct names the claim fails.  The constructor accepts a load and a battery with the same name,
    but under this name the space has only the battery's box, and the observation after a step only the load's number. -/
theorem C72_shared_name : Microgrid.create scalarHeap sharedMods none none = .ok sharedGrid ∧
    obsSpaceOf sharedGrid .flat = .ok [("a", [2]), ("balancing", [0]), ("load", [1])] ∧
    ∃ o v, (envStep .flat [("a", [2]), ("balancing", [0]), ("load", [1])] sharedGrid [("a", .seq [.num 10])] false).2 = .ok o ∧
      o.obs = .flat v ∧ ¬ InFlatSpace [("a", [2]), ("balancing", [0]), ("load", [1])] v := by
  refine ⟨okGrid_eq (by decide +kernel), eq_ok (by decide +kernel), ?_⟩
  have hv : ((envStep .flat [("a", [2]), ("balancing", [0]), ("load", [1])] sharedGrid [("a", .seq [.num 10])] false).2.toOption.bind
      fun o => o.obs.numbers?.map List.length) = some 2 := by decide +kernel
  cases he : (envStep .flat [("a", [2]), ("balancing", [0]), ("load", [1])] sharedGrid [("a", .seq [.num 10])] false).2 with
  | error e => rw [he] at hv; simp [Except.toOption] at hv
  | ok o =>
    rw [he] at hv
    cases ho : o.obs with
    | nested d => simp [Except.toOption, EnvObs.numbers?, ho] at hv
    | flat v =>
      refine ⟨o, v, rfl, ho, ?_⟩
      simp only [Except.toOption, Option.bind_some, ho, EnvObs.numbers?, Option.map_some, Option.some.injEq] at hv
      intro hin
      have := hin.1
      simp [hv] at this

/-- A battery named "balance". -/
def reservedMods : List (String × Nat) := [("load", 0), ("balance", 1), ("balancing", 2)]

def reservedGrid : Microgrid := okGrid (Microgrid.create scalarHeap reservedMods none none)

example : Microgrid.create scalarHeap reservedMods none none = .ok reservedGrid ∧
    (reservedGrid.run [("balance", .seq [.num 10])] false).2.isOk = true ∧ reservedGrid.reset.2.isOk = true ∧
    (obsSpaceOf reservedGrid .flat).isOk = true ∧
    ((envReset .flat [("balance", [2]), ("balancing", [0]), ("load", [1])] reservedGrid).2 matches .error .value) = true :=
  ⟨okGrid_eq (by decide +kernel), by decide +kernel⟩

end Pymgrid
