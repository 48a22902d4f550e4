import Verif.Lemmas.StateSeries
import Verif.Lemmas.Planner
import Verif.Props.EnvObs

set_option autoImplicit false

/-!
# C73: normalised state dictionaries and series

`state_dict(normalized=True)` of modules, `state_series(normalized=True)` of microgrids, and environments with
`observation_keys`.
-/

namespace Pymgrid

open Module

/-- C73, modules: `state_dict()` labels the quantities that the module shows with distinct keys, and
    `state_dict(normalized=True)` has the same keys in the same order, each with the relative position of its quantity.
    Missing: modules that show a single quantity, for which the call raises `TypeError` (`C73_single_quantity`). -/
theorem C73_labels_partial {m : Module} (h : LibraryModule m) (h1 : m.readings.length ≠ 1) :
    ∃ d d', m.stateDictAs false = .ok d ∧ m.stateDictAs true = .ok d' ∧ d.map Prod.snd = m.readings.map Reading.val ∧
      d'.map Prod.snd = m.readings.map Reading.pos ∧ d'.map Prod.fst = d.map Prod.fst ∧ (d.map Prod.fst).Nodup := by
  obtain ⟨d, hd, hv⟩ := h.wf.readings_val
  have hn := h.wf.normStateDict h.spaced hd
  rw [if_neg h1] at hn
  have hlen : (d.map Prod.fst).length = (m.readings.map Reading.pos).length := by
    have := congrArg List.length hv
    simpa using this
  refine ⟨d, _, hd, hn, hv, ?_, ?_, ?_⟩
  · exact List.map_snd_zip hlen.ge
  · exact List.map_fst_zip hlen.le
  · rw [h.wf.keys hd]
    exact h.wf.stateKeys_nodup

/-- C73 fails for every module that shows a single quantity (a load or renewable module without forecaster):
    `state_dict(normalized=True)` always raises `TypeError`. -/
theorem C73_single_quantity {m : Module} (h : LibraryModule m) (h1 : m.readings.length = 1) :
    (∃ d, m.stateDictAs false = .ok d) ∧ m.stateDictAs true = .error .type := by
  obtain ⟨d, hd, -⟩ := h.wf.readings_val
  have hn := h.wf.normStateDict h.spaced hd
  rw [if_pos h1] at hn
  exact ⟨⟨d, hd⟩, hn⟩

/-- The keys depend on the parameters only. -/
theorem stateKeys_core {m m' : Module} (e : m'.kind.core = m.kind.core) : m'.stateKeys = m.stateKeys := by
  have : ∀ m : Module, m.stateKeys = ({ m with kind := m.kind.core } : Module).stateKeys := by
    intro m
    unfold stateKeys
    cases hk : m.kind <;> rfl
  rw [this m', this m]
  unfold stateKeys
  rw [e]

section
variable {h : Heap} {mods : List (String × Nat)} {sh : Option Shaper}
  {tr : Option (Nat → Nat → Option Nat → Except Err (Nat × Nat))} {g₀ : Microgrid}

theorem user_spaced' (hc : Microgrid.create h mods sh tr = .ok g₀) (hl : ∀ nm ∈ mods, LibraryModule (h nm.2))
    (ops : List GOp) {nm : String × Nat} (hm : nm ∈ mods) : ((runG g₀ ops).heap nm.2).Spaced := by
  have hheap := (Microgrid.create_ok hc).1
  exact kept_spaced.runG g₀ ops nm.2 (by rw [hheap]; exact (hl nm hm).spaced)

/-- State dictionaries in a microgrid. -/
theorem user_state (hc : Microgrid.create h mods sh tr = .ok g₀) (hl : ∀ nm ∈ mods, LibraryModule (h nm.2))
    (ops : List GOp) {nm : String × Nat} (hm : nm ∈ mods) :
    ∃ d, ((runG g₀ ops).heap nm.2).stateDict = .ok d ∧ (d.map Prod.fst).Nodup ∧
      d.map Prod.snd = ((runG g₀ ops).heap nm.2).readings.map Reading.val ∧
      (d.map Prod.fst).length = ((runG g₀ ops).heap nm.2).readings.length ∧
      ((runG g₀ ops).heap nm.2).stateDictAs true = if (h nm.2).readings.length = 1 then .error .type
        else .ok ((d.map Prod.fst).zip (((runG g₀ ops).heap nm.2).readings.map Reading.pos)) := by
  have hw := (user_grid hc hl ops).1.wf nm hm
  obtain ⟨d, hd, hv⟩ := hw.readings_val
  have hn := hw.normStateDict (user_spaced' hc hl ops hm) hd
  rw [(user_readings hc hl ops hm).1.1] at hn
  refine ⟨d, hd, ?_, hv, ?_, hn⟩
  · rw [hw.keys hd]; exact hw.stateKeys_nodup
  · have := congrArg List.length hv
    simpa using this

/-- C73, microgrids: `state_series()` has exactly the entries of the modules' state dictionaries, under the module's name,
    its number among the modules of that name, and the key; `state_series(normalized=True)` has the relative positions
    instead.  Missing: microgrids with a module that shows a single quantity (`C73_series_fails`). -/
theorem C73_series_partial (hc : Microgrid.create h mods sh tr = .ok g₀) (hl : ∀ nm ∈ mods, LibraryModule (h nm.2))
    (hd : DistinctNames h mods) (ops : List GOp) (nrm : Bool)
    (h1 : nrm = true → ∀ nm ∈ mods, (h nm.2).readings.length ≠ 1) :
    ∃ ss, (runG g₀ ops).stateSeries nrm = .ok ss ∧ ∀ name j key v, ((name, j, key), v) ∈ ss ↔
      ∃ i d, (allNamed mods name)[j]? = some i ∧ ((runG g₀ ops).heap i).stateDict = .ok d ∧
        (key, v) ∈ (d.map Prod.fst).zip (((runG g₀ ops).heap i).readings.map (if nrm then Reading.pos else Reading.val)) := by
  obtain ⟨hg, alike, -, -⟩ := user_grid hc hl ops
  have hd' := hd.congr alike
  have dict : ∀ nm ∈ mods, ∃ d, ((runG g₀ ops).heap nm.2).stateDict = .ok d ∧
      ((runG g₀ ops).heap nm.2).stateDictAs nrm = .ok ((d.map Prod.fst).zip
        (((runG g₀ ops).heap nm.2).readings.map (if nrm then Reading.pos else Reading.val))) := by
    intro nm hm
    obtain ⟨d, e1, -, e3, -, e5⟩ := user_state hc hl ops hm
    refine ⟨d, e1, ?_⟩
    cases nrm with
    | true => rw [e5, if_neg (h1 rfl nm hm)]; rfl
    | false =>
      simp only [stateDictAs, Bool.false_eq_true, if_false]
      rw [e1, ← e3, ← List.unzip_fst, ← List.unzip_snd, List.zip_unzip]
  rcases stateSeriesOf_error (h := (runG g₀ ops).heap) (nrm := nrm) (D := (runG g₀ ops).cont.fullDict) (e := .type)
    (by
      intro nl hnl i hi
      obtain ⟨d, -, hdi⟩ := dict _ (full_mem_mods hg hnl hi)
      exact .inl ⟨_, hdi⟩) with ⟨⟨ss, hss⟩, -⟩ | ⟨-, nl, hnl, i, hi, he⟩
  · refine ⟨ss, hss, ?_⟩
    intro name j key v
    rw [(stateSeriesOf_get hss).2]
    constructor
    · rintro ⟨l, i, d, e1, e2, e3, e4⟩
      rw [hg.cont] at e1
      have hl' := full_named hd' e1
      rw [← hg.cont] at e1
      subst hl'
      obtain ⟨d', f1, f2⟩ := dict _ (full_mem_mods hg e1 (List.mem_of_getElem? e2))
      rw [f2] at e3
      obtain rfl := Except.ok.inj e3
      exact ⟨i, d', e2, f1, e4⟩
    · rintro ⟨i, d, e2, e3, e4⟩
      have hne : allNamed mods name ≠ [] := fun h0 => by simp [h0] at e2
      have e1 := full_has hd' hne
      rw [← hg.cont] at e1
      obtain ⟨d', f1, f2⟩ := dict _ (full_mem_mods hg e1 (List.mem_of_getElem? e2))
      simp only at f1 f2
      rw [e3] at f1
      obtain rfl := Except.ok.inj f1
      exact ⟨_, i, _, e1, e2, f2, e4⟩
  · obtain ⟨d, -, hdi⟩ := dict _ (full_mem_mods hg hnl hi)
    simp only at hdi
    rw [hdi] at he
    simp at he

/-- C73 fails for microgrids with a module that shows a single quantity: `state_series(normalized=True)` always raises
    `TypeError`. -/
theorem C73_series_fails (hc : Microgrid.create h mods sh tr = .ok g₀) (hl : ∀ nm ∈ mods, LibraryModule (h nm.2))
    (hd : DistinctNames h mods) (ops : List GOp) (h1 : ∃ nm ∈ mods, (h nm.2).readings.length = 1) :
    (runG g₀ ops).stateSeries true = .error .type := by
  obtain ⟨hg, alike, -, -⟩ := user_grid hc hl ops
  have hd' := hd.congr alike
  rcases stateSeriesOf_error (h := (runG g₀ ops).heap) (nrm := true) (D := (runG g₀ ops).cont.fullDict) (e := .type)
    (by
      intro nl hnl i hi
      obtain ⟨d, -, -, -, -, e⟩ := user_state hc hl ops (full_mem_mods hg hnl hi)
      simp only at e
      rw [e]
      split
      · exact .inr rfl
      · exact .inl ⟨_, rfl⟩) with ⟨-, hall⟩ | ⟨he, -⟩
  · exfalso
    obtain ⟨nm, hm, hone⟩ := h1
    have hmem : nm.2 ∈ allNamed mods nm.1 := mem_allNamed.mpr hm
    have hin := full_has hd' (List.ne_nil_of_mem hmem)
    rw [← hg.cont] at hin
    obtain ⟨d, hdi⟩ := hall _ hin nm.2 hmem
    obtain ⟨d', -, -, -, -, e⟩ := user_state hc hl ops hm
    rw [if_pos hone, hdi] at e
    simp at e
  · exact he

/-- C73, environments with `observation_keys` of such microgrids: every step and reset takes effect on the microgrid and then
    raises `TypeError`. -/
theorem C73_keyed_fails (hc : Microgrid.create h mods sh tr = .ok g₀) (hl : ∀ nm ∈ mods, LibraryModule (h nm.2))
    (hd : DistinctNames h mods) (ops : List GOp) (h1 : ∃ nm ∈ mods, (h nm.2).readings.length = 1)
    (keys : List Key) (space : List (String × List Nat)) :
    (∀ control n g' o, (runG g₀ ops).run control n = (g', .ok o) →
      envStep (.keyed keys) space (runG g₀ ops) control n = (g', .error .type)) ∧
    ∀ g', (runG g₀ ops).reset = (g', .ok ()) → envReset (.keyed keys) space (runG g₀ ops) = (g', .error .type) := by
  constructor
  · intro control n g' o hr
    have hg' := runG_snoc_run hr
    have hf := C73_series_fails hc hl hd (ops ++ [.run control n]) h1
    rw [hg'] at hf
    unfold envStep
    rw [hr]
    simp only [getObs, hf]
  · intro g' hr
    have hg' := runG_snoc_reset hr
    have hf := C73_series_fails hc hl hd (ops ++ [.reset]) h1
    rw [hg'] at hf
    rw [resetObs_eq] at hr
    unfold envReset
    cases hk : (runG g₀ ops).resetObs with
    | mk g₁ r =>
      rw [hk] at hr
      cases r with
      | error e => simp [Except.map] at hr
      | ok d =>
        obtain rfl : g₁ = g' := congrArg Prod.fst hr
        simp only [getObs, hf]

/-- The numbers shown under some keys belong to the space for these keys. -/
theorem keyed_member (hc : Microgrid.create h mods sh tr = .ok g₀) (hl : ∀ nm ∈ mods, LibraryModule (h nm.2))
    (hd : DistinctNames h mods) (hp : ∀ nm ∈ mods, (h nm.2).PositiveCapacity)
    (h1 : ∀ nm ∈ mods, (h nm.2).readings.length ≠ 1) {keys : List Key} (hk : keys.Nodup) (pre ops : List GOp)
    {space : List (String × List Nat)} (hs : obsSpaceOf (runG g₀ pre) (.keyed keys) = .ok space) :
    ∃ ss, (runG g₀ ops).stateSeries true = .ok ss ∧
      InFlatSpace space ((ss.filter fun e => decide (e.1.2.2 ∈ keys)).map Prod.snd) := by
  obtain ⟨ss, hss, hget⟩ := C73_series_partial hc hl hd ops true fun _ => h1
  refine ⟨ss, hss, ?_, ?_⟩
  · obtain ⟨hg, -, -, hcont⟩ := user_grid hc hl ops
    obtain ⟨hgp, -, -, hcontp⟩ := user_grid hc hl pre
    let K : Nat → Nat := fun i => (keys.filter fun k => decide (k ∈ (h i).stateKeys)).length
    have hkeys : ∀ (os : List GOp) (nm : String × Nat), nm ∈ mods →
        ((runG g₀ os).heap nm.2).stateKeys = (h nm.2).stateKeys := by
      intro os nm hm
      have e := (kept_core.runG g₀ os nm.2 (by rw [(Microgrid.create_ok hc).1]; exact (hl nm hm).wf)).2
      rw [(Microgrid.create_ok hc).1] at e
      exact stateKeys_core e
    rw [List.length_map, stateSeriesOf_count (K := K) hss]
    · unfold obsSpaceOf at hs
      split at hs
      · simp at hs
      simp only at hs
      split at hs
      · simp at hs
      split at hs
      · simp at hs
      rename_i s hsp
      simp only [Except.ok.injEq] at hs
      subst hs
      obtain ⟨r, hr, hsum⟩ := keyedSpace_sum (h := (runG g₀ pre).heap) (keys := keys) (K := K)
        (D := (runG g₀ pre).cont.fullDict) (by
          intro nl hnl i hi
          have hm := full_mem_mods hgp hnl hi
          obtain ⟨d, e1, -⟩ := user_state hc hl pre hm
          refine ⟨d, e1, ?_⟩
          rw [(hgp.wf _ hm).keys e1, hkeys pre _ hm])
      rw [hr] at hsp
      obtain rfl := Except.ok.inj hsp
      rw [((sortKeys_perm r).map _).sum_eq, hsum, hcont, hcontp]
    · intro nl hnl i hi d hd'
      have hm := full_mem_mods hg hnl hi
      obtain ⟨d₀, e1, e2, -, e4, e5⟩ := user_state hc hl ops hm
      simp only at e1 e2 e4 e5
      rw [if_neg (h1 _ hm), hd'] at e5
      obtain rfl := Except.ok.inj e5
      have : ∀ d : List (Key × ℚ), (d.filter fun kv => decide (kv.1 ∈ keys)).length =
          ((d.map Prod.fst).filter fun k => decide (k ∈ keys)).length := by
        intro d
        rw [List.filter_map, List.length_map]
        rfl
      rw [this, List.map_fst_zip (by rw [e4, List.length_map]), filter_both e2 hk, (hg.wf _ hm).keys e1, hkeys ops _ hm]
  · intro x hx
    obtain ⟨e, he, rfl⟩ := List.mem_map.mp hx
    obtain ⟨⟨name, j, key⟩, v⟩ := e
    obtain ⟨i, d, e1, -, e3⟩ := (hget name j key v).mp (List.mem_of_mem_filter he)
    have hm := mem_allNamed.mp (List.mem_of_getElem? e1)
    exact (user_readings hc hl ops hm).2.2 (hp _ hm) v (List.of_mem_zip e3).2

/-- C72, steps and resets with `observation_keys`: they succeed whenever those of the microgrid do, and the observation
    belongs to the space and is the entries of the normalised state (`C73_series_partial`) with these keys, in their order.
    Missing: microgrids with a module that shows a single quantity (`C73_keyed_fails`). -/
theorem C72_keyed_partial (hc : Microgrid.create h mods sh tr = .ok g₀) (hl : ∀ nm ∈ mods, LibraryModule (h nm.2))
    (hd : DistinctNames h mods) (hp : ∀ nm ∈ mods, (h nm.2).PositiveCapacity)
    (h1 : ∀ nm ∈ mods, (h nm.2).readings.length ≠ 1) {keys : List Key} (hk : keys.Nodup) (pre ops : List GOp)
    {space : List (String × List Nat)} (hs : obsSpaceOf (runG g₀ pre) (.keyed keys) = .ok space) :
    (∀ control n g' o, (runG g₀ ops).run control n = (g', .ok o) → ∃ ss v, g'.stateSeries true = .ok ss ∧
      envStep (.keyed keys) space (runG g₀ ops) control n = (g', .ok ⟨.flat v, o.reward, o.done, o.infos⟩) ∧
        InFlatSpace space v ∧ v = (ss.filter fun e => decide (e.1.2.2 ∈ keys)).map Prod.snd) ∧
    ∀ g', (runG g₀ ops).reset = (g', .ok ()) → ∃ ss v, g'.stateSeries true = .ok ss ∧
      envReset (.keyed keys) space (runG g₀ ops) = (g', .ok (.flat v)) ∧ InFlatSpace space v ∧
        v = (ss.filter fun e => decide (e.1.2.2 ∈ keys)).map Prod.snd := by
  constructor
  · intro control n g' o hr
    have hg' := runG_snoc_run hr
    obtain ⟨ss, h2, h3⟩ := keyed_member hc hl hd hp h1 hk pre (ops ++ [.run control n]) hs
    rw [hg'] at h2
    refine ⟨ss, _, h2, ?_, h3, rfl⟩
    unfold envStep
    rw [hr]
    simp only [getObs, h2]
  · intro g' hr
    have hg' := runG_snoc_reset hr
    obtain ⟨ss, h2, h3⟩ := keyed_member hc hl hd hp h1 hk pre (ops ++ [.reset]) hs
    rw [hg'] at h2
    refine ⟨ss, _, h2, ?_, h3, rfl⟩
    rw [resetObs_eq] at hr
    unfold envReset
    cases hk : (runG g₀ ops).resetObs with
    | mk g₁ r =>
      rw [hk] at hr
      cases r with
      | error e => simp [Except.map] at hr
      | ok d =>
        obtain rfl : g₁ = g' := congrArg Prod.fst hr
        simp only [getObs, h2]

/-- C72, the choice of `observation_keys`: they are accepted iff every one of them is a quantity that some module shows, otherwise
    `NameError` is raised. -/
theorem C72_keys (hc : Microgrid.create h mods sh tr = .ok g₀) (hl : ∀ nm ∈ mods, LibraryModule (h nm.2))
    (hd : DistinctNames h mods) (keys : List Key) (ops : List GOp) :
    ((∀ k ∈ keys, ∃ nm ∈ mods, ∃ d, (h nm.2).stateDict = .ok d ∧ k ∈ d.map Prod.fst) →
      ∃ space, obsSpaceOf (runG g₀ ops) (.keyed keys) = .ok space) ∧
    (∀ k ∈ keys, (¬ ∃ nm ∈ mods, ∃ d, (h nm.2).stateDict = .ok d ∧ k ∈ d.map Prod.fst) →
      obsSpaceOf (runG g₀ ops) (.keyed keys) = .error .name) := by
  obtain ⟨ss, hss, hget⟩ := C73_series_partial hc hl hd ops false (by simp)
  obtain ⟨hg, -, -, -⟩ := user_grid hc hl ops
  have hkeys : ∀ nm ∈ mods, ((runG g₀ ops).heap nm.2).stateKeys = (h nm.2).stateKeys := by
    intro nm hm
    have e := (kept_core.runG g₀ ops nm.2 (by rw [(Microgrid.create_ok hc).1]; exact (hl nm hm).wf)).2
    rw [(Microgrid.create_ok hc).1] at e
    exact stateKeys_core e
  have hin : ∀ k, k ∈ ss.map (fun e => e.1.2.2) ↔ ∃ nm ∈ mods, ∃ d, (h nm.2).stateDict = .ok d ∧ k ∈ d.map Prod.fst := by
    intro k
    constructor
    · intro hk
      obtain ⟨⟨⟨name, j, key⟩, v⟩, he, rfl⟩ := List.mem_map.mp hk
      obtain ⟨i, d, e1, e2, e3⟩ := (hget name j key v).mp he
      have hm := mem_allNamed.mp (List.mem_of_getElem? e1)
      obtain ⟨d', hd', -⟩ := (hl _ hm).wf.readings_val
      refine ⟨_, hm, d', hd', ?_⟩
      rw [(hl _ hm).wf.keys hd', ← hkeys _ hm, ← (hg.wf _ hm).keys e2]
      exact (List.of_mem_zip e3).1
    · rintro ⟨⟨name, i⟩, hm, d', hd', hk⟩
      obtain ⟨d, e1, e2, e3, e4, -⟩ := user_state hc hl ops hm
      simp only at e1 e3 e4
      rw [(hl _ hm).wf.keys hd', ← hkeys _ hm, ← (hg.wf _ hm).keys e1] at hk
      obtain ⟨j, hj⟩ := List.getElem?_of_mem (mem_allNamed.mpr hm)
      obtain ⟨q, hq, hqk⟩ := List.mem_iff_getElem.mp hk
      have hq' : q < (((runG g₀ ops).heap i).readings.map Reading.val).length := by
        rw [List.length_map]; rw [e4] at hq; exact hq
      refine List.mem_map.mpr ⟨((name, j, k), (((runG g₀ ops).heap i).readings.map Reading.val)[q]), ?_, rfl⟩
      refine (hget name j k _).mpr ⟨i, d, hj, e1, ?_⟩
      refine List.mem_iff_getElem.mpr ⟨q, by rw [List.length_zip]; exact lt_min hq hq', ?_⟩
      simp [hqk]
  constructor
  · intro hk
    unfold obsSpaceOf
    rw [hss]
    simp only
    rw [if_neg (by
      rw [Bool.not_eq_false, List.all_eq_true]
      intro k hkk
      exact decide_eq_true ((hin k).mpr (hk k hkk)))]
    obtain ⟨r, hr, -⟩ := keyedSpace_sum (h := (runG g₀ ops).heap) (keys := keys)
        (K := fun i => (keys.filter fun k => decide (k ∈ ((runG g₀ ops).heap i).stateKeys)).length)
        (D := (runG g₀ ops).cont.fullDict) (by
          intro nl hnl i hi
          have hm := full_mem_mods hg hnl hi
          obtain ⟨d, e1, -⟩ := user_state hc hl ops hm
          refine ⟨d, e1, ?_⟩
          rw [(hg.wf _ hm).keys e1])
    rw [hr]
    exact ⟨_, rfl⟩
  · intro k hkk hno
    unfold obsSpaceOf
    rw [hss]
    simp only
    rw [if_pos]
    rw [Bool.eq_false_iff]
    intro hall
    exact hno ((hin k).mp (of_decide_eq_true (List.all_eq_true.mp hall k hkk)))

end

/-! ### Examples -/

/-- Both cases of `C72_keys`. -/
example : (∃ d, (demoHeap 2).stateDict = .ok d ∧ Key.str "soc" ∈ d.map Prod.fst) ∧
    (∀ nm ∈ demoMods, ∀ d, (demoHeap nm.2).stateDict = .ok d → Key.str "charge" ∉ d.map Prod.fst) := by
  constructor
  · cases hd : (demoHeap 2).stateDict with
    | ok d =>
      have : ((demoHeap 2).stateDict.toOption.map fun d => decide (Key.str "soc" ∈ d.map Prod.fst)) = some true := by decide +kernel
      rw [hd] at this
      exact ⟨d, rfl, by simpa [Except.toOption] using this⟩
    | error e =>
      have : (demoHeap 2).stateDict.isOk = true := by decide +kernel
      rw [hd] at this
      simp [Except.isOk, Except.toBool] at this
  · intro nm hm d hd
    have : ∀ nm ∈ demoMods, ((demoHeap nm.2).stateDict.toOption.map fun d => decide (Key.str "charge" ∈ d.map Prod.fst)) = some false := by
      decide +kernel
    have := this nm hm
    rw [hd] at this
    simpa [Except.toOption] using this

/-- The hypotheses of the theorems about labels hold for the modules of the example: no module shows a single quantity. -/
example : (∀ nm ∈ demoMods, (demoHeap nm.2).readings.length ≠ 1) ∧
    ((demoHeap 2).stateDictAs true).toOption.map (fun d => d.map Prod.fst) = some [.str "soc", .str "current_charge"] := by
  decide +kernel

def demoKeys : List Key := [.str "soc", .cur "load"]

/-- Keyed observations of the example: the state of charge of the battery, and the load. -/
example : (obsSpaceOf demoGrid (.keyed demoKeys)).toOption = some [("battery", [1]), ("load", [1])] ∧ demoKeys.Nodup ∧
    (demoGrid.run demoControl false).2.isOk = true ∧ demoGrid.reset.2.isOk = true ∧
    ((envStep (.keyed demoKeys) [("battery", [1]), ("load", [1])] demoGrid demoControl false).2.toOption.bind
      fun o => o.obs.numbers?.map List.length) = some 2 ∧
    ((obsSpaceOf demoGrid (.keyed [.str "charge"])) matches .error .name) = true := by
  decide +kernel

/-- Finding, C73: the state of a microgrid with a load that has no forecaster cannot be read normalised, and an environment that
    shows the state of charge of its battery fails on every step. -/
theorem C73_plain (ops : List GOp) :
    Microgrid.create scalarHeap scalarMods none none = .ok scalarGrid ∧
    (obsSpaceOf scalarGrid (.keyed [.str "soc"])).toOption = some [("battery", [1])] ∧
    (runG scalarGrid ops).stateSeries true = .error .type :=
  ⟨scalarGrid_ok, by decide +kernel,
    C73_series_fails scalarGrid_ok scalar_library (by unfold DistinctNames; decide +kernel) ops
      ⟨("load", 0), by decide +kernel, by decide +kernel⟩⟩

end Pymgrid
