import Verif.Lemmas.RBC
import Verif.Props.BalanceLog
import Verif.Spec.Env

set_option autoImplicit false

/-! The microgrid's log. -/

namespace Pymgrid

open Module

section
variable {h : Heap} {mods : List (String × Nat)} {g g' : Microgrid}

theorem full_named (hd : DistinctNames h mods) {name : String} {l : List Nat}
    (hm : (name, l) ∈ (Container.build h mods).fullDict) : l = allNamed mods name := by
  obtain ⟨d, hdm, hld⟩ := Container.mem_toDict hm
  obtain ⟨f, s, rfl⟩ := Container.mem_all hdm
  obtain ⟨rfl, hne⟩ := Container.mem_cat.mp hld
  obtain ⟨i, hi⟩ := List.exists_mem_of_ne_nil _ hne
  simp only [Container.idsOf, List.mem_map, List.mem_filter, Container.inCat, Bool.and_eq_true,
    decide_eq_true_eq] at hi
  obtain ⟨nm, ⟨hnm, ⟨hf, hs⟩, hn⟩, -⟩ := hi
  unfold Container.idsOf allNamed
  congr 1
  apply List.filter_congr
  intro x hx
  simp only [Container.inCat]
  by_cases hxn : x.1 = name
  · obtain ⟨h1, h2⟩ := hd x hx nm hnm (hxn.trans hn.symm)
    simp [hxn, h1, h2, hf, hs]
  · simp [hxn]

theorem full_has (hd : DistinctNames h mods) {name : String} (hne : allNamed mods name ≠ []) :
    (name, allNamed mods name) ∈ (Container.build h mods).fullDict := by
  obtain ⟨i, hi⟩ := List.exists_mem_of_ne_nil _ hne
  simp only [allNamed, List.mem_map, List.mem_filter, decide_eq_true_eq] at hi
  obtain ⟨nm, ⟨hm, hn⟩, -⟩ := hi
  have := (Container.full_perm hd).symm.subset hm
  simp only [Container.toTuples, List.mem_flatMap, List.mem_map] at this
  obtain ⟨nl, hnl, j, -, he⟩ := this
  have h1 : nl.1 = name := by rw [← hn, ← he]
  have := full_named hd (name := nl.1) (l := nl.2) hnl
  rw [h1] at this
  rw [← this, ← h1]
  exact hnl

theorem moduleColumns_nodup (hc : g.cont = Container.build g.heap mods)
    (hk : ∀ nm ∈ mods, ((g.heap nm.2).logger.cols.map Prod.fst).Nodup) : (g.moduleColumns.map Prod.fst).Nodup := by
  unfold Microgrid.moduleColumns
  rw [hc, List.map_flatMap, List.nodup_flatMap]
  constructor
  · intro nl hnl
    rw [List.map_flatMap, List.nodup_flatMap]
    constructor
    · intro ij hij
      rw [List.map_map]
      have hm : (nl.1, ij.1) ∈ mods := by
        apply Container.mem_full (h := g.heap)
        simp only [Container.toTuples, List.mem_flatMap, List.mem_map, Prod.mk.injEq]
        exact ⟨nl, hnl, ij.1, List.fst_mem_of_mem_zipIdx hij, rfl, rfl⟩
      have := hk _ hm
      have h2 := this.map (f := fun k => (nl.1, ij.2, k)) (fun a b hab => by simpa using hab)
      rwa [List.map_map] at h2
    · have : (nl.2.zipIdx.map Prod.snd).Nodup := by
        rw [List.zipIdx_map_snd]
        exact List.nodup_range'
      rw [List.Nodup, List.pairwise_map] at this
      refine this.imp ?_
      intro a b hab
      simp only [Function.onFun]
      intro x hx hy
      simp only [List.map_map, List.mem_map, Function.comp] at hx hy
      obtain ⟨_, -, rfl⟩ := hx
      obtain ⟨_, -, he⟩ := hy
      simp only [Prod.mk.injEq] at he
      exact hab he.2.1.symm
  · have : ((Container.build g.heap mods).fullDict.map Prod.fst).Nodup := Container.toDict_nodup _
    rw [List.Nodup, List.pairwise_map] at this
    refine this.imp ?_
    intro a b hab
    simp only [Function.onFun]
    intro x hx hy
    simp only [List.mem_map, List.mem_flatMap] at hx hy
    obtain ⟨_, ⟨_, -, _, -, rfl⟩, rfl⟩ := hx
    obtain ⟨_, ⟨_, -, _, -, rfl⟩, he⟩ := hy
    simp only [Prod.mk.injEq] at he
    exact hab he.1.symm

theorem moduleColumns_get (hc : g.cont = Container.build g.heap mods) (hd : DistinctNames g.heap mods)
    (hk : ∀ nm ∈ mods, ((g.heap nm.2).logger.cols.map Prod.fst).Nodup) {name : String} {j i : Nat}
    (hi : (allNamed mods name)[j]? = some i) (k : Key) :
    dictGet? g.moduleColumns (name, j, k) = dictGet? (g.heap i).logger.cols k := by
  have hnd := moduleColumns_nodup hc hk
  have hmem : ∀ x, x ∈ g.moduleColumns ↔ ∃ nl ∈ (Container.build g.heap mods).fullDict, ∃ ij ∈ nl.2.zipIdx,
      ∃ kc ∈ (g.heap ij.1).logger.cols, ((nl.1, ij.2, kc.1), kc.2) = x := by
    intro x
    simp only [Microgrid.moduleColumns, hc, List.mem_flatMap, List.mem_map]
  cases hv : dictGet? (g.heap i).logger.cols k with
  | some v =>
    apply dictGet?_of_mem hnd
    rw [hmem]
    refine ⟨(name, allNamed mods name), full_has hd (fun h0 => by simp [h0] at hi), (i, j), ?_, (k, v), dictGet?_mem hv, rfl⟩
    rw [List.mk_mem_zipIdx_iff_getElem?]
    exact hi
  | none =>
    rw [dictGet?_none] at hv ⊢
    intro hin
    obtain ⟨x, hx, he⟩ := List.mem_map.mp hin
    obtain ⟨nl, hnl, ij, hij, kc, hkc, rfl⟩ := (hmem x).mp hx
    simp only [Prod.mk.injEq] at he
    obtain ⟨h1, h2, h3⟩ := he
    have hl := full_named hd (name := nl.1) (l := nl.2) hnl
    obtain ⟨i', j'⟩ := ij
    rw [List.mk_mem_zipIdx_iff_getElem?] at hij
    simp only at h2 hkc
    rw [hl, h1, h2, hi] at hij
    obtain rfl := Option.some.inj hij
    exact hv (List.mem_map.mpr ⟨kc, hkc, h3⟩)

theorem mem_moduleColumns (hc : g.cont = Container.build g.heap mods) {x : (String × Nat × Key) × List (Option ℚ)}
    (hx : x ∈ g.moduleColumns) : ∃ nm ∈ mods, x.1.1 = nm.1 ∧ (x.1.2.2, x.2) ∈ (g.heap nm.2).logger.cols := by
  simp only [Microgrid.moduleColumns, hc, List.mem_flatMap, List.mem_map] at hx
  obtain ⟨nl, hnl, ij, hij, kc, hkc, rfl⟩ := hx
  refine ⟨(nl.1, ij.1), ?_, rfl, hkc⟩
  apply Container.mem_full (h := g.heap)
  simp only [Container.toTuples, List.mem_flatMap, List.mem_map, Prod.mk.injEq]
  exact ⟨nl, hnl, ij.1, List.fst_mem_of_mem_zipIdx hij, rfl, rfl⟩

/-- All logs have the same number of rows. -/
structure Even (mods : List (String × Nat)) (g : Microgrid) (n : Nat) : Prop where
  keys : ∀ nm ∈ mods, ((g.heap nm.2).logger.cols.map Prod.fst).Nodup
  modules : ∀ nm ∈ mods, ∀ c ∈ (g.heap nm.2).logger.cols, c.2.length = n
  bkeys : (g.balanceLog.cols.map Prod.fst).Nodup
  balance : ∀ c ∈ g.balanceLog.cols, c.2.length = n

theorem logColumns_len {n : Nat} (hc : g.cont = Container.build g.heap mods) (he : Even mods g n)
    (ho : ∀ c ∈ g.otherLog.cols, c.2.length = n) : ∀ c ∈ g.logColumns, c.2.length = n := by
  intro c hcm
  unfold Microgrid.logColumns at hcm
  rcases mem_dictUpdate hcm with hcm | hcm
  · rcases mem_dictUpdate hcm with hcm | hcm
    · rcases mem_dictUpdate hcm with hcm | hcm
      · simp at hcm
      · obtain ⟨nm, hm, -, hx⟩ := mem_moduleColumns hc hcm
        exact he.modules nm hm _ hx
    · obtain ⟨kc, hkc, rfl⟩ := List.mem_map.mp hcm
      exact he.balance kc hkc
  · obtain ⟨kc, hkc, rfl⟩ := List.mem_map.mp hcm
    exact ho kc hkc

theorem getLog_ok {n c : Nat} (hc : g.cont = Container.build g.heap mods) (he : Even mods g n)
    (ho : ∀ c ∈ g.otherLog.cols, c.2.length = n) (hcur : g.currentStep = .ok c) (hn : c = g.initialStep + n) :
    g.getLog = .ok { index := List.range' g.initialStep n, cols := g.logColumns } := by
  unfold Microgrid.getLog
  rw [hcur]
  have : c - g.initialStep = n := by omega
  simp only [this]
  rw [if_pos]
  simp only [List.all_eq_true, decide_eq_true_eq, List.length_range']
  exact logColumns_len hc he ho

/-- `get_log` fails if some column has another length than the index. -/
theorem getLog_error {n c : Nat} {col : Key × List (Option ℚ)} (hcur : g.currentStep = .ok c)
    (hb : (g.balanceLog.cols.map Prod.fst).Nodup) (hcol : col ∈ g.balanceLog.cols)
    (hother : ∀ kc ∈ g.otherLog.cols, (kc.1.label, 0, Key.str "") ≠ ("balance", 0, col.1))
    (hn : col.2.length = n) (hne : c - g.initialStep ≠ n) : g.getLog = .error .value := by
  unfold Microgrid.getLog
  rw [hcur]
  simp only
  rw [if_neg]
  simp only [List.all_eq_true, decide_eq_true_eq, List.length_range', not_forall]
  have hget : dictGet? g.logColumns ("balance", 0, col.1) = some col.2 := by
    unfold Microgrid.logColumns
    have hbn : ((g.balanceLog.cols.map fun kc => (("balance", 0, kc.1), kc.2)).map Prod.fst).Nodup := by
      rw [List.map_map]
      have h2 := hb.map (f := fun k => ("balance", 0, k)) (fun a b hab => by simpa using hab)
      rwa [List.map_map] at h2
    have hb2 : dictGet? (dictUpdate (dictUpdate [] g.moduleColumns)
        (g.balanceLog.cols.map fun kc => (("balance", 0, kc.1), kc.2))) ("balance", 0, col.1) = some col.2 := by
      rw [dictGet?_dictUpdate _ _ hbn,
        dictGet?_of_mem hbn (List.mem_map.mpr ⟨col, hcol, rfl⟩ : (("balance", 0, col.1), col.2) ∈ _)]
      rfl
    rw [← hb2]
    generalize (dictUpdate (dictUpdate [] g.moduleColumns) _) = d
    unfold dictUpdate
    generalize g.otherLog.cols = cols at hother
    induction cols generalizing d with
    | nil => rfl
    | cons x cols ih =>
      simp only [List.map_cons, List.foldl_cons]
      rw [ih _ (fun kc hkc => hother kc (List.mem_cons_of_mem _ hkc)), dictGet?_dictSet, if_neg (hother x (by simp))]
  exact ⟨_, dictGet?_mem hget, by simp only [hn]; exact fun e => hne e.symm⟩

theorem column_module (hc : g.cont = Container.build g.heap mods) (hd : DistinctNames g.heap mods) {n : Nat}
    (he : Even mods g n) {name : String} {j i : Nat} (hname : name ≠ "balance") (hi : (allNamed mods name)[j]? = some i)
    {k : Key} (hk : k ≠ .str "") : dictGet? g.logColumns (name, j, k) = dictGet? (g.heap i).logger.cols k := by
  have hmn := moduleColumns_nodup hc he.keys
  unfold Microgrid.logColumns
  have h1 : dictGet? (dictUpdate [] g.moduleColumns) (name, j, k) = dictGet? (g.heap i).logger.cols k := by
    rw [dictGet?_dictUpdate _ _ hmn, moduleColumns_get hc hd he.keys hi]
    simp [dictGet?]
  rw [← h1]
  generalize dictUpdate [] g.moduleColumns = d
  have aux : ∀ (l : List ((String × Nat × Key) × List (Option ℚ))) (d : List ((String × Nat × Key) × List (Option ℚ))),
      (∀ x ∈ l, x.1 ≠ (name, j, k)) → dictGet? (dictUpdate d l) (name, j, k) = dictGet? d (name, j, k) := by
    intro l
    unfold dictUpdate
    induction l with
    | nil => intro d _; rfl
    | cons x l ih =>
      intro d hx
      simp only [List.foldl_cons]
      rw [ih _ (fun y hy => hx y (by simp [hy])), dictGet?_dictSet, if_neg (hx x (by simp))]
  rw [aux, aux]
  · intro x hx
    obtain ⟨kc, -, rfl⟩ := List.mem_map.mp hx
    simp only [ne_eq, Prod.mk.injEq, not_and]
    exact fun e => absurd e.symm hname
  · intro x hx
    obtain ⟨kc, -, rfl⟩ := List.mem_map.mp hx
    simp only [ne_eq, Prod.mk.injEq, not_and]
    exact fun _ _ e => hk e.symm

theorem column_balance (hb : (g.balanceLog.cols.map Prod.fst).Nodup) {k : Key} (hk : k ≠ .str "")
    (hm : k ∈ g.balanceLog.cols.map Prod.fst) :
    dictGet? g.logColumns ("balance", 0, k) = dictGet? g.balanceLog.cols k := by
  unfold Microgrid.logColumns
  have hbn : ((g.balanceLog.cols.map fun kc => (("balance", 0, kc.1), kc.2)).map Prod.fst).Nodup := by
    rw [List.map_map]
    have h2 := hb.map (f := fun k => ("balance", 0, k)) (fun a b hab => by simpa using hab)
    rwa [List.map_map] at h2
  obtain ⟨kc, hkc, rfl⟩ := List.mem_map.mp hm
  rw [dictGet?_of_mem hb hkc]
  have hb2 : dictGet? (dictUpdate (dictUpdate [] g.moduleColumns)
      (g.balanceLog.cols.map fun kc => (("balance", 0, kc.1), kc.2))) ("balance", 0, kc.1) = some kc.2 := by
    rw [dictGet?_dictUpdate _ _ hbn,
      dictGet?_of_mem hbn (List.mem_map.mpr ⟨kc, hkc, rfl⟩ : (("balance", 0, kc.1), kc.2) ∈ _)]
    rfl
  rw [← hb2]
  generalize (dictUpdate (dictUpdate [] g.moduleColumns) _) = d
  unfold dictUpdate
  generalize g.otherLog.cols = cols
  induction cols generalizing d with
  | nil => rfl
  | cons x cols ih =>
    simp only [List.map_cons, List.foldl_cons]
    rw [ih, dictGet?_dictSet, if_neg]
    simp only [Prod.mk.injEq, not_and]
    exact fun _ _ e => hk e.symm

/-! ### Logs of runs -/

theorem Microgrid.run_other (g : Microgrid) (c : List (String × Ctrl)) (n : Bool) (l : Logger) :
    ({ g with otherLog := l } : Microgrid).run c n = ({ (g.run c n).1 with otherLog := l }, (g.run c n).2) := by
  unfold Microgrid.run Microgrid.finish
  simp only [Microgrid.fixedSteps, Microgrid.dispatch, Microgrid.flexList]
  repeat' split
  all_goals rfl

theorem Microgrid.run_otherLog {g g' : Microgrid} {c : List (String × Ctrl)} {n : Bool} {r : Except Err RunOut}
    (h : g.run c n = (g', r)) : g'.otherLog = g.otherLog := by
  have := Microgrid.run_other g c n g.otherLog
  rw [h] at this
  have e : g' = { g' with otherLog := g.otherLog } := congrArg Prod.fst this
  rw [e]

theorem Runs.otherLog {cs : List (List (String × Ctrl) × Bool)} {os : List RunOut} (hr : Runs g cs os g') :
    g'.otherLog = g.otherLog := by
  induction hr with
  | nil => rfl
  | cons h _ ih => rw [ih, Microgrid.run_otherLog h]

theorem Runs.module_logs {cs : List (List (String × Ctrl) × Bool)} {os : List RunOut} (ok : GridOK mods g)
    (hid : (mods.map Prod.snd).Nodup) (hu : ClearNames g.heap mods) (hr : Runs g cs os g')
    (hs : ∀ cn ∈ cs, Supplies g.heap mods cn.1) {nm : String × Nat} (hm : nm ∈ mods) {rows : List (List (Key × ℚ))}
    (h0 : (g.heap nm.2).logger.Holds (g.heap nm.2).logKeys rows) :
    ∃ rows', (g'.heap nm.2).logger.Holds (g'.heap nm.2).logKeys (rows ++ rows') ∧ rows'.length = os.length := by
  induction hr generalizing rows with
  | nil g => exact ⟨[], by simpa using h0, rfl⟩
  | @cons g g₁ g' ctl n o cs os hrun ht ih =>
    obtain ⟨trF, trC, trX, h₁, h₂, ci, r⟩ := Microgrid.run_ok hrun
    have hal := run_alike hrun
    obtain ⟨e, -, -, -, he⟩ := ok.run_steps hid hu (hs (ctl, n) (by simp)) r hm
    obtain ⟨hl, hk⟩ := (ok.wf nm hm).logs he
    have hlk := Module.logKeys_step (ok.wf nm hm) e.act e.normalized
    rw [he] at hlk
    simp only at hlk
    have h1 := h0.log hk (ok.wf nm hm).logKeys_nodup
    rw [← hl, ← hlk] at h1
    obtain ⟨rows', h2, h3⟩ := ih (ok.run_next hrun) (hu.congr hal) (fun cn hcn => (hs cn (by simp [hcn])).congr hal) h1
    exact ⟨_ :: rows', by simpa using h2, by simp [h3]⟩

theorem Logger.Holds.even {l : Logger} {K : List Key} {rows : List (List (Key × ℚ))} (h : l.Holds K rows) (hn : K.Nodup) :
    (l.cols.map Prod.fst).Nodup ∧ ∀ c ∈ l.cols, c.2.length = rows.length := by
  rw [h.cols]
  split
  · simp
  · constructor
    · rw [List.map_map]
      simpa [Function.comp_def] using hn
    · intro c hc
      obtain ⟨k, -, rfl⟩ := List.mem_map.mp hc
      simp

/-- The logs after a reset and successful runs. -/
theorem even_after {g₀ : Microgrid} {cs : List (List (String × Ctrl) × Bool)} {os : List RunOut} (ok₀ : GridOK mods g₀)
    (hid : (mods.map Prod.snd).Nodup) (hd : DistinctNames g₀.heap mods) (hr : g₀.reset = (g, .ok ()))
    (hrun : Runs g cs os g') (hs : ∀ cn ∈ cs, Supplies g.heap mods cn.1) : Even mods g' os.length := by
  have ok := ok₀.reset_next hr
  have hu : ClearNames g.heap mods := hd.clear.congr (reset_alike hr)
  obtain ⟨hb1, hb2, hb3, -⟩ := C24_balance_log g₀ g g' cs os hr hrun
  have okr : GridOK mods g' := by
    clear hs hb1 hb2 hb3 hr
    induction hrun with
    | nil => exact ok
    | cons h _ ih => exact ih (ok.run_next h) (hu.congr (run_alike h))
  have hm : ∀ nm ∈ mods, ((g'.heap nm.2).logger.cols.map Prod.fst).Nodup ∧
      ∀ c ∈ (g'.heap nm.2).logger.cols, c.2.length = os.length := by
    intro nm hnm
    have h0 : (g.heap nm.2).logger.Holds (g.heap nm.2).logKeys [] := by
      rw [((ok₀.reset_modules hid hd hr).1 nm hnm).2]
      exact Logger.Holds.empty _
    obtain ⟨rows, h1, h2⟩ := hrun.module_logs ok hid hu hs hnm h0
    have := h1.even (okr.wf nm hnm).logKeys_nodup
    rw [List.nil_append, h2] at this
    exact this
  exact ⟨fun nm h => (hm nm h).1, fun nm h => (hm nm h).2, hb3, fun c hc => (hb2 c hc).1⟩

end

end Pymgrid
