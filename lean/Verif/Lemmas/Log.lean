import Verif.Lemmas.Dict
import Verif.Lemmas.Generic
import Verif.Lemmas.WF
import Verif.Spec.Log

set_option autoImplicit false

/-! The contents of module logs. -/

namespace Pymgrid

variable {α β : Type} [DecidableEq α]

theorem dict_ext {d d' : List (α × β)} (hk : d.map Prod.fst = d'.map Prod.fst) (hn : (d.map Prod.fst).Nodup)
    (h : ∀ k, dictGet? d k = dictGet? d' k) : d = d' := by
  induction d generalizing d' with
  | nil => cases d' <;> simp_all
  | cons x d ih =>
    cases d' with
    | nil => simp at hk
    | cons y d' =>
      obtain ⟨k, v⟩ := x
      obtain ⟨k', v'⟩ := y
      simp only [List.map_cons, List.cons.injEq] at hk
      obtain ⟨rfl, hk⟩ := hk
      simp only [List.map_cons, List.nodup_cons] at hn
      have h0 := h k
      simp only [dictGet?, if_true, Option.some.injEq] at h0
      subst h0
      congr 1
      refine ih hk hn.2 fun k₁ => ?_
      by_cases e : k = k₁
      · subst e
        rw [dictGet?_none.mpr hn.1, dictGet?_none.mpr (hk ▸ hn.1)]
      · simpa [dictGet?, e] using h k₁

namespace Logger

theorem get_logOne (n : Nat) (cols : List (Key × List (Option ℚ))) (k k' : Key) (v : ℚ) :
    dictGet? (logOne n cols k v) k' =
      if k = k' then some ((dictGet? cols k).getD (List.replicate n none) ++ [some v]) else dictGet? cols k' := by
  unfold logOne
  cases h : dictGet? cols k <;> simp [dictGet?_dictSet]

theorem get_fold (n : Nat) (row : List (Key × ℚ)) (hn : (row.map Prod.fst).Nodup)
    (cols : List (Key × List (Option ℚ))) (k : Key) :
    dictGet? (row.foldl (fun cols kv => logOne n cols kv.1 kv.2) cols) k =
      match dictGet? row k with
      | some v => some ((dictGet? cols k).getD (List.replicate n none) ++ [some v])
      | none => dictGet? cols k := by
  induction row generalizing cols with
  | nil => rfl
  | cons x row ih =>
    obtain ⟨k', v'⟩ := x
    simp only [List.map_cons, List.nodup_cons] at hn
    simp only [List.foldl_cons]
    rw [ih hn.2, get_logOne]
    by_cases h : k' = k
    · subst h
      simp [dictGet?, dictGet?_none.mpr hn.1]
    · simp [dictGet?, h]

theorem keys_logOne (n : Nat) (cols : List (Key × List (Option ℚ))) (k : Key) (v : ℚ) :
    (logOne n cols k v).map Prod.fst =
      if k ∈ cols.map Prod.fst then cols.map Prod.fst else cols.map Prod.fst ++ [k] := by
  unfold logOne
  cases h : dictGet? cols k <;> exact dictSet_keys _

theorem keys_fold_old (n : Nat) (row : List (Key × ℚ)) (cols : List (Key × List (Option ℚ)))
    (h : ∀ k ∈ row.map Prod.fst, k ∈ cols.map Prod.fst) :
    (row.foldl (fun cols kv => logOne n cols kv.1 kv.2) cols).map Prod.fst = cols.map Prod.fst := by
  induction row generalizing cols with
  | nil => rfl
  | cons x row ih =>
    have e : (logOne n cols x.1 x.2).map Prod.fst = cols.map Prod.fst := by
      rw [keys_logOne, if_pos (h _ (by simp))]
    simp only [List.foldl_cons]
    rw [ih _ (fun k hk => by rw [e]; exact h k (by simp [hk])), e]

theorem keys_fold_new (n : Nat) (row : List (Key × ℚ)) (hn : (row.map Prod.fst).Nodup)
    (cols : List (Key × List (Option ℚ))) (h : ∀ k ∈ row.map Prod.fst, k ∉ cols.map Prod.fst) :
    (row.foldl (fun cols kv => logOne n cols kv.1 kv.2) cols).map Prod.fst =
      cols.map Prod.fst ++ row.map Prod.fst := by
  induction row generalizing cols with
  | nil => simp
  | cons x row ih =>
    simp only [List.map_cons, List.nodup_cons] at hn
    have e : (logOne n cols x.1 x.2).map Prod.fst = cols.map Prod.fst ++ [x.1] := by
      rw [keys_logOne, if_neg (h _ (by simp))]
    simp only [List.foldl_cons]
    rw [ih hn.2 _ (fun k hk => ?_), e]
    · simp
    · rw [e]
      simp only [List.mem_append, List.mem_singleton, not_or]
      exact ⟨h k (by simp [hk]), fun e' => hn.1 (e' ▸ hk)⟩

/-- The log consists of the given rows, all over the keys `K`. -/
structure Holds (l : Logger) (K : List Key) (rows : List (List (Key × ℚ))) : Prop where
  keys : ∀ r ∈ rows, r.map Prod.fst = K
  len : l.len = rows.length
  cols : l.cols = if rows = [] then [] else K.map fun k => (k, rows.map fun r => dictGet? r k)

theorem get_table (K : List Key) (f : Key → List (Option ℚ)) (k : Key) :
    dictGet? (K.map fun k => (k, f k)) k = if k ∈ K then some (f k) else none := by
  induction K with
  | nil => rfl
  | cons k' K ih =>
    by_cases h : k' = k
    · simp [dictGet?, h]
    · simp [dictGet?, h, ih, Ne.symm h]

theorem Holds.empty (K : List Key) : Holds {} K [] := ⟨by simp, rfl, rfl⟩

theorem get_of_keys {row : List (Key × ℚ)} {k : Key} (h : k ∈ row.map Prod.fst) : ∃ v, dictGet? row k = some v := by
  cases hv : dictGet? row k with
  | some v => exact ⟨v, rfl⟩
  | none => exact absurd h (dictGet?_none.mp hv)

theorem Holds.log {l : Logger} {K : List Key} {rows : List (List (Key × ℚ))} (h : Holds l K rows)
    {row : List (Key × ℚ)} (hr : row.map Prod.fst = K) (hn : K.Nodup) : Holds (l.log row) K (rows ++ [row]) := by
  have hrn : (row.map Prod.fst).Nodup := hr ▸ hn
  refine ⟨?_, ?_, ?_⟩
  · intro r hm
    rcases List.mem_append.mp hm with hm | hm
    · exact h.keys r hm
    · rw [List.mem_singleton.mp hm]; exact hr
  · simp [Logger.log, h.len]
  · rw [if_neg (by simp)]
    have hc : (l.log row).cols = row.foldl (fun cols kv => logOne l.len cols kv.1 kv.2) l.cols := rfl
    have hkeys : (l.log row).cols.map Prod.fst = K := by
      rw [hc]
      by_cases he : rows = []
      · have : l.cols = [] := by rw [h.cols, if_pos he]
        rw [keys_fold_new _ _ hrn _ (by simp [this]), this, hr]
        simp
      · have hcol : l.cols.map Prod.fst = K := by rw [h.cols, if_neg he]; simp [Function.comp_def]
        rw [keys_fold_old _ _ _ (by rw [hr, hcol]; exact fun k hk => hk), hcol]
    refine dict_ext (by rw [hkeys]; simp [Function.comp_def]) (by rw [hkeys]; exact hn) fun k => ?_
    rw [get_table, hc, get_fold _ _ hrn]
    by_cases hk : k ∈ K
    · obtain ⟨v, hv⟩ := get_of_keys (hr ▸ hk)
      rw [hv, if_pos hk]
      simp only [List.map_append, List.map_cons, List.map_nil, hv, Option.some.injEq, List.append_cancel_right_eq]
      by_cases he : rows = []
      · have : l.cols = [] := by rw [h.cols, if_pos he]
        rw [this, h.len, he]
        rfl
      · rw [h.cols, if_neg he, get_table, if_pos hk]
        rfl
    · have hv : dictGet? row k = none := dictGet?_none.mpr (hr ▸ hk)
      rw [hv, if_neg hk]
      simp only
      rw [dictGet?_none, h.cols]
      by_cases he : rows = []
      · simp [he]
      · rw [if_neg he]
        simpa [Function.comp_def] using hk

theorem Holds.column {l : Logger} {K : List Key} {rows : List (List (Key × ℚ))} (h : Holds l K rows) {k : Key}
    (hk : k ∈ K) : l.column k = rows.map fun r => dictGet? r k := by
  unfold Logger.column
  rw [h.cols]
  by_cases he : rows = []
  · simp [he, dictGet?]
  · rw [if_neg he, get_table, if_pos hk]
    rfl

end Logger

namespace Module

/-- Entries of the info of a step besides the two energies. -/
def extraKeys (m : Module) : List Key :=
  match m.kind with
  | .genset _ | .grid _ _ => [.str "co2_production"]
  | .renewable _ => [.str "curtailment"]
  | _ => []

/-- Entries of the state. -/
def stateKeys (m : Module) : List Key :=
  match m.kind with
  | .battery b => b.stateDict.map Prod.fst
  | .genset g => g.stateDict.map Prod.fst
  | .grid _ t | .load t | .renewable t => t.currentKeys ++ t.forecastKeys
  | .balancing _ => []

/-- Columns of the log. -/
def logKeys (m : Module) : List Key :=
  .str "reward" :: (m.extraKeys ++ m.provName.toList ++ m.absName.toList ++ m.stateKeys)

theorem update_extra {m m₁ : Module} {e : Option ℚ} {d : Dir} {u : UpdateOut} (h : m.update e d = (m₁, .ok u)) :
    u.info.extra.map Prod.fst = m.extraKeys := by
  unfold update at h
  cases hk : m.kind with
  | battery b =>
    have ek : m.extraKeys = [] := by simp [extraKeys, hk]
    rw [hk] at h
    simp only [Prod.mk.injEq] at h
    obtain ⟨-, h⟩ := h
    unfold Battery.update at h
    rw [ek]
    revert h
    try simp only
    repeat' split
    all_goals first
      | (intro h; injection h with h; subst h; rfl)
      | simp
  | genset g =>
    have ek : m.extraKeys = [.str "co2_production"] := by simp [extraKeys, hk]
    rw [hk] at h
    simp only [Prod.mk.injEq] at h
    obtain ⟨-, h⟩ := h
    unfold Genset.update at h
    rw [ek]
    revert h
    try simp only
    repeat' split
    all_goals first
      | (intro h; injection h with h; subst h; rfl)
      | simp
  | grid p t =>
    have ek : m.extraKeys = [.str "co2_production"] := by simp [extraKeys, hk]
    rw [hk] at h
    simp only [Prod.mk.injEq] at h
    obtain ⟨-, h⟩ := h
    unfold gridUpdate at h
    rw [ek]
    revert h
    try simp only
    repeat' split
    all_goals first
      | (intro h; injection h with h; subst h; rfl)
      | simp
  | load t =>
    have ek : m.extraKeys = [] := by simp [extraKeys, hk]
    rw [hk] at h
    simp only [Prod.mk.injEq] at h
    obtain ⟨-, h⟩ := h
    unfold loadUpdate at h
    rw [ek]
    revert h
    try simp only
    repeat' split
    all_goals first
      | (intro h; injection h with h; subst h; rfl)
      | simp
  | renewable t =>
    have ek : m.extraKeys = [.str "curtailment"] := by simp [extraKeys, hk]
    rw [hk] at h
    simp only [Prod.mk.injEq] at h
    obtain ⟨-, h⟩ := h
    unfold renewableUpdate at h
    rw [ek]
    revert h
    try simp only
    repeat' split
    all_goals first
      | (intro h; injection h with h; subst h; rfl)
      | simp
  | balancing b =>
    have ek : m.extraKeys = [] := by simp [extraKeys, hk]
    rw [hk] at h
    simp only [Prod.mk.injEq] at h
    obtain ⟨-, h⟩ := h
    unfold balancingUpdate at h
    rw [ek]
    revert h
    try simp only
    repeat' split
    all_goals first
      | (intro h; injection h with h; subst h; rfl)
      | simp

theorem asSource_update {m m₁ : Module} {x : ℚ} {u : UpdateOut} (h : m.asSource x = (m₁, .ok u)) :
    ∃ e d, m.update e d = (m₁, .ok u) := by
  unfold asSource at h
  revert h
  repeat' split
  all_goals first
    | (intro h; exact ⟨_, _, h⟩)
    | simp

theorem asSink_update {m m₁ : Module} {x : ℚ} {u : UpdateOut} (h : m.asSink x = (m₁, .ok u)) :
    ∃ e d, m.update e d = (m₁, .ok u) := by
  unfold asSink at h
  revert h
  repeat' split
  all_goals first
    | (intro h; exact ⟨_, _, h⟩)
    | simp

theorem unnormalizedStep_update {m m₁ : Module} {a : ℚ} {u : UpdateOut} (h : m.unnormalizedStep a = (m₁, .ok u)) :
    ∃ e d, m.update e d = (m₁, .ok u) := by
  unfold unnormalizedStep at h
  revert h
  repeat' split
  all_goals first
    | exact asSource_update
    | exact asSink_update
    | simp

/-- The row of a step, when no two columns have the same name. -/
theorem logRow_eq {m : Module} {pre row : List (Key × ℚ)} {u : UpdateOut} (h : m.logRow pre u = .ok row)
    (hn : (Key.str "reward" ::
      (u.info.extra.map Prod.fst ++ m.provName.toList ++ m.absName.toList ++ pre.map Prod.fst)).Nodup) :
    row = (.str "reward", u.reward) :: (u.info.extra ++ m.provName.toList.map (fun k => (k, u.info.provided.getD 0)) ++
      m.absName.toList.map (fun k => (k, u.info.absorbed.getD 0)) ++ pre) := by
  obtain ⟨r, dn, ⟨pv, ab, ex⟩⟩ := u
  unfold logRow at h
  simp only at h hn ⊢
  rw [List.nodup_cons] at hn
  obtain ⟨hr, hn⟩ := hn
  rw [List.nodup_append] at hn
  obtain ⟨hn, hpre, hd⟩ := hn
  rw [List.nodup_append] at hn
  obtain ⟨hn, habs, hd2⟩ := hn
  rw [List.nodup_append] at hn
  obtain ⟨hex, hprov, hd3⟩ := hn
  have e0 : dictUpdate [(Key.str "reward", r)] ex = (.str "reward", r) :: ex := by
    rw [dictUpdate_append hex]
    · rfl
    · intro k hk
      simp only [List.map_cons, List.map_nil, List.mem_singleton]
      rintro rfl
      exact hr (by simp only [List.mem_append]; exact .inl (.inl (.inl hk)))
  rw [e0] at h
  have e1 : ∀ row₁, (match m.provName with
      | some k => Except.ok (dictSet ((Key.str "reward", r) :: ex) k (pv.getD 0))
      | none => if pv = none then Except.ok ((Key.str "reward", r) :: ex) else Except.error Err.assertion) = .ok row₁ →
      row₁ = ((.str "reward", r) :: ex) ++ m.provName.toList.map (fun k => (k, pv.getD 0)) := by
    intro row₁ h1
    cases hp : m.provName with
    | none =>
      rw [hp] at h1
      simp only at h1
      split at h1
      · injection h1 with h1; rw [← h1]; simp
      · simp at h1
    | some k =>
      rw [hp] at h1
      simp only [Except.ok.injEq] at h1
      rw [← h1, dictSet_new]
      · simp
      · simp only [List.map_cons, List.mem_cons, not_or]
        refine ⟨?_, ?_⟩
        · rintro rfl; exact hr (by simp [hp])
        · intro hk; exact hd3 k hk k (by simp [hp]) rfl
  split at h
  · simp at h
  rename_i row₁ h1
  have e1' := e1 row₁ h1
  clear h1 e1
  have e2 : ∀ row₂, (match m.absName with
      | some k => Except.ok (dictSet row₁ k (ab.getD 0))
      | none => if ab = none then Except.ok row₁ else Except.error Err.assertion) = .ok row₂ →
      row₂ = row₁ ++ m.absName.toList.map (fun k => (k, ab.getD 0)) := by
    intro row₂ h1
    cases hp : m.absName with
    | none =>
      rw [hp] at h1
      simp only at h1
      split at h1
      · injection h1 with h1; rw [← h1]; simp
      · simp at h1
    | some k =>
      rw [hp] at h1
      simp only [Except.ok.injEq] at h1
      rw [← h1, dictSet_new]
      · simp
      · rw [e1']
        simp only [List.map_append, List.map_cons, List.cons_append, List.mem_cons, List.mem_append, not_or,
          List.map_map]
        refine ⟨?_, ?_, ?_⟩
        · rintro rfl; exact hr (by simp [hp])
        · intro hk; exact hd2 k (by simp only [List.mem_append]; exact .inl hk) k (by simp [hp]) rfl
        · intro hk
          exact hd2 k (by simp only [List.mem_append]; right; simpa [Function.comp_def] using hk) k (by simp [hp]) rfl
  split at h
  · simp at h
  rename_i row₂ h2
  have e2' := e2 row₂ h2
  injection h with h
  rw [← h, dictUpdate_append hpre, e2', e1']
  · simp
  · intro k hk hk'
    rw [e2', e1'] at hk'
    simp only [List.map_append, List.map_cons, List.cons_append, List.mem_cons, List.mem_append, List.map_map] at hk'
    rcases hk' with rfl | (hk' | hk') | hk'
    · exact hr (by simp only [List.mem_append]; exact .inr hk)
    · exact hd k (by simp only [List.mem_append]; exact .inl (.inl hk')) k hk rfl
    · exact hd k (by simp only [List.mem_append]; left; right; simpa [Function.comp_def] using hk') k hk rfl
    · exact hd k (by simp only [List.mem_append]; right; simpa [Function.comp_def] using hk') k hk rfl

theorem zip_keys {ks : List Key} {vs : List ℚ} (h : vs.length = ks.length) : (ks.zip vs).map Prod.fst = ks := by
  rw [← List.unzip_fst, List.unzip_zip h.symm]

theorem TSWF.keys {m : Module} {t : TS} (h : m.TSWF t) {d : List (Key × ℚ)} (hd : m.stateDict = .ok d) :
    d.map Prod.fst = t.currentKeys ++ t.forecastKeys := by
  rw [h.stateDict] at hd
  injection hd with hd
  rw [← hd, List.map_append, zip_keys, zip_keys]
  · rw [TS.Shaped.flat_length h.valid h.shaped, TS.forecastKeys_length]
  · rw [h.valid.width (h.valid.obsAt_within _)]; simp [TS.currentKeys]

theorem WF.keys {m : Module} (h : m.WF) {d : List (Key × ℚ)} (hd : m.stateDict = .ok d) :
    d.map Prod.fst = m.stateKeys := by
  unfold stateKeys
  cases h with
  | battery b h => simp only [stateDict, h.kind, Except.ok.injEq] at hd ⊢; rw [hd]
  | genset g h => simp only [stateDict, h.kind, Except.ok.injEq] at hd ⊢; rw [hd]
  | grid p t h w => rw [h.ts.keys hd, h.kind]
  | load t h w => rw [h.ts.keys hd, h.kind]
  | renewable t h w => rw [h.ts.keys hd, h.kind]
  | balancing u h => simp only [stateDict, h.kind, Except.ok.injEq] at hd ⊢; rw [← hd]; rfl

theorem WF.stateDict_ok {m : Module} (h : m.WF) : ∃ d, m.stateDict = .ok d := by
  cases h with
  | battery b h => exact ⟨_, by simp only [stateDict, h.kind]; rfl⟩
  | genset g h => exact ⟨_, by simp only [stateDict, h.kind]; rfl⟩
  | grid p t h w => exact ⟨_, h.ts.stateDict⟩
  | load t h w => exact ⟨_, h.ts.stateDict⟩
  | renewable t h w => exact ⟨_, h.ts.stateDict⟩
  | balancing u h => exact ⟨_, by simp only [stateDict, h.kind]; rfl⟩

theorem seriesKeys_nodup {t : TS} (h : t.comps.Nodup) : (t.currentKeys ++ t.forecastKeys).Nodup := by
  rw [List.nodup_append]
  refine ⟨?_, ?_, ?_⟩
  · exact h.map fun a b e => by simpa using e
  · unfold TS.forecastKeys
    rw [List.nodup_flatMap]
    refine ⟨fun j _ => h.map fun a b e => by simpa using e, ?_⟩
    refine List.Nodup.pairwise_of_forall_ne List.nodup_range ?_
    intro i _ j _ hij x hx hx'
    simp only [List.mem_map] at hx hx'
    obtain ⟨c, -, rfl⟩ := hx
    obtain ⟨c', -, e⟩ := hx'
    simp only [Key.fc.injEq] at e
    exact hij e.2.symm
  · intro a ha b hb
    simp only [TS.currentKeys, TS.forecastKeys, List.mem_map, List.mem_flatMap] at ha hb
    obtain ⟨c, -, rfl⟩ := ha
    obtain ⟨j, -, c', -, rfl⟩ := hb
    simp

theorem seriesKeys_str {t : TS} (s : String) : Key.str s ∉ t.currentKeys ++ t.forecastKeys := by
  simp [TS.currentKeys, TS.forecastKeys]

theorem nodup_head {L : List Key} {t : TS} (hL : L.Nodup) (hs : ∀ k ∈ L, ∃ s, k = .str s) (ht : t.comps.Nodup) :
    (L ++ (t.currentKeys ++ t.forecastKeys)).Nodup := by
  rw [List.nodup_append]
  refine ⟨hL, seriesKeys_nodup ht, ?_⟩
  rintro a ha b hb rfl
  obtain ⟨s, rfl⟩ := hs a ha
  exact seriesKeys_str s hb

theorem WF.logKeys_nodup {m : Module} (h : m.WF) : m.logKeys.Nodup := by
  unfold logKeys extraKeys stateKeys
  cases h with
  | battery b h => rw [h.kind, h.prov, h.abs]; simp [Battery.stateDict]
  | genset g h => rw [h.kind, h.prov, h.abs]; simp [Genset.stateDict]
  | grid p t h w =>
    rw [h.kind, h.prov, h.abs]
    exact nodup_head (L := [.str "reward", .str "co2_production", .str "grid_import", .str "grid_export"]) (by decide)
      (by simp) (by rw [h.names]; decide)
  | load t h w =>
    rw [h.kind, h.prov, h.abs]
    obtain ⟨c, hc⟩ := List.length_eq_one_iff.mp h.one
    exact nodup_head (L := [.str "reward", .str "load_met"]) (by decide) (by simp) (by rw [hc]; simp)
  | renewable t h w =>
    rw [h.kind, h.prov, h.abs]
    obtain ⟨c, hc⟩ := List.length_eq_one_iff.mp h.one
    exact nodup_head (L := [.str "reward", .str "curtailment", .str "renewable_used"]) (by decide) (by simp)
      (by rw [hc]; simp)
  | balancing u h => rw [h.kind, h.prov, h.abs]; simp

theorem WF.keys_step {m : Module} (h : m.WF) (a : Act) (n : Bool) :
    (m.step a n).1.extraKeys = m.extraKeys ∧ (m.step a n).1.stateKeys = m.stateKeys ∧ (m.step a n).1.energyPos = m.energyPos := by
  cases h with
  | battery b h =>
    rcases h.step_cases a n with ⟨e, he⟩ | ⟨d, x, m', o, he, hs⟩
    · rw [he]; exact ⟨rfl, rfl, rfl⟩
    · rw [he]; simp [extraKeys, stateKeys, energyPos, hs.kind, h.kind, Battery.stateDict]
  | genset g h =>
    obtain ⟨g', h'⟩ := h.step_cases a n
    simp [extraKeys, stateKeys, energyPos, h'.kind, h.kind, Genset.stateDict]
  | grid p t h w =>
    obtain ⟨t', hs, h'⟩ := h.ops [.step a n]
    have hk : (m.step a n).1.kind = .grid p t' := h'.kind
    simp [extraKeys, stateKeys, energyPos, hk, h.kind, TS.currentKeys, TS.forecastKeys, hs.comps, hs.horizon]
  | load t h w =>
    obtain ⟨t', hs, h'⟩ := h.ops [.step a n]
    have hk : (m.step a n).1.kind = .load t' := h'.kind
    simp [extraKeys, stateKeys, energyPos, hk, h.kind, TS.currentKeys, TS.forecastKeys, hs.comps, hs.horizon]
  | renewable t h w =>
    obtain ⟨t', hs, h'⟩ := h.ops [.step a n]
    have hk : (m.step a n).1.kind = .renewable t' := h'.kind
    simp [extraKeys, stateKeys, energyPos, hk, h.kind, TS.currentKeys, TS.forecastKeys, hs.comps, hs.horizon]
  | balancing u h =>
    have hk : (m.step a n).1.kind = .balancing u := (h.op (.step a n)).kind
    simp [extraKeys, stateKeys, energyPos, hk, h.kind]

/-- The keys of the log depend only on the class and on the names and horizon of a series. -/
theorem logKeys_step {m : Module} (h : m.WF) (a : Act) (n : Bool) : (m.step a n).1.logKeys = m.logKeys := by
  have hf := frame_step m a n
  obtain ⟨k1, k2, -⟩ := h.keys_step a n
  unfold logKeys
  rw [k1, k2, hf.prov, hf.abs]

theorem WF.keys_reset {m : Module} (h : m.WF) :
    m.reset.1.extraKeys = m.extraKeys ∧ m.reset.1.stateKeys = m.stateKeys ∧ m.reset.1.energyPos = m.energyPos := by
  cases h with
  | battery b h => obtain ⟨m', obs, he, h', -⟩ := h.reset; rw [he]; simp [extraKeys, stateKeys, energyPos, h'.kind, h.kind]
  | genset g h => obtain ⟨m', obs, he, h', -⟩ := h.reset; rw [he]; simp [extraKeys, stateKeys, energyPos, h'.kind, h.kind]
  | grid p t h w =>
    obtain ⟨t', hs, h'⟩ := h.ops [.reset]
    have hk : m.reset.1.kind = .grid p t' := h'.kind
    simp [extraKeys, stateKeys, energyPos, hk, h.kind, TS.currentKeys, TS.forecastKeys, hs.comps, hs.horizon]
  | load t h w =>
    obtain ⟨t', hs, h'⟩ := h.ops [.reset]
    have hk : m.reset.1.kind = .load t' := h'.kind
    simp [extraKeys, stateKeys, energyPos, hk, h.kind, TS.currentKeys, TS.forecastKeys, hs.comps, hs.horizon]
  | renewable t h w =>
    obtain ⟨t', hs, h'⟩ := h.ops [.reset]
    have hk : m.reset.1.kind = .renewable t' := h'.kind
    simp [extraKeys, stateKeys, energyPos, hk, h.kind, TS.currentKeys, TS.forecastKeys, hs.comps, hs.horizon]
  | balancing u h =>
    have hk : m.reset.1.kind = .balancing u := (h.op .reset).kind
    simp [extraKeys, stateKeys, energyPos, hk, h.kind]

/-- The keys of the log depend only on the class and on the names and horizon of a series. -/
theorem logKeys_reset {m : Module} (h : m.WF) : m.reset.1.logKeys = m.logKeys := by
  have hf := frame_reset m
  obtain ⟨k1, k2, -⟩ := h.keys_reset
  unfold logKeys
  rw [k1, k2, hf.prov, hf.abs]

theorem TSWF.failed {m : Module} {t : TS} (h : m.TSWF t) (w : t.Works) {a : Act} {n : Bool} {m' : Module} {e : Err}
    (he : m.step a n = (m', .error e)) : m' = m := by
  rw [h.step_eq] at he
  cases hq : m.request a n with
  | error e' => rw [hq] at he; simp only [Prod.mk.injEq] at he; exact he.1.symm
  | ok q =>
    rw [hq] at he
    simp only at he
    rcases h.stepEnergy q with ⟨e', h1⟩ | ⟨u, pre, row, -, -, -, ⟨f, -, -, obs, h1⟩ | ⟨e', hf, -⟩⟩
    · rw [h1] at he; simp only [Prod.mk.injEq] at he; exact he.1.symm
    · rw [h1] at he; simp at he
    · obtain ⟨f, h2⟩ := h.valid.forecast_ok w (m.currentStep + 1)
      rw [h2] at hf; simp at hf

/-- A step that raises leaves the whole module as it was, except that a genset may have changed status. -/
theorem WF.failed {m : Module} (h : m.WF) {a : Act} {n : Bool} {m' : Module} {e : Err}
    (he : m.step a n = (m', .error e)) :
    m' = m ∨ ∃ g g', m.kind = .genset g ∧ m' = { m with kind := .genset g' } := by
  cases h with
  | battery b h =>
    rcases h.step_cases a n with ⟨e', h1⟩ | ⟨d, x, m₁, o, h1, -⟩
    · rw [h1] at he; simp only [Prod.mk.injEq] at he; exact .inl he.1.symm
    · rw [h1] at he; simp at he
  | genset g h =>
    rw [h.step_eq] at he
    cases a with
    | num q => simp only [Prod.mk.injEq] at he; exact .inl he.1.symm
    | arr l =>
      simp only at he
      cases hl : l[0]? with
      | none => rw [hl] at he; simp only [Prod.mk.injEq] at he; exact .inl he.1.symm
      | some goal =>
        rw [hl] at he
        simp only at he
        split at he
        · simp only [Prod.mk.injEq] at he; exact .inl he.1.symm
        · rename_i hg
          obtain ⟨h0, h1⟩ := not_not.mp hg
          obtain ⟨p, hp⟩ := h.phase
          obtain ⟨g', e', hp', hs, -⟩ := hp.update h0 h1
          rw [e'] at he
          have wf := h.withStatus ⟨_, hp'⟩ hs
          simp only at he
          right
          cases hq : m.request (.arr l) n with
          | error e =>
            rw [hq] at he; simp only [Prod.mk.injEq] at he
            exact ⟨g, g', h.kind, he.1.symm⟩
          | ok q =>
            rw [hq] at he
            have := wf.stepEnergy q
            simp only at he
            split at this
            · rw [this] at he; simp only [Prod.mk.injEq] at he; exact ⟨g, g', h.kind, he.1.symm⟩
            · split at this
              · rw [this] at he; simp only [Prod.mk.injEq] at he; exact ⟨g, g', h.kind, he.1.symm⟩
              · obtain ⟨m₁, o, e₁, hg⟩ := this
                rw [e₁] at he; simp at he
  | grid p t h w => exact .inl (h.ts.failed w he)
  | load t h w => exact .inl (h.ts.failed w he)
  | renewable t h w => exact .inl (h.ts.failed w he)
  | balancing u h =>
    rw [h.step_eq] at he
    cases hq : m.request a n with
    | error e' => rw [hq] at he; simp only [Prod.mk.injEq] at he; exact .inl he.1.symm
    | ok q =>
      rw [hq] at he
      obtain ⟨row, -, h1⟩ := h.stepEnergy q
      simp only at he
      rw [h1] at he; simp at he

/-- The state that a step logs. -/
def logged (m m' : Module) : List (Key × ℚ) :=
  match m.kind with
  | .genset _ => match m'.stateDict with
    | .ok d => d
    | .error _ => []
  | _ => match m.stateDict with
    | .ok d => d
    | .error _ => []

/-- The row that a step logs. -/
def rowOf (m : Module) (o : StepOut) (m' : Module) : List (Key × ℚ) :=
  (.str "reward", o.reward) :: (o.info.extra ++ m.provName.toList.map (fun k => (k, o.info.provided.getD 0)) ++
      m.absName.toList.map (fun k => (k, o.info.absorbed.getD 0)) ++ logged m m')

theorem WF.logs {m : Module} (h : m.WF) {a : Act} {n : Bool} {m' : Module} {o : StepOut}
    (he : m.step a n = (m', .ok o)) :
    m'.logger = m.logger.log (rowOf m o m') ∧ (rowOf m o m').map Prod.fst = m.logKeys := by
  have hnd := h.logKeys_nodup
  have hw' := h.step a n
  have hkeys' := logKeys_step h a n
  have hf := frame_step m a n
  rw [he] at hw' hkeys' hf
  simp only at hw' hkeys' hf
  obtain ⟨m₀, q, -, hs, hm⟩ := step_split he
  obtain ⟨pre, row, m₁, u, hp, hu, hl, hst, -, h1, h2, h3⟩ := stepEnergy_inv hs
  obtain ⟨e₀, d₀, hup⟩ := unnormalizedStep_update hu
  have hex := update_extra hup
  obtain ⟨-, -, -, pre', row', hp', hl', hlog⟩ := stepEnergy_ok hs
  rw [hp] at hp'
  injection hp' with hp'
  subst hp'
  have hkm : m₀.extraKeys = m.extraKeys ∧ m₀.provName = m.provName ∧ m₀.absName = m.absName ∧ m₀.logger = m.logger ∧
      pre = logged m m' ∧ pre.map Prod.fst = m.stateKeys := by
    rcases hm with ⟨hng, rfl⟩ | ⟨g, g', goal, rest, hk, -, g0, g1, hg, rfl⟩
    · refine ⟨rfl, rfl, rfl, rfl, ?_, h.keys hp⟩
      unfold logged
      split
      · rename_i g hk; exact absurd hk (hng g)
      · rw [hp]
    · have hkind' : m'.stateDict = .ok g'.stateDict := by
        cases h with
        | genset g₀ h =>
          obtain ⟨p, hph⟩ := h.phase
          have hgg : g₀ = g := by have := h.kind; rw [hk] at this; injection this with this; exact this.symm
          subst hgg
          obtain ⟨g'', e'', hp'', hs'', -⟩ := hph.update (q := goal) g0 g1
          rw [hg] at e''
          injection e'' with e''
          subst e''
          have wf := h.withStatus ⟨_, hp''⟩ hs''
          have := wf.stepEnergy q
          split at this
          · rw [hs] at this; simp at this
          · split at this
            · rw [hs] at this; simp at this
            · obtain ⟨m₂, o₂, e₂, hg₂⟩ := this
              rw [hs] at e₂
              simp only [Prod.mk.injEq] at e₂
              obtain ⟨rfl, -⟩ := e₂
              simp [stateDict, hg₂.wf.kind]
        | battery b h => rw [h.kind] at hk; simp at hk
        | grid p t h w => rw [h.kind] at hk; simp at hk
        | load t h w => rw [h.kind] at hk; simp at hk
        | renewable t h w => rw [h.kind] at hk; simp at hk
        | balancing u h => rw [h.kind] at hk; simp at hk
      have hpre : pre = g'.stateDict := by simpa [stateDict] using hp.symm
      refine ⟨by simp [extraKeys, hk], rfl, rfl, rfl, ?_, ?_⟩
      · unfold logged
        rw [hk, hkind', hpre]
      · rw [hpre]; simp [stateKeys, hk, Genset.stateDict]
  obtain ⟨k1, k2, k3, k4, k5, k6⟩ := hkm
  have hrow := logRow_eq hl' (by
    simp only
    rw [h3, hex, k1, k2, k3, k6]
    exact hnd)
  have hrow' : row' = rowOf m o m' := by
    rw [hrow, k2, k3, k5]; rfl
  refine ⟨by rw [hlog, k4, hrow'], ?_⟩
  unfold rowOf logKeys
  rw [← k5]
  simp only [List.map_cons, List.map_append, List.map_map, Function.comp_def, List.map_id', k6]
  rw [h3, hex, k1]

end Module

theorem Module.WF.resets {m : Module} (h : m.WF) : ∃ m' obs, m.reset = (m', .ok obs) := by
  have ts : ∀ {t : TS}, m.TSWF t → t.Works → ∃ m' obs, m.reset = (m', .ok obs) := by
    intro t h w
    rcases h.reset with ⟨f, obs, -, -, hr⟩ | ⟨e, hf, -⟩
    · exact ⟨_, _, hr⟩
    · obtain ⟨f, h2⟩ := h.valid.forecast_ok w m.initialStep
      rw [h2] at hf; simp at hf
  cases h with
  | battery b h => obtain ⟨m', obs, he, -⟩ := h.reset; exact ⟨m', obs, he⟩
  | genset g h => obtain ⟨m', obs, he, -⟩ := h.reset; exact ⟨m', obs, he⟩
  | grid p t h w => exact ts h.ts w
  | load t h w => exact ts h.ts w
  | renewable t h w => exact ts h.ts w
  | balancing u h => exact ⟨_, _, h.reset⟩

theorem Module.WF.reset_log {m : Module} (h : m.WF) : m.reset.1.logger = {} := by
  obtain ⟨m', obs, hr⟩ := h.resets
  rw [hr]
  exact (Module.reset_ok hr).2.2.2

/-- Each entry of a transcript is a step from a module that the history reaches. -/
theorem transcript_inv {P : Module → Prop} (hP : ∀ m a n, P m → P (m.step a n).1) {m : Module} (h : P m)
    {ops : List MOp} (ho : StepsOnly ops) :
    ∀ t ∈ transcript m ops, P t.before ∧ ∃ a n, t.before.step a n = (t.after, .ok t.out) := by
  induction ops generalizing m with
  | nil => simp [transcript]
  | cons op ops ih =>
    obtain ⟨a, n, rfl⟩ := ho op (by simp)
    have ho' : StepsOnly ops := fun op hop => ho op (by simp [hop])
    have h' := hP m a n h
    cases hs : m.step a n with
    | mk m' r =>
      rw [hs] at h'
      cases r with
      | error e => simpa only [transcript, hs] using ih h' ho'
      | ok o =>
        simp only [transcript, hs, List.mem_cons]
        rintro t (rfl | ht)
        · exact ⟨h, a, n, hs⟩
        · exact ih h' ho' t ht

theorem Module.genset_iff (m : Module) : (∃ g, m.kind = .genset g) ↔ m.energyPos = 1 := by
  unfold Module.energyPos
  cases m.kind <;> simp

/-- What is known about the modules of a transcript. -/
theorem Module.WF.taken {m : Module} (h : m.WF) {ops : List MOp} (ho : StepsOnly ops) :
    ∀ t ∈ Pymgrid.transcript m ops, t.before.WF ∧ t.before.stateKeys = m.stateKeys ∧
      t.before.logKeys = m.logKeys ∧ t.before.provName = m.provName ∧ t.before.absName = m.absName ∧
      t.before.energyPos = m.energyPos ∧ ∃ a n, t.before.step a n = (t.after, .ok t.out) := by
  intro t ht
  obtain ⟨⟨h1, h2, h3, h4, h5, h6⟩, h7⟩ := transcript_inv
    (P := fun m' => m'.WF ∧ m'.stateKeys = m.stateKeys ∧ m'.logKeys = m.logKeys ∧ m'.provName = m.provName ∧
      m'.absName = m.absName ∧ m'.energyPos = m.energyPos)
    (by
      rintro m' a n ⟨k1, k2, k3, k4, k5, k6⟩
      have hf := Module.frame_step m' a n
      obtain ⟨j1, j2, j3⟩ := k1.keys_step a n
      exact ⟨k1.step a n, j2.trans k2, (Module.logKeys_step k1 a n).trans k3, hf.prov.trans k4, hf.abs.trans k5,
        j3.trans k6⟩)
    ⟨h, rfl, rfl, rfl, rfl, rfl⟩ ho t ht
  exact ⟨h1, h2, h3, h4, h5, h6, h7⟩

/-- The log after a history of steps consists of one row per successful step. -/
theorem Module.WF.holds {m : Module} (h : m.WF) {rows : List (List (Key × ℚ))}
    (hl : m.logger.Holds m.logKeys rows) (ops : List MOp) (ho : StepsOnly ops) :
    (runOps m ops).logger.Holds m.logKeys (rows ++ (transcript m ops).map fun t => Module.rowOf t.before t.out t.after)
      ∧ (runOps m ops).WF ∧ (runOps m ops).logKeys = m.logKeys := by
  induction ops generalizing m rows with
  | nil => simpa [runOps, transcript] using ⟨hl, h⟩
  | cons op ops ih =>
    obtain ⟨a, n, rfl⟩ := ho op (by simp)
    have ho' : StepsOnly ops := fun op hop => ho op (by simp [hop])
    have hw := h.step a n
    have hk := Module.logKeys_step h a n
    have hrun : runOps m (.step a n :: ops) = runOps (m.step a n).1 ops := rfl
    rw [hrun]
    cases hs : m.step a n with
    | mk m' r =>
      rw [hs] at hw hk
      simp only at hw hk ⊢
      cases r with
      | error e =>
        have hlog : m'.logger = m.logger := by
          rcases h.failed hs with rfl | ⟨g, g', -, rfl⟩ <;> rfl
        have := ih hw (rows := rows) (by rw [hk, hlog]; exact hl) ho'
        rw [hk] at this
        simpa only [transcript, hs] using this
      | ok o =>
        obtain ⟨h1, h2⟩ := h.logs hs
        have := ih hw (rows := rows ++ [Module.rowOf m o m']) (by
          rw [hk, h1]; exact hl.log h2 h.logKeys_nodup) ho'
        rw [hk] at this
        simpa only [transcript, hs, List.map_cons, List.append_assoc, List.singleton_append] using this

end Pymgrid
