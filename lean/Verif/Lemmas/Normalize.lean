import Verif.Spec.Normalize
import Verif.Lemmas.Space
import Verif.Lemmas.Dict

set_option autoImplicit false

/-! Whole-microgrid normalisation, entry by entry. -/

namespace Pymgrid

namespace Microgrid

theorem mapEntries_ok {f : Module → Act → Except Err Act} {h : Heap} {is : List Nat} {vs : List Act}
    (hf : ∀ (j : Nat) v i, vs[j]? = some v → is[j]? = some i → ∃ w, f (h i) v = .ok w)
    (hl : vs.length ≤ is.length) :
    ∃ ws, mapEntries f h is vs = .ok ws ∧ ws.length = vs.length ∧
      ∀ (j : Nat) v i w, vs[j]? = some v → is[j]? = some i → ws[j]? = some w → f (h i) v = .ok w := by
  induction is generalizing vs with
  | nil =>
    have : vs = [] := by cases vs with
      | nil => rfl
      | cons _ _ => simp at hl
    subst this
    exact ⟨[], rfl, rfl, by simp⟩
  | cons i is ih =>
    cases vs with
    | nil => exact ⟨[], rfl, rfl, by simp⟩
    | cons v vs =>
      obtain ⟨w, hw⟩ := hf 0 v i rfl rfl
      obtain ⟨ws, h1, h2, h3⟩ := ih (vs := vs) (fun j v' i' hv hi => hf (j + 1) v' i' (by simpa using hv) (by simpa using hi))
        (by simpa using hl)
      refine ⟨w :: ws, by simp [mapEntries, hw, h1], by simp [h2], ?_⟩
      intro j v' i' w' hv hi hw'
      cases j with
      | zero =>
        simp only [List.getElem?_cons_zero, Option.some.injEq] at hv hi hw'
        subst hv hi hw'
        exact hw
      | succ j => exact h3 j v' i' w' (by simpa using hv) (by simpa using hi) (by simpa using hw')

theorem mapData_ok {f : Module → Act → Except Err Act} {h : Heap} {data : Data} {mods : ModDict}
    (hf : ∀ n is vs, (n, is) ∈ mods → dictGet? data n = some vs → ∃ ws, mapEntries f h is vs = .ok ws) :
    ∃ r, mapData f h data mods = .ok r ∧
      (∀ n, dictGet? mods n = none → dictGet? r n = none) ∧
      (∀ n, dictGet? data n = none → dictGet? r n = none) ∧
      ∀ n is vs, dictGet? mods n = some is → dictGet? data n = some vs →
        ∃ ws, mapEntries f h is vs = .ok ws ∧ dictGet? r n = some ws := by
  induction mods with
  | nil => exact ⟨[], rfl, by simp [dictGet?], by simp [dictGet?], by simp [dictGet?]⟩
  | cons x rest ih =>
    obtain ⟨n₀, is₀⟩ := x
    obtain ⟨r, h1, h2, h2', h3⟩ := ih (fun n is vs hm => hf n is vs (List.mem_cons_of_mem _ hm))
    cases hd : dictGet? data n₀ with
    | none =>
      refine ⟨r, by simp [mapData, hd, h1], ?_, h2', ?_⟩
      · intro n hn
        by_cases e : n₀ = n
        · simp [dictGet?, e] at hn
        · simp only [dictGet?, e, if_false] at hn
          exact h2 n hn
      · intro n is vs hn hv
        by_cases e : n₀ = n
        · subst e; rw [hd] at hv; simp at hv
        · simp only [dictGet?, e, if_false] at hn
          exact h3 n is vs hn hv
    | some vs₀ =>
      obtain ⟨ws₀, hw₀⟩ := hf n₀ is₀ vs₀ (by simp) hd
      refine ⟨(n₀, ws₀) :: r, by simp [mapData, hd, hw₀, h1], ?_, ?_, ?_⟩
      · intro n hn
        by_cases e : n₀ = n
        · simp [dictGet?, e] at hn
        · simp only [dictGet?, e, if_false] at hn ⊢
          exact h2 n hn
      · intro n hn
        by_cases e : n₀ = n
        · subst e; rw [hd] at hn; simp at hn
        · simp only [dictGet?, e, if_false]
          exact h2' n hn
      · intro n is vs hn hv
        by_cases e : n₀ = n
        · subst e
          simp only [dictGet?, if_true, Option.some.injEq] at hn ⊢
          rw [hd] at hv
          injection hv with hv
          subst hn hv
          exact ⟨ws₀, hw₀, rfl⟩
        · simp only [dictGet?, e, if_false] at hn ⊢
          exact h3 n is vs hn hv

/-- The entry function of `to_normalized` or `from_normalized`, with the elementwise formula. -/
def entryFn (k : ℚ → ℚ → ℚ → ℚ) (act : Bool) (m : Module) (v : Act) : Except Err Act :=
  match m.spaceOf act with
  | .error e => .error e
  | .ok s => s.apply k v

theorem mapData_covered (k : ℚ → ℚ → ℚ → ℚ) {act : Bool} {h : Heap} {mods : ModDict} {d : Data}
    (hn : (mods.map Prod.fst).Nodup) (hc : d.Covered act h mods) :
    ∃ d', mapData (entryFn k act) h d mods = .ok d' ∧
      d.Entrywise (fun m v w => ∃ s, m.spaceOf act = .ok s ∧ s.apply k v = .ok w) h mods d' := by
  have hent : ∀ n is vs, dictGet? mods n = some is → dictGet? d n = some vs →
      ∃ ws, mapEntries (entryFn k act) h is vs = .ok ws ∧ ws.length = vs.length ∧
        ∀ (j : Nat) v i w, vs[j]? = some v → is[j]? = some i → ws[j]? = some w → entryFn k act (h i) v = .ok w := by
    intro n is vs hm hv
    obtain ⟨is', hm', hl, hfit⟩ := hc n vs hv
    rw [hm] at hm'
    injection hm' with hm'
    subst hm'
    refine mapEntries_ok ?_ hl
    intro j v i hvj hij
    obtain ⟨s, hs, hf⟩ := hfit j v i hvj hij
    exact ⟨_, by simp only [entryFn, hs]; exact Space.apply_ok k s v hf.len⟩
  obtain ⟨d', h1, h2, h2', h3⟩ := mapData_ok (f := entryFn k act) (h := h) (data := d) (mods := mods)
    (fun n is vs hm hv => by
      obtain ⟨ws, hw, -⟩ := hent n is vs (dictGet?_of_mem hn hm) hv
      exact ⟨ws, hw⟩)
  refine ⟨d', h1, ?_, ?_⟩
  · intro n
    cases hv : dictGet? d n with
    | none => rw [h2' n hv]
    | some vs =>
      obtain ⟨is, hm, -⟩ := hc n vs hv
      obtain ⟨ws, hw, hl, -⟩ := hent n is vs hm hv
      obtain ⟨ws', hw', hr⟩ := h3 n is vs hm hv
      rw [hw] at hw'
      injection hw' with hw'
      subst hw'
      simp [hr, hl]
  · intro n vs ws is j v w i hv hr hm hvj hwj hij
    obtain ⟨ws', hw, hl, he⟩ := hent n is vs hm hv
    obtain ⟨ws'', hw', hr'⟩ := h3 n is vs hm hv
    rw [hw] at hw'
    injection hw' with hw'
    subst hw'
    rw [hr] at hr'
    injection hr' with hr'
    subst hr'
    have := he j v i w hvj hij hwj
    unfold entryFn at this
    split at this
    · simp at this
    · rename_i s hs
      exact ⟨s, hs, this⟩

theorem toNormalized_entry (g : Microgrid) (act : Bool) (d : Data) :
    g.toNormalized act d = mapData (entryFn norm1 act) g.heap d g.cont.fullDict := rfl

theorem fromNormalized_entry (g : Microgrid) (act : Bool) (d : Data) :
    g.fromNormalized act d = mapData (entryFn denorm1 act) g.heap d g.cont.fullDict := rfl

theorem fullDict_nodup (c : Container) : (c.fullDict.map Prod.fst).Nodup := by
  unfold Container.fullDict Container.toDict
  suffices h : ∀ (ds : List ModDict) (d : ModDict), (d.map Prod.fst).Nodup →
      ((ds.foldl dictUpdate d).map Prod.fst).Nodup from h _ _ List.nodup_nil
  intro ds
  induction ds with
  | nil => exact fun _ h => h
  | cons e ds ih => exact fun d h => ih _ (dictUpdate_nodup h)

end Microgrid

/-- Entrywise images of fitting values fit again. -/
theorem Data.Covered.image (k : ℚ → ℚ → ℚ → ℚ) {act : Bool} {h : Heap} {mods : ModDict} {d d' : Data}
    (hc : d.Covered act h mods)
    (he : d.Entrywise (fun m v w => ∃ s, m.spaceOf act = .ok s ∧ s.apply k v = .ok w) h mods d') :
    d'.Covered act h mods := by
  intro n ws hw
  have hl := he.1 n
  rw [hw] at hl
  cases hv : dictGet? d n with
  | none => rw [hv] at hl; simp at hl
  | some vs =>
    rw [hv] at hl
    simp only [Option.map_some, Option.some.injEq] at hl
    obtain ⟨is, hm, hlen, hfit⟩ := hc n vs hv
    refine ⟨is, hm, hl ▸ hlen, ?_⟩
    intro j w i hwj hij
    have hj : j < vs.length := by
      rw [← hl]; exact (List.getElem?_eq_some_iff.mp hwj).1
    have hvj : vs[j]? = some vs[j] := List.getElem?_eq_getElem hj
    obtain ⟨s, hs, hf⟩ := hfit j _ i hvj hij
    obtain ⟨s', hs', ha⟩ := he.2 n vs ws is j _ w i hv hw hm hvj hwj hij
    rw [hs] at hs'
    injection hs' with hs'
    subst hs'
    rw [Space.apply_ok k s _ hf.len] at ha
    injection ha with ha
    refine ⟨s, hs, hf.box, ?_⟩
    rw [← ha, Space.item_vals, mapBounds_length _ _ _ _ hf.len hf.box]
    exact hf.len

/-- Applying mutually inverse formulas entry by entry gives back the numbers. -/
theorem Data.Entrywise.round {k k' : ℚ → ℚ → ℚ → ℚ} (hk : ∀ lo hi v, k' lo hi (k lo hi v) = v)
    {act : Bool} {h : Heap} {mods : ModDict} {d d' d'' : Data} (hc : d.Covered act h mods)
    (he : d.Entrywise (fun m v w => ∃ s, m.spaceOf act = .ok s ∧ s.apply k v = .ok w) h mods d')
    (he' : d'.Entrywise (fun m v w => ∃ s, m.spaceOf act = .ok s ∧ s.apply k' v = .ok w) h mods d'') :
    d.Same d'' := by
  intro n
  have hl := he.1 n
  have hl' := he'.1 n
  cases hv : dictGet? d n with
  | none =>
    rw [hv] at hl
    simp only [Option.map_none, Option.map_eq_none_iff] at hl
    rw [hl] at hl'
    simp only [Option.map_none, Option.map_eq_none_iff] at hl'
    rw [hl']
  | some vs =>
    rw [hv] at hl
    cases hw : dictGet? d' n with
    | none => rw [hw] at hl; simp at hl
    | some ws =>
      rw [hw] at hl hl'
      cases hx : dictGet? d'' n with
      | none => rw [hx] at hl'; simp at hl'
      | some xs =>
        rw [hx] at hl'
        simp only [Option.map_some, Option.some.injEq] at hl hl' ⊢
        obtain ⟨is, hm, hlen, hfit⟩ := hc n vs hv
        apply List.ext_getElem
        · simp [hl', hl]
        · intro j h1 h2
          simp only [List.length_map] at h1 h2
          simp only [List.getElem_map]
          have hj' : j < ws.length := by omega
          have hj'' : j < is.length := by omega
          have hvj : vs[j]? = some vs[j] := List.getElem?_eq_getElem h2
          have hwj : ws[j]? = some ws[j] := List.getElem?_eq_getElem hj'
          have hxj : xs[j]? = some xs[j] := List.getElem?_eq_getElem h1
          have hij : is[j]? = some is[j] := List.getElem?_eq_getElem hj''
          obtain ⟨s, hs, hf⟩ := hfit j _ _ hvj hij
          obtain ⟨s1, hs1, ha⟩ := he.2 n vs ws is j _ _ _ hv hw hm hvj hwj hij
          obtain ⟨s2, hs2, ha'⟩ := he'.2 n ws xs is j _ _ _ hw hx hm hwj hxj hij
          rw [hs] at hs1 hs2
          injection hs1 with hs1
          injection hs2 with hs2
          subst hs1 hs2
          rw [Space.apply_ok k s _ hf.len] at ha
          injection ha with ha
          have hlen2 : (ws[j]).vals.length = s.low.length := by
            rw [← ha, Space.item_vals, mapBounds_length _ _ _ _ hf.len hf.box]; exact hf.len
          rw [Space.apply_ok k' s _ hlen2] at ha'
          injection ha' with ha'
          rw [← ha', Space.item_vals, ← ha, Space.item_vals, mapBounds_comp k' k hk _ _ _ hf.len hf.box]

/-! ### `MicrogridSpace` -/

theorem broadcast_vals (op : ℚ → ℚ → ℚ) (x : Act) (s : List ℚ) (h : x.vals.length = s.length) :
    broadcast op x s = .ok (.arr (x.vals.zipWith op s)) := by
  cases x with
  | num q =>
    simp only [Act.vals, List.length_singleton] at h
    obtain ⟨y, rfl⟩ := List.length_eq_one_iff.mp h.symm
    rfl
  | arr l =>
    simp only [Act.vals] at h
    simp [broadcast, h, Act.vals]

theorem listOp_ok (op : ℚ → ℚ → ℚ) {xs : List Act} {ss : List (List ℚ)}
    (hl : xs.length ≤ ss.length)
    (h : ∀ (j : Nat) x s, xs[j]? = some x → ss[j]? = some s → x.vals.length = s.length) :
    ∃ ys, listOp op xs ss = .ok ys ∧ ys.length = xs.length ∧
      ∀ (j : Nat) x s y, xs[j]? = some x → ss[j]? = some s → ys[j]? = some y → y.vals = x.vals.zipWith op s := by
  induction xs generalizing ss with
  | nil => exact ⟨[], rfl, rfl, by simp⟩
  | cons x xs ih =>
    cases ss with
    | nil => simp at hl
    | cons s ss =>
      obtain ⟨ys, h1, h2, h3⟩ := ih (ss := ss) (by simpa using hl)
        (fun j x' s' hx hs => h (j + 1) x' s' (by simpa using hx) (by simpa using hs))
      refine ⟨.arr (x.vals.zipWith op s) :: ys, ?_, by simp [h2], ?_⟩
      · simp [listOp, broadcast_vals op x s (h 0 x s rfl rfl), h1]
      · intro j x' s' y hx hs hy
        cases j with
        | zero =>
          simp only [List.getElem?_cons_zero, Option.some.injEq] at hx hs hy
          subst hx hs hy
          rfl
        | succ j => exact h3 j x' s' y (by simpa using hx) (by simpa using hs) (by simpa using hy)

/-- What `dict_op` gives for fitting operands. -/
theorem dictOp_ok (op : ℚ → ℚ → ℚ) {d : Data} {t : List (String × List (List ℚ))}
    (hn : (d.map Prod.fst).Nodup)
    (h : ∀ n xs, dictGet? d n = some xs → ∃ ss, dictGet? t n = some ss ∧ xs.length ≤ ss.length ∧
      ∀ (j : Nat) x s, xs[j]? = some x → ss[j]? = some s → x.vals.length = s.length) :
    ∃ d', dictOp op d t = .ok d' ∧ d'.map Prod.fst = d.map Prod.fst ∧
      ∀ n xs ss, dictGet? d n = some xs → dictGet? t n = some ss → ∃ ys, dictGet? d' n = some ys ∧
        ys.length = xs.length ∧
        ∀ (j : Nat) x s y, xs[j]? = some x → ss[j]? = some s → ys[j]? = some y → y.vals = x.vals.zipWith op s := by
  induction d with
  | nil => exact ⟨[], rfl, rfl, by simp [dictGet?]⟩
  | cons e d ih =>
    obtain ⟨n₀, xs₀⟩ := e
    simp only [List.map_cons, List.nodup_cons] at hn
    have hne : ∀ n xs, dictGet? d n = some xs → n₀ ≠ n := by
      rintro n xs hx rfl
      exact hn.1 (List.mem_map.mpr ⟨_, dictGet?_mem hx, rfl⟩)
    obtain ⟨d', h1, h2, h3⟩ := ih hn.2 (fun n xs hx => h n xs (by simp [dictGet?, hne n xs hx, hx]))
    obtain ⟨ss₀, ht₀, hl₀, hf₀⟩ := h n₀ xs₀ (by simp [dictGet?])
    obtain ⟨ys₀, hy₀, hyl, hye⟩ := listOp_ok op hl₀ hf₀
    refine ⟨(n₀, ys₀) :: d', by simp [dictOp, ht₀, hy₀, h1], by simp [h2], ?_⟩
    intro n xs ss hx hs
    by_cases e : n₀ = n
    · subst e
      simp only [dictGet?, if_true, Option.some.injEq] at hx ⊢
      subst hx
      rw [ht₀] at hs
      injection hs with hs
      subst hs
      exact ⟨ys₀, rfl, hyl, hye⟩
    · simp only [dictGet?, e, if_false] at hx ⊢
      exact h3 n xs ss hx hs

theorem zip_norm : ∀ (lo hi v : List ℚ),
    ((v.zipWith (· - ·) lo).zipWith (· / ·) (lo.zipWith spread1 hi)) = mapBounds norm1 lo hi v
  | [], _, v => by cases v <;> simp [mapBounds]
  | _ :: _, [], v => by cases v <;> simp [mapBounds]
  | _ :: _, _ :: _, [] => by simp [mapBounds]
  | lo :: los, hi :: his, v :: vs => by
    have := zip_norm los his vs
    simp only [List.zipWith_cons_cons, mapBounds, norm1]
    rw [this]

theorem zip_denorm : ∀ (lo hi v : List ℚ),
    ((v.zipWith (· * ·) (lo.zipWith spread1 hi)).zipWith (· + ·) lo) = mapBounds denorm1 lo hi v
  | [], _, v => by cases v <;> simp [mapBounds]
  | _ :: _, [], v => by cases v <;> simp [mapBounds]
  | _ :: _, _ :: _, [] => by simp [mapBounds]
  | lo :: los, hi :: his, v :: vs => by
    have := zip_denorm los his vs
    simp only [List.zipWith_cons_cons, mapBounds, denorm1]
    rw [this, show v * spread1 lo hi + lo = lo + spread1 lo hi * v by ring]

theorem dictGet?_mapVal {α β γ : Type} [DecidableEq α] (f : β → γ) (d : List (α × β)) (k : α) :
    dictGet? (d.map (fun e => (e.1, f e.2))) k = (dictGet? d k).map f := by
  induction d with
  | nil => rfl
  | cons e d ih =>
    obtain ⟨k', v⟩ := e
    by_cases h : k' = k <;> simp [dictGet?, h, ih]

theorem dictGet?_filter {β : Type} (p : β → Bool) {d : List (String × β)} {k : String} {v : β}
    (h : dictGet? d k = some v) (hp : p v = true) : dictGet? (d.filter (fun e => p e.2)) k = some v := by
  induction d with
  | nil => simp [dictGet?] at h
  | cons e d ih =>
    obtain ⟨k', v'⟩ := e
    by_cases hk : k' = k
    · simp only [dictGet?, hk, if_true, Option.some.injEq] at h
      subst h
      simp [hp, dictGet?, hk]
    · simp only [dictGet?, hk, if_false] at h
      by_cases hq : p v' = true
      · simp [hq, dictGet?, hk, ih h]
      · simp [hq, ih h]

/-- The two `dict_op`s of `normalize` and `denormalize` in one. -/
theorem dictOp_two (op op' : ℚ → ℚ → ℚ) {d : Data} {t t' : List (String × List (List ℚ))}
    (hn : (d.map Prod.fst).Nodup)
    (h : ∀ n xs, dictGet? d n = some xs → ∃ ss ss', dictGet? t n = some ss ∧ dictGet? t' n = some ss' ∧
      xs.length ≤ ss.length ∧ ss'.length = ss.length ∧
      ∀ (j : Nat) x s s', xs[j]? = some x → ss[j]? = some s → ss'[j]? = some s' →
        x.vals.length = s.length ∧ s'.length = s.length) :
    ∃ w, dictOp op d t = .ok w ∧ ∃ d', dictOp op' w t' = .ok d' ∧ d'.map Prod.fst = d.map Prod.fst ∧
      ∀ n xs ss ss', dictGet? d n = some xs → dictGet? t n = some ss → dictGet? t' n = some ss' →
        ∃ ys, dictGet? d' n = some ys ∧ ys.length = xs.length ∧
        ∀ (j : Nat) x s s' y, xs[j]? = some x → ss[j]? = some s → ss'[j]? = some s' → ys[j]? = some y →
          y.vals = (x.vals.zipWith op s).zipWith op' s' := by
  obtain ⟨w, h1, h2, h3⟩ := dictOp_ok op (d := d) (t := t) hn (fun n xs hx => by
    obtain ⟨ss, ss', ht, ht', hl, hl', hf⟩ := h n xs hx
    refine ⟨ss, ht, hl, ?_⟩
    intro j x s hxj hsj
    have hj : j < ss'.length := by rw [hl']; exact (List.getElem?_eq_some_iff.mp hsj).1
    exact (hf j x s _ hxj hsj (List.getElem?_eq_getElem hj)).1)
  have keys : ∀ n, dictGet? w n = none ↔ dictGet? d n = none := by
    intro n; rw [dictGet?_none, dictGet?_none, h2]
  obtain ⟨d', h4, h5, h6⟩ := dictOp_ok op' (d := w) (t := t') (by rw [h2]; exact hn) (fun n ys hy => by
    cases hx : dictGet? d n with
    | none => rw [(keys n).mpr hx] at hy; simp at hy
    | some xs =>
      obtain ⟨ss, ss', ht, ht', hl, hl', hf⟩ := h n xs hx
      obtain ⟨ys', hy', hyl, hye⟩ := h3 n xs ss hx ht
      rw [hy] at hy'
      injection hy' with hy'
      subst hy'
      refine ⟨ss', ht', by omega, ?_⟩
      intro j y s' hyj hsj
      have hj := (List.getElem?_eq_some_iff.mp hyj).1
      have hj1 : j < xs.length := by omega
      have hj2 : j < ss.length := by omega
      have e1 : xs[j]? = some xs[j] := List.getElem?_eq_getElem hj1
      have e2 : ss[j]? = some ss[j] := List.getElem?_eq_getElem hj2
      obtain ⟨f1, f2⟩ := hf j _ _ s' e1 e2 hsj
      rw [hye j _ _ y e1 e2 hyj, List.length_zipWith, f1, f2]
      exact min_self _)
  refine ⟨w, h1, d', h4, h5.trans h2, ?_⟩
  intro n xs ss ss' hx ht ht'
  obtain ⟨ss₁, ss₁', hs, hs', hl, hl', hf⟩ := h n xs hx
  rw [ht] at hs
  rw [ht'] at hs'
  injection hs with hs
  injection hs' with hs'
  subst hs hs'
  obtain ⟨ys, hy, hyl, hye⟩ := h3 n xs ss hx ht
  obtain ⟨zs, hz, hzl, hze⟩ := h6 n ys ss' hy ht'
  refine ⟨zs, hz, hzl.trans hyl, ?_⟩
  intro j x s s' z hxj hsj hsj' hzj
  have hj := (List.getElem?_eq_some_iff.mp hzj).1
  have hj1 : j < ys.length := by omega
  have e1 : ys[j]? = some ys[j] := List.getElem?_eq_getElem hj1
  rw [hze j _ s' z e1 hsj' hzj, hye j x s _ hxj hsj e1]

/-- `MicrogridSpace`, with either formula. -/
theorem gridSpace_ok {k : ℚ → ℚ → ℚ → ℚ} {d : List (String × List Space)} {v : Data}
    (hc : Spaces.Covered d v)
    {f : GridSpace → Data → Except Err Data}
    (hf : (f = GridSpace.normalize ∧ k = norm1) ∨ (f = GridSpace.denormalize ∧ k = denorm1)) :
    ∃ w, f (.ofSpaces d) v = .ok w ∧ Spaces.Entrywise (fun s x y => y.vals = mapBounds k s.low s.high x.vals) d v w := by
  obtain ⟨hn, hcount, hcov⟩ := hc
  have look : ∀ n ss, dictGet? d n = some ss → ss ≠ [] →
      dictGet? (GridSpace.ofSpaces d).low n = some (ss.map Space.low) ∧
        dictGet? (GridSpace.ofSpaces d).spread n = some (ss.map (fun s => s.low.zipWith spread1 s.high)) := by
    intro n ss hs hne
    have := dictGet?_filter (fun l : List Space => !l.isEmpty) hs (by simpa using hne)
    unfold GridSpace.ofSpaces
    simp only
    constructor <;> rw [dictGet?_mapVal, this] <;> rfl
  have hlen : ¬ v.length ≠ (GridSpace.ofSpaces d).low.length := by
    simp [GridSpace.ofSpaces, hcount]
  rcases hf with ⟨rfl, rfl⟩ | ⟨rfl, rfl⟩
  · obtain ⟨w, h1, d', h2, h3, h4⟩ := dictOp_two (· - ·) (· / ·) (d := v)
      (t := (GridSpace.ofSpaces d).low) (t' := (GridSpace.ofSpaces d).spread) hn (fun n xs hx => by
        obtain ⟨ss, hs, hne, hl, hfit⟩ := hcov n xs hx
        obtain ⟨l1, l2⟩ := look n ss hs hne
        refine ⟨_, _, l1, l2, by simpa using hl, by simp, ?_⟩
        intro j x s s' hxj hsj hsj'
        rw [List.getElem?_map, Option.map_eq_some_iff] at hsj hsj'
        obtain ⟨a, ha, rfl⟩ := hsj
        obtain ⟨b, hb, rfl⟩ := hsj'
        rw [ha] at hb
        injection hb with hb
        subst hb
        have := hfit j x a hxj ha
        exact ⟨this.len, by simp [this.box]⟩)
    refine ⟨d', by unfold GridSpace.normalize; rw [if_neg hlen, h1]; exact h2, h3, ?_⟩
    intro n xs ss hx hs
    obtain ⟨ss', hs', hne, -, -⟩ := hcov n xs hx
    rw [hs] at hs'
    injection hs' with hs'
    subst hs'
    obtain ⟨l1, l2⟩ := look n ss hs hne
    obtain ⟨ys, hy, hyl, hye⟩ := h4 n xs _ _ hx l1 l2
    refine ⟨ys, hy, hyl, ?_⟩
    intro j x s y hxj hsj hyj
    rw [hye j x s.low (s.low.zipWith spread1 s.high) y hxj (by simp [hsj]) (by simp [hsj]) hyj, zip_norm]
  · obtain ⟨w, h1, d', h2, h3, h4⟩ := dictOp_two (· * ·) (· + ·) (d := v)
      (t := (GridSpace.ofSpaces d).spread) (t' := (GridSpace.ofSpaces d).low) hn (fun n xs hx => by
        obtain ⟨ss, hs, hne, hl, hfit⟩ := hcov n xs hx
        obtain ⟨l1, l2⟩ := look n ss hs hne
        refine ⟨_, _, l2, l1, by simpa using hl, by simp, ?_⟩
        intro j x s s' hxj hsj hsj'
        rw [List.getElem?_map, Option.map_eq_some_iff] at hsj hsj'
        obtain ⟨a, ha, rfl⟩ := hsj
        obtain ⟨b, hb, rfl⟩ := hsj'
        rw [ha] at hb
        injection hb with hb
        subst hb
        have := hfit j x a hxj ha
        exact ⟨by simp [this.len, this.box], by simp [this.box]⟩)
    refine ⟨d', by unfold GridSpace.denormalize; rw [if_neg hlen, h1]; exact h2, h3, ?_⟩
    intro n xs ss hx hs
    obtain ⟨ss', hs', hne, -, -⟩ := hcov n xs hx
    rw [hs] at hs'
    injection hs' with hs'
    subst hs'
    obtain ⟨l1, l2⟩ := look n ss hs hne
    obtain ⟨ys, hy, hyl, hye⟩ := h4 n xs _ _ hx l2 l1
    refine ⟨ys, hy, hyl, ?_⟩
    intro j x s y hxj hsj hyj
    rw [hye j x (s.low.zipWith spread1 s.high) s.low y hxj (by simp [hsj]) (by simp [hsj]) hyj, zip_denorm]

theorem Spaces.Covered.image {k : ℚ → ℚ → ℚ → ℚ} {d : List (String × List Space)} {v w : Data}
    (hc : Spaces.Covered d v)
    (he : Spaces.Entrywise (fun s x y => y.vals = mapBounds k s.low s.high x.vals) d v w) : Spaces.Covered d w := by
  obtain ⟨hn, hcount, hcov⟩ := hc
  refine ⟨by rw [he.1]; exact hn, ?_, ?_⟩
  · have := congrArg List.length he.1
    simp only [List.length_map] at this
    rw [this]; exact hcount
  · intro n ys hy
    cases hx : dictGet? v n with
    | none =>
      have : dictGet? w n = none := by rw [dictGet?_none] at hx ⊢; rw [he.1]; exact hx
      rw [this] at hy; simp at hy
    | some xs =>
      obtain ⟨ss, hs, hne, hl, hfit⟩ := hcov n xs hx
      obtain ⟨ys', hy', hyl, hye⟩ := he.2 n xs ss hx hs
      rw [hy] at hy'
      injection hy' with hy'
      subst hy'
      refine ⟨ss, hs, hne, by omega, ?_⟩
      intro j y s hyj hsj
      have hj : j < xs.length := by rw [← hyl]; exact (List.getElem?_eq_some_iff.mp hyj).1
      have e : xs[j]? = some xs[j] := List.getElem?_eq_getElem hj
      have hf := hfit j _ s e hsj
      refine ⟨hf.box, ?_⟩
      rw [hye j _ s y e hsj hyj, mapBounds_length _ _ _ _ hf.len hf.box]
      exact hf.len

theorem Spaces.Entrywise.round {k k' : ℚ → ℚ → ℚ → ℚ} (hk : ∀ lo hi v, k' lo hi (k lo hi v) = v)
    {d : List (String × List Space)} {v w x : Data} (hc : Spaces.Covered d v)
    (he : Spaces.Entrywise (fun s x y => y.vals = mapBounds k s.low s.high x.vals) d v w)
    (he' : Spaces.Entrywise (fun s x y => y.vals = mapBounds k' s.low s.high x.vals) d w x) : v.Same x := by
  intro n
  cases hv : dictGet? v n with
  | none =>
    have : dictGet? x n = none := by rw [dictGet?_none] at hv ⊢; rw [he'.1, he.1]; exact hv
    rw [this]
  | some vs =>
    obtain ⟨ss, hs, hne, hl, hfit⟩ := hc.2.2 n vs hv
    obtain ⟨ws, hw, hwl, hwe⟩ := he.2 n vs ss hv hs
    obtain ⟨xs, hx, hxl, hxe⟩ := he'.2 n ws ss hw hs
    rw [hx]
    simp only [Option.map_some, Option.some.injEq]
    apply List.ext_getElem
    · simp; omega
    · intro j h1 h2
      simp only [List.length_map] at h1 h2
      simp only [List.getElem_map]
      have e1 : vs[j]? = some vs[j] := List.getElem?_eq_getElem h2
      have hj : j < ws.length := by omega
      have e2 : ws[j]? = some ws[j] := List.getElem?_eq_getElem hj
      have e3 : xs[j]? = some xs[j] := List.getElem?_eq_getElem h1
      have hj' : j < ss.length := by omega
      have e4 : ss[j]? = some ss[j] := List.getElem?_eq_getElem hj'
      have hf := hfit j _ _ e1 e4
      rw [hxe j _ _ _ e2 e4 e3, hwe j _ _ _ e1 e4 e2, mapBounds_comp k' k hk _ _ _ hf.len hf.box]

end Pymgrid
