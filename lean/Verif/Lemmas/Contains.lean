import Verif.Lemmas.Sample
import Verif.Lemmas.GetLog
import Verif.Spec.Contains

set_option autoImplicit false

/-!
# Lemmas about membership in action spaces
-/

namespace Pymgrid

open Module

/-- What the box of a controllable module is. -/
theorem Module.WF.box {m : Module} (h : m.WF) (sp : m.Spaced) (hf : m.ffc = .controllable) :
    m.actSpace = some ⟨m.kind.bounds.map Prod.fst, m.kind.bounds.map Prod.snd⟩ := by
  have ha := sp.act
  cases h with
  | battery b h => rw [ha, h.kind]; simp [Kind.actBox, Kind.bounds, Battery.minAct, Battery.maxAct, neg_div]
  | genset g h => rw [ha, h.kind]; simp [Kind.actBox, Kind.bounds, Genset.minAct, Genset.maxAct]
  | grid p t h w => rw [ha, h.kind]; simp [Kind.actBox, Kind.bounds]
  | load t h w => have := h.ffc; rw [hf] at this; simp at this
  | renewable t h w => have := h.ffc; rw [hf] at this; simp at this
  | balancing u h => have := h.ffc; rw [hf] at this; simp at this

theorem inBounds_iff (bs : List (ℚ × ℚ)) (l : List ℚ) (hl : l.length = bs.length) :
    inBounds (bs.map Prod.fst) (bs.map Prod.snd) l = true ↔ List.Forall₂ (fun x b => b.1 ≤ x ∧ x ≤ b.2) l bs := by
  induction bs generalizing l with
  | nil =>
    obtain rfl := List.length_eq_zero_iff.mp hl
    simp [inBounds]
  | cons b bs ih =>
    cases l with
    | nil => simp at hl
    | cons x l =>
      simp only [List.map_cons, inBounds, Bool.and_eq_true, decide_eq_true_eq, List.forall₂_cons]
      rw [ih l (by simpa using hl)]

theorem forall₂_unit {β : Type} (bs : List β) (l : List ℚ) :
    List.Forall₂ (fun x (_ : β) => 0 ≤ x ∧ x ≤ 1) l bs ↔ l.length = bs.length ∧ ∀ x ∈ l, 0 ≤ x ∧ x ≤ 1 := by
  induction bs generalizing l with
  | nil =>
    cases l with
    | nil => simp
    | cons x l => simp
  | cons b bs ih =>
    cases l with
    | nil => simp
    | cons x l =>
      simp only [List.forall₂_cons, ih, List.length_cons, List.mem_cons, forall_eq_or_imp, Nat.add_right_cancel_iff]
      tauto

/-- Membership in the box of a module. -/
theorem contains_iff {m : Module} {s : Space} (hs : s = ⟨m.kind.bounds.map Prod.fst, m.kind.bounds.map Prod.snd⟩) (n : Bool) (a : Act) :
    s.contains n a = true ↔ m.Member n a := by
  subst hs
  unfold Space.contains Module.Member
  cases n with
  | true =>
    cases a with
    | num q => simp [boxContains]
    | arr l =>
      simp only [if_true, boxContains, Space.dim, List.length_map, Bool.and_eq_true, decide_eq_true_eq, List.all_eq_true,
        Act.arr.injEq, exists_eq_left']
      rw [forall₂_unit]
  | false =>
    cases a with
    | num q => simp
    | arr l =>
      simp only [Bool.false_eq_true, if_false, Space.dim, List.length_map, Bool.and_eq_true, decide_eq_true_eq, Act.arr.injEq,
        exists_eq_left']
      constructor
      · rintro ⟨h1, h2⟩
        exact (inBounds_iff _ _ h1).mp h2
      · intro h
        have h1 := h.length_eq
        exact ⟨h1, (inBounds_iff _ _ h1).mpr h⟩

/-- Membership in a tuple. -/
theorem tupleHas_iff {h : Heap} {ids : List Nat} {box : Nat → Space}
    (hb : ∀ i ∈ ids, box i = ⟨(h i).kind.bounds.map Prod.fst, (h i).kind.bounds.map Prod.snd⟩) (n : Bool) (c : Ctrl) :
    tupleHas (ids.map box) n c = true ↔ ∃ l, c = .seq l ∧ List.Forall₂ (fun i a => (h i).Member n a) ids l := by
  unfold tupleHas
  cases c with
  | scalar q => simp
  | seq l =>
    simp only [Bool.and_eq_true, decide_eq_true_eq, List.length_map, Ctrl.seq.injEq, exists_eq_left']
    induction ids generalizing l with
    | nil =>
      cases l with
      | nil => simp
      | cons x l => simp
    | cons i ids ih =>
      cases l with
      | nil => simp
      | cons x l =>
        have := ih (fun j hj => hb j (by simp [hj])) l
        simp only [List.length_cons, Nat.add_right_cancel_iff, List.map_cons, List.zip_cons_cons, List.all_cons, Bool.and_eq_true,
          List.forall₂_cons, contains_iff (hb i (by simp))]
        rw [← this]
        tauto

section
variable {mods : List (String × Nat)} {g : Microgrid}

theorem allNamed_controllable {h : Heap} (hd : DistinctNames h mods) {nm : String × Nat} (hm : nm ∈ mods)
    (hf : (h nm.2).ffc = .controllable) : allNamed mods nm.1 = modulesNamed h mods .controllable nm.1 := by
  unfold allNamed modulesNamed
  congr 1
  apply List.filter_congr
  intro y hy
  by_cases hn : y.1 = nm.1
  · simp [hn, (hd y hy nm hm hn).1.trans hf]
  · simp [hn]

theorem actSpaces_controllable {h : Heap} {ids : List Nat} (hc : ∀ i ∈ ids, (h i).ffc = .controllable ∧
      (h i).actSpace = some ⟨(h i).kind.bounds.map Prod.fst, (h i).kind.bounds.map Prod.snd⟩) :
    actSpaces h ids = ids.map fun i => ⟨(h i).kind.bounds.map Prod.fst, (h i).kind.bounds.map Prod.snd⟩ := by
  unfold actSpaces
  induction ids with
  | nil => rfl
  | cons i ids ih =>
    have := hc i (by simp)
    rw [List.filterMap_cons, if_pos this.1, this.2]
    simp only [List.map_cons]
    rw [ih fun j hj => hc j (by simp [hj])]

theorem actSpaces_none {h : Heap} {ids : List Nat} (hc : ∀ i ∈ ids, (h i).ffc ≠ .controllable) : actSpaces h ids = [] := by
  unfold actSpaces
  rw [List.filterMap_eq_nil_iff]
  intro i hi
  rw [if_neg (hc i hi)]

/-- The action space of a microgrid with clear names. -/
theorem mem_actionSpaces (ok : GridOK mods g) (hsp : ∀ nm ∈ mods, (g.heap nm.2).Spaced) (hd : DistinctNames g.heap mods)
    (n : String) (ss : List Space) : (n, ss) ∈ g.actionSpaces ↔
      (∃ nm ∈ mods, nm.1 = n ∧ (g.heap nm.2).ffc = .controllable) ∧ ss = (modulesNamed g.heap mods .controllable n).map fun i =>
        ⟨(g.heap i).kind.bounds.map Prod.fst, (g.heap i).kind.bounds.map Prod.snd⟩ := by
  have box : ∀ i ∈ modulesNamed g.heap mods .controllable n, (g.heap i).ffc = .controllable ∧
      (g.heap i).actSpace = some ⟨(g.heap i).kind.bounds.map Prod.fst, (g.heap i).kind.bounds.map Prod.snd⟩ := by
    intro i hi
    simp only [modulesNamed, List.mem_map, List.mem_filter, decide_eq_true_eq] at hi
    obtain ⟨nm, ⟨hm, -, hf⟩, rfl⟩ := hi
    exact ⟨hf, (ok.wf nm hm).box (hsp nm hm) hf⟩
  unfold Microgrid.actionSpaces
  rw [List.mem_filter, List.mem_map]
  constructor
  · rintro ⟨⟨⟨n', ids⟩, hx, he⟩, hne⟩
    simp only [Prod.mk.injEq] at he
    obtain ⟨rfl, rfl⟩ := he
    have hids : ids = allNamed mods n' := by
      rw [ok.cont] at hx
      exact full_named hd hx
    subst hids
    have : ∃ i ∈ allNamed mods n', (g.heap i).ffc = .controllable := by
      by_contra hc
      push Not at hc
      simp [actSpaces_none hc] at hne
    obtain ⟨i, hi, hf⟩ := this
    simp only [allNamed, List.mem_map, List.mem_filter, decide_eq_true_eq] at hi
    obtain ⟨nm, ⟨hm, rfl⟩, rfl⟩ := hi
    refine ⟨⟨nm, hm, rfl, hf⟩, ?_⟩
    rw [allNamed_controllable hd hm hf]
    exact actSpaces_controllable box
  · rintro ⟨⟨nm, hm, rfl, hf⟩, rfl⟩
    have hne : allNamed mods nm.1 ≠ [] := by
      apply List.ne_nil_of_mem (a := nm.2)
      simp only [allNamed, List.mem_map, List.mem_filter, decide_eq_true_eq]
      exact ⟨nm, ⟨hm, rfl⟩, rfl⟩
    refine ⟨⟨(nm.1, allNamed mods nm.1), ?_, ?_⟩, ?_⟩
    · rw [ok.cont]
      exact full_has hd hne
    · simp only [Prod.mk.injEq, true_and]
      rw [allNamed_controllable hd hm hf]
      exact actSpaces_controllable box
    · rw [allNamed_controllable hd hm hf] at hne
      simp [hne]

/-- Membership in the action space of a microgrid. -/
theorem inActionSpace_iff (ok : GridOK mods g) (hsp : ∀ nm ∈ mods, (g.heap nm.2).Spaced) (hd : DistinctNames g.heap mods)
    (n : Bool) (a : List (String × Ctrl)) : g.inActionSpace n a = true ↔ Member g.heap mods n a := by
  have key := mem_actionSpaces ok hsp hd
  unfold Microgrid.inActionSpace Member
  rw [Bool.and_eq_true, List.all_eq_true, List.all_eq_true]
  apply and_congr
  · apply forall_congr'
    intro x
    apply imp_congr_right
    intro _
    rw [decide_eq_true_eq, List.mem_map]
    constructor
    · rintro ⟨⟨m, ss⟩, hx, he⟩
      rw [← he]
      exact ((key m ss).mp hx).1
    · intro h
      exact ⟨(x.1, _), (key x.1 _).mpr ⟨h, rfl⟩, rfl⟩
  · constructor
    · intro h nm hm hf
      have := h (nm.1, _) ((key nm.1 _).mpr ⟨⟨nm, hm, rfl, hf⟩, rfl⟩)
      simp only at this
      split at this
      · simp at this
      · rename_i c hc
        obtain ⟨l, rfl, hl⟩ := (tupleHas_iff (fun i _ => rfl) n c).mp this
        exact ⟨l, hc, hl⟩
    · rintro h ⟨m, ss⟩ hx
      obtain ⟨⟨nm, hm, rfl, hf⟩, rfl⟩ := (key m ss).mp hx
      obtain ⟨l, hl, hl'⟩ := h nm hm hf
      simp only [hl]
      exact (tupleHas_iff (fun i _ => rfl) n _).mpr ⟨l, rfl, hl'⟩

end

/-- Members are accepted. -/
theorem Module.WF.member_accepts {m : Module} (h : m.WF) (sp : m.Spaced) (hf : m.ffc = .controllable) {n : Bool} {a : Act}
    (ha : m.Member n a) : m.Accepts a n := by
  have hbox := h.box sp hf
  obtain ⟨l, rfl, hl⟩ := ha
  have one : ∀ {lo hi : ℚ}, m.kind.bounds = [(lo, hi)] → (∀ g, m.kind ≠ .genset g) → (∀ t, m.kind ≠ .load t) →
      (∀ t, m.kind ≠ .renewable t) → m.Accepts (.arr l) n := by
    intro lo hi hb k1 k2 k3
    rw [hb] at hl hbox
    cases hl with
    | cons hx hl =>
      cases hl
      rename_i x
      cases n with
      | true =>
        refine accepts_request k1 k2 k3 (q := denorm1 lo hi x) ?_
        simp [request, denormalizeAct, hbox, Space.denormalize, Space.apply, Space.dim, mapBounds, Space.item, energyOf]
      | false =>
        have hp : m.energyPos = 0 := by
          unfold energyPos
          split
          · exact absurd ‹_› (k1 _)
          · rfl
        refine accepts_request k1 k2 k3 (q := x) ?_
        simp [request, energyOf, hp]
  cases h with
  | battery b h => exact one (by rw [h.kind]; rfl) (by simp [h.kind]) (by simp [h.kind]) (by simp [h.kind])
  | grid p t h w => exact one (by rw [h.kind]; rfl) (by simp [h.kind]) (by simp [h.kind]) (by simp [h.kind])
  | genset g h =>
    rw [h.kind] at hl hbox
    simp only [Kind.bounds] at hl hbox
    cases hl with
    | cons hx hl =>
      cases hl with
      | cons hy hl =>
        cases hl
        rename_i goal e
        have hmax := h.min_nonneg.trans h.min_le
        simp only [Accepts, h.kind]
        cases n with
        | true =>
          simp only [if_true] at hx hy
          refine ⟨goal, e, rfl, hx.1, hx.2, denorm1 0 g.runMax e, ?_, ?_⟩
          · simp [request, denormalizeAct, hbox, Space.denormalize, Space.apply, Space.dim, mapBounds, Space.item, energyOf,
              energyPos, h.kind]
          · have := hy.1
            unfold denorm1 spread1
            split <;> nlinarith
        | false =>
          simp only [Bool.false_eq_true, if_false] at hx hy
          refine ⟨goal, e, rfl, hx.1, hx.2, e, ?_, hy.1⟩
          simp [request, energyOf, energyPos, h.kind]
  | load t h w => have := h.ffc; rw [hf] at this; simp at this
  | renewable t h w => have := h.ffc; rw [hf] at this; simp at this
  | balancing u h => have := h.ffc; rw [hf] at this; simp at this

/-! ### Normalising members -/

/-- The bounds of library modules are in order. -/
theorem Module.WF.bounds_le {m : Module} (h : m.WF) : ∀ b ∈ m.kind.bounds, b.1 ≤ b.2 := by
  cases h with
  | battery b h =>
    rw [h.kind]
    have := h.valid
    have e := this.eff_pos
    simp only [Kind.bounds, List.mem_singleton, forall_eq]
    have h1 := div_nonneg this.maxDischarge_nonneg e.le
    have h2 := mul_nonneg this.maxCharge_nonneg e.le
    linarith
  | genset g h =>
    rw [h.kind]
    have := h.min_nonneg.trans h.min_le
    simp [Kind.bounds, this]
  | grid p t h w =>
    rw [h.kind]
    have h1 := h.imp
    have h2 := h.exp
    simp only [Kind.bounds, List.mem_singleton, forall_eq]
    linarith
  | load t h w => rw [h.kind]; simp [Kind.bounds]
  | renewable t h w => rw [h.kind]; simp [Kind.bounds]
  | balancing u h => rw [h.kind]; simp [Kind.bounds]

theorem norm1_unit {lo hi x : ℚ} (h0 : lo ≤ x) (h1 : x ≤ hi) : 0 ≤ norm1 lo hi x ∧ norm1 lo hi x ≤ 1 := by
  unfold norm1 spread1
  split
  · rename_i he
    have : x = lo := by linarith
    subst this
    simp
  · rename_i he
    have hp : 0 < hi - lo := lt_of_le_of_ne (by linarith) (Ne.symm he)
    exact ⟨div_nonneg (by linarith) hp.le, (div_le_one hp).mpr (by linarith)⟩

theorem denorm1_range {lo hi x : ℚ} (h : lo ≤ hi) (hne : lo ≠ hi) (h0 : 0 ≤ x) (h1 : x ≤ 1) :
    lo ≤ denorm1 lo hi x ∧ denorm1 lo hi x ≤ hi := by
  unfold denorm1 spread1
  rw [if_neg (fun e => hne (by linarith))]
  constructor <;> nlinarith

theorem forall₂_mapBounds {f : ℚ → ℚ → ℚ → ℚ} {P Q : ℚ → ℚ × ℚ → Prop} {bs : List (ℚ × ℚ)} {l : List ℚ}
    (h : List.Forall₂ P l bs) (hf : ∀ b ∈ bs, ∀ x, P x b → Q (f b.1 b.2 x) b) :
    List.Forall₂ Q (mapBounds f (bs.map Prod.fst) (bs.map Prod.snd) l) bs := by
  induction h with
  | nil => simp [mapBounds]
  | cons hx _ ih =>
    simp only [List.map_cons, mapBounds, List.forall₂_cons]
    exact ⟨hf _ (by simp) _ hx, ih fun b hb => hf b (by simp [hb])⟩

theorem broadcast_arr {op : ℚ → ℚ → ℚ} {x y : Act} {s : List ℚ} (h : broadcast op x s = .ok y) : ∃ l, y = .arr l := by
  unfold broadcast at h
  repeat' split at h
  all_goals first | (simp at h; done) | (injection h with h; exact ⟨_, h.symm⟩)

theorem listOp_arr {op : ℚ → ℚ → ℚ} : ∀ {xs : List Act} {ss : List (List ℚ)} {ys : List Act}, listOp op xs ss = .ok ys →
    ∀ y ∈ ys, ∃ l, y = .arr l
  | [], ss, ys, h => by
    unfold listOp at h
    injection h with h
    subst h
    simp
  | x :: xs, [], ys, h => by
    unfold listOp at h
    injection h with h
    subst h
    simp
  | x :: xs, s :: ss, ys, h => by
    unfold listOp at h
    split at h
    · simp at h
    rename_i y hy
    split at h
    · simp at h
    rename_i ys' hys
    injection h with h
    subst h
    intro z hz
    rcases List.mem_cons.mp hz with rfl | hz
    · exact broadcast_arr hy
    · exact listOp_arr hys z hz

theorem dictOp_arr {op : ℚ → ℚ → ℚ} {second : List (String × List (List ℚ))} {v w : Data} (h : dictOp op v second = .ok w) :
    ∀ x ∈ w, ∀ y ∈ x.2, ∃ l, y = .arr l := by
  induction v generalizing w with
  | nil =>
    unfold dictOp at h
    injection h with h
    subst h
    simp
  | cons kx v ih =>
    obtain ⟨k, xs⟩ := kx
    unfold dictOp at h
    split at h
    · simp at h
    split at h
    · simp at h
    rename_i ys hys
    split at h
    · simp at h
    rename_i r hr
    injection h with h
    subst h
    intro x hx
    rcases List.mem_cons.mp hx with rfl | hx
    · exact listOp_arr hys
    · exact ih hr x hx

theorem normalize_arr {s : GridSpace} {v w : Data} (h : s.normalize v = .ok w) : ∀ x ∈ w, ∀ y ∈ x.2, ∃ l, y = .arr l := by
  unfold GridSpace.normalize at h
  split at h
  · simp at h
  split at h
  · simp at h
  exact dictOp_arr h

theorem denormalize_arr {s : GridSpace} {v w : Data} (h : s.denormalize v = .ok w) : ∀ x ∈ w, ∀ y ∈ x.2, ∃ l, y = .arr l := by
  unfold GridSpace.denormalize at h
  split at h
  · simp at h
  split at h
  · simp at h
  exact dictOp_arr h

theorem forall₂_entries {P Q : Nat → Act → Prop} {R : Space → Act → Act → Prop} {box : Nat → Space} {ids : List Nat}
    {xs ys : List Act} (h : List.Forall₂ P ids xs) (hlen : ys.length = xs.length)
    (hR : ∀ (j : Nat) x s y, xs[j]? = some x → (ids.map box)[j]? = some s → ys[j]? = some y → R s x y)
    (hQ : ∀ i x y, i ∈ ids → y ∈ ys → P i x → R (box i) x y → Q i y) : List.Forall₂ Q ids ys := by
  induction h generalizing ys with
  | nil =>
    obtain rfl := List.length_eq_zero_iff.mp hlen
    exact .nil
  | cons hx _ ih =>
    cases ys with
    | nil => simp at hlen
    | cons y ys =>
      refine .cons (hQ _ _ _ (by simp) (by simp) hx (hR 0 _ _ _ rfl rfl rfl)) (ih (by simpa using hlen) ?_ ?_)
      · intro j x s z h1 h2 h3
        exact hR (j + 1) x s z (by simpa using h1) (by simpa using h2) (by simpa using h3)
      · intro i x z hi hz
        exact hQ i x z (by simp [hi]) (by simp [hz])

end Pymgrid
