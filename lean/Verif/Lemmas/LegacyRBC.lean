import Verif.Model.LegacyRBC
import Verif.Spec.LegacyRBC
import Verif.Lemmas.Legacy
import Mathlib.Tactic.Linarith

set_option autoImplicit false

/-! Invariants of the legacy priority-based dispatch. -/

namespace Pymgrid.Legacy

theorem Priorities.order_nodup (q : Priorities) : q.order.Nodup := by
  have h1 : (q.items.map (·.1)).Nodup := by simp [Priorities.items]
  have h2 : ((q.items.insertionSort (fun x y => x.2 ≤ y.2)).map (·.1)).Nodup :=
    ((List.perm_insertionSort _ q.items).map _).nodup_iff.mpr h1
  exact h2.sublist (List.Sublist.map _ List.filter_sublist)

/-- What holds during the loop, with the components `l` still to come; `L` and `M` are the initial load and minimum. -/
structure Inv (p : Params) (pv soc L M : ℚ) (l : List Gen) (d : Dispatch) : Prop where
  load : 0 ≤ d.load
  excess : 0 ≤ d.excess
  charge : 0 ≤ d.charge
  discharge : 0 ≤ d.discharge
  imp : 0 ≤ d.imp
  exp : 0 ≤ d.exp
  genset : 0 ≤ d.genset
  kept : 0 ≤ d.kept
  pv : d.kept + d.excess ≤ pv
  charge_power : d.charge ≤ p.pCharge
  charge_room : d.charge ≤ p.room soc
  discharge_power : d.discharge ≤ p.pDischarge
  discharge_capa : d.discharge ≤ p.capaToDischarge soc
  battery_todo : .battery ∈ l → d.charge = 0 ∧ d.discharge = 0
  grid_todo : .grid ∈ l → d.imp = 0 ∧ d.exp = 0
  genset_todo : .genset ∈ l → d.genset = 0 ∧ d.minLoad = M
  pv_todo : .pv ∈ l → d.kept = 0 ∧ d.excess = 0
  minLoad : d.minLoad = M ∧ d.genset = 0 ∨ d.minLoad = 0 ∧ M < d.genset
  balance : d.kept + d.discharge + d.imp + d.genset + d.load + d.minLoad = L + M + d.charge + d.exp
  oneWay : d.charge = 0 ∨ d.discharge = 0
  oneWayGrid : d.imp = 0 ∨ d.exp = 0
  stored : d.charge + d.exp ≤ d.kept

theorem room_nonneg (p : Params) (soc : ℚ) : 0 ≤ p.room soc := le_max_right _ _

theorem Inv.serve {p : Params} {pv soc L M : ℚ} {l : List Gen} {d : Dispatch} {x : Gen}
    (hp : p.Good) (hpv : 0 ≤ pv) (hM : 0 ≤ M) (h : Inv p pv soc L M (x :: l) d) (hx : x ∉ l) :
    Inv p pv soc L M l (d.serve p pv soc x) := by
  have hc := capaToDischarge_nonneg p soc
  have hr := room_nonneg p soc
  have hpc := hp.charge
  have hpd := hp.discharge
  obtain ⟨i1, i2, i3, i4, i5, i6, i7, i8, i9, i10, i11, i12, i13, t1, t2, t3, t4, i14, i15, i16, i17, i18⟩ := h
  have u1 := fun hm => t1 (List.mem_cons_of_mem _ hm)
  have u2 := fun hm => t2 (List.mem_cons_of_mem _ hm)
  have u3 := fun hm => t3 (List.mem_cons_of_mem _ hm)
  have u4 := fun hm => t4 (List.mem_cons_of_mem _ hm)
  cases x with
  | pv =>
    obtain ⟨k1, k2⟩ := t4 List.mem_cons_self
    have o1 : min d.load pv ≤ d.load := min_le_left _ _
    have o2 : min d.load pv ≤ pv := min_le_right _ _
    have o3 : 0 ≤ min d.load pv := le_min i1 hpv
    have o4 : max 0 (d.load - min d.load pv) = d.load - min d.load pv := max_eq_right (by linarith)
    simp only [Dispatch.serve, o4]
    generalize min d.load pv = o at *
    refine ⟨?_, ?_, i3, i4, i5, i6, i7, ?_, ?_, i10, i11, i12, i13, u1, u2, u3, fun h => absurd h hx, i14, ?_, i16, i17, ?_⟩ <;>
      simp only <;> linarith
  | battery =>
    obtain ⟨k1, k2⟩ := t1 List.mem_cons_self
    simp only [Dispatch.serve]
    split
    · rename_i hl
      have o0 : max 0 (min (min (p.capaToDischarge soc) p.pDischarge) d.load) =
          min (min (p.capaToDischarge soc) p.pDischarge) d.load := max_eq_right (le_min (le_min hc hpd) i1)
      rw [o0]
      have o1 : min (min (p.capaToDischarge soc) p.pDischarge) d.load ≤ d.load := min_le_right _ _
      have o2 : min (min (p.capaToDischarge soc) p.pDischarge) d.load ≤ p.capaToDischarge soc :=
        le_trans (min_le_left _ _) (min_le_left _ _)
      have o3 : min (min (p.capaToDischarge soc) p.pDischarge) d.load ≤ p.pDischarge :=
        le_trans (min_le_left _ _) (min_le_right _ _)
      have o4 : 0 ≤ min (min (p.capaToDischarge soc) p.pDischarge) d.load := le_min (le_min hc hpd) i1
      generalize min (min (p.capaToDischarge soc) p.pDischarge) d.load = o at *
      refine ⟨?_, i2, i3, ?_, i5, i6, i7, i8, i9, i10, i11, o3, o2, fun h => absurd h hx, u2, u3, u4, i14, ?_, .inl k1,
        i17, i18⟩ <;> simp only <;> linarith
    · split
      · rename_i hl he
        have o0 : max 0 (min (min (p.room soc) p.pCharge) d.excess) = min (min (p.room soc) p.pCharge) d.excess :=
          max_eq_right (le_min (le_min hr hpc) i2)
        rw [o0]
        have o1 : min (min (p.room soc) p.pCharge) d.excess ≤ d.excess := min_le_right _ _
        have o2 : min (min (p.room soc) p.pCharge) d.excess ≤ p.room soc := le_trans (min_le_left _ _) (min_le_left _ _)
        have o3 : min (min (p.room soc) p.pCharge) d.excess ≤ p.pCharge := le_trans (min_le_left _ _) (min_le_right _ _)
        have o4 : 0 ≤ min (min (p.room soc) p.pCharge) d.excess := le_min (le_min hr hpc) i2
        generalize min (min (p.room soc) p.pCharge) d.excess = o at *
        refine ⟨i1, ?_, o4, i4, i5, i6, i7, ?_, ?_, o3, o2, i12, i13, fun h => absurd h hx, u2, u3,
          fun h => absurd (u4 h).2 (ne_of_gt he), i14, ?_, .inr k2, i17, ?_⟩ <;> simp only <;> linarith
      · exact ⟨i1, i2, i3, i4, i5, i6, i7, i8, i9, i10, i11, i12, i13, u1, u2, u3, u4, i14, i15, i16, i17, i18⟩
  | grid =>
    obtain ⟨k1, k2⟩ := t2 List.mem_cons_self
    simp only [Dispatch.serve]
    split
    · refine ⟨le_refl _, i2, i3, i4, i1, i6, i7, i8, i9, i10, i11, i12, i13, u1, fun h => absurd h hx, u3, u4, i14, ?_, i16,
        .inr k2, i18⟩
      simp only
      linarith
    · split
      · rename_i hl he
        refine ⟨i1, le_refl _, i3, i4, i5, i2, i7, ?_, ?_, i10, i11, i12, i13, u1, fun h => absurd h hx, u3,
          fun h => absurd (u4 h).2 (ne_of_gt he), i14, ?_, i16, .inl k1, ?_⟩ <;> simp only <;> linarith
      · exact ⟨i1, i2, i3, i4, i5, i6, i7, i8, i9, i10, i11, i12, i13, u1, u2, u3, u4, i14, i15, i16, i17, i18⟩
  | genset =>
    obtain ⟨k1, k2⟩ := t3 List.mem_cons_self
    simp only [Dispatch.serve]
    split
    · rename_i hl
      refine ⟨le_refl _, i2, i3, i4, i5, i6, ?_, i8, i9, i10, i11, i12, i13, u1, u2, fun h => absurd h hx, u4,
        .inr ⟨rfl, ?_⟩, ?_, i16, i17, i18⟩ <;> simp only <;> linarith
    · exact ⟨i1, i2, i3, i4, i5, i6, i7, i8, i9, i10, i11, i12, i13, u1, u2, u3, u4, i14, i15, i16, i17, i18⟩

theorem Inv.fold {p : Params} {pv soc L M : ℚ} (hp : p.Good) (hpv : 0 ≤ pv) (hM : 0 ≤ M) :
    ∀ (l : List Gen) (d : Dispatch), l.Nodup → Inv p pv soc L M l d →
      Inv p pv soc L M [] (l.foldl (fun d x => d.serve p pv soc x) d)
  | [], _, _, h => h
  | _ :: l, _, hn, h =>
    Inv.fold hp hpv hM l _ (List.nodup_cons.mp hn).2 (h.serve hp hpv hM (List.nodup_cons.mp hn).1)

theorem Inv.start {p : Params} {pv soc L M : ℚ} (hp : p.Good) (hpv : 0 ≤ pv) (hL : 0 ≤ L) (l : List Gen) :
    Inv p pv soc L M l { load := L, minLoad := M } := by
  constructor <;> simp [hL, hpv, hp.charge, hp.discharge, capaToDischarge_nonneg, room_nonneg]

theorem capa_eq (p : Params) (hp : p.Good) (soc : ℚ) :
    max (min ((soc * p.capacity - p.socMin * p.capacity) * p.eff) p.pDischarge) 0 = p.dischargeLimit soc := by
  have hd := hp.discharge
  have : (soc * p.capacity - p.socMin * p.capacity) * p.eff = (soc - p.socMin) * p.capacity * p.eff := by ring
  rw [this]
  unfold Params.dischargeLimit
  generalize (soc - p.socMin) * p.capacity * p.eff = z
  rcases le_total z 0 with h | h
  · rw [max_eq_left h, min_eq_left (le_trans h hd), max_eq_right h, min_eq_right hd]
  · rw [max_eq_right h, max_eq_left (le_min h hd), min_comm]

/-- The three cases of the preparation. -/
theorem prepare_cases (a : Arch) {p : Params} (hp : p.Good) (load pv soc : ℚ) (q : Priorities) :
    (¬ Forced a p load pv soc q ∧ prepare a p load pv soc q = ({ load }, q)) ∨
    (Forced a p load pv soc q ∧ p.rated * p.pmin ≤ load ∧
      prepare a p load pv soc q = ({ load := load - p.rated * p.pmin, minLoad := p.rated * p.pmin }, q)) ∨
    (Forced a p load pv soc q ∧ load < p.rated * p.pmin ∧
      prepare a p load pv soc q = ({ load := p.rated * p.pmin, minLoad := p.rated * p.pmin }, ⟨0, 0, 0, 1⟩)) := by
  have hq := capa_eq p hp soc
  unfold prepare
  simp only [hq]
  by_cases h1 : a.genset = true
  · by_cases h2 : load > pv + p.dischargeLimit soc ∧ ¬ (a.grid = true ∧ q.grid < q.genset ∧ q.grid > 0)
    · have hf : Forced a p load pv soc q := ⟨h1, h2.1, fun h => h2.2 ⟨h.1, h.2.2, h.2.1⟩⟩
      by_cases h3 : p.rated * p.pmin ≤ load
      · exact .inr (.inl ⟨hf, h3, by rw [if_pos h1, if_pos h2, if_pos h3]⟩)
      · exact .inr (.inr ⟨hf, not_le.mp h3, by rw [if_pos h1, if_pos h2, if_neg h3]⟩)
    · refine .inl ⟨fun hf => h2 ⟨hf.2.1, fun h => hf.2.2 ⟨h.1, h.2.2, h.2.1⟩⟩, by rw [if_pos h1, if_neg h2]⟩
  · exact .inl ⟨fun hf => h1 hf.1, by rw [if_neg h1]⟩

/-- What a successful dispatch returns, from the invariant. -/
theorem runPriorities_inv {a : Arch} {p : Params} {load pv soc : ℚ} {q : Priorities} {x : Plan} (hp : p.Good)
    (hl : 0 ≤ load) (hpv : 0 ≤ pv) (h : runPriorities a p load pv soc q = .ok x) :
    ∃ (L M : ℚ) (q' : Priorities) (d : Dispatch), prepare a p load pv soc q = ({ load := L, minLoad := M }, q') ∧ 0 ≤ M ∧
      d = q'.order.foldl (fun d x => d.serve p pv soc x) { load := L, minLoad := M } ∧
      Inv p pv soc L M [] d ∧
      x = { charge := d.charge, discharge := d.discharge, genset := d.genset, imp := d.imp, exp := d.exp
            lossLoad := decide (d.load > 0), pvKept := d.kept, pvCurtailed := pv - d.kept } := by
  have hm := hp.genset_min
  unfold runPriorities at h
  split at h
  · simp at h
  · injection h with h
    rcases prepare_cases a hp load pv soc q with ⟨-, e⟩ | ⟨-, hml, e⟩ | ⟨-, hml, e⟩ <;> rw [e] at h ⊢
    · exact ⟨load, 0, q, _, rfl, le_refl _, rfl, Inv.fold hp hpv (le_refl _) _ _ q.order_nodup (.start hp hpv hl _), h.symm⟩
    · exact ⟨_, _, q, _, rfl, hm, rfl, Inv.fold hp hpv hm _ _ q.order_nodup (.start hp hpv (by linarith) _), h.symm⟩
    · exact ⟨_, _, _, _, rfl, hm, rfl, Inv.fold hp hpv hm _ _ (Priorities.order_nodup _) (.start hp hpv hm _), h.symm⟩

/-! ## PV comes first -/

section
variable {p : Params} {pv soc : ℚ}

theorem serve_zero_load {d : Dispatch} {x : Gen} (hx : x ≠ .pv) (h : d.load = 0) :
    (d.serve p pv soc x).load = 0 ∧ (d.serve p pv soc x).discharge = d.discharge ∧
      (d.serve p pv soc x).imp = d.imp ∧ (d.serve p pv soc x).genset = d.genset := by
  have hl : ¬ (d.load > 0) := by rw [h]; exact lt_irrefl 0
  cases x with
  | pv => exact absurd rfl hx
  | battery => simp only [Dispatch.serve, if_neg hl]; split <;> exact ⟨h, rfl, rfl, rfl⟩
  | grid => simp only [Dispatch.serve, if_neg hl]; split <;> exact ⟨h, rfl, rfl, rfl⟩
  | genset => simp only [Dispatch.serve, if_neg hl]; exact ⟨h, trivial, trivial, trivial⟩

theorem serve_zero_excess {d : Dispatch} {x : Gen} (hx : x ≠ .pv) (h : d.excess = 0) :
    (d.serve p pv soc x).excess = 0 ∧ (d.serve p pv soc x).charge = d.charge ∧
      (d.serve p pv soc x).exp = d.exp ∧ (d.serve p pv soc x).kept = d.kept := by
  have hl : ¬ (d.excess > 0) := by rw [h]; exact lt_irrefl 0
  cases x with
  | pv => exact absurd rfl hx
  | battery => simp only [Dispatch.serve, if_neg hl]; split <;> exact ⟨h, rfl, rfl, rfl⟩
  | grid => simp only [Dispatch.serve, if_neg hl]; split <;> exact ⟨h, rfl, rfl, rfl⟩
  | genset => simp only [Dispatch.serve]; split <;> exact ⟨h, rfl, rfl, rfl⟩

theorem fold_zero_load : ∀ (l : List Gen) {d : Dispatch}, .pv ∉ l → d.load = 0 →
    (l.foldl (fun d x => d.serve p pv soc x) d).load = 0 ∧
    (l.foldl (fun d x => d.serve p pv soc x) d).discharge = d.discharge ∧
    (l.foldl (fun d x => d.serve p pv soc x) d).imp = d.imp ∧
    (l.foldl (fun d x => d.serve p pv soc x) d).genset = d.genset
  | [], _, _, h => ⟨h, rfl, rfl, rfl⟩
  | x :: l, d, hx, h => by
    obtain ⟨a, b, c, e⟩ := serve_zero_load (p := p) (pv := pv) (soc := soc)
      (show x ≠ .pv by rintro rfl; exact hx List.mem_cons_self) h
    obtain ⟨a', b', c', e'⟩ := fold_zero_load l (fun hm => hx (List.mem_cons_of_mem _ hm)) a
    exact ⟨a', b'.trans b, c'.trans c, e'.trans e⟩

theorem fold_zero_excess : ∀ (l : List Gen) {d : Dispatch}, .pv ∉ l → d.excess = 0 →
    (l.foldl (fun d x => d.serve p pv soc x) d).excess = 0 ∧
    (l.foldl (fun d x => d.serve p pv soc x) d).charge = d.charge ∧
    (l.foldl (fun d x => d.serve p pv soc x) d).exp = d.exp ∧
    (l.foldl (fun d x => d.serve p pv soc x) d).kept = d.kept
  | [], _, _, h => ⟨h, rfl, rfl, rfl⟩
  | x :: l, d, hx, h => by
    obtain ⟨a, b, c, e⟩ := serve_zero_excess (p := p) (pv := pv) (soc := soc)
      (show x ≠ .pv by rintro rfl; exact hx List.mem_cons_self) h
    obtain ⟨a', b', c', e'⟩ := fold_zero_excess l (fun hm => hx (List.mem_cons_of_mem _ hm)) a
    exact ⟨a', b'.trans b, c'.trans c, e'.trans e⟩

end

/-- The orders that the generated priorities can have. -/
theorem generated_order (a : Arch) (p : Params) {s : ℚ} (hs : s = 0 ∨ s = 1) (x y : ℚ) :
    ∃ l, (generatePriorities a p s x y).order = .pv :: l ∧ .pv ∉ l ∧
      (a.genset = false → .genset ∉ l) ∧
      (a.genset = true → a.battery = true →
        ((∃ l₁ l₂, l = l₁ ++ .grid :: l₂ ∧ .genset ∉ l₁) ∨
        (l = [.battery, .genset] ∧ ¬ (a.grid = true ∧ 0 < (generatePriorities a p s x y).grid)))) := by
  obtain ⟨b, n, g⟩ := a
  unfold generatePriorities
  have e0 : ((3 : ℚ) * 0).floor.toNat = 0 := by decide +kernel
  have e1 : ((3 : ℚ) * 1).floor.toNat = 3 := by decide +kernel
  have e2 : ((2 : ℚ) * 0).floor.toNat = 0 := by decide +kernel
  have e3 : ((2 : ℚ) * 1).floor.toNat = 2 := by decide +kernel
  cases g <;> simp only [if_true, Bool.false_eq_true, if_false]
  · cases b <;> cases n
    · exact ⟨[], by decide, by decide, by decide, by simp⟩
    · exact ⟨[.genset], by decide, by decide, by decide, by simp⟩
    · exact ⟨[.battery], by decide, by decide, by decide, by simp⟩
    · exact ⟨[.battery, .genset], by decide, by decide, by decide, fun _ _ => .inr ⟨rfl, by simp⟩⟩
  · rcases hs with rfl | rfl
    · rw [e0, e2]
      split <;> cases b <;> cases n
      · exact ⟨[], by decide, by decide, by decide, by simp⟩
      · exact ⟨[.genset], by decide, by decide, by decide, by simp⟩
      · exact ⟨[.battery], by decide, by decide, by decide, by simp⟩
      · exact ⟨[.battery, .genset], by decide, by decide, by decide, fun _ _ => .inr ⟨rfl, by simp⟩⟩
      · exact ⟨[], by decide, by decide, by decide, by simp⟩
      · exact ⟨[.genset], by decide, by decide, by decide, by simp⟩
      · exact ⟨[.battery], by decide, by decide, by decide, by simp⟩
      · exact ⟨[.battery, .genset], by decide, by decide, by decide, fun _ _ => .inr ⟨rfl, by simp⟩⟩
    · rw [e1, e3]
      split <;> cases b <;> cases n
      · exact ⟨[.grid], by decide, by decide, by decide, by simp⟩
      · exact ⟨[.grid, .genset], by decide, by decide, by decide, by simp⟩
      · exact ⟨[.battery, .grid], by decide, by decide, by decide, by simp⟩
      · exact ⟨[.battery, .grid, .genset], by decide, by decide, by decide,
          fun _ _ => .inl ⟨[.battery], [.genset], rfl, by decide⟩⟩
      · exact ⟨[.grid], by decide, by decide, by decide, by simp⟩
      · exact ⟨[.grid, .genset], by decide, by decide, by decide, by simp⟩
      · exact ⟨[.grid, .battery], by decide, by decide, by decide, by simp⟩
      · exact ⟨[.grid, .battery, .genset], by decide, by decide, by decide,
          fun _ _ => .inl ⟨[], [.battery, .genset], rfl, by decide⟩⟩

theorem fold_genset {p : Params} {pv soc : ℚ} : ∀ (l : List Gen) {d : Dispatch}, .genset ∉ l →
    (l.foldl (fun d x => d.serve p pv soc x) d).genset = d.genset
  | [], _, _ => rfl
  | x :: l, d, hx => by
    refine (fold_genset l fun hm => hx (List.mem_cons_of_mem _ hm)).trans ?_
    cases x with
    | pv => rfl
    | battery => simp only [Dispatch.serve]; split; · rfl
                 split <;> rfl
    | grid => simp only [Dispatch.serve]; split; · rfl
              split <;> rfl
    | genset => exact absurd List.mem_cons_self hx

/-- The generated priorities never make the genset run unless it is forced to. -/
theorem unforced_genset {a : Arch} {p : Params} {load pv soc s x y : ℚ} (hp : p.Good) (hs : s = 0 ∨ s = 1)
    (hl : 0 ≤ load) (hpv : 0 ≤ pv) (hab : a.genset = true → a.battery = true)
    (hf : ¬ Forced a p load pv soc (generatePriorities a p s x y)) :
    ((generatePriorities a p s x y).order.foldl (fun d x => d.serve p pv soc x) ({ load } : Dispatch)).genset = 0 := by
  obtain ⟨l, ho, hpvl, h0, h1⟩ := generated_order a p hs x y
  rw [ho]
  simp only [List.foldl_cons]
  by_cases hg : a.genset = true
  · rcases h1 hg (hab hg) with ⟨l₁, l₂, rfl, hl₁⟩ | ⟨rfl, hn⟩
    · rw [List.foldl_append, List.foldl_cons]
      have hpv2 : .pv ∉ l₂ := fun h => hpvl (List.mem_append.mpr (.inr (List.mem_cons_of_mem _ h)))
      have hz : ∀ d : Dispatch, 0 ≤ d.load → (d.serve p pv soc .grid).load = 0 ∧ (d.serve p pv soc .grid).genset = d.genset := by
        intro d hd
        simp only [Dispatch.serve]
        split
        · exact ⟨rfl, rfl⟩
        · rename_i hn
          have : d.load = 0 := le_antisymm (not_lt.mp hn) hd
          split <;> exact ⟨this, rfl⟩
      have hinv := (Inv.start (p := p) (pv := pv) (soc := soc) (L := load) (M := 0) hp hpv hl
        ((generatePriorities a p s x y).order))
      rw [ho] at hinv
      have hnd := (generatePriorities a p s x y).order_nodup
      rw [ho] at hnd
      have i1 := hinv.serve hp hpv (le_refl _) (List.nodup_cons.mp hnd).1
      have i2 : 0 ≤ (l₁.foldl (fun d x => d.serve p pv soc x)
          ((({ load } : Dispatch)).serve p pv soc .pv)).load := by
        have hn1 : l₁.Nodup := (List.nodup_append.mp (List.nodup_cons.mp hnd).2).1
        have i1' : Inv p pv soc load 0 l₁ ((({ load } : Dispatch)).serve p pv soc .pv) :=
          { i1 with
            battery_todo := fun h => i1.battery_todo (List.mem_append.mpr (.inl h))
            grid_todo := fun h => i1.grid_todo (List.mem_append.mpr (.inl h))
            genset_todo := fun h => i1.genset_todo (List.mem_append.mpr (.inl h))
            pv_todo := fun h => i1.pv_todo (List.mem_append.mpr (.inl h)) }
        exact (Inv.fold hp hpv (le_refl _) l₁ _ hn1 i1').load
      obtain ⟨z1, z2⟩ := hz _ i2
      rw [(fold_zero_load l₂ hpv2 z1).2.2.2, z2, fold_genset l₁ hl₁]
      rfl
    · have hle : load ≤ pv + p.dischargeLimit soc := by
        by_contra hc
        exact hf ⟨hg, not_le.mp hc, fun h => hn ⟨h.1, h.2.1⟩⟩
      simp only [List.foldl_cons, List.foldl_nil]
      have hz : ∀ d : Dispatch, 0 ≤ d.load → d.load ≤ p.dischargeLimit soc →
          (d.serve p pv soc .battery).load = 0 ∧ (d.serve p pv soc .battery).genset = d.genset := by
        intro d hd hd'
        simp only [Dispatch.serve]
        split
        · refine ⟨?_, rfl⟩
          simp only
          have : min (p.capaToDischarge soc) p.pDischarge = p.dischargeLimit soc := by
            rw [capaToDischarge_eq, min_comm]; rfl
          rw [this, min_eq_right hd', max_eq_right hd, sub_self]
        · rename_i hn
          have : d.load = 0 := le_antisymm (not_lt.mp hn) hd
          split <;> exact ⟨this, rfl⟩
      have hpl : 0 ≤ ((({ load } : Dispatch)).serve p pv soc .pv).load := le_max_left _ _
      have hdl : 0 ≤ p.dischargeLimit soc := le_min hp.discharge (le_max_left _ _)
      have hpl' : ((({ load } : Dispatch)).serve p pv soc .pv).load ≤ p.dischargeLimit soc := by
        show max 0 (load - min load pv) ≤ _
        rcases le_total load pv with h | h
        · rw [min_eq_left h, sub_self, max_self]; exact hdl
        · rw [min_eq_right h]; exact max_le hdl (by linarith)
      obtain ⟨z1, z2⟩ := hz _ hpl hpl'
      rw [(serve_zero_load (by decide) z1).2.2.2, z2]
      rfl
  · rw [fold_genset l (h0 (by simpa using hg))]
    rfl

/-- The three shapes of a plan made for a positive load under generated priorities. -/
theorem plan_shape {a : Arch} {p : Params} {load pv soc s x y : ℚ} {z : Plan} (hp : p.Good) (hs : s = 0 ∨ s = 1)
    (hl : 0 < load) (hpv : 0 < pv) (h : runPriorities a p load pv soc (generatePriorities a p s x y) = .ok z) :
    (z.discharge = 0 ∧ z.imp = 0 ∧ z.genset = 0 ∧ 0 ≤ z.charge ∧ 0 ≤ z.exp) ∨
    (z.charge = 0 ∧ z.exp = 0 ∧ z.discharge + z.imp + z.genset < load ∧ 0 ≤ z.discharge ∧ 0 ≤ z.imp ∧
      (z.genset = 0 ∨ p.rated * p.pmin ≤ z.genset)) ∨
    (z.charge = 0 ∧ z.exp = 0 ∧ z.discharge = 0 ∧ z.imp = 0 ∧ load < p.rated * p.pmin ∧
      z.genset = 2 * (p.rated * p.pmin)) := by
  have hab : a.genset = true → a.battery = true := by
    intro hg
    unfold runPriorities at h
    split at h
    · simp at h
    · rename_i hn
      by_contra hc
      exact hn ⟨hg, hc⟩
  obtain ⟨L, M, q', d, e, hM, hd, hi, rfl⟩ := runPriorities_inv hp hl.le hpv.le h
  simp only
  obtain ⟨l, ho, hpvl, -, -⟩ := generated_order a p hs x y
  -- load and minimum of the first two cases together
  have main : q' = generatePriorities a p s x y → L + M = load →
      (d.genset = 0 ∨ p.rated * p.pmin ≤ d.genset) →
      (d.discharge = 0 ∧ d.imp = 0 ∧ d.genset = 0 ∧ 0 ≤ d.charge ∧ 0 ≤ d.exp) ∨
      (d.charge = 0 ∧ d.exp = 0 ∧ d.discharge + d.imp + d.genset < load ∧ 0 ≤ d.discharge ∧ 0 ≤ d.imp ∧
        (d.genset = 0 ∨ p.rated * p.pmin ≤ d.genset)) := by
    intro hq hLM hgen
    rw [hq, ho] at hd
    simp only [List.foldl_cons] at hd
    rcases le_or_gt L pv with hLp | hLp
    · have h0 : ((({ load := L, minLoad := M } : Dispatch)).serve p pv soc .pv).load = 0 := by
        show max 0 (L - min L pv) = 0
        rw [min_eq_left hLp, sub_self, max_self]
      obtain ⟨-, z2, z3, z4⟩ := fold_zero_load (p := p) (pv := pv) (soc := soc) l hpvl h0
      rw [← hd] at z2 z3 z4
      exact .inl ⟨z2, z3, z4, hi.charge, hi.exp⟩
    · have h0 : ((({ load := L, minLoad := M } : Dispatch)).serve p pv soc .pv).excess = 0 := by
        show pv - min L pv = 0
        rw [min_eq_right hLp.le, sub_self]
      have h1 : ((({ load := L, minLoad := M } : Dispatch)).serve p pv soc .pv).kept = pv := by
        show 0 + pv - (pv - min L pv) = pv
        rw [min_eq_right hLp.le]; ring
      obtain ⟨-, z2, z3, z4⟩ := fold_zero_excess (p := p) (pv := pv) (soc := soc) l hpvl h0
      rw [← hd] at z2 z3 z4
      rw [h1] at z4
      have z2 : d.charge = 0 := z2
      have z3 : d.exp = 0 := z3
      have hb := hi.balance
      have hl' := hi.load
      have hml : 0 ≤ d.minLoad := by
        rcases hi.minLoad with ⟨h, -⟩ | ⟨h, -⟩ <;> rw [h]
        exact hM
      rw [z2, z3, z4] at hb
      exact .inr ⟨z2, z3, by linarith, hi.discharge, hi.imp, hgen⟩
  rcases prepare_cases a hp load pv soc (generatePriorities a p s x y) with ⟨hf, e'⟩ | ⟨-, hml, e'⟩ | ⟨-, hml, e'⟩ <;>
    rw [e'] at e <;> simp only [Prod.mk.injEq, Dispatch.mk.injEq] at e
  · obtain ⟨⟨hL, -, -, -, -, -, -, -, hM'⟩, hq⟩ := e
    subst hL hM' hq
    have hg := unforced_genset (x := x) (y := y) hp hs hl.le hpv.le hab hf
    rw [← hd] at hg
    rcases main rfl (by ring) (.inl hg) with h | h
    · exact .inl h
    · exact .inr (.inl h)
  · obtain ⟨⟨hL, -, -, -, -, -, -, -, hM'⟩, hq⟩ := e
    subst hL hM' hq
    have hg : d.genset = 0 ∨ p.rated * p.pmin ≤ d.genset := by
      rcases hi.minLoad with ⟨-, h⟩ | ⟨-, h⟩
      · exact .inl h
      · exact .inr h.le
    rcases main rfl (by ring) hg with h | h
    · exact .inl h
    · exact .inr (.inl h)
  · obtain ⟨⟨hL, -, -, -, -, -, -, -, hM'⟩, hq⟩ := e
    subst hL hM' hq
    have ho' : (⟨0, 0, 0, 1⟩ : Priorities).order = [.genset] := by decide
    rw [ho'] at hd
    have hpos : p.rated * p.pmin > 0 := by linarith
    simp only [List.foldl_cons, List.foldl_nil, Dispatch.serve, if_pos hpos] at hd
    rw [hd]
    exact .inr (.inr ⟨rfl, rfl, rfl, rfl, hml, by simp only; ring⟩)

/-! ## The baseline -/

theorem clamp_nonneg {lo hi x : ℚ} (h : 0 ≤ lo) : 0 ≤ clamp lo hi x := le_trans h (le_max_left _ _)

theorem clamp_le {hi x : ℚ} (hx : 0 ≤ x) : clamp 0 hi x ≤ x := max_le hx (min_le_left _ _)

/-- The record of a plan made for a positive load does not fail. -/
theorem plan_settles {a : Arch} {p : Params} {load pv soc s x y : ℚ} {z : Plan} {e : Entry} (hp : p.Good)
    (hs : s = 0 ∨ s = 1) (hl : 0 < load) (hpv : 0 < pv)
    (h : runPriorities a p load pv soc (generatePriorities a p s x y) = .ok z)
    (he : e.Executes a p soc z.control) : load + e.charge + e.exp - (e.discharge + e.imp + e.genset) ≠ 0 := by
  have hcl : 0 ≤ p.chargeLimit soc := le_min hp.charge (le_max_left _ _)
  have hdl : 0 ≤ p.dischargeLimit soc := le_min hp.discharge (le_max_left _ _)
  have hgm := hp.genset_min
  have hgx := hp.genset_max
  have b1 : e.charge = 0 ∨ e.charge = clamp 0 (p.chargeLimit soc) z.charge := by
    cases hb : a.battery with
    | false => exact .inl (he.noBattery hb).1
    | true => exact .inr (Option.some.inj (he.charge hb)).symm
  have b2 : e.discharge = 0 ∨ e.discharge = clamp 0 (p.dischargeLimit soc) z.discharge := by
    cases hb : a.battery with
    | false => exact .inl (he.noBattery hb).2
    | true => exact .inr (Option.some.inj (he.discharge hb)).symm
  have b3 : e.imp = 0 ∨ e.imp = clamp 0 p.pImport z.imp := by
    cases hb : a.grid with
    | false => exact .inl (he.noGrid hb).1
    | true => exact .inr (Option.some.inj (he.imp hb)).symm
  have b4 : e.exp = 0 ∨ e.exp = clamp 0 p.pExport z.exp := by
    cases hb : a.grid with
    | false => exact .inl (he.noGrid hb).2
    | true => exact .inr (Option.some.inj (he.exp hb)).symm
  have c1 : 0 ≤ e.charge := by rcases b1 with h | h <;> rw [h]; exact clamp_nonneg (le_refl _)
  have c4 : 0 ≤ e.exp := by rcases b4 with h | h <;> rw [h]; exact clamp_nonneg (le_refl _)
  have z0 : ∀ hi : ℚ, 0 ≤ hi → clamp 0 hi 0 = 0 := by
    intro hi hhi
    unfold clamp
    rw [min_eq_left hhi, max_self]
  rcases plan_shape hp hs hl hpv h with ⟨s1, s2, s3, -, -⟩ | ⟨s1, s2, s3, s4, s5, s6⟩ | ⟨s1, s2, s3, s4, s5, s6⟩
  · have d1 : e.discharge = 0 := by rcases b2 with h | h; · exact h
                                    rw [h, s1, z0 _ hdl]
    have d2 : e.imp = 0 := by rcases b3 with h | h; · exact h
                              rw [h, s2, z0 _ hp.imp]
    have d3 : e.genset = 0 := by
      cases hb : a.genset with
      | false => exact he.noGenset hb
      | true =>
        have h1 := Option.some.inj (he.genset hb)
        simp only at h1
        rw [s3, if_neg (by norm_num), z0 _ (le_trans hgm hgx)] at h1
        exact h1.symm
    rw [d1, d2, d3]
    intro h0
    linarith
  · have d1 : e.charge = 0 := by rcases b1 with h | h; · exact h
                                 rw [h, s1, z0 _ hcl]
    have d2 : e.exp = 0 := by rcases b4 with h | h; · exact h
                              rw [h, s2, z0 _ hp.exp]
    have d3 : e.discharge ≤ z.discharge := by rcases b2 with h | h; · rw [h]; exact s4
                                              rw [h]; exact clamp_le s4
    have d4 : e.imp ≤ z.imp := by rcases b3 with h | h; · rw [h]; exact s5
                                  rw [h]; exact clamp_le s5
    have d6 : 0 ≤ z.genset := by rcases s6 with h | h; · rw [h]
                                 linarith
    have d5 : e.genset ≤ z.genset := by
      cases hb : a.genset with
      | false => rw [he.noGenset hb]; exact d6
      | true =>
        have h1 := Option.some.inj (he.genset hb)
        rw [← h1]
        simp only
        split
        · rename_i h2
          rcases s6 with h | h
          · rw [h] at h2; norm_num at h2
          · exact max_le h (min_le_left _ _)
        · exact clamp_le d6
    rw [d1, d2]
    intro h0
    linarith
  · have d1 : e.charge = 0 := by rcases b1 with h | h; · exact h
                                 rw [h, s1, z0 _ hcl]
    have d2 : e.exp = 0 := by rcases b4 with h | h; · exact h
                              rw [h, s2, z0 _ hp.exp]
    have d3 : e.discharge = 0 := by rcases b2 with h | h; · exact h
                                    rw [h, s3, z0 _ hdl]
    have d4 : e.imp = 0 := by rcases b3 with h | h; · exact h
                              rw [h, s4, z0 _ hp.imp]
    rw [d1, d2, d3, d4]
    cases hb : a.genset with
    | false => rw [he.noGenset hb]; intro h0; linarith
    | true =>
      have h1 := Option.some.inj (he.genset hb)
      have : p.rated * p.pmin ≤ e.genset := by
        rw [← h1]
        simp only [s6]
        split
        · exact le_max_left _ _
        · exact le_max_of_le_right (le_min (by linarith) hgx)
      intro h0
      linarith

/-- One turn of the baseline. -/
theorem baselineStep_turn {g : Grid} {b : Baseline} {i : Nat} (hp : g.params.Good) (hf : g.FullSeries)
    (hs : ∀ s ∈ g.statuses, s = 0 ∨ s = 1) (hl : ∀ x ∈ g.loads, 0 < x) (hpv : ∀ x ∈ g.pvs, 0 ≤ x)
    (ha : g.arch.battery = true ∨ g.arch.grid = false ∧ g.arch.genset = false) (hi : i + 1 < g.dataLength) :
    ∃ b' e load pv row, baselineStep g b i = .ok b' ∧ Turn g i b b' e load pv row := by
  have hd : g.dataLength = min g.loads.length g.pvs.length := rfl
  have i1 : i < g.loads.length := by omega
  have i2 : i < g.pvs.length := by omega
  have i3 : i + 1 < g.loads.length := by omega
  have i4 : i + 1 < g.pvs.length := by omega
  have e1 : g.loads[i]? = some g.loads[i] := List.getElem?_eq_getElem i1
  have e2 : g.pvs[i]? = some g.pvs[i] := List.getElem?_eq_getElem i2
  have e3 : g.loads[i + 1]? = some g.loads[i + 1] := List.getElem?_eq_getElem i3
  have e4 : g.pvs[i + 1]? = some g.pvs[i + 1] := List.getElem?_eq_getElem i4
  have hload : 0 < g.loads[i] := hl _ (List.getElem_mem i1)
  have hpv' : 0 ≤ g.pvs[i] := hpv _ (List.getElem_mem i2)
  obtain ⟨now, hnow, hst⟩ : ∃ now, (if g.arch.grid then g.gridAt i else .ok ⟨0, 0, 0, 0⟩) = .ok now ∧
      (now.status = 0 ∨ now.status = 1) := by
    cases hg : g.arch.grid with
    | false => exact ⟨⟨0, 0, 0, 0⟩, rfl, .inl rfl⟩
    | true =>
      obtain ⟨row, hr⟩ := Grid.gridAt_total hf hg (i := i) (by omega)
      refine ⟨row, by simpa using hr, hs _ ?_⟩
      exact List.mem_of_getElem? (Grid.gridAt_ok.mp hr).1
  obtain ⟨next, hnext⟩ : ∃ next, (if g.arch.grid then g.gridAt (i + 1) else .ok ⟨0, 0, 0, 0⟩) = .ok next := by
    cases hg : g.arch.grid with
    | false => exact ⟨⟨0, 0, 0, 0⟩, rfl⟩
    | true =>
      obtain ⟨row, hr⟩ := Grid.gridAt_total hf hg (i := i + 1) hi
      exact ⟨row, by simpa using hr⟩
  have c1 : ¬ (g.arch.grid = true ∧ ¬ g.arch.battery = true) := by
    rintro ⟨h1, h2⟩
    rcases ha with h | ⟨h, -⟩
    · exact h2 h
    · rw [h] at h1; simp at h1
  have c2 : ¬ (g.arch.genset = true ∧ ¬ g.arch.battery = true) := by
    rintro ⟨h1, h2⟩
    rcases ha with h | ⟨-, h⟩
    · exact h2 h
    · rw [h] at h1; simp at h1
  obtain ⟨plan, hplan⟩ : ∃ plan, runPriorities g.arch g.params g.loads[i] g.pvs[i] b.soc
      (generatePriorities g.arch g.params now.status now.priceImport now.priceExport) = .ok plan := by
    unfold runPriorities
    rw [if_neg c2]
    exact ⟨_, rfl⟩
  have hcomp : plan.control.Complete g.arch := ⟨fun _ => ⟨rfl, rfl⟩, fun _ => ⟨rfl, rfl⟩, fun _ => rfl⟩
  obtain ⟨r, hrec⟩ : ∃ r, record g.arch g.params g.loads[i] g.pvs[i] b.soc plan.control b.production = (r, .ok ()) := by
    obtain ⟨ch, di, im, ex, ge, hk, hq⟩ := record_eq g.arch g.params g.loads[i] g.pvs[i] b.soc b.production hcomp
    rw [hq]
    split
    · rename_i er hse
      obtain ⟨h1, h2⟩ := settle_fails.mp ⟨er, hse⟩
      exact absurd h1 (plan_settles hp hst hload (lt_of_lt_of_le (by norm_num) h2) hplan ((hk ⟨0, 0, 0, 0⟩).executes hp))
    · exact ⟨_, rfl⟩
  obtain ⟨-, e, hk, hr, hse⟩ := record_ok hrec
  obtain ⟨s1, s2, s3, s4, s5, s6⟩ := settle_spec hpv' hse
  have hstep : ∃ b', baselineStep g b i = .ok b' ∧ b'.production = r ∧
      (∃ row, b'.states = b.states ++ [row] ∧ row.load = g.loads[i + 1]? ∧ row.pv = g.pvs[i + 1]? ∧
        (g.arch.battery = true → row.soc = b.soc + (e.charge * g.params.eff - e.discharge / g.params.eff) / g.params.capacity)) ∧
      b'.costs.length = b.costs.length + 1 ∧ b'.co2.length = b.co2.length + 1 := by
    unfold baselineStep
    rw [e1, e2, e3, e4]
    simp only
    rw [hnow, hnext]
    simp only [if_neg c1]
    have hsoc : (b.states.getLast?.map (·.soc)).getD 0 = b.soc := rfl
    rw [hsoc, hplan]
    simp only
    rw [hrec]
    simp only [Recorded.last hr]
    refine ⟨_, rfl, rfl, ⟨_, rfl, rfl, rfl, ?_⟩, by simp, by simp⟩
    intro hb
    unfold nextRow
    simp only [hb, if_true]
  obtain ⟨b', hb', hpr, ⟨row, w1, w2, w3, w4⟩, w5, w6⟩ := hstep
  refine ⟨b', e, g.loads[i], g.pvs[i], row, hb', e1, e2, by rw [hpr]; exact hr, (hk.within hp).1, ?_, w1, w2, w3, ?_, w5, w6⟩
  · refine ⟨?_, s2, s3, s4, s5, s6⟩
    have : e.discharge + e.imp + e.genset + e.consumed + e.lossLoad - (g.loads[i] + e.charge + e.exp + e.overgen) =
        e.consumed + e.lossLoad - (g.loads[i] + e.charge + e.exp - (e.discharge + e.imp + e.genset) + e.overgen) := by ring
    rw [this]
    exact s1
  · intro hb
    rw [w4 hb]
    have := hp.capacity
    have := hp.eff
    field_simp
    ring

end Pymgrid.Legacy
