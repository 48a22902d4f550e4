import Verif.Lemmas.OptimalRun
import Verif.Spec.Greedy

set_option autoImplicit false

/-! A battery that always covers as much of the load as it can loses the least load. -/

namespace Pymgrid

open Module

theorem eq_singleton {α : Type} {l : List α} {x : α} (nd : l.Nodup) (hx : x ∈ l) (all : ∀ y ∈ l, y = x) : l = [x] := by
  match l, nd, hx, all with
  | [y], _, hx, _ => rw [List.mem_singleton.mp hx]
  | y :: z :: l, nd, _, all =>
    rw [all y (by simp), all z (by simp)] at nd
    simp at nd

theorem zero_of_sum_zero {α : Type} {l : List α} (F : α → ℚ) (nonneg : ∀ x ∈ l, 0 ≤ F x) (hz : (l.map F).sum = 0) :
    ∀ x ∈ l, F x = 0 := by
  induction l with
  | nil => simp
  | cons y l ih =>
    simp only [List.map_cons, List.sum_cons] at hz
    have h1 := nonneg y (by simp)
    have h2 : 0 ≤ (l.map F).sum := by
      apply List.sum_nonneg
      intro q hq
      obtain ⟨x, hx, rfl⟩ := List.mem_map.mp hq
      exact nonneg x (by simp [hx])
    intro x hx
    rcases List.mem_cons.mp hx with rfl | hx
    · linarith
    · exact ih (fun x hx => nonneg x (by simp [hx])) (by linarith) x hx

/-- One step of two batteries with the same data.  `s` is the usable charge of the first, which covers all it can of the net load
    `N` and takes all it can of a surplus, up to `ε`; `S` that of the second, used in any way.  `V` is the loss of load of the second
    so far less that of the first. -/
theorem greedy_step {η K md mc N s S p a P A u U s₁ S₁ V δ ε rem : ℚ} (h0 : 0 < η) (h1 : η ≤ 1) (hε : 0 ≤ ε)
    (p0 : 0 ≤ p) (a0 : 0 ≤ a) (pa : p = 0 ∨ a = 0) (hs₁ : s₁ = s - p / η + η * a)
    (hrem : rem = N - (p - a)) (hu : u ≤ max 0 rem)
    (deficit : 0 ≤ N → 0 ≤ rem ∧ 0 ≤ p - a) (surplus : N ≤ 0 → rem ≤ 0 ∧ p - a ≤ 0)
    (top : ε < rem → p - a = min md s * η)
    (bottom : N ≤ ε → rem < -ε → p - a = -(min mc (K - s) / η))
    (P0 : 0 ≤ P) (A0 : 0 ≤ A) (PA : P = 0 ∨ A = 0) (Pmd : P ≤ md * η) (Amc : A ≤ mc / η)
    (hS₁ : S₁ = S - P / η + η * A) (S0 : 0 ≤ S₁) (SK : S₁ ≤ K) (U0 : 0 ≤ U) (hU : N - (P - A) ≤ U)
    (V0 : 0 ≤ V + δ) (hV : η * (S - s) ≤ V + δ) :
    0 ≤ V + (U - u) + (δ + ε) ∧ η * (S₁ - s₁) ≤ V + (U - u) + (δ + ε) := by
  have e1 : η * s₁ = η * s - p + η * (η * a) := by rw [hs₁]; field_simp
  have e2 : η * S₁ = η * S - P + η * (η * A) := by rw [hS₁]; field_simp
  have e3 : η * (S₁ - s₁) = η * (S - s) - (P - p) + η * (η * A) - η * (η * a) := by linarith
  have sq : ∀ x : ℚ, 0 ≤ x → η * (η * x) ≤ x := fun x hx => by
    have : η * x ≤ x := by nlinarith
    nlinarith
  have sq0 : ∀ x : ℚ, 0 ≤ x → 0 ≤ η * (η * x) := fun x hx => by positivity
  have hA := sq A A0
  have ha := sq a a0
  have hA0 := sq0 A A0
  have ha0 := sq0 a a0
  rcases le_or_gt 0 N with hN | hN
  · obtain ⟨d1, d2⟩ := deficit hN
    have ha : a = 0 := by rcases pa with rfl | rfl <;> linarith
    subst ha
    rw [max_eq_right d1] at hu
    refine ⟨?_, ?_⟩
    · rcases le_or_gt rem ε with hr | hr
      · linarith
      · have ht := top hr
        rcases le_total md s with hm | hm
        · rw [min_eq_left hm] at ht
          linarith
        · rw [min_eq_right hm] at ht
          have : P ≤ η * S + η * (η * A) := by nlinarith
          rcases PA with rfl | rfl
          · linarith
          · linarith
    · linarith
  · obtain ⟨d1, d2⟩ := surplus hN.le
    have hp : p = 0 := by rcases pa with rfl | rfl <;> linarith
    subst hp
    rw [max_eq_left d1] at hu
    refine ⟨by linarith, ?_⟩
    have more : A - a ≤ U + ε → η * (S₁ - s₁) ≤ V + (U - u) + (δ + ε) := by
      intro hc
      have : η * (η * (A - a)) ≤ U + ε := by
        rcases le_total 0 (A - a) with hx | hx
        · exact (sq _ hx).trans hc
        · have : η * (η * (A - a)) ≤ 0 := by
            have : η * (A - a) ≤ 0 := by nlinarith
            nlinarith
          linarith
      linarith
    rcases le_or_gt (-ε) rem with hr | hr
    · rcases PA with rfl | rfl
      · exact more (by linarith)
      · exact more (by linarith)
    · have hb := bottom (by linarith) hr
      rcases le_total mc (K - s) with hm | hm
      · rw [min_eq_left hm] at hb
        exact more (by linarith)
      · rw [min_eq_right hm] at hb
        have : η * a = K - s := by
          have : a = (K - s) / η := by linarith
          rw [this]; field_simp
        have : s₁ = K := by rw [hs₁]; simp; linarith
        nlinarith

section
variable {h : Heap} {mods : List (String × Nat)} {pl : List Element} {c : Nat} {g g' : Microgrid}
  {ctl : List (String × Ctrl)} {net rem : ℚ} {xs : List ℚ} {o : RunOut} {bat : String × Nat}

/-- What the balancing modules provide in a run. -/
def lossOf (h : Heap) (mods : List (String × Nat)) (o : RunOut) : ℚ :=
  (mods.map fun nm => (h nm.2).kind.ifBal (o.provBy nm.1)).sum

/-- What the balancing modules absorb in a run. -/
def overOf (h : Heap) (mods : List (String × Nat)) (o : RunOut) : ℚ :=
  (mods.map fun nm => (h nm.2).kind.ifBal (o.absBy nm.1)).sum

theorem lossTotal_cons (o : RunOut) (os : List RunOut) : lossTotal h mods (o :: os) = lossOf h mods o + lossTotal h mods os := by
  have e : ∀ os, lossTotal h mods os = (mods.map fun nm => (h nm.2).kind.ifBal (provTotal os nm.1)).sum := by
    intro os
    unfold lossTotal
    rw [← PriorityList.sum_filter_map mods (fun nm => (h nm.2).kind.isBalancing) (fun nm => (h nm.2).kind.ifBal (provTotal os nm.1))]
    · congr 1
      apply List.map_congr_left
      intro nm hm
      have := (List.mem_filter.mp hm).2
      cases hk : (h nm.2).kind <;> simp [hk, Kind.isBalancing] at this
      rfl
    · intro nm _ hf
      cases hk : (h nm.2).kind <;> simp [hk, Kind.isBalancing] at hf <;> rfl
  rw [e, e]
  unfold lossOf
  rw [← sum_map_add]
  congr 1
  apply List.map_congr_left
  intro nm _
  simp only [provTotal, List.map_cons, List.sum_cons]
  cases (h nm.2).kind <;> simp [Kind.ifBal]

/-- What any run loses: at least the net load that the controllable modules do not cover. -/
theorem Follows.any_loss (w : ∀ nm ∈ mods, (h nm.2).WF) (hb : ∃ nm ∈ mods, (h nm.2).kind.isBalancing = true)
    (notgrid : ∀ nm ∈ mods, (h nm.2).kind.isGrid = false) (a1 : Account h mods none c o) :
    0 ≤ lossOf h mods o ∧
    (mods.map fun nm => (h nm.2).kind.demand c).sum - (mods.map fun nm => (h nm.2).kind.harvest c).sum -
      (mods.map fun nm => if (h nm.2).ffc = .controllable then o.provBy nm.1 - o.absBy nm.1 else 0).sum ≤ lossOf h mods o := by
  have bal := a1.balance hb
  unfold lossOf
  set D := (mods.map fun nm => (h nm.2).kind.demand c).sum with hDdef
  set A := (mods.map fun nm => (h nm.2).kind.harvest c).sum with hAdef
  set R := (mods.map fun nm => (h nm.2).kind.ifRen (o.provBy nm.1)).sum with hRdef
  set Bp := (mods.map fun nm => (h nm.2).kind.ifBal (o.provBy nm.1)).sum with hBpdef
  set Ba := (mods.map fun nm => (h nm.2).kind.ifBal (o.absBy nm.1)).sum with hBadef
  set X := (mods.map fun nm => if (h nm.2).ffc = .controllable then o.provBy nm.1 - o.absBy nm.1 else 0).sum with hX
  have flow : X - D + R + Bp - Ba = 0 := by
    have : (mods.map fun nm => o.provBy nm.1 + -o.absBy nm.1).sum =
        (mods.map fun nm => (if (h nm.2).ffc = .controllable then o.provBy nm.1 - o.absBy nm.1 else 0) +
          -(h nm.2).kind.demand c + (h nm.2).kind.ifRen (o.provBy nm.1) + (h nm.2).kind.ifBal (o.provBy nm.1) +
          -(h nm.2).kind.ifBal (o.absBy nm.1)).sum := by
      congr 1
      apply List.map_congr_left
      intro nm hm
      by_cases hf : (h nm.2).ffc = .controllable
      · obtain ⟨z1, -, z3, z4⟩ := ctrl_zero (c := c) (w nm hm) hf (o.provBy nm.1)
        obtain ⟨-, -, -, z5⟩ := ctrl_zero (c := c) (w nm hm) hf (o.absBy nm.1)
        rw [if_pos hf, z1, z3, z4, z5]; ring
      · rw [if_neg hf]
        have := other_net (w nm hm) hf (a1.possible nm hm) (notgrid nm hm)
        linarith
    rw [sum_map_add, sum_map_neg, bal, sum_map_add, sum_map_add, sum_map_add, sum_map_add, sum_map_neg, sum_map_neg] at this
    linarith
  have pos : ∀ nm ∈ mods,
      (h nm.2).kind.ifRen (o.provBy nm.1) ≤ (h nm.2).kind.harvest c ∧ 0 ≤ (h nm.2).kind.ifBal (o.provBy nm.1) ∧
      0 ≤ (h nm.2).kind.ifBal (o.absBy nm.1) := by
    intro nm hm
    have hp := a1.possible nm hm
    cases hk : (h nm.2).kind <;> rw [hk] at hp <;> simp only [Kind.Possible] at hp <;>
      simp only [Kind.ifRen, Kind.ifBal, Kind.harvest, le_refl, true_and, and_true, and_self]
    · exact hp.2.1
    · exact ⟨hp.1, hp.2.1⟩
  have sumNonneg : ∀ F : String × Nat → ℚ, (∀ nm ∈ mods, 0 ≤ F nm) → 0 ≤ (mods.map F).sum := by
    intro F hF
    apply List.sum_nonneg
    intro q hq
    obtain ⟨nm, hm, rfl⟩ := List.mem_map.mp hq
    exact hF nm hm
  have hRA : R ≤ A := List.sum_le_sum fun nm hm => (pos nm hm).1
  have hBp0 : 0 ≤ Bp := sumNonneg _ fun nm hm => (pos nm hm).2.1
  have hBa0 : 0 ≤ Ba := sumNonneg _ fun nm hm => (pos nm hm).2.2
  exact ⟨hBp0, by linarith⟩

/-- What the modules of a list deliver together. -/
theorem Fits.delivered (fit : Fits h mods pl) (hn : (mods.map Prod.fst).Nodup) (len : xs.length = pl.length)
    (deliver : ∀ p ∈ pl.zip xs, o.provBy p.1.module.1 - o.absBy p.1.module.1 = p.2) :
    (mods.map fun nm => if (h nm.2).ffc = .controllable then o.provBy nm.1 - o.absBy nm.1 else 0).sum = xs.sum := by
  rw [← PriorityList.sum_filter_map mods (fun nm => decide ((h nm.2).ffc = .controllable)) _ (by
    intro nm _ hf
    rw [if_neg (by simpa using hf)])]
  rw [List.map_congr_left (g := fun nm => o.provBy nm.1 - o.absBy nm.1) (by
    intro nm hm
    rw [if_pos (by simpa using (List.mem_filter.mp hm).2)])]
  rw [fit.sum_eq hn (fun s => o.provBy s - o.absBy s)]
  have e1 : pl = (pl.zip xs).map Prod.fst := by rw [List.map_fst_zip]; exact len.ge
  have e2 : xs = (pl.zip xs).map Prod.snd := by rw [List.map_snd_zip]; exact len.le
  conv_lhs => rw [e1]
  conv_rhs => rw [e2]
  rw [List.map_map]
  congr 1
  apply List.map_congr_left
  intro p hp
  exact deliver p hp

/-- What a planned run delivers and loses: the modules of the list exchange what was planned, no more load is lost than
    remained, and no more is absorbed by balancing modules than was planned beyond the load. -/
theorem Follows.planned_loss (f : Follows h mods none g) (w : ∀ nm ∈ mods, (h nm.2).WF) (hid : (mods.map Prod.snd).Nodup)
    (hn : (mods.map Prod.fst).Nodup) (hb : ∃ nm ∈ mods, (h nm.2).kind.isBalancing = true)
    (notgrid : ∀ nm ∈ mods, (h nm.2).kind.isGrid = false) (hl : LockStep mods g c) (fit : Fits h mods pl)
    (hW : ∀ e ∈ pl, ∀ i lo hi, Denotes h mods e.module i → (g.heap i).planWindow e.action = some (lo, hi) → lo ≤ 0 ∧ 0 ≤ hi)
    (P : Planned g.heap mods pl ctl (netLoad g.heap mods) rem xs) (hr : g.run ctl false = (g', .ok o)) :
    (∀ p ∈ pl.zip xs, o.provBy p.1.module.1 - o.absBy p.1.module.1 = p.2) ∧ lossOf h mods o ≤ max 0 rem ∧
      overOf h mods o ≤ max 0 (xs.sum - (mods.map fun nm => (h nm.2).kind.demand c).sum) := by
  have hff : ∀ j, (g.heap j).ffc = (h j).ffc := fun j => (f.alike j).ffc
  have hD : ∀ {key i}, Denotes g.heap mods key i ↔ Denotes h mods key i := Denotes.congr hff
  have hsg : Supplies g.heap mods ctl := P.supplied
  have hs : Supplies h mods ctl := by
    intro nm hm hf
    have := hsg nm hm ((hff nm.2).trans hf)
    rwa [modulesNamed_congr hff] at this
  have live := f.ok.was_live hid hn hsg hr
  obtain ⟨a1, -, -⟩ := f.account hid hn hl hs hr
  have bal := a1.balance hb
  have deliver : ∀ p ∈ pl.zip xs, o.provBy p.1.module.1 - o.absBy p.1.module.1 = p.2 := by
    intro p hp
    obtain ⟨i, k, lo, hi, d1, d2, d3, d4, d5, -, -⟩ := P.each p hp
    have he := (List.of_mem_zip hp).1
    have hw' := hW p.1 he i lo hi (hD.mp d1) d4
    have d5' : lo ≤ p.2 ∧ p.2 ≤ hi := by
      rcases d5 with d5 | ⟨-, d5⟩
      · exact d5
      · linarith [hw'.1]
    obtain ⟨out, s1, s2, s3⟩ := f.ok.delivery hid hn hsg hr d1 d2 d3
    obtain ⟨j, hj1, hj2, hj3⟩ := fit.use.element p.1 he
    obtain rfl : j = i := Option.some.inj (hj1.symm.trans (hD.mp d1))
    have hcl : (g.heap j).kind.cls = (h j).kind.cls := by
      rw [← Kind.core_cls, f.core _ d1.mem.1, Kind.core_cls]
    obtain ⟨m', out', s1', s4⟩ := (f.ok.wf _ d1.mem.1).step_exact (live _ d1.mem.1) d1.mem.2
      (by simp only; rw [hcl, ← hj2]; exact hj3) d4 d5'
    simp only at s1'
    rw [s1] at s1'
    simp only [Prod.mk.injEq, Except.ok.injEq] at s1'
    rw [s2, s3, s1'.2, s4]
  refine ⟨deliver, ?_⟩
  unfold lossOf overOf
  set D := (mods.map fun nm => (h nm.2).kind.demand c).sum with hDdef
  set A := (mods.map fun nm => (h nm.2).kind.harvest c).sum with hAdef
  set R := (mods.map fun nm => (h nm.2).kind.ifRen (o.provBy nm.1)).sum with hRdef
  set Bp := (mods.map fun nm => (h nm.2).kind.ifBal (o.provBy nm.1)).sum with hBpdef
  set Ba := (mods.map fun nm => (h nm.2).kind.ifBal (o.absBy nm.1)).sum with hBadef
  have hX : (mods.map fun nm => if (h nm.2).ffc = .controllable then o.provBy nm.1 - o.absBy nm.1 else 0).sum = xs.sum :=
    fit.delivered hn P.len deliver
  have hnet := f.net_load w hl live
  rw [← hDdef, ← hAdef] at hnet
  have htot : rem = D - A - xs.sum := by rw [P.total, hnet]
  have flow : xs.sum - D + R + Bp - Ba = 0 := by
    have : (mods.map fun nm => o.provBy nm.1 + -o.absBy nm.1).sum =
        (mods.map fun nm => (if (h nm.2).ffc = .controllable then o.provBy nm.1 - o.absBy nm.1 else 0) +
          -(h nm.2).kind.demand c + (h nm.2).kind.ifRen (o.provBy nm.1) + (h nm.2).kind.ifBal (o.provBy nm.1) +
          -(h nm.2).kind.ifBal (o.absBy nm.1)).sum := by
      congr 1
      apply List.map_congr_left
      intro nm hm
      by_cases hf : (h nm.2).ffc = .controllable
      · obtain ⟨z1, -, z3, z4⟩ := ctrl_zero (c := c) (w nm hm) hf (o.provBy nm.1)
        obtain ⟨-, -, -, z5⟩ := ctrl_zero (c := c) (w nm hm) hf (o.absBy nm.1)
        rw [if_pos hf, z1, z3, z4, z5]; ring
      · rw [if_neg hf]
        have := other_net (w nm hm) hf (a1.possible nm hm) (notgrid nm hm)
        linarith
    rw [sum_map_add, sum_map_neg, bal, sum_map_add, sum_map_add, sum_map_add, sum_map_add, sum_map_neg, sum_map_neg, hX] at this
    linarith
  have pos : ∀ nm ∈ mods, 0 ≤ (h nm.2).kind.ifBal (o.provBy nm.1) := by
    intro nm hm
    have hp := a1.possible nm hm
    cases hk : (h nm.2).kind <;> rw [hk] at hp <;> simp only [Kind.Possible] at hp <;>
      simp only [Kind.ifBal, le_refl]
    exact hp.1
  have flexR : ∀ nm ∈ mods, (h nm.2).kind.ifRen 1 ≠ 0 ∨ (h nm.2).kind.ifBal 1 ≠ 0 → (g.heap nm.2).ffc = .flex := by
    intro nm hm hh
    rw [hff]
    cases w nm hm with
    | battery b h' => rw [h'.kind] at hh; simp [Kind.ifRen, Kind.ifBal] at hh
    | genset b h' => rw [h'.kind] at hh; simp [Kind.ifRen, Kind.ifBal] at hh
    | grid p t h' w => rw [h'.kind] at hh; simp [Kind.ifRen, Kind.ifBal] at hh
    | load t h' w => rw [h'.kind] at hh; simp [Kind.ifRen, Kind.ifBal] at hh
    | renewable t h' w => exact h'.ffc
    | balancing u h' => exact h'.ffc
  have zeroRen : ∀ nm ∈ mods, ∀ q, ((g.heap nm.2).ffc = .flex → q = 0) → (h nm.2).kind.ifRen q = 0 ∧ (h nm.2).kind.ifBal q = 0 := by
    intro nm hm q hq
    have := flexR nm hm
    cases hk : (h nm.2).kind <;> rw [hk] at this <;> simp [Kind.ifRen, Kind.ifBal] at this ⊢ <;> exact hq this
  have sumZero : ∀ F : String × Nat → ℚ, (∀ nm ∈ mods, F nm = 0) → (mods.map F).sum = 0 := by
    intro F hF
    rw [List.map_congr_left hF]
    simp
  rcases f.ok.flexible hid hn hsg hr with hfl | ⟨hfl, hus⟩
  · have b0 : Bp = 0 := sumZero _ fun nm hm => (zeroRen nm hm _ (hfl nm hm)).2
    have r0 : R = 0 := sumZero _ fun nm hm => (zeroRen nm hm _ (hfl nm hm)).1
    refine ⟨by rw [b0]; exact le_max_left _ _, ?_⟩
    have : Ba = xs.sum - D := by linarith
    rw [this]
    exact le_max_right _ _
  · have ba0 : Ba = 0 := sumZero _ fun nm hm => (zeroRen nm hm _ (hfl nm hm)).2
    refine ⟨?_, by rw [ba0]; exact le_max_left _ _⟩
    by_cases hz : ∃ nb ∈ mods, 0 < (h nb.2).kind.ifBal (o.provBy nb.1)
    · obtain ⟨nb, hmb, hpb⟩ := hz
      have hkb : ∃ u, (h nb.2).kind = .balancing u := by
        cases hk : (h nb.2).kind <;> rw [hk] at hpb <;> simp [Kind.ifBal] at hpb
        exact ⟨_, rfl⟩
      obtain ⟨u, hku⟩ := hkb
      rw [hku] at hpb
      simp only [Kind.ifBal] at hpb
      obtain ⟨u', hku'⟩ := core_balancing (f.core nb hmb) (by rw [hku]; rfl)
      have : A = R := by
        rw [hAdef, hRdef]
        congr 1
        apply List.map_congr_left
        intro np hmp
        cases hk : (h np.2).kind <;> simp only [Kind.harvest, Kind.ifRen]
        rename_i t
        have e := f.core np hmp
        rw [hk] at e
        obtain ⟨t', hk', hrows⟩ := core_ren_inv e
        rw [hus np hmp nb hmb t' u' hk' hku' hpb, hl np hmp, cell_of_rows hrows]
      have : Bp = rem := by linarith
      rw [this]
      exact le_max_right _ _
    · have b0 : Bp = 0 := sumZero _ fun nm hm => le_antisymm (not_lt.mp fun h1 => hz ⟨nm, hm, h1⟩) (pos nm hm)
      rw [b0]
      exact le_max_left _ _

theorem core_battery_inv {k : Kind} {b : Battery} (e : k.core = (Kind.battery b).core) :
    ∃ b', k = .battery b' ∧ b'.maxDischarge = b.maxDischarge ∧ b'.maxCharge = b.maxCharge ∧ b'.efficiency = b.efficiency ∧
      b'.minCapacity = b.minCapacity ∧ b'.maxCapacity = b.maxCapacity := by
  cases k <;> simp [Kind.core] at e
  rename_i b'
  refine ⟨b', rfl, ?_⟩
  simp_all

/-- The battery in a run. -/
theorem Follows.store_moves (f : Follows h mods none g) (f' : Follows h mods none g') (O : OneStore h mods bat)
    {b : Battery} (hk : (h bat.2).kind = .battery b) (a1 : Account h mods none c o)
    (a3 : ∀ nm ∈ mods, Moved (h nm.2).kind (g.heap nm.2).kind (g'.heap nm.2).kind (o.provBy nm.1) (o.absBy nm.1)) :
    (0 ≤ o.provBy bat.1 ∧ o.provBy bat.1 ≤ b.maxDischarge * b.efficiency ∧ 0 ≤ o.absBy bat.1 ∧
      o.absBy bat.1 ≤ b.maxCharge / b.efficiency ∧ (o.provBy bat.1 = 0 ∨ o.absBy bat.1 = 0)) ∧
    (g'.heap bat.2).kind.usable = (g.heap bat.2).kind.usable - o.provBy bat.1 / b.efficiency + b.efficiency * o.absBy bat.1 ∧
    0 ≤ (g'.heap bat.2).kind.usable ∧ (g'.heap bat.2).kind.usable ≤ b.maxCapacity - b.minCapacity := by
  have hp := a1.possible bat O.mem
  have hm := a3 bat O.mem
  have e₁ := f.core bat O.mem
  have e₂ := f'.core bat O.mem
  obtain ⟨u0, u1⟩ := usable_bounds (f'.ok.wf bat O.mem) e₂
  have hbt : (g.heap bat.2).kind.bottom = (g'.heap bat.2).kind.bottom := by
    rw [← Kind.bottom_core, e₁, ← e₂, Kind.bottom_core]
  rw [hk] at hp hm u1
  refine ⟨hp, ?_, u0, u1⟩
  rw [Kind.usable_eq, Kind.usable_eq, ← hbt]
  simp only [Moved, Kind.lost, Kind.cls, if_true] at hm
  rw [hm]
  ring

/-- The limits of the battery. -/
theorem Follows.store_window (f : Follows h mods none g) (O : OneStore h mods bat) {b : Battery}
    (hk : (h bat.2).kind = .battery b) (action : Nat) :
    (g.heap bat.2).planWindow action =
      some (-(min b.maxCharge (b.maxCapacity - b.minCapacity - (g.heap bat.2).kind.usable) / b.efficiency),
        min b.maxDischarge (g.heap bat.2).kind.usable * b.efficiency) := by
  have e := f.core bat O.mem
  rw [hk] at e
  obtain ⟨b', hk', e1, e2, e3, e4, e5⟩ := core_battery_inv e
  have : (g.heap bat.2).afterStatus (.arr [(action : ℚ), 0]) = g.heap bat.2 := by simp [Module.afterStatus, hk']
  unfold Module.planWindow
  rw [this]
  simp only [Module.window, hk', Kind.usable, e1, e2, e3, e4, e5]
  rw [show b.maxCapacity - b'.charge = b.maxCapacity - b.minCapacity - (b'.charge - b.minCapacity) by ring]

theorem Fits.one_store (fit : Fits h mods pl) (hn : (mods.map Prod.fst).Nodup) (O : OneStore h mods bat)
    (hf : (h bat.2).ffc = .controllable) : ∃ e, pl = [e] ∧ e.module = (bat.1, 0) := by
  have hd : Denotes h mods (bat.1, 0) bat.2 := by
    unfold Denotes
    rw [named_single hn O.mem hf]
    rfl
  have key : ∀ e ∈ pl, e.module = (bat.1, 0) := by
    intro e he
    obtain ⟨i, hi, -⟩ := fit.use.element e he
    have h1 := O.only _ hi.mem.1 hi.mem.2
    have h2 := hi
    unfold Denotes at h2
    have h3 : e.module.1 = bat.1 := by rw [← h1]
    rw [h3, named_single hn O.mem hf] at h2
    obtain ⟨h4, -⟩ := List.getElem?_eq_some_iff.mp h2
    exact Prod.ext h3 (by simpa using h4)
  obtain ⟨e, he, hem⟩ := List.mem_map.mp (fit.all _ _ hd)
  refine ⟨e, ?_, hem⟩
  have once := fit.use.once
  match pl, he, key, once with
  | [x], he, key, once => rw [List.mem_singleton.mp he]
  | x :: y :: l, he, key, once =>
    rw [List.map_cons, List.map_cons, key x (by simp), key y (by simp)] at once
    simp at once

/-- No controls lose less load than planned runs, up to the tolerance: two runs of equal length. -/
theorem Follows.greedy {gπ gπ' : Microgrid} (f : Follows h mods none g) (fπ : Follows h mods none gπ) (w : ∀ nm ∈ mods, (h nm.2).WF)
    (hid : (mods.map Prod.snd).Nodup)
    (hn : (mods.map Prod.fst).Nodup) (hb : ∃ nm ∈ mods, (h nm.2).kind.isBalancing = true) (O : OneStore h mods bat)
    {b : Battery} (hk : (h bat.2).kind = .battery b)
    (hl : LockStep mods g c) (hlπ : LockStep mods gπ c) (fit : Fits h mods pl) {os os' : List RunOut}
    (P : PlannedRuns mods pl g os g') {cs : List (List (String × Ctrl) × Bool)}
    (hr : Runs gπ cs os' gπ') (hs : ∀ cn ∈ cs, Supplies h mods cn.1) (hlen : os'.length = os.length) {V δ : ℚ}
    (V0 : 0 ≤ V + δ) (hV : b.efficiency * ((gπ.heap bat.2).kind.usable - (g.heap bat.2).kind.usable) ≤ V + δ) :
    lossTotal h mods os ≤ lossTotal h mods os' + V + δ + os.length * (1/10000) ∧ ∀ o ∈ os, overOf h mods o = 0 := by
  induction P generalizing c gπ cs os' V δ with
  | nil g =>
    obtain rfl : os' = [] := by simpa using hlen
    simp only [List.length_nil, Nat.cast_zero, zero_mul]
    exact ⟨by linarith, by simp⟩
  | @cons g g₁ g' ctl rem xs o os plan run rest ih =>
    cases hr with
    | nil => simp at hlen
    | @cons _ gπ₁ _ ctl' n o' cs os' run' rest' =>
      have hff : ∀ j, (g.heap j).ffc = (h j).ffc := fun j => (f.alike j).ffc
      have hs₁ : Supplies h mods ctl := by
        intro nm hm hf
        have := plan.supplied nm hm ((hff nm.2).trans hf)
        rwa [modulesNamed_congr hff] at this
      have live := f.ok.was_live hid hn plan.supplied run
      obtain ⟨a1, a2, a3⟩ := f.account hid hn hl hs₁ run
      obtain ⟨b1, b2, b3⟩ := fπ.account hid hn hlπ (hs (ctl', n) (by simp)) run'
      have f₁ := f.run run
      have fπ₁ := fπ.run run'
      have wb : (h bat.2).BattWF b := by
        have := w bat O.mem
        cases this with
        | battery b' h' => have := h'.kind; rw [hk] at this; cases this; exact h'
        | genset _ h' => have := h'.kind; rw [hk] at this; simp at this
        | grid _ _ h' => have := h'.kind; rw [hk] at this; simp at this
        | load _ h' => have := h'.kind; rw [hk] at this; simp at this
        | renewable _ h' => have := h'.kind; rw [hk] at this; simp at this
        | balancing _ h' => have := h'.kind; rw [hk] at this; simp at this
      have notgrid : ∀ nm ∈ mods, (h nm.2).kind.isGrid = false := by
        intro nm hm
        by_contra hc
        cases hk : (h nm.2).kind <;> simp [hk, Kind.isGrid] at hc
        exact O.off nm hm _ _ hk
      obtain ⟨e, hpl, hem⟩ := fit.one_store hn O wb.ffc
      have hd : Denotes h mods e.module bat.2 := by
        unfold Denotes
        rw [hem, named_single hn O.mem wb.ffc]
        rfl
      have win := fun action => f.store_window O hk action
      have hu := usable_bounds (f.ok.wf bat O.mem) (f.core bat O.mem)
      rw [hk] at hu
      simp only [Kind.room] at hu
      have v := wb.valid
      have hlo : 0 ≤ min b.maxCharge (b.maxCapacity - b.minCapacity - (g.heap bat.2).kind.usable) / b.efficiency :=
        div_nonneg (le_min v.maxCharge_nonneg (by linarith [hu.2])) v.eff_pos.le
      have hhi : 0 ≤ min b.maxDischarge (g.heap bat.2).kind.usable * b.efficiency :=
        mul_nonneg (le_min v.maxDischarge_nonneg hu.1) v.eff_pos.le
      have hW : ∀ e ∈ pl, ∀ i lo hi, Denotes h mods e.module i → (g.heap i).planWindow e.action = some (lo, hi) →
          lo ≤ 0 ∧ 0 ≤ hi := by
        intro e' he' i lo hi hd' hwin
        rw [hpl, List.mem_singleton] at he'
        subst he'
        obtain rfl : i = bat.2 := Option.some.inj (hd'.symm.trans hd)
        rw [win] at hwin
        obtain ⟨rfl, rfl⟩ := Prod.mk.inj (Option.some.inj hwin)
        exact ⟨by linarith, hhi⟩
      obtain ⟨deliver, loss, over⟩ := f.planned_loss w hid hn hb notgrid hl fit hW plan run
      obtain ⟨l0, l1⟩ := Follows.any_loss w hb notgrid b1
      obtain ⟨⟨p0, p1, q0, q1, pq⟩, mv, u0, u1⟩ := f.store_moves f₁ O hk a1 a3
      obtain ⟨⟨P0, P1, Q0, Q1, PQ⟩, Mv, U0, U1⟩ := fπ.store_moves fπ₁ O hk b1 b3
      have hone : ∀ (F : String × Nat → ℚ), (mods.map fun nm => if (h nm.2).ffc = .controllable then F nm else 0).sum = F bat := by
        intro F
        rw [← PriorityList.sum_filter_map mods (fun nm => decide ((h nm.2).ffc = .controllable)) _ (by
          intro nm _ hf
          rw [if_neg (by simpa using hf)])]
        have : mods.filter (fun nm => decide ((h nm.2).ffc = .controllable)) = [bat] := by
          have nd : (mods.filter fun nm => decide ((h nm.2).ffc = .controllable)).Nodup := (List.Nodup.of_map _ hn).filter _
          exact eq_singleton nd (List.mem_filter.mpr ⟨O.mem, by simp [wb.ffc]⟩) fun nm hm =>
            O.only nm (List.mem_filter.mp hm).1 (by simpa using (List.mem_filter.mp hm).2)
        rw [this]
        simp [wb.ffc]
      rw [hone fun nm => o'.provBy nm.1 - o'.absBy nm.1, ← f.net_load w hl live] at l1
      obtain ⟨x, hxs⟩ : ∃ x, xs = [x] := by
        have := plan.len
        rw [hpl] at this
        simpa [List.length_eq_one_iff] using this
      have hx := deliver (e, x) (by rw [hpl, hxs]; simp)
      simp only [hem] at hx
      obtain ⟨i, k, lo, hi, d1, -, -, d4, -, d6, d7⟩ := plan.each (e, x) (by rw [hpl, hxs]; simp)
      obtain rfl : i = bat.2 := Option.some.inj (((Denotes.congr hff).mp d1).symm.trans hd)
      rw [win] at d4
      obtain ⟨rfl, rfl⟩ := Prod.mk.inj (Option.some.inj d4)
      have hrem := plan.total
      rw [hxs] at hrem
      simp only [List.sum_cons, List.sum_nil, add_zero] at hrem
      have NoMin : ∀ e ∈ pl, ∀ i lo hi, Denotes g.heap mods e.module i → (g.heap i).planWindow e.action = some (lo, hi) → lo ≤ 0 :=
        fun e he i lo hi hd hw => (hW e he i lo hi ((Denotes.congr hff).mp hd) hw).1
      have key := greedy_step (η := b.efficiency) (K := b.maxCapacity - b.minCapacity) (md := b.maxDischarge) (mc := b.maxCharge)
        (N := netLoad g.heap mods) (ε := 1/10000) (rem := rem) v.eff_pos v.eff_le (by norm_num) p0 q0 pq mv
        (by rw [hx]; exact hrem) loss
        (fun h0 => by
          have := plan.merit.deficit NoMin h0
          rw [hx]
          exact ⟨this.1, this.2 x (by rw [hxs]; simp)⟩)
        (fun h0 => by
          have := plan.merit.surplus h0
          rw [hx]
          exact ⟨this.1, this.2 x (by rw [hxs]; simp)⟩)
        (fun h0 => by rw [hx]; exact d6 h0)
        (fun h0 h1 => by rw [hx]; exact (d7 h0 h1).trans (min_eq_left (by linarith)))
        P0 Q0 PQ P1 Q1 Mv U0 U1 l0 l1 V0 hV
      obtain ⟨r1, r2⟩ := ih f₁ fπ₁ a2 b2 rest' (fun cn hcn => hs cn (by simp [hcn])) (by simpa using hlen) key.1 key.2
      constructor
      · rw [lossTotal_cons, lossTotal_cons]
        simp only [List.length_cons]
        push_cast
        linarith
      · intro o₁ ho₁
        rcases List.mem_cons.mp ho₁ with rfl | ho₁
        · have bal0 : 0 ≤ overOf h mods o₁ := by
            apply List.sum_nonneg
            intro q hq
            obtain ⟨nm, hm, rfl⟩ := List.mem_map.mp hq
            have hp := a1.possible nm hm
            cases hk : (h nm.2).kind <;> rw [hk] at hp <;> simp only [Kind.Possible] at hp <;> simp only [Kind.ifBal, le_refl]
            exact hp.2.1
          have D0 : 0 ≤ (mods.map fun nm => (h nm.2).kind.demand c).sum := by
            apply List.sum_nonneg
            intro q hq
            obtain ⟨nm, hm, rfl⟩ := List.mem_map.mp hq
            cases (h nm.2).kind <;> simp [Kind.demand]
          have A0 : 0 ≤ (mods.map fun nm => (h nm.2).kind.harvest c).sum := by
            apply List.sum_nonneg
            intro q hq
            obtain ⟨nm, hm, rfl⟩ := List.mem_map.mp hq
            have hp := a1.possible nm hm
            cases hk : (h nm.2).kind <;> rw [hk] at hp <;> simp only [Kind.Possible] at hp <;> simp only [Kind.harvest, le_refl]
            linarith [hp.1, hp.2.1]
          have hnet := f.net_load w hl live
          have : xs.sum - (mods.map fun nm => (h nm.2).kind.demand c).sum ≤ 0 := by
            rw [hxs]
            simp only [List.sum_cons, List.sum_nil, add_zero]
            rcases le_total 0 (netLoad g.heap mods) with h0 | h0
            · have := (plan.merit.deficit NoMin h0).1
              linarith
            · have := (plan.merit.surplus h0).2 x (by rw [hxs]; simp)
              linarith
          rw [max_eq_left this] at over
          exact le_antisymm over bal0
        · exact r2 o₁ ho₁

/-- Planned runs are runs of some controls. -/
theorem PlannedRuns.runs (f : Follows h mods none g) {os : List RunOut} (P : PlannedRuns mods pl g os g') :
    ∃ cs, Runs g cs os g' ∧ ∀ cn ∈ cs, Supplies h mods cn.1 := by
  induction P with
  | nil g => exact ⟨[], .nil g, by simp⟩
  | @cons g g₁ g' ctl rem xs o os plan run rest ih =>
    obtain ⟨cs, h1, h2⟩ := ih (f.run run)
    have hff : ∀ j, (g.heap j).ffc = (h j).ffc := fun j => (f.alike j).ffc
    refine ⟨(ctl, false) :: cs, .cons run h1, ?_⟩
    intro cn hcn
    rcases List.mem_cons.mp hcn with rfl | hcn
    · intro nm hm hf
      have := plan.supplied nm hm ((hff nm.2).trans hf)
      rwa [modulesNamed_congr hff] at this
    · exact h2 cn hcn

end

end Pymgrid
