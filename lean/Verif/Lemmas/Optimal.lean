import Verif.Spec.Optimal
import Verif.Lemmas.Dual
import Verif.Lemmas.RBC
import Verif.Lemmas.Report

set_option autoImplicit false

/-! Rule-based control where there is nothing to plan ahead. -/

namespace Pymgrid

open Module

/-- The module that sets the price: the last one that is used. -/
theorem price_setter {α : Type} (l : List α) (amt unit : α → ℚ) (full : α → Prop)
    (h : l.Pairwise fun p q => (0 < amt q → full p) ∧ unit p ≤ unit q) :
    (∀ e ∈ l, amt e ≤ 0) ∨
      ∃ q ∈ l, 0 < amt q ∧ ∀ e ∈ l, (unit e < unit q → full e) ∧ (0 < amt e → unit e ≤ unit q) := by
  induction l with
  | nil => left; simp
  | cons p l ih =>
    rw [List.pairwise_cons] at h
    rcases ih h.2 with h0 | ⟨q, hq, hpos, hall⟩
    · rcases le_or_gt (amt p) 0 with hp | hp
      · left
        simpa using ⟨hp, h0⟩
      · right
        refine ⟨p, by simp, hp, ?_⟩
        intro e he
        rcases List.mem_cons.mp he with rfl | he
        · exact ⟨fun h => absurd h (lt_irrefl _), fun _ => le_rfl⟩
        · exact ⟨fun hlt => absurd (h.1 e he).2 (not_le.mpr hlt), fun h1 => absurd (h0 e he) (not_le.mpr h1)⟩
    · right
      refine ⟨q, by simp [hq], hpos, ?_⟩
      intro e he
      rcases List.mem_cons.mp he with rfl | he
      · exact ⟨fun _ => (h.1 q hq).1 hpos, fun _ => (h.1 q hq).2⟩
      · exact hall e he

/-- What a module that offers `hi` at price `u`, and buys `lo` at price `v`, does at price `x` if it delivers `d` (absorbs, if
    negative). -/
structure Responds (u v lo hi x d : ℚ) : Prop where
  within : lo ≤ d ∧ d ≤ hi
  sell : u < x → d = hi
  sold : 0 < d → u ≤ x
  buy : x < v → d = lo
  bought : d < 0 → x ≤ v

/-- Such a module earns what can be earned. -/
theorem Responds.best {u v lo hi x d p a : ℚ} (r : Responds u v lo hi x d) (huv : v ≤ u) (hlo : lo ≤ 0) (hhi : 0 ≤ hi)
    (hp : 0 ≤ p) (ha : 0 ≤ a) (hpa : p = 0 ∨ a = 0) (hd : p - a = d) :
    max (max 0 (x - u) * hi) (max 0 (v - x) * (-lo)) = x * (p - a) - (u * p - v * a) := by
  rcases lt_or_ge u x with h1 | h1
  · have h2 := r.sell h1
    have h0 : a = 0 := by
      rcases hpa with h | h
      · linarith
      · exact h
    have hpd : p = hi := by linarith
    rw [max_eq_right (by linarith : 0 ≤ x - u), max_eq_left (by linarith : v - x ≤ 0), zero_mul, h0, hpd,
      max_eq_left (mul_nonneg (by linarith) hhi)]
    ring
  · have e1 : (x - u) * p = 0 := by
      rcases hp.eq_or_lt with h | h
      · rw [← h]; ring
      · have ha0 : a = 0 := by
          rcases hpa with h' | h'
          · linarith
          · exact h'
        have := r.sold (by linarith)
        have : x - u = 0 := by linarith
        rw [this]; ring
    rw [max_eq_left (by linarith : x - u ≤ 0), zero_mul]
    rcases lt_or_ge x v with h2 | h2
    · have h3 := r.buy h2
      have hp0 : p = 0 := by
        rcases hpa with h | h
        · exact h
        · linarith
      rw [max_eq_right (by linarith : 0 ≤ v - x), max_eq_right (mul_nonneg (by linarith) (by linarith))]
      have : a = -lo := by linarith
      rw [this, hp0]
      ring
    · rw [max_eq_left (by linarith : v - x ≤ 0), zero_mul, max_self]
      have e2 : (v - x) * a = 0 := by
        rcases ha.eq_or_lt with h | h
        · rw [← h]; ring
        · have hp0 : p = 0 := by
            rcases hpa with h' | h'
            · exact h'
            · linarith
          have := r.bought (by linarith)
          have : v - x = 0 := by linarith
          rw [this]; ring
      linarith

namespace Module

theorem WF.toRen {m : Module} {t : TS} (h : m.WF) (hk : m.kind = .renewable t) : m.RenWF t := by
  cases h with
  | renewable t' h' w => rwa [← show t' = t by have := h'.kind; rw [hk] at this; simpa using this.symm]
  | battery b h' => have := h'.kind; simp [hk] at this
  | genset g h' => have := h'.kind; simp [hk] at this
  | grid p t h' w => have := h'.kind; simp [hk] at this
  | load t h' w => have := h'.kind; simp [hk] at this
  | balancing u h' => have := h'.kind; simp [hk] at this

theorem WF.toGrid {m : Module} {p : GridParams} {t : TS} (h : m.WF) (hk : m.kind = .grid p t) : m.GridWF p t := by
  cases h with
  | grid p' t' h' w =>
    have := h'.kind
    rw [hk] at this
    simp only [Kind.grid.injEq] at this
    rw [this.1, this.2]
    exact h'
  | battery b h' => have := h'.kind; simp [hk] at this
  | genset g h' => have := h'.kind; simp [hk] at this
  | renewable t h' w => have := h'.kind; simp [hk] at this
  | load t h' w => have := h'.kind; simp [hk] at this
  | balancing u h' => have := h'.kind; simp [hk] at this

end Module

/-- A number that belongs to the module of a key. -/
def ofKey (h : Heap) (mods : List (String × Nat)) (f : Module → ℚ) (key : String × Nat) : ℚ :=
  ((modulesNamed h mods .controllable key.1)[key.2]?).elim 0 fun i => f (h i)

theorem ofKey_eq {h : Heap} {mods : List (String × Nat)} (f : Module → ℚ) {key : String × Nat} {i : Nat}
    (hd : Denotes h mods key i) : ofKey h mods f key = f (h i) := by
  unfold ofKey
  rw [show (modulesNamed h mods .controllable key.1)[key.2]? = some i from hd]
  rfl

theorem Kind.resale_zero {k : Kind} (hk : k.isGrid = false) (c : Nat) : k.resale c = 0 := by
  cases k <;> first | rfl | simp [Kind.isGrid] at hk

theorem pairwise_zip {α β : Type} {R : α → α → Prop} {l : List α} (h : l.Pairwise R) (m : List β) :
    (l.zip m).Pairwise fun p q => R p.1 q.1 := by
  induction l generalizing m with
  | nil => simp
  | cons a l ih =>
    cases m with
    | nil => simp
    | cons b m =>
      rw [List.pairwise_cons] at h
      rw [List.zip_cons_cons, List.pairwise_cons]
      exact ⟨fun q hq => h.1 q.1 (List.of_mem_zip hq).1, ih h.2 m⟩

section
variable {h : Heap} {mods : List (String × Nat)} {pl : List Element} {L : ℚ} {c : Nat} {g : Microgrid}
  {ctl : List (String × Ctrl)} {net rem : ℚ} {xs : List ℚ}

/-- The price of energy in a step that is run on a planned control. -/
theorem Planned.price (P : Planned g.heap mods pl ctl net rem xs) (hff : ∀ j, (g.heap j).ffc = (h j).ffc)
    (O : OrderedByPrice h mods pl L c 1)
    (W : ∀ e ∈ pl, ∀ i lo hi, Denotes h mods e.module i → (g.heap i).planWindow e.action = some (lo, hi) →
      lo ≤ 0 ∧ 0 ≤ hi ∧ ((h i).kind.isGrid = false → lo = 0))
    (hres : ∀ key i, Denotes h mods key i → 0 ≤ (h i).kind.resale c) :
    ∃ x, 0 ≤ x ∧ x ≤ L ∧ (1/10000 < rem → x = L) ∧ (rem < -(1/10000) → x = 0) ∧
      ∀ p ∈ pl.zip xs, ∀ i lo hi, Denotes h mods p.1.module i → (g.heap i).planWindow p.1.action = some (lo, hi) →
        Responds ((h i).kind.unitPrice c) ((h i).kind.resale c) lo hi x p.2 := by
  have hD : ∀ {key i}, Denotes g.heap mods key i ↔ Denotes h mods key i := Denotes.congr hff
  have hl : c ≤ c := le_rfl
  have hu : c < c + 1 := by omega
  obtain ⟨b, b0, bL, hb⟩ := O.between c hl hu
  have key : ∀ p ∈ pl.zip xs, ∃ i lo hi, Denotes h mods p.1.module i ∧ (g.heap i).planWindow p.1.action = some (lo, hi) ∧
      lo ≤ p.2 ∧ p.2 ≤ hi ∧ lo ≤ 0 ∧ 0 ≤ hi ∧ ((h i).kind.isGrid = false → lo = 0) ∧
      (1/10000 < rem → p.2 = hi) ∧ (net ≤ 1/10000 → rem < -(1/10000) → p.2 = lo) := by
    intro p hp
    obtain ⟨i, k, lo, hi, d1, -, -, d2, d3, d4, d5⟩ := P.each p hp
    obtain ⟨w1, w2, w3⟩ := W p.1 (List.of_mem_zip hp).1 i lo hi (hD.mp d1) d2
    have d3' : lo ≤ p.2 ∧ p.2 ≤ hi := by
      rcases d3 with d3 | ⟨-, d3⟩
      · exact d3
      · linarith
    exact ⟨i, lo, hi, hD.mp d1, d2, d3'.1, d3'.2, w1, w2, w3, d4, fun h1 h2 => by rw [d5 h1 h2, min_eq_left w1]⟩
  have uniq : ∀ {k i i'}, Denotes h mods k i → Denotes h mods k i' → i' = i := fun h1 h2 =>
    Option.some.inj (h2.symm.trans h1)
  -- it is enough to say how the elements respond
  have conc : ∀ x, (∀ p ∈ pl.zip xs, ∀ i lo hi, Denotes h mods p.1.module i → (g.heap i).planWindow p.1.action = some (lo, hi) →
        lo ≤ p.2 → p.2 ≤ hi → ((h i).kind.isGrid = false → lo = 0) →
        Responds ((h i).kind.unitPrice c) ((h i).kind.resale c) lo hi x p.2) →
      ∀ p ∈ pl.zip xs, ∀ i lo hi, Denotes h mods p.1.module i → (g.heap i).planWindow p.1.action = some (lo, hi) →
        Responds ((h i).kind.unitPrice c) ((h i).kind.resale c) lo hi x p.2 := by
    intro x H p hp i lo hi hd hw
    obtain ⟨i', lo', hi', k1, k2, k3, k4, -, -, k5, -⟩ := key p hp
    obtain rfl := uniq hd k1
    rw [hw] at k2
    obtain ⟨rfl, rfl⟩ := Prod.mk.inj (Option.some.inj k2)
    exact H p hp i' lo hi hd hw k3 k4 k5
  have topOf : ∀ p ∈ pl.zip xs, ∀ i lo hi, Denotes h mods p.1.module i → (g.heap i).planWindow p.1.action = some (lo, hi) →
      AtTop g.heap mods p → p.2 = hi := fun p _ i lo hi hd hw ht => ht i lo hi (hD.mpr hd) hw
  have NoMin : ∀ e ∈ pl, ∀ i lo hi, Denotes g.heap mods e.module i → (g.heap i).planWindow e.action = some (lo, hi) → lo ≤ 0 :=
    fun e he i lo hi hd hw => (W e he i lo hi (hD.mp hd) hw).1
  have xmem : ∀ p ∈ pl.zip xs, p.2 ∈ xs := fun p hp => (List.of_mem_zip hp).2
  rcases le_or_gt 0 net with hnet | hnet
  · -- a load
    obtain ⟨hr0, hx0⟩ := P.merit.deficit NoMin hnet
    rcases lt_or_ge (1/10000) rem with hrem | hrem
    · refine ⟨L, b0.trans bL, le_rfl, fun _ => rfl, fun h' => by linarith, conc L ?_⟩
      intro p hp i lo hi hd hw w1 w2 w3
      obtain ⟨i', lo', hi', k1, k2, -, -, -, -, -, k6, -⟩ := key p hp
      obtain rfl := uniq hd k1
      rw [hw] at k2
      obtain ⟨rfl, rfl⟩ := Prod.mk.inj (Option.some.inj k2)
      have h1 := O.worth c hl hu _ _ hd
      have h2 := hb _ _ hd
      exact ⟨⟨w1, w2⟩, fun _ => k6 hrem, fun _ => h1, fun h' => by linarith [h2.1],
        fun h' => absurd (hx0 _ (xmem p hp)) (not_le.mpr h')⟩
    · -- covered
      have hpw : (pl.zip xs).Pairwise fun p q => (0 < q.2 → AtTop g.heap mods p) ∧
          ofKey h mods (fun m => m.kind.unitPrice c) p.1.module ≤ ofKey h mods (fun m => m.kind.unitPrice c) q.1.module := by
        refine P.merit.produce.and ((List.Pairwise.and_mem.mp (pairwise_zip (O.cheap c hl hu) xs)).imp ?_)
        intro p q hh
        obtain ⟨i, -, -, k1, -⟩ := key p hh.1
        obtain ⟨i', -, -, k1', -⟩ := key q hh.2.1
        rw [ofKey_eq _ k1, ofKey_eq _ k1']
        exact hh.2.2 i i' k1 k1'
      rcases price_setter (pl.zip xs) (fun p => p.2) (fun p => ofKey h mods (fun m => m.kind.unitPrice c) p.1.module)
          (AtTop g.heap mods) hpw with hno | ⟨q, hq, hqp, hall⟩
      · refine ⟨b, b0, bL, fun h' => by linarith, fun h' => by linarith, conc b ?_⟩
        intro p hp i lo hi hd hw w1 w2 w3
        have h2 := hb _ _ hd
        exact ⟨⟨w1, w2⟩, fun h' => by linarith [h2.2], fun h' => absurd (hno p hp) (not_le.mpr h'), fun h' => by linarith [h2.1],
          fun h' => absurd (hx0 _ (xmem p hp)) (not_le.mpr h')⟩
      · obtain ⟨iq, -, -, kq, -⟩ := key q hq
        have h3 := hb _ _ kq
        refine ⟨(h iq).kind.unitPrice c, by linarith [h3.2], O.worth c hl hu _ _ kq, fun h' => by linarith, fun h' => by linarith,
          conc _ ?_⟩
        intro p hp i lo hi hd hw w1 w2 w3
        have h2 := hb _ _ hd
        obtain ⟨a1, a2⟩ := hall p hp
        rw [ofKey_eq _ hd, ofKey_eq _ kq] at a1 a2
        exact ⟨⟨w1, w2⟩, fun h' => topOf p hp i lo hi hd hw (a1 h'), a2, fun h' => by linarith [h2.1, h3.2],
          fun h' => absurd (hx0 _ (xmem p hp)) (not_le.mpr h')⟩
  · -- a surplus
    obtain ⟨hr0, hx0⟩ := P.merit.surplus hnet.le
    have hnet' : net ≤ 1/10000 := by linarith
    rcases lt_or_ge rem (-(1/10000)) with hrem | hrem
    · refine ⟨0, le_rfl, b0.trans bL, fun h' => by linarith, fun _ => rfl, conc 0 ?_⟩
      intro p hp i lo hi hd hw w1 w2 w3
      obtain ⟨i', lo', hi', k1, k2, -, -, -, -, -, -, k6⟩ := key p hp
      obtain rfl := uniq hd k1
      rw [hw] at k2
      obtain ⟨rfl, rfl⟩ := Prod.mk.inj (Option.some.inj k2)
      have h2 := hb _ _ hd
      exact ⟨⟨w1, w2⟩, fun h' => by linarith [h2.2], fun h' => absurd (hx0 _ (xmem p hp)) (not_le.mpr h'), fun _ => k6 hnet' hrem,
        fun _ => hres _ _ hd⟩
    · -- absorbed
      set isG : Element × ℚ → Bool := fun p => decide (ofKey h mods (fun m => if m.kind.isGrid then 1 else 0) p.1.module = 1) with hG
      have hGi : ∀ {p : Element × ℚ} {i}, Denotes h mods p.1.module i → (isG p = true ↔ (h i).kind.isGrid = true) := by
        intro p i hd
        simp only [hG, ofKey_eq _ hd, decide_eq_true_eq]
        split <;> simp_all
      have hpw : ((pl.zip xs).filter isG).Pairwise fun p q => (0 < -q.2 → AtBottom g.heap mods p) ∧
          -ofKey h mods (fun m => m.kind.resale c) p.1.module ≤ -ofKey h mods (fun m => m.kind.resale c) q.1.module := by
        have h1 := ((P.merit.absorb hnet').filter isG).and
          (List.Pairwise.and_mem.mp ((pairwise_zip (O.resale c hl hu) xs).filter isG))
        refine h1.imp ?_
        intro p q hh
        obtain ⟨hh0, hh1, hh2, hh3⟩ := hh
        obtain ⟨hp1, hp2⟩ := List.mem_filter.mp hh1
        obtain ⟨hq1, hq2⟩ := List.mem_filter.mp hh2
        obtain ⟨i, -, -, k1, -⟩ := key p hp1
        obtain ⟨i', -, -, k1', -⟩ := key q hq1
        rw [ofKey_eq _ k1, ofKey_eq _ k1']
        exact ⟨fun h' => hh0 (by linarith), neg_le_neg (hh3 i i' k1 k1' ((hGi k1).mp hp2) ((hGi k1').mp hq2))⟩
      have hneg : ∀ p ∈ pl.zip xs, ∀ i lo, Denotes h mods p.1.module i → lo ≤ p.2 → ((h i).kind.isGrid = false → lo = 0) →
          p.2 < 0 → p ∈ (pl.zip xs).filter isG := by
        intro p hp i lo hd w1 w3 h0
        refine List.mem_filter.mpr ⟨hp, (hGi hd).mpr ?_⟩
        by_contra hc
        have := w3 (by simpa using hc)
        linarith
      rcases price_setter ((pl.zip xs).filter isG) (fun p => -p.2) (fun p => -ofKey h mods (fun m => m.kind.resale c) p.1.module)
          (AtBottom g.heap mods) hpw with hno | ⟨q, hq, hqp, hall⟩
      · refine ⟨b, b0, bL, fun h' => by linarith, fun h' => by linarith, conc b ?_⟩
        intro p hp i lo hi hd hw w1 w2 w3
        have h2 := hb _ _ hd
        refine ⟨⟨w1, w2⟩, fun h' => by linarith [h2.2], fun h' => absurd (hx0 _ (xmem p hp)) (not_le.mpr h'),
          fun h' => by linarith [h2.1], fun h' => ?_⟩
        have := hno p (hneg p hp i lo hd w1 w3 h')
        linarith
      · obtain ⟨hq1, hq2⟩ := List.mem_filter.mp hq
        obtain ⟨iq, -, -, kq, -⟩ := key q hq1
        have h3 := hb _ _ kq
        refine ⟨(h iq).kind.resale c, hres _ _ kq, by linarith [h3.1], fun h' => by linarith, fun h' => by linarith, conc _ ?_⟩
        intro p hp i lo hi hd hw w1 w2 w3
        have h2 := hb _ _ hd
        refine ⟨⟨w1, w2⟩, fun h' => by linarith [h2.2, h3.1], fun h' => absurd (hx0 _ (xmem p hp)) (not_le.mpr h'),
          fun h' => ?_, fun h' => ?_⟩
        · rcases hg : (h i).kind.isGrid with _ | _
          · have h0 := Kind.resale_zero hg c
            linarith [hres _ _ kq]
          · have a1 := (hall p (List.mem_filter.mpr ⟨hp, (hGi hd).mpr hg⟩)).1
            rw [ofKey_eq _ hd, ofKey_eq _ kq] at a1
            have := a1 (by linarith) i lo hi (hD.mpr hd) hw
            rw [this]
            exact min_eq_left (w1.trans (hx0 _ (xmem p hp)))
        · have a2 := (hall p (hneg p hp i lo hd w1 w3 h')).2 (by linarith)
          rw [ofKey_eq _ hd, ofKey_eq _ kq] at a2
          linarith

end

section
variable {mods : List (String × Nat)} {g g' : Microgrid} {ctl : List (String × Ctrl)} {n : Bool} {o : RunOut}

/-- What the results of a run say about one of its events. -/
theorem RunInfo.told {trF trC trX : List Event} {h₁ h₂ : Heap} {ci : CostInfo} (ok : GridOK mods g)
    (hid : (mods.map Prod.snd).Nodup) (hn : (mods.map Prod.fst).Nodup)
    (hs : Supplies g.heap mods ctl) (r : RunInfo g ctl n g' o trF trC trX h₁ h₂ ci) {e : Event} (he : e ∈ trF ++ trC ++ trX) :
    (g.heap e.id).step e.act e.normalized = (g'.heap e.id, .ok e.out) ∧ o.provBy e.name = e.out.info.provided.getD 0 ∧
      o.absBy e.name = e.out.info.absorbed.getD 0 := by
  have hp := ok.events_perm (unique_clear hn) hs r
  have hnn : ((trF ++ trC ++ trX).map Event.name).Nodup := by
    have := (hp.map Prod.fst).nodup_iff.mpr hn
    rwa [List.map_map] at this
  refine ⟨r.exec.once ?_ he, ?_, ?_⟩
  · have := (hp.map Prod.snd).nodup_iff.mpr hid
    rwa [List.map_map] at this
  · unfold RunOut.provBy
    rw [(r.reported e.name).1, filter_name hnn he]
    simp
  · unfold RunOut.absBy
    rw [(r.reported e.name).1, filter_name hnn he]
    simp

/-- A controllable module makes its step on its entry of the control, and the results tell what it did. -/
theorem GridOK.delivery (ok : GridOK mods g) (hid : (mods.map Prod.snd).Nodup) (hn : (mods.map Prod.fst).Nodup)
    (hs : Supplies g.heap mods ctl) (hr : g.run ctl false = (g', .ok o)) {key : String × Nat} {i : Nat}
    (hd : Denotes g.heap mods key i) {k : Ctrl} (hk : dictGet? ctl key.1 = some k) {a : Act} (ha : k.acts[key.2]? = some a) :
    ∃ out, (g.heap i).step a false = (g'.heap i, .ok out) ∧ o.provBy key.1 = out.info.provided.getD 0 ∧
      o.absBy key.1 = out.info.absorbed.getD 0 := by
  obtain ⟨trF, trC, trX, h₁, h₂, ci, r⟩ := Microgrid.run_ok hr
  have hmem : (key.1, i, a) ∈ controlSteps ctl (g.cont.levelDict .controllable) := by
    unfold controlSteps
    simp only [List.mem_flatMap, List.mem_map, Prod.mk.injEq, Prod.exists]
    refine ⟨key.1, _, dictGet?_mem (PriorityList.level_ctrl_get (unique_clear hn) ok hd), i, a, ?_, rfl, rfl, rfl⟩
    rw [hk]
    simp only [Option.map_some, Option.getD_some]
    rw [List.mem_iff_getElem?]
    exact ⟨key.2, by rw [List.getElem?_zip_eq_some]; exact ⟨hd, ha⟩⟩
  rw [← r.ctrlL] at hmem
  obtain ⟨e, he, hee⟩ := List.mem_map.mp hmem
  simp only [Prod.mk.injEq] at hee
  obtain ⟨h1, h2, h3⟩ := hee
  have := r.told ok hid hn hs (e := e) (by simp [he])
  rw [h1, h2, h3, r.ctrlN e he] at this
  exact ⟨e.out, this⟩

/-- Every module has data for the step of a successful run. -/
theorem GridOK.was_live (ok : GridOK mods g) (hid : (mods.map Prod.snd).Nodup) (hn : (mods.map Prod.fst).Nodup)
    (hs : Supplies g.heap mods ctl) (hr : g.run ctl n = (g', .ok o)) : ∀ nm ∈ mods, (g.heap nm.2).Live := by
  intro nm hm
  obtain ⟨trF, trC, trX, h₁, h₂, ci, r⟩ := Microgrid.run_ok hr
  obtain ⟨e, he, hee⟩ := List.mem_map.mp ((ok.events_perm (unique_clear hn) hs r).symm.subset hm)
  subst hee
  exact (ok.wf _ hm).live_of_step (r.told ok hid hn hs he).1

/-- Flexible modules: either there was a surplus and they provided nothing, or they absorbed nothing and balancing modules
    provided something only if the renewable production was used up. -/
theorem GridOK.flexible (ok : GridOK mods g) (hid : (mods.map Prod.snd).Nodup) (hn : (mods.map Prod.fst).Nodup)
    (hs : Supplies g.heap mods ctl) (hr : g.run ctl n = (g', .ok o)) :
    (∀ nm ∈ mods, (g.heap nm.2).ffc = .flex → o.provBy nm.1 = 0) ∨
    (∀ nm ∈ mods, (g.heap nm.2).ffc = .flex → o.absBy nm.1 = 0) ∧
      ∀ np ∈ mods, ∀ nb ∈ mods, ∀ t u, (g.heap np.2).kind = .renewable t → (g.heap nb.2).kind = .balancing u →
        0 < o.provBy nb.1 → o.provBy np.1 = t.cell (g.heap np.2).currentStep 0 := by
  have live := ok.was_live hid hn hs hr
  obtain ⟨trF, trC, trX, h₁, h₂, ci, r⟩ := Microgrid.run_ok hr
  have hu : ClearNames g.heap mods := unique_clear hn
  have hfe := ok.flexEvents (r.fixed.append r.ctrl) r.flexL
  have hnd := ok.flex_nodup hid r.flexL
  have hch := r.chain
  simp only [acc_provided, acc_absorbed] at hch
  have hfl : g.flexList = Container.toTuples ((Container.build g.heap mods).cat .flex .sources) ++
      (Container.toTuples ((Container.build g.heap mods).cat .flex .sinks) ++
        Container.toTuples ((Container.build g.heap mods).cat .flex .both)) := by
    unfold Microgrid.flexList
    rw [ok.cont, Container.level_flatten (fun y hy z hz he hf hf' => hu y hy z hz he (hf.trans hf'.symm)),
      Container.toTuples_flatten]
    simp [Container.level]
  have hmemX : ∀ nm ∈ mods, (g.heap nm.2).ffc = .flex → ∃ e ∈ trX, (e.name, e.id) = nm := by
    intro nm hm hf
    obtain ⟨e, he, hee⟩ := List.mem_map.mp ((ok.events_perm hu hs r).symm.subset hm)
    refine ⟨e, ?_, hee⟩
    subst hee
    simp only [List.mem_append] at he
    rcases he with (he | he) | he
    · have : (e.name, e.id) ∈ Container.toTuples (g.cont.levelDict .fixed) :=
        fixed_pairs r ▸ List.mem_map_of_mem (f := fun e : Event => (e.name, e.id)) he
      rw [ok.cont] at this
      have := (Container.mem_level this).2
      simp only [hf] at this
      exact absurd this (by decide)
    · have : (e.name, e.id) ∈ Container.toTuples (g.cont.levelDict .controllable) :=
        ctrl_pairs ok hu hs r ▸ List.mem_map_of_mem (f := fun e : Event => (e.name, e.id)) he
      rw [ok.cont] at this
      have := (Container.mem_level this).2
      simp only [hf] at this
      exact absurd this (by decide)
    · exact he
  rcases lt_or_ge (absSum (trF ++ trC)) (provSum (trF ++ trC)) with hlt | hge
  · left
    rw [if_pos (by linarith)] at hch
    intro nm hm hf
    obtain ⟨e, he, rfl⟩ := hmemX nm hm hf
    rw [(r.told ok hid hn hs (e := e) (by simp [he])).2.1]
    exact ((hch.sink hfe (by linarith)).1 e he).1
  · right
    rw [if_neg (by linarith)] at hch
    have h0 : 0 ≤ -(provSum (trF ++ trC) - absSum (trF ++ trC)) := by linarith
    have hgr := hch.source_greedy hfe h0 hnd
    constructor
    · intro nm hm hf
      obtain ⟨e, he, rfl⟩ := hmemX nm hm hf
      rw [(r.told ok hid hn hs (e := e) (by simp [he])).2.2, ((hch.source hfe h0).1 e he).1]
      rfl
    · intro np hp nb hb t u hpk hbk hpos
      have wp := (ok.wf np hp).toRen hpk
      have fp : (g.heap np.2).ffc = .flex := wp.ffc
      have fb : (g.heap nb.2).ffc = .flex := ((ok.wf nb hb).canProvide_none (by simp [Module.canProvide, hbk])).1
      have hA : np ∈ Container.toTuples ((Container.build g.heap mods).cat .flex .sources) := by
        rw [(Container.cat_perm g.heap mods .flex .sources).mem_iff]
        simp [List.mem_filter, Container.inCat, hp, fp, Module.ss, isSource, isSink, hpk]
      have hC : nb ∈ Container.toTuples ((Container.build g.heap mods).cat .flex .both) := by
        rw [(Container.cat_perm g.heap mods .flex .both).mem_iff]
        simp [List.mem_filter, Container.inCat, hb, fb, Module.ss, isSource, isSink, hbk]
      have hX := r.flexL
      rw [hfl] at hX
      obtain ⟨t1, t2, rfl, e1, e2⟩ := List.map_eq_append_iff.mp hX
      rw [← e1] at hA
      obtain ⟨x, hx, rfl⟩ := List.mem_map.mp hA
      have hC' : nb ∈ t2.map fun e => (e.name, e.id) := by rw [e2]; simp [hC]
      obtain ⟨y, hy, rfl⟩ := List.mem_map.mp hC'
      obtain ⟨i, hi, rfl⟩ := List.getElem_of_mem hx
      obtain ⟨j, hj, rfl⟩ := List.getElem_of_mem hy
      simp only at *
      rw [(r.told ok hid hn hs (e := t2[j]) (by simp)).2.1] at hpos
      rw [(r.told ok hid hn hs (e := t1[i]) (by simp)).2.1]
      have hgi : ∀ z ∈ t1 ++ t2, h₂ z.id = g.heap z.id := fun z hz => ok.flex_untouched r hz
      have c₁ : (h₂ t1[i].id).canProvide = some (t.cell (g.heap t1[i].id).currentStep 0) := by
        rw [hgi _ (by simp)]
        obtain ⟨rr, hrr⟩ := (live _ hp).row wp.ts.series
        simp [Module.canProvide, hpk, hrr, cell_eq hrr, List.getD_eq_getElem?_getD]
      have hnn : ∀ q ∈ (t1 ++ t2).map (fun e => (h₂ e.id).canProvide), ∀ x, q = some x → 0 ≤ x := by
        intro q hq x hx
        obtain ⟨e, he, rfl⟩ := List.mem_map.mp hq
        exact (hfe e he).1.canProvide_nonneg hx
      have hgm := greedy_max h0 hnn i (t1.length + j) _ (t2[j].out.info.provided.getD 0) (by omega)
        (by rw [List.getElem?_map, List.getElem?_append_left hi, List.getElem?_eq_getElem hi, Option.map_some, c₁])
        (by rw [← hgr, List.getElem?_map, List.getElem?_append_right (by omega), Nat.add_sub_cancel_left,
          List.getElem?_eq_getElem hj, Option.map_some]) hpos
      rw [← hgr, List.getElem?_map, List.getElem?_append_left hi, List.getElem?_eq_getElem hi] at hgm
      simpa using hgm

end

end Pymgrid
