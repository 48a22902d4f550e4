import Verif.Spec.Ledger
import Verif.Lemmas.PlanCarried

set_option autoImplicit false

/-! Books of single steps, of runs and of episodes. -/

namespace Pymgrid

open Module

theorem Kind.possible_core (k : Kind) : k.core.Possible = k.Possible := by cases k <;> rfl
theorem Kind.dues_core (k : Kind) : k.core.dues = k.dues := by cases k <;> rfl
theorem Kind.lost_core (k : Kind) : k.core.lost = k.lost := by cases k <;> rfl
theorem Kind.demand_core (k : Kind) : k.core.demand = k.demand := by cases k <;> rfl
theorem Kind.supply_core (k : Kind) : k.core.supply = k.supply := by cases k <;> rfl
theorem Kind.isBalancing_core (k : Kind) : k.core.isBalancing = k.isBalancing := by cases k <;> rfl

/-- The entry of one step. -/
structure Entry (m m' : Module) (o : StepOut) (p a : ℚ) : Prop where
  provided : o.info.provided.getD 0 = p
  absorbed : o.info.absorbed.getD 0 = a
  possible : m.kind.Possible m.currentStep p a
  reward : o.reward = -(m.kind.dues m.currentStep p a)
  stock : m'.kind.stock = m.kind.stock + a - p - m.kind.lost p a + (if m.kind.cls = .battery then 0 else p - a)

namespace Module

variable {m m' : Module} {act : Act} {n : Bool} {o : StepOut}

theorem TSWF.step_out {t : TS} (h : m.TSWF t) (he : m.step act n = (m', .ok o)) :
    ∃ q u, m.unnormalizedStep q = (m, .ok u) ∧ o.reward = u.reward ∧ o.info = u.info := by
  rw [h.step_eq] at he
  cases hq : m.request act n with
  | error e => rw [hq] at he; simp at he
  | ok q =>
    rw [hq] at he
    simp only at he
    rcases h.stepEnergy q with ⟨e, h1⟩ | ⟨u, pre, row, hu, -, -, h1⟩
    · rw [h1] at he; simp at he
    · rcases h1 with ⟨f, -, -, obs, h1⟩ | ⟨e, -, h1⟩
      · rw [h1] at he
        simp only [Prod.mk.injEq, Except.ok.injEq] at he
        obtain ⟨-, rfl⟩ := he
        exact ⟨q, u, hu, rfl, rfl⟩
      · rw [h1] at he; simp at he

theorem cell_eq {t : TS} {c : Nat} {r : List ℚ} (hr : t.rows[c]? = some r) (j : Nat) : t.cell c j = r.getD j 0 := by
  rw [TS.cell, List.getD_eq_getElem?_getD (l := t.rows), hr]; rfl

theorem WF.entry (h : m.WF) (he : m.step act n = (m', .ok o)) :
    Entry m m' o (o.info.provided.getD 0) (o.info.absorbed.getD 0) := by
  have hl := h.live_of_step he
  have hcls : m'.kind.core = m.kind.core := by
    have := (kept_core.step m act n h).2
    rwa [he] at this
  have hstock : m.kind.cls ≠ .battery → m'.kind.stock = 0 ∧ m.kind.stock = 0 ∧ ∀ p a, m.kind.lost p a = 0 := by
    intro hc
    have hc' : m'.kind.cls ≠ .battery := by rw [← Kind.core_cls, hcls, Kind.core_cls]; exact hc
    cases hk : m.kind <;> cases hk' : m'.kind <;> simp_all [Kind.stock, Kind.lost, Kind.cls]
  have fin : m.kind.cls ≠ .battery → m'.kind.stock = m.kind.stock + o.info.absorbed.getD 0 - o.info.provided.getD 0 -
      m.kind.lost (o.info.provided.getD 0) (o.info.absorbed.getD 0) +
        (if m.kind.cls = .battery then 0 else o.info.provided.getD 0 - o.info.absorbed.getD 0) := by
    intro hc
    obtain ⟨h1, h2, h3⟩ := hstock hc
    rw [h1, h2, h3, if_neg hc]; ring
  cases h with
  | battery b h =>
    rcases h.step_cases act n with ⟨e, h1⟩ | ⟨d, x, m₁, o₁, h1, s⟩
    · rw [h1] at he; simp at he
    rw [h1] at he
    simp only [Prod.mk.injEq, Except.ok.injEq] at he
    obtain ⟨rfl, rfl⟩ := he
    have hb := s.bound
    have h0 := s.nonneg
    have hp := h.valid.eff_pos
    have hl := h.valid.eff_le
    have hne : b.efficiency ≠ 0 := hp.ne'
    refine ⟨rfl, rfl, ?_, ?_, ?_⟩
    · rw [h.kind, s.provided, s.absorbed]
      cases d with
      | source =>
        simp only [Battery.limit, Battery.maxProduction] at hb
        simp only [Kind.Possible, Dir.out, Dir.into, Option.getD_some, Option.getD_none]
        exact ⟨h0, hb.trans (mul_le_mul_of_nonneg_right (min_le_left _ _) hp.le), le_refl _,
          div_nonneg h.valid.maxCharge_nonneg hp.le, by simp⟩
      | sink =>
        simp only [Battery.limit, Battery.maxConsumption] at hb
        simp only [Kind.Possible, Dir.out, Dir.into, Option.getD_some, Option.getD_none]
        exact ⟨le_refl _, mul_nonneg h.valid.maxDischarge_nonneg hp.le, h0,
          hb.trans (div_le_div_of_nonneg_right (min_le_left _ _) hp.le), by simp⟩
    · rw [h.kind, s.reward, s.provided, s.absorbed]
      cases d <;> simp [Kind.dues, Dir.out, Dir.into, Battery.moved, mul_comm]
    · rw [h.kind, s.kind, s.provided, s.absorbed]
      cases d <;> simp [Kind.stock, Kind.lost, Kind.cls, Dir.out, Dir.into, Battery.withCharge, Battery.chargeAfter] <;>
        field_simp <;> ring
  | genset g h =>
    have key : ∃ x, o.info.provided = some x ∧ o.info.absorbed = none ∧ (x = 0 ∨ g.runMin ≤ x ∧ x ≤ g.runMax) ∧
        o.reward = -(g.getCost x) := by
      rw [h.step_eq] at he
      cases act with
      | num q => simp at he
      | arr l =>
        simp only at he
        cases hl0 : l[0]? with
        | none => rw [hl0] at he; simp at he
        | some goal =>
          rw [hl0] at he
          simp only at he
          split at he
          · simp at he
          · rename_i hg
            obtain ⟨h0, h1⟩ := not_not.mp hg
            obtain ⟨p, hp⟩ := h.phase
            obtain ⟨g', e, hp', hs, -⟩ := hp.update h0 h1
            rw [e] at he
            have wf := h.withStatus ⟨_, hp'⟩ hs
            simp only at he
            cases hq : m.request (.arr l) n with
            | error e => rw [hq] at he; simp at he
            | ok q =>
              rw [hq] at he
              have := wf.stepEnergy q
              simp only at he
              split at this
              · rw [this] at he; simp at he
              · split at this
                · rw [this] at he; simp at he
                · obtain ⟨m₁, o₁, e, s⟩ := this
                  rw [e] at he
                  simp only [Prod.mk.injEq, Except.ok.injEq] at he
                  obtain ⟨rfl, rfl⟩ := he
                  refine ⟨_, s.provided, s.absorbed, ?_, ?_⟩
                  · have hmin : g'.minProduction = g'.status * g.runMin := by rw [Genset.minProduction, hs.runMin]
                    have hmax : g'.maxProduction = g'.status * g.runMax := by rw [Genset.maxProduction, hs.runMax]
                    have hle := h.min_le
                    rw [hmin, hmax]
                    rcases hp'.1.status with e0 | e0
                    · left
                      rw [e0]
                      simp only [clamp]
                      norm_num
                      intro a b
                      linarith
                    · right
                      have e1 : (g'.status : ℚ) = 1 := by rw [e0]; norm_num
                      rw [e1, one_mul, one_mul]
                      simp only [clamp]
                      split
                      · exact ⟨hle, le_refl _⟩
                      · split
                        · exact ⟨le_refl _, hle⟩
                        · constructor <;> linarith
                  · rw [s.reward]
                    congr 1
                    simp only [Genset.getCost, Genset.fuelCost, Genset.getCo2Cost, Genset.getCo2, hs.cost, hs.co2, hs.cco2]
    obtain ⟨x, e1, e2, hx, hr⟩ := key
    refine ⟨rfl, rfl, ?_, ?_, fin (by rw [h.kind]; simp [Kind.cls])⟩
    · rw [h.kind, e1, e2]
      exact ⟨hx, rfl⟩
    · rw [h.kind, e1, e2, hr]
      simp only [Kind.dues, Genset.getCost, Genset.fuelCost, Genset.getCo2Cost, Genset.getCo2, fuelPrice, Option.getD_some]
      cases g.cost <;> rfl
  | grid p t h w =>
    obtain ⟨r, hr⟩ := hl.row h.ts.series
    obtain ⟨imp, exp, co2, st, rfl, hst, -⟩ := h.row hr
    obtain ⟨q, u, hu, e1, e2⟩ := h.ts.step_out he
    have hun := (h.unnormalizedStep q).2 _ _ _ _ hr
    have hst0 : 0 ≤ st := by rcases hst with rfl | rfl <;> norm_num
    rcases le_or_gt 0 q with h0 | h0
    · have hun := hun.1 h0
      split at hun
      · rw [hun] at hu; simp at hu
      rw [hun] at hu
      simp only [Prod.mk.injEq, Except.ok.injEq, true_and] at hu
      subst hu
      refine ⟨rfl, rfl, ?_, ?_, fin (by rw [h.kind]; simp [Kind.cls])⟩
      · rw [h.kind, e2]
        simp only [Kind.Possible, cell_eq hr, Option.getD_some, Option.getD_none, List.getD_cons_succ, List.getD_cons_zero]
        exact ⟨le_min h0 (mul_nonneg h.imp hst0), min_le_right _ _, le_refl _, mul_nonneg h.exp hst0, by simp⟩
      · rw [h.kind, e2, e1]
        simp only [Kind.dues, cell_eq hr, Option.getD_some, Option.getD_none, List.getD_cons_succ, List.getD_cons_zero]
        ring
    · have hun := hun.2 h0
      split at hun
      · rw [hun] at hu; simp at hu
      rw [hun] at hu
      simp only [Prod.mk.injEq, Except.ok.injEq, true_and] at hu
      subst hu
      refine ⟨rfl, rfl, ?_, ?_, fin (by rw [h.kind]; simp [Kind.cls])⟩
      · rw [h.kind, e2]
        simp only [Kind.Possible, cell_eq hr, Option.getD_some, Option.getD_none, List.getD_cons_succ, List.getD_cons_zero]
        exact ⟨le_refl _, mul_nonneg h.imp hst0, le_min (by linarith) (mul_nonneg h.exp hst0), min_le_right _ _, by simp⟩
      · rw [h.kind, e2, e1]
        simp only [Kind.dues, cell_eq hr, Option.getD_some, Option.getD_none, List.getD_cons_succ, List.getD_cons_zero]
        ring
  | load t h w =>
    obtain ⟨r, hr⟩ := hl.row h.ts.series
    obtain ⟨x, rfl, hx0, hx⟩ := h.itemAt hr
    obtain ⟨q, u, hu, e1, e2⟩ := h.ts.step_out he
    have huu := h.unnormalizedStep q
    rcases lt_or_ge 0 q with h0 | h0
    · rw [huu.1 h0] at hu; simp at hu
    rw [huu.2 h0, hx] at hu
    simp only [Prod.mk.injEq, Except.ok.injEq, true_and] at hu
    subst hu
    refine ⟨rfl, rfl, ?_, ?_, fin (by rw [h.kind]; simp [Kind.cls])⟩
    · rw [h.kind, e2]
      simp [Kind.Possible, cell_eq hr, abs_of_nonpos hx0]
    · rw [h.kind, e1]; simp [Kind.dues]
  | renewable t h w =>
    obtain ⟨r, hr⟩ := hl.row h.ts.series
    obtain ⟨x, rfl, hx0, hx⟩ := h.itemAt hr
    obtain ⟨q, u, hu, e1, e2⟩ := h.ts.step_out he
    have huu := h.unnormalizedStep q
    rcases lt_or_ge q 0 with h0 | h0
    · obtain ⟨e, h2⟩ := huu.1 h0
      rw [h2] at hu; simp at hu
    have := huu.2.2 x hr h0
    split at this
    · rw [this] at hu; simp at hu
    rw [this] at hu
    simp only [Prod.mk.injEq, Except.ok.injEq, true_and] at hu
    subst hu
    refine ⟨rfl, rfl, ?_, ?_, fin (by rw [h.kind]; simp [Kind.cls])⟩
    · rw [h.kind, e2]
      simp only [Kind.Possible, cell_eq hr, Option.getD_some, Option.getD_none, List.getD_cons_zero]
      exact ⟨le_min h0 hx0, min_le_right _ _, trivial⟩
    · rw [h.kind, e1]; simp [Kind.dues]
  | balancing u h =>
    have he' := he
    rw [h.step_eq] at he'
    cases hq : m.request act n with
    | error e => rw [hq] at he'; simp at he'
    | ok q =>
      rw [hq] at he'
      obtain ⟨row, -, h1⟩ := h.stepEnergy q
      simp only [h1, Prod.mk.injEq, Except.ok.injEq] at he'
      obtain ⟨-, rfl⟩ := he'
      refine ⟨rfl, rfl, ?_, ?_, fin (by rw [h.kind]; simp [Kind.cls])⟩
      · rw [h.kind]
        rcases le_or_gt 0 q with h0 | h0
        · simp [Kind.Possible, h0]
        · simp [Kind.Possible, not_le.mpr h0, h0.le]
      · rw [h.kind]
        rcases le_or_gt 0 q with h0 | h0
        · simp [Kind.dues, h0]
        · simp [Kind.dues, not_le.mpr h0]

end Module

/-! ### Runs -/

theorem sum_map_neg {α : Type} (l : List α) (f : α → ℚ) : (l.map fun x => -f x).sum = -(l.map f).sum := by
  induction l with
  | nil => simp
  | cons a l ih => simp only [List.map_cons, List.sum_cons, ih]; ring

theorem unique_clear {h : Heap} {mods : List (String × Nat)} (hn : (mods.map Prod.fst).Nodup) : ClearNames h mods := by
  intro x hx y hy e _
  rw [List.inj_on_of_nodup_map hn hx hy e]

section
variable {mods : List (String × Nat)} {g g' : Microgrid} {ctl : List (String × Ctrl)} {n : Bool} {o : RunOut}

/-- The books of a run. -/
structure Books (mods : List (String × Nat)) (g g' : Microgrid) (o : RunOut) : Prop where
  entry : ∀ nm ∈ mods, ∃ out, Entry (g.heap nm.2) (g'.heap nm.2) out (o.provBy nm.1) (o.absBy nm.1)
  reward : g.shaper = none → o.reward =
    -(mods.map fun nm => (g.heap nm.2).kind.dues (g.heap nm.2).currentStep (o.provBy nm.1) (o.absBy nm.1)).sum
  balance : (∃ nm ∈ mods, (g.heap nm.2).canProvide = none) →
    (mods.map fun nm => o.provBy nm.1).sum = (mods.map fun nm => o.absBy nm.1).sum

theorem GridOK.books (ok : GridOK mods g) (hid : (mods.map Prod.snd).Nodup) (hn : (mods.map Prod.fst).Nodup)
    (hs : Supplies g.heap mods ctl) (hr : g.run ctl n = (g', .ok o)) : Books mods g g' o := by
  obtain ⟨trF, trC, trX, h₁, h₂, ci, r⟩ := Microgrid.run_ok hr
  have hu : ClearNames g.heap mods := unique_clear hn
  have hp := ok.events_perm hu hs r
  have hnn : ((trF ++ trC ++ trX).map Event.name).Nodup := by
    have := (hp.map Prod.fst).nodup_iff.mpr hn
    rwa [List.map_map] at this
  have hii : ((trF ++ trC ++ trX).map Event.id).Nodup := by
    have := (hp.map Prod.snd).nodup_iff.mpr hid
    rwa [List.map_map] at this
  have hP : ∀ e ∈ trF ++ trC ++ trX, o.provBy e.name = e.out.info.provided.getD 0 := by
    intro e he
    unfold RunOut.provBy
    rw [(r.reported e.name).1, filter_name hnn he]
    simp
  have hA : ∀ e ∈ trF ++ trC ++ trX, o.absBy e.name = e.out.info.absorbed.getD 0 := by
    intro e he
    unfold RunOut.absBy
    rw [(r.reported e.name).1, filter_name hnn he]
    simp
  have hE : ∀ e ∈ trF ++ trC ++ trX,
      Entry (g.heap e.id) (g'.heap e.id) e.out (o.provBy e.name) (o.absBy e.name) := by
    intro e he
    have hm : (e.name, e.id) ∈ mods := hp.mem_iff.mp (List.mem_map_of_mem (f := fun e : Event => (e.name, e.id)) he)
    rw [hP e he, hA e he]
    exact (ok.wf _ hm).entry (r.exec.once hii he)
  have hsum : ∀ (F : Event → ℚ) (G : String × Nat → ℚ), (∀ e ∈ trF ++ trC ++ trX, F e = G (e.name, e.id)) →
      ((trF ++ trC ++ trX).map F).sum = (mods.map G).sum := by
    intro F G h
    rw [List.map_congr_left h, ← (hp.map G).sum_eq, List.map_map]
    rfl
  refine ⟨?_, ?_, ?_⟩
  · intro nm hm
    obtain ⟨e, he, hee⟩ := List.mem_map.mp (hp.symm.subset hm)
    subst hee
    exact ⟨e.out, hE e he⟩
  · intro hsh
    have hrew := r.reward
    rw [hsh] at hrew
    simp only [StepAcc.shapedReward, Except.ok.injEq] at hrew
    rw [← hrew, StepAcc.run_reward]
    simp only [zero_add]
    rw [hsum (fun e => e.out.reward) (fun nm => -((g.heap nm.2).kind.dues (g.heap nm.2).currentStep (o.provBy nm.1)
      (o.absBy nm.1))) fun e he => (hE e he).reward]
    exact sum_map_neg _ _
  · rintro ⟨nm, hm, hb⟩
    have := ok.balance hm hb r
    unfold provSum absSum at this
    rwa [hsum _ (fun nm => o.provBy nm.1) (fun e he => (hP e he).symm),
      hsum _ (fun nm => o.absBy nm.1) (fun e he => (hA e he).symm)] at this

end

/-! ### Episodes -/

/-- A microgrid made of the modules `h` and what became of them. -/
structure Follows (h : Heap) (mods : List (String × Nat)) (sh : Option Shaper) (g : Microgrid) : Prop where
  ok : GridOK mods g
  alike : ∀ j, (h j).Alike (g.heap j)
  core : ∀ nm ∈ mods, (g.heap nm.2).kind.core = (h nm.2).kind.core
  shaper : g.shaper = sh

section
variable {h : Heap} {mods : List (String × Nat)} {sh : Option Shaper} {g g' : Microgrid}

theorem Follows.run (f : Follows h mods sh g) {ctl : List (String × Ctrl)} {n : Bool} {o : RunOut}
    (hr : g.run ctl n = (g', .ok o)) : Follows h mods sh g' := by
  have e : g' = runG g [.run ctl n] := by simp [runG, GOp.apply, hr]
  refine ⟨f.ok.run_next hr, fun j => (f.alike j).trans (run_alike hr j), fun nm hm => ?_, ?_⟩
  · rw [← f.core nm hm, e]
    exact (kept_core.runG g _ nm.2 (f.ok.wf nm hm)).2
  · rw [e, (runG_fixed g _).shaper, f.shaper]

theorem core_balancing {k : Kind} {k' : Kind} (e : k.core = k'.core) (hb : k'.isBalancing = true) : ∃ u, k = .balancing u := by
  rw [← Kind.isBalancing_core, ← e, Kind.isBalancing_core] at hb
  cases k <;> simp_all [Kind.isBalancing]

/-- What the books of run `o` in step `c` say. -/
structure Account (h : Heap) (mods : List (String × Nat)) (sh : Option Shaper) (c : Nat) (o : RunOut) : Prop where
  possible : ∀ nm ∈ mods, (h nm.2).kind.Possible c (o.provBy nm.1) (o.absBy nm.1)
  reward : sh = none → o.reward = -(mods.map fun nm => (h nm.2).kind.dues c (o.provBy nm.1) (o.absBy nm.1)).sum
  balance : (∃ nm ∈ mods, (h nm.2).kind.isBalancing = true) →
    (mods.map fun nm => o.provBy nm.1).sum = (mods.map fun nm => o.absBy nm.1).sum

/-- The change of the energy that a module stores. -/
def Moved (k k₁ k₂ : Kind) (p a : ℚ) : Prop :=
  k₂.stock = k₁.stock + a - p - k.lost p a + (if k.cls = .battery then 0 else p - a)

theorem Moved.trans {k k₁ k₂ k₃ : Kind} {p p' a a' : ℚ} (h : Moved k k₁ k₂ p a) (h' : Moved k k₂ k₃ p' a') :
    Moved k k₁ k₃ (p + p') (a + a') := by
  unfold Moved at *
  have hl : k.lost (p + p') (a + a') = k.lost p a + k.lost p' a' := by cases k <;> simp [Kind.lost]; ring
  rw [h', h, hl]
  split <;> ring

theorem Moved.refl (k k₁ : Kind) : Moved k k₁ k₁ 0 0 := by
  unfold Moved
  have hl : k.lost 0 0 = 0 := by cases k <;> simp [Kind.lost]
  rw [hl]; simp

theorem Follows.account (f : Follows h mods sh g) (hid : (mods.map Prod.snd).Nodup) (hn : (mods.map Prod.fst).Nodup)
    {c : Nat} (hl : LockStep mods g c) {ctl : List (String × Ctrl)} (hs : Supplies h mods ctl) {n : Bool} {o : RunOut}
    (hr : g.run ctl n = (g', .ok o)) : Account h mods sh c o ∧ LockStep mods g' (c + 1) ∧
      ∀ nm ∈ mods, Moved (h nm.2).kind (g.heap nm.2).kind (g'.heap nm.2).kind (o.provBy nm.1) (o.absBy nm.1) := by
  have hs' := hs.congr f.alike
  have b := f.ok.books hid hn hs' hr
  refine ⟨⟨?_, ?_, ?_⟩, ?_, ?_⟩
  · intro nm hm
    obtain ⟨out, e⟩ := b.entry nm hm
    have := e.possible
    rwa [← Kind.possible_core, f.core nm hm, Kind.possible_core, hl nm hm] at this
  · rintro rfl
    rw [b.reward f.shaper]
    congr 2
    apply List.map_congr_left
    intro nm hm
    rw [← Kind.dues_core, f.core nm hm, Kind.dues_core, hl nm hm]
  · rintro ⟨nm, hm, hb⟩
    refine b.balance ⟨nm, hm, ?_⟩
    obtain ⟨u, hu⟩ := core_balancing (f.core nm hm) hb
    simp [Module.canProvide, hu]
  · intro nm hm
    rw [((f.ok.run_modules hid (unique_clear hn) hs' hr).1 nm hm).1, hl nm hm]
  · intro nm hm
    obtain ⟨out, e⟩ := b.entry nm hm
    have := e.stock
    rwa [← Kind.lost_core, f.core nm hm, Kind.lost_core, ← Kind.core_cls, f.core nm hm, Kind.core_cls] at this

theorem Follows.accounts (f : Follows h mods sh g) (hid : (mods.map Prod.snd).Nodup) (hn : (mods.map Prod.fst).Nodup)
    {cs : List (List (String × Ctrl) × Bool)} {os : List RunOut} (hr : Runs g cs os g')
    (hs : ∀ cn ∈ cs, Supplies h mods cn.1) {c : Nat} (hl : LockStep mods g c) :
    Follows h mods sh g' ∧ LockStep mods g' (c + os.length) ∧
      (∀ k (hk : k < os.length), Account h mods sh (c + k) os[k]) ∧
      ∀ nm ∈ mods, Moved (h nm.2).kind (g.heap nm.2).kind (g'.heap nm.2).kind (provTotal os nm.1) (absTotal os nm.1) := by
  induction hr generalizing c with
  | nil g => exact ⟨f, hl, by simp, fun nm hm => Moved.refl _ _⟩
  | @cons g g₁ g' ctl n o cs os hrun ht ih =>
    obtain ⟨a1, a2, a3⟩ := f.account hid hn hl (hs (ctl, n) (by simp)) hrun
    obtain ⟨i1, i2, i3, i4⟩ := ih (f.run hrun) (fun cn hcn => hs cn (by simp [hcn])) a2
    refine ⟨i1, ?_, ?_, ?_⟩
    · simp only [List.length_cons]
      rwa [show c + (os.length + 1) = c + 1 + os.length by omega]
    · intro k hk
      cases k with
      | zero => simpa using a1
      | succ k =>
        have := i3 k (by simpa using hk)
        rw [show c + (k + 1) = c + 1 + k by omega]
        simpa using this
    · intro nm hm
      have := (a3 nm hm).trans (i4 nm hm)
      simpa [provTotal, absTotal] using this

/-- Sums over runs of facts about each run. -/
theorem sum_steps {os : List RunOut} {F : RunOut → ℚ} {G : Nat → ℚ} {c : Nat}
    (h : ∀ k (hk : k < os.length), F os[k] ≤ G (c + k)) : (os.map F).sum ≤ overSteps c os.length G := by
  unfold overSteps
  induction os generalizing c with
  | nil => simp
  | cons o os ih =>
    have h0 := h 0 (by simp)
    have := ih (c := c + 1) (fun k hk => by
      have := h (k + 1) (by simpa using hk)
      rw [show c + (k + 1) = c + 1 + k by omega] at this
      simpa using this)
    simp only [List.map_cons, List.sum_cons, List.length_cons, List.range_succ_eq_map, List.map_map]
    simp only [List.getElem_cons_zero, Nat.add_zero] at h0
    refine add_le_add h0 (this.trans (le_of_eq ?_))
    congr 1
    apply List.map_congr_left
    intro k _
    simp only [Function.comp]
    congr 1; omega

theorem sum_steps_eq {os : List RunOut} {F : RunOut → ℚ} {G : Nat → ℚ} {c : Nat}
    (h : ∀ k (hk : k < os.length), F os[k] = G (c + k)) : (os.map F).sum = overSteps c os.length G := by
  apply le_antisymm (sum_steps fun k hk => (h k hk).le)
  have := sum_steps (os := os) (F := fun o => -F o) (G := fun k => -G k) (c := c) fun k hk => by rw [h k hk]
  unfold overSteps at *
  rw [sum_map_neg, sum_map_neg] at this
  linarith

theorem sum_map_add {α : Type} (l : List α) (f f' : α → ℚ) : (l.map fun x => f x + f' x).sum = (l.map f).sum + (l.map f').sum := by
  induction l with
  | nil => simp
  | cons a l ih => simp only [List.map_cons, List.sum_cons, ih]; ring

theorem sum_swap {α β : Type} (l : List α) (m : List β) (f : α → β → ℚ) :
    (l.map fun x => (m.map fun y => f x y).sum).sum = (m.map fun y => (l.map fun x => f x y).sum).sum := by
  induction l with
  | nil => induction m with
    | nil => rfl
    | cons b m ih => simp_all
  | cons a l ih => simp only [List.map_cons, List.sum_cons, ih, sum_map_add]

theorem overSteps_zero (c n : Nat) : overSteps c n (fun _ => 0) = 0 := by
  unfold overSteps
  exact List.sum_eq_zero (by simp)

/-- What the modules give together they take together. -/
theorem accounts_balance {os : List RunOut} {c : Nat} (hb : ∃ nm ∈ mods, (h nm.2).kind.isBalancing = true)
    (ha : ∀ k (hk : k < os.length), Account h mods sh (c + k) os[k]) :
    (mods.map fun nm => provTotal os nm.1).sum = (mods.map fun nm => absTotal os nm.1).sum := by
  unfold provTotal absTotal
  rw [sum_swap mods os fun nm o => o.provBy nm.1, sum_swap mods os fun nm o => o.absBy nm.1]
  congr 1
  apply List.map_congr_left
  intro o ho
  obtain ⟨k, hk, rfl⟩ := List.getElem_of_mem ho
  exact (ha k hk).balance hb

section
variable {m : Module} {os : List RunOut} {c : Nat} {name : String}

theorem totals_nonneg (w : m.WF) (hp : ∀ k (hk : k < os.length), m.kind.Possible (c + k) (os[k].provBy name) (os[k].absBy name)) :
    0 ≤ provTotal os name ∧ 0 ≤ absTotal os name := by
  have key : ∀ o ∈ os, 0 ≤ o.provBy name ∧ 0 ≤ o.absBy name := by
    intro o ho
    obtain ⟨k, hk, rfl⟩ := List.getElem_of_mem ho
    have := hp k hk
    cases w with
    | battery b h => rw [h.kind] at this; exact ⟨this.1, this.2.2.1⟩
    | genset g h =>
      rw [h.kind] at this
      refine ⟨?_, this.2.ge⟩
      rcases this.1 with e | e
      · exact e.ge
      · exact h.min_nonneg.trans e.1
    | grid p t h w => rw [h.kind] at this; exact ⟨this.1, this.2.2.1⟩
    | load t h w => rw [h.kind] at this; exact ⟨this.1.ge, by rw [this.2]; exact abs_nonneg _⟩
    | renewable t h w => rw [h.kind] at this; exact ⟨this.1, this.2.2.ge⟩
    | balancing u h => rw [h.kind] at this; exact ⟨this.1, this.2.1⟩
  constructor <;> apply List.sum_nonneg <;> intro x hx <;> obtain ⟨o, ho, rfl⟩ := List.mem_map.mp hx
  · exact (key o ho).1
  · exact (key o ho).2

theorem lost_nonneg (w : m.WF) {p a : ℚ} (hp : 0 ≤ p) (ha : 0 ≤ a) : 0 ≤ m.kind.lost p a := by
  cases w with
  | battery b h =>
    rw [h.kind]
    have h0 := h.valid.eff_pos
    have h1 := h.valid.eff_le
    have : 1 ≤ 1 / b.efficiency := by rw [le_div_iff₀ h0]; linarith
    exact add_nonneg (mul_nonneg (by linarith) ha) (mul_nonneg (by linarith) hp)
  | genset g h => rw [h.kind]; exact le_refl _
  | grid p t h w => rw [h.kind]; exact le_refl _
  | load t h w => rw [h.kind]; exact le_refl _
  | renewable t h w => rw [h.kind]; exact le_refl _
  | balancing u h => rw [h.kind]; exact le_refl _

/-- What a module gives net of what it takes. -/
theorem net_bound {m₁ m₂ : Module} (w : m.WF) (w₂ : m₂.WF) (e₁ : m₁.kind.core = m.kind.core) (e₂ : m₂.kind.core = m.kind.core)
    (hp : ∀ k (hk : k < os.length), m.kind.Possible (c + k) (os[k].provBy name) (os[k].absBy name))
    (hm : Moved m.kind m₁.kind m₂.kind (provTotal os name) (absTotal os name)) :
    provTotal os name - absTotal os name ≤ overSteps c os.length m.kind.supply - overSteps c os.length m.kind.demand +
      m₁.kind.reserve + (if m.kind.isBalancing then provTotal os name else 0) := by
  obtain ⟨hP, hA⟩ := totals_nonneg w hp
  have hres : m.kind.cls ≠ .battery → m₁.kind.reserve = 0 := by
    intro hc
    rw [← Kind.core_cls, ← e₁, Kind.core_cls] at hc
    cases hk : m₁.kind <;> simp_all [Kind.reserve, Kind.cls]
  have zd : ∀ k : Kind, k.cls ≠ .load → overSteps c os.length k.demand = 0 := by
    intro k hc
    rw [← overSteps_zero c os.length]
    congr 1
    funext j
    cases k <;> simp_all [Kind.demand, Kind.cls]
  cases w with
  | battery b h =>
    obtain ⟨b₁, hb₁⟩ : ∃ b₁, m₁.kind = .battery b₁ := by
      rw [h.kind] at e₁
      cases hk : m₁.kind <;> simp_all [Kind.core]
    obtain ⟨b₂, hb₂⟩ : ∃ b₂, m₂.kind = .battery b₂ := by
      rw [h.kind] at e₂
      cases hk : m₂.kind <;> simp_all [Kind.core]
    have hlow : b₂.minCapacity ≤ b₂.charge := by
      cases w₂ with
      | battery b' h' => rw [h'.kind] at hb₂; cases hb₂; exact h'.valid.low
      | genset g h' => rw [h'.kind] at hb₂; cases hb₂
      | grid p t h' w => rw [h'.kind] at hb₂; cases hb₂
      | load t h' w => rw [h'.kind] at hb₂; cases hb₂
      | renewable t h' w => rw [h'.kind] at hb₂; cases hb₂
      | balancing u h' => rw [h'.kind] at hb₂; cases hb₂
    rw [h.kind, hb₁] at e₁
    rw [h.kind, hb₂] at e₂
    simp only [Kind.core, Kind.battery.injEq] at e₁ e₂
    have c₁ : b₁.efficiency = b.efficiency := (Battery.mk.injEq .. ▸ e₁).2.2.2.2.1
    have d₁ : b₁.minCapacity = b.minCapacity := (Battery.mk.injEq .. ▸ e₁).1
    have d₂ : b₂.minCapacity = b.minCapacity := (Battery.mk.injEq .. ▸ e₂).1
    rw [zd _ (by rw [h.kind]; simp [Kind.cls])]
    rw [h.kind, hb₁, hb₂] at hm
    have hs : overSteps c os.length m.kind.supply = 0 := by
      rw [h.kind]; exact overSteps_zero c os.length
    rw [hs, h.kind, hb₁]
    simp only [Moved, Kind.stock, Kind.lost, Kind.cls, if_true] at hm
    simp only [Kind.reserve, Kind.isBalancing, c₁, d₁]
    have h0 := h.valid.eff_pos
    have h1 := h.valid.eff_le
    have hP' : provTotal os name = b.efficiency * (provTotal os name / b.efficiency) := by field_simp
    have h2 : b.efficiency * (b.efficiency * absTotal os name) ≤ absTotal os name := by
      calc b.efficiency * (b.efficiency * absTotal os name) ≤ 1 * (1 * absTotal os name) :=
            mul_le_mul h1 (mul_le_mul_of_nonneg_right h1 hA) (mul_nonneg h0.le hA) (by norm_num)
        _ = absTotal os name := by ring
    have h3 : b.minCapacity ≤ b₁.charge + b.efficiency * absTotal os name - provTotal os name / b.efficiency := by
      have : (1 / b.efficiency - 1) * provTotal os name = provTotal os name / b.efficiency - provTotal os name := by ring
      rw [this] at hm
      linarith
    have h4 := mul_le_mul_of_nonneg_left h3 h0.le
    rw [mul_sub, mul_add, ← hP'] at h4
    simp only [Bool.false_eq_true, if_false]
    rw [mul_sub]
    linarith
  | genset g h =>
    rw [hres (by rw [h.kind]; simp [Kind.cls]), zd _ (by rw [h.kind]; simp [Kind.cls])]
    have : provTotal os name ≤ overSteps c os.length m.kind.supply := sum_steps fun k hk => by
      have := hp k hk
      rw [h.kind] at this ⊢
      rcases this.1 with e | e
      · rw [e]; exact h.min_nonneg.trans h.min_le
      · exact e.2
    rw [h.kind] at this ⊢
    simp only [Kind.isBalancing, Bool.false_eq_true, if_false]
    linarith
  | grid p t h w =>
    rw [hres (by rw [h.kind]; simp [Kind.cls]), zd _ (by rw [h.kind]; simp [Kind.cls])]
    have : provTotal os name ≤ overSteps c os.length m.kind.supply := sum_steps fun k hk => by
      have := hp k hk
      rw [h.kind] at this ⊢
      exact this.2.1
    rw [h.kind] at this ⊢
    simp only [Kind.isBalancing, Bool.false_eq_true, if_false]
    linarith
  | load t h w =>
    rw [hres (by rw [h.kind]; simp [Kind.cls])]
    have h1 : provTotal os name = 0 := List.sum_eq_zero fun x hx => by
      obtain ⟨o, ho, rfl⟩ := List.mem_map.mp hx
      obtain ⟨k, hk, rfl⟩ := List.getElem_of_mem ho
      have := hp k hk
      rw [h.kind] at this
      exact this.1
    have h2 : absTotal os name = overSteps c os.length m.kind.demand := sum_steps_eq fun k hk => by
      have := hp k hk
      rw [h.kind] at this ⊢
      exact this.2
    have h3 : overSteps c os.length m.kind.supply = 0 := by
      rw [h.kind]; exact overSteps_zero c os.length
    rw [h1, h2, h3, h.kind]
    simp [Kind.isBalancing]
  | renewable t h w =>
    rw [hres (by rw [h.kind]; simp [Kind.cls]), zd _ (by rw [h.kind]; simp [Kind.cls])]
    have : provTotal os name ≤ overSteps c os.length m.kind.supply := sum_steps fun k hk => by
      have := hp k hk
      rw [h.kind] at this ⊢
      exact this.2.1
    rw [h.kind] at this ⊢
    simp only [Kind.isBalancing, Bool.false_eq_true, if_false]
    linarith
  | balancing u h =>
    rw [hres (by rw [h.kind]; simp [Kind.cls]), zd _ (by rw [h.kind]; simp [Kind.cls])]
    have h3 : overSteps c os.length m.kind.supply = 0 := by
      rw [h.kind]; exact overSteps_zero c os.length
    rw [h3, h.kind]
    simp only [Kind.isBalancing, if_true]
    linarith

end

theorem sum_filter_if {α : Type} (l : List α) (p : α → Bool) (f : α → ℚ) :
    ((l.filter p).map f).sum = (l.map fun x => if p x then f x else 0).sum := by
  induction l with
  | nil => rfl
  | cons a l ih =>
    rw [List.filter_cons]
    simp only [List.map_cons, List.sum_cons, ← ih]
    split <;> simp

end

end Pymgrid
