import Verif.Lemmas.PriorityList
import Verif.Lemmas.Strict

set_option autoImplicit false

/-! Energies from a priority list. -/

namespace Pymgrid

namespace PriorityList

variable {mods : List (String × Nat)} {g : Microgrid}

theorem isclose_iff (r : ℚ) : iscloseAtol r 0 (1/10000) = true ↔ |r| ≤ 1/10000 := by
  simp [iscloseAtol]

/-- What the energy `x` assigned to a module does to the remaining load `r`, if the module can take energies in
    `[lo, hi]`. -/
structure Assigned (lo hi r x : ℚ) : Prop where
  within : (lo ≤ x ∧ x ≤ hi) ∨ (x = 0 ∧ 0 < lo)
  top : 1/10000 < r - x → 1/10000 < r ∧ x = hi
  bottom : r ≤ 1/10000 → r - x < -(1/10000) → r < -(1/10000) ∧ x = min lo 0
  pos : 0 < x → 1/10000 < r
  neg : x < 0 → r < -(1/10000)
  under : lo ≤ 0 → 0 ≤ r → x ≤ r
  over : r ≤ 0 → r ≤ x

theorem energyFor_sink {m : Module} {mx mc : ℚ} (hp : m.maxProduction = .ok (.fin mx))
    (hc : m.maxConsumption = .ok (.fin mc)) (hmn : m.minProduction = 0) (hg : ∀ g, m.kind ≠ .genset g)
    (hs : m.isSink = true) (h0 : 0 ≤ mx) (h1 : 0 ≤ mc) (action : Nat) (r : ℚ) :
    ∃ x, energyFor m action r = .ok x ∧ Assigned (-mc) mx r x := by
  unfold energyFor
  by_cases hz : |r| ≤ 1/10000
  · rw [if_pos ((isclose_iff r).mpr hz)]
    refine ⟨0, rfl, .inl ⟨by linarith, h0⟩, ?_, ?_, fun h => by linarith, fun h => by linarith, fun _ h => h, fun h => h⟩
    · intro h; linarith [(abs_le.mp hz).2]
    · intro _ h; linarith [(abs_le.mp hz).1]
  · rw [if_neg (fun h => hz ((isclose_iff r).mp h))]
    by_cases hr : r > 0
    · rw [if_pos hr]
      have hr' : 1/10000 < r := by rw [abs_of_pos hr] at hz; exact not_le.mp hz
      have : produce m action r = .ok (if r ≤ mx then r else mx) := by
        unfold produce
        have hif : (if 0 ≤ (if 0 ≤ r ∧ r ≤ mx then r else if r < 0 then 0 else mx) then
            (.ok (if 0 ≤ r ∧ r ≤ mx then r else if r < 0 then 0 else mx) : Except Err ℚ) else .error .assertion) =
            .ok (if r ≤ mx then r else mx) := by
          by_cases hle : r ≤ mx
          · rw [if_pos (⟨hr.le, hle⟩ : 0 ≤ r ∧ r ≤ mx), if_pos hr.le, if_pos hle]
          · rw [if_neg (fun h : 0 ≤ r ∧ r ≤ mx => hle h.2), if_neg (not_lt.mpr hr.le), if_pos h0, if_neg hle]
        cases hk : m.kind with
        | genset g => exact absurd hk (hg g)
        | _ => simp only [hp, hmn]; exact hif
      rw [this]
      by_cases hle : r ≤ mx
      · rw [if_pos hle]
        exact ⟨r, rfl, .inl ⟨by linarith, hle⟩, fun h => by linarith, fun h => by linarith, fun _ => hr', fun h => by linarith,
          fun _ _ => le_rfl, fun _ => le_rfl⟩
      · rw [if_neg hle]
        exact ⟨mx, rfl, .inl ⟨by linarith, le_rfl⟩, fun h => ⟨hr', rfl⟩, fun h => by linarith, fun _ => hr', fun h => by linarith,
          fun _ _ => (not_le.mp hle).le, fun h => by linarith⟩
    · rw [if_neg hr]
      have hr0 : r ≤ 0 := not_lt.mp hr
      have hr' : r < -(1/10000) := by rw [abs_of_nonpos hr0] at hz; linarith [not_le.mp hz]
      have : consume m r = .ok (if -1 * r > mc then -1 * mc else r) := by
        unfold consume
        rw [if_neg (not_not.mpr hr0), if_pos hs]
        simp only [hc]
        rw [if_neg (not_not.mpr h1), if_pos]
        split <;> linarith
      rw [this]
      by_cases hle : -1 * r > mc
      · rw [if_pos hle]
        refine ⟨-1 * mc, rfl, .inl ⟨by linarith, by linarith⟩, fun h => by linarith, fun _ _ => ⟨hr', ?_⟩, fun h => by linarith,
          fun _ => hr', fun _ h => by linarith, fun _ => by linarith⟩
        rw [min_eq_left (by linarith)]; ring
      · rw [if_neg hle]
        exact ⟨r, rfl, .inl ⟨by linarith, by linarith⟩, fun h => by linarith, fun _ h => by linarith, fun h => by linarith,
          fun _ => hr', fun _ _ => le_rfl, fun _ => le_rfl⟩

theorem energyFor_genset {m : Module} {g : Genset} (hk : m.kind = .genset g) {lo hi : ℚ} {action : Nat}
    (hlo : g.nextMinProduction action = lo) (hhi : g.nextMaxProduction action = hi) (h0 : 0 ≤ lo) (h1 : lo ≤ hi)
    (r : ℚ) : ∃ x, energyFor m action r = .ok x ∧ Assigned lo hi r x := by
  have hzero : (lo ≤ 0 ∧ (0:ℚ) ≤ hi) ∨ ((0:ℚ) = 0 ∧ 0 < lo) := by
    rcases h0.lt_or_eq with h | h
    · exact .inr ⟨rfl, h⟩
    · exact .inl ⟨h.symm.le, h0.trans h1⟩
  unfold energyFor
  by_cases hz : |r| ≤ 1/10000
  · rw [if_pos ((isclose_iff r).mpr hz)]
    refine ⟨0, rfl, hzero, ?_, ?_, fun h => by linarith, fun h => by linarith, fun _ h => h, fun h => h⟩
    · intro h; linarith [(abs_le.mp hz).2]
    · intro _ h; linarith [(abs_le.mp hz).1]
  · rw [if_neg (fun h => hz ((isclose_iff r).mp h))]
    by_cases hr : r > 0
    · rw [if_pos hr]
      have hr' : 1/10000 < r := by rw [abs_of_pos hr] at hz; exact not_le.mp hz
      unfold produce
      simp only [hk, hlo, hhi]
      by_cases ha : lo ≤ r ∧ r ≤ hi
      · rw [if_pos ha, if_pos hr.le]
        exact ⟨r, rfl, .inl ha, fun h => by linarith, fun h => by linarith, fun _ => hr', fun h => by linarith,
          fun _ _ => le_rfl, fun _ => le_rfl⟩
      · rw [if_neg ha]
        by_cases hb : r < lo
        · rw [if_pos hb, if_pos h0]
          exact ⟨lo, rfl, .inl ⟨le_rfl, h1⟩, fun h => by linarith, fun h => by linarith, fun _ => hr', fun h => by linarith,
            fun _ _ => by linarith, fun h => by linarith⟩
        · rw [if_neg hb, if_pos (h0.trans h1)]
          have hgt : hi < r := not_le.mp fun h => ha ⟨not_lt.mp hb, h⟩
          exact ⟨hi, rfl, .inl ⟨h1, le_rfl⟩, fun h => ⟨hr', rfl⟩, fun h => by linarith, fun _ => hr', fun h => by linarith,
            fun _ _ => hgt.le, fun h => by linarith⟩
    · rw [if_neg hr]
      have hr0 : r ≤ 0 := not_lt.mp hr
      have hr' : r < -(1/10000) := by rw [abs_of_nonpos hr0] at hz; linarith [not_le.mp hz]
      unfold consume
      rw [if_neg (not_not.mpr hr0), if_neg (by simp [Module.isSink, hk])]
      exact ⟨0, rfl, hzero, fun h => by linarith, fun _ _ => ⟨hr', by rw [min_eq_right h0]⟩, fun h => by linarith, fun _ => hr',
        fun _ h => by linarith, fun h => h⟩

theorem energyFor_ok {m : Module} (h : m.WF) (hl : m.Live) (hf : m.ffc = .controllable) {action : Nat}
    (ha : action < m.kind.cls.actions) :
    ∃ lo hi, m.planWindow action = some (lo, hi) ∧ lo ≤ hi ∧ ∀ r, ∃ x, energyFor m action r = .ok x ∧
      Assigned lo hi r x := by
  cases h with
  | battery b h =>
    refine ⟨-b.maxConsumption, b.maxProduction, ?_, by linarith [h.valid.maxProduction_nonneg, h.valid.maxConsumption_nonneg],
      fun r => ?_⟩
    · simp [Module.planWindow, Module.afterStatus, Module.window, h.kind, Battery.maxConsumption, Battery.maxProduction]
    · exact energyFor_sink (by simp [Module.maxProduction, h.kind]) (by simp [Module.maxConsumption, h.kind])
        (by simp [Module.minProduction, h.kind]) (by simp [h.kind]) (by simp [Module.isSink, h.kind])
        h.valid.maxProduction_nonneg h.valid.maxConsumption_nonneg _ _
  | grid p t h w =>
    obtain ⟨r, hr⟩ := hl.row h.ts.series
    obtain ⟨imp, exp, co2, st, rfl, hst, -⟩ := h.row hr
    have hst0 : 0 ≤ st := by rcases hst with rfl | rfl <;> norm_num
    refine ⟨-(p.maxExport * st), p.maxImport * st, ?_, ?_, fun r => ?_⟩
    · rw [← h.window hr hst]
      simp [Module.planWindow, Module.afterStatus, h.kind]
    · linarith [mul_nonneg h.exp hst0, mul_nonneg h.imp hst0]
    · exact energyFor_sink (by simp [Module.maxProduction, h.kind, h.gridStatus hr])
        (by simp [Module.maxConsumption, h.kind, h.gridStatus hr]) (by simp [Module.minProduction, h.kind])
        (by simp [h.kind]) (by simp [Module.isSink, h.kind]) (mul_nonneg h.imp hst0) (mul_nonneg h.exp hst0) _ _
  | genset g h =>
    rw [h.kind] at ha
    have ha2 : action < 2 := ha
    obtain ⟨p, hp⟩ := h.phase
    have h01 : (0 : ℚ) ≤ action ∧ (action : ℚ) ≤ 1 := by
      refine ⟨by positivity, ?_⟩
      have : action ≤ 1 := by omega
      exact_mod_cast this
    obtain ⟨g', e', hp', hs, hst⟩ := hp.update h01.1 h01.2
    have hreq : Genset.reqInt (Genset.asksOn (action : ℚ)) = (action : Int) := by
      have : action = 0 ∨ action = 1 := by omega
      rcases this with rfl | rfl
      · norm_num [Genset.reqInt, Genset.asksOn]
      · norm_num [Genset.reqInt, Genset.asksOn]
    rw [hreq] at hst
    have wf := h.withStatus ⟨_, hp'⟩ hs
    have hmn : g'.minProduction = g.nextMinProduction action := by
      unfold Genset.minProduction Genset.nextMinProduction; rw [hst, hs.runMin]
    have hmx : g'.maxProduction = g.nextMaxProduction action := by
      unfold Genset.maxProduction Genset.nextMaxProduction; rw [hst, hs.runMax]
    have hb : 0 ≤ g'.minProduction ∧ g'.minProduction ≤ g'.maxProduction := by
      obtain ⟨p', hp''⟩ := wf.phase
      rcases hp''.1.status with e | e <;>
        simp [Genset.minProduction, Genset.maxProduction, e, wf.min_nonneg, wf.min_le]
    refine ⟨g'.minProduction, g'.maxProduction, ?_, hb.2, fun r => ?_⟩
    · rw [← wf.window]
      unfold Module.planWindow Module.afterStatus
      simp only [h.kind, e']
    · exact energyFor_genset h.kind hmn.symm hmx.symm hb.1 hb.2 r
  | load t h w => rw [h.ffc] at hf; exact absurd hf (by decide)
  | renewable t h w => rw [h.ffc] at hf; exact absurd hf (by decide)
  | balancing u h => rw [h.ffc] at hf; exact absurd hf (by decide)

/-! ### The dictionary of actions -/

theorem setEntry_get (act : List (String × List (Option Act))) (n n' : String) (j : Nat) (a : Act) :
    dictGet? (setEntry act n j a) n' = if n = n' then (dictGet? act n).map (·.set j (some a)) else dictGet? act n' := by
  unfold setEntry
  cases h : dictGet? act n with
  | none =>
    simp only [Option.map_none]
    split
    · rename_i e; rw [← e, h]
    · rfl
  | some l => simp only [dictGet?_dictSet, Option.map_some]

theorem entry_set_same {act : List (String × List (Option Act))} {n : String} {j : Nat} {old : Option Act}
    (h : entry act n j = .ok old) (a : Act) : entry (setEntry act n j a) n j = .ok (some a) := by
  unfold entry at h ⊢
  rw [setEntry_get, if_pos rfl]
  cases hd : dictGet? act n with
  | none => rw [hd] at h; simp at h
  | some l =>
    rw [hd] at h
    simp only at h
    have hlt : j < l.length := by
      by_contra hge
      rw [List.getElem?_eq_none (not_lt.mp hge)] at h
      simp at h
    simp [hlt]

theorem entry_set_ne {act : List (String × List (Option Act))} {n n' : String} {j j' : Nat} (a : Act)
    (hne : (n', j') ≠ (n, j)) : entry (setEntry act n j a) n' j' = entry act n' j' := by
  unfold entry
  rw [setEntry_get]
  by_cases hn : n = n'
  · subst hn
    have hj : j ≠ j' := fun e => hne (by rw [e])
    rw [if_pos rfl]
    cases hd : dictGet? act n with
    | none => rfl
    | some l => simp [List.getElem?_set_ne hj]
  · rw [if_neg hn]

/-- Names and numbers of entries. -/
def shape (act : List (String × List (Option Act))) : List (String × Nat) := act.map fun nl => (nl.1, nl.2.length)

theorem shape_dictSet {act : List (String × List (Option Act))} {n : String} {l l' : List (Option Act)}
    (h : dictGet? act n = some l) (hl : l'.length = l.length) : shape (dictSet act n l') = shape act := by
  induction act with
  | nil => simp [dictGet?] at h
  | cons x act ih =>
    obtain ⟨k, v⟩ := x
    by_cases hk : k = n
    · simp only [dictGet?, hk, if_true, Option.some.injEq] at h
      subst h
      simp [dictSet, hk, shape, hl]
    · simp only [dictGet?, hk, if_false] at h
      have := ih h
      simp only [shape] at this
      simp [dictSet, hk, shape, this]

theorem shape_setEntry (act : List (String × List (Option Act))) (n : String) (j : Nat) (a : Act) :
    shape (setEntry act n j a) = shape act := by
  unfold setEntry
  cases h : dictGet? act n with
  | none => rfl
  | some l => exact shape_dictSet h (by simp)

/-! ### The loop -/

/-- The parts of a priority list that do not change while the microgrid is used. -/
structure Usable (h : Heap) (mods : List (String × Nat)) (pl : List Element) : Prop where
  once : (pl.map Element.module).Nodup
  element : ∀ e ∈ pl, ∃ i, Denotes h mods e.module i ∧ e.actions = (h i).kind.cls.actions ∧ e.action < e.actions

theorem planAct_eq {m : Module} (h : m.WF) (hf : m.ffc = .controllable) (action : Nat) (x : ℚ) :
    (if m.kind.cls.actions > 1 then (.arr [(action : ℚ), x] : Act) else .num x) = m.planAct action x := by
  unfold Module.planAct
  cases h with
  | battery b h => simp only [h.kind]; exact if_neg (Nat.lt_irrefl 1)
  | genset g h => simp only [h.kind]; exact if_pos Nat.one_lt_two
  | grid p t h w => simp only [h.kind]; exact if_neg (Nat.lt_irrefl 1)
  | load t h w => rw [h.ffc] at hf; exact absurd hf (by decide)
  | renewable t h w => rw [h.ffc] at hf; exact absurd hf (by decide)
  | balancing u h => rw [h.ffc] at hf; exact absurd hf (by decide)

/-- What the loop does. -/
structure Populated (h : Heap) (mods : List (String × Nat)) (pl : List Element)
    (act act' : List (String × List (Option Act))) (r rem : ℚ) (xs : List ℚ) : Prop where
  len : xs.length = pl.length
  total : rem = r - xs.sum
  other : ∀ key, key ∉ pl.map Element.module → entry act' key.1 key.2 = entry act key.1 key.2
  shape : shape act' = shape act
  falling : 1/10000 < rem → 1/10000 < r
  rising : r ≤ 1/10000 → rem < -(1/10000) → r < -(1/10000)
  each : ∀ p ∈ pl.zip xs, ∃ i lo hi, Denotes h mods p.1.module i ∧
    entry act' p.1.module.1 p.1.module.2 = .ok (some ((h i).planAct p.1.action p.2)) ∧
    (h i).planWindow p.1.action = some (lo, hi) ∧ ((lo ≤ p.2 ∧ p.2 ≤ hi) ∨ (p.2 = 0 ∧ 0 < lo)) ∧
    (1/10000 < rem → p.2 = hi) ∧ (r ≤ 1/10000 → rem < -(1/10000) → p.2 = min lo 0)
  pos : ∀ x ∈ xs, 0 < x → 1/10000 < r
  neg : r ≤ 1/10000 → ∀ x ∈ xs, x < 0 → r < -(1/10000)
  merit : Merit h mods pl r rem xs

theorem populate_ok (ok : GridOK mods g) (hu : ClearNames g.heap mods) (hl : ∀ nm ∈ mods, (g.heap nm.2).Live)
    {pl : List Element} (hp : Usable g.heap mods pl) (act : List (String × List (Option Act))) (r : ℚ)
    (hn : ∀ e ∈ pl, entry act e.module.1 e.module.2 = .ok none) :
    ∃ act' rem xs, populate g pl act r = .ok (act', rem) ∧ Populated g.heap mods pl act act' r rem xs := by
  induction pl generalizing act r with
  | nil => exact ⟨act, r, [], rfl, rfl, by simp, fun _ _ => rfl, rfl, id, fun _ h => h, by simp, by simp, by simp,
    by simp, by simp, fun _ h => ⟨h, by simp⟩, fun h => ⟨h, by simp⟩⟩
  | cons e pl ih =>
    obtain ⟨i, hd, hact, hlt⟩ := hp.element e (by simp)
    have hw := ok.wf _ hd.mem.1
    have hlv := hl _ hd.mem.1
    simp only at hw hlv
    obtain ⟨lo, hi, hwin, -, hen⟩ := energyFor_ok hw hlv hd.mem.2 (hact ▸ hlt)
    obtain ⟨x, hx, as⟩ := hen r
    have honce := hp.once
    rw [List.map_cons, List.nodup_cons] at honce
    have hne : ∀ e' ∈ pl, e'.module ≠ e.module := fun e' he' heq =>
      honce.1 (List.mem_map.mpr ⟨e', he', heq⟩)
    obtain ⟨act', rem, xs, hpop, P⟩ := ih ⟨honce.2, fun e' he' => hp.element e' (by simp [he'])⟩
      (setEntry act e.module.1 e.module.2 ((g.heap i).planAct e.action x)) (r - x) (by
        intro e' he'
        rw [entry_set_ne _ (hne e' he')]
        exact hn e' (by simp [he']))
    have hpe : populate g (e :: pl) act r = .ok (act', rem) := by
      rw [populate, lookup_ok ok hu hd]
      simp only [hn e (by simp), Option.isSome_none, Bool.false_eq_true, and_false, if_false, hx]
      rw [hact, planAct_eq hw hd.mem.2]
      exact hpop
    have hmem : ∀ q ∈ pl.zip xs, q.2 ∈ xs := fun q hq => (List.of_mem_zip hq).2
    have hlow : r ≤ 1/10000 → r - x ≤ 1/10000 := by
      intro h
      by_contra hc
      exact absurd (as.top (not_le.mp hc)).1 (not_lt.mpr h)
    have hown : ∀ i' lo' hi', Denotes g.heap mods e.module i' → (g.heap i').planWindow e.action = some (lo', hi') →
        lo' = lo ∧ hi' = hi := by
      intro i' lo' hi' hd' hw'
      obtain rfl : i' = i := Option.some.inj (hd'.symm.trans hd)
      rw [hwin] at hw'
      obtain ⟨rfl, rfl⟩ := Prod.mk.inj (Option.some.inj hw')
      exact ⟨rfl, rfl⟩
    refine ⟨act', rem, x :: xs, hpe, ?_, ?_, ?_, ?_, ?_, ?_, ?_, ?_, ?_, ⟨?_, ?_, ?_, ?_⟩⟩
    · simp [P.len]
    · rw [P.total, List.sum_cons]; ring
    · intro key hk
      rw [List.map_cons, List.mem_cons, not_or] at hk
      rw [P.other key hk.2, entry_set_ne _ hk.1]
    · rw [P.shape, shape_setEntry]
    · intro h; exact (as.top (P.falling h)).1
    · intro h h'
      have h2 : r - x ≤ 1/10000 := by
        by_contra hc
        exact absurd (as.top (not_le.mp hc)).1 (not_lt.mpr h)
      exact (as.bottom h (P.rising h2 h')).1
    · intro p hpz
      rw [List.zip_cons_cons] at hpz
      rcases List.mem_cons.mp hpz with rfl | hpz
      · refine ⟨i, lo, hi, hd, ?_, hwin, as.within, ?_, ?_⟩
        · simp only
          rw [P.other e.module honce.1, entry_set_same (hn e (by simp))]
        · intro h; exact (as.top (P.falling h)).2
        · intro h h'
          have h2 : r - x ≤ 1/10000 := by
            by_contra hc
            exact absurd (as.top (not_le.mp hc)).1 (not_lt.mpr h)
          exact (as.bottom h (P.rising h2 h')).2
      · obtain ⟨j, lo', hi', h1, h2, h3, h4, h5, h6⟩ := P.each p hpz
        refine ⟨j, lo', hi', h1, h2, h3, h4, h5, fun h h' => h6 ?_ h'⟩
        by_contra hc
        exact absurd (as.top (not_le.mp hc)).1 (not_lt.mpr h)
    · intro y hy h0
      rcases List.mem_cons.mp hy with rfl | hy
      · exact as.pos h0
      · exact (as.top (P.pos y hy h0)).1
    · intro hr y hy h0
      rcases List.mem_cons.mp hy with rfl | hy
      · exact as.neg h0
      · exact (as.bottom hr (P.neg (hlow hr) y hy h0)).1
    · rw [List.zip_cons_cons, List.pairwise_cons]
      refine ⟨?_, P.merit.produce⟩
      intro q hq h0 i' lo' hi' hd' hw'
      rw [(hown i' lo' hi' hd' hw').2]
      exact (as.top (P.pos q.2 (hmem q hq) h0)).2
    · intro hr
      rw [List.zip_cons_cons, List.pairwise_cons]
      refine ⟨?_, P.merit.absorb (hlow hr)⟩
      intro q hq h0 i' lo' hi' hd' hw'
      rw [(hown i' lo' hi' hd' hw').1]
      exact (as.bottom hr (P.neg (hlow hr) q.2 (hmem q hq) h0)).2
    · intro hlo h0
      have hu := as.under (hlo e (by simp) i lo hi hd hwin) h0
      have hx0 : 0 ≤ x := by
        by_contra hc
        linarith [as.neg (not_le.mp hc)]
      obtain ⟨h1, h2⟩ := P.merit.deficit (fun e' he' => hlo e' (by simp [he'])) (by linarith)
      exact ⟨h1, by simpa using ⟨hx0, h2⟩⟩
    · intro h0
      have hx0 : x ≤ 0 := by
        by_contra hc
        linarith [as.pos (not_le.mp hc)]
      obtain ⟨h1, h2⟩ := P.merit.surplus (by linarith [as.over h0])
      exact ⟨h1, by simpa using ⟨hx0, h2⟩⟩

/-! ### The control -/

theorem mapM_id_some {α : Type} {l : List (Option α)} (h : ∀ j < l.length, ∃ a, l[j]? = some (some a)) :
    ∃ l', l.mapM id = some l' ∧ l = l'.map some := by
  induction l with
  | nil => exact ⟨[], rfl, rfl⟩
  | cons x l ih =>
    obtain ⟨a, ha⟩ := h 0 (by simp)
    simp only [List.getElem?_cons_zero, Option.some.injEq] at ha
    subst ha
    obtain ⟨l', h1, rfl⟩ := ih fun j hj => by
      have := h (j + 1) (by simp [hj])
      simpa using this
    exact ⟨a :: l', by simp [h1], rfl⟩

theorem toControl_ok {act : List (String × List (Option Act))}
    (h : ∀ nl ∈ act, ∀ j < nl.2.length, ∃ a, nl.2[j]? = some (some a)) :
    ∃ c, toControl act = some c ∧ ∀ name, dictGet? act name = (dictGet? c name).map fun k => k.acts.map some := by
  induction act with
  | nil => exact ⟨[], rfl, fun _ => rfl⟩
  | cons nl act ih =>
    obtain ⟨n, l⟩ := nl
    obtain ⟨l', h1, h2⟩ := mapM_id_some (h (n, l) (by simp))
    simp only at h1 h2
    obtain ⟨c, h3, h4⟩ := ih fun nl hnl => h nl (by simp [hnl])
    unfold toControl at h3
    refine ⟨(n, .seq l') :: c, by simp [toControl, h1, h3], fun name => ?_⟩
    by_cases hn : n = name
    · simp [dictGet?, hn, h2, Ctrl.acts]
    · simp [dictGet?, hn, h4]

theorem dictGet?_map {α β γ : Type} [DecidableEq α] (d : List (α × β)) (f : β → γ) (k : α) :
    dictGet? (d.map fun x => (x.1, f x.2)) k = (dictGet? d k).map f := by
  induction d with
  | nil => rfl
  | cons x d ih =>
    obtain ⟨k', v⟩ := x
    by_cases h : k' = k <;> simp [dictGet?, h, ih]

theorem level_nonempty {h : Heap} {f : FFC} {nl : String × List Nat}
    (hx : nl ∈ (Container.build h mods).levelDict f) : nl.2 ≠ [] := by
  obtain ⟨d, hd, hxd⟩ := Container.mem_toDict hx
  simp only [Container.level, List.mem_cons, List.not_mem_nil, or_false] at hd
  have : ∃ s, (nl.1, nl.2) ∈ (Container.build h mods).cat f s := by rcases hd with rfl | rfl | rfl <;> exact ⟨_, hxd⟩
  obtain ⟨s, hs⟩ := this
  exact (Container.mem_cat.mp hs).2

theorem emptyAction_eq (ok : GridOK mods g) (hu : ClearNames g.heap mods) (hdim : Dims g mods) :
    emptyAction g = (g.cont.levelDict .controllable).map fun nl => (nl.1, nl.2.map fun _ => none) := by
  unfold emptyAction
  congr 1
  rw [List.filter_eq_self]
  intro nl hnl
  rw [ok.cont] at hnl
  have hne := level_nonempty hnl
  have hnm := Container.level_named hu hnl
  cases hl : nl.2 with
  | nil => exact absurd hl hne
  | cons i l =>
    simp only [decide_eq_true_eq]
    have hd : Denotes g.heap mods (nl.1, 0) i := by
      unfold Denotes; simp only; rw [← hnm, hl]; rfl
    have := hdim _ hd.mem.1 hd.mem.2
    simp only at this
    rw [this]
    exact (cls_actions_pos (ok.wf _ hd.mem.1) hd.mem.2).ne'

theorem level_ctrl_get (hu : ClearNames g.heap mods) (ok : GridOK mods g) {key : String × Nat} {i : Nat}
    (hd : Denotes g.heap mods key i) :
    dictGet? (g.cont.levelDict .controllable) key.1 = some (modulesNamed g.heap mods .controllable key.1) := by
  rw [ok.cont]
  have hk := Container.level_key (h := g.heap) hd.mem.1
  rw [show (g.heap (key.1, i).2).ffc = .controllable from hd.mem.2] at hk
  obtain ⟨ids, hids⟩ := hk
  have hn : (((Container.build g.heap mods).levelDict .controllable).map Prod.fst).Nodup := Container.toDict_nodup _
  rw [dictGet?_of_mem hn hids]
  exact congrArg some (Container.level_named hu hids)

theorem emptyAction_none (ok : GridOK mods g) (hu : ClearNames g.heap mods) (hdim : Dims g mods) {key : String × Nat}
    {i : Nat} (hd : Denotes g.heap mods key i) : entry (emptyAction g) key.1 key.2 = .ok none := by
  unfold entry
  rw [emptyAction_eq ok hu hdim, dictGet?_map, level_ctrl_get hu ok hd]
  simp only [Option.map_some, List.getElem?_map]
  rw [show (modulesNamed g.heap mods .controllable key.1)[key.2]? = some i from hd]
  rfl

/-! ### Net load -/

theorem sumE_ok {h : Heap} {f : Module → Except Err ERat} {v : Nat → ℚ} {l : List Nat}
    (hf : ∀ i ∈ l, f (h i) = .ok (.fin (v i))) : sumE h f l = .ok (.fin (l.map v).sum) := by
  induction l with
  | nil => rfl
  | cons i l ih =>
    simp only [sumE, hf i (by simp), ih fun j hj => hf j (by simp [hj]), List.map_cons, List.sum_cons]

theorem sum_filter_map {α : Type} (l : List α) (p : α → Bool) (f : α → ℚ) (h : ∀ x ∈ l, p x = false → f x = 0) :
    ((l.filter p).map f).sum = (l.map f).sum := by
  induction l with
  | nil => rfl
  | cons x l ih =>
    have := ih fun y hy => h y (by simp [hy])
    by_cases hp : p x = true
    · simp [hp, this]
    · simp [hp, this, h x (by simp) (by simpa using hp)]

theorem totalLoad_ok (ok : GridOK mods g) (hl : ∀ nm ∈ mods, (g.heap nm.2).Live) :
    totalLoad g = .ok (.fin (mods.map fun nm => (g.heap nm.2).demand).sum) ∧
      0 ≤ (mods.map fun nm => (g.heap nm.2).demand).sum := by
  have hperm := Container.cat_perm g.heap mods .fixed .sinks
  have hval : ∀ nm ∈ mods, (g.heap nm.2).ffc = .fixed →
      (g.heap nm.2).maxConsumption = .ok (.fin (g.heap nm.2).demand) := by
    intro nm hm hf
    have hw := ok.wf nm hm
    have hlv := hl nm hm
    cases hw with
    | load t h w =>
      obtain ⟨r, hr⟩ := hlv.row h.ts.series
      obtain ⟨x, rfl, -, hi⟩ := h.itemAt hr
      simp [Module.maxConsumption, Module.demand, h.kind, hi, hr]
    | battery b h => rw [h.ffc] at hf; exact absurd hf (by decide)
    | genset b h => rw [h.ffc] at hf; exact absurd hf (by decide)
    | grid p t h w => exact absurd hf h.ffc
    | renewable t h w => rw [h.ffc] at hf; exact absurd hf (by decide)
    | balancing u h => rw [h.ffc] at hf; exact absurd hf (by decide)
  have hzero : ∀ nm ∈ mods, Container.inCat g.heap .fixed .sinks nm = false → (g.heap nm.2).demand = 0 := by
    intro nm hm hc
    have hw := ok.wf nm hm
    cases hw with
    | load t h w => simp [Container.inCat, h.ffc, Module.ss, Module.isSource, Module.isSink, h.kind] at hc
    | battery b h => simp [Module.demand, h.kind]
    | genset b h => simp [Module.demand, h.kind]
    | grid p t h w => simp [Module.demand, h.kind]
    | renewable t h w => simp [Module.demand, h.kind]
    | balancing u h => simp [Module.demand, h.kind]
  constructor
  · unfold totalLoad
    rw [ok.cont, sumE_ok (v := fun i => (g.heap i).demand)]
    · rw [← Container.toTuples_ids, List.map_map, (hperm.map _).sum_eq]
      congr 2
      exact sum_filter_map mods _ _ hzero
    · intro i hi
      rw [← Container.toTuples_ids] at hi
      obtain ⟨nm, hnm, rfl⟩ := List.mem_map.mp hi
      have := hperm.mem_iff.mp hnm
      simp only [List.mem_filter, Container.inCat, decide_eq_true_eq] at this
      exact hval nm this.1 this.2.1
  · apply List.sum_nonneg
    intro x hx
    obtain ⟨nm, hnm, rfl⟩ := List.mem_map.mp hx
    have hw := ok.wf nm hnm
    cases hw with
    | load t h w =>
      obtain ⟨r, hr⟩ := (hl nm hnm).row h.ts.series
      obtain ⟨x, rfl, h0, hi⟩ := h.itemAt hr
      simp [Module.demand, h.kind, hr, h0]
    | battery b h => simp [Module.demand, h.kind]
    | genset b h => simp [Module.demand, h.kind]
    | grid p t h w => simp [Module.demand, h.kind]
    | renewable t h w => simp [Module.demand, h.kind]
    | balancing u h => simp [Module.demand, h.kind]

theorem totalRenewable_ok (ok : GridOK mods g) (hl : ∀ nm ∈ mods, (g.heap nm.2).Live) :
    totalRenewable g = .ok (.fin (mods.map fun nm => (g.heap nm.2).available).sum) ∧
      0 ≤ (mods.map fun nm => (g.heap nm.2).available).sum := by
  have hperm := Container.cat_perm g.heap mods .flex .sources
  have hval : ∀ nm ∈ mods, (g.heap nm.2).ffc = .flex → (g.heap nm.2).ss = .sources →
      (g.heap nm.2).maxProduction = .ok (.fin (g.heap nm.2).available) := by
    intro nm hm hf hs
    have hw := ok.wf nm hm
    have hlv := hl nm hm
    cases hw with
    | renewable t h w =>
      obtain ⟨r, hr⟩ := hlv.row h.ts.series
      obtain ⟨x, rfl, -, hi⟩ := h.itemAt hr
      simp [Module.maxProduction, Module.available, h.kind, hi, hr]
    | battery b h => rw [h.ffc] at hf; exact absurd hf (by decide)
    | genset b h => rw [h.ffc] at hf; exact absurd hf (by decide)
    | grid p t h w => simp [Module.ss, Module.isSource, Module.isSink, h.kind] at hs
    | load t h w => rw [h.ffc] at hf; exact absurd hf (by decide)
    | balancing u h => simp [Module.ss, Module.isSource, Module.isSink, h.kind] at hs
  have hzero : ∀ nm ∈ mods, Container.inCat g.heap .flex .sources nm = false → (g.heap nm.2).available = 0 := by
    intro nm hm hc
    have hw := ok.wf nm hm
    cases hw with
    | renewable t h w => simp [Container.inCat, h.ffc, Module.ss, Module.isSource, Module.isSink, h.kind] at hc
    | battery b h => simp [Module.available, h.kind]
    | genset b h => simp [Module.available, h.kind]
    | grid p t h w => simp [Module.available, h.kind]
    | load t h w => simp [Module.available, h.kind]
    | balancing u h => simp [Module.available, h.kind]
  constructor
  · unfold totalRenewable
    rw [ok.cont, sumE_ok (v := fun i => (g.heap i).available)]
    · rw [← Container.toTuples_ids, List.map_map, (hperm.map _).sum_eq]
      congr 2
      exact sum_filter_map mods _ _ hzero
    · intro i hi
      rw [← Container.toTuples_ids] at hi
      obtain ⟨nm, hnm, rfl⟩ := List.mem_map.mp hi
      have := hperm.mem_iff.mp hnm
      simp only [List.mem_filter, Container.inCat, decide_eq_true_eq] at this
      exact hval nm this.1 this.2.1 this.2.2
  · apply List.sum_nonneg
    intro x hx
    obtain ⟨nm, hnm, rfl⟩ := List.mem_map.mp hx
    have hw := ok.wf nm hnm
    cases hw with
    | renewable t h w =>
      obtain ⟨r, hr⟩ := (hl nm hnm).row h.ts.series
      obtain ⟨x, rfl, h0, hi⟩ := h.itemAt hr
      simp [Module.available, h.kind, hr, h0]
    | battery b h => simp [Module.available, h.kind]
    | genset b h => simp [Module.available, h.kind]
    | grid p t h w => simp [Module.available, h.kind]
    | load t h w => simp [Module.available, h.kind]
    | balancing u h => simp [Module.available, h.kind]

/-! ### The whole function -/

theorem entry_ok_iff {act : List (String × List (Option Act))} {n : String} {j : Nat} {a : Option Act} :
    entry act n j = .ok a ↔ ∃ l, dictGet? act n = some l ∧ l[j]? = some a := by
  unfold entry
  cases h : dictGet? act n with
  | none => simp
  | some l =>
    cases hj : l[j]? with
    | none => simp [hj]
    | some b => simp [hj]

theorem populateAction_ok (ok : GridOK mods g) (hu : ClearNames g.heap mods) (hdim : Dims g mods)
    (hl : ∀ nm ∈ mods, (g.heap nm.2).Live) {pl : List Element} (hp : Usable g.heap mods pl)
    (hall : ∀ key i, Denotes g.heap mods key i → key ∈ pl.map Element.module) :
    ∃ act rem c xs, populateAction g pl = .ok (act, rem) ∧ toControl act = some c ∧
      Planned g.heap mods pl c (netLoad g.heap mods) rem xs := by
  obtain ⟨l1, l2⟩ := totalLoad_ok ok hl
  obtain ⟨r1, r2⟩ := totalRenewable_ok ok hl
  obtain ⟨act, rem, xs, hpop, P⟩ := populate_ok ok hu hl hp (emptyAction g) (netLoad g.heap mods) (by
    intro e he
    obtain ⟨i, hd, -⟩ := hp.element e he
    exact emptyAction_none ok hu hdim hd)
  have hget : ∀ name, (dictGet? act name).map List.length =
      (dictGet? (g.cont.levelDict .controllable) name).map List.length := by
    intro name
    have h1 := dictGet?_map act List.length name
    have h2 := dictGet?_map (emptyAction g) List.length name
    have h3 := P.shape
    unfold shape at h3
    rw [h3] at h1
    rw [← h1, h2, emptyAction_eq ok hu hdim, dictGet?_map, Option.map_map]
    congr 1
    funext l
    simp
  have hlist : ∀ e ∈ pl, ∃ x, (e, x) ∈ pl.zip xs := by
    intro e he
    obtain ⟨n, hn, rfl⟩ := List.getElem_of_mem he
    exact ⟨xs[n]'(by rw [P.len]; exact hn), List.mem_iff_getElem.mpr ⟨n, by simp [P.len, hn], by simp⟩⟩
  have hnodup : (act.map Prod.fst).Nodup := by
    have : act.map Prod.fst = (shape act).map Prod.fst := by simp [shape]
    rw [this, P.shape, emptyAction_eq ok hu hdim]
    have h4 : ((g.cont.levelDict .controllable).map Prod.fst).Nodup := Container.toDict_nodup _
    simpa [shape, List.map_map, Function.comp_def] using h4
  have hfull : ∀ nl ∈ act, ∀ j < nl.2.length, ∃ a, nl.2[j]? = some (some a) := by
    intro nl hnl j hj
    have hd := dictGet?_of_mem hnodup (k := nl.1) (v := nl.2) hnl
    have hg := hget nl.1
    rw [hd] at hg
    cases hlv : dictGet? (g.cont.levelDict .controllable) nl.1 with
    | none => rw [hlv] at hg; simp at hg
    | some ids =>
      rw [hlv] at hg
      simp only [Option.map_some, Option.some.injEq] at hg
      have hids : ids = modulesNamed g.heap mods .controllable nl.1 := by
        have := dictGet?_mem hlv
        rw [ok.cont] at this
        exact Container.level_named hu this
      have hden : Denotes g.heap mods (nl.1, j) (ids[j]'(hg ▸ hj)) := by
        unfold Denotes
        simp only
        rw [← hids]
        exact List.getElem?_eq_getElem _
      obtain ⟨e, he, hk⟩ := List.mem_map.mp (hall _ _ hden)
      obtain ⟨x, hx⟩ := hlist e he
      obtain ⟨i, lo, hi, -, hent, -⟩ := P.each _ hx
      simp only [hk] at hent
      obtain ⟨l, h1, h2⟩ := entry_ok_iff.mp hent
      rw [hd] at h1
      rw [Option.some.inj h1]
      exact ⟨_, h2⟩
  obtain ⟨c, hc, hcg⟩ := toControl_ok hfull
  refine ⟨act, rem, c, xs, ?_, hc, P.len, P.total, ?_, ?_, P.merit⟩
  · unfold populateAction
    rw [l1, r1]
    simp only
    rw [if_pos ⟨l2, r2⟩]
    exact hpop
  · intro name
    have hg := hget name
    rw [hcg name] at hg
    cases hcn : dictGet? c name with
    | none =>
      left
      refine ⟨rfl, ?_⟩
      rw [hcn] at hg
      simp only [Option.map_none] at hg
      rw [List.eq_nil_iff_forall_not_mem]
      intro i hi
      obtain ⟨j, hj⟩ := List.mem_iff_getElem?.mp hi
      have hd : Denotes g.heap mods (name, j) i := hj
      have := level_ctrl_get hu ok hd
      simp only at this
      rw [this] at hg
      simp at hg
    | some k =>
      right
      rw [hcn] at hg
      cases hlv : dictGet? (g.cont.levelDict .controllable) name with
      | none => rw [hlv] at hg; simp at hg
      | some ids =>
        rw [hlv] at hg
        simp only [Option.map_some, Option.some.injEq, List.length_map] at hg
        have hmem := dictGet?_mem hlv
        rw [ok.cont] at hmem
        have hids := Container.level_named hu hmem
        have hne := level_nonempty hmem
        simp only at hids hne
        refine ⟨k, rfl, by rw [hg, hids], ?_⟩
        intro h0
        rw [h0] at hg
        exact hne (List.length_eq_zero_iff.mp hg.symm)
  · intro p hpz
    obtain ⟨i, lo, hi, h1, h2, h3, h4, h5, h6⟩ := P.each p hpz
    obtain ⟨l, h7, h8⟩ := entry_ok_iff.mp h2
    rw [hcg] at h7
    cases hcn : dictGet? c p.1.module.1 with
    | none => rw [hcn] at h7; simp at h7
    | some k =>
      rw [hcn] at h7
      simp only [Option.map_some, Option.some.injEq] at h7
      subst h7
      refine ⟨i, k, lo, hi, h1, rfl, ?_, h3, h4, h5, h6⟩
      rw [List.getElem?_map] at h8
      cases hk : k.acts[p.1.module.2]? with
      | none => rw [hk] at h8; simp at h8
      | some a => rw [hk] at h8; simpa using h8

end PriorityList

end Pymgrid
