import Verif.Spec.Dual
import Verif.Lemmas.Ledger

set_option autoImplicit false

/-! Bounds on what the modules earn at given prices. -/

namespace Pymgrid

open Module

theorem Kind.margin_core (x y f : ℚ) (k : Kind) : k.core.margin x y f = k.margin x y f := by cases k <;> rfl
theorem Kind.room_core (k : Kind) : k.core.room = k.room := by cases k <;> rfl

/-- The least that a battery stores. -/
def Kind.bottom : Kind → ℚ
  | .battery b => b.minCapacity
  | _ => 0

theorem Kind.bottom_core (k : Kind) : k.core.bottom = k.bottom := by cases k <;> rfl

theorem Kind.usable_eq (k : Kind) : k.usable = k.stock - k.bottom := by
  cases k <;> simp [Kind.usable, Kind.stock, Kind.bottom]

/-- What is bought or sold within a limit earns at most the limit at a price that is not negative. -/
theorem part_le {u p l : ℚ} (hp : 0 ≤ p) (hl : p ≤ l) : u * p ≤ max 0 u * l :=
  (mul_le_mul_of_nonneg_right (le_max_right 0 u) hp).trans (mul_le_mul_of_nonneg_left hl (le_max_left 0 u))

theorem part_nonneg {u p l : ℚ} (hp : 0 ≤ p) (hl : p ≤ l) : 0 ≤ max 0 u * l :=
  mul_nonneg (le_max_left 0 u) (hp.trans hl)

section
variable {m m₁ m₂ : Module} {c : Nat} {p a x y f : ℚ}

/-- One step of one module. -/
theorem step_margin (w : m.WF) (e₁ : m₁.kind.core = m.kind.core) (e₂ : m₂.kind.core = m.kind.core)
    (hp : m.kind.Possible c p a) (hm : Moved m.kind m₁.kind m₂.kind p a)
    (hu : ∀ u, m.kind = .balancing u → -u.overgenerationCost ≤ x ∧ x ≤ u.lossLoadCost)
    (hg : ∀ s, m.kind = .genset s → ∀ p, p = 0 ∨ s.runMin ≤ p ∧ p ≤ s.runMax → f * p ≤ fuelPrice s.cost p) :
    x * (p - a) - m.kind.dues c p a ≤ m.kind.margin x y f c + y * (m₁.kind.usable - m₂.kind.usable) := by
  have hb : m₁.kind.bottom = m₂.kind.bottom := by rw [← Kind.bottom_core, e₁, ← e₂, Kind.bottom_core]
  have hst : m₁.kind.usable - m₂.kind.usable = m.kind.lost p a + p - a - (if m.kind.cls = .battery then 0 else p - a) := by
    rw [Kind.usable_eq, Kind.usable_eq, hb]
    unfold Moved at hm
    linarith
  rw [hst]
  have zero : m.kind.cls ≠ .battery → y * (m.kind.lost p a + p - a - (if m.kind.cls = .battery then 0 else p - a)) = 0 := by
    intro hc
    have : m.kind.lost p a = 0 := by cases hk : m.kind <;> simp_all [Kind.lost, Kind.cls]
    rw [this, if_neg hc]; ring
  cases w with
  | battery b h =>
    rw [h.kind] at hp ⊢
    simp only [Kind.Possible, Kind.dues, Kind.margin, Kind.lost, Kind.cls, if_true] at hp ⊢
    obtain ⟨p0, p1, a0, a1, hpa⟩ := hp
    have h0 := h.valid.eff_pos
    rcases hpa with rfl | rfl
    · have h1 := part_le (u := (y - b.costCycle) * b.efficiency - x) a0 a1
      have h2 := le_max_right (max 0 (x - (y + b.costCycle) / b.efficiency) * (b.maxDischarge * b.efficiency))
        (max 0 ((y - b.costCycle) * b.efficiency - x) * (b.maxCharge / b.efficiency))
      have h3 := h1.trans h2
      have e : x * (0 - a) - b.costCycle * (b.efficiency * a + 0 / b.efficiency) =
          ((y - b.costCycle) * b.efficiency - x) * a + y * ((1 - b.efficiency) * a + (1 / b.efficiency - 1) * 0 + 0 - a - 0) := by
        ring
      rw [e]
      linarith
    · have h1 := part_le (u := x - (y + b.costCycle) / b.efficiency) p0 p1
      have h2 := le_max_left (max 0 (x - (y + b.costCycle) / b.efficiency) * (b.maxDischarge * b.efficiency))
        (max 0 ((y - b.costCycle) * b.efficiency - x) * (b.maxCharge / b.efficiency))
      have h3 := h1.trans h2
      have e : x * (p - 0) - b.costCycle * (b.efficiency * 0 + p / b.efficiency) =
          (x - (y + b.costCycle) / b.efficiency) * p + y * ((1 - b.efficiency) * 0 + (1 / b.efficiency - 1) * p + p - 0 - 0) := by
        field_simp
        ring
      rw [e]
      linarith
  | genset g h =>
    rw [zero (by rw [h.kind]; simp [Kind.cls]), add_zero]
    have hg' := hg g h.kind
    have hz' := hg' 0 (.inl rfl)
    rw [h.kind] at hp ⊢
    simp only [Kind.Possible, Kind.dues, Kind.margin] at hp ⊢
    obtain ⟨h1, rfl⟩ := hp
    rcases h1 with rfl | ⟨l, u⟩
    · have := part_nonneg (u := x - f - g.costPerCo2 * g.co2PerUnit) (le_refl 0) (h.min_nonneg.trans h.min_le)
      linarith
    · have h2 := part_le (u := x - f - g.costPerCo2 * g.co2PerUnit) (h.min_nonneg.trans l) u
      have := hg' p (.inr ⟨l, u⟩)
      have e : (x - f - g.costPerCo2 * g.co2PerUnit) * p = x * (p - 0) - (f * p + g.costPerCo2 * (g.co2PerUnit * p)) := by ring
      linarith
  | grid q t h w =>
    rw [zero (by rw [h.kind]; simp [Kind.cls]), add_zero]
    rw [h.kind] at hp ⊢
    simp only [Kind.Possible, Kind.dues, Kind.margin] at hp ⊢
    obtain ⟨p0, p1, a0, a1, hpa⟩ := hp
    rcases hpa with rfl | rfl
    · have h1 := (part_le (u := t.cell c 1 - x) a0 a1).trans (le_max_right
        (max 0 (x - t.cell c 0 - q.costPerCo2 * t.cell c 2) * (q.maxImport * t.cell c 3)) _)
      linarith
    · have h1 := (part_le (u := x - t.cell c 0 - q.costPerCo2 * t.cell c 2) p0 p1).trans (le_max_left _
        (max 0 (t.cell c 1 - x) * (q.maxExport * t.cell c 3)))
      linarith
  | load t h w =>
    rw [zero (by rw [h.kind]; simp [Kind.cls]), add_zero]
    rw [h.kind] at hp ⊢
    simp only [Kind.Possible, Kind.dues, Kind.margin] at hp ⊢
    rw [hp.1, hp.2]
    linarith
  | renewable t h w =>
    rw [zero (by rw [h.kind]; simp [Kind.cls]), add_zero]
    rw [h.kind] at hp ⊢
    simp only [Kind.Possible, Kind.dues, Kind.margin] at hp ⊢
    have := part_le (u := x) hp.1 hp.2.1
    rw [hp.2.2]
    linarith
  | balancing u h =>
    rw [zero (by rw [h.kind]; simp [Kind.cls]), add_zero]
    obtain ⟨u1, u2⟩ := hu u h.kind
    rw [h.kind] at hp ⊢
    simp only [Kind.Possible, Kind.dues, Kind.margin] at hp ⊢
    have h1 := mul_nonneg (sub_nonneg.mpr u2) hp.1
    have h2 := mul_nonneg (sub_nonneg.mpr u1) hp.2.1
    linarith

/-- The usable energy of a battery is within its room. -/
theorem usable_bounds (w : m₁.WF) (e : m₁.kind.core = m.kind.core) : 0 ≤ m₁.kind.usable ∧ m₁.kind.usable ≤ m.kind.room := by
  rw [← Kind.room_core, ← e, Kind.room_core]
  cases w with
  | battery b h =>
    rw [h.kind]
    simp only [Kind.usable, Kind.room]
    have := h.valid.low
    have := h.valid.high
    exact ⟨by linarith, by linarith⟩
  | genset g h => rw [h.kind]; exact ⟨le_refl _, le_refl _⟩
  | grid p t h w => rw [h.kind]; exact ⟨le_refl _, le_refl _⟩
  | load t h w => rw [h.kind]; exact ⟨le_refl _, le_refl _⟩
  | renewable t h w => rw [h.kind]; exact ⟨le_refl _, le_refl _⟩
  | balancing u h => rw [h.kind]; exact ⟨le_refl _, le_refl _⟩

end

theorem overSteps_succ (c n : Nat) (f : Nat → ℚ) : overSteps c (n + 1) f = f c + overSteps (c + 1) n f := by
  unfold overSteps
  rw [List.range_succ_eq_map]
  simp only [List.map_cons, List.sum_cons, Nat.add_zero, List.map_map]
  congr 2
  apply List.map_congr_left
  intro k _
  simp only [Function.comp]
  congr 1; omega

/-- One step of a ceiling. -/
theorem ceiling_succ (q : Quotes) (name : String) {now next k : Kind} (c n : Nat) (h0 : 0 ≤ next.usable)
    (h1 : next.usable ≤ k.room) :
    k.margin (q.energy c) (q.store name c) (q.fuel name) c + q.store name c * (now.usable - next.usable) +
      q.ceiling name next k (c + 1) n ≤ q.ceiling name now k c (n + 1) := by
  unfold Quotes.ceiling Kind.holding
  rw [overSteps_succ, overSteps_succ, show c + (n + 1) = c + 1 + n by omega]
  have := part_le (u := q.store name (c + 1) - q.store name c) h0 h1
  linarith

theorem ceiling_zero (q : Quotes) (name : String) {now k : Kind} (c : Nat) (h0 : 0 ≤ now.usable) (h1 : now.usable ≤ k.room) :
    0 ≤ q.ceiling name now k c 0 := by
  unfold Quotes.ceiling Kind.holding overSteps
  have := part_le (u := -q.store name c) h0 h1
  simp only [List.range_zero, List.map_nil, List.sum_nil, Nat.add_zero]
  linarith

section
variable {h : Heap} {mods : List (String × Nat)} {g g' : Microgrid}

/-- No sequence of runs earns more than the ceilings of the modules. -/
theorem Follows.ceiling (f : Follows h mods none g) (w : ∀ nm ∈ mods, (h nm.2).WF) (hid : (mods.map Prod.snd).Nodup)
    (hn : (mods.map Prod.fst).Nodup) (hb : ∃ nm ∈ mods, (h nm.2).kind.isBalancing = true)
    {cs : List (List (String × Ctrl) × Bool)} {os : List RunOut} (hr : Runs g cs os g')
    (hs : ∀ cn ∈ cs, Supplies h mods cn.1) {c : Nat} (hl : LockStep mods g c) (q : Quotes) (hq : q.Fair h mods c os.length) :
    (os.map RunOut.reward).sum ≤
      (mods.map fun nm => q.ceiling nm.1 (g.heap nm.2).kind (h nm.2).kind c os.length).sum := by
  induction hr generalizing c with
  | nil g =>
    simp only [List.map_nil, List.sum_nil, List.length_nil]
    apply List.sum_nonneg
    intro x hx
    obtain ⟨nm, hm, rfl⟩ := List.mem_map.mp hx
    obtain ⟨h0, h1⟩ := usable_bounds (f.ok.wf nm hm) (f.core nm hm)
    exact ceiling_zero q nm.1 c h0 h1
  | @cons g g₁ g' ctl n o cs os hrun ht ih =>
    obtain ⟨a1, a2, a3⟩ := f.account hid hn hl (hs (ctl, n) (by simp)) hrun
    have f₁ := f.run hrun
    have hq₁ : q.Fair h mods (c + 1) os.length :=
      ⟨fun nm hm u hu j h1 h2 => hq.balancing nm hm u hu j (by omega) (by simp only [List.length_cons]; omega), hq.genset⟩
    have i := ih f₁ (fun cn hcn => hs cn (by simp [hcn])) a2 hq₁
    have bal := a1.balance hb
    have rew := a1.reward rfl
    simp only [List.map_cons, List.sum_cons, List.length_cons]
    have step : o.reward + (mods.map fun nm => q.ceiling nm.1 (g₁.heap nm.2).kind (h nm.2).kind (c + 1) os.length).sum ≤
        (mods.map fun nm => q.ceiling nm.1 (g.heap nm.2).kind (h nm.2).kind c (os.length + 1)).sum := by
      have e : o.reward = (mods.map fun nm => q.energy c * o.provBy nm.1 + -(q.energy c * o.absBy nm.1) +
          -(h nm.2).kind.dues c (o.provBy nm.1) (o.absBy nm.1)).sum := by
        rw [sum_map_add, sum_map_add, sum_map_neg, sum_map_neg, List.sum_map_mul_left, List.sum_map_mul_left, bal, rew]
        ring
      rw [e, ← sum_map_add]
      apply List.sum_le_sum
      intro nm hm
      obtain ⟨h0, h1⟩ := usable_bounds (f₁.ok.wf nm hm) (f₁.core nm hm)
      have := step_margin (m₁ := g.heap nm.2) (m₂ := g₁.heap nm.2) (x := q.energy c) (y := q.store nm.1 c) (f := q.fuel nm.1) (w nm hm)
        (f.core nm hm) (f₁.core nm hm) (a1.possible nm hm) (a3 nm hm)
        (fun u hu => hq.balancing nm hm u hu c (le_refl _) (by simp)) (fun s hs => hq.genset nm hm s hs)
      have h2 := ceiling_succ q nm.1 (now := (g.heap nm.2).kind) c os.length h0 h1
      have e2 : q.energy c * (o.provBy nm.1 - o.absBy nm.1) = q.energy c * o.provBy nm.1 - q.energy c * o.absBy nm.1 := by ring
      linarith
    linarith

end

theorem overSteps_congr {c n : Nat} {f f' : Nat → ℚ} (h : ∀ j, c ≤ j → j < c + n → f j = f' j) :
    overSteps c n f = overSteps c n f' := by
  unfold overSteps
  congr 1
  apply List.map_congr_left
  intro k hk
  exact h _ (by omega) (by have := List.mem_range.mp hk; omega)

theorem overSteps_mul (c n : Nat) (x : ℚ) (f : Nat → ℚ) : overSteps c n (fun j => x * f j) = x * overSteps c n f := by
  unfold overSteps
  rw [List.sum_map_mul_left]

theorem overSteps_neg (c n : Nat) (f : Nat → ℚ) : overSteps c n (fun j => -f j) = -overSteps c n f := by
  unfold overSteps
  rw [sum_map_neg]

/-- What a store price of one unit outside is. -/
def Kind.storePrice (x : ℚ) : Kind → ℚ
  | .battery b => x * b.efficiency
  | _ => 0

/-- What fuel may cost at least. -/
def Kind.fuelFloor (x : ℚ) : Kind → ℚ
  | .genset s => x - s.costPerCo2 * s.co2PerUnit
  | _ => 0

/-- One price for everything. -/
def onePriceQuotes (h : Heap) (mods : List (String × Nat)) (x : ℚ) : Quotes where
  energy _ := x
  store name _ := (dictGet? mods name).elim 0 fun i => (h i).kind.storePrice x
  fuel name := (dictGet? mods name).elim 0 fun i => (h i).kind.fuelFloor x

section
variable {h : Heap} {mods : List (String × Nat)} {x : ℚ} {c n : Nat}

theorem onePrice_fair (hn : (mods.map Prod.fst).Nodup) (hx : OnePrice h mods x c n) :
    (onePriceQuotes h mods x).Fair h mods c n := by
  refine ⟨?_, ?_⟩
  · intro nm hm u hu j _ _
    obtain ⟨h1, h2⟩ := hx.balancing nm hm u hu
    have := hx.nonneg
    exact ⟨by show -u.overgenerationCost ≤ x; linarith, h2⟩
  · intro nm hm s hs p hp
    have h1 := hx.genset nm hm s hs p hp
    have e : (onePriceQuotes h mods x).fuel nm.1 = x - s.costPerCo2 * s.co2PerUnit := by
      simp only [onePriceQuotes, dictGet?_of_mem hn hm, Option.elim, hs, Kind.fuelFloor]
    rw [e]
    have e2 : (x - s.costPerCo2 * s.co2PerUnit) * p = x * p - s.costPerCo2 * (s.co2PerUnit * p) := by ring
    linarith

theorem onePrice_ceiling (hn : (mods.map Prod.fst).Nodup) (hx : OnePrice h mods x c n) {nm : String × Nat} (hm : nm ∈ mods)
    (w : (h nm.2).WF) {now : Kind} (e : now.core = (h nm.2).kind.core) :
    (onePriceQuotes h mods x).ceiling nm.1 now (h nm.2).kind c n =
      x * (overSteps c n (h nm.2).kind.harvest + -overSteps c n (h nm.2).kind.demand + now.reserve) := by
  have es : ∀ j, (onePriceQuotes h mods x).store nm.1 j = (h nm.2).kind.storePrice x := by
    intro j
    simp only [onePriceQuotes, dictGet?_of_mem hn hm, Option.elim]
  have ef : (onePriceQuotes h mods x).fuel nm.1 = (h nm.2).kind.fuelFloor x := by
    simp only [onePriceQuotes, dictGet?_of_mem hn hm, Option.elim]
  have hx0 := hx.nonneg
  have m0 : ∀ u l : ℚ, u ≤ 0 → max 0 u * l = 0 := by
    intro u l hu
    rw [max_eq_left hu, zero_mul]
  unfold Quotes.ceiling Kind.holding
  simp only [es, ef, sub_self, max_self, overSteps_zero, zero_add]
  cases w with
  | battery b hb =>
    have hc := hx.battery nm hm b hb.kind
    have h0 := hb.valid.eff_pos
    have h1 := hb.valid.eff_le
    rw [hb.kind] at e ⊢
    have en : ∃ b', now = .battery b' ∧ b'.efficiency = b.efficiency := by
      cases now <;> simp_all [Kind.core]
    obtain ⟨b', rfl, en⟩ := en
    simp only [Kind.storePrice, Kind.fuelFloor, Kind.margin, Kind.usable, Kind.reserve, Kind.room, onePriceQuotes, en]
    have n1 : x - (x * b.efficiency + b.costCycle) / b.efficiency ≤ 0 := by
      have : x - (x * b.efficiency + b.costCycle) / b.efficiency = -(b.costCycle / b.efficiency) := by field_simp; ring
      rw [this]
      have := div_nonneg hc h0.le
      linarith
    have n2 : (x * b.efficiency - b.costCycle) * b.efficiency - x ≤ 0 := by
      have h2 : b.efficiency * b.efficiency ≤ 1 := by nlinarith
      have h3 := mul_le_mul_of_nonneg_left h2 hx0
      have h4 := mul_nonneg hc h0.le
      nlinarith
    have n3 : -(x * b.efficiency) ≤ 0 := by
      have := mul_nonneg hx0 h0.le
      linarith
    simp only [m0 _ _ n1, m0 _ _ n2, m0 _ _ n3, max_self, overSteps_zero]
    rw [show overSteps c n (Kind.battery b).harvest = 0 from overSteps_zero c n,
      show overSteps c n (Kind.battery b).demand = 0 from overSteps_zero c n]
    ring
  | genset g hg =>
    rw [hg.kind] at e ⊢
    have en : now.usable = 0 ∧ now.reserve = 0 := by cases now <;> simp_all [Kind.core, Kind.usable, Kind.reserve]
    simp only [Kind.storePrice, Kind.fuelFloor, Kind.margin, Kind.room, onePriceQuotes, en]
    have n1 : x - (x - g.costPerCo2 * g.co2PerUnit) - g.costPerCo2 * g.co2PerUnit ≤ 0 := by linarith
    simp only [m0 _ _ n1, overSteps_zero]
    rw [show overSteps c n (Kind.genset g).harvest = 0 from overSteps_zero c n,
      show overSteps c n (Kind.genset g).demand = 0 from overSteps_zero c n]
    ring
  | grid p t hg w =>
    have hp := hx.grid nm hm p t hg.kind
    rw [hg.kind] at e ⊢
    have en : now.usable = 0 ∧ now.reserve = 0 := by cases now <;> simp_all [Kind.core, Kind.usable, Kind.reserve]
    have z : overSteps c n (fun j => (Kind.grid p t).margin x 0 0 j) = 0 := by
      rw [overSteps_congr (f' := fun _ => 0), overSteps_zero]
      intro j h1 h2
      obtain ⟨i1, i2⟩ := hp j h1 h2
      simp only [Kind.margin]
      rw [m0 _ _ (by linarith), m0 _ _ (by linarith), max_self]
    simp only [Kind.storePrice, Kind.fuelFloor, Kind.room, en]
    simp only [onePriceQuotes]
    rw [z, show overSteps c n (Kind.grid p t).harvest = 0 from overSteps_zero c n,
      show overSteps c n (Kind.grid p t).demand = 0 from overSteps_zero c n]
    ring
  | load t hg w =>
    rw [hg.kind] at e ⊢
    have en : now.usable = 0 ∧ now.reserve = 0 := by cases now <;> simp_all [Kind.core, Kind.usable, Kind.reserve]
    simp only [Kind.storePrice, Kind.fuelFloor, Kind.margin, Kind.room, onePriceQuotes, en]
    rw [overSteps_neg, overSteps_mul, show overSteps c n (Kind.load t).harvest = 0 from overSteps_zero c n,
      show overSteps c n (Kind.load t).demand = overSteps c n (fun j => |t.cell j 0|) from rfl]
    ring
  | renewable t hg w =>
    rw [hg.kind] at e ⊢
    have en : now.usable = 0 ∧ now.reserve = 0 := by cases now <;> simp_all [Kind.core, Kind.usable, Kind.reserve]
    simp only [Kind.storePrice, Kind.fuelFloor, Kind.margin, Kind.room, onePriceQuotes, en, max_eq_right hx0]
    rw [overSteps_mul, show overSteps c n (Kind.renewable t).demand = 0 from overSteps_zero c n,
      show overSteps c n (Kind.renewable t).harvest = overSteps c n (fun j => t.cell j 0) from rfl]
    ring
  | balancing u hg =>
    rw [hg.kind] at e ⊢
    have en : now.usable = 0 ∧ now.reserve = 0 := by cases now <;> simp_all [Kind.core, Kind.usable, Kind.reserve]
    simp only [Kind.storePrice, Kind.margin, Kind.room, en, overSteps_zero]
    rw [show overSteps c n (Kind.balancing u).harvest = 0 from overSteps_zero c n,
      show overSteps c n (Kind.balancing u).demand = 0 from overSteps_zero c n]
    ring

end

end Pymgrid
