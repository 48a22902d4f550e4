import Verif.Lemmas.UnitSeries

set_option autoImplicit false

/-! Helper lemmas for C92: modules in two units. -/

namespace Pymgrid

/-- The factors of an action. -/
def actUnit (u : ℚ) (gen : Bool) (j : Nat) : ℚ := if gen = true ∧ j = 0 then 1 else u

theorem actUnit_pos {u : ℚ} (hu : 0 < u) (gen : Bool) (j : Nat) : 0 < actUnit u gen j := by
  unfold actUnit; split
  · exact one_pos
  · exact hu

theorem Act.inUnit_arr (u : ℚ) (gen : Bool) (l : List ℚ) : Act.inUnit u gen (.arr l) = .arr (rowIn (actUnit u gen) l) := by
  show Act.arr _ = Act.arr _
  unfold rowIn actUnit
  congr 2
  funext j x
  split <;> simp

/-- The bounds in another unit. -/
def Space.inUnit (σ : Nat → ℚ) (s : Space) : Space := { low := rowIn σ s.low, high := rowIn σ s.high }

/-- No dimension of the space is degenerate. -/
def Space.Wide (s : Space) : Prop := ∀ (j : Nat) (l h : ℚ), s.low[j]? = some l → s.high[j]? = some h → l ≠ h

theorem mapBounds_denorm_scale {σ : Nat → ℚ} (hσ : ∀ j, 0 < σ j) (a b c : List ℚ)
    (w : ∀ (j : Nat) (l h : ℚ), a[j]? = some l → b[j]? = some h → l ≠ h) :
    mapBounds denorm1 (scaleBy σ a) (scaleBy σ b) c = scaleBy σ (mapBounds denorm1 a b c) := by
  induction c generalizing σ a b with
  | nil => cases a <;> cases b <;> rfl
  | cons z c ih =>
    cases a with
    | nil => rfl
    | cons x a =>
      cases b with
      | nil => rfl
      | cons y b =>
        simp only [scaleBy, mapBounds]
        rw [ih (fun j => hσ (j + 1)) a b fun j l h h1 h2 => w (j + 1) l h (by simpa using h1) (by simpa using h2)]
        congr 1
        have hne : x ≠ y := w 0 x y rfl rfl
        have h1 : y - x ≠ 0 := fun e => hne (by linarith)
        have h2 : σ 0 * y - σ 0 * x ≠ 0 := by
          rw [← mul_sub]; exact mul_ne_zero (hσ 0).ne' h1
        unfold denorm1 spread1
        rw [if_neg h1, if_neg h2]
        ring

theorem denormalize_scaled {u : ℚ} (hu : 0 < u) (gen : Bool) {s : Space} (w : s.Wide)
    (h2 : gen = true → s.low.length = 2 ∧ s.high.length = 2) (a : Act) :
    (s.inUnit (actUnit u gen)).denormalize a = (s.denormalize a).map (Act.inUnit u gen) := by
  have key : ∀ l : List ℚ, l.length = s.dim → Space.item (mapBounds denorm1 (rowIn (actUnit u gen) s.low)
      (rowIn (actUnit u gen) s.high) l) = (Space.item (mapBounds denorm1 s.low s.high l)).inUnit u gen := by
    intro l hl
    rw [rowIn_eq, rowIn_eq, mapBounds_denorm_scale (actUnit_pos hu gen) _ _ _ w, ← rowIn_eq]
    cases gen with
    | true =>
      obtain ⟨l1, l2⟩ := h2 rfl
      obtain ⟨a, b, ea⟩ := List.length_eq_two.mp l1
      obtain ⟨c, d, eb⟩ := List.length_eq_two.mp l2
      unfold Space.dim at hl
      rw [l1] at hl
      obtain ⟨e, f, el⟩ := List.length_eq_two.mp hl
      rw [ea, eb, el]
      exact (Act.inUnit_arr u true [denorm1 a c e, denorm1 b d f]).symm
    | false =>
      generalize mapBounds denorm1 s.low s.high l = r
      match r with
      | [] => rfl
      | [q] => simp [rowIn, Space.item, actUnit, Act.inUnit]
      | x :: y :: r =>
        rw [show Space.item (x :: y :: r) = .arr (x :: y :: r) from rfl, Act.inUnit_arr, rowIn_eq]
        rfl
  have hdim : (s.inUnit (actUnit u gen)).dim = s.dim := by simp [Space.dim, Space.inUnit]
  unfold Space.denormalize Space.apply
  cases a with
  | num q =>
    simp only [hdim]
    split
    · rfl
    · rename_i h
      simp only [Space.inUnit, Except.map, key [q] (by simpa using (not_not.mp h).symm)]
  | arr l =>
    simp only [hdim]
    split
    · rfl
    · rename_i h
      simp only [Space.inUnit, Except.map, key l (not_not.mp h)]

theorem energyOf_scaled (u : ℚ) (gen : Bool) (a : Act) :
    Module.energyOf (if gen = true then 1 else 0) (a.inUnit u gen) =
      (Module.energyOf (if gen = true then 1 else 0) a).map (u * ·) := by
  cases a with
  | num q => rfl
  | arr l =>
    rw [Act.inUnit_arr]
    unfold Module.energyOf
    have hp : actUnit u gen (if gen = true then 1 else 0) = u := by cases gen <;> simp [actUnit]
    simp only [rowIn_get, hp]
    cases l[if gen = true then 1 else 0]? with
    | some x => rfl
    | none =>
      cases l with
      | nil => simp [rowIn, Except.map]
      | cons x l => simp [rowIn, Except.map, List.mapIdx_cons]

/-! ### The parts -/

/-- The battery with energies in another unit. -/
def Battery.inUnit (u : ℚ) (b : Battery) : Battery :=
  { b with minCapacity := u * b.minCapacity, maxCapacity := u * b.maxCapacity, maxCharge := u * b.maxCharge,
           maxDischarge := u * b.maxDischarge, costCycle := b.costCycle / u, initCharge := b.initCharge.map (u * ·),
           charge := u * b.charge }

/-- The genset with other limits and prices. -/
def Genset.withUnit (g : Genset) (lo hi : ℚ) (c : GensetCost) (k p : ℚ) : Genset :=
  { g with runMin := lo, runMax := hi, cost := c, co2PerUnit := k, costPerCo2 := p }

/-- The genset with energies in another unit. -/
def Genset.inUnit (u : ℚ) (g : Genset) : Genset :=
  g.withUnit (u * g.runMin) (u * g.runMax) (g.cost.inUnit u) (g.co2PerUnit / u) g.costPerCo2

/-- The class-specific parts and the observation spaces of two modules in two units. -/
inductive KindScaled (u : ℚ) : Bool → Kind → Space → Kind → Space → Prop
  | battery (b : Battery) (h : b.Valid) :
      KindScaled u false (.battery b) { low := b.minObs, high := b.maxObs } (.battery (b.inUnit u))
        { low := (b.inUnit u).minObs, high := (b.inUnit u).maxObs }
  | genset (g : Genset) (s : Space) : KindScaled u true (.genset g) s (.genset (g.inUnit u)) s
  | grid (p : GridParams) (t t' : TS) (h : TSScaled (gridUnit u) t t') (hs : t.Shaped t.cur) (h4 : t.comps.length = 4) :
      KindScaled u false (.grid p t) t.obsSpace
        (.grid { p with maxImport := u * p.maxImport, maxExport := u * p.maxExport } t') t'.obsSpace
  | load (t t' : TS) (h : TSScaled (fun _ => u) t t') (hs : t.Shaped t.cur) :
      KindScaled u false (.load t) t.obsSpace (.load t') t'.obsSpace
  | renewable (t t' : TS) (h : TSScaled (fun _ => u) t t') (hs : t.Shaped t.cur) :
      KindScaled u false (.renewable t) t.obsSpace (.renewable t') t'.obsSpace
  | balancing (c : Unbalanced) (s : Space) :
      KindScaled u false (.balancing c) s
        (.balancing { lossLoadCost := c.lossLoadCost / u, overgenerationCost := c.overgenerationCost / u }) s

/-- Two modules in two units; logs may differ.  `gen` tells whether they are gensets, `wide` whether normalised actions are
    meaningful. -/
structure ModScaled (u : ℚ) (gen wide : Bool) (m m' : Module) : Prop where
  raiseErrors : m'.raiseErrors = m.raiseErrors
  initialStep : m'.initialStep = m.initialStep
  currentStep : m'.currentStep = m.currentStep
  actSpace : m'.actSpace = m.actSpace.map (Space.inUnit (actUnit u gen))
  wide : wide = true → ∀ s, m.actSpace = some s → s.Wide ∧ (gen = true → s.low.length = 2 ∧ s.high.length = 2)
  provName : m'.provName = m.provName
  absName : m'.absName = m.absName
  ffc : m'.ffc = m.ffc
  ctrl : ∀ b, m.kind = .battery b → m.ffc = .controllable
  kind : KindScaled u gen m.kind m.obsSpace m'.kind m'.obsSpace

/-- Energies, possibly unlimited, in another unit. -/
def ERat.inUnit (u : ℚ) : ERat → ERat
  | .inf => .inf
  | .fin x => .fin (u * x)

/-- What `update` returns. -/
def UpdateOut.inUnit (u : ℚ) (o : UpdateOut) : UpdateOut := { o with info := o.info.inUnit u }

/-- What `step` returns. -/
def StepOut.inUnit (u : ℚ) (o : StepOut) : StepOut := { o with info := o.info.inUnit u }

section
variable {u : ℚ} {gen wide : Bool} {m m' : Module}

theorem gridUnit_pos (hu : 0 < u) (j : Nat) : 0 < gridUnit u j := by
  unfold gridUnit; split
  · exact one_div_pos.mpr hu
  · exact one_pos

theorem ModScaled.isSource (h : ModScaled u gen wide m m') : m'.isSource = m.isSource := by
  have := h.kind
  unfold Module.isSource
  generalize m.kind = a at this ⊢
  generalize m'.kind = b at this ⊢
  generalize m.obsSpace = s at this
  generalize m'.obsSpace = s' at this
  cases this <;> rfl

theorem ModScaled.isSink (h : ModScaled u gen wide m m') : m'.isSink = m.isSink := by
  have := h.kind
  unfold Module.isSink
  generalize m.kind = a at this ⊢
  generalize m'.kind = b at this ⊢
  generalize m.obsSpace = s at this
  generalize m'.obsSpace = s' at this
  cases this <;> rfl

theorem ModScaled.energyPos (h : ModScaled u gen wide m m') :
    m.energyPos = (if gen = true then 1 else 0) ∧ m'.energyPos = (if gen = true then 1 else 0) := by
  have := h.kind
  unfold Module.energyPos
  generalize m.kind = a at this ⊢
  generalize m'.kind = b at this ⊢
  generalize m.obsSpace = s at this
  generalize m'.obsSpace = s' at this
  cases this <;> exact ⟨rfl, rfl⟩

theorem ModScaled.minProduction (h : ModScaled u gen wide m m') : m'.minProduction = u * m.minProduction := by
  have := h.kind
  unfold Module.minProduction
  generalize m.kind = a at this ⊢
  generalize m'.kind = b at this ⊢
  generalize m.obsSpace = s at this
  generalize m'.obsSpace = s' at this
  cases this with
  | genset g s =>
    simp only [Genset.minProduction, Genset.inUnit, Genset.withUnit]
    ring
  | _ => simp

theorem ModScaled.gridState (h : ModScaled u gen wide m m') (hu : 0 < u) {p : GridParams} {t : TS}
    (hm : m.kind = .grid p t) (j : Nat) (hj : j < 4) : ∃ s s', m.state = .ok s ∧ m'.state = .ok s' ∧
      s'[j]? = s[j]?.map fun x => gridUnit u j * x := by
  have hkind := h.kind
  rw [hm] at hkind
  generalize ha : m.obsSpace = a at hkind
  generalize hb : m'.kind = b at hkind
  generalize hc : m'.obsSpace = c at hkind
  cases hkind with
  | grid p t t' ht hs h4 =>
    refine ⟨_, _, state_grid hm ht.valid hs, state_grid hb ht.valid' (ht.shaped (gridUnit_pos hu) hs), ?_⟩
    rw [h.currentStep]
    have hl : (t.obsAt m.currentStep).length = 4 := by rw [ht.valid.width (ht.valid.obsAt_within _), h4]
    rw [List.getElem?_append_left (by rw [ht.obsAt (gridUnit_pos hu), rowIn_length, hl]; exact hj),
      List.getElem?_append_left (by rw [hl]; exact hj), ht.obsAt (gridUnit_pos hu), rowIn_get]

theorem ModScaled.gridStatus (h : ModScaled u gen wide m m') (hu : 0 < u) {p : GridParams} {t : TS}
    (hm : m.kind = .grid p t) : m'.gridStatus = m.gridStatus := by
  obtain ⟨s, s', e, e', q⟩ := h.gridState hu hm 3 (by omega)
  unfold Module.gridStatus
  rw [e, e']
  simp only [q]
  cases s[3]? <;> simp [gridUnit]

theorem TSScaled.itemAt {σ : Nat → ℚ} {t t' : TS} (h : TSScaled σ t t') (c : Nat) :
    t'.itemAt c = (t.itemAt c).map fun x => σ 0 * x := by
  unfold TS.itemAt
  rw [h.rows, List.getElem?_map]
  cases t.rows[c]? with
  | none => rfl
  | some row =>
    match row with
    | [] => rfl
    | [q] => simp [rowIn, Except.map]
    | x :: y :: r => rw [Option.map_some, rowIn_eq]; rfl

theorem min_unit (hu : 0 < u) (a b : ℚ) : min (u * a) (u * b) = u * min a b := (mul_min_of_nonneg a b hu.le).symm

theorem Battery.maxProduction_scaled (hu : 0 < u) (b : Battery) : (b.inUnit u).maxProduction = u * b.maxProduction := by
  unfold Battery.maxProduction Battery.inUnit
  simp only
  rw [← mul_sub, min_unit hu]
  ring

theorem Battery.maxConsumption_scaled (hu : 0 < u) (b : Battery) : (b.inUnit u).maxConsumption = u * b.maxConsumption := by
  unfold Battery.maxConsumption Battery.inUnit
  simp only
  rw [← mul_sub, min_unit hu]
  ring

theorem ModScaled.maxProduction (h : ModScaled u gen wide m m') (hu : 0 < u) :
    m'.maxProduction = m.maxProduction.map (ERat.inUnit u) := by
  have hg := fun p t => h.gridStatus hu (p := p) (t := t)
  have hkind := h.kind
  unfold Module.maxProduction
  rw [h.currentStep]
  generalize m.kind = a at hkind hg ⊢
  generalize m'.kind = b at hkind ⊢
  generalize m.obsSpace = s at hkind
  generalize m'.obsSpace = s' at hkind
  cases hkind with
  | grid p t t' ht hs h4 =>
    simp only [hg p t rfl]
    cases m.gridStatus <;> simp [Except.map, ERat.inUnit, mul_assoc]
  | battery b hb => simp [Except.map, ERat.inUnit, Battery.maxProduction_scaled hu]
  | genset g =>
    simp only [Except.map, ERat.inUnit, Genset.maxProduction, Genset.inUnit, Genset.withUnit]
    congr 2; ring
  | renewable t t' ht hs =>
    simp only [ht.itemAt]
    cases t.itemAt m.currentStep <;> rfl
  | _ => rfl

theorem ModScaled.maxConsumption (h : ModScaled u gen wide m m') (hu : 0 < u) :
    m'.maxConsumption = m.maxConsumption.map (ERat.inUnit u) := by
  have hg := fun p t => h.gridStatus hu (p := p) (t := t)
  have hkind := h.kind
  unfold Module.maxConsumption
  rw [h.currentStep]
  generalize m.kind = a at hkind hg ⊢
  generalize m'.kind = b at hkind ⊢
  generalize m.obsSpace = s at hkind
  generalize m'.obsSpace = s' at hkind
  cases hkind with
  | grid p t t' ht hs h4 =>
    simp only [hg p t rfl]
    cases m.gridStatus <;> simp [Except.map, ERat.inUnit, mul_assoc]
  | battery b hb => simp [Except.map, ERat.inUnit, Battery.maxConsumption_scaled hu]
  | load t t' ht hs =>
    simp only [ht.itemAt]
    cases t.itemAt m.currentStep <;> simp [Except.map, ERat.inUnit]
  | _ => rfl

/-- Marginal costs exist for both modules or for none. -/
theorem ModScaled.costs (h : ModScaled u gen wide m m') (hu : 0 < u) :
    m'.marginalCost.isOk = m.marginalCost.isOk ∧ m'.absorptionCost.isOk = m.absorptionCost.isOk ∧
    (∀ e, m.marginalCost = .error e ↔ m'.marginalCost = .error e) ∧
    (∀ e, m.absorptionCost = .error e ↔ m'.absorptionCost = .error e) := by
  have hg := fun p t (e : m.kind = .grid p t) => h.gridState hu e 0 (by omega)
  have hg' := fun p t (e : m.kind = .grid p t) => h.gridState hu e 1 (by omega)
  have hkind := h.kind
  unfold Module.marginalCost Module.absorptionCost
  generalize m.kind = a at hkind hg hg' ⊢
  generalize m'.kind = b at hkind ⊢
  generalize m.obsSpace = s at hkind
  generalize m'.obsSpace = s' at hkind
  cases hkind with
  | grid p t t' ht hs h4 =>
    obtain ⟨s, s', e, e', q⟩ := hg p t rfl
    obtain ⟨s₁, s₁', e₁, e₁', q₁⟩ := hg' p t rfl
    rw [e] at e₁
    rw [e'] at e₁'
    injection e₁ with e₁
    injection e₁' with e₁'
    subst e₁ e₁'
    rw [e, e']
    simp only [q, q₁]
    cases s[0]? <;> cases s[1]? <;> simp [Except.isOk, Except.toBool]
  | _ => simp [Except.isOk, Except.toBool]

/-- Two modules with their own results. -/
def AlikeUnit (u : ℚ) (gen wide : Bool) (x x' : Module × Except Err UpdateOut) : Prop :=
  ModScaled u gen wide x.1 x'.1 ∧ x'.2 = x.2.map (UpdateOut.inUnit u)

theorem Battery.Valid.inUnit {b : Battery} (h : b.Valid) (hu : 0 < u) : (b.inUnit u).Valid where
  eff_pos := h.eff_pos
  eff_le := h.eff_le
  maxCharge_nonneg := mul_nonneg hu.le h.maxCharge_nonneg
  maxDischarge_nonneg := mul_nonneg hu.le h.maxDischarge_nonneg
  cap_ne := mul_ne_zero hu.ne' h.cap_ne
  transition := h.transition
  low := mul_le_mul_of_nonneg_left h.low hu.le
  high := mul_le_mul_of_nonneg_left h.high hu.le
  soc_eq := by
    show b.soc = (u * b.charge) / (u * b.maxCapacity)
    rw [mul_div_mul_left _ _ hu.ne']; exact h.soc_eq

theorem Battery.withCharge_inUnit (hu : 0 < u) (b : Battery) (c : ℚ) :
    (b.inUnit u).withCharge (u * c) = (b.withCharge c).inUnit u := by
  unfold Battery.withCharge Battery.inUnit
  simp only [mul_div_mul_left _ _ hu.ne']

/-- Energies that a battery can move right now. -/
def FitsBattery (m : Module) (e : Option ℚ) (d : Dir) : Prop :=
  ∀ b, m.kind = .battery b → ∀ x, e = some x → 0 ≤ x ∧ x ≤ b.limit d

theorem Battery.update_scaled (hu : 0 < u) {b : Battery} (h : b.Valid) (e : Option ℚ) (d : Dir)
    (hx : ∀ x, e = some x → 0 ≤ x ∧ x ≤ b.limit d) :
    ((b.inUnit u).update (e.map (u * ·)) d).1 = (b.update e d).1.inUnit u ∧
      ((b.inUnit u).update (e.map (u * ·)) d).2 = (b.update e d).2.map (UpdateOut.inUnit u) ∧
      (b.update e d).1.Valid ∧ (b.update e d).1.minObs = b.minObs ∧ (b.update e d).1.maxObs = b.maxObs := by
  cases e with
  | none => exact ⟨rfl, rfl, h, rfl, rfl⟩
  | some x =>
    obtain ⟨h0, h1⟩ := hx x rfl
    have h0' : 0 ≤ u * x := mul_nonneg hu.le h0
    cases d with
    | source =>
      have h1' : u * x ≤ (b.inUnit u).maxProduction := by
        rw [Battery.maxProduction_scaled hu]; exact mul_le_mul_of_nonneg_left h1 hu.le
      simp only [Option.map_some]
      rw [h.update_source h0 h1, (h.inUnit hu).update_source h0' h1']
      refine ⟨?_, ?_, h.withCharge (h.discharge_low h1) ?_, rfl, rfl⟩
      · show (b.inUnit u).withCharge (u * b.charge - u * x / b.efficiency) = _
        rw [show u * b.charge - u * x / b.efficiency = u * (b.charge - x / b.efficiency) by ring,
          Battery.withCharge_inUnit hu]
      · simp only [Except.map, UpdateOut.inUnit, Info.inUnit, Battery.inUnit, Option.map_some, Option.map_none,
          List.map_nil]
        congr 2
        field_simp
      · have : 0 ≤ x / b.efficiency := div_nonneg h0 h.eff_pos.le
        linarith [h.high]
    | sink =>
      simp only [Option.map_some]
      rw [h.update_sink h0, (h.inUnit hu).update_sink h0']
      refine ⟨?_, ?_, h.withCharge ?_ (h.charge_high h1), rfl, rfl⟩
      · show (b.inUnit u).withCharge (u * b.charge + u * x * b.efficiency) = _
        rw [show u * b.charge + u * x * b.efficiency = u * (b.charge + x * b.efficiency) by ring,
          Battery.withCharge_inUnit hu]
      · simp only [Except.map, UpdateOut.inUnit, Info.inUnit, Battery.inUnit, Option.map_some, Option.map_none,
          List.map_nil]
        congr 2
        field_simp
      · have : 0 ≤ x * b.efficiency := mul_nonneg h0 h.eff_pos.le
        linarith [h.low]

theorem Genset.update_scaled (hu : 0 < u) (g : Genset) (e : Option ℚ) (d : Dir) :
    (g.inUnit u).update (e.map (u * ·)) d = (g.update e d).map (UpdateOut.inUnit u) := by
  unfold Genset.update
  cases d with
  | sink => rfl
  | source =>
    cases e with
    | none => rfl
    | some x =>
      simp only [Option.map_some, Except.map, UpdateOut.inUnit, Info.inUnit, Genset.getCost, Genset.fuelCost,
        Genset.getCo2Cost, Genset.getCo2, Genset.inUnit, Genset.withUnit, Option.map_none, List.map_cons, List.map_nil]
      have hne := hu.ne'
      have hc : g.co2PerUnit / u * (u * x) = g.co2PerUnit * x := by field_simp
      rw [hc]
      cases g.cost with
      | const c =>
        simp only [GensetCost.inUnit]
        have : c / u * (u * x) = c * x := by field_simp
        rw [this]
        rfl
      | fn f =>
        simp only [GensetCost.inUnit]
        have : u * x / u = x := by field_simp
        rw [this]
        rfl

theorem gridUpdate_scaled (hu : 0 < u) {t t' : TS} (h : TSScaled (gridUnit u) t t') (p : GridParams) (a b : ℚ) (c : Nat)
    (e : Option ℚ) (d : Dir) :
    Module.gridUpdate { p with maxImport := a, maxExport := b } t' c (e.map (u * ·)) d =
      (Module.gridUpdate p t c e d).map (UpdateOut.inUnit u) := by
  have hd : t'.done c = t.done c := by unfold TS.done; rw [h.finalStep]
  have hne := hu.ne'
  have k1 : ∀ y x : ℚ, u * x * (1 / u * y) = x * y := by intro y x; field_simp
  have k2 : ∀ y x : ℚ, -1 * (1 / u * y) * (u * x) = -1 * y * x := by intro y x; field_simp
  have k3 : ∀ y x : ℚ, 1 / u * y * (u * x) = y * x := by intro y x; field_simp
  have g0 : gridUnit u 0 = 1 / u := rfl
  have g1 : gridUnit u 1 = 1 / u := rfl
  have g2 : gridUnit u 2 = 1 / u := rfl
  unfold Module.gridUpdate
  simp only [h.entryAt, hd, g0, g1, g2]
  cases d with
  | source =>
    simp only
    cases t.entryAt c 0 with
    | error er => cases t.entryAt c 2 <;> rfl
    | ok price =>
      cases t.entryAt c 2 with
      | error er => rfl
      | ok co2 =>
        cases e with
        | none => rfl
        | some x =>
          simp only [Except.map, UpdateOut.inUnit, Info.inUnit, Option.map_some, k1, k2]
          rfl
  | sink =>
    simp only
    cases t.entryAt c 1 with
    | error er => rfl
    | ok price =>
      cases e with
      | none => rfl
      | some x =>
        simp only [Except.map, UpdateOut.inUnit, Info.inUnit, Option.map_some, k3]
        rfl

theorem balancingUpdate_scaled (hu : 0 < u) (c : Unbalanced) (e : Option ℚ) (d : Dir) :
    Module.balancingUpdate { lossLoadCost := c.lossLoadCost / u, overgenerationCost := c.overgenerationCost / u }
      (e.map (u * ·)) d = (Module.balancingUpdate c e d).map (UpdateOut.inUnit u) := by
  have key : ∀ a x : ℚ, a / u * (u * x) = a * x := by have := hu.ne'; intro a x; field_simp
  unfold Module.balancingUpdate
  cases e with
  | none => rfl
  | some x =>
    cases d <;> simp only [Option.map_some, key] <;> split <;> rfl

theorem ModScaled.update (h : ModScaled u gen wide m m') (hu : 0 < u) (e : Option ℚ) (d : Dir)
    (hf : FitsBattery m e d) : AlikeUnit u gen wide (m.update e d) (m'.update (e.map (u * ·)) d) := by
  have hkind := h.kind
  have hctrl := h.ctrl
  unfold FitsBattery at hf
  unfold Module.update
  rw [h.currentStep]
  generalize ha : m.kind = a at hkind hf hctrl ⊢
  generalize ho : m.obsSpace = s at hkind
  generalize hb : m'.kind = b at hkind ⊢
  generalize ho' : m'.obsSpace = s' at hkind
  cases hkind with
  | battery b hv =>
    obtain ⟨h1, h2, h3, h4, h5⟩ := Battery.update_scaled hu hv e d (hf b rfl)
    refine ⟨⟨h.raiseErrors, h.initialStep, rfl, h.actSpace, h.wide, h.provName, h.absName, h.ffc, ?_, ?_⟩, h2⟩
    · intro _ _; exact hctrl b rfl
    · show KindScaled u false (.battery (b.update e d).1) _ (.battery ((b.inUnit u).update (e.map (u * ·)) d).1) _
      rw [h1]
      have := KindScaled.battery (u := u) (b.update e d).1 h3
      have e1 : ((b.update e d).1.inUnit u).minObs = (b.inUnit u).minObs := by
        have q := h4
        simp only [Battery.minObs, Battery.inUnit, List.cons.injEq, and_true] at q ⊢
        exact ⟨q.1, by rw [q.2]⟩
      have e2 : ((b.update e d).1.inUnit u).maxObs = (b.inUnit u).maxObs := by
        have q := h5
        simp only [Battery.maxObs, Battery.inUnit, List.cons.injEq, and_true, true_and] at q ⊢
        rw [q]
      rw [h4, h5, e1, e2] at this
      exact this
  | genset g s => exact ⟨h, Genset.update_scaled hu g e d⟩
  | grid p t t' ht hs h4 => exact ⟨h, gridUpdate_scaled hu ht p _ _ _ e d⟩
  | load t t' ht hs =>
    refine ⟨h, ?_⟩
    have hd : t'.done m.currentStep = t.done m.currentStep := by unfold TS.done; rw [ht.finalStep]
    unfold Module.loadUpdate
    cases d with
    | source => rfl
    | sink =>
      simp only [ht.itemAt, hd]
      cases t.itemAt m.currentStep <;> simp [Except.map, UpdateOut.inUnit, Info.inUnit]
  | renewable t t' ht hs =>
    refine ⟨h, ?_⟩
    have hd : t'.done m.currentStep = t.done m.currentStep := by unfold TS.done; rw [ht.finalStep]
    unfold Module.renewableUpdate
    cases d with
    | sink => rfl
    | source =>
      simp only [ht.itemAt, hd]
      cases t.itemAt m.currentStep with
      | error er => rfl
      | ok q =>
        cases e with
        | none => rfl
        | some x =>
          simp only [Except.map, Option.map_some, mul_le_mul_iff_right₀ hu]
          split
          · rfl
          · simp [UpdateOut.inUnit, Info.inUnit, mul_sub]
  | balancing c s => exact ⟨h, balancingUpdate_scaled hu c e d⟩

theorem fits_none (m : Module) (d : Dir) : FitsBattery m none d := fun _ _ _ h => by simp at h

theorem ModScaled.valid (h : ModScaled u gen wide m m') {b : Battery} (hm : m.kind = .battery b) : b.Valid := by
  have hkind := h.kind
  rw [hm] at hkind
  generalize m'.kind = k at hkind
  generalize m.obsSpace = s at hkind
  generalize m'.obsSpace = s' at hkind
  cases hkind with
  | battery b hv => exact hv

theorem fits_source {x : ℚ} (h0 : 0 ≤ x) {mx : ERat} (hm : m.maxProduction = .ok mx) (hx : ∀ q, mx = .fin q → x ≤ q) :
    FitsBattery m (some x) .source := by
  intro b hb y hy
  simp only [Option.some.injEq] at hy
  subst hy
  refine ⟨h0, ?_⟩
  unfold Module.maxProduction at hm
  rw [hb] at hm
  simp only [Except.ok.injEq] at hm
  exact hx _ hm.symm

theorem fits_sink {x : ℚ} (h0 : 0 ≤ x) {mx : ERat} (hm : m.maxConsumption = .ok mx) (hx : ∀ q, mx = .fin q → x ≤ q) :
    FitsBattery m (some x) .sink := by
  intro b hb y hy
  simp only [Option.some.injEq] at hy
  subst hy
  refine ⟨h0, ?_⟩
  unfold Module.maxConsumption at hm
  rw [hb] at hm
  simp only [Except.ok.injEq] at hm
  exact hx _ hm.symm

/-- The least production of a battery is 0. -/
theorem fits_min (h : ModScaled u gen wide m m') : FitsBattery m (some m.minProduction) .source := by
  intro b hb y hy
  simp only [Option.some.injEq] at hy
  have : m.minProduction = 0 := by unfold Module.minProduction; rw [hb]
  rw [← hy, this]
  exact ⟨le_rfl, (h.valid hb).maxProduction_nonneg⟩

theorem fits_max (h : ModScaled u gen wide m m') {q : ℚ} (hm : m.maxProduction = .ok (.fin q)) :
    FitsBattery m (some q) .source := by
  intro b hb y hy
  simp only [Option.some.injEq] at hy
  subst hy
  unfold Module.maxProduction at hm
  rw [hb] at hm
  simp only [Except.ok.injEq, ERat.fin.injEq] at hm
  rw [← hm]
  exact ⟨(h.valid hb).maxProduction_nonneg, le_rfl⟩

theorem ModScaled.asSource (h : ModScaled u gen wide m m') (hu : 0 < u) (x : ℚ) :
    AlikeUnit u gen wide (m.asSource x) (m'.asSource (u * x)) := by
  unfold Module.asSource
  have h0 : 0 ≤ u * x ↔ 0 ≤ x := by
    constructor
    · intro hx; by_contra hc; exact absurd hx (not_le.mpr (mul_neg_of_pos_of_neg hu (not_le.mp hc)))
    · exact mul_nonneg hu.le
  rw [h.isSource, h.ffc, h.maxProduction hu, h.minProduction, h.raiseErrors]
  simp only [h0]
  by_cases hx : 0 ≤ x
  swap
  · simp only [hx, not_false_eq_true, if_true]; exact ⟨h, rfl⟩
  simp only [hx, not_true_eq_false, if_false]
  by_cases hs : m.isSource = false
  · simp only [hs, if_true]; exact ⟨h, rfl⟩
  rw [Bool.not_eq_false] at hs
  simp only [hs, Bool.true_eq_false, if_false]
  by_cases hff : m.ffc = .fixed
  · simp only [hff, if_true]; exact h.update hu none .source (fits_none m _)
  simp only [hff, if_false]
  have hmin : AlikeUnit u gen wide (m.update (some m.minProduction) .source)
      (m'.update (some (u * m.minProduction)) .source) := h.update hu (some _) .source (fits_min h)
  cases hp : m.maxProduction with
  | error e => exact ⟨h, rfl⟩
  | ok mx =>
    cases mx with
    | inf =>
      simp only [Except.map, ERat.inUnit, mul_lt_iff hu]
      split
      · split
        · exact ⟨h, rfl⟩
        · exact hmin
      · exact h.update hu (some x) .source (fits_source hx hp (by simp))
    | fin q =>
      simp only [Except.map, ERat.inUnit, mul_lt_iff hu, gt_iff_lt]
      split
      · split
        · exact ⟨h, rfl⟩
        · exact h.update hu (some q) .source (fits_max h hp)
      · rename_i hq
        split
        · split
          · exact ⟨h, rfl⟩
          · exact hmin
        · exact h.update hu (some x) .source (fits_source hx hp (by
            intro y hy; simp only [ERat.fin.injEq] at hy; rw [← hy]; exact not_lt.mp hq))

theorem ModScaled.asSink (h : ModScaled u gen wide m m') (hu : 0 < u) (x : ℚ) :
    AlikeUnit u gen wide (m.asSink x) (m'.asSink (u * x)) := by
  unfold Module.asSink
  have h0 : ∀ x : ℚ, 0 ≤ u * x ↔ 0 ≤ x := by
    intro x
    constructor
    · intro hx; by_contra hc; exact absurd hx (not_le.mpr (mul_neg_of_pos_of_neg hu (not_le.mp hc)))
    · exact mul_nonneg hu.le
  rw [h.ffc, h.maxConsumption hu, h.raiseErrors]
  simp only [h0]
  by_cases hx : 0 ≤ x
  swap
  · simp only [hx, not_false_eq_true, if_true]; exact ⟨h, rfl⟩
  simp only [hx, not_true_eq_false, if_false]
  by_cases hff : m.ffc = .fixed
  · simp only [hff, if_true]; exact h.update hu none .sink (fits_none m _)
  simp only [hff, if_false]
  cases hp : m.maxConsumption with
  | error e => exact ⟨h, rfl⟩
  | ok mx =>
    cases mx with
    | inf => exact h.update hu (some x) .sink (fits_sink hx hp (by simp))
    | fin q =>
      simp only [Except.map, ERat.inUnit, mul_lt_iff hu, gt_iff_lt, h0]
      split
      · split
        · exact ⟨h, rfl⟩
        · split
          · exact ⟨h, rfl⟩
          · rename_i hq
            exact h.update hu (some q) .sink (fits_sink (not_not.mp hq) hp (by
              intro y hy; simp only [ERat.fin.injEq] at hy; rw [hy]))
      · rename_i hq
        exact h.update hu (some x) .sink (fits_sink hx hp (by
            intro y hy; simp only [ERat.fin.injEq] at hy; rw [← hy]; exact not_lt.mp hq))

theorem ModScaled.unnormalizedStep (h : ModScaled u gen wide m m') (hu : 0 < u) (q : ℚ) :
    AlikeUnit u gen wide (m.unnormalizedStep q) (m'.unnormalizedStep (u * q)) := by
  unfold Module.unnormalizedStep
  have h1 : 0 < u * q ↔ 0 < q := by rw [mul_pos_iff_of_pos_left hu]
  have h2 : u * q < 0 ↔ q < 0 := by
    constructor
    · intro hx; by_contra hc; exact absurd hx (not_lt.mpr (mul_nonneg hu.le (not_lt.mp hc)))
    · exact mul_neg_of_pos_of_neg hu
  have e : -1 * (u * q) = u * (-1 * q) := by ring
  rw [h.isSource, h.isSink]
  simp only [gt_iff_lt, h1, h2, e]
  repeat' split
  all_goals first | exact ⟨h, rfl⟩ | exact h.asSource hu _ | exact h.asSink hu _

theorem ModScaled.stateDict (h : ModScaled u gen wide m m') :
    (∃ d d', m.stateDict = .ok d ∧ m'.stateDict = .ok d') := by
  have hkind := h.kind
  unfold Module.stateDict
  rw [h.currentStep]
  generalize m.kind = a at hkind ⊢
  generalize m'.kind = b at hkind ⊢
  generalize m.obsSpace = s at hkind
  generalize m'.obsSpace = s' at hkind
  cases hkind with
  | grid p t t' ht hs => exact ⟨_, _, ht.valid.stateDict _, ht.valid'.stateDict _⟩
  | load t t' ht hs => exact ⟨_, _, ht.valid.stateDict _, ht.valid'.stateDict _⟩
  | renewable t t' ht hs => exact ⟨_, _, ht.valid.stateDict _, ht.valid'.stateDict _⟩
  | _ => exact ⟨_, _, rfl, rfl⟩

/-- State of a module with a series. -/
theorem state_series {m : Module} {t : TS} (hk : m.series? = some t) (hv : t.Valid) (hs : t.Shaped t.cur) :
    m.state = .ok (t.obsAt m.currentStep ++ t.flatCur) := by
  unfold Module.state Module.stateDict
  unfold Module.series? at hk
  split at hk
  all_goals first | (simp at hk; done) | skip
  all_goals
    rename_i e
    simp only [Option.some.injEq] at hk
    subst hk
    rw [e]
    simp only [hv.stateDict]
    rw [hv.state_vals hs]

theorem ModScaled.normalizedObs (h : ModScaled u gen wide m m') (hu : 0 < u) : m'.normalizedObs = m.normalizedObs := by
  have hkind := h.kind
  unfold Module.normalizedObs
  generalize ha : m.kind = a at hkind
  generalize ho : m.obsSpace = s at hkind ⊢
  generalize hb : m'.kind = b at hkind
  generalize ho' : m'.obsSpace = s' at hkind ⊢
  cases hkind with
  | grid p t t' ht hs =>
    rw [state_grid ha ht.valid hs, state_grid hb ht.valid' (ht.shaped (gridUnit_pos hu) hs), h.currentStep]
    exact ht.normalized (gridUnit_pos hu) hs _
  | load t t' ht hs =>
    have e1 : m.series? = some t := by simp [Module.series?, ha]
    have e2 : m'.series? = some t' := by simp [Module.series?, hb]
    rw [state_series e1 ht.valid hs, state_series e2 ht.valid' (ht.shaped (fun _ => hu) hs), h.currentStep]
    exact ht.normalized (fun _ => hu) hs _
  | renewable t t' ht hs =>
    have e1 : m.series? = some t := by simp [Module.series?, ha]
    have e2 : m'.series? = some t' := by simp [Module.series?, hb]
    rw [state_series e1 ht.valid hs, state_series e2 ht.valid' (ht.shaped (fun _ => hu) hs), h.currentStep]
    exact ht.normalized (fun _ => hu) hs _
  | battery b hv =>
    have e1 : m.state = .ok [b.soc, b.charge] := by unfold Module.state Module.stateDict; rw [ha]; rfl
    have e2 : m'.state = .ok [b.soc, u * b.charge] := by unfold Module.state Module.stateDict; rw [hb]; rfl
    rw [e1, e2]
    simp only [Space.normalize, Space.apply, Battery.minObs, Battery.maxObs, Space.dim, List.length_cons, List.length_nil,
      mapBounds, Battery.inUnit, norm1_scale hu hv.low hv.high]
  | genset g s =>
    have : m'.state = m.state := by
      unfold Module.state Module.stateDict
      rw [ha, hb]
      rfl
    rw [this]
  | balancing c s =>
    have : m'.state = m.state := by
      unfold Module.state Module.stateDict
      rw [ha, hb]
    rw [this]

theorem ModScaled.logRow (h : ModScaled u gen wide m m') (pre pre' : List (Key × ℚ)) (o : UpdateOut) :
    (∃ e, m.logRow pre o = .error e ∧ m'.logRow pre' (o.inUnit u) = .error e) ∨
      (∃ r r', m.logRow pre o = .ok r ∧ m'.logRow pre' (o.inUnit u) = .ok r') := by
  unfold Module.logRow
  rw [h.provName, h.absName]
  have e1 : (o.inUnit u).info.provided = o.info.provided.map (u * ·) := rfl
  have e2 : (o.inUnit u).info.absorbed = o.info.absorbed.map (u * ·) := rfl
  rw [e1, e2]
  cases m.provName <;> cases m.absName <;> cases o.info.provided <;> cases o.info.absorbed <;> simp

theorem ModScaled.withLogger (h : ModScaled u gen wide m m') (L L' : Logger) :
    ModScaled u gen wide { m with logger := L } { m' with logger := L' } :=
  ⟨h.raiseErrors, h.initialStep, h.currentStep, h.actSpace, h.wide, h.provName, h.absName, h.ffc, h.ctrl, h.kind⟩

theorem ModScaled.updateStep (h : ModScaled u gen wide m m') (hu : 0 < u) (r : Bool) :
    ModScaled u gen wide (m.updateStep r).1 (m'.updateStep r).1 ∧ (m'.updateStep r).2 = (m.updateStep r).2 := by
  have hkind := h.kind
  have hctrl := h.ctrl
  unfold Module.updateStep Module.refresh
  rw [h.currentStep, h.initialStep]
  simp only
  generalize (if r = true then m.initialStep else m.currentStep + 1) = c
  generalize ha : m.kind = a at hkind hctrl ⊢
  generalize ho : m.obsSpace = s at hkind
  generalize hb : m'.kind = b at hkind ⊢
  generalize ho' : m'.obsSpace = s' at hkind
  cases hkind with
  | grid p t t' ht hs h4 =>
    obtain ⟨h1, h2⟩ := ht.refresh (gridUnit_pos hu) c
    refine ⟨⟨h.raiseErrors, rfl, rfl, h.actSpace, h.wide, h.provName, h.absName, h.ffc, by simp, ?_⟩, h2⟩
    rw [← refresh_obsSpace ht.valid c, ← refresh_obsSpace ht.valid' c]
    refine .grid p _ _ h1 (refresh_shaped ht.valid hs c) ?_
    rcases ht.valid.refresh c with ⟨f, e1, e2⟩ | ⟨e, e1, e2⟩ <;> rw [e2] <;> exact h4
  | load t t' ht hs =>
    obtain ⟨h1, h2⟩ := ht.refresh (fun _ => hu) c
    refine ⟨⟨h.raiseErrors, rfl, rfl, h.actSpace, h.wide, h.provName, h.absName, h.ffc, by simp, ?_⟩, h2⟩
    rw [← refresh_obsSpace ht.valid c, ← refresh_obsSpace ht.valid' c]
    exact .load _ _ h1 (refresh_shaped ht.valid hs c)
  | renewable t t' ht hs =>
    obtain ⟨h1, h2⟩ := ht.refresh (fun _ => hu) c
    refine ⟨⟨h.raiseErrors, rfl, rfl, h.actSpace, h.wide, h.provName, h.absName, h.ffc, by simp, ?_⟩, h2⟩
    rw [← refresh_obsSpace ht.valid c, ← refresh_obsSpace ht.valid' c]
    exact .renewable _ _ h1 (refresh_shaped ht.valid hs c)
  | battery b hv =>
    refine ⟨⟨h.raiseErrors, rfl, rfl, h.actSpace, h.wide, h.provName, h.absName, h.ffc, hctrl, ?_⟩, rfl⟩
    exact .battery b hv
  | genset g s =>
    refine ⟨⟨h.raiseErrors, rfl, rfl, h.actSpace, h.wide, h.provName, h.absName, h.ffc, by simp, ?_⟩, rfl⟩
    exact .genset g s
  | balancing c s =>
    refine ⟨⟨h.raiseErrors, rfl, rfl, h.actSpace, h.wide, h.provName, h.absName, h.ffc, by simp, ?_⟩, rfl⟩
    exact .balancing c s

theorem ModScaled.stepEnergy (h : ModScaled u gen wide m m') (hu : 0 < u) (q : ℚ) :
    ModScaled u gen wide (m.stepEnergy q).1 (m'.stepEnergy (u * q)).1 ∧
      (m'.stepEnergy (u * q)).2 = (m.stepEnergy q).2.map (StepOut.inUnit u) := by
  unfold Module.stepEnergy
  obtain ⟨d, d', e1, e2⟩ := h.stateDict
  rw [e1, e2]
  simp only
  have hu' := h.unnormalizedStep hu q
  cases h1 : m.unnormalizedStep q with
  | mk m₁ r =>
  cases h1' : m'.unnormalizedStep (u * q) with
  | mk m₁' r' =>
  rw [h1, h1'] at hu'
  obtain ⟨hm, hr⟩ := hu'
  simp only at hm hr
  subst hr
  cases r with
  | error e => exact ⟨hm, rfl⟩
  | ok o =>
    simp only [Except.map, Module.log]
    rcases hm.logRow d d' o with ⟨e, e1, e2⟩ | ⟨row, row', e1, e2⟩
    · rw [e1, e2]; exact ⟨hm, rfl⟩
    · rw [e1, e2]
      simp only
      obtain ⟨h2, h3⟩ := (hm.withLogger (m₁.logger.log row) (m₁'.logger.log row')).updateStep hu false
      cases g1 : ({ m₁ with logger := m₁.logger.log row } : Module).updateStep false with
      | mk m₂ r =>
      cases g1' : ({ m₁' with logger := m₁'.logger.log row' } : Module).updateStep false with
      | mk m₂' r' =>
      rw [g1, g1'] at h2 h3
      simp only at h2 h3
      subst h3
      cases r' with
      | error e => exact ⟨h2, rfl⟩
      | ok x =>
        simp only [h2.normalizedObs hu]
        cases m₂.normalizedObs <;> exact ⟨h2, rfl⟩

/-- What the second module is told: normalised actions stay the same. -/
def actIn (u : ℚ) (gen n : Bool) (a : Act) : Act := if n = true then a else a.inUnit u gen

theorem ModScaled.baseStep (h : ModScaled u gen wide m m') (hu : 0 < u) (a : Act) (n : Bool) (hw : n = true → wide = true) :
    ModScaled u gen wide (m.baseStep a n).1 (m'.baseStep (actIn u gen n a) n).1 ∧
      (m'.baseStep (actIn u gen n a) n).2 = (m.baseStep a n).2.map (StepOut.inUnit u) := by
  have key : ∀ a : Act,
      ModScaled u gen wide (match Module.energyOf m.energyPos a with
        | .error e => (m, (.error e : Except Err StepOut))
        | .ok q => m.stepEnergy q).1 (match Module.energyOf m'.energyPos (a.inUnit u gen) with
        | .error e => (m', (.error e : Except Err StepOut))
        | .ok q => m'.stepEnergy q).1 ∧
      (match Module.energyOf m'.energyPos (a.inUnit u gen) with
        | .error e => (m', (.error e : Except Err StepOut))
        | .ok q => m'.stepEnergy q).2 = (match Module.energyOf m.energyPos a with
        | .error e => (m, (.error e : Except Err StepOut))
        | .ok q => m.stepEnergy q).2.map (StepOut.inUnit u) := by
    intro a
    rw [h.energyPos.1, h.energyPos.2, energyOf_scaled]
    cases Module.energyOf (if gen = true then 1 else 0) a with
    | error e => exact ⟨h, rfl⟩
    | ok q => exact h.stepEnergy hu q
  unfold Module.baseStep actIn
  cases n with
  | false => exact key a
  | true =>
    simp only [if_true]
    have hd : m'.denormalizeAct a = (m.denormalizeAct a).map (Act.inUnit u gen) := by
      unfold Module.denormalizeAct
      rw [h.actSpace]
      cases hs : m.actSpace with
      | none => rfl
      | some s =>
        obtain ⟨w, w2⟩ := h.wide (hw rfl) s hs
        exact denormalize_scaled hu gen w w2 a
    rw [hd]
    cases m.denormalizeAct a with
    | error e => exact ⟨h, rfl⟩
    | ok a' => exact key a'

theorem resetTimes_withUnit (g : Genset) (lo hi : ℚ) (c : GensetCost) (k p : ℚ) :
    (g.withUnit lo hi c k p).resetTimes = g.resetTimes.map fun g' => g'.withUnit lo hi c k p := by
  unfold Genset.resetTimes Genset.withUnit
  simp only
  split
  · rfl
  · split <;> rfl

theorem finish_withUnit (g : Genset) (lo hi : ℚ) (c : GensetCost) (k p : ℚ) :
    (g.withUnit lo hi c k p).finishInProgress = g.finishInProgress.map fun x => (x.1.withUnit lo hi c k p, x.2) := by
  have h := fun s : Int => resetTimes_withUnit { g with status := s } lo hi c k p
  unfold Genset.withUnit at h
  unfold Genset.finishInProgress Genset.withUnit
  simp only at h ⊢
  split
  · rw [h]
    cases ({ g with status := 1 } : Genset).resetTimes <;> rfl
  · split
    · rw [h]
      cases ({ g with status := 0 } : Genset).resetTimes <;> rfl
    · rfl

theorem redirect_withUnit (g : Genset) (lo hi : ℚ) (c : GensetCost) (k p : ℚ) (goal : Int) :
    (g.withUnit lo hi c k p).redirect goal = (g.redirect goal).map fun g' => g'.withUnit lo hi c k p := by
  have h := fun s : Int => resetTimes_withUnit { g with goal := s } lo hi c k p
  have h' := resetTimes_withUnit g lo hi c k p
  unfold Genset.withUnit at h h'
  unfold Genset.redirect Genset.withUnit
  simp only at h h' ⊢
  split
  · rw [h]
  · split
    · rw [h']
      cases g.resetTimes <;> rfl
    · rfl

theorem countDown_withUnit (g : Genset) (lo hi : ℚ) (c : GensetCost) (k p : ℚ) :
    (g.withUnit lo hi c k p).countDown = g.countDown.map fun g' => g'.withUnit lo hi c k p := by
  have h : (g.withUnit lo hi c k p).updateTimes = g.updateTimes.withUnit lo hi c k p := by
    unfold Genset.updateTimes Genset.withUnit
    simp only
    split <;> rfl
  have e1 : (g.withUnit lo hi c k p).goal = g.goal := rfl
  have e2 : (g.withUnit lo hi c k p).status = g.status := rfl
  have e3 : (g.withUnit lo hi c k p).untilDown = g.untilDown := rfl
  have e4 : (g.withUnit lo hi c k p).untilUp = g.untilUp := rfl
  unfold Genset.countDown
  rw [h, e1, e2, e3, e4]
  by_cases a1 : g.goal ≠ g.status
  · rw [if_pos a1, if_pos a1]
    by_cases a2 : g.goal ≠ 0
    · rw [if_pos a2, if_pos a2]
      split <;> rfl
    · rw [if_neg a2, if_neg a2]
      split <;> rfl
  · rw [if_neg a1, if_neg a1]
    rfl

theorem nonInstantaneous_withUnit (g : Genset) (lo hi : ℚ) (c : GensetCost) (k p : ℚ) (goal : Int) :
    (g.withUnit lo hi c k p).nonInstantaneous goal = (g.nonInstantaneous goal).map fun g' => g'.withUnit lo hi c k p := by
  unfold Genset.nonInstantaneous
  rw [redirect_withUnit]
  cases g.redirect goal with
  | error e => rfl
  | ok g' => exact countDown_withUnit g' lo hi c k p

theorem rounded_withUnit (g : Genset) (lo hi : ℚ) (c : GensetCost) (k p : ℚ) (goal : Int) :
    (g.withUnit lo hi c k p).updateStatusRounded goal = (g.updateStatusRounded goal).map fun g' => g'.withUnit lo hi c k p := by
  have hn : (g.withUnit lo hi c k p).nextStatus goal = g.nextStatus goal := rfl
  unfold Genset.updateStatusRounded
  simp only [hn]
  have h1 : (if goal ≠ (g.withUnit lo hi c k p).goal ∧ ((g.withUnit lo hi c k p).allowAbortion ||
      decide ((g.withUnit lo hi c k p).startUpTime = 0 ∧ goal = 1) || decide ((g.withUnit lo hi c k p).windDownTime = 0 ∧ goal = 0)) = true
      then { g.withUnit lo hi c k p with goal := goal } else g.withUnit lo hi c k p) =
      (if goal ≠ g.goal ∧ (g.allowAbortion || decide (g.startUpTime = 0 ∧ goal = 1) ||
        decide (g.windDownTime = 0 ∧ goal = 0)) = true then { g with goal := goal } else g).withUnit lo hi c k p := by
    exact (apply_ite (fun x : Genset => x.withUnit lo hi c k p) _ { g with goal := goal } g).symm
  rw [h1]
  generalize (if goal ≠ g.goal ∧ (g.allowAbortion || decide (g.startUpTime = 0 ∧ goal = 1) ||
        decide (g.windDownTime = 0 ∧ goal = 0)) = true then { g with goal := goal } else g) = g₁
  rw [finish_withUnit]
  have e1 : (g.withUnit lo hi c k p).status = g.status := rfl
  have e2 : (g.withUnit lo hi c k p).goal = g.goal := rfl
  have e3 : (g.withUnit lo hi c k p).untilDown = g.untilDown := rfl
  have e4 : (g.withUnit lo hi c k p).untilUp = g.untilUp := rfl
  rw [e1, e2, e3, e4]
  split
  · split <;> rfl
  · cases g₁.finishInProgress with
    | error e => rfl
    | ok x =>
      obtain ⟨g₂, fin⟩ := x
      simp only [Except.map]
      cases fin with
      | true =>
        simp only [if_true]
        have e5 : (g₂.withUnit lo hi c k p).status = g₂.status := rfl
        rw [e5]
        split <;> rfl
      | false =>
        simp only [Bool.false_eq_true, if_false]
        rw [nonInstantaneous_withUnit]
        cases g₂.nonInstantaneous goal with
        | error e => rfl
        | ok g₃ =>
          simp only [Except.map]
          have e5 : (g₃.withUnit lo hi c k p).status = g₃.status := rfl
          rw [e5]
          split <;> rfl

theorem updateStatus_withUnit (g : Genset) (lo hi : ℚ) (c : GensetCost) (k p : ℚ) (goal : ℚ) :
    (g.withUnit lo hi c k p).updateStatus goal = (g.updateStatus goal).map fun g' => g'.withUnit lo hi c k p := by
  unfold Genset.updateStatus
  rw [rounded_withUnit]
  have e3 : (g.withUnit lo hi c k p).untilDown = g.untilDown := rfl
  have e4 : (g.withUnit lo hi c k p).untilUp = g.untilUp := rfl
  rw [e3, e4]
  split
  · rfl
  · split <;> rfl


theorem updateStatus_inUnit (u : ℚ) (g : Genset) (goal : ℚ) :
    (g.inUnit u).updateStatus goal = (g.updateStatus goal).map (Genset.inUnit u) := by
  have := updateStatus_withUnit g (u * g.runMin) (u * g.runMax) (g.cost.inUnit u) (g.co2PerUnit / u) g.costPerCo2 goal
  have id' := updateStatus_withUnit g g.runMin g.runMax g.cost g.co2PerUnit g.costPerCo2 goal
  have e : g.withUnit g.runMin g.runMax g.cost g.co2PerUnit g.costPerCo2 = g := rfl
  rw [e] at id'
  unfold Genset.inUnit
  rw [this]
  cases hg : g.updateStatus goal with
  | error er => rfl
  | ok g' =>
    rw [hg] at id'
    simp only [Except.map, Except.ok.injEq] at id' ⊢
    rw [id']
    rfl

theorem ModScaled.step (h : ModScaled u gen wide m m') (hu : 0 < u) (a : Act) (n : Bool) (hw : n = true → wide = true) :
    ModScaled u gen wide (m.step a n).1 (m'.step (actIn u gen n a) n).1 ∧
      (m'.step (actIn u gen n a) n).2 = (m.step a n).2.map (StepOut.inUnit u) := by
  have hbase := h.baseStep hu a n hw
  have hkind := h.kind
  unfold Module.step
  generalize ha : m.kind = x at hkind ⊢
  generalize ho : m.obsSpace = s at hkind
  generalize hb : m'.kind = y at hkind ⊢
  generalize ho' : m'.obsSpace = s' at hkind
  cases hkind with
  | genset g s =>
    simp only
    cases a with
    | num q =>
      have : ∃ q', actIn u true n (.num q) = .num q' := by
        unfold actIn; cases n <;> exact ⟨_, rfl⟩
      obtain ⟨q', e⟩ := this
      rw [e]
      exact ⟨h, rfl⟩
    | arr l =>
      have hl : ∃ l', actIn u true n (.arr l) = .arr l' ∧ l'[0]? = l[0]? := by
        unfold actIn
        cases n with
        | true => exact ⟨l, rfl, rfl⟩
        | false =>
          refine ⟨_, Act.inUnit_arr u true l, ?_⟩
          rw [rowIn_get]
          cases l[0]? <;> simp [actUnit]
      obtain ⟨l', e, e0⟩ := hl
      rw [e]
      simp only [e0]
      cases l[0]? with
      | none => exact ⟨h, rfl⟩
      | some goal =>
        simp only
        split
        · exact ⟨h, rfl⟩
        · rw [updateStatus_inUnit]
          cases hg : g.updateStatus goal with
          | error e => exact ⟨h, rfl⟩
          | ok g' =>
            rw [← e]
            have hx := ModScaled.baseStep (u := u) (gen := true) (wide := wide)
              (m := { m with obsSpace := s, kind := .genset g' })
              (m' := { m' with obsSpace := s, kind := .genset (g'.inUnit u) })
              ⟨h.raiseErrors, h.initialStep, h.currentStep, h.actSpace, h.wide, h.provName, h.absName, h.ffc,
                by simp, .genset g' s⟩ hu (.arr l) n hw
            exact hx
  | _ => assumption

theorem ModScaled.reset (h : ModScaled u gen wide m m') (hu : 0 < u) :
    ModScaled u gen wide m.reset.1 m'.reset.1 ∧ m'.reset.2 = m.reset.2 := by
  obtain ⟨h2, h3⟩ := h.updateStep hu true
  unfold Module.reset
  cases g1 : m.updateStep true with
  | mk m₂ r =>
  cases g1' : m'.updateStep true with
  | mk m₂' r' =>
  rw [g1, g1'] at h2 h3
  simp only at h2 h3
  subst h3
  cases r' with
  | error e => exact ⟨h2, rfl⟩
  | ok x =>
    have h4 := h2.withLogger m₂.logger.flush m₂'.logger.flush
    exact ⟨h4, h4.normalizedObs hu⟩

theorem ModScaled.withInitial (h : ModScaled u gen wide m m') (v : Nat) :
    ModScaled u gen wide { m with initialStep := v } { m' with initialStep := v } :=
  ⟨h.raiseErrors, rfl, h.currentStep, h.actSpace, h.wide, h.provName, h.absName, h.ffc, h.ctrl, h.kind⟩

theorem TSScaled.withFinal {σ : Nat → ℚ} {t t' : TS} (ht : TSScaled σ t t') (f : Nat) :
    TSScaled σ { t with finalStep := f } { t' with finalStep := f } :=
  ⟨ht.rows, ht.comps, ht.minRow, ht.maxRow, rfl, ht.horizon, ht.fkind, ht.cur, ht.draws,
    ⟨ht.valid.minLen, ht.valid.box, ht.valid.inBox, ht.valid.fMin, ht.valid.fMax, ht.valid.fObs, ht.valid.fRows,
      ht.valid.noneH⟩,
    ⟨ht.valid'.minLen, ht.valid'.box, ht.valid'.inBox, ht.valid'.fMin, ht.valid'.fMax, ht.valid'.fObs,
      ht.valid'.fRows, ht.valid'.noneH⟩⟩

theorem ModScaled.setFinal (h : ModScaled u gen wide m m') (v : Int) :
    ModScaled u gen wide (Microgrid.setFinalOne m v).1 (Microgrid.setFinalOne m' v).1 ∧
      (Microgrid.setFinalOne m' v).2 = (Microgrid.setFinalOne m v).2 := by
  have hkind := h.kind
  unfold Microgrid.setFinalOne
  rw [h.initialStep]
  generalize ha : m.kind = x at hkind ⊢
  generalize ho : m.obsSpace = s at hkind
  generalize hb : m'.kind = y at hkind ⊢
  generalize ho' : m'.obsSpace = s' at hkind
  cases hkind with
  | grid p t t' ht hs h4 =>
    have hl : t'.rows.length = t.rows.length := by rw [ht.rows, List.length_map]
    simp only [TS.setFinalStep, hl]
    generalize (if v ≤ 0 then t.rows.length else v.toNat) = f
    by_cases hx : f ≤ m.initialStep
    all_goals
      simp only [hx, if_true, if_false]
      refine ⟨⟨h.raiseErrors, rfl, h.currentStep, h.actSpace, h.wide, h.provName, h.absName, h.ffc, by simp, ?_⟩, trivial⟩
      exact .grid p { t with finalStep := f } { t' with finalStep := f } (ht.withFinal f) hs h4
  | load t t' ht hs =>
    have hl : t'.rows.length = t.rows.length := by rw [ht.rows, List.length_map]
    simp only [TS.setFinalStep, hl]
    generalize (if v ≤ 0 then t.rows.length else v.toNat) = f
    by_cases hx : f ≤ m.initialStep
    all_goals
      simp only [hx, if_true, if_false]
      refine ⟨⟨h.raiseErrors, rfl, h.currentStep, h.actSpace, h.wide, h.provName, h.absName, h.ffc, by simp, ?_⟩, trivial⟩
      exact .load { t with finalStep := f } { t' with finalStep := f } (ht.withFinal f) hs
  | renewable t t' ht hs =>
    have hl : t'.rows.length = t.rows.length := by rw [ht.rows, List.length_map]
    simp only [TS.setFinalStep, hl]
    generalize (if v ≤ 0 then t.rows.length else v.toNat) = f
    by_cases hx : f ≤ m.initialStep
    all_goals
      simp only [hx, if_true, if_false]
      refine ⟨⟨h.raiseErrors, rfl, h.currentStep, h.actSpace, h.wide, h.provName, h.absName, h.ffc, by simp, ?_⟩, trivial⟩
      exact .renewable { t with finalStep := f } { t' with finalStep := f } (ht.withFinal f) hs
  | _ => exact ⟨h, rfl⟩

end

end Pymgrid
