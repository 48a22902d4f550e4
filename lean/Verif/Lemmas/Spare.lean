import Verif.Spec.Spare
import Verif.Lemmas.Order
import Verif.Lemmas.Sunnier

set_option autoImplicit false

/-! A microgrid with an additional component that stays idle does what the microgrid without it does. -/

namespace Pymgrid

open Module

/-! ### The idle component -/

/-- A genset that has been switched off. -/
def Genset.off (g : Genset) : Genset := { g with status := 0, goal := 0, untilDown := 0, untilUp := g.startUpTime }

/-- The component `m₀` later on: only its log and its steps have changed, and a genset may have been switched off. -/
structure Lazy (m₀ m : Module) : Prop where
  kind : m.kind = m₀.kind ∨ ∃ g, m₀.kind = .genset g ∧ m.kind = .genset g.off
  ffc : m.ffc = m₀.ffc
  actSpace : m.actSpace = m₀.actSpace
  obsSpace : m.obsSpace = m₀.obsSpace
  provName : m.provName = m₀.provName
  absName : m.absName = m₀.absName

theorem Lazy.refl (m : Module) : Lazy m m := ⟨.inl rfl, rfl, rfl, rfl, rfl, rfl⟩

section
variable {m₀ m : Module} {act : Bool → Act}

theorem CanIdle.ffc (h : CanIdle m₀ act) : m₀.ffc = .controllable := by
  cases h with
  | battery h _ _ _ _ =>
    unfold mkBattery at h
    split at h
    · simp at h
    · obtain rfl := Except.ok.inj h; rfl
  | genset h _ _ =>
    unfold mkGenset at h
    split at h
    · simp at h
    · obtain rfl := Except.ok.inj h; rfl


theorem idle_energy {u : UpdateOut} {d : List (Key × ℚ)} {mx : ℚ} (hsrc : m.isSource = true) (hffc : m.ffc = .controllable)
    (hmax : m.maxProduction = .ok (.fin mx)) (h0 : 0 ≤ mx) (hmin : m.minProduction ≤ 0)
    (hu : m.update (some 0) .source = (m, .ok u)) (hd : m.stateDict = .ok d) (hdim : d.length = m.obsSpace.dim)
    (hp : m.provName ≠ none) (ha : u.info.absorbed = none) (hts : ∀ m' : Module, m'.kind = m.kind → m'.refresh = (m', .ok ()))
    (hsd : ∀ m' : Module, m'.kind = m.kind → m'.stateDict = .ok d) :
    ∃ m' o, m.stepEnergy 0 = (m', .ok o) ∧ Lazy m m' ∧ o.reward = u.reward ∧ o.done = u.done ∧ o.info = u.info := by
  have hstep : m.unnormalizedStep 0 = (m, .ok u) := by
    unfold unnormalizedStep
    rw [if_neg (lt_irrefl _), if_neg (lt_irrefl _), if_pos hsrc]
    unfold asSource
    rw [if_neg (not_not.mpr le_rfl), if_neg (by rw [hsrc]; decide), if_neg (by rw [hffc]; decide), hmax]
    simp only
    rw [if_neg (not_lt.mpr h0), if_neg (not_lt.mpr hmin), hu]
  obtain ⟨row, hrow⟩ : ∃ row, m.logRow d u = .ok row := by
    unfold logRow
    obtain ⟨k, hk⟩ := Option.ne_none_iff_exists'.mp hp
    rw [hk]
    simp only
    cases m.absName with
    | some k' => exact ⟨_, rfl⟩
    | none => simp only [ha, if_true]; exact ⟨_, rfl⟩
  let m₂ : Module := { m with logger := m.logger.log row, currentStep := m.currentStep + 1 }
  have hobs : ∃ obs, m₂.normalizedObs = .ok obs := by
    unfold normalizedObs Module.state
    rw [hsd m₂ rfl]
    simp only [Space.normalize, Space.apply, List.length_map]
    rw [if_neg (by rw [hdim]; simp [m₂])]
    exact ⟨_, rfl⟩
  obtain ⟨obs, hobs⟩ := hobs
  refine ⟨m₂, ⟨obs, u.reward, u.done, u.info⟩, ?_, ⟨.inl rfl, rfl, rfl, rfl, rfl, rfl⟩, rfl, rfl, rfl⟩
  unfold stepEnergy
  rw [hd]
  simp only [hstep, log, hrow, updateStep, Bool.false_eq_true, if_false]
  have hr : m₂.refresh = (m₂, .ok ()) := hts m₂ rfl
  change (match m₂.refresh with
    | (m₃, Except.error e) => (m₃, (Except.error e : Except Err StepOut))
    | (m₃, Except.ok ()) => match m₃.normalizedObs with
      | .error e => (m₃, .error e)
      | .ok obs => (m₃, .ok (⟨obs, u.reward, u.done, u.info⟩ : StepOut))) = _
  rw [hr]
  simp only [hobs]

theorem Lazy.trans {m₁ m₂ : Module} (h : Lazy m₀ m₁) (h' : Lazy m₁ m₂) : Lazy m₀ m₂ := by
  refine ⟨?_, h'.ffc.trans h.ffc, h'.actSpace.trans h.actSpace, h'.obsSpace.trans h.obsSpace,
    h'.provName.trans h.provName, h'.absName.trans h.absName⟩
  rcases h.kind with e | ⟨g, e1, e2⟩ <;> rcases h'.kind with e' | ⟨g', e1', e2'⟩
  · exact .inl (e'.trans e)
  · exact .inr ⟨g', e ▸ e1', e2'⟩
  · exact .inr ⟨g, e1, e'.trans e2⟩
  · rw [e2] at e1'
    obtain rfl := Kind.genset.inj e1'
    exact .inr ⟨g, e1, e2'⟩

theorem Lazy.battery {b : Battery} (l : Lazy m₀ m) (hk : m₀.kind = .battery b) : m.kind = .battery b := by
  rcases l.kind with e | ⟨g, e1, e2⟩
  · exact e.trans hk
  · rw [hk] at e1; simp at e1

theorem Lazy.genset {g : Genset} (l : Lazy m₀ m) (hk : m₀.kind = .genset g) : m.kind = .genset g ∨ m.kind = .genset g.off := by
  rcases l.kind with e | ⟨g', e1, e2⟩
  · exact .inl (e.trans hk)
  · rw [hk] at e1
    obtain rfl := Kind.genset.inj e1
    exact .inr e2

/-- What the component is. -/
theorem CanIdle.kinds (h : CanIdle m₀ act) (l : Lazy m₀ m) : (∃ b, m.kind = .battery b) ∨ ∃ g, m.kind = .genset g := by
  cases h with
  | battery h hk _ _ _ => exact .inl ⟨_, l.battery hk⟩
  | genset h _ _ =>
    obtain ⟨g, -, hg, -⟩ := mkGenset_inv h
    rcases l.genset hg with e | e
    · exact .inr ⟨_, e⟩
    · exact .inr ⟨_, e⟩

/-- The idle action is accepted, costs nothing and changes nothing but the log and the step. -/
theorem CanIdle.step (h : CanIdle m₀ act) (l : Lazy m₀ m) (n : Bool) :
    ∃ m' o, m.step (act n) n = (m', .ok o) ∧ Lazy m₀ m' ∧ o.reward = 0 ∧ o.done = false ∧ o.info.provided = some 0 ∧
      o.info.absorbed = none := by
  have hffc := l.ffc.trans h.ffc
  cases h with
  | @battery minC maxC maxCh maxDis eff cost c s i r m₀ b h hk hq hc hd =>
    obtain ⟨b', hb', he, he1, hne, h1, h2, h3, h4, h5, h6, h7, h8, h9, -, -, h10, h11, h12, -, -, -, -, h13⟩ :=
      mkBattery_inv h
    rw [hk] at hb'
    obtain rfl := Kind.battery.inj hb'
    have hkm := l.battery hk
    have hden : (if n then m.denormalizeAct (.num (if n then (maxDis / eff) / (maxDis / eff + maxCh * eff) else 0))
        else .ok (.num (if n then (maxDis / eff) / (maxDis / eff + maxCh * eff) else 0))) = (.ok (.num 0) : Except Err Act) := by
      cases n
      · rfl
      · simp only [if_true, denormalizeAct, l.actSpace, h13, Space.denormalize, Space.apply, Space.dim, mapBounds, Space.item,
          List.length_cons, List.length_nil, Nat.zero_add, ne_eq, not_true, if_false, denorm1, spread1]
        congr 2
        have hx : maxCh * eff - -maxDis / eff = maxDis / eff + maxCh * eff := by ring
        rw [hx]
        split
        · rename_i hz
          have p1 : 0 ≤ maxDis / eff := div_nonneg hd he.le
          have p2 : 0 ≤ maxCh * eff := mul_nonneg hc he.le
          have p3 : maxDis / eff = 0 := by linarith
          rw [neg_div, p3]
          simp
        · rename_i hz
          rw [← mul_div_assoc, mul_div_cancel_left₀ _ hz]
          ring
    have hupd : m.update (some 0) .source =
        (m, .ok { reward := 0, done := false, info := { provided := some 0 } }) := by
      have hde : b.modelTransition 0 = 0 := by
        unfold Battery.modelTransition
        rw [h7]
        simp [Battery.defaultTransition]
      have hst : b.updateState 0 = (b, .ok ()) := by
        unfold Battery.updateState
        simp only [add_zero]
        rw [if_neg (by rw [h1]; exact not_lt.mpr hq), show b.charge / b.maxCapacity = b.soc by rw [h2, h9]]
      have hub : b.update (some 0) .source = (b, .ok { reward := 0, done := false, info := { provided := some 0 } }) := by
        unfold Battery.update
        simp only [mul_zero, hde, le_refl, not_true, if_false, hst, Battery.getCost, abs_zero, zero_mul]
      unfold update
      rw [hkm]
      simp only [hub]
      rw [← hkm]
    have hmx : m.maxProduction = .ok (.fin b.maxProduction) := by unfold maxProduction; rw [hkm]
    have hst : ∀ m' : Module, m'.kind = m.kind → m'.stateDict = .ok b.stateDict := fun m' e => by
      unfold stateDict; rw [e, hkm]
    obtain ⟨m', o, e1, e2, e3, e4, e5⟩ := idle_energy (m := m) (d := b.stateDict) (by unfold isSource; rw [hkm]) hffc hmx
      (by
        unfold Battery.maxProduction
        rw [h1, h4, h5]
        exact mul_nonneg (le_min hd (by linarith)) he.le)
      (by unfold minProduction; rw [hkm]) hupd (hst m rfl) (by rw [l.obsSpace, h12]; rfl)
      (by rw [l.provName, h10]; simp) rfl (fun m' e => by unfold refresh; rw [e, hkm]) hst
    refine ⟨m', o, ?_, l.trans e2, e3, e4, by rw [e5], by rw [e5]⟩
    have : m.step (.num (if n then (maxDis / eff) / (maxDis / eff + maxCh * eff) else 0)) n =
        m.baseStep (.num (if n then (maxDis / eff) / (maxDis / eff + maxCh * eff) else 0)) n := by
      unfold Module.step; rw [hkm]
    rw [this]
    unfold baseStep
    simp only [hden, energyOf, e1]
  | @genset rmin rmax cost c1 c2 S W ab iu i r m₀ h hc hw =>
    obtain ⟨g, hg, hs⟩ : ∃ g : Genset, m₀.kind = .genset g ∧ (g = g.off ∨ g.windDownTime = 0 ∧ g.status = 1 ∧ g.goal = 1 ∧
        g.untilDown = 0 ∧ g.untilUp = 0) ∧ g.cost.Free ∧ m₀.provName = some (.str "genset_production") ∧
        m₀.obsSpace.dim = 4 ∧ m₀.actSpace = some ⟨[0, 0], [1, g.runMax]⟩ := by
      unfold mkGenset Genset.init at h
      by_cases hr : rmin > rmax
      · rw [if_pos hr] at h; simp at h
      · rw [if_neg hr] at h
        cases iu with
        | false =>
          simp only [Bool.false_eq_true, if_false, Genset.resetTimes, ne_eq, not_true] at h
          obtain rfl := Except.ok.inj h
          exact ⟨_, rfl, .inl rfl, hc, rfl, rfl, rfl⟩
        | true =>
          simp only [if_true, Genset.resetTimes, ne_eq, not_true, if_false, one_ne_zero, not_false_eq_true] at h
          obtain rfl := Except.ok.inj h
          exact ⟨_, rfl, .inr ⟨hw rfl, rfl, rfl, by simp [hw rfl], rfl⟩, hc, rfl, rfl, rfl⟩
    obtain ⟨s1, s5, s6, s7, s8⟩ := hs
    have hround : pyRound 0 = 0 := by decide +kernel
    have hoff : g.off.updateStatus 0 = .ok g.off := by
      unfold Genset.updateStatus
      rw [if_neg (by simp [Genset.off]), if_neg (by norm_num), hround]
      unfold Genset.updateStatusRounded
      simp only
      rw [if_pos ⟨rfl, rfl⟩, if_pos (.inl rfl)]
    have hon : g.updateStatus 0 = .ok g.off := by
      rcases s1 with e | ⟨w, s, q, d, u⟩
      · rw [← e] at hoff; rw [← e]; exact hoff
      · obtain ⟨rmin', rmax', cost', x1, x2, su, wd, ab', iu', st, go, uu, ud⟩ := g
        simp only at w s q d u
        subst w s q d u
        unfold Genset.updateStatus
        rw [if_neg (by simp), if_neg (by norm_num), hround]
        simp [Genset.updateStatusRounded, Genset.nextStatus, Genset.finishInProgress, Genset.resetTimes, Genset.off]
    let m₁ : Module := { m with kind := .genset g.off }
    have l₁ : Lazy m₀ m₁ := ⟨.inr ⟨g, hg, rfl⟩, l.ffc, l.actSpace, l.obsSpace, l.provName, l.absName⟩
    have hcost : g.off.getCost 0 = 0 := by
      unfold Genset.getCost Genset.fuelCost Genset.getCo2Cost Genset.getCo2 Genset.off
      cases hh : g.cost with
      | const c => simp
      | fn f => rw [hh] at s5; simp [show f 0 = 0 from s5]
    have hupd : m₁.update (some 0) .source =
        (m₁, .ok (⟨0, false, { provided := some 0, extra := [(.str "co2_production", g.off.getCo2 0)] }⟩ : UpdateOut)) := by
      unfold update
      simp only [m₁, Genset.update, hcost, mul_zero]
    have hmx : m₁.maxProduction = .ok (.fin g.off.maxProduction) := rfl
    have hst : ∀ m' : Module, m'.kind = m₁.kind → m'.stateDict = .ok g.off.stateDict := fun m' e => by
      unfold stateDict; rw [e]
    obtain ⟨m', o, e1, e2, e3, e4, e5⟩ := idle_energy (m := m₁) (d := g.off.stateDict) rfl hffc hmx
      (by unfold Genset.maxProduction Genset.off; simp)
      (by unfold minProduction; simp [m₁, Genset.minProduction, Genset.off]) hupd (hst m₁ rfl)
      (by rw [l₁.obsSpace, s7]; rfl)
      (by rw [l₁.provName, s6]; simp) rfl (fun m' e => by unfold refresh; rw [e]) hst
    refine ⟨m', o, ?_, l₁.trans e2, e3, e4, by rw [e5], by rw [e5]⟩
    have : m.step (.arr [0, 0]) n = m₁.baseStep (.arr [0, 0]) n := by
      unfold Module.step
      rcases l.genset hg with hkm | hkm <;> rw [hkm] <;>
        simp only [List.getElem?_cons_zero, le_refl, zero_le_one, and_self, not_true, if_false, hon, hoff, m₁]
    rw [this]
    have hden : (if n then m₁.denormalizeAct (.arr [0, 0]) else .ok (.arr [0, 0])) = (.ok (.arr [0, 0]) : Except Err Act) := by
      cases n
      · rfl
      · simp only [if_true, denormalizeAct, l₁.actSpace, s8, Space.denormalize, Space.apply, Space.dim, mapBounds, Space.item,
          List.length_cons, List.length_nil, ne_eq, not_true, if_false, denorm1, mul_zero, add_zero]
    have hpos : m₁.energyPos = 1 := rfl
    unfold baseStep
    simp only [hden, hpos, energyOf, List.getElem?_cons_succ, List.getElem?_cons_zero, e1]

/-- A reset changes nothing else either. -/
theorem CanIdle.reset (h : CanIdle m₀ act) (l : Lazy m₀ m) : ∃ m' x, m.reset = (m', .ok x) ∧ Lazy m₀ m' := by
  have hk : (∃ d, (∀ m' : Module, m'.kind = m.kind → m'.stateDict = .ok d) ∧ d.length = m.obsSpace.dim) ∧
      ∀ m' : Module, m'.kind = m.kind → m'.refresh = (m', .ok ()) := by
    rw [l.obsSpace]
    cases h with
    | battery h hk _ _ _ =>
      obtain ⟨-, -, -, -, -, -, -, -, -, -, -, -, -, -, -, -, -, -, hdim, -⟩ := mkBattery_inv h
      rw [hdim, l.battery hk]
      exact ⟨⟨_, fun m' e => by unfold stateDict; rw [e], rfl⟩, fun m' e => by unfold refresh; rw [e]⟩
    | genset h _ _ =>
      obtain ⟨g, -, hg, -, -, -, hdim, -⟩ := mkGenset_inv h
      rw [hdim]
      rcases l.genset hg with hkm | hkm <;> rw [hkm] <;>
        exact ⟨⟨_, fun m' e => by unfold stateDict; rw [e], rfl⟩, fun m' e => by unfold refresh; rw [e]⟩
  obtain ⟨⟨d, hd, hdim⟩, hr⟩ := hk
  let m₁ : Module := { m with currentStep := m.initialStep, logger := m.logger.flush }
  have hobs : ∃ obs, m₁.normalizedObs = .ok obs := by
    unfold normalizedObs Module.state
    rw [hd m₁ rfl]
    simp only [Space.normalize, Space.apply, List.length_map]
    rw [if_neg (by rw [hdim]; simp [m₁])]
    exact ⟨_, rfl⟩
  obtain ⟨obs, hobs⟩ := hobs
  refine ⟨m₁, obs, ?_, l.trans ⟨.inl rfl, rfl, rfl, rfl, rfl, rfl⟩⟩
  have hu : m.updateStep true = ({ m with currentStep := m.initialStep }, .ok ()) :=
    hr { m with currentStep := m.initialStep } rfl
  unfold Module.reset
  rw [hu]
  exact Prod.ext rfl hobs

theorem CanIdle.costs (h : CanIdle m₀ act) (l : Lazy m₀ m) :
    (∃ x, m.marginalCost = .ok x) ∧ ∃ x, m.absorptionCost = .ok x := by
  have hk := h.kinds l
  unfold marginalCost absorptionCost
  rcases hk with ⟨b, hk⟩ | ⟨g, hk⟩ <;> rw [hk] <;> exact ⟨⟨_, rfl⟩, _, rfl⟩

theorem CanIdle.setFinal (h : CanIdle m₀ act) (l : Lazy m₀ m) (v : Int) : Microgrid.setFinalOne m v = (m, .ok false) := by
  have hk := h.kinds l
  unfold Microgrid.setFinalOne
  rcases hk with ⟨b, hk⟩ | ⟨g, hk⟩ <;> rw [hk]

end

/-! ### One entry more -/

/-- `l'` is `l` with one more entry. -/
def OneMore {α : Type} (x : α) (l l' : List α) : Prop := ∃ a b, l = a ++ b ∧ l' = a ++ x :: b

theorem OneMore.cons {α : Type} {x : α} {l l' : List α} (h : OneMore x l l') (y : α) : OneMore x (y :: l) (y :: l') := by
  obtain ⟨a, b, rfl, rfl⟩ := h
  exact ⟨y :: a, b, rfl, rfl⟩

theorem OneMore.head {α : Type} (x : α) (l : List α) : OneMore x l (x :: l) := ⟨[], l, rfl, rfl⟩

theorem OneMore.snoc {α : Type} (x : α) (l : List α) : OneMore x l (l ++ [x]) := ⟨l, [], by simp, rfl⟩

theorem OneMore.append {α : Type} {x : α} {l l' : List α} (h : OneMore x l l') (r : List α) :
    OneMore x (l ++ r) (l' ++ r) := by
  obtain ⟨a, b, rfl, rfl⟩ := h
  exact ⟨a, b ++ r, by simp, by simp⟩

theorem OneMore.prepend {α : Type} {x : α} {l l' : List α} (h : OneMore x l l') (r : List α) :
    OneMore x (r ++ l) (r ++ l') := by
  obtain ⟨a, b, rfl, rfl⟩ := h
  exact ⟨r ++ a, b, by simp, by simp⟩

theorem OneMore.map {α β : Type} {x : α} {l l' : List α} (h : OneMore x l l') (f : α → β) :
    OneMore (f x) (l.map f) (l'.map f) := by
  obtain ⟨a, b, rfl, rfl⟩ := h
  exact ⟨a.map f, b.map f, by simp, by simp⟩

theorem OneMore.dictSet {β : Type} {name : String} {v : β} {d d' : List (String × β)} (h : OneMore (name, v) d d')
    {k : String} (hk : k ≠ name) (w : β) : OneMore (name, v) (Pymgrid.dictSet d k w) (Pymgrid.dictSet d' k w) := by
  obtain ⟨a, b, rfl, rfl⟩ := h
  induction a with
  | nil =>
    simp only [List.nil_append, Pymgrid.dictSet, if_neg (fun e => hk (Eq.symm e))]
    exact .head _ _
  | cons y a ih =>
    obtain ⟨k', v'⟩ := y
    simp only [List.cons_append, Pymgrid.dictSet]
    split
    · exact ⟨(k, w) :: a, b, rfl, rfl⟩
    · exact ih.cons _

theorem OneMore.dictUpdate {β : Type} {name : String} {v : β} {d d' : List (String × β)} (h : OneMore (name, v) d d')
    {e : List (String × β)} (he : ∀ x ∈ e, x.1 ≠ name) :
    OneMore (name, v) (Pymgrid.dictUpdate d e) (Pymgrid.dictUpdate d' e) := by
  unfold Pymgrid.dictUpdate
  induction e generalizing d d' with
  | nil => exact h
  | cons y e ih => exact ih (h.dictSet (he y (by simp)) _) fun x hx => he x (by simp [hx])

theorem dictUpdate_keys_ne {β : Type} {name : String} {d e : List (String × β)} (hd : ∀ x ∈ d, x.1 ≠ name)
    (he : ∀ x ∈ e, x.1 ≠ name) : ∀ x ∈ Pymgrid.dictUpdate d e, x.1 ≠ name := by
  unfold Pymgrid.dictUpdate
  induction e generalizing d with
  | nil => exact hd
  | cons y e ih =>
    refine ih ?_ fun x hx => he x (by simp [hx])
    intro x hx
    have hm : x.1 ∈ (Pymgrid.dictSet d y.1 y.2).map Prod.fst := List.mem_map.mpr ⟨x, hx, rfl⟩
    rw [dictSet_keys] at hm
    have : x.1 ∈ d.map Prod.fst ∨ x.1 = y.1 := by
      split at hm
      · exact .inl hm
      · simpa using hm
    rcases this with hm | hm
    · obtain ⟨z, hz, e⟩ := List.mem_map.mp hm
      rw [← e]; exact hd z hz
    · rw [hm]; exact he y (by simp)

/-- Merging dictionaries, one of which has one more entry. -/
theorem OneMore.toDict {name : String} {v : List Nat} {ds₁ ds₂ : List ModDict} {d d' : ModDict}
    (h1 : ∀ e ∈ ds₁, ∀ x ∈ e, x.1 ≠ name) (h2 : ∀ e ∈ ds₂, ∀ x ∈ e, x.1 ≠ name)
    (hd : ∀ x ∈ d, x.1 ≠ name) (hs : d' = d ++ [(name, v)]) :
    OneMore (name, v) (Container.toDict (ds₁ ++ d :: ds₂)) (Container.toDict (ds₁ ++ d' :: ds₂)) := by
  unfold Container.toDict
  rw [List.foldl_append, List.foldl_append, List.foldl_cons, List.foldl_cons]
  have hb : ∀ (ds : List ModDict) (c : ModDict), (∀ x ∈ c, x.1 ≠ name) → (∀ e ∈ ds, ∀ x ∈ e, x.1 ≠ name) →
      ∀ x ∈ ds.foldl Pymgrid.dictUpdate c, x.1 ≠ name := by
    intro ds
    induction ds with
    | nil => intro c hc _; exact hc
    | cons e ds ih =>
      intro c hc hds
      exact ih _ (dictUpdate_keys_ne hc (hds e (by simp))) fun e' he' => hds e' (by simp [he'])
  have base := hb ds₁ [] (by simp) h1
  generalize ds₁.foldl Pymgrid.dictUpdate [] = c at base ⊢
  have start : OneMore (name, v) (Pymgrid.dictUpdate c d) (Pymgrid.dictUpdate c d') := by
    subst hs
    have : Pymgrid.dictUpdate c (d ++ [(name, v)]) = Pymgrid.dictUpdate c d ++ [(name, v)] := by
      unfold Pymgrid.dictUpdate
      rw [List.foldl_append, List.foldl_cons, List.foldl_nil]
      refine dictSet_new _ ?_
      intro hm
      obtain ⟨x, hx, e⟩ := List.mem_map.mp hm
      exact dictUpdate_keys_ne base hd x hx e
    rw [this]
    exact .snoc _ _
  generalize Pymgrid.dictUpdate c d = p at start ⊢
  generalize Pymgrid.dictUpdate c d' = p' at start ⊢
  induction ds₂ generalizing p p' with
  | nil => exact start
  | cons e ds ih =>
    exact ih (fun e' he' => h2 e' (by simp [he'])) _ _ (start.dictUpdate (h2 e (by simp)))

/-! ### The container -/

/-- The second container has one more controllable module, under a name of its own. -/
structure Joined (name : String) (k : Nat) (c c' : Container) : Prop where
  fixed : c'.levelDict .fixed = c.levelDict .fixed
  flex : c'.levelDict .flex = c.levelDict .flex
  controllable : OneMore (name, [k]) (c.levelDict .controllable) (c'.levelDict .controllable)
  full : OneMore (name, [k]) c.fullDict c'.fullDict
  list : OneMore k c.fullList c'.fullList
  names : ∀ f, ∀ x ∈ c.levelDict f, x.1 ≠ name ∧ k ∉ x.2
  fullNames : ∀ x ∈ c.fullDict, x.1 ≠ name ∧ k ∉ x.2
  fullIds : k ∉ c.fullList

theorem Joined.build {h : Heap} {mods : List (String × Nat)} {name : String} {k : Nat}
    (hn : name ∉ mods.map Prod.fst) (hk : k ∉ mods.map Prod.snd) (hf : (h k).ffc = .controllable) :
    Joined name k (Container.build h mods) (Container.build h (mods ++ [(name, k)])) := by
  have hcat : ∀ f s, ∀ x ∈ (Container.build h mods).cat f s, x.1 ≠ name ∧ k ∉ x.2 := by
    intro f s x hx
    obtain ⟨n, l⟩ := x
    obtain ⟨rfl, hne⟩ := Container.mem_cat.mp hx
    simp only [Container.idsOf] at hne ⊢
    refine ⟨?_, ?_⟩
    · obtain ⟨y, hy⟩ := List.exists_mem_of_ne_nil _ hne
      obtain ⟨z, hz, -⟩ := List.mem_map.mp hy
      rw [List.mem_filter, Bool.and_eq_true, decide_eq_true_eq] at hz
      intro e
      exact hn (List.mem_map.mpr ⟨z, hz.1, hz.2.2.trans e⟩)
    · intro hm
      obtain ⟨z, hz, e⟩ := List.mem_map.mp hm
      exact hk (List.mem_map.mpr ⟨z, (List.mem_filter.mp hz).1, e⟩)
  have hnew : ∀ f s, (Container.build h (mods ++ [(name, k)])).cat f s =
      if FFC.controllable = f ∧ (h k).ss = s then (Container.build h mods).cat f s ++ [(name, [k])]
      else (Container.build h mods).cat f s := by
    intro f s
    rw [Container.build_snoc, Container.add_cat]
    unfold Container.inCat
    simp only [hf, decide_eq_true_eq]
    split
    · unfold ModDict.append
      have hno : name ∉ ((Container.build h mods).cat f s).map Prod.fst := by
        intro hm
        obtain ⟨x, hx, e⟩ := List.mem_map.mp hm
        exact (hcat f s x hx).1 e
      rw [dictGet?_none.mpr hno]
      exact dictSet_new _ hno
    · rfl
  generalize Container.build h (mods ++ [(name, k)]) = c' at hnew ⊢
  generalize Container.build h mods = c at hcat hnew ⊢
  have lvl : ∀ f, ∀ d ∈ c.level f, ∀ x ∈ d, x.1 ≠ name ∧ k ∉ x.2 := by
    intro f d hd x hx
    simp only [Container.level, List.mem_cons, List.not_mem_nil, or_false] at hd
    rcases hd with rfl | rfl | rfl <;> exact hcat _ _ x hx
  have hall : ∀ d ∈ c.all, ∀ x ∈ d, x.1 ≠ name ∧ k ∉ x.2 := by
    intro d hd
    simp only [Container.all, List.mem_append] at hd
    rcases hd with (hd | hd) | hd <;> exact lvl _ d hd
  have same : ∀ f, f ≠ .controllable → c'.level f = c.level f := by
    intro f hf
    simp only [Container.level, hnew]
    rw [if_neg (fun e => hf e.1.symm), if_neg (fun e => hf e.1.symm), if_neg (fun e => hf e.1.symm)]
  have split : ∃ ds₁ d ds₂, c.level .controllable = ds₁ ++ d :: ds₂ ∧
      c'.level .controllable = ds₁ ++ (d ++ [(name, [k])]) :: ds₂ := by
    simp only [Container.level, hnew, true_and]
    cases (h k).ss
    · exact ⟨[], _, _, rfl, by simp⟩
    · exact ⟨[_], _, [_], rfl, by simp⟩
    · exact ⟨[_, _], _, [], rfl, by simp⟩
  obtain ⟨ds₁, d, ds₂, e, e'⟩ := split
  have key : ∀ pre : List ModDict, (∀ d ∈ pre, ∀ x ∈ d, x.1 ≠ name ∧ k ∉ x.2) →
      OneMore (name, [k]) (Container.toDict (pre ++ c.level .controllable)) (Container.toDict (pre ++ c'.level .controllable)) := by
    intro pre hpre
    have hl := lvl .controllable
    rw [e] at hl
    rw [e, e', ← List.append_assoc, ← List.append_assoc]
    refine OneMore.toDict ?_ ?_ ?_ rfl
    · intro x hx y hy
      rcases List.mem_append.mp hx with hx | hx
      · exact (hpre x hx y hy).1
      · exact (hl x (by simp [hx]) y hy).1
    · intro x hx y hy
      exact (hl x (by simp [hx]) y hy).1
    · intro y hy
      exact (hl d (by simp) y hy).1
  have notIn : ∀ ds : List ModDict, (∀ d ∈ ds, ∀ x ∈ d, x.1 ≠ name ∧ k ∉ x.2) →
      ∀ x ∈ Container.toDict ds, x.1 ≠ name ∧ k ∉ x.2 := by
    intro ds hds x hx
    obtain ⟨d, hd, hxd⟩ := Container.mem_toDict hx
    exact hds d hd x hxd
  refine ⟨?_, ?_, key [] (by simp), ?_, ?_, fun f => notIn _ (lvl f), notIn _ hall, ?_⟩
  · unfold Container.levelDict; rw [same _ (by decide)]
  · unfold Container.levelDict; rw [same _ (by decide)]
  · unfold Container.fullDict Container.all
    rw [same _ (by decide), same _ (by decide)]
    refine key _ ?_
    intro d hd
    rcases List.mem_append.mp hd with hd | hd <;> exact lvl _ d hd
  · unfold Container.fullList Container.all Container.toList
    rw [same _ (by decide), same _ (by decide), List.flatMap_append, List.flatMap_append (ys := c'.level .controllable)]
    refine OneMore.prepend ?_ _
    rw [e, e', List.flatMap_append, List.flatMap_append, List.flatMap_cons, List.flatMap_cons]
    refine OneMore.prepend (OneMore.append ?_ _) _
    rw [List.flatMap_append]
    exact .snoc _ _
  · unfold Container.fullList Container.toList
    intro hm
    obtain ⟨d, hd, hx⟩ := List.mem_flatMap.mp hm
    obtain ⟨x, hx, hk⟩ := List.mem_flatMap.mp hx
    exact (hall d hd x hx).2 hk

/-! ### Dictionaries without a name -/

section
variable {β : Type} {name : String}

theorem without_dictGet? {n : String} (hn : n ≠ name) (d : List (String × β)) :
    dictGet? (without name d) n = dictGet? d n := by
  induction d with
  | nil => rfl
  | cons x d ih =>
    obtain ⟨k, v⟩ := x
    unfold without at ih ⊢
    by_cases hk : k = name
    · subst hk
      rw [List.filter_cons_of_neg (by simp), ih]
      simp only [dictGet?, if_neg (Ne.symm hn)]
    · rw [List.filter_cons_of_pos (by simpa using hk)]
      simp only [dictGet?, ih]

theorem without_dictSet {n : String} (hn : n ≠ name) (d : List (String × β)) (v : β) :
    without name (dictSet d n v) = dictSet (without name d) n v := by
  induction d with
  | nil => simp [without, dictSet, hn]
  | cons x d ih =>
    obtain ⟨k, w⟩ := x
    by_cases hk : k = name
    · subst hk
      simp only [dictSet, if_neg (Ne.symm hn)]
      unfold without at ih ⊢
      rw [List.filter_cons_of_neg (by simp), List.filter_cons_of_neg (by simp), ih]
    · simp only [dictSet]
      unfold without at ih ⊢
      rw [List.filter_cons_of_pos (a := (k, w)) (by simpa using hk)]
      simp only [dictSet]
      split
      · rw [List.filter_cons_of_pos (by simpa using hn)]
      · rw [List.filter_cons_of_pos (by simpa using hk), ih]

theorem without_dictSet_self (d : List (String × β)) (v : β) : without name (dictSet d name v) = without name d := by
  induction d with
  | nil => simp [without, dictSet]
  | cons x d ih =>
    obtain ⟨k, w⟩ := x
    simp only [dictSet]
    unfold without at ih ⊢
    split
    · rename_i hk
      subst hk
      rw [List.filter_cons_of_neg (by simp), List.filter_cons_of_neg (by simp)]
    · rename_i hk
      rw [List.filter_cons_of_pos (by simpa using hk), List.filter_cons_of_pos (by simpa using hk), ih]

theorem without_dictAppend {n : String} (hn : n ≠ name) (d : List (String × List β)) (v : β) :
    without name (dictAppend d n v) = dictAppend (without name d) n v := by
  unfold dictAppend
  rw [without_dictGet? hn]
  split <;> rw [without_dictSet hn]

theorem without_dictAppend_self (d : List (String × List β)) (v : β) :
    without name (dictAppend d name v) = without name d := by
  unfold dictAppend
  split <;> rw [without_dictSet_self]

end

/-! ### Loops -/

/-- The second heap differs in the idle component only. -/
def Beside (k : Nat) (m₀ : Module) (h h' : Heap) : Prop := (∀ j, j ≠ k → h' j = h j) ∧ Lazy m₀ (h' k)

/-- What the two steps have collected is the same, but for the idle component. -/
structure AccBut (name : String) (a a' : StepAcc) : Prop where
  reward : a'.reward = a.reward
  done : a'.done = a.done
  provided : a'.provided.sum = a.provided.sum
  absorbed : a'.absorbed.sum = a.absorbed.sum
  obs : without name a'.obs = a.obs
  infos : without name a'.infos = a.infos

/-- Two results of a loop. -/
def BesideRun (name : String) (k : Nat) (m₀ : Module) (x y : RunSt × Except Err Unit) : Prop :=
  Beside k m₀ x.1.heap y.1.heap ∧ AccBut name x.1.acc y.1.acc ∧ y.2 = x.2

section
variable {name : String} {k : Nat} {m₀ : Module} {act : Bool → Act} {h h' : Heap}

theorem AccBut.append {a a' : StepAcc} (e : AccBut name a a') {n : String} (hn : n ≠ name) (o : StepOut) :
    AccBut name (a.append n o) (a'.append n o) := by
  unfold StepAcc.append
  refine ⟨?_, ?_, ?_, ?_, ?_, ?_⟩
  · simp only [e.reward]
  · simp only [e.done]
  · simp only
    split <;> simp [e.provided]
  · simp only
    split <;> simp [e.absorbed]
  · simp only [without_dictAppend hn, e.obs]
  · simp only [without_dictAppend hn, e.infos]

theorem AccBut.idle {a a' : StepAcc} (e : AccBut name a a') {o : StepOut} (h1 : o.reward = 0) (h2 : o.done = false)
    (h3 : o.info.provided = some 0) (h4 : o.info.absorbed = none) : AccBut name a (a'.append name o) := by
  unfold StepAcc.append
  refine ⟨?_, ?_, ?_, ?_, ?_, ?_⟩
  · simp only [e.reward, h1, add_zero]
  · simp [e.done, h2]
  · simp [h3, e.provided]
  · simp [h4, e.absorbed]
  · simp only [without_dictAppend_self, e.obs]
  · simp only [without_dictAppend_self, e.infos]

theorem Beside.set (t : Beside k m₀ h h') {j : Nat} (hj : j ≠ k) (m : Module) : Beside k m₀ (h.set j m) (h'.set j m) := by
  unfold Heap.set
  refine ⟨fun i hi => ?_, ?_⟩
  · simp only [t.1 i hi]
  · simp only [if_neg (Ne.symm hj)]; exact t.2

theorem Beside.setIdle (t : Beside k m₀ h h') {m : Module} (hm : Lazy m₀ m) : Beside k m₀ h (h'.set k m) := by
  unfold Heap.set
  refine ⟨fun i hi => ?_, ?_⟩
  · simp only [if_neg hi]; exact t.1 i hi
  · simp only [if_true]; exact hm

theorem Beside.stepOne (t : Beside k m₀ h h') {acc acc' : StepAcc} (e : AccBut name acc acc') {n : String} (hn : n ≠ name)
    {j : Nat} (hj : j ≠ k) (a : Act) (nrm : Bool) :
    BesideRun name k m₀ (RunSt.stepOne ⟨h, acc⟩ n j a nrm) (RunSt.stepOne ⟨h', acc'⟩ n j a nrm) := by
  unfold RunSt.stepOne
  simp only [t.1 j hj]
  cases (h j).step a nrm with
  | mk m r =>
  cases r with
  | error er => exact ⟨t.set hj m, e, rfl⟩
  | ok o => exact ⟨t.set hj m, e.append hn o, rfl⟩

theorem Beside.stepMany {l : List (String × Nat × Act)} (hl : ∀ x ∈ l, x.1 ≠ name ∧ x.2.1 ≠ k) (nrm : Bool) :
    ∀ {h h' : Heap} (_ : Beside k m₀ h h') {acc acc' : StepAcc} (_ : AccBut name acc acc'),
      BesideRun name k m₀ (RunSt.stepMany l nrm ⟨h, acc⟩) (RunSt.stepMany l nrm ⟨h', acc'⟩) := by
  induction l with
  | nil => intro h h' t acc acc' e; exact ⟨t, e, rfl⟩
  | cons x l ih =>
    intro h h' t acc acc' e
    obtain ⟨n, i, a⟩ := x
    obtain ⟨hn, hi⟩ := hl (n, i, a) (by simp)
    have hs := t.stepOne e hn hi a nrm
    simp only [RunSt.stepMany]
    cases h1 : RunSt.stepOne ⟨h, acc⟩ n i a nrm with
    | mk s r =>
    cases h2 : RunSt.stepOne ⟨h', acc'⟩ n i a nrm with
    | mk s' r' =>
    rw [h1, h2] at hs
    obtain ⟨t', e', hr⟩ := hs
    simp only at hr
    subst hr
    cases r' with
    | error er => exact ⟨t', e', rfl⟩
    | ok u => exact ih (fun x hx => hl x (by simp [hx])) t' e'

theorem Beside.stepControls {d : ModDict} (hd : ∀ x ∈ d, x.1 ≠ name ∧ k ∉ x.2) (control : List (String × Ctrl)) (c : Ctrl)
    (nrm : Bool) :
    ∀ {h h' : Heap} (_ : Beside k m₀ h h') {acc acc' : StepAcc} (_ : AccBut name acc acc'),
      BesideRun name k m₀ (RunSt.stepControls control nrm d ⟨h, acc⟩)
        (RunSt.stepControls ((name, c) :: control) nrm d ⟨h', acc'⟩) := by
  induction d with
  | nil => intro h h' t acc acc' e; exact ⟨t, e, rfl⟩
  | cons x d ih =>
    intro h h' t acc acc' e
    obtain ⟨n, is⟩ := x
    obtain ⟨hn, hi⟩ := hd (n, is) (by simp)
    have hg : dictGet? ((name, c) :: control) n = dictGet? control n := by
      simp only [dictGet?, if_neg (Ne.symm hn)]
    simp only [RunSt.stepControls, hg]
    cases dictGet? control n with
    | none => exact ⟨t, e, rfl⟩
    | some c' =>
      simp only
      have hs := Beside.stepMany (name := name) (m₀ := m₀) (k := k)
        (l := (is.zip c'.acts).map fun ia => (n, ia.1, ia.2)) (by
          intro y hy
          obtain ⟨ia, hia, rfl⟩ := List.mem_map.mp hy
          exact ⟨hn, fun e => hi (e ▸ (List.of_mem_zip hia).1)⟩) nrm t e
      cases h1 : RunSt.stepMany ((is.zip c'.acts).map fun ia => (n, ia.1, ia.2)) nrm ⟨h, acc⟩ with
      | mk s r =>
      cases h2 : RunSt.stepMany ((is.zip c'.acts).map fun ia => (n, ia.1, ia.2)) nrm ⟨h', acc'⟩ with
      | mk s' r' =>
      rw [h1, h2] at hs
      obtain ⟨t', e', hr⟩ := hs
      simp only at hr
      subst hr
      cases r' with
      | error er => exact ⟨t', e', rfl⟩
      | ok u => exact ih (fun x hx => hd x (by simp [hx])) t' e'

/-- The controllable modules and the idle one. -/
theorem Beside.stepControlsIdle (hci : CanIdle m₀ act) {d d' : ModDict} (ho : OneMore (name, [k]) d d')
    (hd : ∀ x ∈ d, x.1 ≠ name ∧ k ∉ x.2) (control : List (String × Ctrl)) (nrm : Bool)
    (t : Beside k m₀ h h') {acc acc' : StepAcc} (e : AccBut name acc acc') :
    BesideRun name k m₀ (RunSt.stepControls control nrm d ⟨h, acc⟩)
      (RunSt.stepControls ((name, .seq [act nrm]) :: control) nrm d' ⟨h', acc'⟩) := by
  obtain ⟨a, b, rfl, rfl⟩ := ho
  induction a generalizing h h' acc acc' with
  | nil =>
    simp only [List.nil_append]
    obtain ⟨m', o, h1, h2, h3, h4, h5, h6⟩ := hci.step t.2 nrm
    have : RunSt.stepControls ((name, .seq [act nrm]) :: control) nrm ((name, [k]) :: b) ⟨h', acc'⟩ =
        RunSt.stepControls ((name, .seq [act nrm]) :: control) nrm b ⟨h'.set k m', acc'.append name o⟩ := by
      simp only [RunSt.stepControls, dictGet?, if_true, Ctrl.acts, List.zip_cons_cons, List.zip_nil_left, List.map_cons,
        List.map_nil, RunSt.stepMany, RunSt.stepOne, h1]
    rw [this]
    exact Beside.stepControls (by simpa using hd) control _ nrm (t.setIdle h2) (e.idle h3 h4 h5 h6)
  | cons x a ih =>
    obtain ⟨n, is⟩ := x
    obtain ⟨hn, hi⟩ := hd (n, is) (by simp)
    have hg : dictGet? ((name, .seq [act nrm]) :: control) n = dictGet? control n := by
      simp only [dictGet?, if_neg (Ne.symm hn)]
    simp only [List.cons_append, RunSt.stepControls, hg]
    cases dictGet? control n with
    | none => exact ⟨t, e, rfl⟩
    | some c' =>
      simp only
      have hs := Beside.stepMany (name := name) (m₀ := m₀) (k := k)
        (l := (is.zip c'.acts).map fun ia => (n, ia.1, ia.2)) (by
          intro y hy
          obtain ⟨ia, hia, rfl⟩ := List.mem_map.mp hy
          exact ⟨hn, fun e => hi (e ▸ (List.of_mem_zip hia).1)⟩) nrm t e
      cases h1 : RunSt.stepMany ((is.zip c'.acts).map fun ia => (n, ia.1, ia.2)) nrm ⟨h, acc⟩ with
      | mk s r =>
      cases h2 : RunSt.stepMany ((is.zip c'.acts).map fun ia => (n, ia.1, ia.2)) nrm ⟨h', acc'⟩ with
      | mk s' r' =>
      rw [h1, h2] at hs
      obtain ⟨t', e', hr⟩ := hs
      simp only at hr
      subst hr
      cases r' with
      | error er => exact ⟨t', e', rfl⟩
      | ok u => exact ih t' e' (fun x hx => hd x (by simp at hx ⊢; tauto))

theorem Beside.absorbExcess {l : List (String × Nat)} (hl : ∀ x ∈ l, x.1 ≠ name ∧ x.2 ≠ k) :
    ∀ {h h' : Heap} (_ : Beside k m₀ h h') {acc acc' : StepAcc} (_ : AccBut name acc acc') (x : ℚ),
      BesideRun name k m₀ (RunSt.absorbExcess l x ⟨h, acc⟩) (RunSt.absorbExcess l x ⟨h', acc'⟩) := by
  induction l with
  | nil => intro h h' t acc acc' e x; exact ⟨t, e, rfl⟩
  | cons y l ih =>
    intro h h' t acc acc' e x
    obtain ⟨n, i⟩ := y
    obtain ⟨hn, hi⟩ := hl (n, i) (by simp)
    simp only [RunSt.absorbExcess, t.1 i hi]
    cases sinkAmount (h i) x with
    | error er => exact ⟨t, e, rfl⟩
    | ok amt =>
      simp only
      have hs := t.stepOne e hn hi (.num (-1 * amt)) false
      cases h1 : RunSt.stepOne ⟨h, acc⟩ n i (.num (-1 * amt)) false with
      | mk s r =>
      cases h2 : RunSt.stepOne ⟨h', acc'⟩ n i (.num (-1 * amt)) false with
      | mk s' r' =>
      rw [h1, h2] at hs
      obtain ⟨t', e', hr⟩ := hs
      simp only at hr
      subst hr
      cases r' with
      | error er => exact ⟨t', e', rfl⟩
      | ok u => exact ih (fun x hx => hl x (by simp [hx])) t' e' _

theorem Beside.coverNeed {l : List (String × Nat)} (hl : ∀ x ∈ l, x.1 ≠ name ∧ x.2 ≠ k) :
    ∀ {h h' : Heap} (_ : Beside k m₀ h h') {acc acc' : StepAcc} (_ : AccBut name acc acc') (x : ℚ),
      BesideRun name k m₀ (RunSt.coverNeed l x ⟨h, acc⟩) (RunSt.coverNeed l x ⟨h', acc'⟩) := by
  induction l with
  | nil => intro h h' t acc acc' e x; exact ⟨t, e, rfl⟩
  | cons y l ih =>
    intro h h' t acc acc' e x
    obtain ⟨n, i⟩ := y
    obtain ⟨hn, hi⟩ := hl (n, i) (by simp)
    simp only [RunSt.coverNeed, t.1 i hi]
    cases sourceAmount (h i) x with
    | error er => exact ⟨t, e, rfl⟩
    | ok amt =>
      simp only
      have hs := t.stepOne e hn hi (.num amt) false
      cases h1 : RunSt.stepOne ⟨h, acc⟩ n i (.num amt) false with
      | mk s r =>
      cases h2 : RunSt.stepOne ⟨h', acc'⟩ n i (.num amt) false with
      | mk s' r' =>
      rw [h1, h2] at hs
      obtain ⟨t', e', hr⟩ := hs
      simp only at hr
      subst hr
      cases r' with
      | error er => exact ⟨t', e', rfl⟩
      | ok u => exact ih (fun x hx => hl x (by simp [hx])) t' e' _

theorem Beside.costInfoOf (t : Beside k m₀ h h') {l : List Nat} (hl : k ∉ l) : costInfoOf h' l = Pymgrid.costInfoOf h l := by
  induction l with
  | nil => rfl
  | cons i l ih =>
    simp only [List.mem_cons, not_or] at hl
    simp only [Pymgrid.costInfoOf]
    rw [t.1 i (Ne.symm hl.1), ih hl.2]

theorem Beside.costInfoSame (t : Beside k m₀ h h') {d : ModDict} (hd : ∀ x ∈ d, x.1 ≠ name ∧ k ∉ x.2) :
    costInfo h' d = costInfo h d ∧ ∀ ci, costInfo h d = .ok ci → without name ci = ci := by
  induction d with
  | nil =>
    refine ⟨rfl, ?_⟩
    intro ci hc
    obtain rfl := Except.ok.inj hc
    rfl
  | cons x d ih =>
    obtain ⟨n, l⟩ := x
    obtain ⟨hn, hl⟩ := hd (n, l) (by simp)
    obtain ⟨e1, e2⟩ := ih fun x hx => hd x (by simp [hx])
    simp only [Pymgrid.costInfo]
    rw [t.costInfoOf hl, e1]
    refine ⟨rfl, ?_⟩
    intro ci hc
    cases h1 : Pymgrid.costInfoOf h l with
    | error er => rw [h1] at hc; simp at hc
    | ok p =>
      rw [h1] at hc
      cases h2 : costInfo h d with
      | error er => rw [h2] at hc; simp at hc
      | ok q =>
        rw [h2] at hc
        obtain rfl := Except.ok.inj hc
        have := e2 q h2
        unfold without at this ⊢
        rw [List.filter_cons_of_pos (by simpa using hn), this]

/-- The two marginal cost dictionaries. -/
def CostsBut (name : String) (x y : Except Err CostInfo) : Prop :=
  (∃ e, x = .error e ∧ y = .error e) ∨ ∃ ci ci', x = .ok ci ∧ y = .ok ci' ∧ without name ci' = ci

theorem Beside.costInfo (hci : CanIdle m₀ act) (t : Beside k m₀ h h') {d d' : ModDict} (ho : OneMore (name, [k]) d d')
    (hd : ∀ x ∈ d, x.1 ≠ name ∧ k ∉ x.2) : CostsBut name (costInfo h d) (Pymgrid.costInfo h' d') := by
  obtain ⟨a, b, rfl, rfl⟩ := ho
  induction a with
  | nil =>
    simp only [List.nil_append] at hd ⊢
    obtain ⟨e1, e2⟩ := t.costInfoSame hd
    obtain ⟨⟨x, hx⟩, y, hy⟩ := hci.costs t.2
    simp only [Pymgrid.costInfo, Pymgrid.costInfoOf, hx, hy, e1]
    cases h1 : Pymgrid.costInfo h b with
    | error er => exact .inl ⟨er, rfl, rfl⟩
    | ok ci =>
      refine .inr ⟨_, _, rfl, rfl, ?_⟩
      have := e2 ci h1
      unfold without at this ⊢
      rw [List.filter_cons_of_neg (by simp), this]
  | cons x a ih =>
    obtain ⟨n, l⟩ := x
    obtain ⟨hn, hl⟩ := hd (n, l) (by simp)
    have := ih fun x hx => hd x (by simp at hx ⊢; tauto)
    simp only [List.cons_append, Pymgrid.costInfo, t.costInfoOf hl]
    cases Pymgrid.costInfoOf h l with
    | error er => exact .inl ⟨er, rfl, rfl⟩
    | ok p =>
      rcases this with ⟨er, h1, h2⟩ | ⟨ci, ci', h1, h2, h3⟩
      · rw [h1, h2]; exact .inl ⟨er, rfl, rfl⟩
      · rw [h1, h2]
        refine .inr ⟨_, _, rfl, rfl, ?_⟩
        unfold without at h3 ⊢
        rw [List.filter_cons_of_pos (by simpa using hn), h3]

theorem Beside.resetSame {l : List Nat} (hl : k ∉ l) : ∀ {h h' : Heap} (_ : Beside k m₀ h h'),
    Beside k m₀ (Microgrid.resetMany h l).1 (Microgrid.resetMany h' l).1 ∧
      (Microgrid.resetMany h' l).2 = (Microgrid.resetMany h l).2 := by
  induction l with
  | nil => intro h h' t; exact ⟨t, rfl⟩
  | cons i l ih =>
    intro h h' t
    simp only [List.mem_cons, not_or] at hl
    simp only [Microgrid.resetMany, t.1 i (Ne.symm hl.1)]
    cases (h i).reset with
    | mk m r =>
    cases r with
    | error er => exact ⟨t.set (Ne.symm hl.1) m, rfl⟩
    | ok u => exact ih hl.2 (t.set (Ne.symm hl.1) m)

theorem Beside.resetMany (hci : CanIdle m₀ act) {l l' : List Nat} (ho : OneMore k l l') (hl : k ∉ l)
    (t : Beside k m₀ h h') :
    Beside k m₀ (Microgrid.resetMany h l).1 (Microgrid.resetMany h' l').1 ∧
      (Microgrid.resetMany h' l').2 = (Microgrid.resetMany h l).2 := by
  obtain ⟨a, b, rfl, rfl⟩ := ho
  induction a generalizing h h' with
  | nil =>
    obtain ⟨m', x, h1, h2⟩ := hci.reset t.2
    simp only [List.nil_append, Microgrid.resetMany, h1]
    exact Beside.resetSame (by simpa using hl) (t.setIdle h2)
  | cons i a ih =>
    simp only [List.cons_append, List.mem_cons, not_or] at hl
    simp only [List.cons_append, Microgrid.resetMany, t.1 i (Ne.symm hl.1)]
    cases (h i).reset with
    | mk m r =>
    cases r with
    | error er => exact ⟨t.set (Ne.symm hl.1) m, rfl⟩
    | ok u => exact ih (t.set (Ne.symm hl.1) m) hl.2

theorem Lazy.withInitial {m : Module} (l : Lazy m₀ m) (v : Nat) : Lazy m₀ { m with initialStep := v } :=
  ⟨l.kind, l.ffc, l.actSpace, l.obsSpace, l.provName, l.absName⟩

theorem Beside.setInitialSame (v : Nat) {l : List Nat} (hl : k ∉ l) : ∀ {h h' : Heap} (_ : Beside k m₀ h h'),
    Beside k m₀ (Microgrid.setInitialMany h v l) (Microgrid.setInitialMany h' v l) := by
  induction l with
  | nil => intro h h' t; exact t
  | cons i l ih =>
    intro h h' t
    simp only [List.mem_cons, not_or] at hl
    simp only [Microgrid.setInitialMany, t.1 i (Ne.symm hl.1)]
    exact ih hl.2 (t.set (Ne.symm hl.1) _)

theorem Beside.setInitial (v : Nat) {l l' : List Nat} (ho : OneMore k l l') (hl : k ∉ l) (t : Beside k m₀ h h') :
    Beside k m₀ (Microgrid.setInitialMany h v l) (Microgrid.setInitialMany h' v l') := by
  obtain ⟨a, b, rfl, rfl⟩ := ho
  induction a generalizing h h' with
  | nil =>
    simp only [List.nil_append, Microgrid.setInitialMany]
    exact Beside.setInitialSame v (by simpa using hl) (t.setIdle (t.2.withInitial v))
  | cons i a ih =>
    simp only [List.cons_append, List.mem_cons, not_or] at hl
    simp only [List.cons_append, Microgrid.setInitialMany, t.1 i (Ne.symm hl.1)]
    exact ih (t.set (Ne.symm hl.1) _) hl.2

theorem Beside.setFinalSame (v : Int) {l : List Nat} (hl : k ∉ l) : ∀ {h h' : Heap} (_ : Beside k m₀ h h') (any : Bool),
    Beside k m₀ (Microgrid.setFinalMany h v any l).1 (Microgrid.setFinalMany h' v any l).1 ∧
      (Microgrid.setFinalMany h' v any l).2 = (Microgrid.setFinalMany h v any l).2 := by
  induction l with
  | nil => intro h h' t any; exact ⟨t, rfl⟩
  | cons i l ih =>
    intro h h' t any
    simp only [List.mem_cons, not_or] at hl
    simp only [Microgrid.setFinalMany, t.1 i (Ne.symm hl.1)]
    cases Microgrid.setFinalOne (h i) v with
    | mk m r =>
    cases r with
    | error er => exact ⟨t.set (Ne.symm hl.1) m, rfl⟩
    | ok b => exact ih hl.2 (t.set (Ne.symm hl.1) m) _

theorem Beside.setFinal (hci : CanIdle m₀ act) (v : Int) {l l' : List Nat} (ho : OneMore k l l') (hl : k ∉ l)
    (t : Beside k m₀ h h') (any : Bool) :
    Beside k m₀ (Microgrid.setFinalMany h v any l).1 (Microgrid.setFinalMany h' v any l').1 ∧
      (Microgrid.setFinalMany h' v any l').2 = (Microgrid.setFinalMany h v any l).2 := by
  obtain ⟨a, b, rfl, rfl⟩ := ho
  induction a generalizing h h' any with
  | nil =>
    simp only [List.nil_append, Microgrid.setFinalMany, hci.setFinal t.2 v, Bool.or_false]
    exact Beside.setFinalSame v (by simpa using hl) (t.setIdle t.2) any
  | cons i a ih =>
    simp only [List.cons_append, List.mem_cons, not_or] at hl
    simp only [List.cons_append, Microgrid.setFinalMany, t.1 i (Ne.symm hl.1)]
    cases Microgrid.setFinalOne (h i) v with
    | mk m r =>
    cases r with
    | error er => exact ⟨t.set (Ne.symm hl.1) m, rfl⟩
    | ok b => exact ih (t.set (Ne.symm hl.1) m) _ hl.2

end

/-! ### Microgrids -/

/-- The second microgrid has an idle component more. -/
structure SpareGrid (name : String) (k : Nat) (m₀ : Module) (g g' : Microgrid) : Prop where
  heap : Beside k m₀ g.heap g'.heap
  cont : Joined name k g.cont g'.cont
  initialStep : g'.initialStep = g.initialStep
  finalStep : g'.finalStep = g.finalStep
  shaper : Ignoring name g.shaper g'.shaper
  trajectory : g'.trajectory = g.trajectory
  calls : g'.calls = g.calls
  balanceLog : g'.balanceLog = g.balanceLog

section
variable {name : String} {k : Nat} {m₀ : Module} {act : Bool → Act} {g g' : Microgrid}

theorem AccBut.shapedReward {a a' : StepAcc} (e : AccBut name a a') {sh sh' : Option Shaper} (hs : Ignoring name sh sh')
    {ci ci' : CostInfo} (hc : without name ci' = ci) : a'.shapedReward sh' ci' = a.shapedReward sh ci := by
  unfold StepAcc.shapedReward
  cases sh with
  | none =>
    cases sh' with
    | none => simp only [e.reward]
    | some f' => exact hs.elim
  | some f =>
    cases sh' with
    | none => exact hs.elim
    | some f' =>
      simp only
      rw [show f' a'.infos ci' = f (without name a'.infos) (without name ci') from hs _ _, e.infos, hc]

theorem AccBut.balance {a a' : StepAcc} (e : AccBut name a a') {sh sh' : Option Shaper} (hs : Ignoring name sh sh')
    {ci ci' : CostInfo} (hc : without name ci' = ci) : a'.balance sh' ci' = a.balance sh ci := by
  unfold StepAcc.balance
  rw [e.shapedReward hs hc, e.provided, e.absorbed, e.reward]

theorem SpareGrid.run (hci : CanIdle m₀ act) (t : SpareGrid name k m₀ g g') (control : List (String × Ctrl)) (n : Bool) :
    SpareGrid name k m₀ (g.run control n).1 (g'.run ((name, .seq [act n]) :: control) n).1 ∧
      SameBut name ((g.run control n).2.map some) ((g'.run ((name, .seq [act n]) :: control) n).2.map some) := by
  obtain ⟨h, c, i₀, f₀, sh, tr, ca, bl, ol⟩ := g
  obtain ⟨h', c', i', f', sh', tr', ca', bl', ol'⟩ := g'
  obtain ⟨th, tc, q2, q3, hsh, q6, q7, q8⟩ := t
  simp only at th tc q2 q3 hsh q6 q7 q8
  subst q2 q3 q6 q7 q8
  have withHeap : ∀ {h h' : Heap} {L : Logger}, Beside k m₀ h h' →
      SpareGrid name k m₀ ⟨h, c, i', f', sh, tr', ca', L, ol⟩ ⟨h', c', i', f', sh', tr', ca', L, ol'⟩ := fun th =>
    ⟨th, tc, rfl, rfl, hsh, rfl, rfl, rfl⟩
  have hmem : ∀ f, ∀ x ∈ Container.toTuples (c.levelDict f), x.1 ≠ name ∧ x.2 ≠ k := by
    intro f x hx
    unfold Container.toTuples at hx
    obtain ⟨nl, hnl, hx⟩ := List.mem_flatMap.mp hx
    obtain ⟨i, hi, rfl⟩ := List.mem_map.mp hx
    obtain ⟨p1, p2⟩ := tc.names f nl hnl
    exact ⟨p1, fun e => p2 (e ▸ hi)⟩
  unfold Microgrid.run
  simp only
  rcases th.costInfo hci tc.full tc.fullNames with ⟨e, h1, h2⟩ | ⟨ci, ci', h1, h2, hcc⟩
  · rw [h1, h2]; exact ⟨withHeap th, .error e⟩
  rw [h1, h2]
  simp only
  have hfix : (⟨h', c', i', f', sh', tr', ca', bl', ol'⟩ : Microgrid).fixedSteps =
      (⟨h, c, i', f', sh, tr', ca', bl', ol⟩ : Microgrid).fixedSteps := by
    unfold Microgrid.fixedSteps
    rw [tc.fixed]
  rw [hfix]
  generalize hfs : (⟨h, c, i', f', sh, tr', ca', bl', ol⟩ : Microgrid).fixedSteps = fs
  have s1 := Beside.stepMany (name := name) (k := k) (m₀ := m₀) (l := fs) (by
    intro x hx
    rw [← hfs] at hx
    obtain ⟨ni, hni, rfl⟩ := List.mem_map.mp hx
    exact hmem .fixed ni hni) false th (acc := {}) (acc' := {}) ⟨rfl, rfl, rfl, rfl, rfl, rfl⟩
  cases e1 : RunSt.stepMany fs false ⟨h, {}⟩ with
  | mk s r =>
  cases e1' : RunSt.stepMany fs false ⟨h', {}⟩ with
  | mk s' r' =>
  rw [e1, e1'] at s1
  obtain ⟨t₁, a₁, hr⟩ := s1
  simp only at t₁ a₁ hr
  subst hr
  cases r' with
  | error e => exact ⟨withHeap t₁, .error e⟩
  | ok u =>
  simp only [a₁.balance hsh hcc]
  cases s.acc.balance sh ci with
  | error e => exact ⟨withHeap t₁, .error e⟩
  | ok x =>
  obtain ⟨fp, fc, _, _⟩ := x
  simp only
  obtain ⟨hs, as⟩ := s
  obtain ⟨hs', as'⟩ := s'
  have s2 := Beside.stepControlsIdle hci tc.controllable (tc.names .controllable) control n t₁ a₁
  simp only at s2
  cases e2 : RunSt.stepControls control n (c.levelDict .controllable) ⟨hs, as⟩ with
  | mk s₂ r =>
  cases e2' : RunSt.stepControls ((name, .seq [act n]) :: control) n (c'.levelDict .controllable) ⟨hs', as'⟩ with
  | mk s₂' r' =>
  rw [e2, e2'] at s2
  obtain ⟨t₂, a₂, hr⟩ := s2
  simp only at t₂ a₂ hr
  subst hr
  cases r' with
  | error e => exact ⟨withHeap t₂, .error e⟩
  | ok u =>
  simp only [a₂.balance hsh hcc]
  cases s₂.acc.balance sh ci with
  | error e => exact ⟨withHeap t₂, .error e⟩
  | ok x =>
  obtain ⟨p, cc, _, _⟩ := x
  simp only
  obtain ⟨h₂, b₂⟩ := s₂
  obtain ⟨h₂', b₂'⟩ := s₂'
  have s3 : BesideRun name k m₀ (Microgrid.dispatch ⟨h, c, i', f', sh, tr', ca', bl', ol⟩ (p - cc) ⟨h₂, b₂⟩)
      (Microgrid.dispatch ⟨h', c', i', f', sh', tr', ca', bl', ol'⟩ (p - cc) ⟨h₂', b₂'⟩) := by
    unfold Microgrid.dispatch Microgrid.flexList
    simp only [tc.flex]
    split
    · exact Beside.absorbExcess (hmem .flex) t₂ a₂ _
    · exact Beside.coverNeed (hmem .flex) t₂ a₂ _
  cases e3 : Microgrid.dispatch ⟨h, c, i', f', sh, tr', ca', bl', ol⟩ (p - cc) ⟨h₂, b₂⟩ with
  | mk s₃ r =>
  cases e3' : Microgrid.dispatch ⟨h', c', i', f', sh', tr', ca', bl', ol'⟩ (p - cc) ⟨h₂', b₂'⟩ with
  | mk s₃' r' =>
  rw [e3, e3'] at s3
  obtain ⟨t₃, a₃, hr⟩ := s3
  simp only at t₃ a₃ hr
  subst hr
  cases r' with
  | error e => exact ⟨withHeap t₃, .error e⟩
  | ok u =>
  simp only
  unfold Microgrid.finish
  simp only [a₃.balance hsh hcc, a₃.shapedReward hsh hcc]
  cases s₃.acc.balance sh ci with
  | error e => exact ⟨withHeap t₃, .error e⟩
  | ok x =>
  obtain ⟨p', c₃, rw', sr⟩ := x
  simp only
  split
  · exact ⟨withHeap t₃, .error _⟩
  · cases s₃.acc.shapedReward sh ci with
    | error e => exact ⟨withHeap t₃, .error e⟩
    | ok r => exact ⟨withHeap t₃, .run rfl a₃.done a₃.obs a₃.infos⟩

theorem SpareGrid.setTrajectory (hci : CanIdle m₀ act) (t : SpareGrid name k m₀ g g') :
    SpareGrid name k m₀ g.setTrajectory.1 g'.setTrajectory.1 ∧ g'.setTrajectory.2 = g.setTrajectory.2 := by
  obtain ⟨h, c, i₀, f₀, sh, tr, ca, bl, ol⟩ := g
  obtain ⟨h', c', i', f', sh', tr', ca', bl', ol'⟩ := g'
  obtain ⟨th, tc, q2, q3, hsh, q6, q7, q8⟩ := t
  simp only at th tc q2 q3 hsh q6 q7 q8
  subst q2 q3 q6 q7 q8
  unfold Microgrid.setTrajectory
  cases tr' with
  | none => exact ⟨⟨th, tc, rfl, rfl, hsh, rfl, rfl, rfl⟩, rfl⟩
  | some f =>
    simp only
    cases f ca' i' f' with
    | error e => exact ⟨⟨th, tc, rfl, rfl, hsh, rfl, rfl, rfl⟩, rfl⟩
    | ok x =>
      obtain ⟨i, fin⟩ := x
      simp only
      have s1 := th.setInitial i tc.list tc.fullIds
      obtain ⟨s2, s3⟩ := s1.setFinal hci fin tc.list tc.fullIds false
      exact ⟨⟨s2, tc, rfl, rfl, hsh, rfl, rfl, rfl⟩, s3⟩

theorem OneMore.toTuples {d d' : ModDict} (h : OneMore (name, [k]) d d') :
    OneMore (name, k) (Container.toTuples d) (Container.toTuples d') := by
  obtain ⟨a, b, rfl, rfl⟩ := h
  exact ⟨Container.toTuples a, Container.toTuples b, by simp [Container.toTuples], by simp [Container.toTuples]⟩

theorem Joined.ids {c c' : Container} (tc : Joined name k c c') :
    OneMore k ((Container.toTuples c.fullDict).map Prod.snd) ((Container.toTuples c'.fullDict).map Prod.snd) ∧
      k ∉ (Container.toTuples c.fullDict).map Prod.snd := by
  refine ⟨tc.full.toTuples.map Prod.snd, ?_⟩
  intro hm
  obtain ⟨x, hx, e⟩ := List.mem_map.mp hm
  unfold Container.toTuples at hx
  obtain ⟨nl, hnl, hx⟩ := List.mem_flatMap.mp hx
  obtain ⟨i, hi, rfl⟩ := List.mem_map.mp hx
  simp only at e
  exact (tc.fullNames nl hnl).2 (e ▸ hi)

theorem SpareGrid.reset (hci : CanIdle m₀ act) (t : SpareGrid name k m₀ g g') :
    SpareGrid name k m₀ g.reset.1 g'.reset.1 ∧ g'.reset.2 = g.reset.2 := by
  obtain ⟨t₁, e⟩ := t.setTrajectory hci
  unfold Microgrid.reset
  cases h1 : g.setTrajectory with
  | mk g₁ r =>
  cases h1' : g'.setTrajectory with
  | mk g₁' r' =>
  rw [h1, h1'] at t₁ e
  simp only at t₁ e
  subst e
  cases r' with
  | error e => exact ⟨t₁, rfl⟩
  | ok u =>
    simp only
    obtain ⟨o, hk⟩ := t.cont.ids
    obtain ⟨s1, s2⟩ := t₁.heap.resetMany hci o hk
    cases h2 : Microgrid.resetMany g₁.heap ((Container.toTuples g.cont.fullDict).map Prod.snd) with
    | mk hh r =>
    cases h2' : Microgrid.resetMany g₁'.heap ((Container.toTuples g'.cont.fullDict).map Prod.snd) with
    | mk hh' r' =>
    rw [h2, h2'] at s1 s2
    simp only at s1 s2
    subst s2
    cases r' with
    | error e =>
      exact ⟨⟨s1, t₁.cont, t₁.initialStep, t₁.finalStep, t₁.shaper, t₁.trajectory, t₁.calls, t₁.balanceLog⟩, rfl⟩
    | ok u =>
      refine ⟨⟨s1, t₁.cont, t₁.initialStep, t₁.finalStep, t₁.shaper, t₁.trajectory, t₁.calls, ?_⟩, rfl⟩
      simp only [t₁.balanceLog]

theorem SpareGrid.results (hci : CanIdle m₀ act) (t : SpareGrid name k m₀ g g') (ops : List GOp) :
    List.Forall₂ (SameBut name) (g.results ops) (g'.results (ops.map (GOp.withIdle name act))) ∧
      SpareGrid name k m₀ (Pymgrid.runG g ops) (Pymgrid.runG g' (ops.map (GOp.withIdle name act))) := by
  induction ops generalizing g g' with
  | nil => exact ⟨.nil, t⟩
  | cons op ops ih =>
    cases op with
    | run c n =>
      obtain ⟨t', e⟩ := t.run hci c n
      obtain ⟨h1, h2⟩ := ih t'
      exact ⟨.cons e h1, h2⟩
    | reset =>
      obtain ⟨t', e⟩ := t.reset hci
      obtain ⟨h1, h2⟩ := ih t'
      refine ⟨.cons ?_ h1, h2⟩
      rw [e]
      cases g.reset.2 with
      | error er => exact .error er
      | ok u => exact .reset

theorem CanIdle.finalStep? (h : CanIdle m₀ act) : m₀.finalStep? = none := by
  have hk := h.kinds (.refl _)
  unfold Module.finalStep?
  rcases hk with ⟨b, hk⟩ | ⟨g, hk⟩ <;> rw [hk]

theorem create_spare {h : Heap} {mods : List (String × Nat)} (hci : CanIdle (h k) act)
    (hn : name ∉ mods.map Prod.fst) (hk : k ∉ mods.map Prod.snd) (hne : mods ≠ []) {sh sh' : Option Shaper}
    (hs : Ignoring name sh sh') {tr : Option (Nat → Nat → Option Nat → Except Err (Nat × Nat))}
    (hc : Microgrid.create h mods sh tr = .ok g) (hi : (h k).initialStep = g.initialStep) :
    ∃ g', Microgrid.create h (mods ++ [(name, k)]) sh' tr = .ok g' ∧ SpareGrid name k (h k) g g' := by
  have tc := Joined.build hn hk hci.ffc
  obtain ⟨u1, f0, -, u2⟩ := Microgrid.create_some hc hne
  obtain ⟨⟨a, b, o1, o2⟩, -⟩ := tc.ids
  have v1 : uniqueVal (((Container.toTuples (Container.build h (mods ++ [(name, k)])).fullDict).map Prod.snd).map
      fun i => (h i).initialStep) = .ok g.initialStep := by
    refine uniqueVal_of ?_ ?_
    · intro y hy
      rw [o2] at hy
      have hall := (uniqueVal_ok u1).1
      rw [o1] at hall
      simp only [List.map_append, List.map_cons, List.mem_append, List.mem_cons] at hy hall
      rcases hy with hy | rfl | hy
      · exact hall y (.inl hy)
      · exact hi
      · exact hall y (.inr hy)
    · rw [o2]; simp
  have v2 : ((Container.toTuples (Container.build h (mods ++ [(name, k)])).fullDict).map Prod.snd).filterMap
      (fun i => (h i).finalStep?) =
      ((Container.toTuples (Container.build h mods).fullDict).map Prod.snd).filterMap (fun i => (h i).finalStep?) := by
    rw [o1, o2, List.filterMap_append, List.filterMap_append, List.filterMap_cons, hci.finalStep?]
  unfold Microgrid.create at hc ⊢
  simp only at hc ⊢
  rw [if_neg (by simp), v1, v2, u2]
  rw [if_neg (by simpa using hne), u1, u2] at hc
  simp only at hc ⊢
  unfold Microgrid.checkTrajectory at *
  cases tr with
  | none =>
    simp only [Except.ok.injEq] at hc ⊢
    refine ⟨_, rfl, ?_⟩
    rw [← hc]
    exact ⟨⟨fun _ _ => rfl, .refl _⟩, tc, by rw [← hc], rfl, hs, rfl, rfl, rfl⟩
  | some f =>
    simp only at hc ⊢
    cases hf : f 0 g.initialStep (some f0) with
    | error e => rw [hf] at hc; simp at hc
    | ok x =>
      rw [hf] at hc
      simp only at hc ⊢
      split at hc
      · simp at hc
      · rename_i h1
        rw [if_neg h1]
        split at hc
        · simp at hc
        · rename_i h2
          rw [if_neg h2]
          split at hc
          · simp at hc
          · rename_i h3
            rw [if_neg h3]
            simp only [Except.ok.injEq] at hc ⊢
            refine ⟨_, rfl, ?_⟩
            rw [← hc]
            exact ⟨⟨fun _ _ => rfl, .refl _⟩, tc, by rw [← hc], rfl, hs, rfl, rfl, rfl⟩

end

end Pymgrid
