import Verif.Lemmas.Upgrade
import Verif.Lemmas.Grid
import Verif.Spec.Tariff

set_option autoImplicit false

/-! Lemmas for C105: two microgrids that differ only in prices. -/

namespace Pymgrid

open Module

theorem WF.balancing_inv {m : Module} (h : m.WF) {u : Unbalanced} (hk : m.kind = .balancing u) : m.BalWF u := by
  cases h with
  | grid p' t' h w => rw [h.kind] at hk; cases hk
  | battery b h => rw [h.kind] at hk; cases hk
  | genset b h => rw [h.kind] at hk; cases hk
  | balancing b h => rw [h.kind] at hk; cases hk; exact h
  | load t h => rw [h.kind] at hk; cases hk
  | renewable t h => rw [h.kind] at hk; cases hk

/-! ### Rows -/

section
variable {P : Prop}

theorem RowPrices.symm {r r' : List ℚ} (h : RowPrices P r r') : RowPrices False r' r :=
  ⟨False.elim, False.elim, h.co2.symm, h.status.symm⟩

theorem OtherPrices.symm {k k' : Kind} (h : OtherPrices P k k') : OtherPrices False k' k := by
  cases h with
  | battery b c h => exact .battery { b with costCycle := c } b.costCycle False.elim
  | genset g cost c h1 h2 =>
    exact .genset { g with cost := cost, costPerCo2 := c } g.cost g.costPerCo2 False.elim False.elim
  | grid p t t' c rows fin h =>
    refine .grid { p with costPerCo2 := c } t' t p.costPerCo2 ?_ fin.symm False.elim
    exact (rows.flip).imp fun a b hab => RowPrices.symm hab
  | balancing u u' h1 h2 => exact .balancing u' u False.elim False.elim

theorem rows_get {l l' : List (List ℚ)} (h : List.Forall₂ (RowPrices P) l l') (c : Nat) :
    (l[c]? = none ∧ l'[c]? = none) ∨ ∃ r r', l[c]? = some r ∧ l'[c]? = some r' ∧ RowPrices P r r' := by
  induction h generalizing c with
  | nil => exact .inl (by simp)
  | cons hab _ ih =>
    cases c with
    | zero => exact .inr ⟨_, _, rfl, rfl, hab⟩
    | succ c => simpa using ih c

end

/-! ### Modules -/

section
variable {P : Prop} {m m' : Module}

theorem Tariff.symm (u : Tariff P m m') : Tariff False m' m :=
  ⟨u.kind.symm, u.ffc.symm, u.raiseErrors.symm, u.initialStep.symm, u.currentStep.symm, u.actSpace.symm⟩

theorem Tariff.energyPos (u : Tariff P m m') : m'.energyPos = m.energyPos := by
  have hw := u.kind
  unfold Module.energyPos
  generalize m.kind = k at hw
  generalize m'.kind = k' at hw
  cases hw <;> rfl

theorem Tariff.request (u : Tariff P m m') (a : Act) (n : Bool) : m'.request a n = m.request a n := by
  unfold Module.request Module.denormalizeAct
  rw [u.energyPos, u.actSpace]

/-- What the step of the module with other prices does. -/
def Repays (P : Prop) (m' : Module) (a : Act) (n : Bool) (m₁ : Module) (o : StepOut) : Prop :=
  ∃ m₁' o', m'.step a n = (m₁', .ok o') ∧ Tariff P m₁ m₁' ∧ (P → o'.reward ≤ o.reward) ∧ o'.done = o.done ∧
    o'.info = o.info

theorem info_ext {i i' : Info} (h1 : i'.provided = i.provided) (h2 : i'.absorbed = i.absorbed) (h3 : i'.extra = i.extra) :
    i' = i := by
  cases i; cases i'; simp only at h1 h2 h3; subst h1 h2 h3; rfl

theorem battery_follows {b : Battery} {c : ℚ} (h : m.BattWF b) (h' : m'.BattWF { b with costCycle := c })
    (hc : P → b.costCycle ≤ c) (u : Tariff P m m') {a : Act} {n : Bool} {m₁ : Module} {o : StepOut}
    (he : m.step a n = (m₁, .ok o)) : Repays P m' a n m₁ o := by
  unfold Repays
  rw [h'.step_eq, u.request]
  rw [h.step_eq] at he
  cases hr : m.request a n with
  | error e => rw [hr] at he; simp at he
  | ok q =>
  rw [hr] at he
  simp only at he ⊢
  have fin : ∀ {d : Dir} {x : ℚ} {m₂ m₂' : Module} {o₂ o₂' : StepOut}, m.BattStep b d x m₂ o₂ →
      m'.BattStep { b with costCycle := c } d x m₂' o₂' → Tariff P m₂ m₂' ∧ (P → o₂'.reward ≤ o₂.reward) ∧
        o₂'.done = o₂.done ∧ o₂'.info = o₂.info := by
    intro d x m₂ m₂' o₂ o₂' st st'
    refine ⟨⟨?_, ?_, ?_, ?_, ?_, ?_⟩, ?_, ?_, ?_⟩
    · rw [st.kind, st'.kind]
      have : ({ b with costCycle := c } : Battery).withCharge (({ b with costCycle := c } : Battery).chargeAfter d x) =
          { b.withCharge (b.chargeAfter d x) with costCycle := c } := by cases d <;> rfl
      rw [this]
      exact .battery _ _ hc
    · rw [st.wf.ffc, st'.wf.ffc]
    · rw [st.raise, st'.raise, u.raiseErrors]
    · rw [st.init, st'.init, u.initialStep]
    · rw [st.step, st'.step, u.currentStep]
    · rw [st.space, st'.space, u.actSpace]
    · intro hP
      rw [st.reward, st'.reward]
      have e : ({ b with costCycle := c } : Battery).moved d x = b.moved d x := by cases d <;> rfl
      have : 0 ≤ b.moved d x := by
        have := h.valid.eff_pos.le
        cases d
        · exact div_nonneg st.nonneg this
        · exact mul_nonneg st.nonneg this
      rw [e]
      have := mul_le_mul_of_nonneg_right (hc hP) this
      simp only
      linarith
    · rw [st.done, st'.done]
    · exact info_ext (by rw [st.provided, st'.provided]) (by rw [st.absorbed, st'.absorbed]) (by rw [st.extra, st'.extra])
  have h1 := h.stepEnergy q
  have h2 := h'.stepEnergy q
  rw [u.raiseErrors] at h2
  have e1 : ({ b with costCycle := c } : Battery).maxProduction = b.maxProduction := rfl
  have e2 : ({ b with costCycle := c } : Battery).maxConsumption = b.maxConsumption := rfl
  rw [e1, e2] at h2
  by_cases hq : 0 ≤ q
  · rw [if_pos hq] at h1 h2
    split at h1
    · rw [h1] at he; simp at he
    rename_i hno
    rw [if_neg hno] at h2
    obtain ⟨m₂, o₂, s, st⟩ := h1
    obtain ⟨m₂', o₂', s', st'⟩ := h2
    rw [s] at he
    simp only [Prod.mk.injEq, Except.ok.injEq] at he
    obtain ⟨rfl, rfl⟩ := he
    exact ⟨_, _, s', fin st st'⟩
  · rw [if_neg hq] at h1 h2
    split at h1
    · rw [h1] at he; simp at he
    rename_i hno
    rw [if_neg hno] at h2
    obtain ⟨m₂, o₂, s, st⟩ := h1
    obtain ⟨m₂', o₂', s', st'⟩ := h2
    rw [s] at he
    simp only [Prod.mk.injEq, Except.ok.injEq] at he
    obtain ⟨rfl, rfl⟩ := he
    exact ⟨_, _, s', fin st st'⟩

theorem genset_follows {g : Genset} {cost : GensetCost} {c : ℚ} (h : m.GenWF g)
    (h' : m'.GenWF { g with cost := cost, costPerCo2 := c })
    (fuel : P → ∀ x, 0 ≤ x → g.fuelCost x ≤ { g with cost := cost }.fuelCost x)
    (co2 : P → 0 ≤ g.co2PerUnit ∧ g.costPerCo2 ≤ c) (u : Tariff P m m') {a : Act} {n : Bool} {m₁ : Module} {o : StepOut}
    (he : m.step a n = (m₁, .ok o)) : Repays P m' a n m₁ o := by
  unfold Repays
  rw [h'.step_eq, u.request]
  rw [h.step_eq] at he
  cases a with
  | num q => simp at he
  | arr l =>
  simp only at he ⊢
  cases hl : l[0]? with
  | none => rw [hl] at he; simp at he
  | some goal =>
  rw [hl] at he
  simp only at he ⊢
  by_cases hg : 0 ≤ goal ∧ goal ≤ 1
  swap
  · rw [if_pos hg] at he; simp at he
  rw [if_neg (not_not.mpr hg)] at he ⊢
  obtain ⟨p, hp⟩ := h.phase
  obtain ⟨g₁, hu, hp₁, hs₁, -⟩ := hp.update hg.1 hg.2
  rw [hu] at he
  simp only at he
  have hu' := updateStatus_withUnit g g.runMin g.runMax cost g.co2PerUnit c goal
  have e0 : g.withUnit g.runMin g.runMax cost g.co2PerUnit c = { g with cost := cost, costPerCo2 := c } := rfl
  rw [e0, hu] at hu'
  simp only [Except.map] at hu'
  have e1 : g₁.withUnit g.runMin g.runMax cost g.co2PerUnit c = { g₁ with cost := cost, costPerCo2 := c } := by
    rw [← hs₁.runMin, ← hs₁.runMax, ← hs₁.co2]; rfl
  rw [e1] at hu'
  obtain ⟨p', hp'⟩ := h'.phase
  obtain ⟨x, hx, hp₁', hs₁', -⟩ := hp'.update hg.1 hg.2
  rw [hu'] at hx
  injection hx with hx
  subst hx
  rw [hu']
  simp only
  cases hr : m.request (.arr l) n with
  | error e => rw [hr] at he; simp at he
  | ok q =>
  rw [hr] at he
  simp only at he ⊢
  have wf₁ := h.withStatus ⟨_, hp₁⟩ hs₁
  have wf₁' := h'.withStatus ⟨_, hp₁'⟩ hs₁'
  have h1 := wf₁.stepEnergy q
  have h2 := wf₁'.stepEnergy q
  have e2 : ({ g₁ with cost := cost, costPerCo2 := c } : Genset).maxProduction = g₁.maxProduction := rfl
  have e3 : ({ g₁ with cost := cost, costPerCo2 := c } : Genset).minProduction = g₁.minProduction := rfl
  rw [e2, e3] at h2
  by_cases hq : q < 0
  · rw [if_pos hq] at h1; rw [h1] at he; simp at he
  rw [if_neg hq] at h1 h2
  split at h1
  · rw [h1] at he; simp at he
  rename_i hno
  simp only at hno
  rw [if_neg (by simp only [u.raiseErrors]; exact hno)] at h2
  obtain ⟨m₂, o₂, s, st⟩ := h1
  obtain ⟨m₂', o₂', s', st'⟩ := h2
  rw [s] at he
  simp only [Prod.mk.injEq, Except.ok.injEq] at he
  obtain ⟨rfl, rfl⟩ := he
  have hy : 0 ≤ clamp g₁.minProduction g₁.maxProduction q := le_trans wf₁.limits.1 (clamp_mem wf₁.limits.2).1
  have fc : ∀ x, g₁.fuelCost x = g.fuelCost x := by intro x; unfold Genset.fuelCost; rw [hs₁.cost]
  refine ⟨_, _, s', ⟨?_, ?_, ?_, ?_, ?_, ?_⟩, ?_, ?_, ?_⟩
  · rw [st.wf.kind, st'.wf.kind]
    refine .genset _ _ _ ?_ ?_
    · intro hP x hx; rw [fc]; exact fuel hP x hx
    · intro hP; rw [hs₁.co2, hs₁.cco2]; exact co2 hP
  · rw [st.wf.ffc, st'.wf.ffc]
  · rw [st.raise, st'.raise]; exact u.raiseErrors
  · rw [st.init, st'.init]; exact u.initialStep
  · rw [st.step, st'.step]; simp only [u.currentStep]
  · rw [st.space, st'.space]; exact u.actSpace
  · intro hP
    rw [st.reward, st'.reward, e2, e3]
    obtain ⟨c1, c2⟩ := co2 hP
    have f1 := fuel hP _ hy
    rw [← fc] at f1
    have f2 : ({ g₁ with cost := cost, costPerCo2 := c } : Genset).fuelCost (clamp g₁.minProduction g₁.maxProduction q) =
        ({ g with cost := cost } : Genset).fuelCost (clamp g₁.minProduction g₁.maxProduction q) := rfl
    unfold Genset.getCost Genset.getCo2Cost Genset.getCo2
    rw [f2, hs₁.co2, hs₁.cco2]
    have := mul_le_mul_of_nonneg_right c2 (mul_nonneg c1 hy)
    simp only [hs₁.co2] at *
    linarith
  · rw [st.done, st'.done]
  · refine info_ext (by rw [st.provided, st'.provided, e2, e3]) (by rw [st.absorbed, st'.absorbed]) ?_
    rw [st.extra, st'.extra, e2, e3]

theorem grid_follows {p : GridParams} {t t' : TS} {c : ℚ} (h : m.GridWF p t) (h' : m'.GridWF { p with costPerCo2 := c } t')
    (w' : t'.Works) (rows : List.Forall₂ (RowPrices P) t.rows t'.rows) (hfin : t'.finalStep = t.finalStep)
    (co2 : P → p.costPerCo2 ≤ c) (u : Tariff P m m') {a : Act} {n : Bool} {m₁ : Module} {o : StepOut}
    (he : m.step a n = (m₁, .ok o)) : Repays P m' a n m₁ o := by
  unfold Repays
  rw [h'.ts.step_eq, u.request]
  rw [h.ts.step_eq] at he
  cases hr : m.request a n with
  | error e => rw [hr] at he; simp at he
  | ok q =>
  rw [hr] at he
  simp only at he ⊢
  rcases h.ts.stepEnergy q with ⟨e, hs⟩ | ⟨v, pre, row, hv, -, -, ⟨f, -, -, obs, hs⟩ | ⟨e, -, hs⟩⟩
  · rw [hs] at he; simp at he
  swap
  · rw [hs] at he; simp at he
  rw [hs] at he
  simp only [Prod.mk.injEq, Except.ok.injEq] at he
  obtain ⟨rfl, rfl⟩ := he
  obtain ⟨hn, hsome⟩ := h.unnormalizedStep q
  rcases rows_get rows m.currentStep with ⟨r1, -⟩ | ⟨r, r', r1, r2, rp⟩
  · obtain ⟨e, hh⟩ := hn r1
    rw [hh] at hv; simp at hv
  rw [← u.currentStep] at r2
  obtain ⟨imp, exp, cc, st, rfl, hst, -, -, hcc⟩ := h.row r1
  obtain ⟨imp', exp', cc', st', rfl, hst', -⟩ := h'.row r2
  have q1 : cc' = cc := by simpa using rp.co2
  have q2 : st' = st := by simpa using rp.status
  subst q1 q2
  obtain ⟨hpos, hneg⟩ := hsome imp exp cc' st' r1
  obtain ⟨hpos', hneg'⟩ := (h'.unnormalizedStep q).2 imp' exp' cc' st' r2
  have hst0 : 0 ≤ st' := by rcases hst with rfl | rfl <;> norm_num
  have hI0 : 0 ≤ p.maxImport * st' := mul_nonneg h.imp hst0
  have hE0 : 0 ≤ p.maxExport * st' := mul_nonneg h.exp hst0
  have hdone : t'.done m'.currentStep = t.done m.currentStep := by unfold TS.done; rw [hfin, u.currentStep]
  have fin : ∀ {v' : UpdateOut}, m'.unnormalizedStep q = (m', .ok v') → (P → v'.reward ≤ v.reward) → v'.done = v.done →
      v'.info = v.info → ∃ m₁' o', m'.stepEnergy q = (m₁', .ok o') ∧
        Tariff P (m.moved t (m.logger.log row) (m.currentStep + 1) f) m₁' ∧ (P → o'.reward ≤ v.reward) ∧
        o'.done = v.done ∧ o'.info = v.info := by
    intro v' hv' x1 x2 x3
    obtain ⟨pre', row', f', obs', -, -, -, -, s⟩ := h'.ts.stepEnergy_ok hv' (by simp [h'.prov]) (by simp [h'.abs]) w'
    refine ⟨_, _, s, ⟨?_, u.ffc, u.raiseErrors, u.initialStep, ?_, u.actSpace⟩, x1, x2, x3⟩
    · simp only [Module.moved, h.kind, h'.kind, Kind.withTS]
      exact .grid _ _ _ _ rows hfin co2
    · simp only [Module.moved, u.currentStep]
  simp only [u.raiseErrors] at hpos' hneg'
  by_cases hq : 0 ≤ q
  · have k := hpos hq
    have k' := hpos' hq
    split at k
    · rw [k] at hv; simp at hv
    rename_i hno
    rw [if_neg hno] at k'
    rw [k] at hv
    simp only [Prod.mk.injEq, Except.ok.injEq, true_and] at hv
    refine fin k' ?_ ?_ ?_
    · intro hP
      rw [← hv]
      simp only
      have h0 : 0 ≤ min q (p.maxImport * st') := le_min hq hI0
      have i1 := mul_le_mul_of_nonneg_right (rp.buy hP imp imp' rfl rfl) h0
      have i2 := mul_le_mul_of_nonneg_right (co2 hP) (mul_nonneg h0 hcc)
      linarith
    · rw [← hv]; exact hdone
    · rw [← hv]
  · have hq' : q < 0 := not_le.mp hq
    have k := hneg hq'
    have k' := hneg' hq'
    split at k
    · rw [k] at hv; simp at hv
    rename_i hno
    rw [if_neg hno] at k'
    rw [k] at hv
    simp only [Prod.mk.injEq, Except.ok.injEq, true_and] at hv
    refine fin k' ?_ ?_ ?_
    · intro hP
      rw [← hv]
      simp only
      have h0 : 0 ≤ min (-q) (p.maxExport * st') := le_min (by linarith) hE0
      have i1 := mul_le_mul_of_nonneg_right (rp.sell hP exp exp' rfl rfl) h0
      linarith
    · rw [← hv]; exact hdone
    · rw [← hv]

theorem balancing_follows {v v' : Unbalanced} (h : m.BalWF v) (h' : m'.BalWF v') (loss : P → v.lossLoadCost ≤ v'.lossLoadCost)
    (over : P → v.overgenerationCost ≤ v'.overgenerationCost) (u : Tariff P m m') {a : Act} {n : Bool} {m₁ : Module}
    {o : StepOut} (he : m.step a n = (m₁, .ok o)) : Repays P m' a n m₁ o := by
  unfold Repays
  rw [h'.step_eq, u.request]
  rw [h.step_eq] at he
  cases hr : m.request a n with
  | error e => rw [hr] at he; simp at he
  | ok q =>
  rw [hr] at he
  simp only at he ⊢
  obtain ⟨row, -, s⟩ := h.stepEnergy q
  obtain ⟨row', -, s'⟩ := h'.stepEnergy q
  rw [s] at he
  simp only [Prod.mk.injEq, Except.ok.injEq] at he
  obtain ⟨rfl, rfl⟩ := he
  refine ⟨_, _, s', ⟨u.kind, u.ffc, u.raiseErrors, u.initialStep, by simp only [u.currentStep], u.actSpace⟩, ?_, rfl, rfl⟩
  intro hP
  simp only
  split
  · rename_i hq
    have := mul_le_mul_of_nonneg_right (loss hP) hq
    linarith
  · rename_i hq
    have := mul_le_mul_of_nonneg_right (over hP) (by linarith : 0 ≤ -q)
    linarith

/-- A successful step succeeds with other prices too. -/
theorem Tariff.step (u : Tariff P m m') (wf : m.WF) (wf' : m'.WF) {a : Act} {n : Bool} {m₁ : Module} {o : StepOut}
    (he : m.step a n = (m₁, .ok o)) : Repays P m' a n m₁ o := by
  have hw := u.kind
  generalize hk : m.kind = k at hw
  generalize hk' : m'.kind = k' at hw
  cases hw with
  | battery b c hc => exact battery_follows (WF.battery_inv wf hk) (WF.battery_inv wf' hk') hc u he
  | genset g cost c h1 h2 => exact genset_follows (WF.genset_inv wf hk) (WF.genset_inv wf' hk') h1 h2 u he
  | grid p t t' c h1 h2 h3 =>
    obtain ⟨h, -⟩ := WF.grid_inv wf hk
    obtain ⟨h', w'⟩ := WF.grid_inv wf' hk'
    exact grid_follows h h' w' h1 h2 h3 u he
  | balancing v v' h1 h2 => exact balancing_follows (WF.balancing_inv wf hk) (WF.balancing_inv wf' hk') h1 h2 u he

theorem Tariff.alike (u : Tariff P m m') : m'.ss = m.ss ∧ m'.finalStep? = m.finalStep? := by
  have hw := u.kind
  unfold Module.ss Module.isSource Module.isSink Module.finalStep?
  generalize m.kind = k at hw
  generalize m'.kind = k' at hw
  cases hw with
  | battery => exact ⟨rfl, rfl⟩
  | genset => exact ⟨rfl, rfl⟩
  | grid p t t' c h1 h2 h3 => simp [h2]
  | balancing => exact ⟨rfl, rfl⟩

theorem Tariff.withInitial (u : Tariff P m m') (v : Nat) : Tariff P { m with initialStep := v } { m' with initialStep := v } :=
  ⟨u.kind, u.ffc, u.raiseErrors, rfl, u.currentStep, u.actSpace⟩

theorem Tariff.setFinal (u : Tariff P m m') (v : Int) :
    Tariff P (Microgrid.setFinalOne m v).1 (Microgrid.setFinalOne m' v).1 ∧
      (Microgrid.setFinalOne m' v).2 = (Microgrid.setFinalOne m v).2 := by
  have hw := u.kind
  generalize hk : m.kind = k at hw
  generalize hk' : m'.kind = k' at hw
  cases hw with
  | battery => unfold Microgrid.setFinalOne; rw [hk, hk']; exact ⟨u, rfl⟩
  | genset => unfold Microgrid.setFinalOne; rw [hk, hk']; exact ⟨u, rfl⟩
  | balancing => unfold Microgrid.setFinalOne; rw [hk, hk']; exact ⟨u, rfl⟩
  | grid p t t' c h1 h2 h3 =>
    have key : ∀ {m : Module} {p : GridParams} {t : TS}, m.kind = .grid p t → Microgrid.setFinalOne m v =
        ({ m with kind := .grid p (t.setFinalStep m.initialStep v).1 },
          (t.setFinalStep m.initialStep v).2.map fun _ => true) := by
      intro m p t hk
      unfold Microgrid.setFinalOne
      rw [hk]
      simp only
      cases hs : t.setFinalStep m.initialStep v with
      | mk t' r => cases r <;> rfl
    rw [key hk, key hk']
    refine ⟨⟨.grid _ _ _ _ h1 ?_ h3, u.ffc, u.raiseErrors, u.initialStep, u.currentStep, u.actSpace⟩, ?_⟩
    · simp only [TS.setFinalStep, h1.length_eq]
    · rw [u.initialStep]
      simp only [TS.setFinalStep, h1.length_eq]

theorem Tariff.reset (u : Tariff P m m') (wf : m.WF) (wf' : m'.WF) :
    Tariff P m.reset.1 m'.reset.1 ∧ m'.reset.2.isOk = m.reset.2.isOk := by
  have hw := u.kind
  generalize hk : m.kind = k at hw
  generalize hk' : m'.kind = k' at hw
  cases hw with
  | battery b c hc =>
    obtain ⟨m₁, obs, h1, h2, h3, h4, h5, h6, -⟩ := (WF.battery_inv wf hk).reset
    obtain ⟨m₁', obs', h1', h2', h3', h4', h5', h6', -⟩ := (WF.battery_inv wf' hk').reset
    rw [h1, h1']
    refine ⟨⟨?_, h2'.ffc.trans h2.ffc.symm, by rw [h5, h5', u.raiseErrors], by rw [h4, h4', u.initialStep],
      by rw [h3, h3', u.initialStep], by rw [h6, h6', u.actSpace]⟩, rfl⟩
    rw [h2.kind, h2'.kind]; exact .battery _ _ hc
  | genset g cost c hc hc' =>
    obtain ⟨m₁, obs, h1, h2, h3, h4, h5, h6, -⟩ := (WF.genset_inv wf hk).reset
    obtain ⟨m₁', obs', h1', h2', h3', h4', h5', h6', -⟩ := (WF.genset_inv wf' hk').reset
    rw [h1, h1']
    refine ⟨⟨?_, h2'.ffc.trans h2.ffc.symm, by rw [h5, h5', u.raiseErrors], by rw [h4, h4', u.initialStep],
      by rw [h3, h3', u.initialStep], by rw [h6, h6', u.actSpace]⟩, rfl⟩
    rw [h2.kind, h2'.kind]; exact .genset _ _ _ hc hc'
  | balancing v v' h1 h2 =>
    rw [(WF.balancing_inv wf hk).reset, (WF.balancing_inv wf' hk').reset]
    exact ⟨⟨u.kind, u.ffc, u.raiseErrors, u.initialStep, u.initialStep, u.actSpace⟩, rfl⟩
  | grid p t t' c h1 h2 h3 =>
    obtain ⟨r, w⟩ := WF.grid_inv wf hk
    obtain ⟨r', w'⟩ := WF.grid_inv wf' hk'
    obtain ⟨f, hf⟩ := r.ts.valid.forecast_ok w m.initialStep
    obtain ⟨f', hf'⟩ := r'.ts.valid.forecast_ok w' m'.initialStep
    rcases r.ts.reset with ⟨g, obs, -, -, e⟩ | ⟨e, he, -⟩
    swap
    · rw [hf] at he; simp at he
    rcases r'.ts.reset with ⟨g', obs', -, -, e'⟩ | ⟨e, he, -⟩
    swap
    · rw [hf'] at he; simp at he
    rw [e, e']
    refine ⟨⟨?_, u.ffc, u.raiseErrors, u.initialStep, u.initialStep, u.actSpace⟩, rfl⟩
    simp only [Module.moved, hk, hk', Kind.withTS]
    exact .grid _ _ _ _ h1 h2 h3

/-- The limits do not depend on the prices. -/
theorem Tariff.amounts (u : Tariff P m m') (wf : m.WF) (wf' : m'.WF) (hl : m.Live) (x : ℚ) :
    sinkAmount m' x = sinkAmount m x ∧ sourceAmount m' x = sourceAmount m x := by
  have hw := u.kind
  generalize hk : m.kind = k at hw
  generalize hk' : m'.kind = k' at hw
  have hs : m'.gridStatus = m.gridStatus ∨ ∀ p t, m.kind ≠ .grid p t := by
    cases hw with
    | grid p t t' c h1 h2 h3 =>
      obtain ⟨r, w⟩ := WF.grid_inv wf hk
      obtain ⟨r', w'⟩ := WF.grid_inv wf' hk'
      have hlt := hl t (by simp [series?, hk])
      rcases rows_get h1 m.currentStep with ⟨r1, -⟩ | ⟨row, row', r1, r2, rp⟩
      · rw [List.getElem?_eq_none_iff] at r1; omega
      rw [← u.currentStep] at r2
      obtain ⟨imp, exp, cc, st, rfl, -⟩ := r.row r1
      obtain ⟨imp', exp', cc', st', rfl, -⟩ := r'.row r2
      have q2 : st' = st := by simpa using rp.status
      subst q2
      exact .inl ((r'.gridStatus r2).trans (r.gridStatus r1).symm)
    | battery => exact .inr (by simp [hk])
    | genset => exact .inr (by simp [hk])
    | balancing => exact .inr (by simp [hk])
  unfold sinkAmount sourceAmount Module.isSink Module.isSource Module.maxProduction Module.maxConsumption
  rw [hk, hk']
  cases hw with
  | battery b c hc => exact ⟨rfl, rfl⟩
  | genset g cost c hc hc' => exact ⟨rfl, rfl⟩
  | balancing => exact ⟨rfl, rfl⟩
  | grid p t t' c h1 h2 h3 =>
    rcases hs with hs | hs
    · simp only [hs, and_self]
    · exact absurd hk (hs _ _)

end

/-! ### The loops of `run` -/

/-- `m'` is `m` but for the log, or `m` with other prices. -/
structure TarMod (P : Prop) (m m' : Module) : Prop where
  wf : m.WF
  wf' : m'.WF
  either : LogEq m m' ∨ Tariff P m m'

section
variable {P : Prop} {m m' : Module}

theorem TarMod.step (h : TarMod P m m') {a : Act} {n : Bool} {m₁ : Module} {o : StepOut} (he : m.step a n = (m₁, .ok o)) :
    ∃ m₁' o', m'.step a n = (m₁', .ok o') ∧ TarMod P m₁ m₁' ∧ (P → o'.reward ≤ o.reward) ∧ o'.done = o.done ∧
      o'.info = o.info := by
  have hw := h.wf.step a n
  have hw' := h.wf'.step a n
  rcases h.either with e | u
  · obtain ⟨h1, h2⟩ := (step_logFree a n).rel e
    cases q' : m'.step a n with
    | mk m₁' r' =>
    rw [he] at h1 h2 hw
    rw [q'] at h1 h2 hw'
    simp only at h1 h2
    subst h2
    exact ⟨_, _, rfl, ⟨hw, hw', .inl h1⟩, fun _ => le_rfl, rfl, rfl⟩
  · obtain ⟨m₁', o', q', u', r⟩ := u.step h.wf h.wf' he
    rw [he] at hw
    rw [q'] at hw'
    exact ⟨m₁', o', q', ⟨hw, hw', .inr u'⟩, r⟩

theorem TarMod.withInitial (h : TarMod P m m') (v : Nat) :
    TarMod P { m with initialStep := v } { m' with initialStep := v } := by
  refine ⟨h.wf.withInitial v, h.wf'.withInitial v, ?_⟩
  rcases h.either with ⟨L, rfl⟩ | u
  · exact .inl ⟨L, rfl⟩
  · exact .inr (u.withInitial v)

theorem TarMod.setFinal (h : TarMod P m m') (v : Int) :
    TarMod P (Microgrid.setFinalOne m v).1 (Microgrid.setFinalOne m' v).1 ∧
      (Microgrid.setFinalOne m' v).2 = (Microgrid.setFinalOne m v).2 := by
  rcases h.either with e | u
  · obtain ⟨e1, e2⟩ := (setFinal_logFree v).rel e
    exact ⟨⟨h.wf.setFinal v, h.wf'.setFinal v, .inl e1⟩, e2⟩
  · obtain ⟨e1, e2⟩ := u.setFinal v
    exact ⟨⟨h.wf.setFinal v, h.wf'.setFinal v, .inr e1⟩, e2⟩

theorem TarMod.reset (h : TarMod P m m') : TarMod P m.reset.1 m'.reset.1 ∧ m'.reset.2.isOk = m.reset.2.isOk := by
  rcases h.either with e | u
  · obtain ⟨e1, e2⟩ := reset_logFree.rel e
    exact ⟨⟨h.wf.reset, h.wf'.reset, .inl e1⟩, by rw [e2]⟩
  · obtain ⟨e1, e2⟩ := u.reset h.wf h.wf'
    exact ⟨⟨h.wf.reset, h.wf'.reset, .inr e1⟩, e2⟩

theorem TarMod.amounts (h : TarMod P m m') (hl : m.Live) (x : ℚ) :
    sinkAmount m' x = sinkAmount m x ∧ sourceAmount m' x = sourceAmount m x := by
  rcases h.either with ⟨L, rfl⟩ | u
  · exact ⟨rfl, rfl⟩
  · exact u.amounts h.wf h.wf' hl x

theorem TarMod.alike (h : TarMod P m m') :
    m'.ffc = m.ffc ∧ m'.ss = m.ss ∧ m'.initialStep = m.initialStep ∧ m'.finalStep? = m.finalStep? := by
  rcases h.either with ⟨L, rfl⟩ | u
  · exact ⟨rfl, rfl, rfl, rfl⟩
  · exact ⟨u.ffc, u.alike.1, u.initialStep, u.alike.2⟩

end

/-- The modules `ids` of the two heaps. -/
def Tar (P : Prop) (ids : List Nat) (h h' : Heap) : Prop := ∀ i ∈ ids, TarMod P (h i) (h' i)

/-- The second step has collected the same, but maybe less reward. -/
structure AccTar (P : Prop) (a a' : StepAcc) : Prop where
  reward : P → a'.reward ≤ a.reward
  done : a'.done = a.done
  provided : a'.provided = a.provided
  absorbed : a'.absorbed = a.absorbed
  infos : a'.infos = a.infos

section
variable {P : Prop} {ids : List Nat} {h h' : Heap}

theorem AccTar.append {a a' : StepAcc} (e : AccTar P a a') (name : String) {o o' : StepOut} (h1 : P → o'.reward ≤ o.reward)
    (h2 : o'.done = o.done) (h3 : o'.info = o.info) : AccTar P (a.append name o) (a'.append name o') := by
  obtain ⟨e1, e2, e3, e4, e5⟩ := e
  constructor
  · intro hP
    simp only [StepAcc.append]
    exact add_le_add (e1 hP) (h1 hP)
  · simp only [StepAcc.append, e2, h2]
  · simp only [StepAcc.append, e3, h3]
  · simp only [StepAcc.append, e4, h3]
  · simp only [StepAcc.append, e5, h3]

theorem Tar.set (t : Tar P ids h h') (i : Nat) {m m' : Module} (hm : TarMod P m m') : Tar P ids (h.set i m) (h'.set i m') := by
  intro j hj
  unfold Heap.set
  split
  · exact hm
  · exact t j hj

/-- The second loop succeeded in the same way. -/
def TarRun (P : Prop) (ids : List Nat) (s s' : RunSt) : Prop := Tar P ids s.heap s'.heap ∧ AccTar P s.acc s'.acc

theorem Tar.stepOne (t : Tar P ids h h') {i : Nat} (hi : i ∈ ids) {acc acc' : StepAcc} (e : AccTar P acc acc') {name : String}
    {a : Act} {n : Bool} {s : RunSt} (hs : RunSt.stepOne ⟨h, acc⟩ name i a n = (s, .ok ())) :
    (h i).Live ∧ ∃ s', RunSt.stepOne ⟨h', acc'⟩ name i a n = (s', .ok ()) ∧ TarRun P ids s s' := by
  unfold RunSt.stepOne at *
  simp only at *
  cases q : (h i).step a n with
  | mk m r =>
  rw [q] at hs
  cases r with
  | error e' => simp at hs
  | ok o =>
    simp only [Prod.mk.injEq, and_true] at hs
    subst hs
    obtain ⟨m', o', q', tm, r1, r2, r3⟩ := (t i hi).step q
    rw [q']
    exact ⟨(t i hi).wf.live_of_step q, _, rfl, t.set i tm, e.append name r1 r2 r3⟩

theorem Tar.stepMany {l : List (String × Nat × Act)} (hl : ∀ x ∈ l, x.2.1 ∈ ids) (n : Bool) :
    ∀ {h h' : Heap} (_ : Tar P ids h h') {acc acc' : StepAcc} (_ : AccTar P acc acc') {s : RunSt},
      RunSt.stepMany l n ⟨h, acc⟩ = (s, .ok ()) → ∃ s', RunSt.stepMany l n ⟨h', acc'⟩ = (s', .ok ()) ∧ TarRun P ids s s' := by
  induction l with
  | nil =>
    intro h h' t acc acc' e s hs
    simp only [RunSt.stepMany, Prod.mk.injEq, and_true] at hs ⊢
    subst hs
    exact ⟨_, rfl, t, e⟩
  | cons x l ih =>
    intro h h' t acc acc' e s hs
    obtain ⟨name, i, a⟩ := x
    have hi := hl (name, i, a) (by simp)
    simp only [RunSt.stepMany] at hs ⊢
    cases h1 : RunSt.stepOne ⟨h, acc⟩ name i a n with
    | mk s₁ r =>
    rw [h1] at hs
    cases r with
    | error e => simp at hs
    | ok u =>
      obtain ⟨-, s₁', h2, t', e'⟩ := t.stepOne hi e h1
      rw [h2]
      exact ih (fun x hx => hl x (by simp [hx])) t' e' hs

theorem Tar.stepControls (control : List (String × Ctrl)) (n : Bool) {d : ModDict} (hd : ∀ x ∈ d, ∀ i ∈ x.2, i ∈ ids) :
    ∀ {h h' : Heap} (_ : Tar P ids h h') {acc acc' : StepAcc} (_ : AccTar P acc acc') {s : RunSt},
      RunSt.stepControls control n d ⟨h, acc⟩ = (s, .ok ()) →
      ∃ s', RunSt.stepControls control n d ⟨h', acc'⟩ = (s', .ok ()) ∧ TarRun P ids s s' := by
  induction d with
  | nil =>
    intro h h' t acc acc' e s hs
    simp only [RunSt.stepControls, Prod.mk.injEq, and_true] at hs ⊢
    subst hs
    exact ⟨_, rfl, t, e⟩
  | cons x d ih =>
    intro h h' t acc acc' e s hs
    obtain ⟨name, is⟩ := x
    simp only [RunSt.stepControls] at hs ⊢
    cases hc : dictGet? control name with
    | none => rw [hc] at hs; simp at hs
    | some c =>
      rw [hc] at hs
      simp only at hs ⊢
      cases h1 : RunSt.stepMany ((is.zip c.acts).map fun ia => (name, ia.1, ia.2)) n ⟨h, acc⟩ with
      | mk s₁ r =>
      rw [h1] at hs
      cases r with
      | error e => simp at hs
      | ok u =>
        simp only at hs
        obtain ⟨s₁', h2, t', e'⟩ := Tar.stepMany (P := P) (ids := ids) (by
          intro x hx
          obtain ⟨ia, hia, rfl⟩ := List.mem_map.mp hx
          exact hd (name, is) (by simp) _ (List.of_mem_zip hia).1) n t e h1
        rw [h2]
        exact ih (fun x hx => hd x (by simp [hx])) t' e' hs

theorem Tar.absorbExcess {l : List (String × Nat)} (hl : ∀ x ∈ l, x.2 ∈ ids) :
    ∀ {h h' : Heap} (_ : Tar P ids h h') {acc acc' : StepAcc} (_ : AccTar P acc acc') (x : ℚ) {s : RunSt},
      RunSt.absorbExcess l x ⟨h, acc⟩ = (s, .ok ()) →
      ∃ s', RunSt.absorbExcess l x ⟨h', acc'⟩ = (s', .ok ()) ∧ TarRun P ids s s' := by
  induction l with
  | nil =>
    intro h h' t acc acc' e x s hs
    simp only [RunSt.absorbExcess, Prod.mk.injEq, and_true] at hs ⊢
    subst hs
    exact ⟨_, rfl, t, e⟩
  | cons y l ih =>
    intro h h' t acc acc' e x s hs
    obtain ⟨name, i⟩ := y
    have hi := hl (name, i) (by simp)
    simp only [RunSt.absorbExcess] at hs ⊢
    cases hamt : sinkAmount (h i) x with
    | error er => rw [hamt] at hs; simp at hs
    | ok amt =>
      rw [hamt] at hs
      simp only at hs
      cases h1 : RunSt.stepOne ⟨h, acc⟩ name i (.num (-1 * amt)) false with
      | mk s₁ r =>
      rw [h1] at hs
      cases r with
      | error e => simp at hs
      | ok u =>
        obtain ⟨lv, s₁', h2, t', e'⟩ := t.stepOne hi e h1
        rw [((t i hi).amounts lv x).1, hamt]
        simp only
        rw [h2]
        exact ih (fun x hx => hl x (by simp [hx])) t' e' _ hs

theorem Tar.coverNeed {l : List (String × Nat)} (hl : ∀ x ∈ l, x.2 ∈ ids) :
    ∀ {h h' : Heap} (_ : Tar P ids h h') {acc acc' : StepAcc} (_ : AccTar P acc acc') (x : ℚ) {s : RunSt},
      RunSt.coverNeed l x ⟨h, acc⟩ = (s, .ok ()) →
      ∃ s', RunSt.coverNeed l x ⟨h', acc'⟩ = (s', .ok ()) ∧ TarRun P ids s s' := by
  induction l with
  | nil =>
    intro h h' t acc acc' e x s hs
    simp only [RunSt.coverNeed, Prod.mk.injEq, and_true] at hs ⊢
    subst hs
    exact ⟨_, rfl, t, e⟩
  | cons y l ih =>
    intro h h' t acc acc' e x s hs
    obtain ⟨name, i⟩ := y
    have hi := hl (name, i) (by simp)
    simp only [RunSt.coverNeed] at hs ⊢
    cases hamt : sourceAmount (h i) x with
    | error er => rw [hamt] at hs; simp at hs
    | ok amt =>
      rw [hamt] at hs
      simp only at hs
      cases h1 : RunSt.stepOne ⟨h, acc⟩ name i (.num amt) false with
      | mk s₁ r =>
      rw [h1] at hs
      cases r with
      | error e => simp at hs
      | ok u =>
        obtain ⟨lv, s₁', h2, t', e'⟩ := t.stepOne hi e h1
        rw [((t i hi).amounts lv x).2, hamt]
        simp only
        rw [h2]
        exact ih (fun x hx => hl x (by simp [hx])) t' e' _ hs

theorem Tar.resetMany {l : List Nat} (hl : ∀ i ∈ l, i ∈ ids) : ∀ {h h' : Heap} (_ : Tar P ids h h'),
    Tar P ids (Microgrid.resetMany h l).1 (Microgrid.resetMany h' l).1 ∧
      (Microgrid.resetMany h' l).2.isOk = (Microgrid.resetMany h l).2.isOk := by
  induction l with
  | nil => intro h h' t; exact ⟨t, rfl⟩
  | cons i l ih =>
    intro h h' t
    have hi := hl i (by simp)
    obtain ⟨h1, h2⟩ := (t i hi).reset
    simp only [Microgrid.resetMany]
    cases hs : (h i).reset with
    | mk m r =>
    cases hs' : (h' i).reset with
    | mk m' r' =>
    rw [hs, hs'] at h1 h2
    simp only at h1 h2
    cases r <;> cases r' <;> simp only [Except.isOk, Except.toBool, reduceCtorEq] at h2
    · exact ⟨t.set i h1, rfl⟩
    · exact ih (fun j hj => hl j (by simp [hj])) (t.set i h1)

theorem Tar.setInitial (v : Nat) {l : List Nat} (hl : ∀ i ∈ l, i ∈ ids) : ∀ {h h' : Heap} (_ : Tar P ids h h'),
    Tar P ids (Microgrid.setInitialMany h v l) (Microgrid.setInitialMany h' v l) := by
  induction l with
  | nil => intro h h' t; exact t
  | cons i l ih =>
    intro h h' t
    have hi := hl i (by simp)
    simp only [Microgrid.setInitialMany]
    exact ih (fun j hj => hl j (by simp [hj])) (t.set i ((t i hi).withInitial v))

theorem Tar.setFinal (v : Int) {l : List Nat} (hl : ∀ i ∈ l, i ∈ ids) : ∀ {h h' : Heap} (_ : Tar P ids h h')
    (any : Bool), Tar P ids (Microgrid.setFinalMany h v any l).1 (Microgrid.setFinalMany h' v any l).1 ∧
      (Microgrid.setFinalMany h' v any l).2 = (Microgrid.setFinalMany h v any l).2 := by
  induction l with
  | nil => intro h h' t any; exact ⟨t, rfl⟩
  | cons i l ih =>
    intro h h' t any
    have hi := hl i (by simp)
    obtain ⟨h1, h2⟩ := (t i hi).setFinal v
    simp only [Microgrid.setFinalMany]
    cases hs : Microgrid.setFinalOne (h i) v with
    | mk m r =>
    cases hs' : Microgrid.setFinalOne (h' i) v with
    | mk m' r' =>
    rw [hs, hs'] at h1 h2
    simp only at h1 h2
    subst h2
    cases r' with
    | error e => exact ⟨t.set i h1, rfl⟩
    | ok b => exact ih (fun j hj => hl j (by simp [hj])) (t.set i h1) _

end

/-! ### Microgrids -/

/-- Two microgrids, the second with other prices. -/
structure TarGrid (P : Prop) (g g' : Microgrid) : Prop where
  heap : Tar P g.cont.fullList g.heap g'.heap
  cont : g'.cont = g.cont
  initialStep : g'.initialStep = g.initialStep
  finalStep : g'.finalStep = g.finalStep
  shaper : g'.shaper = g.shaper
  free : PriceFree g.shaper
  trajectory : g'.trajectory = g.trajectory
  calls : g'.calls = g.calls

section
variable {P : Prop} {g g' : Microgrid}

theorem AccTar.shaped {a a' : StepAcc} (e : AccTar P a a') {sh : Option Shaper} (hs : PriceFree sh) (ci ci' : CostInfo) {r : ℚ}
    (h : a.shapedReward sh ci = .ok r) : ∃ r', a'.shapedReward sh ci' = .ok r' ∧ (P → r' ≤ r) := by
  cases sh with
  | none =>
    simp only [StepAcc.shapedReward, Except.ok.injEq] at h
    subst h
    exact ⟨_, rfl, e.reward⟩
  | some f =>
    simp only [StepAcc.shapedReward] at h ⊢
    rw [e.infos, hs f rfl _ ci' ci]
    exact ⟨r, h, fun _ => le_rfl⟩

theorem AccTar.balance {a a' : StepAcc} (e : AccTar P a a') {sh : Option Shaper} (hs : PriceFree sh) (ci ci' : CostInfo)
    {p q v w : ℚ} (h : a.balance sh ci = .ok (p, q, v, w)) : ∃ v' w', a'.balance sh ci' = .ok (p, q, v', w') := by
  unfold StepAcc.balance at *
  cases hr : a.shapedReward sh ci with
  | error e => rw [hr] at h; simp at h
  | ok r =>
    rw [hr] at h
    simp only [Except.ok.injEq, Prod.mk.injEq] at h
    obtain ⟨r', hr', -⟩ := e.shaped hs ci ci' hr
    rw [hr', e.provided, e.absorbed, h.1, h.2.1]
    exact ⟨_, _, rfl⟩

theorem TarGrid.run (t : TarGrid P g g') {control : List (String × Ctrl)} {n : Bool} {g₁ : Microgrid} {o : RunOut}
    (hr : g.run control n = (g₁, .ok o)) :
    ∃ g₁' o', g'.run control n = (g₁', .ok o') ∧ TarGrid P g₁ g₁' ∧ NoBetter P (some o) (some o') := by
  obtain ⟨h, c, i₀, f₀, sh, tr, ca, bl, ol⟩ := g
  obtain ⟨h', c', i', f', sh', tr', ca', bl', ol'⟩ := g'
  obtain ⟨th, q1, q2, q3, q4, free, q6, q7⟩ := t
  simp only at th q1 q2 q3 q4 q6 q7 free
  subst q1 q2 q3 q4 q6 q7
  have withHeap : ∀ {h h' : Heap} {L L' : Logger}, Tar P c'.fullList h h' →
      TarGrid P ⟨h, c', i', f', sh', tr', ca', L, ol⟩ ⟨h', c', i', f', sh', tr', ca', L', ol'⟩ := fun th =>
    ⟨th, rfl, rfl, rfl, rfl, free, rfl, rfl⟩
  obtain ⟨ci', hci⟩ := costInfo_ok (h := h') (d := c'.fullDict) fun x hx i hi =>
    (th i (Container.full_fullList (toTuples_mem hx hi))).wf'
  unfold Microgrid.run at hr ⊢
  simp only [hci] at hr ⊢
  cases hcost : costInfo h c'.fullDict with
  | error e => rw [hcost] at hr; simp at hr
  | ok ci =>
  rw [hcost] at hr
  simp only at hr ⊢
  have hfix : (⟨h', c', i', f', sh', tr', ca', bl', ol'⟩ : Microgrid).fixedSteps =
    (⟨h, c', i', f', sh', tr', ca', bl, ol⟩ : Microgrid).fixedSteps := rfl
  rw [hfix]
  generalize hfs : (⟨h, c', i', f', sh', tr', ca', bl, ol⟩ : Microgrid).fixedSteps = fs at hr ⊢
  cases e1 : RunSt.stepMany fs false ⟨h, {}⟩ with
  | mk s r =>
  rw [e1] at hr
  cases r with
  | error e => simp at hr
  | ok u =>
  obtain ⟨s', e1', t₁, a₁⟩ := Tar.stepMany (P := P) (l := fs) (ids := c'.fullList) (by
    intro x hx
    rw [← hfs] at hx
    obtain ⟨ni, hni, rfl⟩ := List.mem_map.mp hx
    exact Container.level_fullList hni) false th
    (acc := {}) (acc' := {}) ⟨fun _ => le_rfl, rfl, rfl, rfl, rfl⟩ e1
  simp only [e1'] at hr ⊢
  cases b1 : s.acc.balance sh' ci with
  | error e => rw [b1] at hr; simp at hr
  | ok v =>
  obtain ⟨fp, fc, v₁, v₂⟩ := v
  obtain ⟨v₁', v₂', b1'⟩ := a₁.balance free ci ci' b1
  rw [b1] at hr
  rw [b1']
  simp only at hr ⊢
  cases e2 : RunSt.stepControls control n (c'.levelDict .controllable) s with
  | mk s₂ r =>
  rw [e2] at hr
  cases r with
  | error e => simp at hr
  | ok u =>
  obtain ⟨hs, as⟩ := s
  obtain ⟨hs', as'⟩ := s'
  obtain ⟨s₂', e2', t₂, a₂⟩ := Tar.stepControls (P := P) (d := c'.levelDict .controllable) (ids := c'.fullList) control n
    (fun x hx i hi => Container.level_fullList (toTuples_mem hx hi)) t₁ a₁ e2
  rw [e2']
  simp only at hr ⊢
  cases b2 : s₂.acc.balance sh' ci with
  | error e => rw [b2] at hr; simp at hr
  | ok v =>
  obtain ⟨p, q, v₃, v₄⟩ := v
  obtain ⟨v₃', v₄', b2'⟩ := a₂.balance free ci ci' b2
  rw [b2] at hr
  rw [b2']
  simp only at hr ⊢
  obtain ⟨h₂, b₂⟩ := s₂
  obtain ⟨h₂', b₂'⟩ := s₂'
  simp only at t₂ a₂
  have hmem : ∀ x ∈ Container.toTuples (c'.levelDict .flex), x.2 ∈ c'.fullList := fun x hx => Container.level_fullList hx
  cases e3 : Microgrid.dispatch ⟨h, c', i', f', sh', tr', ca', bl, ol⟩ (p - q) ⟨h₂, b₂⟩ with
  | mk s₃ r =>
  rw [e3] at hr
  cases r with
  | error e => simp at hr
  | ok u =>
  have s3 : ∃ s₃', Microgrid.dispatch ⟨h', c', i', f', sh', tr', ca', bl', ol'⟩ (p - q) ⟨h₂', b₂'⟩ = (s₃', .ok ()) ∧
      TarRun P c'.fullList s₃ s₃' := by
    unfold Microgrid.dispatch Microgrid.flexList at e3 ⊢
    simp only at e3 ⊢
    split at e3
    · rename_i hpos
      rw [if_pos hpos]
      exact Tar.absorbExcess hmem t₂ a₂ _ e3
    · rename_i hpos
      rw [if_neg hpos]
      exact Tar.coverNeed hmem t₂ a₂ _ e3
  obtain ⟨s₃', e3', t₃, a₃⟩ := s3
  rw [e3']
  simp only at hr ⊢
  unfold Microgrid.finish at hr ⊢
  simp only at hr ⊢
  cases b3 : s₃.acc.balance sh' ci with
  | error e => rw [b3] at hr; simp at hr
  | ok v =>
  obtain ⟨w1, w2, w3, w4⟩ := v
  obtain ⟨w3', w4', b3'⟩ := a₃.balance free ci ci' b3
  rw [b3] at hr
  rw [b3']
  simp only at hr ⊢
  split at hr
  · simp at hr
  rename_i hclose
  rw [if_neg hclose]
  cases b4 : s₃.acc.shapedReward sh' ci with
  | error e => rw [b4] at hr; simp at hr
  | ok rw' =>
  obtain ⟨rw'', b4', hle⟩ := a₃.shaped free ci ci' b4
  rw [b4] at hr
  rw [b4']
  simp only [Prod.mk.injEq, Except.ok.injEq] at hr ⊢
  obtain ⟨rfl, rfl⟩ := hr
  exact ⟨_, _, ⟨rfl, rfl⟩, withHeap t₃, hle, a₃.done, a₃.infos⟩

theorem TarGrid.setTrajectory (t : TarGrid P g g') :
    TarGrid P g.setTrajectory.1 g'.setTrajectory.1 ∧ g'.setTrajectory.2 = g.setTrajectory.2 := by
  obtain ⟨h, c, i₀, f₀, sh, tr, ca, bl, ol⟩ := g
  obtain ⟨h', c', i', f', sh', tr', ca', bl', ol'⟩ := g'
  obtain ⟨th, q1, q2, q3, q4, free, q6, q7⟩ := t
  simp only at th q1 q2 q3 q4 free q6 q7
  subst q1 q2 q3 q4 q6 q7
  unfold Microgrid.setTrajectory
  cases tr' with
  | none => exact ⟨⟨th, rfl, rfl, rfl, rfl, free, rfl, rfl⟩, rfl⟩
  | some f =>
    simp only
    cases f ca' i' f' with
    | error e => exact ⟨⟨th, rfl, rfl, rfl, rfl, free, rfl, rfl⟩, rfl⟩
    | ok x =>
      obtain ⟨i, fin⟩ := x
      simp only
      have s1 := Tar.setInitial i (l := c'.fullList) (fun _ h => h) th
      obtain ⟨s2, s3⟩ := Tar.setFinal fin (l := c'.fullList) (fun _ h => h) s1 false
      exact ⟨⟨s2, rfl, rfl, rfl, rfl, free, rfl, rfl⟩, s3⟩

theorem TarGrid.reset (t : TarGrid P g g') :
    TarGrid P g.reset.1 g'.reset.1 ∧ g'.reset.2.isOk = g.reset.2.isOk := by
  obtain ⟨t₁, e⟩ := t.setTrajectory
  have hcont : g.setTrajectory.1.cont = g.cont := by
    unfold Microgrid.setTrajectory
    repeat' split
    all_goals rfl
  unfold Microgrid.reset
  cases h1 : g.setTrajectory with
  | mk g₁ r =>
  cases h1' : g'.setTrajectory with
  | mk g₁' r' =>
  rw [h1, h1'] at t₁ e
  rw [h1] at hcont
  simp only at t₁ e hcont
  subst e
  cases r' with
  | error e => exact ⟨t₁, rfl⟩
  | ok u =>
    simp only
    rw [t.cont]
    obtain ⟨s1, s2⟩ := Tar.resetMany (P := P) (l := (Container.toTuples g.cont.fullDict).map Prod.snd)
      (ids := g₁.cont.fullList) (by
        intro i hi
        obtain ⟨ni, hni, rfl⟩ := List.mem_map.mp hi
        rw [hcont]
        exact Container.full_fullList hni) t₁.heap
    cases h2 : Microgrid.resetMany g₁.heap ((Container.toTuples g.cont.fullDict).map Prod.snd) with
    | mk hh r =>
    cases h2' : Microgrid.resetMany g₁'.heap ((Container.toTuples g.cont.fullDict).map Prod.snd) with
    | mk hh' r' =>
    rw [h2, h2'] at s1 s2
    rcases isOk_unit s2 with ⟨rfl, rfl⟩ | ⟨x1, x2, rfl, rfl⟩
    · exact ⟨⟨s1, t₁.cont, t₁.initialStep, t₁.finalStep, t₁.shaper, t₁.free, t₁.trajectory, t₁.calls⟩, rfl⟩
    · exact ⟨⟨s1, t₁.cont, t₁.initialStep, t₁.finalStep, t₁.shaper, t₁.free, t₁.trajectory, t₁.calls⟩, rfl⟩

theorem TarGrid.transcript {ops : List GOp} {os : List (Option RunOut)} {g₁ : Microgrid} (h : Transcript g ops os g₁) :
    ∀ {g' : Microgrid}, TarGrid P g g' → ∃ os' g₁', Transcript g' ops os' g₁' ∧ List.Forall₂ (NoBetter P) os os' ∧
      TarGrid P g₁ g₁' := by
  induction h with
  | nil g => intro g' t; exact ⟨[], g', .nil _, .nil, t⟩
  | run hr _ ih =>
    intro g' t
    obtain ⟨g₁', o', h1, t', e⟩ := t.run hr
    obtain ⟨os', g₂, h2, h4, h5⟩ := ih t'
    exact ⟨some o' :: os', g₂, .run h1 h2, .cons e h4, h5⟩
  | reset hr _ ih =>
    intro g' t
    obtain ⟨t', e⟩ := t.reset
    rw [hr] at t' e
    cases hr' : g'.reset with
    | mk g₁' r' =>
    rw [hr'] at t' e
    rcases isOk_unit e with ⟨-, rfl⟩ | ⟨x, y, e1, -⟩
    swap
    · simp at e1
    obtain ⟨os', g₂, h2, h4, h5⟩ := ih t'
    exact ⟨none :: os', g₂, .reset hr' h2, .cons trivial h4, h5⟩

/-! ### Building the two microgrids -/

theorem create_tariff {h h' : Heap} {mods : List (String × Nat)}
    (t : ∀ nm ∈ mods, TarMod P (h nm.2) (h' nm.2)) {sh : Option Shaper} (free : PriceFree sh)
    {tr : Option (Nat → Nat → Option Nat → Except Err (Nat × Nat))} {g : Microgrid}
    (hc : Microgrid.create h mods sh tr = .ok g) :
    ∃ g', Microgrid.create h' mods sh tr = .ok g' ∧ TarGrid P g g' := by
  have hb : Container.build h' mods = Container.build h mods :=
    Container.build_congr fun nm hn => ⟨(t nm hn).alike.1, (t nm hn).alike.2.1⟩
  have full : Tar P (Container.build h mods).fullList h h' := by
    intro i hi
    obtain ⟨nm, hm, rfl⟩ := List.mem_map.mp ((Container.fullList_perm h mods).mem_iff.mp hi)
    exact t nm hm
  have check : ∀ (i0 : Nat) (f0 : Option Nat),
      Microgrid.checkTrajectory { heap := h, cont := Container.build h mods, initialStep := i0, finalStep := f0, shaper := sh } tr = .ok g →
      ∃ g', Microgrid.checkTrajectory { heap := h', cont := Container.build h mods, initialStep := i0, finalStep := f0, shaper := sh } tr = .ok g' ∧
        TarGrid P g g' := by
    intro i0 f0 hg
    unfold Microgrid.checkTrajectory at *
    cases tr with
    | none =>
      simp only [Except.ok.injEq] at hg ⊢
      subst hg
      exact ⟨_, rfl, full, rfl, rfl, rfl, rfl, free, rfl, rfl⟩
    | some f =>
      simp only at hg ⊢
      cases hf : f 0 i0 f0 with
      | error e => rw [hf] at hg; simp at hg
      | ok x =>
        rw [hf] at hg
        simp only at hg ⊢
        split at hg
        · simp at hg
        · rename_i h1
          rw [if_neg h1]
          split at hg
          · simp at hg
          · rename_i h2
            rw [if_neg h2]
            split at hg
            · simp at hg
            · rename_i h3
              rw [if_neg h3]
              simp only [Except.ok.injEq] at hg ⊢
              subst hg
              exact ⟨_, rfl, full, rfl, rfl, rfl, rfl, free, rfl, rfl⟩
  have mem : ∀ i ∈ (Container.toTuples (Container.build h mods).fullDict).map Prod.snd, TarMod P (h i) (h' i) := by
    intro i hi
    obtain ⟨ni, hni, rfl⟩ := List.mem_map.mp hi
    exact full _ (Container.full_fullList hni)
  unfold Microgrid.create at *
  simp only [hb] at hc ⊢
  have e1 : ((Container.toTuples (Container.build h mods).fullDict).map Prod.snd).map (fun i => (h' i).initialStep) =
      ((Container.toTuples (Container.build h mods).fullDict).map Prod.snd).map (fun i => (h i).initialStep) :=
    List.map_congr_left fun i hi => (mem i hi).alike.2.2.1
  have e2 : ((Container.toTuples (Container.build h mods).fullDict).map Prod.snd).filterMap (fun i => (h' i).finalStep?) =
      ((Container.toTuples (Container.build h mods).fullDict).map Prod.snd).filterMap (fun i => (h i).finalStep?) :=
    List.filterMap_congr fun i hi => (mem i hi).alike.2.2.2
  rw [e1, e2]
  split
  · rename_i h0
    rw [if_pos h0] at hc
    exact check _ _ hc
  · rename_i h0
    rw [if_neg h0] at hc
    cases u1 : uniqueVal (((Container.toTuples (Container.build h mods).fullDict).map Prod.snd).map (fun i => (h i).initialStep)) with
    | error e => rw [u1] at hc; simp at hc
    | ok i0 =>
      rw [u1] at hc
      simp only at hc ⊢
      cases u2 : uniqueVal (((Container.toTuples (Container.build h mods).fullDict).map Prod.snd).filterMap (fun i => (h i).finalStep?)) with
      | error e => rw [u2] at hc; simp at hc
      | ok f0 =>
        rw [u2] at hc
        simp only at hc ⊢
        exact check _ _ hc

theorem transcript_det {ops : List GOp} {os os' : List (Option RunOut)} {g₁ g₁' : Microgrid} (h : Transcript g ops os g₁)
    (h' : Transcript g ops os' g₁') : os' = os ∧ g₁' = g₁ := by
  induction h generalizing os' g₁' with
  | nil g => cases h'; exact ⟨rfl, rfl⟩
  | run hr _ ih =>
    cases h' with
    | run hr' t' =>
      rw [hr] at hr'
      simp only [Prod.mk.injEq, Except.ok.injEq] at hr'
      obtain ⟨rfl, rfl⟩ := hr'
      obtain ⟨rfl, rfl⟩ := ih t'
      exact ⟨rfl, rfl⟩
  | reset hr _ ih =>
    cases h' with
    | reset hr' t' =>
      rw [hr] at hr'
      simp only [Prod.mk.injEq, and_true] at hr'
      subst hr'
      obtain ⟨rfl, rfl⟩ := ih t'
      exact ⟨rfl, rfl⟩

end

/-! ### Constructors -/

theorem mkBattery_tariff {P : Prop} {minC maxC ch dis eff cost cost' : ℚ} {tr : Option (ℚ → TransitionArgs → ℚ)} {c s : Option ℚ}
    {i : Nat} {r : Bool} {m m' : Module} (hm : mkBattery minC maxC ch dis eff cost tr c s i r = .ok m)
    (hm' : mkBattery minC maxC ch dis eff cost' tr c s i r = .ok m') (h : P → cost ≤ cost') : Tariff P m m' := by
  unfold mkBattery Battery.init at hm hm'
  by_cases he : 0 < eff ∧ eff ≤ 1
  swap
  · simp [he] at hm
  by_cases hz : maxC = 0
  · simp [he, hz] at hm
  simp only [he, hz, and_self, not_true, if_false] at hm hm'
  cases hb : Battery.initBattery maxC c s with
  | error e => rw [hb] at hm; simp at hm
  | ok x =>
    rw [hb] at hm hm'
    simp only [Except.ok.injEq] at hm hm'
    subst hm hm'
    exact ⟨.battery _ _ h, rfl, rfl, rfl, rfl, rfl⟩

theorem mkGenset_tariff {P : Prop} {lo hi : ℚ} {cost cost' : GensetCost} {co2 c c' : ℚ} {S W : Nat} {ab iu : Bool} {i : Nat}
    {r : Bool} {m m' : Module} (hm : mkGenset lo hi cost co2 c S W ab iu i r = .ok m)
    (hm' : mkGenset lo hi cost' co2 c' S W ab iu i r = .ok m') (h1 : P → ∀ x, 0 ≤ x → cost.eval x ≤ cost'.eval x)
    (h2 : P → 0 ≤ co2 ∧ c ≤ c') : Tariff P m m' := by
  obtain ⟨g, a1, k, a2, -, -, -, a3, a4, a5, -, a6⟩ := mkGenset_inv hm
  obtain ⟨g', b1, k', b2, -, -, -, b3, b4, b5, -, b6⟩ := mkGenset_inv hm'
  obtain ⟨-, -, -, a7, -⟩ := Genset.init_inv a1
  obtain ⟨-, -, -, b7, -⟩ := Genset.init_inv b1
  refine ⟨?_, b2.trans a2.symm, b5.trans a5.symm, b3.trans a3.symm, b4.trans a4.symm, by rw [a6, b6, a7, b7]⟩
  rw [k, k']
  have e1 : g.cost = cost ∧ g.co2PerUnit = co2 ∧ g.costPerCo2 = c ∧ g' = { g with cost := cost', costPerCo2 := c' } := by
    unfold Genset.init at a1 b1
    split at a1
    · simp at a1
    split at b1
    · simp at b1
    cases iu <;> simp [Genset.resetTimes] at a1 b1 <;> subst a1 b1 <;> exact ⟨rfl, rfl, rfl, rfl⟩
  obtain ⟨e1, e2, e3, rfl⟩ := e1
  refine .genset _ _ _ (fun hP x hx => ?_) (fun hP => by rw [e2, e3]; exact h2 hP)
  have := h1 hP x hx
  rw [← e1] at this
  exact this

theorem mkGrid_tariff {P : Prop} {mi me c c' : ℚ} {ncols : Nat} {rows rows' : List (List ℚ)} {param param' : FKind}
    {horizon horizon' i : Nat} {fs : Int} {r : Bool} {m m' : Module} (hrect : ∀ r ∈ rows, r.length = ncols)
    (hrect' : ∀ r ∈ rows', r.length = ncols) (hm : mkGrid mi me ncols rows param horizon i fs c r = .ok m)
    (hm' : mkGrid mi me ncols rows' param' horizon' i fs c' r = .ok m') (h1 : List.Forall₂ (RowPrices P) rows rows')
    (h2 : P → c ≤ c') : Tariff P m m' := by
  obtain ⟨t, mn, mx, wf, -, -, s, h34, hf, hi, hc, hr, -, ha, -⟩ := mkGrid_inv hrect hm
  obtain ⟨t', mn', mx', wf', -, -, s', -, hf', hi', hc', hr', -, ha', -⟩ := mkGrid_inv hrect' hm'
  refine ⟨?_, hf'.trans hf.symm, hr'.trans hr.symm, hi'.trans hi.symm, hc'.trans hc.symm, ha'.trans ha.symm⟩
  rw [wf.kind, wf'.kind]
  refine .grid ⟨mi, me, c⟩ t t' c' ?_ ?_ h2
  · have e1 : t.rows = gridRows ncols rows := s.rows
    have e2 : t'.rows = gridRows ncols rows' := s'.rows
    rw [e1, e2]
    unfold gridRows
    split
    · exact h1
    · rename_i h4
      have h3 : ncols = 3 := by omega
      subst h3
      clear e1 e2 s s' hm hm' wf wf'
      induction h1 with
      | nil => exact .nil
      | @cons a b l l' hab _ ih =>
        refine .cons ?_ (ih (fun r hr => hrect r (by simp [hr])) (fun r hr => hrect' r (by simp [hr])))
        obtain ⟨x, y, z, rfl⟩ := List.length_eq_three.mp (hrect a (by simp))
        obtain ⟨x', y', z', rfl⟩ := List.length_eq_three.mp (hrect' b (by simp))
        exact ⟨hab.buy, hab.sell, hab.co2, rfl⟩
  · have hlen : (gridRows ncols rows').length = (gridRows ncols rows).length := by
      unfold gridRows
      split
      · exact h1.length_eq.symm
      · rw [List.length_map, List.length_map, h1.length_eq]
    rw [s.finalStep, s'.finalStep]
    simp only [TS.blank, hlen]

end Pymgrid
