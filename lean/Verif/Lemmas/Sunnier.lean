import Verif.Lemmas.Ledger
import Verif.Lemmas.CurrencyBuild
import Verif.Spec.Sunnier

set_option autoImplicit false

/-! Lemmas for C87: two microgrids, the second with more renewable energy. -/

namespace Pymgrid

namespace Module

/-! ### The log does not influence what a module does -/

/-- Equal but for the log. -/
def LogEq (m m' : Module) : Prop := ∃ L, m' = { m with logger := L }

theorem LogEq.refl (m : Module) : LogEq m m := ⟨m.logger, rfl⟩

section
variable (m : Module) (L : Logger)

theorem update_logger (e : Option ℚ) (d : Dir) :
    update { m with logger := L } e d = ({ (m.update e d).1 with logger := L }, (m.update e d).2) := by
  obtain ⟨a1, a2, a3, a4, a5, a6, a7, a8, a9, k⟩ := m
  cases k <;> rfl

theorem asSource_logger (x : ℚ) :
    asSource { m with logger := L } x = ({ (m.asSource x).1 with logger := L }, (m.asSource x).2) := by
  have hs : isSource { m with logger := L } = m.isSource := rfl
  have hp : maxProduction { m with logger := L } = m.maxProduction := rfl
  have hq : minProduction { m with logger := L } = m.minProduction := rfl
  unfold asSource
  simp only [hs, hp, hq, update_logger]
  repeat' split
  all_goals rfl

theorem asSink_logger (x : ℚ) :
    asSink { m with logger := L } x = ({ (m.asSink x).1 with logger := L }, (m.asSink x).2) := by
  have hp : maxConsumption { m with logger := L } = m.maxConsumption := rfl
  unfold asSink
  simp only [hp, update_logger]
  repeat' split
  all_goals rfl

theorem unnormalizedStep_logger (q : ℚ) :
    unnormalizedStep { m with logger := L } q = ({ (m.unnormalizedStep q).1 with logger := L }, (m.unnormalizedStep q).2) := by
  have hs : isSource { m with logger := L } = m.isSource := rfl
  have hk : isSink { m with logger := L } = m.isSink := rfl
  unfold unnormalizedStep
  simp only [hs, hk, asSource_logger, asSink_logger]
  repeat' split
  all_goals rfl

theorem updateStep_logger (r : Bool) :
    updateStep { m with logger := L } r = ({ (m.updateStep r).1 with logger := L }, (m.updateStep r).2) := by
  obtain ⟨a1, a2, a3, a4, a5, a6, a7, a8, a9, k⟩ := m
  cases k <;> rfl

end

/-- A function of modules that treats modules alike which differ in the log only. -/
def LogFree {α : Type} (f : Module → Module × α) : Prop :=
  ∀ m L, LogEq (f m).1 (f { m with logger := L }).1 ∧ (f { m with logger := L }).2 = (f m).2

theorem stepEnergy_logFree (q : ℚ) : LogFree fun m => m.stepEnergy q := by
  intro m L
  have hs : stateDict { m with logger := L } = m.stateDict := rfl
  unfold stepEnergy
  simp only [hs, unnormalizedStep_logger]
  cases m.stateDict with
  | error e => exact ⟨⟨L, rfl⟩, rfl⟩
  | ok pre =>
    simp only
    cases m.unnormalizedStep q with
    | mk m₁ r =>
    cases r with
    | error e => exact ⟨⟨L, rfl⟩, rfl⟩
    | ok u =>
      simp only [log]
      have hr : logRow { m₁ with logger := L } pre u = m₁.logRow pre u := rfl
      rw [hr]
      cases m₁.logRow pre u with
      | error e => exact ⟨⟨L, rfl⟩, rfl⟩
      | ok row =>
        simp only [updateStep_logger]
        cases m₁.updateStep false with
        | mk m₃ r =>
        cases r with
        | error e => exact ⟨⟨_, rfl⟩, rfl⟩
        | ok u =>
          simp only
          have hn : ∀ L, normalizedObs { m₃ with logger := L } = m₃.normalizedObs := fun L => rfl
          rw [hn (L.log row), hn (m₁.logger.log row)]
          cases m₃.normalizedObs with
          | error e => exact ⟨⟨_, rfl⟩, rfl⟩
          | ok obs => exact ⟨⟨_, rfl⟩, rfl⟩

theorem baseStep_logFree (a : Act) (n : Bool) : LogFree fun m => m.baseStep a n := by
  intro m L
  have hd : denormalizeAct { m with logger := L } a = m.denormalizeAct a := rfl
  have he : energyPos { m with logger := L } = m.energyPos := rfl
  unfold baseStep
  simp only [hd, he]
  cases (if n = true then m.denormalizeAct a else Except.ok a) with
  | error e => exact ⟨⟨L, rfl⟩, rfl⟩
  | ok a' =>
    simp only
    cases energyOf m.energyPos a' with
    | error e => exact ⟨⟨L, rfl⟩, rfl⟩
    | ok q => exact stepEnergy_logFree q m L

theorem step_logFree (a : Act) (n : Bool) : LogFree fun m => m.step a n := by
  intro m L
  by_cases hg : ∃ g, m.kind = .genset g
  · obtain ⟨g, hk⟩ := hg
    obtain ⟨a1, a2, a3, a4, a5, a6, a7, a8, a9, k⟩ := m
    simp only at hk
    subst hk
    unfold step
    simp only
    cases a with
    | num q => exact ⟨⟨L, rfl⟩, rfl⟩
    | arr l =>
      simp only
      cases l[0]? with
      | none => exact ⟨⟨L, rfl⟩, rfl⟩
      | some goal =>
        simp only
        split
        · exact ⟨⟨L, rfl⟩, rfl⟩
        · cases g.updateStatus goal with
          | error e => exact ⟨⟨L, rfl⟩, rfl⟩
          | ok g' => exact baseStep_logFree _ n ⟨a1, a2, a3, a4, a5, a6, a7, a8, a9, .genset g'⟩ L
  · have h1 : m.step a n = m.baseStep a n := step_eq_baseStep m a n fun g hk => hg ⟨g, hk⟩
    have h2 : step { m with logger := L } a n = baseStep { m with logger := L } a n :=
      step_eq_baseStep _ a n fun g hk => hg ⟨g, hk⟩
    simp only [h1, h2]
    exact baseStep_logFree a n m L

theorem reset_logFree : LogFree reset := by
  intro m L
  unfold reset
  simp only [updateStep_logger]
  cases m.updateStep true with
  | mk m₁ r =>
  cases r with
  | error e => exact ⟨⟨_, rfl⟩, rfl⟩
  | ok u => exact ⟨⟨_, rfl⟩, rfl⟩

theorem setFinal_logFree (v : Int) : LogFree fun m => Microgrid.setFinalOne m v := by
  intro m L
  obtain ⟨a1, a2, a3, a4, a5, a6, a7, a8, a9, k⟩ := m
  unfold Microgrid.setFinalOne
  cases k with
  | grid p t => simp only; cases hv : t.setFinalStep a2 v with | mk t' r => cases r <;> exact ⟨⟨_, rfl⟩, rfl⟩
  | load t => simp only; cases hv : t.setFinalStep a2 v with | mk t' r => cases r <;> exact ⟨⟨_, rfl⟩, rfl⟩
  | renewable t => simp only; cases hv : t.setFinalStep a2 v with | mk t' r => cases r <;> exact ⟨⟨_, rfl⟩, rfl⟩
  | _ => exact ⟨⟨_, rfl⟩, rfl⟩

theorem LogFree.rel {α : Type} {f : Module → Module × α} (h : LogFree f) {m m' : Module} (e : LogEq m m') :
    LogEq (f m).1 (f m').1 ∧ (f m').2 = (f m).2 := by
  obtain ⟨L, rfl⟩ := e
  exact h m L

theorem WF.renewable_inv {m : Module} (h : m.WF) {t : TS} (hk : m.kind = .renewable t) : m.RenWF t ∧ t.Works := by
  cases h with
  | renewable t' h w =>
    have := h.kind
    rw [hk] at this
    injection this with this
    subst this
    exact ⟨h, w⟩
  | battery b h => rw [h.kind] at hk; simp at hk
  | genset g h => rw [h.kind] at hk; simp at hk
  | load t' h w => rw [h.kind] at hk; simp at hk
  | grid p t' h w => rw [h.kind] at hk; simp at hk
  | balancing u h => rw [h.kind] at hk; simp at hk

/-- A successful step of a time-series module. -/
theorem TSWF.step_moved {m : Module} {t : TS} (h : m.TSWF t) (w : t.Works) {q : ℚ} {u : UpdateOut}
    (hu : m.unnormalizedStep q = (m, .ok u))
    (hp : m.provName = none → u.info.provided = none) (ha : m.absName = none → u.info.absorbed = none) :
    ∃ L f o, t.forecastValue (m.currentStep + 1) = .ok f ∧
      m.step (.num q) false = (m.moved t L (m.currentStep + 1) f, .ok o) ∧ o.info = u.info ∧ o.reward = u.reward ∧
      o.done = u.done := by
  obtain ⟨pre, row, f, obs, -, -, hf, -, he⟩ := h.stepEnergy_ok hu hp ha w
  have hreq : m.request (.num q) false = .ok q := by simp [request, energyOf]
  rw [h.step_eq, hreq]
  exact ⟨_, f, _, hf, he, rfl, rfl, rfl⟩

/-- A step of a time-series module without data fails and changes nothing. -/
theorem TSWF.step_dead {m : Module} {t : TS} (h : m.TSWF t) (wf : m.WF) (hl : ¬ m.Live) (w : t.Works) (q : ℚ) :
    ∃ e, m.step (.num q) false = (m, .error e) := by
  have hno : ∀ {m' o}, m.step (.num q) false ≠ (m', .ok o) := fun hs => hl (wf.live_of_step hs)
  have hreq : m.request (.num q) false = .ok q := by simp [request, energyOf]
  rw [h.step_eq, hreq] at hno ⊢
  rcases h.stepEnergy q with ⟨e, he⟩ | ⟨u, pre, row, -, -, -, ⟨f, -, -, obs, he⟩ | ⟨e, hf, -⟩⟩
  · exact ⟨e, he⟩
  · exact absurd he hno
  · obtain ⟨f, hf'⟩ := h.valid.forecast_ok w (m.currentStep + 1)
    rw [hf] at hf'; simp at hf'

theorem LogEq.moved {m m' : Module} (e : LogEq m m') (t : TS) (L L' : Logger) (c : Nat) (f : Option (List (List ℚ))) :
    LogEq (m.moved t L c f) (m'.moved t L' c f) := by
  obtain ⟨L₀, rfl⟩ := e
  exact ⟨L', rfl⟩

end Module

open Module

/-- `m'` is `m` but for the log, or a sunnier renewable module. -/
structure SunMod (f : FFC) (m m' : Module) : Prop where
  ffc : m.ffc = f
  wf : m.WF
  wf' : m'.WF
  fair : m.FairFlex
  same : LogEq m m' ∨ Sunnier m m'

section
variable {f : FFC} {m m' : Module}

theorem Sunnier.flex (h : Sunnier m m') (wf : m.WF) : m.ffc = .flex := by
  obtain ⟨hk, -, -, -, -, -, -⟩ := h
  exact (wf.renewable_inv hk).1.ffc

theorem Sunnier.flex' (h : Sunnier m m') (wf : m'.WF) : m'.ffc = .flex := by
  obtain ⟨-, hk, -, -, -, -, -⟩ := h
  exact (wf.renewable_inv hk).1.ffc

theorem fairFlex_of {m₁ m₂ : Module} (h : m₁.FairFlex) (hf : m₂.ffc = m₁.ffc) (hk : m₂.kind.core = m₁.kind.core) :
    m₂.FairFlex := by
  intro h1 p t h2
  rw [h2] at hk
  cases hk' : m₁.kind <;> rw [hk'] at hk <;> simp [Kind.core] at hk
  obtain ⟨rfl, -⟩ := hk
  exact h (hf ▸ h1) _ _ hk'

theorem SunMod.logEq (h : SunMod f m m') (hf : f ≠ .flex) : LogEq m m' := by
  rcases h.same with e | s
  · exact e
  · exact absurd (h.ffc ▸ s.flex h.wf) hf

/-- A step with the same action that is not a dispatch of a renewable module. -/
theorem SunMod.step (h : SunMod f m m') (e : LogEq m m') (a : Act) (n : Bool) :
    SunMod f (m.step a n).1 (m'.step a n).1 ∧ LogEq (m.step a n).1 (m'.step a n).1 ∧ (m'.step a n).2 = (m.step a n).2 := by
  obtain ⟨h1, h2⟩ := (step_logFree a n).rel e
  exact ⟨⟨(frame_step m a n).ffc.trans h.ffc, h.wf.step a n, h.wf'.step a n,
    fairFlex_of h.fair (frame_step m a n).ffc (kept_core.step m a n h.wf).2, .inl h1⟩, h1, h2⟩

theorem SunMod.stepped (h : SunMod f m m') {a a' : Act} {n n' : Bool} (e : LogEq (m.step a n).1 (m'.step a' n').1 ∨
    Sunnier (m.step a n).1 (m'.step a' n').1) : SunMod f (m.step a n).1 (m'.step a' n').1 :=
  ⟨(frame_step m a n).ffc.trans h.ffc, h.wf.step a n, h.wf'.step a' n',
    fairFlex_of h.fair (frame_step m a n).ffc (kept_core.step m a n h.wf).2, e⟩

theorem Sunnier.moved (h : Sunnier m m') {t t' : TS} (hk : m.kind = .renewable t) (hk' : m'.kind = .renewable t')
    (L L' : Logger) (c : Nat) (v v' : Option (List (List ℚ))) : Sunnier (m.moved t L c v) (m'.moved t' L' c v') := by
  obtain ⟨k, k', h1, h2, h3, h4, h5⟩ := h
  rw [hk] at k
  rw [hk'] at k'
  injection k with k
  injection k' with k'
  subst k k'
  refine .mk (t := { t with cur := v, draws := t.draws + 1 }) (t' := { t' with cur := v', draws := t'.draws + 1 }) ?_ ?_ h1 rfl
    h3 h4 h5
  · simp only [Module.moved, hk, Kind.withTS]
  · simp only [Module.moved, hk', Kind.withTS]

theorem SunMod.live (h : SunMod f m m') : m'.Live ↔ m.Live := by
  rcases h.same with ⟨L, rfl⟩ | ⟨hk, hk', h1, h2, h3, h4, h5⟩
  · exact Iff.rfl
  · unfold Live series?
    rw [hk, hk', h2]
    simp [h4]

theorem LogEq.sunnier (e : LogEq m m') {t : TS} (hk : m.kind = .renewable t) : Sunnier m m' := by
  obtain ⟨L, rfl⟩ := e
  exact ⟨hk, hk, rfl, rfl, rfl, rfl, fun _ => le_rfl⟩

/-- The module cannot be dispatched, and nothing happens to it. -/
def Stuck (m : Module) : Prop :=
  (∀ x, (∃ e, sourceAmount m x = .error e) ∨ ∃ a e, sourceAmount m x = .ok a ∧ m.step (.num a) false = (m, .error e)) ∧
  (∀ x, (∃ e, sinkAmount m x = .error e) ∨ ∃ a e, sinkAmount m x = .ok a ∧ m.step (.num (-1 * a)) false = (m, .error e))

theorem stuck (wf : m.WF) (hf : m.ffc = .flex) (hl : ¬ m.Live) : Stuck m := by
  have key : ∀ q, ∃ e, m.step (.num q) false = (m, .error e) := by
    intro q
    cases wf with
    | battery b h => rw [h.ffc] at hf; simp at hf
    | genset g h => rw [h.ffc] at hf; simp at hf
    | load t h w => rw [h.ffc] at hf; simp at hf
    | balancing u h => exact absurd (by intro t ht; simp [series?, h.kind] at ht) hl
    | renewable t h w => exact h.ts.step_dead (.renewable t h w) hl w q
    | grid p t h w => exact h.ts.step_dead (.grid p t h w) hl w q
  constructor
  · intro x
    cases hs : sourceAmount m x with
    | error e => exact .inl ⟨e, rfl⟩
    | ok a => obtain ⟨e, he⟩ := key a; exact .inr ⟨a, e, rfl, he⟩
  · intro x
    cases hs : sinkAmount m x with
    | error e => exact .inl ⟨e, rfl⟩
    | ok a => obtain ⟨e, he⟩ := key (-1 * a); exact .inr ⟨a, e, rfl, he⟩

/-- A flexible module helps out with `a`, its counterpart with `a'`. -/
structure Helps (m m' : Module) (n n' a a' : ℚ) (o o' : StepOut) : Prop where
  amount : sourceAmount m n = .ok a
  amount' : sourceAmount m' n' = .ok a'
  step : (m.step (.num a) false).2 = .ok o
  step' : (m'.step (.num a') false).2 = .ok o'
  same : LogEq (m.step (.num a) false).1 (m'.step (.num a') false).1 ∨
    Sunnier (m.step (.num a) false).1 (m'.step (.num a') false).1
  reward : o.reward ≤ o'.reward
  done : o'.done = o.done
  provided : o.info.provided = some a
  provided' : o'.info.provided = some a'
  absorbed : o.info.absorbed = none
  absorbed' : o'.info.absorbed = none
  left : 0 ≤ n' - a'
  less : n' - a' ≤ n - a

theorem Sunnier.helps (s : Sunnier m m') (wf : m.WF) (wf' : m'.WF) (hl : m.Live) (hl' : m'.Live) {n n' : ℚ}
    (h0 : 0 ≤ n') (hn : n' ≤ n) : ∃ a a' o o', Helps m m' n n' a a' o o' := by
  have s₀ := s
  obtain ⟨hk, hk', h1, h2, h3, h4, h5⟩ := s
  rename_i t t'
  obtain ⟨h, w⟩ := wf.renewable_inv hk
  obtain ⟨h', w'⟩ := wf'.renewable_inv hk'
  have hf0 : 0 ≤ n := h0.trans hn
  obtain ⟨r, hr⟩ := hl.row h.ts.series
  obtain ⟨x, rfl, hx, hi⟩ := h.itemAt hr
  obtain ⟨r', hr'⟩ := hl'.row h'.ts.series
  obtain ⟨y, rfl, hy, hi'⟩ := h'.itemAt hr'
  have hxy : x ≤ y := by
    have := h5 m.currentStep
    rw [cell_eq hr, ← h2, cell_eq hr'] at this
    simpa using this
  obtain ⟨p1, p2, p3, -⟩ := wf.flex_source hl h.ffc hf0
  obtain ⟨q1, q2, q3, -⟩ := wf'.flex_source hl' h'.ffc h0
  have hc : capMin m.canProvide n = min x n := by simp [canProvide, h.kind, capMin, hr]
  have hc' : capMin m'.canProvide n' = min y n' := by simp [canProvide, h'.kind, capMin, hr']
  rw [hc] at p1 p2 p3
  rw [hc'] at q1 q2 q3
  have hun := (h.unnormalizedStep (min x n)).2.2 x hr p2
  rw [if_neg (fun hh => absurd (min_le_left x n) (not_le.mpr hh.2))] at hun
  have hun' := (h'.unnormalizedStep (min y n')).2.2 y hr' q2
  rw [if_neg (fun hh => absurd (min_le_left y n') (not_le.mpr hh.2))] at hun'
  obtain ⟨L, f, o, -, e1, e2, e3, e4⟩ := h.ts.step_moved w hun (by simp [h.prov]) (by simp)
  obtain ⟨L', f', o', -, e1', e2', e3', e4'⟩ := h'.ts.step_moved w' hun' (by simp [h'.prov]) (by simp)
  refine ⟨_, _, o, o', p1, q1, by rw [e1], by rw [e1'], ?_, ?_, ?_, ?_, ?_, ?_, ?_, ?_, ?_⟩
  · rw [e1, e1', h2]
    exact .inr (s₀.moved hk hk' _ _ _ _ _)
  · rw [e3, e3']
  · rw [e4, e4']
    unfold TS.done
    rw [h2, h3]
  · rw [e2]; simp
  · rw [e2']; simp
  · rw [e2]
  · rw [e2']
  · linarith
  · rcases le_total y n' with h | h
    · rw [min_eq_left h, min_eq_left ((hxy.trans h).trans hn)]; linarith
    · rw [min_eq_right h]
      linarith

theorem SunMod.helps (h : SunMod .flex m m') (hl : m.Live) {n n' : ℚ} (h0 : 0 ≤ n') (hn : n' ≤ n) :
    ∃ a a' o o', Helps m m' n n' a a' o o' := by
  have hl' := h.live.mpr hl
  rcases h.same with e | s
  swap
  · exact s.helps h.wf h.wf' hl hl' h0 hn
  by_cases hren : ∃ t, m.kind = .renewable t
  · obtain ⟨t, hk⟩ := hren
    exact (LogEq.sunnier e hk).helps h.wf h.wf' hl hl' h0 hn
  have e₀ := e
  have hf0 : 0 ≤ n := h0.trans hn
  obtain ⟨p1, p2, p3, -⟩ := h.wf.flex_source hl h.ffc hf0
  obtain ⟨L₀, rfl⟩ := e
  obtain ⟨q1, q2, q3, -⟩ := h.wf'.flex_source hl' h.ffc h0
  have hf := h.ffc
  have fair := h.fair hf
  cases h.wf with
  | battery b h => rw [h.ffc] at hf; simp at hf
  | genset g h => rw [h.ffc] at hf; simp at hf
  | load t h w => rw [h.ffc] at hf; simp at hf
  | renewable t h w => exact absurd ⟨t, h.kind⟩ hren
  | balancing u h =>
    have h' : BalWF { m with logger := L₀ } u := ⟨h.kind, h.ffc, h.prov, h.abs, h.dim, h.loss, h.over, h.space⟩
    have hc : capMin m.canProvide n = n := by simp [canProvide, h.kind, capMin]
    have hc' : capMin (canProvide { m with logger := L₀ }) n' = n' := by simp [canProvide, h.kind, capMin]
    rw [hc] at p1
    rw [hc'] at q1
    obtain ⟨row, -, he⟩ := h.stepEnergy n
    obtain ⟨row', -, he'⟩ := h'.stepEnergy n'
    have hreq : m.request (.num n) false = .ok n := by simp [request, energyOf]
    have hreq' : request { m with logger := L₀ } (.num n') false = .ok n' := by simp [request, energyOf]
    have hs := h.step_eq (.num n) false
    have hs' := h'.step_eq (.num n') false
    rw [hreq] at hs
    rw [hreq'] at hs'
    simp only [he, he', hf0, h0, if_true] at hs hs'
    refine ⟨_, _, _, _, p1, q1, by rw [hs], by rw [hs'], ?_, ?_, ?_, ?_, ?_, ?_, ?_, ?_, ?_⟩
    · rw [hs, hs']; exact .inl ⟨_, rfl⟩
    · simp only
      have := mul_le_mul_of_nonneg_left hn h.loss
      linarith
    all_goals first | rfl | skip
    · linarith
    · linarith
  | grid p t h w =>
    have h' : GridWF { m with logger := L₀ } p t :=
      ⟨h.kind, ⟨h.ts.series, h.ts.valid, h.ts.shaped, h.ts.dim⟩, h.names, h.ffc, h.prov, h.abs, h.imp, h.exp, h.status, h.nonneg⟩
    obtain ⟨r, hr⟩ := hl.row h.ts.series
    obtain ⟨a, b, c, d, rfl, hs, ha, hb, hcc⟩ := h.row hr
    have hfair := fair p t h.kind
    have hst0 : 0 ≤ d := by rcases hs with rfl | rfl <;> norm_num
    have hm0 : 0 ≤ p.maxImport * d := mul_nonneg h.imp hst0
    have hc : ∀ x, capMin m.canProvide x = min (p.maxImport * d) x := by
      intro x
      simp only [canProvide, h.kind, capMin]
      rw [h.status_mul hr]
    have hc' : capMin (canProvide { m with logger := L₀ }) n' = min (p.maxImport * d) n' := hc n'
    rw [hc] at p1 p2 p3
    rw [hc'] at q1 q2 q3
    have hun := ((h.unnormalizedStep (min (p.maxImport * d) n)).2 a b c d hr).1 p2
    rw [if_neg (fun hh => absurd (min_le_left (p.maxImport * d) n) (not_le.mpr hh.2)),
      min_eq_left (min_le_left (p.maxImport * d) n)] at hun
    have hun' := ((h'.unnormalizedStep (min (p.maxImport * d) n')).2 a b c d hr).1 q2
    rw [if_neg (fun hh => absurd (min_le_left (p.maxImport * d) n') (not_le.mpr hh.2)),
      min_eq_left (min_le_left (p.maxImport * d) n')] at hun'
    obtain ⟨L, f, o, hf1, e1, e2, e3, e4⟩ := h.ts.step_moved w hun (by simp [h.prov]) (by simp)
    obtain ⟨L', f', o', hf1', e1', e2', e3', e4'⟩ := h'.ts.step_moved w hun' (by simp [h.prov]) (by simp)
    simp only at hf1'
    rw [hf1] at hf1'
    injection hf1' with hff
    subst hff
    have hle : min (p.maxImport * d) n' ≤ min (p.maxImport * d) n := min_le_min_left _ hn
    refine ⟨_, _, o, o', p1, q1, by rw [e1], by rw [e1'], ?_, ?_, ?_, ?_, ?_, ?_, ?_, ?_, ?_⟩
    · rw [e1, e1']
      exact .inl (e₀.moved t L L' _ f)
    · rw [e3, e3']
      have h1 := mul_le_mul_of_nonneg_left hle ha
      have h2 := mul_le_mul_of_nonneg_left (mul_le_mul_of_nonneg_right hle hcc) hfair
      simp only
      linarith
    · rw [e4, e4']
    · rw [e2]
    · rw [e2']
    · rw [e2]
    · rw [e2']
    · linarith
    · rcases le_total (p.maxImport * d) n' with h | h
      · rw [min_eq_left h, min_eq_left (h.trans hn)]; linarith
      · rw [min_eq_right h]
        linarith

/-- On a surplus renewable modules are asked for nothing. -/
theorem Sunnier.idle (s : Sunnier m m') (wf : m.WF) (wf' : m'.WF) (hl : m.Live) (hl' : m'.Live) (x : ℚ) :
    sinkAmount m x = .ok 0 ∧ sinkAmount m' x = .ok 0 ∧ ∃ o o', (m.step (.num (-1 * 0)) false).2 = .ok o ∧
      (m'.step (.num (-1 * 0)) false).2 = .ok o' ∧
      Sunnier (m.step (.num (-1 * 0)) false).1 (m'.step (.num (-1 * 0)) false).1 ∧ o'.reward = o.reward ∧
      o'.done = o.done ∧ o'.info.provided = o.info.provided ∧ o'.info.absorbed = o.info.absorbed := by
  have s₀ := s
  obtain ⟨hk, hk', h1, h2, h3, h4, h5⟩ := s
  rename_i t t'
  obtain ⟨h, w⟩ := wf.renewable_inv hk
  obtain ⟨h', w'⟩ := wf'.renewable_inv hk'
  obtain ⟨r, hr⟩ := hl.row h.ts.series
  obtain ⟨x₀, rfl, hx, -⟩ := h.itemAt hr
  obtain ⟨r', hr'⟩ := hl'.row h'.ts.series
  obtain ⟨y, rfl, hy, -⟩ := h'.itemAt hr'
  refine ⟨by simp [sinkAmount, isSink, hk], by simp [sinkAmount, isSink, hk'], ?_⟩
  have hun := (h.unnormalizedStep (-1 * 0)).2.2 x₀ hr (by norm_num)
  rw [if_neg (by rintro ⟨-, hh⟩; linarith)] at hun
  have hun' := (h'.unnormalizedStep (-1 * 0)).2.2 y hr' (by norm_num)
  rw [if_neg (by rintro ⟨-, hh⟩; linarith)] at hun'
  obtain ⟨L, f, o, -, e1, e2, e3, e4⟩ := h.ts.step_moved w hun (by simp [h.prov]) (by simp)
  obtain ⟨L', f', o', -, e1', e2', e3', e4'⟩ := h'.ts.step_moved w' hun' (by simp [h'.prov]) (by simp)
  refine ⟨o, o', by rw [e1], by rw [e1'], ?_, ?_, ?_, ?_, ?_⟩
  · rw [e1, e1', h2]
    exact s₀.moved hk hk' _ _ _ _ _
  · rw [e3, e3']
  · rw [e4, e4']
    unfold TS.done
    rw [h2, h3]
  · rw [e2, e2']; simp [hx, hy]
  · rw [e2, e2']

theorem SunMod.withInitial (h : SunMod f m m') (v : Nat) :
    SunMod f { m with initialStep := v } { m' with initialStep := v } := by
  refine ⟨h.ffc, h.wf.withInitial v, h.wf'.withInitial v, h.fair, ?_⟩
  rcases h.same with ⟨L, rfl⟩ | ⟨hk, hk', h1, h2, h3, h4, h5⟩
  · exact .inl ⟨L, rfl⟩
  · exact .inr ⟨hk, hk', rfl, h2, h3, h4, h5⟩

theorem SunMod.setFinal (h : SunMod f m m') (v : Int) :
    SunMod f (Microgrid.setFinalOne m v).1 (Microgrid.setFinalOne m' v).1 ∧
      (Microgrid.setFinalOne m' v).2 = (Microgrid.setFinalOne m v).2 := by
  have base : (LogEq (Microgrid.setFinalOne m v).1 (Microgrid.setFinalOne m' v).1 ∨
      Sunnier (Microgrid.setFinalOne m v).1 (Microgrid.setFinalOne m' v).1) →
      SunMod f (Microgrid.setFinalOne m v).1 (Microgrid.setFinalOne m' v).1 := fun e =>
    ⟨(kept_alike.final m v).ffc.trans h.ffc, h.wf.setFinal v, h.wf'.setFinal v,
      fairFlex_of h.fair (kept_alike.final m v).ffc (kept_core.final m v h.wf).2, e⟩
  rcases h.same with e | ⟨hk, hk', h1, h2, h3, h4, h5⟩
  · obtain ⟨e1, e2⟩ := (setFinal_logFree v).rel e
    exact ⟨base (.inl e1), e2⟩
  · rename_i t t'
    have key : ∀ {m : Module} {t : TS}, m.kind = .renewable t → Microgrid.setFinalOne m v =
        ({ m with kind := .renewable (t.setFinalStep m.initialStep v).1 },
          (t.setFinalStep m.initialStep v).2.map fun _ => true) := by
      intro m t hk
      unfold Microgrid.setFinalOne
      rw [hk]
      simp only
      cases hs : t.setFinalStep m.initialStep v with
      | mk t' r => cases r <;> rfl
    refine ⟨base (.inr ?_), ?_⟩
    · rw [key hk, key hk']
      refine .mk rfl rfl h1 h2 ?_ h4 h5
      simp only [TS.setFinalStep, h4]
    · rw [key hk, key hk', h1]
      simp only [TS.setFinalStep, h4]

theorem SunMod.reset (h : SunMod f m m') : SunMod f m.reset.1 m'.reset.1 ∧ m'.reset.2.isOk = m.reset.2.isOk := by
  have base : (LogEq m.reset.1 m'.reset.1 ∨ Sunnier m.reset.1 m'.reset.1) → SunMod f m.reset.1 m'.reset.1 := fun e =>
    ⟨(frame_reset m).ffc.trans h.ffc, h.wf.reset, h.wf'.reset,
      fairFlex_of h.fair (frame_reset m).ffc (kept_core.reset m h.wf).2, e⟩
  rcases h.same with e | s
  · obtain ⟨e1, e2⟩ := reset_logFree.rel e
    exact ⟨base (.inl e1), by rw [e2]⟩
  · have s₀ := s
    obtain ⟨hk, hk', h1, h2, h3, h4, h5⟩ := s
    obtain ⟨r, w⟩ := h.wf.renewable_inv hk
    obtain ⟨r', w'⟩ := h.wf'.renewable_inv hk'
    obtain ⟨f, hf⟩ := r.ts.valid.forecast_ok w m.initialStep
    obtain ⟨f', hf'⟩ := r'.ts.valid.forecast_ok w' m'.initialStep
    rcases r.ts.reset with ⟨g, obs, -, -, e⟩ | ⟨e, he, -⟩
    swap
    · rw [hf] at he; simp at he
    rcases r'.ts.reset with ⟨g', obs', -, -, e'⟩ | ⟨e, he, -⟩
    swap
    · rw [hf'] at he; simp at he
    refine ⟨base (.inr ?_), by rw [e, e']; rfl⟩
    rw [e, e', h1]
    exact s₀.moved hk hk' _ _ _ _ _

theorem SunMod.costs (h : SunMod f m m') : m'.marginalCost = m.marginalCost ∧ m'.absorptionCost = m.absorptionCost := by
  rcases h.same with ⟨L, rfl⟩ | ⟨hk, hk', -, -, -, -, -⟩
  · exact ⟨rfl, rfl⟩
  · unfold marginalCost absorptionCost
    rw [hk, hk']
    exact ⟨rfl, rfl⟩

end

/-! ### The loops of `run` -/

/-- The modules `ids` of the two heaps. -/
def Sun (F : Nat → FFC) (ids : List Nat) (h h' : Heap) : Prop := ∀ i ∈ ids, SunMod (F i) (h i) (h' i)

/-- The two steps have collected the same energies and rewards. -/
structure AccEq (a a' : StepAcc) : Prop where
  reward : a'.reward = a.reward
  done : a'.done = a.done
  provided : a'.provided = a.provided
  absorbed : a'.absorbed = a.absorbed

section
variable {F : Nat → FFC} {ids : List Nat} {h h' : Heap}

theorem AccEq.append {a a' : StepAcc} (e : AccEq a a') (name : String) {o o' : StepOut} (h1 : o'.reward = o.reward)
    (h2 : o'.done = o.done) (h3 : o'.info.provided = o.info.provided) (h4 : o'.info.absorbed = o.info.absorbed) :
    AccEq (a.append name o) (a'.append name o') := by
  unfold StepAcc.append
  constructor
  · simp only [e.reward, h1]
  · simp only [e.done, h2]
  · simp only [e.provided, h3]
  · simp only [e.absorbed, h4]

theorem Sun.set (t : Sun F ids h h') (i : Nat) {m m' : Module} (hm : SunMod (F i) m m') :
    Sun F ids (h.set i m) (h'.set i m') := by
  intro j hj
  unfold Heap.set
  split
  · rename_i hji; rw [hji]; exact hm
  · exact t j hj

/-- Two results of a loop without dispatch. -/
def SunRun (F : Nat → FFC) (ids : List Nat) (x y : RunSt × Except Err Unit) : Prop :=
  Sun F ids x.1.heap y.1.heap ∧ AccEq x.1.acc y.1.acc ∧ y.2.isOk = x.2.isOk

theorem heapSet_self (h : Heap) (i : Nat) : h.set i (h i) = h := by
  funext j
  unfold Heap.set
  split
  · rename_i e; rw [e]
  · rfl

theorem isOk_unit {x y : Except Err Unit} (h : y.isOk = x.isOk) :
    (x = .ok () ∧ y = .ok ()) ∨ ∃ e e', x = .error e ∧ y = .error e' := by
  cases x <;> cases y <;> simp_all [Except.isOk, Except.toBool]

theorem Sun.stepOne (t : Sun F ids h h') {i : Nat} (hi : i ∈ ids) (hl : LogEq (h i) (h' i)) {acc acc' : StepAcc}
    (e : AccEq acc acc') (name : String) (a : Act) (n : Bool) :
    SunRun F ids (RunSt.stepOne ⟨h, acc⟩ name i a n) (RunSt.stepOne ⟨h', acc'⟩ name i a n) := by
  obtain ⟨h1, -, h2⟩ := (t i hi).step hl a n
  unfold RunSt.stepOne
  simp only
  cases hs : (h i).step a n with
  | mk m r =>
  cases hs' : (h' i).step a n with
  | mk m' r' =>
  rw [hs, hs'] at h1 h2
  simp only at h1 h2
  subst h2
  cases r' with
  | error e' => exact ⟨t.set i h1, e, rfl⟩
  | ok o => exact ⟨t.set i h1, e.append name rfl rfl rfl rfl, rfl⟩

theorem Sun.stepMany {l : List (String × Nat × Act)} (hl : ∀ x ∈ l, x.2.1 ∈ ids ∧ F x.2.1 ≠ .flex) (n : Bool) :
    ∀ {h h' : Heap} (_ : Sun F ids h h') {acc acc' : StepAcc} (_ : AccEq acc acc'),
      SunRun F ids (RunSt.stepMany l n ⟨h, acc⟩) (RunSt.stepMany l n ⟨h', acc'⟩) := by
  induction l with
  | nil => intro h h' t acc acc' e; exact ⟨t, e, rfl⟩
  | cons x l ih =>
    intro h h' t acc acc' e
    obtain ⟨name, i, a⟩ := x
    obtain ⟨hi, hf⟩ := hl (name, i, a) (by simp)
    have hs := t.stepOne hi ((t i hi).logEq hf) e name a n
    simp only [RunSt.stepMany]
    cases h1 : RunSt.stepOne ⟨h, acc⟩ name i a n with
    | mk s r =>
    cases h2 : RunSt.stepOne ⟨h', acc'⟩ name i a n with
    | mk s' r' =>
    rw [h1, h2] at hs
    obtain ⟨t', e', hr⟩ := hs
    rcases isOk_unit hr with ⟨rfl, rfl⟩ | ⟨e1, e2, rfl, rfl⟩
    · exact ih (fun x hx => hl x (by simp [hx])) t' e'
    · exact ⟨t', e', rfl⟩

theorem Sun.stepControls {d : ModDict} (control : List (String × Ctrl)) (n : Bool)
    (hd : ∀ x ∈ d, ∀ i ∈ x.2, i ∈ ids ∧ F i ≠ .flex) :
    ∀ {h h' : Heap} (_ : Sun F ids h h') {acc acc' : StepAcc} (_ : AccEq acc acc'),
      SunRun F ids (RunSt.stepControls control n d ⟨h, acc⟩) (RunSt.stepControls control n d ⟨h', acc'⟩) := by
  induction d with
  | nil => intro h h' t acc acc' e; exact ⟨t, e, rfl⟩
  | cons x d ih =>
    intro h h' t acc acc' e
    obtain ⟨name, is⟩ := x
    simp only [RunSt.stepControls]
    cases dictGet? control name with
    | none => exact ⟨t, e, rfl⟩
    | some c =>
      simp only
      have hs := Sun.stepMany (F := F) (l := (is.zip c.acts).map fun ia => (name, ia.1, ia.2)) (ids := ids) (by
        intro y hy
        obtain ⟨ia, hia, rfl⟩ := List.mem_map.mp hy
        exact hd (name, is) (by simp) _ (List.of_mem_zip hia).1) n t e
      cases h1 : RunSt.stepMany ((is.zip c.acts).map fun ia => (name, ia.1, ia.2)) n ⟨h, acc⟩ with
      | mk s r =>
      cases h2 : RunSt.stepMany ((is.zip c.acts).map fun ia => (name, ia.1, ia.2)) n ⟨h', acc'⟩ with
      | mk s' r' =>
      rw [h1, h2] at hs
      obtain ⟨t', e', hr⟩ := hs
      rcases isOk_unit hr with ⟨rfl, rfl⟩ | ⟨e1, e2, rfl, rfl⟩
      · exact ih (fun x hx => hd x (by simp [hx])) t' e'
      · exact ⟨t', e', rfl⟩

theorem Sun.absorbExcess {l : List (String × Nat)} (hl : ∀ x ∈ l, x.2 ∈ ids ∧ F x.2 = .flex) :
    ∀ {h h' : Heap} (_ : Sun F ids h h') {acc acc' : StepAcc} (_ : AccEq acc acc') (x : ℚ),
      SunRun F ids (RunSt.absorbExcess l x ⟨h, acc⟩) (RunSt.absorbExcess l x ⟨h', acc'⟩) := by
  induction l with
  | nil => intro h h' t acc acc' e x; exact ⟨t, e, rfl⟩
  | cons y l ih =>
    intro h h' t acc acc' e x
    obtain ⟨name, i⟩ := y
    obtain ⟨hi, hf⟩ := hl (name, i) (by simp)
    have hm := t i hi
    have go : ∀ {amt : ℚ} {r r' : RunSt × Except Err Unit}, sinkAmount (h i) x = .ok amt →
        sinkAmount (h' i) x = .ok amt → RunSt.stepOne ⟨h, acc⟩ name i (.num (-1 * amt)) false = r →
        RunSt.stepOne ⟨h', acc'⟩ name i (.num (-1 * amt)) false = r' → SunRun F ids r r' →
        SunRun F ids (RunSt.absorbExcess ((name, i) :: l) x ⟨h, acc⟩) (RunSt.absorbExcess ((name, i) :: l) x ⟨h', acc'⟩) := by
      intro amt r r' a1 a2 s1 s2 hs
      simp only [RunSt.absorbExcess, a1, a2, s1, s2]
      obtain ⟨s, r⟩ := r
      obtain ⟨s', r'⟩ := r'
      obtain ⟨t', e', hr⟩ := hs
      rcases isOk_unit hr with ⟨rfl, rfl⟩ | ⟨e1, e2, rfl, rfl⟩
      · exact ih (fun x hx => hl x (by simp [hx])) t' e' _
      · exact ⟨t', e', rfl⟩
    rcases hm.same with el | s
    · obtain ⟨L, hL⟩ := id el
      have ha : sinkAmount (h' i) x = sinkAmount (h i) x := by rw [hL]; rfl
      cases hs : sinkAmount (h i) x with
      | error er =>
        rw [hs] at ha
        simp only [RunSt.absorbExcess, hs, ha]
        exact ⟨t, e, rfl⟩
      | ok amt =>
        rw [hs] at ha
        exact go hs ha rfl rfl (t.stepOne hi el e name _ false)
    · by_cases live : (h i).Live
      · obtain ⟨a1, a2, o, o', s1, s2, s3, r1, r2, r3, r4⟩ := s.idle hm.wf hm.wf' live (hm.live.mpr live) x
        refine go a1 a2 rfl rfl ?_
        have hst := hm.stepped (.inr s3)
        unfold RunSt.stepOne
        simp only
        cases q1 : (h i).step (.num (-1 * 0)) false with
        | mk m r =>
        cases q2 : (h' i).step (.num (-1 * 0)) false with
        | mk m' r' =>
        rw [q1] at s1 hst
        rw [q2] at s2 hst
        simp only at s1 s2 hst
        subst s1 s2
        exact ⟨t.set i hst, e.append name r1 r2 r3 r4, rfl⟩
      · have st := stuck hm.wf (hm.ffc.trans hf) live
        have hff : (h' i).ffc = .flex := s.flex' hm.wf'
        have st' := stuck hm.wf' hff (fun hl' => live (hm.live.mp hl'))
        have one : ∀ {h : Heap} {acc : StepAcc}, Stuck (h i) → ∃ er,
            RunSt.absorbExcess ((name, i) :: l) x ⟨h, acc⟩ = (⟨h, acc⟩, .error er) := by
          intro h acc st
          rcases st.2 x with ⟨er, h1⟩ | ⟨a, er, h1, h2⟩
          · exact ⟨er, by simp only [RunSt.absorbExcess, h1]⟩
          · refine ⟨er, ?_⟩
            simp only [RunSt.absorbExcess, h1, RunSt.stepOne, h2]
            rw [heapSet_self]
        obtain ⟨e1, h1⟩ := one (acc := acc) st
        obtain ⟨e2, h2⟩ := one (acc := acc') st'
        rw [h1, h2]
        exact ⟨t, e, rfl⟩

/-- The second step has a reward at least as large, and the two have to cover `n` and `n'`. -/
structure AccLe (a a' : StepAcc) (n n' : ℚ) : Prop where
  reward : a.reward ≤ a'.reward
  done : a'.done = a.done
  absorbed : a'.absorbed = a.absorbed
  nonneg : 0 ≤ n'
  less : n' ≤ n
  total : a'.provided.sum + n' = a.provided.sum + n

/-- Two results of the dispatch on a deficit. -/
def SunDeal (F : Nat → FFC) (ids : List Nat) (T : ℚ) (A : List ℚ) (x y : RunSt × Except Err Unit) : Prop :=
  Sun F ids x.1.heap y.1.heap ∧ y.2.isOk = x.2.isOk ∧ (x.2.isOk = true → ∃ n n', AccLe x.1.acc y.1.acc n n' ∧
    x.1.acc.provided.sum + n = T ∧ x.1.acc.absorbed = A)

theorem AccLe.append {a a' : StepAcc} {n n' : ℚ} (e : AccLe a a' n n') (name : String) {m m' : Module} {x x' : ℚ}
    {o o' : StepOut} (h : Helps m m' n n' x x' o o') :
    AccLe (a.append name o) (a'.append name o') (n - x) (n' - x') := by
  unfold StepAcc.append
  refine ⟨add_le_add e.reward h.reward, ?_, ?_, h.left, h.less, ?_⟩
  · simp only [e.done, h.done]
  · simp only [e.absorbed, h.absorbed, h.absorbed']
  · simp only [h.provided, h.provided', List.sum_append, List.sum_singleton]
    linarith [e.total]

theorem Sun.coverNeed {l : List (String × Nat)} (hl : ∀ x ∈ l, x.2 ∈ ids ∧ F x.2 = .flex) :
    ∀ {h h' : Heap} (_ : Sun F ids h h') {acc acc' : StepAcc} {n n' : ℚ} (_ : AccLe acc acc' n n'),
      SunDeal F ids (acc.provided.sum + n) acc.absorbed (RunSt.coverNeed l n ⟨h, acc⟩) (RunSt.coverNeed l n' ⟨h', acc'⟩) := by
  induction l with
  | nil => intro h h' t acc acc' n n' e; exact ⟨t, rfl, fun _ => ⟨n, n', e, rfl, rfl⟩⟩
  | cons y l ih =>
    intro h h' t acc acc' n n' e
    obtain ⟨name, i⟩ := y
    obtain ⟨hi, hf⟩ := hl (name, i) (by simp)
    have hm := t i hi
    by_cases live : (h i).Live
    · rw [hf] at hm
      obtain ⟨a, a', o, o', hp⟩ := hm.helps live e.nonneg e.less
      have hst := hm.stepped hp.same
      have s1 := hp.step
      have s2 := hp.step'
      simp only [RunSt.coverNeed, hp.amount, hp.amount', RunSt.stepOne]
      cases q1 : (h i).step (.num a) false with
      | mk m r =>
      cases q2 : (h' i).step (.num a') false with
      | mk m' r' =>
      rw [q1] at s1 hst
      rw [q2] at s2 hst
      simp only at s1 s2 hst
      subst s1 s2
      rw [← hf] at hst
      have := ih (fun x hx => hl x (by simp [hx])) (t.set i hst) (e.append name hp)
      have e1 : (acc.append name o).provided.sum + (n - a) = acc.provided.sum + n := by
        simp only [StepAcc.append, hp.provided, List.sum_append, List.sum_singleton]; ring
      have e2 : (acc.append name o).absorbed = acc.absorbed := by simp only [StepAcc.append, hp.absorbed]
      rwa [e1, e2] at this
    · have st := stuck hm.wf (hm.ffc.trans hf) live
      have hff : (h' i).ffc = .flex := by
        rcases hm.same with ⟨L, hL⟩ | s
        · rw [hL]; exact hm.ffc.trans hf
        · exact s.flex' hm.wf'
      have st' := stuck hm.wf' hff (fun hl' => live (hm.live.mp hl'))
      have one : ∀ {h : Heap} {acc : StepAcc} {x : ℚ}, Stuck (h i) → ∃ er,
          RunSt.coverNeed ((name, i) :: l) x ⟨h, acc⟩ = (⟨h, acc⟩, .error er) := by
        intro h acc x st
        rcases st.1 x with ⟨er, h1⟩ | ⟨a, er, h1, h2⟩
        · exact ⟨er, by simp only [RunSt.coverNeed, h1]⟩
        · refine ⟨er, ?_⟩
          simp only [RunSt.coverNeed, h1, RunSt.stepOne, h2]
          rw [heapSet_self]
      obtain ⟨e1, h1⟩ := one (acc := acc) (x := n) st
      obtain ⟨e2, h2⟩ := one (acc := acc') (x := n') st'
      rw [h1, h2]
      exact ⟨t, rfl, fun hh => by simp [Except.isOk, Except.toBool] at hh⟩

theorem Sun.costInfo (t : Sun F ids h h') {d : ModDict} (hd : ∀ x ∈ d, ∀ i ∈ x.2, i ∈ ids) :
    costInfo h' d = Pymgrid.costInfo h d := by
  have one : ∀ l : List Nat, (∀ i ∈ l, i ∈ ids) → costInfoOf h' l = costInfoOf h l := by
    intro l
    induction l with
    | nil => intro _; rfl
    | cons i l ih =>
      intro hl
      obtain ⟨h1, h2⟩ := (t i (hl i (by simp))).costs
      simp only [costInfoOf]
      rw [h1, h2, ih fun j hj => hl j (by simp [hj])]
  induction d with
  | nil => rfl
  | cons x d ih =>
    obtain ⟨n, l⟩ := x
    have := ih fun y hy => hd y (by simp [hy])
    simp only [Pymgrid.costInfo] at this ⊢
    rw [one l (hd (n, l) (by simp)), this]

theorem Sun.resetMany {l : List Nat} (hl : ∀ i ∈ l, i ∈ ids) : ∀ {h h' : Heap} (_ : Sun F ids h h'),
    Sun F ids (Microgrid.resetMany h l).1 (Microgrid.resetMany h' l).1 ∧
      (Microgrid.resetMany h' l).2.isOk = (Microgrid.resetMany h l).2.isOk := by
  induction l with
  | nil => intro h h' t; exact ⟨t, rfl⟩
  | cons i l ih =>
    intro h h' t
    have hi := hl i (by simp)
    obtain ⟨h1, h2⟩ := (t i hi).reset
    simp only [Microgrid.resetMany]
    cases hs : (h i).reset with
    | mk m r =>
    cases hs' : (h' i).reset with
    | mk m' r' =>
    rw [hs, hs'] at h1 h2
    simp only at h1 h2
    cases r <;> cases r' <;> simp only [Except.isOk, Except.toBool, reduceCtorEq] at h2
    · exact ⟨t.set i h1, rfl⟩
    · exact ih (fun j hj => hl j (by simp [hj])) (t.set i h1)

theorem Sun.setInitial (v : Nat) {l : List Nat} (hl : ∀ i ∈ l, i ∈ ids) : ∀ {h h' : Heap} (_ : Sun F ids h h'),
    Sun F ids (Microgrid.setInitialMany h v l) (Microgrid.setInitialMany h' v l) := by
  induction l with
  | nil => intro h h' t; exact t
  | cons i l ih =>
    intro h h' t
    have hi := hl i (by simp)
    simp only [Microgrid.setInitialMany]
    exact ih (fun j hj => hl j (by simp [hj])) (t.set i ((t i hi).withInitial v))

theorem Sun.setFinal (v : Int) {l : List Nat} (hl : ∀ i ∈ l, i ∈ ids) : ∀ {h h' : Heap} (_ : Sun F ids h h')
    (any : Bool), Sun F ids (Microgrid.setFinalMany h v any l).1 (Microgrid.setFinalMany h' v any l).1 ∧
      (Microgrid.setFinalMany h' v any l).2 = (Microgrid.setFinalMany h v any l).2 := by
  induction l with
  | nil => intro h h' t any; exact ⟨t, rfl⟩
  | cons i l ih =>
    intro h h' t any
    have hi := hl i (by simp)
    obtain ⟨h1, h2⟩ := (t i hi).setFinal v
    simp only [Microgrid.setFinalMany]
    cases hs : Microgrid.setFinalOne (h i) v with
    | mk m r =>
    cases hs' : Microgrid.setFinalOne (h' i) v with
    | mk m' r' =>
    rw [hs, hs'] at h1 h2
    simp only at h1 h2
    subst h2
    cases r' with
    | error e => exact ⟨t.set i h1, rfl⟩
    | ok b => exact ih (fun j hj => hl j (by simp [hj])) (t.set i h1) _

end

/-! ### Microgrids -/

/-- Two microgrids without reward shaping, the second sunnier. -/
structure SunGrid (F : Nat → FFC) (g g' : Microgrid) : Prop where
  heap : Sun F g.cont.fullList g.heap g'.heap
  cont : g'.cont = g.cont
  initialStep : g'.initialStep = g.initialStep
  finalStep : g'.finalStep = g.finalStep
  shaper : g.shaper = none
  shaper' : g'.shaper = none
  trajectory : g'.trajectory = g.trajectory
  calls : g'.calls = g.calls
  level : ∀ f, ∀ x ∈ Container.toTuples (g.cont.levelDict f), F x.2 = f

section
variable {F : Nat → FFC} {g g' : Microgrid}

theorem NoWorse.error (e : Err) (b : Except Err (Option RunOut)) : NoWorse (.error e) b := ⟨by simp, by simp⟩

theorem balance_none (a : StepAcc) (ci : CostInfo) :
    a.balance none ci = .ok (a.provided.sum, a.absorbed.sum, a.reward, a.reward) := rfl

theorem isclose_closer {p p' c : ℚ} (h1 : p ≤ p') (h2 : p' ≤ c) (h : isclose p c = true) : isclose p' c = true := by
  unfold isclose at *
  rw [decide_eq_true_eq] at *
  rw [abs_of_nonpos (by linarith)] at *
  linarith

theorem SunGrid.run (t : SunGrid F g g') (control : List (String × Ctrl)) (n : Bool) :
    SunGrid F (g.run control n).1 (g'.run control n).1 ∧
      NoWorse ((g.run control n).2.map some) ((g'.run control n).2.map some) := by
  obtain ⟨h, c, i₀, f₀, sh, tr, ca, bl, ol⟩ := g
  obtain ⟨h', c', i', f', sh', tr', ca', bl', ol'⟩ := g'
  obtain ⟨th, q1, q2, q3, q4, q5, q6, q7, level⟩ := t
  simp only at th q1 q2 q3 q4 q5 q6 q7 level
  subst q1 q2 q3 q4 q5 q6 q7
  have withHeap : ∀ {h h' : Heap} {L L' : Logger}, Sun F c'.fullList h h' →
      SunGrid F ⟨h, c', i', f', none, tr', ca', L, ol⟩ ⟨h', c', i', f', none, tr', ca', L', ol'⟩ := fun th =>
    ⟨th, rfl, rfl, rfl, rfl, rfl, rfl, rfl, level⟩
  have hci : costInfo h' c'.fullDict = costInfo h c'.fullDict :=
    th.costInfo fun x hx i hi => Container.full_fullList (toTuples_mem hx hi)
  unfold Microgrid.run
  simp only [hci, balance_none]
  cases costInfo h c'.fullDict with
  | error e => exact ⟨withHeap th, .error e _⟩
  | ok ci =>
    simp only
    have hfix : (⟨h', c', i', f', none, tr', ca', bl', ol'⟩ : Microgrid).fixedSteps =
      (⟨h, c', i', f', none, tr', ca', bl, ol⟩ : Microgrid).fixedSteps := rfl
    rw [hfix]
    generalize hfs : (⟨h, c', i', f', none, tr', ca', bl, ol⟩ : Microgrid).fixedSteps = fs
    have s1 := Sun.stepMany (F := F) (l := fs) (ids := c'.fullList) (by
      intro x hx
      rw [← hfs] at hx
      obtain ⟨ni, hni, rfl⟩ := List.mem_map.mp hx
      exact ⟨Container.level_fullList hni, by rw [level .fixed ni hni]; decide⟩) false th
      (acc := {}) (acc' := {}) ⟨rfl, rfl, rfl, rfl⟩
    cases e1 : RunSt.stepMany fs false ⟨h, {}⟩ with
    | mk s r =>
    cases e1' : RunSt.stepMany fs false ⟨h', {}⟩ with
    | mk s' r' =>
    rw [e1, e1'] at s1
    obtain ⟨t₁, a₁, hr⟩ := s1
    rcases isOk_unit hr with ⟨rfl, rfl⟩ | ⟨x1, x2, rfl, rfl⟩
    swap
    · exact ⟨withHeap t₁, .error _ _⟩
    simp only
    have s2 := Sun.stepControls (F := F) (d := c'.levelDict .controllable) (ids := c'.fullList) control n
      (fun x hx i hi => ⟨Container.level_fullList (toTuples_mem hx hi),
        by rw [level .controllable _ (toTuples_mem hx hi)]; decide⟩) t₁ a₁
    cases e2 : RunSt.stepControls control n (c'.levelDict .controllable) s with
    | mk s₂ r =>
    cases e2' : RunSt.stepControls control n (c'.levelDict .controllable) s' with
    | mk s₂' r' =>
    obtain ⟨hs, as⟩ := s
    obtain ⟨hs', as'⟩ := s'
    simp only at s2
    rw [e2, e2'] at s2
    obtain ⟨t₂, a₂, hr⟩ := s2
    rcases isOk_unit hr with ⟨rfl, rfl⟩ | ⟨x1, x2, rfl, rfl⟩
    swap
    · exact ⟨withHeap t₂, .error _ _⟩
    simp only
    obtain ⟨h₂, b₂⟩ := s₂
    obtain ⟨h₂', b₂'⟩ := s₂'
    simp only at t₂ a₂ ⊢
    rw [a₂.provided, a₂.absorbed]
    have hmem : ∀ x ∈ Container.toTuples (c'.levelDict .flex), x.2 ∈ c'.fullList ∧ F x.2 = .flex := fun x hx =>
      ⟨Container.level_fullList hx, level .flex x hx⟩
    generalize hd : b₂.provided.sum - b₂.absorbed.sum = d
    have s3 : ∃ x y, Microgrid.dispatch ⟨h, c', i', f', none, tr', ca', bl, ol⟩ d ⟨h₂, b₂⟩ = x ∧
        Microgrid.dispatch ⟨h', c', i', f', none, tr', ca', bl', ol'⟩ d ⟨h₂', b₂'⟩ = y ∧
        Sun F c'.fullList x.1.heap y.1.heap ∧ y.2.isOk = x.2.isOk ∧ (x.2.isOk = true → x.1.acc.reward ≤ y.1.acc.reward ∧
          y.1.acc.done = x.1.acc.done ∧ (isclose x.1.acc.provided.sum x.1.acc.absorbed.sum = true →
            isclose y.1.acc.provided.sum y.1.acc.absorbed.sum = true)) := by
      refine ⟨_, _, rfl, rfl, ?_⟩
      unfold Microgrid.dispatch Microgrid.flexList
      simp only
      split
      · obtain ⟨q1, q2, q3⟩ := Sun.absorbExcess hmem t₂ a₂ d
        refine ⟨q1, q3, fun _ => ⟨q2.reward.ge, q2.done, fun hc => ?_⟩⟩
        rwa [q2.provided, q2.absorbed]
      · rename_i hneg
        obtain ⟨q1, q2, q3⟩ := Sun.coverNeed hmem t₂ (n := -d) (n' := -d)
          ⟨a₂.reward.ge, a₂.done, a₂.absorbed, by linarith, le_rfl, by rw [a₂.provided]⟩
        refine ⟨q1, q2, fun hok => ?_⟩
        obtain ⟨n, n', e, hT, hA⟩ := q3 hok
        refine ⟨e.reward, e.done, fun hc => ?_⟩
        rw [e.absorbed]
        have h1 := e.total
        have h2 := e.less
        have h3 := e.nonneg
        refine isclose_closer ?_ ?_ hc
        · linarith
        · rw [hA]; linarith
    obtain ⟨⟨⟨h₃, b₃⟩, r⟩, ⟨⟨h₃', b₃'⟩, r'⟩, e3, e3', t₃, hr, hacc⟩ := s3
    rw [e3, e3']
    simp only at t₃ hr hacc ⊢
    rcases isOk_unit hr with ⟨rfl, rfl⟩ | ⟨x1, x2, rfl, rfl⟩
    swap
    · exact ⟨withHeap t₃, .error _ _⟩
    obtain ⟨h1, h2, h3⟩ := hacc rfl
    simp only
    unfold Microgrid.finish
    simp only [balance_none]
    cases hc : isclose b₃.provided.sum b₃.absorbed.sum with
    | false =>
      simp only [if_true]
      split
      · exact ⟨withHeap t₃, .error _ _⟩
      · exact ⟨withHeap t₃, .error _ _⟩
    | true =>
      rw [h3 hc]
      simp only [Bool.true_eq_false, if_false, StepAcc.shapedReward]
      refine ⟨withHeap t₃, by simp [Except.map], ?_⟩
      intro o ho
      simp only [Except.map, Except.ok.injEq, Option.some.injEq] at ho
      subst ho
      exact ⟨_, rfl, h1, h2⟩

theorem SunGrid.setTrajectory (t : SunGrid F g g') :
    SunGrid F g.setTrajectory.1 g'.setTrajectory.1 ∧ g'.setTrajectory.2 = g.setTrajectory.2 := by
  obtain ⟨h, c, i₀, f₀, sh, tr, ca, bl, ol⟩ := g
  obtain ⟨h', c', i', f', sh', tr', ca', bl', ol'⟩ := g'
  obtain ⟨th, q1, q2, q3, q4, q5, q6, q7, level⟩ := t
  simp only at th q1 q2 q3 q4 q5 q6 q7 level
  subst q1 q2 q3 q4 q5 q6 q7
  unfold Microgrid.setTrajectory
  cases tr' with
  | none => exact ⟨⟨th, rfl, rfl, rfl, rfl, rfl, rfl, rfl, level⟩, rfl⟩
  | some f =>
    simp only
    cases f ca' i' f' with
    | error e => exact ⟨⟨th, rfl, rfl, rfl, rfl, rfl, rfl, rfl, level⟩, rfl⟩
    | ok x =>
      obtain ⟨i, fin⟩ := x
      simp only
      have s1 := Sun.setInitial i (l := c'.fullList) (fun _ h => h) th
      obtain ⟨s2, s3⟩ := Sun.setFinal fin (l := c'.fullList) (fun _ h => h) s1 false
      exact ⟨⟨s2, rfl, rfl, rfl, rfl, rfl, rfl, rfl, level⟩, s3⟩

theorem SunGrid.reset (t : SunGrid F g g') :
    SunGrid F g.reset.1 g'.reset.1 ∧ g'.reset.2.isOk = g.reset.2.isOk := by
  obtain ⟨t₁, e⟩ := t.setTrajectory
  have hcont : g.setTrajectory.1.cont = g.cont := by
    unfold Microgrid.setTrajectory
    repeat' split
    all_goals rfl
  unfold Microgrid.reset
  cases h1 : g.setTrajectory with
  | mk g₁ r =>
  cases h1' : g'.setTrajectory with
  | mk g₁' r' =>
  rw [h1, h1'] at t₁ e
  rw [h1] at hcont
  simp only at t₁ e hcont
  subst e
  cases r' with
  | error e => exact ⟨t₁, rfl⟩
  | ok u =>
    simp only
    rw [t.cont]
    obtain ⟨s1, s2⟩ := Sun.resetMany (F := F) (l := (Container.toTuples g.cont.fullDict).map Prod.snd)
      (ids := g₁.cont.fullList) (by
        intro i hi
        obtain ⟨ni, hni, rfl⟩ := List.mem_map.mp hi
        rw [hcont]
        exact Container.full_fullList hni) t₁.heap
    cases h2 : Microgrid.resetMany g₁.heap ((Container.toTuples g.cont.fullDict).map Prod.snd) with
    | mk hh r =>
    cases h2' : Microgrid.resetMany g₁'.heap ((Container.toTuples g.cont.fullDict).map Prod.snd) with
    | mk hh' r' =>
    rw [h2, h2'] at s1 s2
    rcases isOk_unit s2 with ⟨rfl, rfl⟩ | ⟨x1, x2, rfl, rfl⟩
    · exact ⟨⟨s1, t₁.cont, t₁.initialStep, t₁.finalStep, t₁.shaper, t₁.shaper', t₁.trajectory, t₁.calls, t₁.level⟩, rfl⟩
    · exact ⟨⟨s1, t₁.cont, t₁.initialStep, t₁.finalStep, t₁.shaper, t₁.shaper', t₁.trajectory, t₁.calls, t₁.level⟩, rfl⟩

theorem SunGrid.results (t : SunGrid F g g') (ops : List GOp) :
    List.Forall₂ NoWorse (g.results ops) (g'.results ops) ∧ SunGrid F (Pymgrid.runG g ops) (Pymgrid.runG g' ops) := by
  induction ops generalizing g g' with
  | nil => exact ⟨.nil, t⟩
  | cons op ops ih =>
    cases op with
    | run c n =>
      obtain ⟨t', e⟩ := t.run c n
      obtain ⟨h1, h2⟩ := ih t'
      exact ⟨.cons e h1, h2⟩
    | reset =>
      obtain ⟨t', e⟩ := t.reset
      obtain ⟨h1, h2⟩ := ih t'
      refine ⟨.cons ?_ h1, h2⟩
      rcases isOk_unit e with ⟨e1, e2⟩ | ⟨x1, x2, e1, e2⟩
      · rw [e1, e2]; exact ⟨fun _ => rfl, by simp [Except.map]⟩
      · rw [e1]; exact .error _ _

/-! ### Building the two microgrids -/

theorem Sunnier.finalStep? {m m' : Module} (h : Sunnier m m') : m'.finalStep? = m.finalStep? := by
  obtain ⟨hk, hk', -, -, hf, -, -⟩ := h
  unfold Module.finalStep?
  rw [hk, hk']
  simp [hf]

theorem SunMod.alike {f : FFC} {m m' : Module} (h : SunMod f m m') :
    m'.ffc = m.ffc ∧ m'.ss = m.ss ∧ m'.initialStep = m.initialStep ∧ m'.finalStep? = m.finalStep? := by
  obtain ⟨hf, wf, wf', -, ⟨L, rfl⟩ | hs⟩ := h
  · exact ⟨rfl, rfl, rfl, rfl⟩
  · refine ⟨(hs.flex' wf').trans (hs.flex wf).symm, ?_, ?_, hs.finalStep?⟩
    · obtain ⟨hk, hk', -, -, -, -, -⟩ := hs
      have := hk.trans rfl
      unfold Module.ss Module.isSource Module.isSink
      rw [hk, hk']
    · obtain ⟨-, -, hi, -, -, -, -⟩ := hs
      exact hi

theorem create_sunnier {h h' : Heap} {mods : List (String × Nat)}
    (t : ∀ nm ∈ mods, SunMod (h nm.2).ffc (h nm.2) (h' nm.2))
    {tr : Option (Nat → Nat → Option Nat → Except Err (Nat × Nat))} {g : Microgrid}
    (hc : Microgrid.create h mods none tr = .ok g) :
    ∃ g', Microgrid.create h' mods none tr = .ok g' ∧ SunGrid (fun i => (h i).ffc) g g' := by
  have hb : Container.build h' mods = Container.build h mods :=
    Container.build_congr fun nm hn => ⟨(t nm hn).alike.1, (t nm hn).alike.2.1⟩
  have full : Sun (fun i => (h i).ffc) (Container.build h mods).fullList h h' := by
    intro i hi
    obtain ⟨nm, hm, rfl⟩ := List.mem_map.mp ((Container.fullList_perm h mods).mem_iff.mp hi)
    exact t nm hm
  have level : ∀ f, ∀ x ∈ Container.toTuples ((Container.build h mods).levelDict f), (h x.2).ffc = f :=
    fun f x hx => (Container.mem_level (n := x.1) (i := x.2) hx).2
  have check : ∀ (i0 : Nat) (f0 : Option Nat),
      Microgrid.checkTrajectory { heap := h, cont := Container.build h mods, initialStep := i0, finalStep := f0, shaper := none } tr = .ok g →
      ∃ g', Microgrid.checkTrajectory { heap := h', cont := Container.build h mods, initialStep := i0, finalStep := f0, shaper := none } tr = .ok g' ∧
        SunGrid (fun i => (h i).ffc) g g' := by
    intro i0 f0 hg
    unfold Microgrid.checkTrajectory at *
    cases tr with
    | none =>
      simp only [Except.ok.injEq] at hg ⊢
      subst hg
      exact ⟨_, rfl, full, rfl, rfl, rfl, rfl, rfl, rfl, rfl, level⟩
    | some f =>
      simp only at hg ⊢
      cases hf : f 0 i0 f0 with
      | error e => rw [hf] at hg; simp at hg
      | ok x =>
        rw [hf] at hg
        simp only at hg ⊢
        split at hg
        · simp at hg
        · rename_i h1
          rw [if_neg h1]
          split at hg
          · simp at hg
          · rename_i h2
            rw [if_neg h2]
            split at hg
            · simp at hg
            · rename_i h3
              rw [if_neg h3]
              simp only [Except.ok.injEq] at hg ⊢
              subst hg
              exact ⟨_, rfl, full, rfl, rfl, rfl, rfl, rfl, rfl, rfl, level⟩
  have mem : ∀ i ∈ (Container.toTuples (Container.build h mods).fullDict).map Prod.snd, SunMod (h i).ffc (h i) (h' i) := by
    intro i hi
    obtain ⟨ni, hni, rfl⟩ := List.mem_map.mp hi
    exact full _ (Container.full_fullList hni)
  unfold Microgrid.create at *
  simp only [hb] at hc ⊢
  have e1 : ((Container.toTuples (Container.build h mods).fullDict).map Prod.snd).map (fun i => (h' i).initialStep) =
      ((Container.toTuples (Container.build h mods).fullDict).map Prod.snd).map (fun i => (h i).initialStep) :=
    List.map_congr_left fun i hi => (mem i hi).alike.2.2.1
  have e2 : ((Container.toTuples (Container.build h mods).fullDict).map Prod.snd).filterMap (fun i => (h' i).finalStep?) =
      ((Container.toTuples (Container.build h mods).fullDict).map Prod.snd).filterMap (fun i => (h i).finalStep?) :=
    List.filterMap_congr fun i hi => (mem i hi).alike.2.2.2
  rw [e1, e2]
  split
  · rename_i h0
    rw [if_pos h0] at hc
    exact check _ _ hc
  · rename_i h0
    rw [if_neg h0] at hc
    cases u1 : uniqueVal (((Container.toTuples (Container.build h mods).fullDict).map Prod.snd).map (fun i => (h i).initialStep)) with
    | error e => rw [u1] at hc; simp at hc
    | ok i0 =>
      rw [u1] at hc
      simp only at hc ⊢
      cases u2 : uniqueVal (((Container.toTuples (Container.build h mods).fullDict).map Prod.snd).filterMap (fun i => (h i).finalStep?)) with
      | error e => rw [u2] at hc; simp at hc
      | ok f0 =>
        rw [u2] at hc
        simp only at hc ⊢
        exact check _ _ hc

/-- Two renewable modules from the constructor. -/
theorem mkRenewable_sunnier {xs xs' : List ℚ} {param param' : FKind} {hz hz' i : Nat} {fs : Int} {r r' : Bool}
    {m m' : Module} (hm : mkRenewable xs param hz i fs r = .ok m) (hm' : mkRenewable xs' param' hz' i fs r' = .ok m')
    (h : List.Forall₂ (fun x x' => |x| ≤ |x'|) xs xs') : Sunnier m m' := by
  obtain ⟨t, mn, mx, wf, -, -, s, -, hi, hc, -⟩ := mkRenewable_inv hm
  obtain ⟨t', mn', mx', wf', -, -, s', -, hi', hc', -⟩ := mkRenewable_inv hm'
  refine .mk (t := t) (t' := t') wf.kind wf'.kind (hi'.trans hi.symm) (hc'.trans hc.symm) ?_ ?_ ?_
  · rw [s.finalStep, s'.finalStep]; simp only [TS.blank, List.length_map, h.length_eq]
  · rw [s.rows, s'.rows]; simp only [TS.blank, List.length_map, h.length_eq]
  · intro c
    unfold TS.cell
    rw [s.rows, s'.rows]
    simp only [TS.blank]
    clear * - h
    induction h generalizing c with
    | nil => simp
    | cons hx _ ih =>
      cases c with
      | zero => simpa using hx
      | succ c => simpa using ih c

end

end Pymgrid
