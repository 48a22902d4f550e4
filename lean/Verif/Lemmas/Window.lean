import Verif.Lemmas.Ledger
import Verif.Lemmas.Sunnier
import Verif.Spec.Window

set_option autoImplicit false

/-! Lemmas for C88: rows outside the window do not matter. -/

namespace Pymgrid

namespace Module

/-! ### Modules without a series do not look at the clock -/

/-- `m'` is `m` but for the log and the clock. -/
def ClockEq (m m' : Module) : Prop := ∃ L i c, m' = { m with logger := L, initialStep := i, currentStep := c }

/-- A module with another log and clock. -/
def clocked (m : Module) (L : Logger) (i c : Nat) : Module := { m with logger := L, initialStep := i, currentStep := c }

section
variable (m : Module) (L : Logger) (i c : Nat)

theorem update_clock (hs : m.series? = none) (e : Option ℚ) (d : Dir) :
    (m.clocked L i c).update e d = ((m.update e d).1.clocked L i c, (m.update e d).2) := by
  obtain ⟨a1, a2, a3, a4, a5, a6, a7, a8, a9, k⟩ := m
  cases k with
  | grid p t => simp [series?] at hs
  | load t => simp [series?] at hs
  | renewable t => simp [series?] at hs
  | _ => rfl

theorem maxProduction_clock (hs : m.series? = none) : (m.clocked L i c).maxProduction = m.maxProduction := by
  obtain ⟨a1, a2, a3, a4, a5, a6, a7, a8, a9, k⟩ := m
  cases k with
  | grid p t => simp [series?] at hs
  | load t => simp [series?] at hs
  | renewable t => simp [series?] at hs
  | _ => rfl

theorem maxConsumption_clock (hs : m.series? = none) : (m.clocked L i c).maxConsumption = m.maxConsumption := by
  obtain ⟨a1, a2, a3, a4, a5, a6, a7, a8, a9, k⟩ := m
  cases k with
  | grid p t => simp [series?] at hs
  | load t => simp [series?] at hs
  | renewable t => simp [series?] at hs
  | _ => rfl

theorem stateDict_clock (hs : m.series? = none) : (m.clocked L i c).stateDict = m.stateDict := by
  obtain ⟨a1, a2, a3, a4, a5, a6, a7, a8, a9, k⟩ := m
  cases k with
  | grid p t => simp [series?] at hs
  | load t => simp [series?] at hs
  | renewable t => simp [series?] at hs
  | _ => rfl

theorem marginalCost_clock (hs : m.series? = none) : (m.clocked L i c).marginalCost = m.marginalCost := by
  obtain ⟨a1, a2, a3, a4, a5, a6, a7, a8, a9, k⟩ := m
  cases k with
  | grid p t => simp [series?] at hs
  | load t => simp [series?] at hs
  | renewable t => simp [series?] at hs
  | _ => rfl

theorem absorptionCost_clock (hs : m.series? = none) : (m.clocked L i c).absorptionCost = m.absorptionCost := by
  obtain ⟨a1, a2, a3, a4, a5, a6, a7, a8, a9, k⟩ := m
  cases k with
  | grid p t => simp [series?] at hs
  | load t => simp [series?] at hs
  | renewable t => simp [series?] at hs
  | _ => rfl

theorem asSource_clock (hs : m.series? = none) (x : ℚ) :
    (m.clocked L i c).asSource x = ((m.asSource x).1.clocked L i c, (m.asSource x).2) := by
  have h1 : (m.clocked L i c).isSource = m.isSource := rfl
  have h2 : (m.clocked L i c).ffc = m.ffc := rfl
  have h3 : (m.clocked L i c).raiseErrors = m.raiseErrors := rfl
  have h4 : (m.clocked L i c).minProduction = m.minProduction := rfl
  unfold asSource
  simp only [h1, h2, h3, h4, maxProduction_clock m L i c hs, update_clock m L i c hs]
  repeat' split
  all_goals rfl

theorem asSink_clock (hs : m.series? = none) (x : ℚ) :
    (m.clocked L i c).asSink x = ((m.asSink x).1.clocked L i c, (m.asSink x).2) := by
  have h2 : (m.clocked L i c).ffc = m.ffc := rfl
  have h3 : (m.clocked L i c).raiseErrors = m.raiseErrors := rfl
  unfold asSink
  simp only [h2, h3, maxConsumption_clock m L i c hs, update_clock m L i c hs]
  repeat' split
  all_goals rfl

theorem unnormalizedStep_clock (hs : m.series? = none) (q : ℚ) :
    (m.clocked L i c).unnormalizedStep q = ((m.unnormalizedStep q).1.clocked L i c, (m.unnormalizedStep q).2) := by
  have h1 : (m.clocked L i c).isSource = m.isSource := rfl
  have h2 : (m.clocked L i c).isSink = m.isSink := rfl
  unfold unnormalizedStep
  simp only [h1, h2, asSource_clock m L i c hs, asSink_clock m L i c hs]
  repeat' split
  all_goals rfl

theorem update_series (hs : m.series? = none) (e : Option ℚ) (d : Dir) : (m.update e d).1.series? = none := by
  obtain ⟨a1, a2, a3, a4, a5, a6, a7, a8, a9, k⟩ := m
  cases k with
  | grid p t => simp [series?] at hs
  | load t => simp [series?] at hs
  | renewable t => simp [series?] at hs
  | _ => rfl

theorem unnormalizedStep_series (hs : m.series? = none) (q : ℚ) : (m.unnormalizedStep q).1.series? = none := by
  unfold unnormalizedStep asSource asSink
  repeat' split
  all_goals first | exact hs | exact update_series m hs _ _

theorem updateStep_clock (hs : m.series? = none) (r : Bool) :
    m.updateStep r = ({ m with currentStep := if r then m.initialStep else m.currentStep + 1 }, .ok ()) := by
  obtain ⟨a1, a2, a3, a4, a5, a6, a7, a8, a9, k⟩ := m
  cases k with
  | grid p t => simp [series?] at hs
  | load t => simp [series?] at hs
  | renewable t => simp [series?] at hs
  | _ => rfl

theorem normalizedObs_clock (hs : m.series? = none) : (m.clocked L i c).normalizedObs = m.normalizedObs := by
  unfold normalizedObs state
  rw [stateDict_clock m L i c hs]
  rfl

end

theorem ClockEq.clocked (m : Module) (L : Logger) (i c : Nat) : ClockEq m (m.clocked L i c) := ⟨L, i, c, rfl⟩

theorem clock_stepEnergy (m : Module) (L : Logger) (i c : Nat) (hs : m.series? = none) (q : ℚ) :
    ClockEq (m.stepEnergy q).1 ((m.clocked L i c).stepEnergy q).1 ∧
      ((m.clocked L i c).stepEnergy q).2 = (m.stepEnergy q).2 ∧ (m.stepEnergy q).1.series? = none := by
  have hser := unnormalizedStep_series m hs q
  unfold stepEnergy
  rw [stateDict_clock m L i c hs, unnormalizedStep_clock m L i c hs]
  cases m.stateDict with
  | error e => exact ⟨.clocked m L i c, rfl, hs⟩
  | ok pre =>
    simp only
    cases hu : m.unnormalizedStep q with
    | mk m₁ r =>
    rw [hu] at hser
    simp only at hser
    cases r with
    | error e => exact ⟨.clocked m₁ L i c, rfl, hser⟩
    | ok u =>
      simp only [log]
      have hr : (m₁.clocked L i c).logRow pre u = m₁.logRow pre u := rfl
      rw [hr]
      cases m₁.logRow pre u with
      | error e => exact ⟨.clocked m₁ L i c, rfl, hser⟩
      | ok row =>
        simp only
        have e1 : updateStep { m₁ with logger := m₁.logger.log row } false =
            ({ m₁ with logger := m₁.logger.log row, currentStep := m₁.currentStep + 1 }, .ok ()) :=
          updateStep_clock { m₁ with logger := m₁.logger.log row } hser false
        have e2 : updateStep { m₁.clocked L i c with logger := (m₁.clocked L i c).logger.log row } false =
            ({ m₁.clocked L i c with logger := (m₁.clocked L i c).logger.log row, currentStep := c + 1 }, .ok ()) :=
          updateStep_clock { m₁.clocked L i c with logger := (m₁.clocked L i c).logger.log row } hser false
        rw [e1, e2]
        simp only
        have e3 : normalizedObs { m₁ with logger := m₁.logger.log row, currentStep := m₁.currentStep + 1 } =
            m₁.normalizedObs := normalizedObs_clock m₁ _ m₁.initialStep _ hser
        have e4 : normalizedObs { m₁.clocked L i c with logger := (m₁.clocked L i c).logger.log row, currentStep := c + 1 } =
            m₁.normalizedObs := normalizedObs_clock m₁ _ i _ hser
        rw [e3, e4]
        cases m₁.normalizedObs with
        | error e => exact ⟨⟨_, i, c + 1, rfl⟩, rfl, hser⟩
        | ok obs => exact ⟨⟨_, i, c + 1, rfl⟩, rfl, hser⟩

theorem clock_baseStep (m : Module) (L : Logger) (i c : Nat) (hs : m.series? = none) (a : Act) (n : Bool) :
    ClockEq (m.baseStep a n).1 ((m.clocked L i c).baseStep a n).1 ∧
      ((m.clocked L i c).baseStep a n).2 = (m.baseStep a n).2 ∧ (m.baseStep a n).1.series? = none := by
  have h1 : (m.clocked L i c).denormalizeAct a = m.denormalizeAct a := rfl
  have h2 : (m.clocked L i c).energyPos = m.energyPos := rfl
  unfold baseStep
  simp only [h1, h2]
  cases (if n = true then m.denormalizeAct a else Except.ok a) with
  | error e => exact ⟨.clocked m L i c, rfl, hs⟩
  | ok a' =>
    simp only
    cases energyOf m.energyPos a' with
    | error e => exact ⟨.clocked m L i c, rfl, hs⟩
    | ok q => exact clock_stepEnergy m L i c hs q

theorem clock_step (m : Module) (L : Logger) (i c : Nat) (hs : m.series? = none) (a : Act) (n : Bool) :
    ClockEq (m.step a n).1 ((m.clocked L i c).step a n).1 ∧
      ((m.clocked L i c).step a n).2 = (m.step a n).2 ∧ (m.step a n).1.series? = none := by
  by_cases hg : ∃ g, m.kind = .genset g
  · obtain ⟨g, hk⟩ := hg
    obtain ⟨a1, a2, a3, a4, a5, a6, a7, a8, a9, k⟩ := m
    simp only at hk
    subst hk
    unfold step clocked
    simp only
    cases a with
    | num q => exact ⟨⟨L, i, c, rfl⟩, rfl, rfl⟩
    | arr l =>
      simp only
      cases l[0]? with
      | none => exact ⟨⟨L, i, c, rfl⟩, rfl, rfl⟩
      | some goal =>
        simp only
        split
        · exact ⟨⟨L, i, c, rfl⟩, rfl, rfl⟩
        · cases g.updateStatus goal with
          | error e => exact ⟨⟨L, i, c, rfl⟩, rfl, rfl⟩
          | ok g' => exact clock_baseStep ⟨a1, a2, a3, a4, a5, a6, a7, a8, a9, .genset g'⟩ L i c rfl _ n
  · have h1 : m.step a n = m.baseStep a n := step_eq_baseStep m a n fun g hk => hg ⟨g, hk⟩
    have h2 : (m.clocked L i c).step a n = (m.clocked L i c).baseStep a n :=
      step_eq_baseStep _ a n fun g hk => hg ⟨g, hk⟩
    rw [h1, h2]
    exact clock_baseStep m L i c hs a n

theorem clock_reset (m : Module) (L : Logger) (i c : Nat) (hs : m.series? = none) :
    ClockEq m.reset.1 (m.clocked L i c).reset.1 ∧ (m.clocked L i c).reset.2 = m.reset.2 ∧
      m.reset.1.series? = none := by
  have hs' : (m.clocked L i c).series? = none := hs
  unfold reset
  rw [updateStep_clock _ hs, updateStep_clock _ hs']
  simp only
  refine ⟨⟨_, _, _, rfl⟩, ?_, hs⟩
  exact (normalizedObs_clock m _ i i hs).trans (normalizedObs_clock m _ m.initialStep m.initialStep hs).symm

end Module

open Module

/-! ### Modules with a series -/

/-- The two modules with `n` rows left in the window. -/
structure WinTS (N n : Nat) (m m' : Module) (t t' : TS) : Prop where
  ts : m.TSWF t
  ts' : m'.TSWF t'
  works : t.Works
  works' : t'.Works
  kind : m'.kind = m.kind.withTS t'
  ffc : m'.ffc = m.ffc
  raises : m'.raiseErrors = m.raiseErrors
  prov : m'.provName = m.provName
  abs : m'.absName = m.absName
  act : m.ffc = .controllable → m'.actSpace = m.actSpace
  four : ∀ p u, m.kind = .grid p u → t.comps.length = 4
  rows : SameRows N m.initialStep m'.initialStep t t'
  clock : ∃ d, m.currentStep = m.initialStep + d ∧ m'.currentStep = m'.initialStep + d ∧ d + n ≤ N

/-- What a step did, apart from the observation. -/
def StepOut.deeds (o : StepOut) : ℚ × Bool × Info := (o.reward, o.done, o.info)

section
variable {N n : Nat} {m m' : Module} {t t' : TS}

theorem WinTS.less {k : Nat} (h : WinTS N n m m' t t') (hk : k ≤ n) : WinTS N k m m' t t' := by
  obtain ⟨d, h1, h2, h3⟩ := h.clock
  exact ⟨h.ts, h.ts', h.works, h.works', h.kind, h.ffc, h.raises, h.prov, h.abs, h.act, h.four, h.rows, d, h1, h2, by omega⟩

theorem WinTS.row (h : WinTS N (n + 1) m m' t t') :
    ∃ r, t.rows[m.currentStep]? = some r ∧ t'.rows[m'.currentStep]? = some r ∧
      t'.done m'.currentStep = t.done m.currentStep := by
  obtain ⟨d, h1, h2, h3⟩ := h.clock
  have hd : d < N := by omega
  have e := h.rows.rows d hd
  have l := h.rows.there d hd
  rw [← h1] at e l
  rw [← h2] at e
  refine ⟨t.rows[m.currentStep], by simp [l], by rw [e]; simp [l], ?_⟩
  unfold TS.done
  have := h.rows.done d hd
  rw [h1, h2]
  exact decide_eq_decide.mpr this

theorem WinTS.state (h : WinTS N (n + 1) m m' t t') :
    ∃ r s s', m.state = .ok (r ++ s) ∧ m'.state = .ok (r ++ s') ∧ r.length = t.comps.length := by
  obtain ⟨r, h1, h2, -⟩ := h.row
  refine ⟨r, t.flatCur, t'.flatCur, ?_, ?_, ?_⟩
  · rw [h.ts.state, TS.obsAt, h1]; rfl
  · rw [h.ts'.state, TS.obsAt, h2]; rfl
  · have := h.ts.valid.width (h.ts.valid.obsAt_within m.currentStep)
    rwa [TS.obsAt, h1] at this

theorem WinTS.stateAt (h : WinTS N (n + 1) m m' t t') {j : Nat} (hj : j < t.comps.length) :
    ∃ q s s', m.state = .ok s ∧ m'.state = .ok s' ∧ s[j]? = some q ∧ s'[j]? = some q := by
  obtain ⟨r, s, s', h1, h2, h3⟩ := h.state
  have hr : j < r.length := by omega
  exact ⟨r[j], _, _, h1, h2, by simp [List.getElem?_append_left hr, hr], by simp [List.getElem?_append_left hr, hr]⟩

theorem WinTS.gridStatus (h : WinTS N (n + 1) m m' t t') (h4 : t.comps.length = 4) : m'.gridStatus = m.gridStatus := by
  obtain ⟨q, s, s', h1, h2, h3, h4⟩ := h.stateAt (j := 3) (by omega)
  unfold Module.gridStatus
  simp only [h1, h2, h3, h4]

theorem WinTS.maxProduction (h : WinTS N (n + 1) m m' t t') : m'.maxProduction = m.maxProduction := by
  obtain ⟨r, h1, h2, -⟩ := h.row
  have hs := h.ts.series
  have hk' := h.kind
  have h4 := h.four
  have hst := h.gridStatus
  unfold Module.maxProduction
  rw [hk']
  unfold series? at hs
  cases hk : m.kind with
  | grid p u => simp only [Kind.withTS]; rw [hst (h4 p u hk)]
  | load u => rfl
  | renewable u =>
    rw [hk] at hs
    simp only [Option.some.injEq] at hs
    subst hs
    simp only [Kind.withTS, TS.itemAt, h1, h2]
  | _ => rw [hk] at hs; simp at hs

theorem WinTS.maxConsumption (h : WinTS N (n + 1) m m' t t') : m'.maxConsumption = m.maxConsumption := by
  obtain ⟨r, h1, h2, -⟩ := h.row
  have hs := h.ts.series
  have hk' := h.kind
  have h4 := h.four
  have hst := h.gridStatus
  unfold Module.maxConsumption
  rw [hk']
  unfold series? at hs
  cases hk : m.kind with
  | grid p u => simp only [Kind.withTS]; rw [hst (h4 p u hk)]
  | renewable u => rfl
  | load u =>
    rw [hk] at hs
    simp only [Option.some.injEq] at hs
    subst hs
    simp only [Kind.withTS, TS.itemAt, h1, h2]
  | _ => rw [hk] at hs; simp at hs

theorem WinTS.update (h : WinTS N (n + 1) m m' t t') (e : Option ℚ) (d : Dir) : (m'.update e d).2 = (m.update e d).2 := by
  obtain ⟨r, h1, h2, h3⟩ := h.row
  have hs := h.ts.series
  have hk' := h.kind
  unfold Module.update
  rw [hk']
  unfold series? at hs
  cases hk : m.kind with
  | grid p u =>
    rw [hk] at hs
    simp only [Option.some.injEq] at hs
    subst hs
    simp only [Kind.withTS, gridUpdate, TS.entryAt, h1, h2, h3]
  | renewable u =>
    rw [hk] at hs
    simp only [Option.some.injEq] at hs
    subst hs
    simp only [Kind.withTS, renewableUpdate, TS.itemAt, h1, h2, h3]
  | load u =>
    rw [hk] at hs
    simp only [Option.some.injEq] at hs
    subst hs
    simp only [Kind.withTS, loadUpdate, TS.itemAt, h1, h2, h3]
  | _ => rw [hk] at hs; simp at hs

theorem WinTS.isSource (h : WinTS N n m m' t t') : m'.isSource = m.isSource := by
  unfold Module.isSource; rw [h.kind]; cases m.kind <;> rfl

theorem WinTS.isSink (h : WinTS N n m m' t t') : m'.isSink = m.isSink := by
  unfold Module.isSink; rw [h.kind]; cases m.kind <;> rfl

theorem WinTS.minProduction (h : WinTS N n m m' t t') : m'.minProduction = m.minProduction := by
  unfold Module.minProduction; rw [h.kind]; cases m.kind <;> rfl

theorem WinTS.energyPos (h : WinTS N n m m' t t') : m'.energyPos = m.energyPos := by
  unfold Module.energyPos; rw [h.kind]; cases m.kind <;> rfl

theorem WinTS.marginalCost (h : WinTS N (n + 1) m m' t t') : m'.marginalCost = m.marginalCost := by
  have h4 := h.four
  have hst := h.stateAt (j := 0)
  unfold Module.marginalCost
  rw [h.kind]
  cases hk : m.kind with
  | grid p u =>
    obtain ⟨q, s, s', h1, h2, h3, h4⟩ := hst (by rw [h4 p u hk]; omega)
    simp only [Kind.withTS, h1, h2, h3, h4]
  | _ => rfl

theorem WinTS.absorptionCost (h : WinTS N (n + 1) m m' t t') : m'.absorptionCost = m.absorptionCost := by
  have h4 := h.four
  have hst := h.stateAt (j := 1)
  unfold Module.absorptionCost
  rw [h.kind]
  cases hk : m.kind with
  | grid p u =>
    obtain ⟨q, s, s', h1, h2, h3, h4⟩ := hst (by rw [h4 p u hk]; omega)
    simp only [Kind.withTS, h1, h2, h3, h4]
  | _ => rfl

theorem WinTS.unnormalizedStep (h : WinTS N (n + 1) m m' t t') (q : ℚ) :
    (m'.unnormalizedStep q).2 = (m.unnormalizedStep q).2 := by
  have hs : ∀ x, (m'.asSource x).2 = (m.asSource x).2 := by
    intro x
    unfold asSource
    rw [h.isSource, h.ffc, h.raises, h.maxProduction, h.minProduction]
    repeat' split
    all_goals first | rfl | exact h.update _ _
  have hk : ∀ x, (m'.asSink x).2 = (m.asSink x).2 := by
    intro x
    unfold asSink
    rw [h.ffc, h.raises, h.maxConsumption]
    repeat' split
    all_goals first | rfl | exact h.update _ _
  unfold Module.unnormalizedStep
  rw [h.isSource, h.isSink]
  repeat' split
  all_goals first | rfl | exact hs _ | exact hk _

theorem WinTS.moved (h : WinTS N n m m' t t') (L L' : Logger) {d k : Nat} {f f' : Option (List (List ℚ))}
    (hf : t.Shaped f) (hf' : t'.Shaped f') (hd : d + k ≤ N) :
    WinTS N k (m.moved t L (m.initialStep + d) f) (m'.moved t' L' (m'.initialStep + d) f')
      { t with cur := f, draws := t.draws + 1 } { t' with cur := f', draws := t'.draws + 1 } := by
  refine ⟨h.ts.moved L _ hf, h.ts'.moved L' _ hf', h.works, h.works', ?_, h.ffc, h.raises, h.prov, h.abs, h.act, ?_,
    ⟨h.rows.rows, h.rows.there, h.rows.done⟩, d, rfl, rfl, hd⟩
  · simp only [Module.moved, h.kind, Kind.withTS_withTS]
  · intro p u hk
    have : ∃ u', m.kind = .grid p u' := by
      simp only [Module.moved] at hk
      cases hm : m.kind with
      | grid p' u' => rw [hm] at hk; simp only [Kind.withTS, Kind.grid.injEq] at hk; exact ⟨u', by rw [hk.1]⟩
      | _ => rw [hm] at hk; simp [Kind.withTS] at hk
    obtain ⟨u', hu⟩ := this
    exact h.four p u' hu

theorem WinTS.stepEnergy (h : WinTS N (n + 1) m m' t t') (q : ℚ) :
    (∃ u u', WinTS N n (m.stepEnergy q).1 (m'.stepEnergy q).1 u u') ∧
      (m'.stepEnergy q).2.map StepOut.deeds = (m.stepEnergy q).2.map StepOut.deeds := by
  have hu := h.unnormalizedStep q
  have e1 := h.ts.unnormalizedStep q
  have e2 := h.ts'.unnormalizedStep q
  obtain ⟨d, c1, c2, c3⟩ := h.clock
  cases hr : m.unnormalizedStep q with
  | mk m₁ r =>
  cases hr' : m'.unnormalizedStep q with
  | mk m₁' r' =>
  rw [hr] at hu e1
  rw [hr'] at hu e2
  simp only at hu e1 e2
  subst hu e1 e2
  cases r' with
  | error e =>
    have s1 : m₁.stepEnergy q = (m₁, .error e) := by unfold Module.stepEnergy; simp [h.ts.stateDict, hr]
    have s2 : m₁'.stepEnergy q = (m₁', .error e) := by unfold Module.stepEnergy; simp [h.ts'.stateDict, hr']
    rw [s1, s2]
    exact ⟨⟨t, t', h.less (by omega)⟩, rfl⟩
  | ok u =>
    by_cases hp : (m₁.provName = none → u.info.provided = none) ∧ (m₁.absName = none → u.info.absorbed = none)
    · obtain ⟨hp, ha⟩ := hp
      obtain ⟨pre, row, f, obs, -, -, -, hf, he⟩ := h.ts.stepEnergy_ok hr hp ha h.works
      obtain ⟨pre', row', f', obs', -, -, -, hf', he'⟩ := h.ts'.stepEnergy_ok hr' (by rwa [h.prov]) (by rwa [h.abs]) h.works'
      rw [he, he', c1, c2]
      exact ⟨⟨_, _, h.moved (d := d + 1) (k := n) _ _ hf hf' (by omega)⟩, rfl⟩
    · have bad : ∀ (x : Module) pre, x.provName = m₁.provName → x.absName = m₁.absName → x.logRow pre u = .error .assertion := by
        intro x pre hx hx'
        unfold logRow
        rw [hx, hx']
        cases h1 : m₁.provName with
        | none =>
          by_cases h3 : u.info.provided = none
          · simp only [h3, if_true]
            cases h2 : m₁.absName with
            | none =>
              have h4 : ¬ u.info.absorbed = none := fun h4 => hp ⟨fun _ => h3, fun _ => h4⟩
              simp only [h4, if_false]
            | some k' => exact absurd ⟨fun _ => h3, fun h => by simp [h2] at h⟩ hp
          · simp only [h3, if_false]
        | some k' =>
          simp only
          cases h2 : m₁.absName with
          | none =>
            have h4 : ¬ u.info.absorbed = none := fun h4 => hp ⟨fun h => by simp [h1] at h, fun _ => h4⟩
            simp only [h4, if_false]
          | some k'' => exact absurd ⟨fun h => by simp [h1] at h, fun h => by simp [h2] at h⟩ hp
      have s1 : m₁.stepEnergy q = (m₁, .error .assertion) := by
        unfold Module.stepEnergy; simp only [h.ts.stateDict, hr, log, bad m₁ _ rfl rfl]
      have s2 : m₁'.stepEnergy q = (m₁', .error .assertion) := by
        unfold Module.stepEnergy; simp only [h.ts'.stateDict, hr', log, bad m₁' _ h.prov h.abs]
      rw [s1, s2]
      exact ⟨⟨t, t', h.less (by omega)⟩, rfl⟩

theorem WinTS.step (h : WinTS N (n + 1) m m' t t') (a : Act) (b : Bool) (hb : b = true → m.ffc = .controllable) :
    (∃ u u', WinTS N n (m.step a b).1 (m'.step a b).1 u u') ∧
      (m'.step a b).2.map StepOut.deeds = (m.step a b).2.map StepOut.deeds := by
  have hr : m'.request a b = m.request a b := by
    unfold Module.request
    rw [h.energyPos]
    cases b with
    | false => rfl
    | true => simp only [Module.denormalizeAct, h.act (hb rfl)]
  rw [h.ts.step_eq, h.ts'.step_eq, hr]
  cases m.request a b with
  | error e => exact ⟨⟨t, t', h.less (by omega)⟩, rfl⟩
  | ok q => exact h.stepEnergy q

theorem WinTS.reset (h : WinTS N n m m' t t') :
    (∃ u u', WinTS N N m.reset.1 m'.reset.1 u u') ∧ m'.reset.2.isOk = m.reset.2.isOk := by
  obtain ⟨f₀, hf₀⟩ := h.ts.valid.forecast_ok h.works m.initialStep
  obtain ⟨f₁, hf₁⟩ := h.ts'.valid.forecast_ok h.works' m'.initialStep
  rcases h.ts.reset with ⟨f, obs, -, hf, he⟩ | ⟨e, he, -⟩
  · rcases h.ts'.reset with ⟨f', obs', -, hf', he'⟩ | ⟨e, he', -⟩
    · rw [he, he']
      exact ⟨⟨_, _, h.moved (d := 0) (k := N) _ _ hf hf' (by omega)⟩, rfl⟩
    · rw [hf₁] at he'; simp at he'
  · rw [hf₀] at he; simp at he

end

/-! ### Heaps -/

/-- Two modules with `n` rows left in the window. -/
def WinMod (f : FFC) (N n : Nat) (m m' : Module) : Prop :=
  m.WF ∧ m.ffc = f ∧ ((m.series? = none ∧ ClockEq m m') ∨ ∃ t t', WinTS N n m m' t t')

section
variable {f : FFC} {N n : Nat} {m m' : Module}

theorem WinMod.less {k : Nat} (h : WinMod f N n m m') (hk : k ≤ n) : WinMod f N k m m' := by
  obtain ⟨wf, hf, h | ⟨t, t', h⟩⟩ := h
  · exact ⟨wf, hf, .inl h⟩
  · exact ⟨wf, hf, .inr ⟨t, t', h.less hk⟩⟩

theorem WinMod.step (h : WinMod f N (n + 1) m m') (a : Act) (b : Bool) (hb : b = true → f = .controllable) :
    WinMod f N n (m.step a b).1 (m'.step a b).1 ∧ (m'.step a b).2.map StepOut.deeds = (m.step a b).2.map StepOut.deeds := by
  obtain ⟨wf, hf, ⟨hs, L, i, c, rfl⟩ | ⟨t, t', h⟩⟩ := h
  · obtain ⟨h1, h2, h3⟩ := clock_step m L i c hs a b
    exact ⟨⟨wf.step a b, (frame_step m a b).ffc.trans hf, .inl ⟨h3, h1⟩⟩, congrArg _ h2⟩
  · obtain ⟨h1, h2⟩ := h.step a b fun e => hf.trans (hb e)
    exact ⟨⟨wf.step a b, (frame_step m a b).ffc.trans hf, .inr h1⟩, h2⟩

theorem WinMod.reset (h : WinMod f N n m m') :
    WinMod f N N m.reset.1 m'.reset.1 ∧ (∃ o, m.reset.2 = .ok o) ∧ ∃ o, m'.reset.2 = .ok o := by
  obtain ⟨wf, hf, ⟨hs, L, i, c, rfl⟩ | ⟨t, t', h⟩⟩ := h
  · obtain ⟨h1, h2, h3⟩ := clock_reset m L i c hs
    exact ⟨⟨wf.reset, (frame_reset m).ffc.trans hf, .inl ⟨h3, h1⟩⟩, wf.reset_ok, h2 ▸ wf.reset_ok⟩
  · obtain ⟨h1, h2⟩ := h.reset
    refine ⟨⟨wf.reset, (frame_reset m).ffc.trans hf, .inr h1⟩, wf.reset_ok, ?_⟩
    obtain ⟨o, ho⟩ := wf.reset_ok
    rw [ho] at h2
    cases hr : m'.reset.2 with
    | ok o' => exact ⟨o', rfl⟩
    | error e => rw [hr] at h2; simp [Except.isOk, Except.toBool] at h2

theorem WinMod.sinkAmount (h : WinMod f N (n + 1) m m') (x : ℚ) : sinkAmount m' x = Pymgrid.sinkAmount m x := by
  unfold Pymgrid.sinkAmount
  obtain ⟨wf, hf, ⟨hs, L, i, c, rfl⟩ | ⟨t, t', h⟩⟩ := h
  · have := maxConsumption_clock m L i c hs
    simp only [clocked] at this
    rw [this]
    rfl
  · rw [h.isSink, h.maxConsumption]

theorem WinMod.sourceAmount (h : WinMod f N (n + 1) m m') (x : ℚ) : sourceAmount m' x = Pymgrid.sourceAmount m x := by
  unfold Pymgrid.sourceAmount
  obtain ⟨wf, hf, ⟨hs, L, i, c, rfl⟩ | ⟨t, t', h⟩⟩ := h
  · have := maxProduction_clock m L i c hs
    simp only [clocked] at this
    rw [this]
    rfl
  · rw [h.isSource, h.maxProduction]

theorem WinMod.costs (h : WinMod f N (n + 1) m m') :
    m'.marginalCost = m.marginalCost ∧ m'.absorptionCost = m.absorptionCost := by
  obtain ⟨wf, hf, ⟨hs, L, i, c, rfl⟩ | ⟨t, t', h⟩⟩ := h
  · exact ⟨marginalCost_clock m L i c hs, absorptionCost_clock m L i c hs⟩
  · exact ⟨h.marginalCost, h.absorptionCost⟩

end

/-- The modules `ids` of the two heaps have at least `n` rows left, those in `A` another one. -/
def Win (F : Nat → FFC) (N n : Nat) (A : Nat → Prop) (ids : List Nat) (h h' : Heap) : Prop :=
  ∀ i ∈ ids, WinMod (F i) N n (h i) (h' i) ∧ (A i → WinMod (F i) N (n + 1) (h i) (h' i))

/-- The two steps have collected the same but for the observations. -/
def AccWin (a a' : StepAcc) : Prop := ∃ O, a' = { a with obs := O }

/-- Two results of a loop. -/
def WinRun (F : Nat → FFC) (N n : Nat) (A : Nat → Prop) (ids : List Nat) (x y : RunSt × Except Err Unit) : Prop :=
  Win F N n A ids x.1.heap y.1.heap ∧ AccWin x.1.acc y.1.acc ∧ y.2 = x.2

section
variable {F : Nat → FFC} {N n : Nat} {A B : Nat → Prop} {ids : List Nat} {h h' : Heap}

theorem Win.fewer (t : Win F N n A ids h h') (hB : ∀ i, B i → A i) : Win F N n B ids h h' :=
  fun i hi => ⟨(t i hi).1, fun hb => (t i hi).2 (hB i hb)⟩

theorem WinRun.fewer {x y : RunSt × Except Err Unit} (t : WinRun F N n A ids x y) (hB : ∀ i, B i → A i) :
    WinRun F N n B ids x y := ⟨t.1.fewer hB, t.2⟩

theorem AccWin.append {a a' : StepAcc} (e : AccWin a a') (name : String) {o o' : StepOut} (ho : o'.deeds = o.deeds) :
    AccWin (a.append name o) (a'.append name o') := by
  obtain ⟨O, rfl⟩ := e
  obtain ⟨o1, o2, o3, o4⟩ := o
  obtain ⟨p1, p2, p3, p4⟩ := o'
  simp only [StepOut.deeds, Prod.mk.injEq] at ho
  obtain ⟨rfl, rfl, rfl⟩ := ho
  exact ⟨_, rfl⟩

theorem Win.stepOne (t : Win F N n A ids h h') {i : Nat} (hi : i ∈ ids) (hA : A i) {acc acc' : StepAcc}
    (e : AccWin acc acc') (name : String) (a : Act) (b : Bool) (hb : b = true → F i = .controllable) :
    WinRun F N n (fun j => A j ∧ j ≠ i) ids (RunSt.stepOne ⟨h, acc⟩ name i a b) (RunSt.stepOne ⟨h', acc'⟩ name i a b) := by
  obtain ⟨h1, h2⟩ := ((t i hi).2 hA).step a b hb
  unfold RunSt.stepOne
  simp only
  cases hs : (h i).step a b with
  | mk m r =>
  cases hs' : (h' i).step a b with
  | mk m' r' =>
  rw [hs, hs'] at h1 h2
  simp only at h1 h2
  have w : Win F N n (fun j => A j ∧ j ≠ i) ids (h.set i m) (h'.set i m') := by
    intro j hj
    unfold Heap.set
    by_cases hji : j = i
    · subst hji
      simp only [if_true]
      exact ⟨h1, fun hx => absurd rfl hx.2⟩
    · simp only [hji, if_false]
      exact ⟨(t j hj).1, fun hx => (t j hj).2 hx.1⟩
  cases r with
  | error e₁ =>
    cases r' with
    | error e₂ =>
      simp only [Except.map, Except.error.injEq] at h2
      subst h2
      exact ⟨w, e, rfl⟩
    | ok o' => simp [Except.map] at h2
  | ok o =>
    cases r' with
    | error e₂ => simp [Except.map] at h2
    | ok o' =>
      simp only [Except.map, Except.ok.injEq] at h2
      exact ⟨w, e.append name h2, rfl⟩

theorem Win.stepMany {l : List (String × Nat × Act)} (b : Bool) (hl : ∀ x ∈ l, x.2.1 ∈ ids)
    (hb : b = true → ∀ x ∈ l, F x.2.1 = .controllable) (hn : (l.map fun x => x.2.1).Nodup) :
    ∀ {A : Nat → Prop} {h h' : Heap} (_ : Win F N n A ids h h') (_ : ∀ x ∈ l, A x.2.1) {acc acc' : StepAcc}
      (_ : AccWin acc acc'), WinRun F N n (fun j => A j ∧ j ∉ l.map fun x => x.2.1) ids (RunSt.stepMany l b ⟨h, acc⟩)
      (RunSt.stepMany l b ⟨h', acc'⟩) := by
  induction l with
  | nil => intro A h h' t _ acc acc' e; exact ⟨t.fewer fun i hi => hi.1, e, rfl⟩
  | cons x l ih =>
    intro A h h' t hA acc acc' e
    obtain ⟨name, i, a⟩ := x
    have hs := t.stepOne (hl (name, i, a) (by simp)) (hA (name, i, a) (by simp)) e name a b
      (fun e => hb e (name, i, a) (by simp))
    simp only [List.map_cons, List.nodup_cons] at hn
    simp only [RunSt.stepMany]
    cases h1 : RunSt.stepOne ⟨h, acc⟩ name i a b with
    | mk s r =>
    cases h2 : RunSt.stepOne ⟨h', acc'⟩ name i a b with
    | mk s' r' =>
    rw [h1, h2] at hs
    obtain ⟨hh, acc₁⟩ := s
    obtain ⟨hh', acc₁'⟩ := s'
    obtain ⟨t', e1, e2⟩ := hs
    simp only at t' e1 e2
    subst e2
    cases r' with
    | error e =>
      exact ⟨t'.fewer fun j hj => ⟨hj.1, fun e => hj.2 (by simp [e])⟩, e1, rfl⟩
    | ok u =>
      refine (ih (fun x hx => hl x (by simp [hx])) (fun e x hx => hb e x (by simp [hx])) hn.2 t' ?_ e1).fewer ?_
      · intro x hx
        refine ⟨hA x (by simp [hx]), fun e => hn.1 ?_⟩
        rw [← e]
        exact List.mem_map_of_mem (f := fun x : String × Nat × Act => x.2.1) hx
      · intro j hj
        simp only [List.map_cons, List.mem_cons, not_or] at hj
        exact ⟨⟨hj.1, hj.2.1⟩, hj.2.2⟩

theorem Win.stepControls {d : ModDict} (control : List (String × Ctrl)) (b : Bool)
    (hd : ∀ x ∈ d, ∀ i ∈ x.2, i ∈ ids ∧ F i = .controllable) (hn : (d.flatMap Prod.snd).Nodup) :
    ∀ {A : Nat → Prop} {h h' : Heap} (_ : Win F N n A ids h h') (_ : ∀ x ∈ d, ∀ i ∈ x.2, A i) {acc acc' : StepAcc}
      (_ : AccWin acc acc'), WinRun F N n (fun j => A j ∧ F j ≠ .controllable) ids
        (RunSt.stepControls control b d ⟨h, acc⟩) (RunSt.stepControls control b d ⟨h', acc'⟩) := by
  induction d with
  | nil => intro A h h' t _ acc acc' e; exact ⟨t.fewer fun i hi => hi.1, e, rfl⟩
  | cons x d ih =>
    intro A h h' t hA acc acc' e
    obtain ⟨name, is⟩ := x
    simp only [List.flatMap_cons, List.nodup_append] at hn
    simp only [RunSt.stepControls]
    cases dictGet? control name with
    | none => exact ⟨t.fewer fun i hi => hi.1, e, rfl⟩
    | some c =>
      simp only
      have hmem : ∀ y ∈ (is.zip c.acts).map (fun ia => (name, ia.1, ia.2)), y.2.1 ∈ is := by
        intro y hy
        obtain ⟨ia, hia, rfl⟩ := List.mem_map.mp hy
        exact (List.of_mem_zip hia).1
      have hsub : (((is.zip c.acts).map fun ia => (name, ia.1, ia.2)).map fun x => x.2.1).Sublist is := by
        rw [List.map_map]
        have : ((fun x : String × Nat × Act => x.2.1) ∘ fun ia : Nat × Act => (name, ia.1, ia.2)) = Prod.fst := rfl
        rw [this]
        clear * -
        generalize c.acts = l
        induction is generalizing l with
        | nil => simp
        | cons a is ih =>
          cases l with
          | nil => simp
          | cons b l => simpa using ih l
      have hs := t.stepMany (l := (is.zip c.acts).map fun ia => (name, ia.1, ia.2)) b
        (fun y hy => (hd (name, is) (by simp) _ (hmem y hy)).1)
        (fun _ y hy => (hd (name, is) (by simp) _ (hmem y hy)).2) (hn.1.sublist hsub)
        (fun y hy => hA (name, is) (by simp) _ (hmem y hy)) e
      cases h1 : RunSt.stepMany ((is.zip c.acts).map fun ia => (name, ia.1, ia.2)) b ⟨h, acc⟩ with
      | mk s r =>
      cases h2 : RunSt.stepMany ((is.zip c.acts).map fun ia => (name, ia.1, ia.2)) b ⟨h', acc'⟩ with
      | mk s' r' =>
      rw [h1, h2] at hs
      obtain ⟨hh, acc₁⟩ := s
      obtain ⟨hh', acc₁'⟩ := s'
      obtain ⟨t', e1, e2⟩ := hs
      simp only at t' e1 e2
      subst e2
      have weak : ∀ j, A j ∧ F j ≠ .controllable →
          (A j ∧ j ∉ ((is.zip c.acts).map fun ia => (name, ia.1, ia.2)).map fun x => x.2.1) := by
        intro j hj
        refine ⟨hj.1, fun hx => hj.2 (hd (name, is) (by simp) j (hsub.subset hx)).2⟩
      cases r' with
      | error e => exact ⟨t'.fewer weak, e1, rfl⟩
      | ok u =>
        refine (ih (fun x hx => hd x (by simp [hx])) hn.2.1 t' ?_ e1).fewer fun j hj => ⟨weak j hj, hj.2⟩
        intro x hx i hi
        refine ⟨hA x (by simp [hx]) i hi, fun hx' => ?_⟩
        exact hn.2.2 i (hsub.subset hx') i (List.mem_flatMap.mpr ⟨x, hx, hi⟩) rfl

theorem Win.absorbExcess {l : List (String × Nat)} (hl : ∀ x ∈ l, x.2 ∈ ids) (hn : (l.map Prod.snd).Nodup) :
    ∀ {A : Nat → Prop} {h h' : Heap} (_ : Win F N n A ids h h') (_ : ∀ x ∈ l, A x.2) {acc acc' : StepAcc}
      (_ : AccWin acc acc') (x : ℚ), WinRun F N n (fun _ => False) ids (RunSt.absorbExcess l x ⟨h, acc⟩)
      (RunSt.absorbExcess l x ⟨h', acc'⟩) := by
  induction l with
  | nil => intro A h h' t _ acc acc' e x; exact ⟨t.fewer fun i hi => hi.elim, e, rfl⟩
  | cons y l ih =>
    intro A h h' t hA acc acc' e x
    obtain ⟨name, i⟩ := y
    have hi : i ∈ ids := hl (name, i) (by simp)
    have ha : A i := hA (name, i) (by simp)
    simp only [List.map_cons, List.nodup_cons] at hn
    simp only [RunSt.absorbExcess, ((t i hi).2 ha).sinkAmount]
    cases sinkAmount (h i) x with
    | error e₁ => exact ⟨t.fewer fun i hi => hi.elim, e, rfl⟩
    | ok amt =>
      simp only
      have hs := t.stepOne hi ha e name (.num (-1 * amt)) false (by simp)
      cases h1 : RunSt.stepOne ⟨h, acc⟩ name i (.num (-1 * amt)) false with
      | mk s r =>
      cases h2 : RunSt.stepOne ⟨h', acc'⟩ name i (.num (-1 * amt)) false with
      | mk s' r' =>
      rw [h1, h2] at hs
      obtain ⟨hh, acc₁⟩ := s
      obtain ⟨hh', acc₁'⟩ := s'
      obtain ⟨t', e1, e2⟩ := hs
      simp only at t' e1 e2
      subst e2
      cases r' with
      | error e => exact ⟨t'.fewer fun j hj => hj.elim, e1, rfl⟩
      | ok u =>
        refine ih (fun x hx => hl x (by simp [hx])) hn.2 t' ?_ e1 _
        intro x hx
        exact ⟨hA x (by simp [hx]), fun e => hn.1 (by rw [← e]; exact List.mem_map_of_mem hx)⟩

theorem Win.coverNeed {l : List (String × Nat)} (hl : ∀ x ∈ l, x.2 ∈ ids) (hn : (l.map Prod.snd).Nodup) :
    ∀ {A : Nat → Prop} {h h' : Heap} (_ : Win F N n A ids h h') (_ : ∀ x ∈ l, A x.2) {acc acc' : StepAcc}
      (_ : AccWin acc acc') (x : ℚ), WinRun F N n (fun _ => False) ids (RunSt.coverNeed l x ⟨h, acc⟩)
      (RunSt.coverNeed l x ⟨h', acc'⟩) := by
  induction l with
  | nil => intro A h h' t _ acc acc' e x; exact ⟨t.fewer fun i hi => hi.elim, e, rfl⟩
  | cons y l ih =>
    intro A h h' t hA acc acc' e x
    obtain ⟨name, i⟩ := y
    have hi : i ∈ ids := hl (name, i) (by simp)
    have ha : A i := hA (name, i) (by simp)
    simp only [List.map_cons, List.nodup_cons] at hn
    simp only [RunSt.coverNeed, ((t i hi).2 ha).sourceAmount]
    cases sourceAmount (h i) x with
    | error e₁ => exact ⟨t.fewer fun i hi => hi.elim, e, rfl⟩
    | ok amt =>
      simp only
      have hs := t.stepOne hi ha e name (.num amt) false (by simp)
      cases h1 : RunSt.stepOne ⟨h, acc⟩ name i (.num amt) false with
      | mk s r =>
      cases h2 : RunSt.stepOne ⟨h', acc'⟩ name i (.num amt) false with
      | mk s' r' =>
      rw [h1, h2] at hs
      obtain ⟨hh, acc₁⟩ := s
      obtain ⟨hh', acc₁'⟩ := s'
      obtain ⟨t', e1, e2⟩ := hs
      simp only at t' e1 e2
      subst e2
      cases r' with
      | error e => exact ⟨t'.fewer fun j hj => hj.elim, e1, rfl⟩
      | ok u =>
        refine ih (fun x hx => hl x (by simp [hx])) hn.2 t' ?_ e1 _
        intro x hx
        exact ⟨hA x (by simp [hx]), fun e => hn.1 (by rw [← e]; exact List.mem_map_of_mem hx)⟩

theorem Win.costInfo (t : Win F N n (fun _ => True) ids h h') {d : ModDict} (hd : ∀ x ∈ d, ∀ i ∈ x.2, i ∈ ids) :
    costInfo h' d = Pymgrid.costInfo h d := by
  have one : ∀ l : List Nat, (∀ i ∈ l, i ∈ ids) → costInfoOf h' l = costInfoOf h l := by
    intro l hl
    induction l with
    | nil => rfl
    | cons i l ih =>
      obtain ⟨h1, h2⟩ := ((t i (hl i (by simp))).2 trivial).costs
      simp only [costInfoOf, h1, h2, ih fun j hj => hl j (by simp [hj])]
  induction d with
  | nil => rfl
  | cons x d ih =>
    obtain ⟨name, is⟩ := x
    simp only [Pymgrid.costInfo, one is fun i hi => hd (name, is) (by simp) i hi, ih fun x hx => hd x (by simp [hx])]

theorem Win.resetMany {k : Nat} (hk : k ≤ N) {l : List Nat} (hl : ∀ i ∈ l, i ∈ ids) : ∀ {D : Nat → Prop} {h h' : Heap}
    (_ : ∀ i ∈ ids, WinMod (F i) N k (h i) (h' i) ∧ (D i → WinMod (F i) N N (h i) (h' i))),
    (∀ i ∈ ids, WinMod (F i) N k ((Microgrid.resetMany h l).1 i) ((Microgrid.resetMany h' l).1 i) ∧
      (D i ∨ i ∈ l → WinMod (F i) N N ((Microgrid.resetMany h l).1 i) ((Microgrid.resetMany h' l).1 i))) ∧
      (Microgrid.resetMany h l).2 = .ok () ∧ (Microgrid.resetMany h' l).2 = .ok () := by
  induction l with
  | nil => intro D h h' t; exact ⟨fun i hi => ⟨(t i hi).1, fun e => (t i hi).2 (by simpa using e)⟩, rfl, rfl⟩
  | cons j l ih =>
    intro D h h' t
    obtain ⟨h1, ⟨o, h2⟩, o', h3⟩ := (t j (hl j (by simp))).1.reset
    simp only [Microgrid.resetMany]
    cases hs : (h j).reset with
    | mk m r =>
    cases hs' : (h' j).reset with
    | mk m' r' =>
    rw [hs] at h2
    rw [hs'] at h3
    rw [hs, hs'] at h1
    simp only at h1 h2 h3
    subst h2 h3
    simp only
    obtain ⟨i1, i2⟩ := ih (fun i hi => hl i (by simp [hi])) (D := fun i => D i ∨ i = j) (h := h.set j m) (h' := h'.set j m') (by
      intro i hi
      unfold Heap.set
      by_cases hij : i = j
      · subst hij
        simp only [if_true]
        exact ⟨h1.less hk, fun _ => h1⟩
      · simp only [hij, if_false, or_false]
        exact t i hi)
    exact ⟨fun i hi => ⟨(i1 i hi).1, fun e => (i1 i hi).2 (by simpa [or_assoc] using e)⟩, i2⟩

end

/-! ### Microgrids -/

/-- Two microgrids with `n` rows left. -/
structure WinGrid (F : Nat → FFC) (N n : Nat) (g g' : Microgrid) : Prop where
  heap : ∀ i ∈ g.cont.fullList, WinMod (F i) N n (g.heap i) (g'.heap i)
  left : n ≤ N
  cont : g'.cont = g.cont
  shaper : g'.shaper = g.shaper
  trajectory : g.trajectory = none
  trajectory' : g'.trajectory = none
  nodup : ∀ f, ((Container.toTuples (g.cont.levelDict f)).map Prod.snd).Nodup
  level : ∀ f, ∀ x ∈ Container.toTuples (g.cont.levelDict f), F x.2 = f
  full : ∀ i ∈ g.cont.fullList, i ∈ (Container.toTuples g.cont.fullDict).map Prod.snd

theorem AccWin.balance {a a' : StepAcc} (e : AccWin a a') (sh : Option Shaper) (ci : CostInfo) :
    a'.balance sh ci = a.balance sh ci ∧ a'.shapedReward sh ci = a.shapedReward sh ci := by
  obtain ⟨O, rfl⟩ := e
  exact ⟨rfl, rfl⟩

theorem toTuples_ids (d : ModDict) : (Container.toTuples d).map Prod.snd = d.flatMap Prod.snd := by
  unfold Container.toTuples
  induction d with
  | nil => rfl
  | cons x d ih => simp [List.flatMap_cons, ih, Function.comp_def]

section
variable {F : Nat → FFC} {N n : Nat} {g g' : Microgrid}

theorem WinGrid.run (t : WinGrid F N (n + 1) g g') (control : List (String × Ctrl)) (b : Bool) :
    WinGrid F N n (g.run control b).1 (g'.run control b).1 ∧
      (g'.run control b).2.map RunOut.deeds = (g.run control b).2.map RunOut.deeds := by
  obtain ⟨h, c, i₀, f₀, sh, tr, ca, bl, ol⟩ := g
  obtain ⟨h', c', i', f', sh', tr', ca', bl', ol'⟩ := g'
  obtain ⟨th, q0, q1, q2, q3, q4, nodup, level, full⟩ := t
  simp only at th q1 q2 q3 q4 nodup level full
  subst q1 q2 q3 q4
  have withHeap : ∀ {h h' : Heap} {L L' : Logger} {A : Nat → Prop}, Win F N n A c'.fullList h h' →
      WinGrid F N n ⟨h, c', i₀, f₀, sh', none, ca, L, ol⟩ ⟨h', c', i', f', sh', none, ca', L', ol'⟩ := fun th =>
    ⟨fun i hi => (th i hi).1, by omega, rfl, rfl, rfl, rfl, nodup, level, full⟩
  have t₀ : Win F N n (fun _ => True) c'.fullList h h' := fun i hi => ⟨(th i hi).less (by omega), fun _ => th i hi⟩
  have hci : costInfo h' c'.fullDict = costInfo h c'.fullDict :=
    t₀.costInfo fun x hx i hi => Container.full_fullList (toTuples_mem hx hi)
  unfold Microgrid.run
  simp only [hci]
  cases costInfo h c'.fullDict with
  | error e => exact ⟨withHeap t₀, rfl⟩
  | ok ci =>
    simp only
    have hfix : (⟨h', c', i', f', sh', none, ca', bl', ol'⟩ : Microgrid).fixedSteps =
      (⟨h, c', i₀, f₀, sh', none, ca, bl, ol⟩ : Microgrid).fixedSteps := rfl
    rw [hfix]
    generalize hfs : (⟨h, c', i₀, f₀, sh', none, ca, bl, ol⟩ : Microgrid).fixedSteps = fs
    have hids : fs.map (fun x => x.2.1) = (Container.toTuples (c'.levelDict .fixed)).map Prod.snd := by
      rw [← hfs]
      simp [Microgrid.fixedSteps, Function.comp_def]
    have s1 := Win.stepMany (F := F) (l := fs) (ids := c'.fullList) false (by
      intro x hx
      rw [← hfs] at hx
      obtain ⟨ni, hni, rfl⟩ := List.mem_map.mp hx
      exact Container.level_fullList hni) (by simp) (by rw [hids]; exact nodup _) t₀ (fun _ _ => trivial)
      (acc := {}) (acc' := {}) ⟨_, rfl⟩
    rw [hids] at s1
    have s1 := s1.fewer (B := fun i => F i ≠ .fixed) (by
      intro i hi
      refine ⟨trivial, fun hx => hi ?_⟩
      obtain ⟨x, hx', rfl⟩ := List.mem_map.mp hx
      exact level _ x hx')
    cases e1 : RunSt.stepMany fs false ⟨h, {}⟩ with
    | mk s r =>
    cases e1' : RunSt.stepMany fs false ⟨h', {}⟩ with
    | mk s' r' =>
    rw [e1, e1'] at s1
    obtain ⟨h₁, a₁⟩ := s
    obtain ⟨h₁', a₁'⟩ := s'
    obtain ⟨t₁, w₁, q2⟩ := s1
    simp only at t₁ w₁ q2
    subst q2
    cases r' with
    | error e => exact ⟨withHeap t₁, rfl⟩
    | ok u =>
      simp only
      rw [(w₁.balance sh' ci).1]
      cases a₁.balance sh' ci with
      | error e => exact ⟨withHeap t₁, rfl⟩
      | ok z =>
        obtain ⟨fp, fc, b3, b4⟩ := z
        simp only
        have s2 := Win.stepControls (F := F) (d := c'.levelDict .controllable) (ids := c'.fullList) control b
          (fun x hx i hi => ⟨Container.level_fullList (toTuples_mem hx hi), level _ _ (toTuples_mem hx hi)⟩)
          (by rw [← toTuples_ids]; exact nodup _) t₁
          (fun x hx i hi => by rw [level _ _ (toTuples_mem hx hi)]; decide) w₁
        cases e2 : RunSt.stepControls control b (c'.levelDict .controllable) ⟨h₁, a₁⟩ with
        | mk s r =>
        cases e2' : RunSt.stepControls control b (c'.levelDict .controllable) ⟨h₁', a₁'⟩ with
        | mk s' r' =>
        rw [e2, e2'] at s2
        obtain ⟨h₂, a₂⟩ := s
        obtain ⟨h₂', a₂'⟩ := s'
        obtain ⟨t₂, w₂, q2⟩ := s2
        simp only at t₂ w₂ q2
        subst q2
        cases r' with
        | error e => exact ⟨withHeap t₂, rfl⟩
        | ok u =>
          simp only
          rw [(w₂.balance sh' ci).1]
          cases a₂.balance sh' ci with
          | error e => exact ⟨withHeap t₂, rfl⟩
          | ok z =>
            obtain ⟨p, c, b3, b4⟩ := z
            simp only
            have hmem : ∀ x ∈ Container.toTuples (c'.levelDict .flex), x.2 ∈ c'.fullList := fun x hx =>
              Container.level_fullList hx
            have hflex : ∀ x ∈ Container.toTuples (c'.levelDict .flex), F x.2 ≠ .fixed ∧ F x.2 ≠ .controllable := by
              intro x hx
              rw [level _ x hx]
              decide
            have s3 : WinRun F N n (fun _ => False) c'.fullList
                ((⟨h, c', i₀, f₀, sh', none, ca, bl, ol⟩ : Microgrid).dispatch (p - c) ⟨h₂, a₂⟩)
                ((⟨h', c', i', f', sh', none, ca', bl', ol'⟩ : Microgrid).dispatch (p - c) ⟨h₂', a₂'⟩) := by
              unfold Microgrid.dispatch
              split
              · exact Win.absorbExcess hmem (nodup _) t₂ hflex w₂ _
              · exact Win.coverNeed hmem (nodup _) t₂ hflex w₂ _
            cases e3 : (⟨h, c', i₀, f₀, sh', none, ca, bl, ol⟩ : Microgrid).dispatch (p - c) ⟨h₂, a₂⟩ with
            | mk s r =>
            cases e3' : (⟨h', c', i', f', sh', none, ca', bl', ol'⟩ : Microgrid).dispatch (p - c) ⟨h₂', a₂'⟩ with
            | mk s' r' =>
            rw [e3, e3'] at s3
            obtain ⟨h₃, a₃⟩ := s
            obtain ⟨h₃', a₃'⟩ := s'
            obtain ⟨t₃, w₃, q2⟩ := s3
            simp only at t₃ w₃ q2
            subst q2
            cases r' with
            | error e => exact ⟨withHeap t₃, rfl⟩
            | ok u =>
              simp only
              unfold Microgrid.finish
              simp only
              rw [(w₃.balance sh' ci).1, (w₃.balance sh' ci).2]
              cases a₃.balance sh' ci with
              | error e => exact ⟨withHeap t₃, rfl⟩
              | ok z =>
                obtain ⟨x1, x2, x3, x4⟩ := z
                simp only
                split
                · exact ⟨withHeap t₃, rfl⟩
                · obtain ⟨O, rfl⟩ := w₃
                  cases a₃.shapedReward sh' ci with
                  | error e => exact ⟨withHeap t₃, rfl⟩
                  | ok q => exact ⟨withHeap t₃, rfl⟩

theorem WinGrid.reset (t : WinGrid F N n g g') :
    WinGrid F N N g.reset.1 g'.reset.1 ∧ g'.reset.2 = g.reset.2 := by
  obtain ⟨h, c, i₀, f₀, sh, tr, ca, bl, ol⟩ := g
  obtain ⟨h', c', i', f', sh', tr', ca', bl', ol'⟩ := g'
  obtain ⟨th, q0, q1, q2, q3, q4, nodup, level, full⟩ := t
  simp only at th q1 q2 q3 q4 nodup level full
  subst q1 q2 q3 q4
  unfold Microgrid.reset Microgrid.setTrajectory
  simp only
  obtain ⟨s1, s2, s3⟩ := Win.resetMany (F := F) q0 (l := (Container.toTuples c'.fullDict).map Prod.snd)
    (ids := c'.fullList) (D := fun _ => False) (by
      intro i hi
      obtain ⟨ni, hni, rfl⟩ := List.mem_map.mp hi
      exact Container.full_fullList hni) (h := h) (h' := h') fun i hi => ⟨th i hi, fun e => e.elim⟩
  cases h2 : Microgrid.resetMany h ((Container.toTuples c'.fullDict).map Prod.snd) with
  | mk hh r =>
  cases h2' : Microgrid.resetMany h' ((Container.toTuples c'.fullDict).map Prod.snd) with
  | mk hh' r' =>
  rw [h2, h2'] at s1
  rw [h2] at s2
  rw [h2'] at s3
  simp only at s1 s2 s3
  subst s2 s3
  exact ⟨⟨fun i hi => (s1 i hi).2 (.inr (full i hi)), le_rfl, rfl, rfl, rfl, rfl, nodup, level, full⟩, rfl⟩

theorem WinGrid.results (t : WinGrid F N n g g') (ops : List GOp) (hf : fits N n ops) :
    deeds (g'.results ops) = deeds (g.results ops) := by
  induction ops generalizing g g' n with
  | nil => rfl
  | cons op ops ih =>
    cases op with
    | run c b =>
      cases n with
      | zero => exact hf.elim
      | succ n =>
        obtain ⟨t', e⟩ := t.run c b
        have h1 := ih t' hf
        simp only [deeds, Microgrid.results, List.map_cons, List.cons.injEq] at h1 ⊢
        refine ⟨?_, h1⟩
        cases e1 : (g.run c b).2 <;> cases e2 : (g'.run c b).2 <;> rw [e1, e2] at e <;> simp [Except.map] at e ⊢ <;> exact e
    | reset =>
      obtain ⟨t', e⟩ := t.reset
      have h1 := ih t' hf
      simp only [deeds, Microgrid.results, List.map_cons, List.cons.injEq] at h1 ⊢
      exact ⟨by rw [e], h1⟩

end

/-! ### Building the two microgrids -/

theorem WF.grid_inv {m : Module} (h : m.WF) {p : GridParams} {t : TS} (hk : m.kind = .grid p t) : m.GridWF p t ∧ t.Works := by
  cases h with
  | grid p' t' h w => rw [h.kind] at hk; cases hk; exact ⟨h, w⟩
  | battery b h => rw [h.kind] at hk; cases hk
  | genset b h => rw [h.kind] at hk; cases hk
  | balancing b h => rw [h.kind] at hk; cases hk
  | load t h => rw [h.kind] at hk; cases hk
  | renewable t h => rw [h.kind] at hk; cases hk

theorem WF.load_inv {m : Module} (h : m.WF) {t : TS} (hk : m.kind = .load t) : m.LoadWF t ∧ t.Works := by
  cases h with
  | grid p' t' h w => rw [h.kind] at hk; cases hk
  | battery b h => rw [h.kind] at hk; cases hk
  | genset b h => rw [h.kind] at hk; cases hk
  | balancing b h => rw [h.kind] at hk; cases hk
  | load t h w => rw [h.kind] at hk; cases hk; exact ⟨h, w⟩
  | renewable t h => rw [h.kind] at hk; cases hk

theorem SameWindow.winMod {N : Nat} {m m' : Module} (h : SameWindow N m m') (wf : m.WF) (wf' : m'.WF) :
    WinMod m.ffc N N m m' ∧ m'.ffc = m.ffc ∧ m'.ss = m.ss := by
  have ss : ∀ {k k' : Kind}, m.kind = k → m'.kind = k' → (∀ m m' : Module, m.kind = k → m'.kind = k' → m'.ss = m.ss) →
    m'.ss = m.ss := fun e e' h => h m m' e e'
  cases h with
  | grid kind kind' ffc raises act start start' rows =>
    obtain ⟨w1, w2⟩ := WF.grid_inv wf kind
    obtain ⟨w1', w2'⟩ := WF.grid_inv wf' kind'
    refine ⟨⟨wf, rfl, .inr ⟨_, _, w1.ts, w1'.ts, w2, w2', by rw [kind, kind']; rfl, ffc, raises, w1'.prov.trans w1.prov.symm,
      w1'.abs.trans w1.abs.symm, fun _ => act, fun _ _ _ => w1.four, rows, 0, by omega, by omega, by omega⟩⟩, ffc, ?_⟩
    unfold Module.ss Module.isSource Module.isSink
    rw [kind, kind']
  | load kind kind' raises start start' rows =>
    obtain ⟨w1, w2⟩ := WF.load_inv wf kind
    obtain ⟨w1', w2'⟩ := WF.load_inv wf' kind'
    have ffc := w1'.ffc.trans w1.ffc.symm
    refine ⟨⟨wf, rfl, .inr ⟨_, _, w1.ts, w1'.ts, w2, w2', by rw [kind, kind']; rfl, ffc, raises, w1'.prov.trans w1.prov.symm,
      w1'.abs.trans w1.abs.symm, fun e => (by rw [w1.ffc] at e; cases e), fun _ _ e => (by rw [kind] at e; cases e), rows, 0,
      by omega, by omega, by omega⟩⟩, ffc, ?_⟩
    unfold Module.ss Module.isSource Module.isSink
    rw [kind, kind']
  | renewable kind kind' raises start start' rows =>
    obtain ⟨w1, w2⟩ := WF.renewable_inv wf kind
    obtain ⟨w1', w2'⟩ := WF.renewable_inv wf' kind'
    have ffc := w1'.ffc.trans w1.ffc.symm
    refine ⟨⟨wf, rfl, .inr ⟨_, _, w1.ts, w1'.ts, w2, w2', by rw [kind, kind']; rfl, ffc, raises, w1'.prov.trans w1.prov.symm,
      w1'.abs.trans w1.abs.symm, fun e => (by rw [w1.ffc] at e; cases e), fun _ _ e => (by rw [kind] at e; cases e), rows, 0,
      by omega, by omega, by omega⟩⟩, ffc, ?_⟩
    unfold Module.ss Module.isSource Module.isSink
    rw [kind, kind']
  | other series i same =>
    subst same
    exact ⟨⟨wf, rfl, .inl ⟨series, m.logger, i, i, rfl⟩⟩, rfl, rfl⟩

theorem SameWindow.refl {N : Nat} {m : Module} (wf : m.WF) (hs : m.series? = none) (hc : m.currentStep = m.initialStep) :
    SameWindow N m m := .other hs m.initialStep (by obtain ⟨a1, a2, a3, a4, a5, a6, a7, a8, a9, k⟩ := m; simp only at hc; subst hc; rfl)

theorem WinGrid.created {N : Nat} {h h' : Heap} {mods : List (String × Nat)} {sh : Option Shaper} {g g' : Microgrid}
    (hl : ∀ nm ∈ mods, LibraryModule (h nm.2)) (hl' : ∀ nm ∈ mods, LibraryModule (h' nm.2))
    (hw : ∀ nm ∈ mods, SameWindow N (h nm.2) (h' nm.2)) (hid : (mods.map Prod.snd).Nodup) (hn : DistinctNames h mods)
    (hc : Microgrid.create h mods sh none = .ok g) (hc' : Microgrid.create h' mods sh none = .ok g') :
    WinGrid (fun i => (h i).ffc) N N g g' := by
  have hb : Container.build h' mods = Container.build h mods :=
    Container.build_congr fun nm hm => ((hw nm hm).winMod (hl nm hm).wf (hl' nm hm).wf).2
  obtain ⟨rfl, c1, c2, c3, -⟩ := Microgrid.create_ok hc
  obtain ⟨rfl, d1, d2, d3, -⟩ := Microgrid.create_ok hc'
  refine ⟨?_, le_rfl, by rw [c1, d1, hb], by rw [c2, d2], c3, d3, ?_, ?_, ?_⟩
  · intro i hi
    rw [c1] at hi
    obtain ⟨nm, hm, rfl⟩ := List.mem_map.mp ((Container.fullList_perm _ mods).mem_iff.mp hi)
    exact ((hw nm hm).winMod (hl nm hm).wf (hl' nm hm).wf).1
  · rw [c1]; exact Container.level_nodup hid
  · rw [c1]; exact fun f x hx => (Container.mem_level (n := x.1) (i := x.2) hx).2
  · rw [c1]
    intro i hi
    exact ((Container.full_perm hn).map Prod.snd).mem_iff.mpr ((Container.fullList_perm _ mods).mem_iff.mp hi)

/-! ### Constructors -/

theorem Overlap.sameRows {α : Type} {N i i' : Nat} {fs fs' : Int} {xs xs' : List α} (h : Overlap N i i' fs fs' xs xs')
    {t t' : TS} (f : α → List ℚ) (h1 : t.rows = xs.map f) (h2 : t'.rows = xs'.map f)
    (h3 : t.finalStep = lastStep fs xs.length) (h4 : t'.finalStep = lastStep fs' xs'.length) : SameRows N i i' t t' := by
  refine ⟨?_, ?_, ?_⟩
  · intro c hc
    rw [h1, h2, List.getElem?_map, List.getElem?_map, h.items c hc]
  · intro c hc
    rw [h1, List.length_map]
    have := h.there
    omega
  · intro c hc
    rw [h3, h4]
    exact h.done c hc

theorem mkLoad_window {xs xs' : List ℚ} {param param' : FKind} {hz hz' i i' N : Nat} {fs fs' : Int} {r : Bool} {m m' : Module}
    (hm : mkLoad xs param hz i fs r = .ok m) (hm' : mkLoad xs' param' hz' i' fs' r = .ok m')
    (h : Overlap N i i' fs fs' xs xs') : SameWindow N m m' := by
  obtain ⟨t, mn, mx, wf, -, -, s, -, hi, hc, hr, -⟩ := mkLoad_inv hm
  obtain ⟨t', mn', mx', wf', -, -, s', -, hi', hc', hr', -⟩ := mkLoad_inv hm'
  refine .load wf.kind wf'.kind (hr'.trans hr.symm) (hc.trans hi.symm) (hc'.trans hi'.symm) ?_
  rw [hi, hi']
  refine h.sameRows (fun x => [-|x|]) s.rows s'.rows ?_ ?_
  · rw [s.finalStep]; simp [TS.blank, lastStep]
  · rw [s'.finalStep]; simp [TS.blank, lastStep]

theorem mkRenewable_window {xs xs' : List ℚ} {param param' : FKind} {hz hz' i i' N : Nat} {fs fs' : Int} {r : Bool}
    {m m' : Module} (hm : mkRenewable xs param hz i fs r = .ok m) (hm' : mkRenewable xs' param' hz' i' fs' r = .ok m')
    (h : Overlap N i i' fs fs' xs xs') : SameWindow N m m' := by
  obtain ⟨t, mn, mx, wf, -, -, s, -, hi, hc, hr, -⟩ := mkRenewable_inv hm
  obtain ⟨t', mn', mx', wf', -, -, s', -, hi', hc', hr', -⟩ := mkRenewable_inv hm'
  refine .renewable wf.kind wf'.kind (hr'.trans hr.symm) (hc.trans hi.symm) (hc'.trans hi'.symm) ?_
  rw [hi, hi']
  refine h.sameRows (fun x => [|x|]) s.rows s'.rows ?_ ?_
  · rw [s.finalStep]; simp [TS.blank, lastStep]
  · rw [s'.finalStep]; simp [TS.blank, lastStep]

theorem mkGrid_window {mi me cc : ℚ} {ncols : Nat} {xs xs' : List (List ℚ)} {param param' : FKind} {hz hz' i i' N : Nat}
    {fs fs' : Int} {r : Bool} {m m' : Module} (hrect : ∀ r ∈ xs, r.length = ncols) (hrect' : ∀ r ∈ xs', r.length = ncols)
    (hm : mkGrid mi me ncols xs param hz i fs cc r = .ok m) (hm' : mkGrid mi me ncols xs' param' hz' i' fs' cc r = .ok m')
    (h : Overlap N i i' fs fs' xs xs') : SameWindow N m m' := by
  obtain ⟨t, mn, mx, wf, -, -, s, -, hf, hi, hc, hr, -, ha, -⟩ := mkGrid_inv hrect hm
  obtain ⟨t', mn', mx', wf', -, -, s', -, hf', hi', hc', hr', -, ha', -⟩ := mkGrid_inv hrect' hm'
  refine .grid wf.kind wf'.kind (hf'.trans hf.symm) (hr'.trans hr.symm) (ha'.trans ha.symm) (hc.trans hi.symm) (hc'.trans hi'.symm) ?_
  rw [hi, hi']
  have len : ∀ xs : List (List ℚ), (gridRows ncols xs).length = xs.length := by
    intro xs
    unfold gridRows
    split <;> simp
  refine h.sameRows (fun r => if ncols = 4 then r else r ++ [1]) ?_ ?_ ?_ ?_
  · rw [s.rows]; simp only [TS.blank, gridRows]; split <;> simp
  · rw [s'.rows]; simp only [TS.blank, gridRows]; split <;> simp
  · rw [s.finalStep]; simp only [TS.blank, lastStep, len]
  · rw [s'.finalStep]; simp only [TS.blank, lastStep, len]

theorem mkBattery_window {a b c d e f : ℚ} {tr : Option (ℚ → TransitionArgs → ℚ)} {x y : Option ℚ} {i i' N : Nat} {r : Bool}
    {m m' : Module} (hm : mkBattery a b c d e f tr x y i r = .ok m) (hm' : mkBattery a b c d e f tr x y i' r = .ok m') :
    SameWindow N m m' := by
  unfold mkBattery at hm hm'
  cases hb : Battery.init a b c d e f tr x y with
  | error e => rw [hb] at hm; simp at hm
  | ok v =>
    rw [hb] at hm hm'
    simp only [Except.ok.injEq] at hm hm'
    subst hm hm'
    exact .other rfl i' rfl

theorem mkGenset_window {rmin rmax : ℚ} {cost : GensetCost} {c1 c2 : ℚ} {S W : Nat} {ab iu : Bool} {i i' N : Nat} {r : Bool}
    {m m' : Module} (hm : mkGenset rmin rmax cost c1 c2 S W ab iu i r = .ok m)
    (hm' : mkGenset rmin rmax cost c1 c2 S W ab iu i' r = .ok m') : SameWindow N m m' := by
  unfold mkGenset at hm hm'
  cases hb : Genset.init rmin rmax cost c1 c2 S W ab iu with
  | error e => rw [hb] at hm; simp at hm
  | ok v =>
    rw [hb] at hm hm'
    simp only [Except.ok.injEq] at hm hm'
    subst hm hm'
    exact .other rfl i' rfl

theorem Overlap.padded {α : Type} (pre xs post : List α) {N i : Nat} (fs : Int) (hN : i + N ≤ xs.length) :
    Overlap N i (pre.length + i) fs ((pre.length + lastStep fs xs.length : Nat) : Int) xs (pre ++ xs ++ post) := by
  refine ⟨?_, hN, ?_⟩
  · intro c hc
    rw [List.append_assoc, List.getElem?_append_right (by omega), List.getElem?_append_left (by omega)]
    congr 1
    omega
  · intro c hc
    have hpos : 0 < lastStep fs xs.length := by
      unfold lastStep
      split
      · omega
      · omega
    have : lastStep ((pre.length + lastStep fs xs.length : Nat) : Int) (pre ++ xs ++ post).length =
        pre.length + lastStep fs xs.length := by
      rw [lastStep, if_neg (by omega), Int.toNat_natCast]
    rw [this]
    omega

theorem Overlap.future {α : Type} {xs xs' : List α} {N i : Nat} (hN : i + N < xs.length) (hN' : i + N < xs'.length)
    (he : xs'.take (i + N) = xs.take (i + N)) : Overlap N i i (-1) (-1) xs xs' := by
  refine ⟨?_, by omega, ?_⟩
  · intro c hc
    have h1 : (xs'.take (i + N))[i + c]? = xs'[i + c]? := List.getElem?_take_of_lt (by omega)
    have h2 : (xs.take (i + N))[i + c]? = xs[i + c]? := List.getElem?_take_of_lt (by omega)
    rw [← h1, ← h2, he]
  · intro c hc
    unfold lastStep
    simp only [Int.reduceNeg, Int.reduceLE, if_true]
    omega

end Pymgrid
