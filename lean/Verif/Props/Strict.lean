import Verif.Lemmas.Strict
import Verif.Props.Microgrid

set_option autoImplicit false

/-!
# C07: `raise_errors`
-/

namespace Pymgrid

open Module

section
variable {m : Module} {a : Act} {n : Bool} {q : ℚ}

/-- C07: with `raise_errors=True` a request outside the module's current bounds raises and leaves the whole module
    (state, step counter, log) as it was.  The exception is a `ValueError`, except that a negative request to a
    renewable, which has no notion of consumption, is a `TypeError`. -/
theorem C07_rejects (h : LibraryModule m) (hl : m.Live) (hr : m.raiseErrors = true) (hg : ∀ g, m.kind ≠ .genset g)
    (hq : m.request a n = .ok q) (lo hi : ℚ) (hw : m.window = some (lo, hi)) (hout : q < lo ∨ hi < q) :
    ∃ e, m.step a n = (m, .error e) ∧ (e = .value ∨ e = .type ∧ q < 0 ∧ ∃ t, m.kind = .renewable t) := by
  obtain ⟨e, he, hv⟩ := h.wf.out_of_window hl hr hg hw hout
  exact ⟨e, by rw [step_eq_baseStep m a n hg, baseStep_eq, hq]; exact he, hv⟩

/-- C07, gensets: with `raise_errors=True` a production request that the genset cannot meet in the status it has after
    the status request of the same action raises `ValueError`; counter and log are as before, but the status request
    is kept. -/
theorem C07_genset_rejects (h : LibraryModule m) (hr : m.raiseErrors = true) (g : Genset) (hg : m.kind = .genset g)
    (goal : ℚ) (rest : List ℚ) (ha : a = .arr (goal :: rest)) (h0 : 0 ≤ goal ∧ goal ≤ 1)
    (hq : m.request a n = .ok q) (hq0 : 0 ≤ q) (lo hi : ℚ) (hw : (m.afterStatus a).window = some (lo, hi))
    (hout : q < lo ∨ hi < q) :
    m.step a n = (m.afterStatus a, .error .value) ∧
      (∃ g', g.updateStatus goal = .ok g' ∧ m.afterStatus a = { m with kind := .genset g' }) := by
  have hwf : m.GenWF g := by
    cases h.wf with
    | genset g' h' => rwa [← show g' = g by have := h'.kind; rw [hg] at this; simpa using this.symm]
    | battery b h' => have := h'.kind; simp [hg] at this
    | grid p t h' => have := h'.kind; simp [hg] at this
    | load t h' => have := h'.kind; simp [hg] at this
    | renewable t h' => have := h'.kind; simp [hg] at this
    | balancing t h' => have := h'.kind; simp [hg] at this
  obtain ⟨p, hp⟩ := hwf.phase
  obtain ⟨g', e, hp', hs, -⟩ := hp.update h0.1 h0.2
  have haf : m.afterStatus a = { m with kind := .genset g' } := by simp [afterStatus, hg, ha, e]
  have hwf' := hwf.withStatus ⟨_, hp'⟩ hs
  refine ⟨?_, g', e, haf⟩
  rw [haf, hwf'.window, Option.some.injEq, Prod.mk.injEq] at hw
  have hse := hwf'.stepEnergy q
  rw [if_neg (not_lt.mpr hq0), if_pos ⟨hr, by rcases hout with h | h
                                              · right; rw [hw.1]; exact h
                                              · left; rw [hw.2]; exact h⟩] at hse
  rw [hwf.step_eq, haf]
  subst ha
  simp only [List.getElem?_cons_zero, h0, and_self, not_true_eq_false, if_false, e, hq]
  exact hse

/-- C07: a request inside the bounds behaves exactly as with `raise_errors=False`: same result, and the resulting
    modules differ in the flag only.  (Also for loads and balancing modules, which have no bounds.) -/
theorem C07_accepts (h : LibraryModule m) (hl : m.Live)
    (hin : ∀ q lo hi, m.request a n = .ok q → (m.afterStatus a).window = some (lo, hi) → lo ≤ q ∧ q ≤ hi) (r : Bool) :
    (m.withRaise r).step a n = ((m.step a n).1.withRaise r, (m.step a n).2) := by
  by_cases hg : ∃ g, m.kind = .genset g
  · obtain ⟨g, hg⟩ := hg
    have hwf : m.GenWF g := by
      cases h.wf with
      | genset g' h' => rwa [← show g' = g by have := h'.kind; rw [hg] at this; simpa using this.symm]
      | battery b h' => have := h'.kind; simp [hg] at this
      | grid p t h' => have := h'.kind; simp [hg] at this
      | load t h' => have := h'.kind; simp [hg] at this
      | renewable t h' => have := h'.kind; simp [hg] at this
      | balancing t h' => have := h'.kind; simp [hg] at this
    obtain ⟨p, hp⟩ := hwf.phase
    have hg' : (m.withRaise r).kind = .genset g := hg
    unfold step
    rw [hg, hg']
    simp only
    cases a with
    | num x => rfl
    | arr l =>
      cases l with
      | nil => rfl
      | cons goal rest =>
        simp only [List.getElem?_cons_zero]
        split
        · rfl
        rename_i h0
        push Not at h0
        obtain ⟨g', e, hp', hs, -⟩ := hp.update h0.1 h0.2
        simp only [e]
        have haf : m.afterStatus (.arr (goal :: rest)) = { m with kind := .genset g' } := by
          simp [afterStatus, hg, e]
        have hwf' := hwf.withStatus ⟨_, hp'⟩ hs
        have hrq : ({ m with kind := .genset g' } : Module).request (.arr (goal :: rest)) n =
            m.request (.arr (goal :: rest)) n := by
          simp [request, energyPos, hg, denormalizeAct]
        refine baseStep_flag { m with kind := .genset g' } r fun q hq => ?_
        rw [haf] at hin
        obtain ⟨h1, h2⟩ := (WF.genset g' hwf').in_window (by intro t ht; simp [series?] at ht)
          (q := q) (fun lo hi hw => hin q lo hi (hrq ▸ hq) hw)
        exact stepEnergy_flag _ r h1 h2
  · push Not at hg
    rw [step_eq_baseStep m a n hg, step_eq_baseStep (m.withRaise r) a n hg]
    refine baseStep_flag m r fun q hq => ?_
    have haf : m.afterStatus a = m := by
      unfold afterStatus
      split
      · rename_i g _ _ hk; exact absurd hk (hg g)
      · rfl
    rw [haf] at hin
    obtain ⟨h1, h2⟩ := h.wf.in_window hl (q := q) (fun lo hi hw => hin q lo hi hq hw)
    exact stepEnergy_flag _ r h1 h2

end

/-- A battery and a genset that raise errors. -/
def strictBattery : Module := okModule (mkBattery 10 100 20 30 (1/2) 3 none (some 60) none 0 true)
@[inherit_doc strictBattery] def strictGenset : Module :=
  okModule (mkGenset 10 50 (.const (2/5)) 2 (1/10) 0 0 true false 0 true)

/-- Non-vacuity: the battery holds 60 units, can deliver at most 15 and take at most 40. A request of 16 is rejected,
    one of -40 is accepted. -/
example : LibraryModule strictBattery ∧ strictBattery.Live ∧ strictBattery.raiseErrors = true ∧
    strictBattery.window = some (-40, 15) ∧ strictBattery.request (.num 16) false = .ok 16 ∧
    (strictBattery.step (.num 16) false).2.isOk = false ∧ (strictBattery.step (.num (-40)) false).2.isOk = true := by
  refine ⟨?_, ?_, by decide +kernel, by decide +kernel, rfl, by decide +kernel, by decide +kernel⟩
  · have : mkBattery 10 100 20 30 (1/2) 3 none (some 60) none 0 true = .ok strictBattery :=
      okModule_eq (by decide +kernel)
    exact .battery this ⟨by norm_num, by norm_num, 60, by decide +kernel, by norm_num, by norm_num⟩
  · intro t ht
    have : strictBattery.series?.isNone = true := by decide +kernel
    simp [ht] at this

/-- Non-vacuity: a genset that is off is asked to start and to produce 60 units.  It can only produce 50; the request
    raises, yet the genset is on afterwards. -/
example : LibraryModule strictGenset ∧ strictGenset.raiseErrors = true ∧
    strictGenset.request (.arr [1, 60]) false = .ok 60 ∧
    (strictGenset.afterStatus (.arr [1, 60])).window = some (10, 50) ∧
    (strictGenset.step (.arr [1, 60]) false).2.isOk = false ∧ strictGenset.genset?.map (·.status) = some 0 ∧
    (strictGenset.step (.arr [1, 60]) false).1.genset?.map (·.status) = some 1 := by
  refine ⟨?_, by decide +kernel, rfl, by decide +kernel, by decide +kernel, by decide +kernel, by decide +kernel⟩
  have : mkGenset 10 50 (.const (2/5)) 2 (1/10) 0 0 true false 0 true = .ok strictGenset :=
    okModule_eq (by decide +kernel)
  exact .genset this (by norm_num)

end Pymgrid
