import Verif.Lemmas.Genset
import Verif.Lemmas.Frame
import Verif.Spec.Genset

set_option autoImplicit false

/-!
# C08–C12: gensets

`requests g qs` is the genset after the calls `update_status(q)` for `q` in `qs`.
A request `q ∈ [0,1]` asks the genset to run iff it rounds to 1, i.e. iff `1/2 < q`.
-/

namespace Pymgrid

open Module Genset

section
variable {rmin rmax : ℚ} {cost : GensetCost} {c1 c2 : ℚ} {S W : Nat} {ab iu : Bool} {g₀ g : Genset}

private theorem requests_phase {p : GPhase} (h : g.PhaseOK p) (qs : List ℚ)
    (hq : ∀ q ∈ qs, 0 ≤ q ∧ q ≤ 1) :
    ∃ g', requests g qs = .ok g' ∧ SameParams g g' ∧
      g'.PhaseOK (qs.foldl (fun p q => g.nextPhase p (asksOn q)) p) := by
  induction qs generalizing g p with
  | nil => exact ⟨g, rfl, SameParams.refl g, h⟩
  | cons q qs ih =>
    obtain ⟨g₁, e, h₁, hs, -⟩ := h.update (hq q (by simp)).1 (hq q (by simp)).2
    obtain ⟨g', e', hs', h'⟩ := ih h₁ (fun x hx => hq x (by simp [hx]))
    refine ⟨g', by simp [requests, e, e'], hs.trans hs', ?_⟩
    simpa [nextPhase_congr hs] using h'

private theorem reach (hi : Genset.init rmin rmax cost c1 c2 S W ab iu = .ok g₀) (hist : List ℚ)
    (hh : ∀ q ∈ hist, 0 ≤ q ∧ q ≤ 1) :
    ∃ g p, requests g₀ hist = .ok g ∧ SameParams g₀ g ∧ g.PhaseOK p ∧ g.startUpTime = S ∧
      g.windDownTime = W ∧ g.allowAbortion = ab := by
  obtain ⟨-, hp, -, -, -, -, -, h1, h2, h3, -⟩ := Genset.init_inv hi
  obtain ⟨g, e, hs, h⟩ := requests_phase hp hist hh
  exact ⟨g, _, e, hs, h, hs.up.trans h1, hs.down.trans h2, hs.abort.trans h3⟩

private theorem on_stays {p : GPhase} (hp : p = .on) (qs : List ℚ) (hq : ∀ q ∈ qs, 1/2 < q ∧ q ≤ 1) :
    qs.foldl (fun p q => GPhase.next S W p (asksOn q)) p = .on := by
  subst hp
  induction qs with
  | nil => rfl
  | cons q qs ih =>
    have : asksOn q = true := decide_eq_true (hq q (by simp)).1
    simpa [this, GPhase.next] using ih (fun x hx => hq x (by simp [hx]))

private theorem off_stays {p : GPhase} (hp : p = .off) (qs : List ℚ) (hq : ∀ q ∈ qs, 0 ≤ q ∧ q ≤ 1/2) :
    qs.foldl (fun p q => GPhase.next S W p (asksOn q)) p = .off := by
  subst hp
  induction qs with
  | nil => rfl
  | cons q qs ih =>
    have : asksOn q = false := decide_eq_false (not_lt.mpr (hq q (by simp)).2)
    simpa [this, GPhase.next] using ih (fun x hx => hq x (by simp [hx]))

private theorem starting_phase (k : Nat) (qs : List ℚ) (hq : ∀ q ∈ qs, 1/2 < q ∧ q ≤ 1) :
    qs.foldl (fun p q => GPhase.next S W p (asksOn q)) (.starting k) =
      if qs.length ≤ k then .starting (k - qs.length) else .on := by
  induction qs generalizing k with
  | nil => simp
  | cons q qs ih =>
    have hqs : ∀ q ∈ qs, 1/2 < q ∧ q ≤ 1 := fun x hx => hq x (by simp [hx])
    have : asksOn q = true := decide_eq_true (hq q (by simp)).1
    rcases k with _ | k
    · simpa [this, GPhase.next] using on_stays rfl qs hqs
    · have e : GPhase.next S W (.starting (k + 1)) true = .starting k := rfl
      rw [List.foldl_cons, this, e, ih k hqs]
      simp

private theorem stopping_phase (k : Nat) (qs : List ℚ) (hq : ∀ q ∈ qs, 0 ≤ q ∧ q ≤ 1/2) :
    qs.foldl (fun p q => GPhase.next S W p (asksOn q)) (.stopping k) =
      if qs.length ≤ k then .stopping (k - qs.length) else .off := by
  induction qs generalizing k with
  | nil => simp
  | cons q qs ih =>
    have hqs : ∀ q ∈ qs, 0 ≤ q ∧ q ≤ 1/2 := fun x hx => hq x (by simp [hx])
    have : asksOn q = false := decide_eq_false (not_lt.mpr (hq q (by simp)).2)
    rcases k with _ | k
    · simpa [this, GPhase.next] using off_stays rfl qs hqs
    · have e : GPhase.next S W (.stopping (k + 1)) false = .stopping k := rfl
      rw [List.foldl_cons, this, e, ih k hqs]
      simp

private theorem foldl_nextPhase (hab : g.allowAbortion = true) (hS : g.startUpTime = S)
    (hW : g.windDownTime = W) (p : GPhase) (qs : List ℚ) :
    qs.foldl (fun p q => g.nextPhase p (asksOn q)) p =
      qs.foldl (fun p q => GPhase.next S W p (asksOn q)) p := by
  simp [nextPhase, hab, hS, hW]

/-- C08, starting up: with `allow_abortion=True`, from every reachable state at rest off, consecutive
    turn-on requests leave the genset off for exactly `start_up_time` requests; after one more it is
    on, and it stays on while the requests continue. -/
theorem C08_start_up (hi : Genset.init rmin rmax cost c1 c2 S W true iu = .ok g₀) (hist : List ℚ)
    (hh : ∀ q ∈ hist, 0 ≤ q ∧ q ≤ 1) (hg : requests g₀ hist = .ok g)
    (hoff : g.status = 0 ∧ g.goal = 0) (qs : List ℚ) (hq : ∀ q ∈ qs, 1/2 < q ∧ q ≤ 1) :
    ∃ g', requests g qs = .ok g' ∧ (qs.length ≤ S → g'.status = 0) ∧ (S < qs.length → g'.status = 1) := by
  obtain ⟨g', p, e, -, hp, hS, hW, hab⟩ := reach hi hist hh
  rw [hg] at e; injection e with e; subst e
  have hpo : p = .off := by
    have := hp.1
    cases p <;> simp [InPhase, hoff] at this
    rfl
  subst hpo
  obtain ⟨g', e', hs', h'⟩ := requests_phase hp qs (fun q hx => ⟨by linarith [(hq q hx).1], (hq q hx).2⟩)
  rw [foldl_nextPhase hab hS hW] at h'
  refine ⟨g', e', ?_⟩
  rcases qs with _ | ⟨q, qs⟩
  · have : g'.status = 0 := h'.1.1
    simp [this]
  · have hqs : ∀ q ∈ qs, 1/2 < q ∧ q ≤ 1 := fun x hx => hq x (by simp [hx])
    have ha : asksOn q = true := decide_eq_true (hq q (by simp)).1
    rcases S with _ | S
    · rw [List.foldl_cons, ha, show GPhase.next 0 W .off true = .on from rfl, on_stays rfl qs hqs] at h'
      have : g'.status = 1 := h'.1.1
      simp [this]
    · rw [List.foldl_cons, ha, show GPhase.next (S + 1) W .off true = .starting S from rfl,
        starting_phase S qs hqs] at h'
      split at h'
      · rename_i hle
        have : g'.status = 0 := h'.1.1
        simp [this]; omega
      · rename_i hle
        have : g'.status = 1 := h'.1.1
        simp [this]; omega

/-- C08, winding down: the mirror image of `C08_start_up`. -/
theorem C08_wind_down (hi : Genset.init rmin rmax cost c1 c2 S W true iu = .ok g₀) (hist : List ℚ)
    (hh : ∀ q ∈ hist, 0 ≤ q ∧ q ≤ 1) (hg : requests g₀ hist = .ok g)
    (hon : g.status = 1 ∧ g.goal = 1) (qs : List ℚ) (hq : ∀ q ∈ qs, 0 ≤ q ∧ q ≤ 1/2) :
    ∃ g', requests g qs = .ok g' ∧ (qs.length ≤ W → g'.status = 1) ∧ (W < qs.length → g'.status = 0) := by
  obtain ⟨g', p, e, -, hp, hS, hW, hab⟩ := reach hi hist hh
  rw [hg] at e; injection e with e; subst e
  have hpo : p = .on := by
    have := hp.1
    cases p <;> simp [InPhase, hon] at this
    rfl
  subst hpo
  obtain ⟨g', e', hs', h'⟩ := requests_phase hp qs (fun q hx => ⟨(hq q hx).1, by linarith [(hq q hx).2]⟩)
  rw [foldl_nextPhase hab hS hW] at h'
  refine ⟨g', e', ?_⟩
  rcases qs with _ | ⟨q, qs⟩
  · have : g'.status = 1 := h'.1.1
    simp [this]
  · have hqs : ∀ q ∈ qs, 0 ≤ q ∧ q ≤ 1/2 := fun x hx => hq x (by simp [hx])
    have ha : asksOn q = false := decide_eq_false (not_lt.mpr (hq q (by simp)).2)
    rcases W with _ | W
    · rw [List.foldl_cons, ha, show GPhase.next S 0 .on false = .off from rfl, off_stays rfl qs hqs] at h'
      have : g'.status = 0 := h'.1.1
      simp [this]
    · rw [List.foldl_cons, ha, show GPhase.next S (W + 1) .on false = .stopping W from rfl,
        stopping_phase W qs hqs] at h'
      split at h'
      · rename_i hle
        have : g'.status = 1 := h'.1.1
        simp [this]; omega
      · rename_i hle
        have : g'.status = 0 := h'.1.1
        simp [this]; omega

/-- C09: with `allow_abortion=True`, requesting the current status while a change is in progress makes
    the goal equal to the (unchanged) status and restores the full start-up and wind-down times. -/
theorem C09_abort (hi : Genset.init rmin rmax cost c1 c2 S W true iu = .ok g₀) (hist : List ℚ)
    (hh : ∀ q ∈ hist, 0 ≤ q ∧ q ≤ 1) (hg : requests g₀ hist = .ok g) (hprog : g.goal ≠ g.status)
    (q : ℚ) (hq : 0 ≤ q ∧ q ≤ 1) (hr : (1/2 < q ∧ g.status = 1) ∨ (q ≤ 1/2 ∧ g.status = 0)) :
    ∃ g', g.updateStatus q = .ok g' ∧ g'.status = g.status ∧ g'.goal = g.status ∧
      (g.status = 0 → g'.untilUp = S ∧ g'.untilDown = 0) ∧
      (g.status = 1 → g'.untilUp = 0 ∧ g'.untilDown = W) := by
  obtain ⟨g', p, e, -, hp, hS, hW, hab⟩ := reach hi hist hh
  rw [hg] at e; injection e with e; subst e
  obtain ⟨g', e', h', hs, -⟩ := hp.update hq.1 hq.2
  refine ⟨g', e', ?_⟩
  have hin := hp.1
  rcases hr with ⟨h1, h2⟩ | ⟨h1, h2⟩
  · have ha : asksOn q = true := decide_eq_true h1
    cases p <;> simp [InPhase, h2] at hin <;> simp [h2, hin] at hprog
    simp only [nextPhase, hab, ha, if_true, GPhase.next] at h'
    obtain ⟨⟨a, b, c, d⟩, -⟩ := h'
    simp [a, b, c, d, h2, hs.down, hW]
  · have ha : asksOn q = false := decide_eq_false (not_lt.mpr h1)
    cases p <;> simp [InPhase, h2] at hin <;> simp [h2, hin] at hprog
    simp only [nextPhase, hab, ha, if_true, GPhase.next] at h'
    obtain ⟨⟨a, b, c, d⟩, -⟩ := h'
    simp [a, b, c, d, h2, hs.up, hS]

/-- C10: from construction, for every sequence of requests in `[0,1]` and either value of
    `allow_abortion`, `update_status` never raises; the counters stay between 0 and the configured
    times; the statuses are 0 or 1; and the next update behaves as `next_status`, `next_max_production` and
    `next_min_production` predict: its production bounds are those of a running genset if the new status is 1 and
    zero if it is 0. -/
theorem C10_machine_total (hi : Genset.init rmin rmax cost c1 c2 S W ab iu = .ok g₀) (hist : List ℚ)
    (hh : ∀ q ∈ hist, 0 ≤ q ∧ q ≤ 1) :
    ∃ g, requests g₀ hist = .ok g ∧ (g.status = 0 ∨ g.status = 1) ∧
      0 ≤ g.untilUp ∧ g.untilUp ≤ S ∧ 0 ≤ g.untilDown ∧ g.untilDown ≤ W ∧
      ∀ q, 0 ≤ q → q ≤ 1 → ∃ g', g.updateStatus q = .ok g' ∧ g'.status = g.nextStatus (pyRound q) ∧
        g'.maxProduction = g.nextMaxProduction (pyRound q) ∧ g'.minProduction = g.nextMinProduction (pyRound q) ∧
        (g'.maxProduction, g'.minProduction) = if g'.status = 1 then (rmax, rmin) else (0, 0) := by
  obtain ⟨g, p, e, hs₀, hp, hS, hW, hab⟩ := reach hi hist hh
  obtain ⟨-, -, hmin, hmax, -⟩ := Genset.init_inv hi
  have hc := hp.1.counters
  rw [hS, hW] at hc
  refine ⟨g, e, hp.1.status, hc.1, hc.2.1, hc.2.2.1, hc.2.2.2, fun q h0 h1 => ?_⟩
  obtain ⟨g', e', hp', hs, h⟩ := hp.update h0 h1
  rw [← pyRound_asksOn h0 h1] at h
  have e1 : g'.runMax = rmax := by rw [hs.runMax, hs₀.runMax, hmax]
  have e2 : g'.runMin = rmin := by rw [hs.runMin, hs₀.runMin, hmin]
  refine ⟨g', e', h, ?_, ?_, ?_⟩
  · rw [Genset.maxProduction, nextMaxProduction, h, hs.runMax]
  · rw [Genset.minProduction, nextMinProduction, h, hs.runMin]
  · rcases hp'.1.status with hz | hz <;> simp [Genset.maxProduction, Genset.minProduction, hz, e1, e2]

/-- C10, requests outside `[0,1]` raise `ValueError` in every reachable state. -/
theorem C10_invalid_request (hi : Genset.init rmin rmax cost c1 c2 S W ab iu = .ok g₀) (hist : List ℚ)
    (hh : ∀ q ∈ hist, 0 ≤ q ∧ q ≤ 1) (hg : requests g₀ hist = .ok g) (q : ℚ) (hq : q < 0 ∨ 1 < q) :
    g.updateStatus q = .error .value := by
  obtain ⟨g', p, e, -, hp, -⟩ := reach hi hist hh
  rw [hg] at e; injection e with e; subst e
  have := hp.1.counters
  unfold updateStatus
  rw [if_neg (by simp; omega), if_pos]
  rintro ⟨h0, h1⟩
  rcases hq with h | h <;> linarith

/-- C11 is violated by the code: with `allow_abortion=False` and a positive start-up time, a genset that
    is constructed off stays off whatever is requested, however often. -/
theorem C11_violated_start (hi : Genset.init rmin rmax cost c1 c2 S W false false = .ok g₀) (hS : 0 < S)
    (qs : List ℚ) (hq : ∀ q ∈ qs, 0 ≤ q ∧ q ≤ 1) : ∃ g, requests g₀ qs = .ok g ∧ g.status = 0 := by
  obtain ⟨-, hp, -, -, -, -, -, h1, h2, h3, -⟩ := Genset.init_inv hi
  obtain ⟨g, e, hs, h⟩ := requests_phase hp qs hq
  refine ⟨g, e, ?_⟩
  have : qs.foldl (fun p q => g₀.nextPhase p (asksOn q)) .off = .off := by
    clear h hq e hp
    induction qs with
    | nil => rfl
    | cons q qs ih =>
      have : g₀.nextPhase .off (asksOn q) = .off := by
        simp only [nextPhase, h3, GPhase.nextNA]
        cases asksOn q <;> simp [h1]; omega
      simpa [this] using ih
  rw [startPhase, if_neg (by simp), this] at h
  exact h.1.1

/-- C11 is violated by the code: with `allow_abortion=False` and a positive wind-down time, a genset that
    is constructed on stays on whatever is requested, however often. -/
theorem C11_violated_stop (hi : Genset.init rmin rmax cost c1 c2 S W false true = .ok g₀) (hW : 0 < W)
    (qs : List ℚ) (hq : ∀ q ∈ qs, 0 ≤ q ∧ q ≤ 1) : ∃ g, requests g₀ qs = .ok g ∧ g.status = 1 := by
  obtain ⟨-, hp, -, -, -, -, -, h1, h2, h3, -⟩ := Genset.init_inv hi
  obtain ⟨g, e, hs, h⟩ := requests_phase hp qs hq
  refine ⟨g, e, ?_⟩
  have : qs.foldl (fun p q => g₀.nextPhase p (asksOn q)) .on = .on := by
    clear h hq e hp
    induction qs with
    | nil => rfl
    | cons q qs ih =>
      have : g₀.nextPhase .on (asksOn q) = .on := by
        simp only [nextPhase, h3, GPhase.nextNA]
        cases asksOn q <;> simp [h2]; omega
      simpa [this] using ih
  rw [startPhase, if_pos rfl, this] at h
  exact h.1.1

/-- C11 (partial): with `allow_abortion=False`, in every reachable state no change is in progress (so
    none can be aborted), and a change whose configured time is 0 is made at once.
    Missing: changes with a positive configured time never happen
    (`C11_violated_start`, `C11_violated_stop`). -/
theorem C11_no_abortion_partial (hi : Genset.init rmin rmax cost c1 c2 S W false iu = .ok g₀)
    (hist : List ℚ) (hh : ∀ q ∈ hist, 0 ≤ q ∧ q ≤ 1) (hg : requests g₀ hist = .ok g) :
    g.goal = g.status ∧
    (S = 0 → ∀ q, 1/2 < q → q ≤ 1 → ∃ g', g.updateStatus q = .ok g' ∧ g'.status = 1) ∧
    (W = 0 → ∀ q, 0 ≤ q → q ≤ 1/2 → ∃ g', g.updateStatus q = .ok g' ∧ g'.status = 0) := by
  obtain ⟨g', p, e, -, hp, hS, hW, hab⟩ := reach hi hist hh
  rw [hg] at e; injection e with e; subst e
  have hrest := hp.2 hab
  refine ⟨?_, ?_, ?_⟩
  · rcases hrest with rfl | rfl <;> · obtain ⟨⟨a, b, -⟩, -⟩ := hp; rw [a, b]
  · intro h0 q hq1 hq2
    obtain ⟨g', e', h', hs, -⟩ := hp.update (by linarith) hq2
    have ha : asksOn q = true := decide_eq_true hq1
    refine ⟨g', e', ?_⟩
    rcases hrest with rfl | rfl <;> simp [nextPhase, hab, ha, GPhase.nextNA, hS, h0] at h' <;> exact h'.1.1
  · intro h0 q hq1 hq2
    obtain ⟨g', e', h', hs, -⟩ := hp.update hq1 (by linarith)
    have ha : asksOn q = false := decide_eq_false (not_lt.mpr hq2)
    refine ⟨g', e', ?_⟩
    rcases hrest with rfl | rfl <;> simp [nextPhase, hab, ha, GPhase.nextNA, hW, h0] at h' <;> exact h'.1.1

/-! ### Module level -/

variable {i : Nat} {r : Bool} {m : Module}

theorem gen_start (hm : mkGenset rmin rmax cost c1 c2 S W ab iu i r = .ok m) (h0 : 0 ≤ rmin) :
    ∃ g, Genset.init rmin rmax cost c1 c2 S W ab iu = .ok g ∧ m.GenWF g := by
  obtain ⟨g, hi, hk, h1, h2, h2', h3, -⟩ := mkGenset_inv hm
  obtain ⟨hle, hp, e1, e2, -⟩ := Genset.init_inv hi
  exact ⟨g, hi, hk, ⟨_, hp⟩, by rw [e1]; exact h0, by rw [e1, e2]; exact hle, h1, h2, h2', h3⟩

theorem gen_ops (h : m.GenWF g) (ops : List MOp) (hops : ∀ op ∈ ops, op.isCall) :
    ∃ g', (runOps m ops).GenWF g' ∧ requests g (goalsOf ops) = .ok g' ∧ g.SameParams g' := by
  induction ops generalizing m g with
  | nil => exact ⟨g, h, rfl, SameParams.refl g⟩
  | cons op ops ih =>
    have hops' : ∀ op ∈ ops, op.isCall := fun o ho => hops o (by simp [ho])
    cases op with
    | setSoc v => simpa [MOp.isCall] using hops (.setSoc v) (by simp)
    | setCharge v => simpa [MOp.isCall] using hops (.setCharge v) (by simp)
    | reset =>
      obtain ⟨m', obs, e, wf, -⟩ := h.reset
      have : MOp.apply m .reset = m' := by simp [MOp.apply, e]
      simpa [runOps, this, goalsOf] using ih wf hops'
    | step a n =>
      cases a with
      | num q =>
        have : MOp.apply m (.step (.num q) n) = m := by simp [MOp.apply, h.step_eq]
        simpa [runOps, this, goalsOf] using ih h hops'
      | arr l =>
        cases l with
        | nil =>
          have : MOp.apply m (.step (.arr []) n) = m := by simp [MOp.apply, h.step_eq]
          simpa [runOps, this, goalsOf] using ih h hops'
        | cons q l =>
          by_cases hq : 0 ≤ q ∧ q ≤ 1
          · obtain ⟨p, hp⟩ := h.phase
            obtain ⟨g₁, e₁, hp₁, hs₁, -⟩ := hp.update hq.1 hq.2
            have wf₁ := h.withStatus ⟨_, hp₁⟩ hs₁
            have hwf : (MOp.apply m (.step (.arr (q :: l)) n)).GenWF g₁ := by
              simp only [MOp.apply, h.step_eq, List.getElem?_cons_zero, hq, not_true, if_false, e₁, and_self]
              cases m.request (.arr (q :: l)) n with
              | error e => exact wf₁
              | ok x =>
                have := wf₁.stepEnergy x
                simp only
                split at this
                · rw [this]; exact wf₁
                · split at this
                  · rw [this]; exact wf₁
                  · obtain ⟨m', o, e', hst⟩ := this
                    rw [e']; exact hst.wf
            obtain ⟨g', h', hr, hs'⟩ := ih hwf hops'
            refine ⟨g', h', ?_, hs₁.trans hs'⟩
            simp [goalsOf, hq, requests, e₁, hr]
          · have : MOp.apply m (.step (.arr (q :: l)) n) = m := by
              simp only [MOp.apply, h.step_eq, List.getElem?_cons_zero]
              rw [if_pos hq]
            simpa [runOps, this, goalsOf, hq] using ih h hops'

/-- C08–C11 carry over to modules: after every history of steps and resets the module's genset is the
    one obtained by the status requests contained in the history.  In particular the status machine
    also moves when a step raises later on because of its energy request. -/
theorem C10_module_history (hm : mkGenset rmin rmax cost c1 c2 S W ab iu i r = .ok m) (h0 : 0 ≤ rmin)
    (ops : List MOp) (hops : ∀ op ∈ ops, op.isCall) :
    ∃ g₀ g, Genset.init rmin rmax cost c1 c2 S W ab iu = .ok g₀ ∧
      requests g₀ (goalsOf ops) = .ok g ∧ (runOps m ops).genset? = some g := by
  obtain ⟨g₀, hi, wf⟩ := gen_start hm h0
  obtain ⟨g, h, hr, -⟩ := gen_ops wf ops hops
  exact ⟨g₀, g, hi, hr, by simp [genset?, h.kind]⟩

/-- C12, range, cost and CO2: in every successful step of a reachable genset module (`0 ≤ running_min`)
    the energy provided is 0 if the genset is off after the status update and lies in its running range
    if it is on; nothing is absorbed; reward and reported CO2 follow from the energy provided. -/
theorem C12_output (hm : mkGenset rmin rmax cost c1 c2 S W ab iu i r = .ok m) (h0 : 0 ≤ rmin)
    (ops : List MOp) (hops : ∀ op ∈ ops, op.isCall) (a : Act) (n : Bool) (m' : Module) (o : StepOut)
    (he : (runOps m ops).step a n = (m', .ok o)) :
    ∃ g' x, m'.genset? = some g' ∧ o.info.provided = some x ∧ o.info.absorbed = none ∧
      (g'.status = 0 ∨ g'.status = 1) ∧ (g'.status = 0 → x = 0) ∧
      (g'.status = 1 → rmin ≤ x ∧ x ≤ rmax) ∧
      o.reward = -(fuelPrice cost x + c2 * (c1 * x)) ∧
      o.info.extra = [(.str "co2_production", c1 * x)] ∧ o.done = false := by
  obtain ⟨g₀, hi, wf₀⟩ := gen_start hm h0
  obtain ⟨g, wf, -, hs⟩ := gen_ops wf₀ ops hops
  obtain ⟨-, -, e1, e2, e3, e4, e5, -⟩ := Genset.init_inv hi
  rw [wf.step_eq] at he
  cases a with
  | num q => simp at he
  | arr l =>
    simp only at he
    split at he
    · simp at he
    rename_i goal hg
    split at he
    · simp at he
    rename_i hgr
    have hgr := not_not.mp hgr
    obtain ⟨p, hp⟩ := wf.phase
    obtain ⟨g₁, eu, hp₁, hs₁, -⟩ := hp.update hgr.1 hgr.2
    simp only [eu] at he
    split at he
    · simp at he
    rename_i q hq
    have wf₁ := wf.withStatus ⟨_, hp₁⟩ hs₁
    have hstep := wf₁.stepEnergy q
    split at hstep
    · rw [hstep] at he; simp at he
    split at hstep
    · rw [hstep] at he; simp at he
    obtain ⟨m'', o', e', hst⟩ := hstep
    rw [e'] at he
    simp only [Prod.mk.injEq, Except.ok.injEq] at he
    obtain ⟨rfl, rfl⟩ := he
    have hss := hs.trans hs₁
    have hmin : g₁.runMin = rmin := hss.runMin.trans e1
    have hmax : g₁.runMax = rmax := hss.runMax.trans e2
    refine ⟨g₁, _, by simp [genset?, hst.wf.kind], hst.provided, hst.absorbed, hp₁.1.status, ?_, ?_, ?_, ?_,
      hst.done⟩
    · intro h
      simp only [clamp, Genset.minProduction, Genset.maxProduction, h, Int.cast_zero, zero_mul]
      split
      · rfl
      · linarith
    · intro h
      have := wf₁.limits
      simp only [Genset.minProduction, Genset.maxProduction, h, Int.cast_one, one_mul, hmin, hmax] at this
      simp only [clamp, Genset.minProduction, Genset.maxProduction, h, Int.cast_one, one_mul, hmin, hmax]
      split
      · exact ⟨this.2, le_rfl⟩
      split
      · exact ⟨le_rfl, this.2⟩
      · constructor <;> linarith
    · rw [hst.reward]
      simp only [Genset.getCost, Genset.getCo2Cost, Genset.getCo2, Genset.fuelCost, hss.cco2, hss.co2, e4, e5,
        hss.cost, e3, fuelPrice]
      cases cost <;> rfl
    · rw [hst.extra, hss.co2, e4]

/-- C12, exactness: an unnormalised request inside the range of the running genset is served exactly,
    and a request to a genset that is off is served with 0 (with `raise_errors=False` for requests
    outside the range). -/
theorem C12_exact (hm : mkGenset rmin rmax cost c1 c2 S W ab iu i r = .ok m) (h0 : 0 ≤ rmin)
    (ops : List MOp) (hops : ∀ op ∈ ops, op.isCall) (goal e : ℚ) (hgoal : 0 ≤ goal ∧ goal ≤ 1) (he : 0 ≤ e) :
    ∃ g g', (runOps m ops).genset? = some g ∧ g.updateStatus goal = .ok g' ∧
      (g'.status = 1 → rmin ≤ e → e ≤ rmax →
        ∃ m' o, (runOps m ops).step (.arr [goal, e]) false = (m', .ok o) ∧ o.info.provided = some e ∧
          m'.genset? = some g') ∧
      (g'.status = 0 → r = false ∨ e = 0 →
        ∃ m' o, (runOps m ops).step (.arr [goal, e]) false = (m', .ok o) ∧ o.info.provided = some 0 ∧
          m'.genset? = some g') := by
  obtain ⟨g₀, hi, wf₀⟩ := gen_start hm h0
  have hraise : (runOps m ops).raiseErrors = r := by
    obtain ⟨_, _, _, _, _, _, _, _, _, hr, _⟩ := mkGenset_inv hm
    exact (frame_runOps m ops).raise.trans hr
  obtain ⟨g, wf, -, hs⟩ := gen_ops wf₀ ops hops
  obtain ⟨-, -, e1, e2, e3, e4, e5, -⟩ := Genset.init_inv hi
  obtain ⟨p, hp⟩ := wf.phase
  obtain ⟨g₁, eu, hp₁, hs₁, -⟩ := hp.update hgoal.1 hgoal.2
  have wf₁ := wf.withStatus ⟨_, hp₁⟩ hs₁
  have hss := hs.trans hs₁
  have hmin : g₁.runMin = rmin := hss.runMin.trans e1
  have hmax : g₁.runMax = rmax := hss.runMax.trans e2
  have hst : (runOps m ops).step (.arr [goal, e]) false =
      Module.stepEnergy { (runOps m ops) with kind := .genset g₁ } e := by
    rw [wf.step_eq]
    simp only [List.getElem?_cons_zero, hgoal, and_self, not_true, if_false, eu]
    simp [request, energyOf, energyPos, wf.kind]
  refine ⟨g, g₁, by simp [genset?, wf.kind], eu, ?_, ?_⟩
  · intro h1 hlo hhi
    have hstep := wf₁.stepEnergy e
    have l1 : g₁.minProduction = rmin := by simp [Genset.minProduction, h1, hmin]
    have l2 : g₁.maxProduction = rmax := by simp [Genset.maxProduction, h1, hmax]
    rw [if_neg (not_lt.mpr he), if_neg (by rw [l1, l2]; rintro ⟨-, h | h⟩ <;> linarith)] at hstep
    obtain ⟨m'', o', e', hs'⟩ := hstep
    refine ⟨m'', o', hst.trans e', ?_, by simp [genset?, hs'.wf.kind]⟩
    rw [hs'.provided, l1, l2, clamp, if_neg (not_lt.mpr hhi), if_neg (not_lt.mpr hlo)]
  · intro h1 hr
    have hstep := wf₁.stepEnergy e
    have l1 : g₁.minProduction = 0 := by simp [Genset.minProduction, h1]
    have l2 : g₁.maxProduction = 0 := by simp [Genset.maxProduction, h1]
    rw [if_neg (not_lt.mpr he), if_neg (by
      rw [l1, l2]
      rintro ⟨hh, h⟩
      simp only [hraise] at hh
      rcases hr with hr | hr
      · simp [hh] at hr
      · rcases h with h | h <;> linarith)] at hstep
    obtain ⟨m'', o', e', hs'⟩ := hstep
    refine ⟨m'', o', hst.trans e', ?_, by simp [genset?, hs'.wf.kind]⟩
    rw [hs'.provided, l1, l2, clamp]
    congr 1
    split
    · rfl
    split
    · rfl
    · linarith

end

/-! ### Non-vacuity -/

/-- A genset with running range 10–50, start-up time 2 and wind-down time 1, initially on. -/
def sampleGenset : Module :=
  okModule (mkGenset 10 50 (.const (2/5)) 2 (1/10) 2 1 true true 0 false)

theorem sampleGenset_ok : mkGenset 10 50 (.const (2/5)) 2 (1/10) 2 1 true true 0 false = .ok sampleGenset :=
  okModule_eq (by decide +kernel)

/-- Non-vacuity: switch off (one step still running), then on again (two steps off), clipping. -/
example : (outputs sampleGenset [.step (.arr [0, 5]) false, .step (.arr [0, 5]) false,
      .step (.arr [1, 20]) false, .step (.arr [1, 20]) false, .step (.arr [1, 20]) false,
      .step (.arr [1, 80]) false]).map (fun o => (o.info.provided, o.reward))
    = [(some 10, -6), (some 0, 0), (some 0, 0), (some 0, 0), (some 20, -12), (some 50, -30)] := by
  decide +kernel

/-- Status, goal and counters of a genset after some requests (examples only). -/
def sampleRequests (r : Except Err Genset) (qs : List ℚ) : Option (Int × Int × Int × Int) :=
  r.toOption.bind fun g₀ => (requests g₀ qs).toOption.map fun g => (g.status, g.goal, g.untilUp, g.untilDown)

/-- Non-vacuity of C09: a reachable state with a change in progress, and its abortion. -/
example : sampleRequests (Genset.init 10 50 (.const (2/5)) 2 (1/10) 2 3 true true) [0, 1/4]
      = some (1, 0, 0, 1) ∧
    sampleRequests (Genset.init 10 50 (.const (2/5)) 2 (1/10) 2 3 true true) [0, 1/4, 1]
      = some (1, 1, 0, 3) := by
  decide +kernel

/-- Non-vacuity of C08: a state at rest off, reached by winding down. -/
example : sampleRequests (Genset.init 10 50 (.const (2/5)) 2 (1/10) 2 1 true true) [0, 1/4]
      = some (0, 0, 2, 0) := by
  decide +kernel

/-- Non-vacuity of C11: the same requests leave a genset without abortion running for ever. -/
example : sampleRequests (Genset.init 10 50 (.const (2/5)) 2 (1/10) 2 1 false true) [0, 0, 0, 0, 0]
      = some (1, 1, 0, 1) := by
  decide +kernel

end Pymgrid
