import Verif.Lemmas.Legacy

set_option autoImplicit false

/-!
# C51, C52, C60, C61: the legacy microgrid

Statements about `NonModularMicrogrid.run` for every control dict and, for the state of charge and the time-dependent
values, every history of `run` and `reset` calls.
-/

namespace Pymgrid.Legacy

/-! ## C51 -/

section
variable {g g' : Grid} {c : Control} {row : StateRow}

/-- C51: a successful run records one entry per component.  The entry is what the documented limits make of the
    request, it respects the limits, and it balances.
    Missing: the minimum production of the genset for requests of at most 1 (`C51_small_genset`), the status of the grid
    (`C51_outage`) and the success of all runs (`C51_fails_iff`, `C51_assertion`). -/
theorem C51_run_partial (hp : g.params.Good) (hpv : 0 ≤ g.pv) (h : g.run c = (g', .ok row)) :
    ∃ e : Entry, e.Recorded g.arch g.production g'.production ∧ e.Executes g.arch g.params g.soc c ∧
      e.Within g.params g.soc ∧ (1 < e.genset → g.params.rated * g.params.pmin ≤ e.genset) ∧ e.Balanced g.load g.pv := by
  obtain ⟨e, -, hk, hr, hs, -⟩ := Grid.run_ok h
  obtain ⟨hw, -, -, hm⟩ := hk.within hp
  obtain ⟨s1, s2, s3, s4, s5, s6⟩ := settle_spec hpv hs
  refine ⟨e, hr, hk.executes hp, hw, hm, ?_, s2, s3, s4, s5, s6⟩
  have : e.discharge + e.imp + e.genset + e.consumed + e.lossLoad - (g.load + e.charge + e.exp + e.overgen) =
      e.consumed + e.lossLoad - (g.load + e.charge + e.exp - (e.discharge + e.imp + e.genset) + e.overgen) := by ring
  rw [this]
  exact s1

/-- C51, "the record never fails" is violated in exactly one situation.  With all keys given, a run raises
    `AssertionError` iff the other components exactly cover the load without PV although PV of at least 1/1000 is
    available. -/
theorem C51_fails_iff (hp : g.params.Good) (hc : c.Complete g.arch) :
    (g.run c).2 = .error .assertion ↔
      ∃ e : Entry, e.Executes g.arch g.params g.soc c ∧ g.load + e.charge + e.exp = e.discharge + e.imp + e.genset ∧
        1/1000 ≤ g.pv := by
  obtain ⟨ch, di, im, ex, ge, hk, hq⟩ := record_eq g.arch g.params g.load g.pv g.soc g.production hc
  constructor
  · intro h
    rcases g.run_cases c with ⟨r, e, hr, h'⟩ | ⟨r, e, hr, -, h1, h2, h3, h'⟩
    · rw [hq] at hr
      split at hr
      · rename_i e' hs
        obtain ⟨h1, h2⟩ := settle_fails.mp ⟨e', hs⟩
        exact ⟨_, (hk ⟨0, 0, 0, 0⟩).executes hp, by simp only; linarith, h2⟩
      · simp at hr
    · rw [h'] at h
      split at h
      · simp at h
      · rename_i hend
        split at h
        · rename_i g₂ e₂ hu
          injection h with h
          subst h
          exfalso
          unfold Grid.updateVariables at hu
          split at hu
          · simp only at hu
            split at hu
            · split at hu
              · rename_i hg
                unfold Grid.gridAt at hg
                split at hg
                · simp at hg
                · injection hg with hg
                  simp only [Prod.mk.injEq, Except.error.injEq] at hu
                  rw [← hg] at hu
                  exact absurd hu.2 (by decide)
              · split at hu
                · split at hu
                  · rename_i hg
                    unfold Grid.gridAt at hg
                    split at hg
                    · simp at hg
                    · injection hg with hg
                      simp only [Prod.mk.injEq, Except.error.injEq] at hu
                      rw [← hg] at hu
                      exact absurd hu.2 (by decide)
                  · simp at hu
                · simp at hu
            · simp at hu
          · simp only [Prod.mk.injEq, Except.error.injEq] at hu
            exact absurd hu.2 (by decide)
        · simp at h
  · rintro ⟨e, he, hb, hv⟩
    obtain ⟨u1, u2, u3, u4, u5⟩ := he.unique ((hk ⟨0, 0, 0, 0⟩).executes hp)
    simp only at u1 u2 u3 u4 u5
    have h0 : g.load + ch + ex - (di + im + ge) = 0 := by rw [u1, u2, u3, u4, u5]; linarith
    obtain ⟨er, hs⟩ := settle_fails.mpr ⟨h0, hv⟩
    have her : er = .assertion := by
      unfold settle at hs
      split_ifs at hs
      injection hs with hs
      exact hs.symm
    rw [hs, her] at hq
    unfold Grid.run
    rw [hq]

end

/-- The parameters of the examples: a battery of 100 units (20 to 100), powers 25, efficiency 9/10; a genset with
    5 to 90 units; a grid connection of 200. -/
def demoParams : Params :=
  { socMin := 1/5, socMax := 1, capacity := 100, eff := 9/10, pCharge := 25, pDischarge := 25, costCycle := 1/50
    rated := 100, pmin := 1/20, pmax := 9/10, fuelCost := 2/5, gensetCo2 := 2, pImport := 200, pExport := 200
    costLossLoad := 10, costOvergen := 1, costCo2 := 1/10 }

theorem demoParams_good : demoParams.Good := by
  constructor <;> norm_num [demoParams]

/-- First state of the examples. -/
def demoStatus : StateRow := ⟨some 60, some 30, 0, 1/2, 50, 27, some ⟨1, 1/5, 0, 1/4⟩⟩

/-- Microgrids of the examples, with and without a grid. -/
def demo (grid : Bool) : Grid :=
  match create ⟨true, true, grid⟩ demoParams [60, 40, 0, 20] [30, 50, 10, 0] [1, 0, 1, 1] [1/5, 3/10, 1/5, 1/5]
    [0, 0, 1/10, 0] [1/4, 1/3, 1/4, 1/4] 1 (1/2) demoStatus with
  | .ok g => g
  | .error _ => ⟨⟨false, false, false⟩, demoParams, [], [], [], [], [], [], 0, 0, 0, 0, none, none, ⟨0, 0, 0, 0⟩, none, [],
      {}, [], [], false, 0⟩

theorem demo_ok (grid : Bool) : create ⟨true, true, grid⟩ demoParams [60, 40, 0, 20] [30, 50, 10, 0] [1, 0, 1, 1]
    [1/5, 3/10, 1/5, 1/5] [0, 0, 1/10, 0] [1/4, 1/3, 1/4, 1/4] 1 (1/2) demoStatus = .ok (demo grid) := by
  cases grid <;> decide +kernel

/-- C51 is violated: a genset whose minimum is 5 produces 1/2. -/
theorem C51_small_genset :
    ((demo true).run ⟨some 0, some 0, some 0, some 0, some (1/2)⟩).1.production.genset = [1/2] ∧
      ((demo true).run ⟨some 0, some 0, some 0, some 0, some (1/2)⟩).2.isOk = true ∧
      (demo true).params.rated * (demo true).params.pmin = 5 := by
  decide +kernel

/-- C51 is violated: in the second step the grid is down (status 0), yet 40 units are imported. -/
theorem C51_outage :
    let g := ((demo true).run ⟨some 0, some 0, some 30, some 0, some 0⟩).1
    g.cur.status = 0 ∧ (g.run ⟨some 0, some 0, some 40, some 50, some 0⟩).1.production.grid = [(30, 0), (40, 50)] ∧
      (g.run ⟨some 0, some 0, some 40, some 50, some 0⟩).2.isOk = true := by
  decide +kernel

/-- C51 is violated: importing exactly the load while the sun shines makes the run fail.  The battery, grid and genset
    entries are recorded already, the PV entry is not. -/
theorem C51_assertion :
    (match ((demo true).run ⟨some 0, some 0, some 60, some 0, some 0⟩).2 with | .error e => some e | .ok _ => none) =
      some .assertion ∧
      ((demo true).run ⟨some 0, some 0, some 60, some 0, some 0⟩).1.production = ⟨[(0, 0)], [(60, 0)], [0], []⟩ := by
  decide +kernel

/-- Non-vacuity of `C51_run_partial` and `C51_fails_iff`: charging 10 and discharging 40 (limited to 25) with a genset
    request of 3 (raised to 5) leaves 40 units for PV, which has 30, and a loss of 10. -/
example : (demo true).params.Good ∧ 0 ≤ (demo true).pv ∧
    (⟨some 10, some 40, some 0, some 0, some 3⟩ : Control).Complete (demo true).arch ∧
    ((demo true).run ⟨some 10, some 40, some 0, some 0, some 3⟩).2.isOk = true ∧
    ((demo true).run ⟨some 10, some 40, some 0, some 0, some 3⟩).1.production =
      ⟨[(10, 25)], [(0, 0)], [5], [⟨30, 10, 0, 0⟩]⟩ := by
  refine ⟨?_, by decide +kernel, ⟨fun _ => ⟨rfl, rfl⟩, fun _ => ⟨rfl, rfl⟩, fun _ => rfl⟩, by decide +kernel,
    by decide +kernel⟩
  have : (demo true).params = demoParams := by decide +kernel
  rw [this]
  exact demoParams_good

/-! ## C52 -/

/-- All recorded states of charge are in the window. -/
def InWindow (g : Grid) : Prop := ∀ row ∈ g.states, g.params.socMin ≤ row.soc ∧ row.soc ≤ g.params.socMax

theorem soc_mem {g : Grid} (hs : g.states ≠ []) (h : InWindow g) : g.params.socMin ≤ g.soc ∧ g.soc ≤ g.params.socMax := by
  unfold Grid.soc
  rw [List.getLast?_eq_getLast_of_ne_nil hs]
  exact h _ (List.getLast_mem hs)

/-- One call keeps the window if the amounts written are possible. -/
theorem window_step {g : Grid} (hb : g.arch.battery = true) (hp : g.params.Good) (hs : g.states ≠ []) (h : InWindow g)
    (op : Op)
    (ok : ∀ c, op = .run c → g.arch.grid = true ∨ ∀ x y, c.charge = some x → c.discharge = some y →
      (0 ≤ x ∧ x ≤ g.params.chargeLimit g.soc) ∧ (0 ≤ y ∧ y ≤ g.params.dischargeLimit g.soc)) :
    (op.apply g).states ≠ [] ∧ InWindow (op.apply g) := by
  cases op with
  | reset =>
    have e1 : (Op.reset.apply g).states = g.states.take 1 := g.reset_states
    have e2 : (Op.reset.apply g).params = g.params := g.reset_frame.params
    refine ⟨?_, ?_⟩
    · rw [e1]; simpa using hs
    · intro row hrow
      rw [e1] at hrow
      rw [e2]
      exact h row (List.mem_of_mem_take hrow)
  | run c =>
    have e2 : (g.run c).1.params = g.params := (g.run_frame c).params
    rcases g.run_soc c with e1 | ⟨e, hc, hk, e1⟩
    · refine ⟨by show (g.run c).1.states ≠ []; rw [e1]; exact hs, ?_⟩
      intro row hrow
      have hrow : row ∈ (g.run c).1.states := hrow
      show (g.run c).1.params.socMin ≤ row.soc ∧ row.soc ≤ (g.run c).1.params.socMax
      rw [e1] at hrow
      rw [e2]
      exact h row hrow
    · refine ⟨by show (g.run c).1.states ≠ []; rw [e1]; simp, ?_⟩
      intro row hrow
      have hrow : row ∈ (g.run c).1.states := hrow
      show (g.run c).1.params.socMin ≤ row.soc ∧ row.soc ≤ (g.run c).1.params.socMax
      rw [e1] at hrow
      rw [e2]
      rcases List.mem_append.mp hrow with hrow | hrow
      · exact h row hrow
      · rw [List.mem_singleton] at hrow
        subst hrow
        obtain ⟨hlo, hhi⟩ := soc_mem hs h
        obtain ⟨x, y, hx, hy, hxy⟩ := hk.battery hb
        by_cases hg : g.arch.grid = true
        · have : (g.rowOf c e).soc = g.soc + (e.charge * g.params.eff - e.discharge / g.params.eff) / g.params.capacity := by
            unfold Grid.rowOf nextRow
            rw [if_pos hg]
            simp only [hb, if_true]
          rw [this]
          obtain ⟨hw, hcc, hdd, -⟩ := hk.within hp
          exact soc_step hp hlo hhi hw.charge.1 hcc hw.discharge.1 hdd
        · have : (g.rowOf c e).soc = g.soc + (x * g.params.eff - y / g.params.eff) / g.params.capacity := by
            unfold Grid.rowOf nextRow
            rw [if_neg hg, hx, hy]
            simp only [hb, if_true, Option.getD_some]
          rw [this]
          rcases ok c rfl with hg' | hf
          · exact absurd hg' hg
          · obtain ⟨⟨a1, a2⟩, ⟨b1, b2⟩⟩ := hf x y hx hy
            refine soc_step hp hlo hhi a1 ?_ b1 ?_
            · rw [capaToCharge_eq]; exact le_trans a2 (min_le_right _ _)
            · rw [capaToDischarge_eq]; exact le_trans b2 (min_le_right _ _)

section
variable {arch : Arch} {params : Params} {loads pvs statuses importPrices exportPrices co2s : List ℚ} {horizon : Nat}
  {socStart : ℚ} {status : StateRow} {g : Grid}

theorem create_states (h : create arch params loads pvs statuses importPrices exportPrices co2s horizon socStart status = .ok g) :
    g.states = [status] ∧ g.arch = arch ∧ g.params = params := by
  unfold create at h
  split at h
  · simp only at h
    split at h
    · split at h
      · simp at h
      · injection h with h; subst h; exact ⟨rfl, rfl, rfl⟩
    · injection h with h; subst h; exact ⟨rfl, rfl, rfl⟩
  · simp at h

/-- C52 for microgrids with a grid connection: whatever is requested, in whatever order of runs and resets, and also
    after failing calls, every recorded state of charge is in the window.
    Missing: microgrids without grid, where the state of charge follows the request (`C52_islanded_partial`,
    `C52_violated`). -/
theorem C52_grid_partial
    (h : create arch params loads pvs statuses importPrices exportPrices co2s horizon socStart status = .ok g)
    (hb : arch.battery = true) (hg : arch.grid = true) (hp : params.Good)
    (hs : params.socMin ≤ status.soc ∧ status.soc ≤ params.socMax) (ops : List Op) :
    ∀ row ∈ (after g ops).states, params.socMin ≤ row.soc ∧ row.soc ≤ params.socMax := by
  obtain ⟨e1, e2, e3⟩ := create_states h
  subst e2 e3
  have base : g.states ≠ [] ∧ InWindow g := by
    rw [e1]
    refine ⟨by simp, ?_⟩
    intro row hrow
    rw [e1, List.mem_singleton] at hrow
    subst hrow
    exact hs
  have key : ∀ (ops : List Op) (g₁ : Grid), g.Frame g₁ → g₁.states ≠ [] ∧ InWindow g₁ →
      InWindow (after g₁ ops) := by
    intro ops
    induction ops with
    | nil => intro g₁ _ h₁; exact h₁.2
    | cons op ops ih =>
      intro g₁ hf h₁
      refine ih _ (hf.trans ?_) (window_step (by rw [hf.arch]; exact hb) (by rw [hf.params]; exact hp) h₁.1 h₁.2 op
        fun _ _ => .inl (by rw [hf.arch]; exact hg))
      cases op with
      | run c => exact g₁.run_frame c
      | reset => exact g₁.reset_frame
  intro row hrow
  have := key ops g (.refl g) base row hrow
  rwa [(g.after_frame ops).params] at this

/-- C52 without grid connection, for requests that are possible when they are made. -/
theorem C52_islanded_partial
    (h : create arch params loads pvs statuses importPrices exportPrices co2s horizon socStart status = .ok g)
    (hb : arch.battery = true) (hp : params.Good)
    (hs : params.socMin ≤ status.soc ∧ status.soc ≤ params.socMax) (ops : List Op) (hf : FeasibleBattery g ops) :
    ∀ row ∈ (after g ops).states, params.socMin ≤ row.soc ∧ row.soc ≤ params.socMax := by
  obtain ⟨e1, e2, e3⟩ := create_states h
  subst e2 e3
  have base : g.states ≠ [] ∧ InWindow g := by
    rw [e1]
    refine ⟨by simp, ?_⟩
    intro row hrow
    rw [e1, List.mem_singleton] at hrow
    subst hrow
    exact hs
  have key : ∀ (ops : List Op) (g₁ : Grid), g.Frame g₁ → g₁.states ≠ [] ∧ InWindow g₁ → FeasibleBattery g₁ ops →
      InWindow (after g₁ ops) := by
    intro ops
    induction ops with
    | nil => intro g₁ _ h₁ _; exact h₁.2
    | cons op ops ih =>
      intro g₁ hfr h₁ hfe
      refine ih _ (hfr.trans ?_) (window_step (by rw [hfr.arch]; exact hb) (by rw [hfr.params]; exact hp) h₁.1 h₁.2 op
        ?_) hfe.2
      · cases op with
        | run c => exact g₁.run_frame c
        | reset => exact g₁.reset_frame
      · rintro c rfl
        exact .inr hfe.1
  intro row hrow
  have := key ops g (.refl g) base hf row hrow
  rwa [(g.after_frame ops).params] at this

end

/-- C52 is violated without grid connection: a request to discharge 90 is recorded as 25 but takes the state of charge
    from 1/2 to -1/2. -/
theorem C52_violated :
    ((demo false).run ⟨some 0, some 90, none, none, some 0⟩).2.isOk = true ∧
      ((demo false).run ⟨some 0, some 90, none, none, some 0⟩).1.production.battery = [(0, 25)] ∧
      ((demo false).run ⟨some 0, some 90, none, none, some 0⟩).1.soc = -1/2 := by
  decide +kernel

/-- Non-vacuity of `C52_grid_partial`: the same request with a grid takes the state of charge from 1/2 to 2/9, and
    after a reset it is 1/2 again. -/
example : (demo true).arch.battery = true ∧ (demo true).arch.grid = true ∧ demoParams.Good ∧
    (demoParams.socMin ≤ demoStatus.soc ∧ demoStatus.soc ≤ demoParams.socMax) ∧
    (after (demo true) [.run ⟨some 0, some 90, some 0, some 0, some 0⟩]).soc = 2/9 ∧
    (after (demo true) [.run ⟨some 0, some 90, some 0, some 0, some 0⟩, .reset]).soc = 1/2 :=
  ⟨by decide +kernel, by decide +kernel, demoParams_good, by decide +kernel, by decide +kernel, by decide +kernel⟩

/-- Non-vacuity of `C52_islanded_partial`: charging 10 units is possible. -/
example : FeasibleBattery (demo false) [.run ⟨some 10, some 0, none, none, some 0⟩, .reset] ∧
    (after (demo false) [.run ⟨some 10, some 0, none, none, some 0⟩]).soc = 59/100 := by
  refine ⟨⟨?_, trivial, trivial⟩, by decide +kernel⟩
  intro x y hx hy
  injection hx with hx
  injection hy with hy
  subst hx hy
  decide +kernel

/-! ## C60 -/

set_option linter.unusedSimpArgs false in
/-- C60: a successful run appends one cost entry.  Its total is the sum of the costs of the recorded production: loss
    of load and overgeneration at their prices, fuel, import minus export revenue at the prices of the current step,
    battery throughput, and the emissions of the genset and of the imported energy at the price of CO2. -/
theorem C60_cost {g g' : Grid} {c : Control} {row : StateRow} (h : g.run c = (g', .ok row)) :
    ∃ e : Entry, ∃ cost co2, e.Recorded g.arch g.production g'.production ∧ g'.costs = g.costs ++ [cost] ∧
      g'.co2 = g.co2 ++ [co2] ∧
      co2 = e.genset * g.params.gensetCo2 + e.imp * g.cur.co2 ∧
      cost.total = e.lossLoad * g.params.costLossLoad + e.overgen * g.params.costOvergen + e.genset * g.params.fuelCost
        + e.imp * g.cur.priceImport - e.exp * g.cur.priceExport + (e.charge + e.discharge) * g.params.costCycle
        + co2 * g.params.costCo2 := by
  obtain ⟨e, -, hk, hr, hs, -, -, h1, h2, -⟩ := Grid.run_ok h
  refine ⟨e, g.costFor e, g.co2For e, hr, h1, h2, ?_, ?_⟩
  · unfold Grid.co2For co2Of
    have hn := hk.noGenset
    have hg := hk.noGrid
    cases h3 : g.arch.genset <;> cases h4 : g.arch.grid <;> simp only [h3, h4, Bool.false_eq_true, if_false, if_true] <;>
      simp [h3, h4] at hn hg <;> simp [hn, hg] <;> ring
  · unfold Grid.costFor costRow costsOf
    have hn := hk.noGenset
    have hg := hk.noGrid
    have hb := hk.noBattery
    cases h3 : g.arch.genset <;> cases h4 : g.arch.grid <;> cases h5 : g.arch.battery <;>
      simp only [h3, h4, h5, Bool.false_eq_true, if_false, if_true] <;>
      simp [h3, h4, h5] at hn hg hb <;> simp [hn, hg, hb] <;> ring

/-- Non-vacuity of C60: the run of the example above costs 10 · 10 (loss of load) + 5 · 2/5 (fuel) + 35/50 (battery)
    + 10/10 (CO2). -/
example : ((demo true).run ⟨some 10, some 40, some 0, some 0, some 3⟩).1.costs.map (·.total) = [1037/10] := by
  decide +kernel

/-! ## C61 -/

section
variable {arch : Arch} {params : Params} {loads pvs statuses importPrices exportPrices co2s : List ℚ} {horizon : Nat}
  {socStart : ℚ} {status : StateRow} {g g' : Grid} {c : Control} {row : StateRow}

/-- C61: in every reachable state a run uses load and PV of the current step and prices of the current step (the
    latter is part of C60), and returns load and PV of the next step (none at the end of the data).  From the second
    step on it also returns the grid values of the next step.  A run never raises `IndexError`; a reset always
    succeeds.
    Missing: the grid values returned by the first run after the construction and the hour (`C61_first_row`,
    `C61_hour`). -/
theorem C61_next_step_partial
    (h : create arch params loads pvs statuses importPrices exportPrices co2s horizon socStart status = .ok g)
    (hf : g.FullSeries) (ops : List Op) :
    let s := after g ops
    s.t < min loads.length pvs.length ∧ loads[s.t]? = some s.load ∧ pvs[s.t]? = some s.pv ∧
    (arch.grid = true → statuses[s.t]? = some s.cur.status ∧ importPrices[s.t]? = some s.cur.priceImport ∧
      exportPrices[s.t]? = some s.cur.priceExport ∧ co2s[s.t]? = some s.cur.co2) ∧
    (s.reset.2 = .ok () ∧ (s.run c).2 ≠ .error .index) ∧
    (s.run c = (g', .ok row) →
      (s.t + 1 < min loads.length pvs.length →
        row.load = loads[s.t + 1]? ∧ row.pv = pvs[s.t + 1]? ∧
        (0 < s.t → arch.grid = true → ∃ r, row.grid = some r ∧ statuses[s.t + 1]? = some r.status ∧
          importPrices[s.t + 1]? = some r.priceImport ∧ exportPrices[s.t + 1]? = some r.priceExport ∧
          co2s[s.t + 1]? = some r.co2)) ∧
      (¬ s.t + 1 < min loads.length pvs.length → row.load = none ∧ row.pv = none)) := by
  obtain ⟨hc, -, -, e1, -, -⟩ := Grid.create_clock h hf
  have clock := Grid.after_clock hc ops
  have fr := g.after_frame ops
  have series : g.loads = loads ∧ g.pvs = pvs ∧ g.statuses = statuses ∧ g.importPrices = importPrices ∧
      g.exportPrices = exportPrices ∧ g.co2s = co2s := by
    unfold create at h
    split at h
    · simp only at h
      split at h
      · split at h
        · simp at h
        · injection h with h; subst h; exact ⟨rfl, rfl, rfl, rfl, rfl, rfl⟩
      · injection h with h; subst h; exact ⟨rfl, rfl, rfl, rfl, rfl, rfl⟩
    · simp at h
  obtain ⟨s1, s2, s3, s4, s5, s6⟩ := series
  subst s1 s2 s3 s4 s5 s6 e1
  intro s
  have dl : s.dataLength = min g.loads.length g.pvs.length := by
    rw [Grid.dataLength, fr.loads, fr.pvs]
  refine ⟨?_, ?_, ?_, ?_, ⟨(Grid.reset_clock clock).2.1, fun he => (Grid.run_clock clock c).2 _ he rfl⟩, ?_⟩
  · rw [← dl]; exact clock.timed.inside
  · rw [← fr.loads]; exact clock.timed.load
  · rw [← fr.pvs]; exact clock.timed.pv
  · intro ha
    exact fr.gridData.mp (clock.timed.cur (by rw [fr.arch]; exact ha))
  · intro hrun
    obtain ⟨e, -, -, -, -, hrow, -⟩ := Grid.run_ok hrun
    have hl : row.load = s.nextLoad ∧ row.pv = s.nextPv ∧ (s.arch.grid = true → row.grid = s.next) := by
      rw [hrow]
      unfold Grid.rowOf nextRow
      split
      · rename_i hg
        exact ⟨rfl, rfl, fun _ => rfl⟩
      · rename_i hg
        exact ⟨rfl, rfl, fun h => absurd h hg⟩
    refine ⟨fun hi => ?_, fun hi => ?_⟩
    · rw [← dl] at hi
      refine ⟨?_, ?_, ?_⟩
      · rw [hl.1, clock.timed.nextLoad, if_pos hi, ← fr.loads]
      · rw [hl.2.1, clock.timed.nextPv, if_pos hi, ← fr.pvs]
      · intro ht ha
        have ha' : s.arch.grid = true := by rw [fr.arch]; exact ha
        obtain ⟨r, h1, h2⟩ := (clock.later ht ha').1 hi
        exact ⟨r, (hl.2.2 ha').trans h1, fr.gridData.mp h2⟩
    · rw [← dl] at hi
      refine ⟨?_, ?_⟩
      · rw [hl.1, clock.timed.nextLoad, if_neg hi]
      · rw [hl.2.1, clock.timed.nextPv, if_neg hi]

/-- C61 is violated by every first run: it returns the grid values of the first step together with load and PV of the
    second. -/
theorem C61_first_row
    (h : create arch params loads pvs statuses importPrices exportPrices co2s horizon socStart status = .ok g)
    (hf : g.FullSeries) (ha : arch.grid = true) (hrun : g.run c = (g', .ok row)) :
    row.load = loads[1]? ∧ row.pv = pvs[1]? ∧ ∃ r, row.grid = some r ∧ statuses[0]? = some r.status ∧
      importPrices[0]? = some r.priceImport ∧ exportPrices[0]? = some r.priceExport ∧ co2s[0]? = some r.co2 := by
  obtain ⟨hc, ht, -, e1, -, hn⟩ := Grid.create_clock h hf
  have k := C61_next_step_partial (c := c) (g' := g') (row := row) h hf []
  obtain ⟨-, -, -, k1, -, k2⟩ := k
  have two : 1 < min loads.length pvs.length := by
    unfold create at h
    split at h
    · rename_i e1 e2 e3 e4
      have l1 : 1 < loads.length := (List.getElem?_eq_some_iff.mp e3).1
      have l2 : 1 < pvs.length := (List.getElem?_eq_some_iff.mp e4).1
      omega
    · simp at h
  have h0 : (after g []).t = 0 := ht
  obtain ⟨k3, -⟩ := k2 hrun
  rw [h0] at k1 k3
  obtain ⟨a, b, -⟩ := k3 two
  refine ⟨a, b, g.cur, ?_, k1 ha⟩
  obtain ⟨e, -, -, -, -, hrow, -⟩ := Grid.run_ok hrun
  have hg : g.arch.grid = true := by rw [e1]; exact ha
  rw [hrow]
  unfold Grid.rowOf nextRow
  rw [if_pos hg]
  simp only [hg, if_true]
  exact hn ha

/-- C61 is violated: the hour in the row for step `t + 1` is the one of step `t`. -/
theorem C61_hour (hrun : g.run c = (g', .ok row)) : row.hour = g.t % 24 := by
  obtain ⟨e, -, -, -, -, hrow, -⟩ := Grid.run_ok hrun
  rw [hrow]
  unfold Grid.rowOf nextRow
  split <;> rfl

end

/-- Non-vacuity of C61: the first two rows of the example.  Status 0 of step 1 is shown only as part of the run at step
    0 after a reset. -/
example : (demo true).FullSeries ∧
    ((demo true).run ⟨some 0, some 0, some 30, some 0, some 0⟩).2.toOption.map (fun r => (r.load, r.pv, r.hour, r.grid)) =
      some (some 40, some 50, 0, some ⟨1, 1/5, 0, 1/4⟩) ∧
    ((after (demo true) [.run ⟨some 0, some 0, some 30, some 0, some 0⟩]).run ⟨some 0, some 0, some 30, some 0, some 0⟩).2.toOption.map
      (fun r => (r.load, r.pv, r.hour, r.grid)) = some (some 0, some 10, 1, some ⟨1, 1/5, 1/10, 1/4⟩) ∧
    ((after (demo true) [.reset]).run ⟨some 0, some 0, some 30, some 0, some 0⟩).2.toOption.map (·.grid) =
      some (some ⟨0, 3/10, 0, 1/3⟩) := by
  refine ⟨?_, by decide +kernel, by decide +kernel, by decide +kernel⟩
  unfold Grid.FullSeries
  decide +kernel

end Pymgrid.Legacy
