import Verif.Lemmas.Foresight
import Verif.Props.PlanCarried
import Verif.Props.GridForecast
import Verif.Props.Ledger

set_option autoImplicit false

/-!
# C103: model predictive control with perfect forecasts

Runs of a modular microgrid on plans made with perfect forecasts, against the runs of any other policy.
-/

namespace Pymgrid.MPC

open Module

section
variable {h : Heap} {mods : List (String × Nat)} {tr : Option (Nat → Nat → Option Nat → Except Err (Nat × Nat))} {g₀ : Microgrid}
  {pl : Planner} {solve : Solver} {c n H : Nat}

/-- C103: model predictive control that sees the rest of an episode earns at least as much in it as any other policy, from any
    state that the microgrid can get into.  Partial: this holds if the battery loses no energy, there is no genset, the grid
    is never out and pays nothing for exports (`Foreseen`), and what the forecasts show beyond the end does not ask for
    energy to be saved (`CoveredAfter`).  `C103_phantom` shows that the last condition is needed. -/
theorem C103_optimal_partial (hc : Microgrid.create h mods none tr = .ok g₀) (hl : ∀ nm ∈ mods, LibraryModule (h nm.2))
    (hid : (mods.map Prod.snd).Nodup) (hd : DistinctNames h mods)
    (hroom : ∀ nm ∈ mods, ∀ b, (h nm.2).kind = .battery b → 0 ≤ b.minCapacity ∧ 0 < b.maxCapacity)
    (ops ops' : List GOp) (hpl : createModular (runG g₀ ops) = .ok pl) (hlock : LockStep mods (runG g₀ ops') c)
    (fs : Foreseen h mods c n H) (cov : CoveredAfter h mods c n H) (opt : ∀ P x, solve P = some x → Optimal P x)
    {os : List RunOut} {g' : Microgrid} (hr : PlanRuns solve mods (runG g₀ ops') os g') (hn : os.length = n)
    {cs : List (List (String × Ctrl) × Bool)} {os' : List RunOut} {g'' : Microgrid} (hr' : Runs (runG g₀ ops') cs os' g'')
    (hs : ∀ cn ∈ cs, Supplies h mods cn.1) (hn' : os'.length = n) :
    (os'.map RunOut.reward).sum ≤ (os.map RunOut.reward).sum := by
  have r := user_ready hc hl hd hroom ops ops' hpl
  have f := user_follows hc hl ops'
  have fr := user_fresh hc hl ops'
  obtain ⟨nl, np, nb, ng, nu, tl, tp, tg, b, p, u, pt⟩ := r.plant hid f fs
  have wf₀ : ∀ nm ∈ mods, (h nm.2).WF := (Microgrid.create_ok hc).1 ▸ (GridOK.created hc hl).wf
  have sane : ∀ nm ∈ mods, (h nm.2).kind.Sane := fun nm hm => (hl nm hm).sane
  have room := hroom nb pt.mb b pt.kb
  have fair := pt.fair wf₀ sane room fs cov
  obtain ⟨b', hb, b1, b2, v, -, b4, -⟩ := battery_later f pt
  have sb := sane nb pt.mb
  rw [pt.kb] at sb
  have hcap : 0 < b'.maxCapacity := by rw [b1]; exact room.2
  have w1 : b.minSoc ≤ b'.soc := by
    rw [show b.minSoc = b.minCapacity / b.maxCapacity from sb, v.soc_eq, b1]
    exact div_le_div_of_nonneg_right (b2 ▸ v.low) room.2.le
  have w2 : b'.soc ≤ 1 := by rw [v.soc_eq, div_le_one hcap]; exact v.high
  obtain ⟨l, p1, p2, p3⟩ := runs_path pt sb fs fair hr' hs f hlock (le_refl _) (by omega) hb w1 w2
  have hz : b'.charge - b.maxCapacity * b'.soc = 0 := by
    rw [v.soc_eq, b1]
    have := room.2.ne'
    field_simp
    ring
  rw [hz, max_self, mul_zero, add_zero] at p3
  have := (plans_best pt fs fair cov opt hr r f fr hlock (le_refl _) (by omega) hb p1 (by omega)).trans p3
  have neg : ∀ l : List RunOut, (l.map fun o => -o.reward).sum = -(l.map RunOut.reward).sum := by
    intro l
    induction l with
    | nil => simp
    | cons a l ih => simp only [List.map_cons, List.sum_cons, ih]; ring
  rw [neg, neg] at this
  linarith

/-- C103: the same for a single step without forecasts: no control earns more in it than that of the planner.  Partial for the
    same reasons, but nothing is asked of the time after the step. -/
theorem C103_step_partial (hc : Microgrid.create h mods none tr = .ok g₀) (hl : ∀ nm ∈ mods, LibraryModule (h nm.2))
    (hid : (mods.map Prod.snd).Nodup) (hd : DistinctNames h mods)
    (hroom : ∀ nm ∈ mods, ∀ b, (h nm.2).kind = .battery b → 0 ≤ b.minCapacity ∧ 0 < b.maxCapacity)
    (ops ops' : List GOp) (hpl : createModular (runG g₀ ops) = .ok pl) (hlock : LockStep mods (runG g₀ ops') c)
    (fs : Foreseen h mods c 1 0) (opt : ∀ P x, solve P = some x → Optimal P x)
    {o o' : RunOut} {g' g'' : Microgrid} (hs : modularStep solve pl (runG g₀ ops') = (g', .ok o)) {ctl : List (String × Ctrl)}
    {norm : Bool} (hr : (runG g₀ ops').run ctl norm = (g'', .ok o')) (hsup : Supplies h mods ctl) : o'.reward ≤ o.reward := by
  have r := user_ready hc hl hd hroom ops ops' hpl
  have f := user_follows hc hl ops'
  have live : ∀ nm ∈ mods, ((runG g₀ ops').heap nm.2).Live := by
    intro nm hm t ht
    rw [hlock nm hm]
    obtain ⟨h1, h2⟩ := user_series hc hl ops' hm
    cases h0 : (h nm.2).series? with
    | none => rw [h2 h0] at ht; simp at ht
    | some t₀ =>
      obtain ⟨t', ht', e⟩ := h1 t₀ h0
      rw [ht] at ht'
      obtain rfl := Option.some.inj ht'
      have := (fs.forecast nm hm t₀ h0).1
      rw [(ahead_congr e).1]
      omega
  unfold modularStep at hs
  cases hP : modularProblem pl (runG g₀ ops') with
  | error e => rw [hP] at hs; simp at hs
  | ok P =>
    rw [hP] at hs
    simp only at hs
    cases hx : solve P with
    | none => rw [hx] at hs; simp at hs
    | some x =>
      rw [hx] at hs
      obtain ⟨-, poses, -, carries, -⟩ := user_problem hc hl hd hroom ops ops' hpl live hP x
      have := C103_optimal_partial hc hl hid hd hroom ops ops' hpl hlock fs (fun nm hm t ht nm' hm' t' ht' j h1 h2 => by omega) opt
        (.cons poses hx carries hs (.nil g')) rfl (.cons hr (.nil g'')) (by simpa using hsup) rfl
      simpa using this

/-- C103: a whole run of the planner completes, and no other policy earns more from the same start. -/
theorem C103_run_partial (hc : Microgrid.create h mods none none = .ok g₀) (hl : ∀ nm ∈ mods, LibraryModule (h nm.2))
    (hid : (mods.map Prod.snd).Nodup) (hd : DistinctNames h mods) (hre : ∀ nm ∈ mods, (h nm.2).raiseErrors = false)
    (hroom : ∀ nm ∈ mods, ∀ b, (h nm.2).kind = .battery b → 0 ≤ b.minCapacity ∧ 0 < b.maxCapacity)
    (hdata : ∀ nm ∈ mods, ∀ t, (h nm.2).series? = some t →
      (h nm.2).initialStep < t.finalStep ∧ t.finalStep ≤ t.rows.length)
    (ops ops' : List GOp) (hpl : createModular (runG g₀ ops) = .ok pl) {F : Nat} (hF : g₀.finalStep = some F)
    (fs : Foreseen h mods g₀.initialStep (F - g₀.initialStep) H) (cov : CoveredAfter h mods g₀.initialStep (F - g₀.initialStep) H)
    (sound : solve.Sound) (opt : ∀ P x, solve P = some x → Optimal P x) :
    ∃ g₁ g' os, (runG g₀ ops').reset = (g₁, .ok ()) ∧ runModular solve pl (runG g₀ ops') none = (g', .ok ()) ∧
      PlanRuns solve mods g₁ os g' ∧ os.length = F - g₀.initialStep ∧
      ∀ cs os' g'', Runs g₁ cs os' g'' → (∀ cn ∈ cs, Supplies h mods cn.1) → os'.length = F - g₀.initialStep →
        (os'.map RunOut.reward).sum ≤ (os.map RunOut.reward).sum := by
  obtain ⟨ng, mg, p, t, kg⟩ := fs.grid
  obtain ⟨F', g₁, g', os, hF', h1, h2, h3, h4⟩ := C68_run_partial hc hl hid hd hre (by simp) hroom hdata ⟨ng, mg, .inl ⟨p, t, kg⟩⟩ ops ops'
    hpl sound none (by simp)
  rw [hF] at hF'
  obtain rfl := Option.some.inj hF'
  simp only [Option.getD_none, min_self] at h4
  refine ⟨g₁, g', os, h1, h2, h3, h4, fun cs os' g'' hr hs hn => ?_⟩
  have r := user_ready hc hl hd hroom ops ops' hpl
  obtain ⟨nu, mu, cu⟩ := r.placed.balancing
  obtain ⟨u, ku⟩ : ∃ u, (h nu.2).kind = .balancing u := by
    have f := user_follows hc hl ops'
    rw [← Kind.core_cls, f.core nu mu, Kind.core_cls] at cu
    cases hk : (h nu.2).kind <;> rw [hk] at cu <;> simp [Kind.cls] at cu ⊢
  obtain ⟨prio, -, hip, -⟩ := C37_default_list hc hl hd.clear ops' false
  obtain ⟨F', g₁', hF', hr₁, e, -, run⟩ := user_running hc hl ⟨nu, mu, u, ku⟩ hid hd hre (by simp) hdata ops'
  rw [h1] at hr₁
  obtain rfl := (Prod.mk.inj hr₁).1
  have hlock : LockStep mods g₁ g₀.initialStep := (run _ (by rw [e]; exact user_fits hc hl ops' _ hip)).lock
  rw [e] at h3 hr hlock
  exact C103_optimal_partial hc hl hid hd hroom ops (ops' ++ [.reset]) hpl hlock fs cov opt h3 h4 hr hs hn

end

/-! ### Microgrids to which this applies, and one to which it does not -/

/-- A test for the conditions. -/
def foreseen? (h : Heap) (mods : List (String × Nat)) (c n H : Nat) : Bool :=
  let series (t : TS) : Bool := decide (c + n ≤ t.rows.length) && decide (t.horizon = H) && (t.forecaster.kind matches .oracle)
  (mods.all fun nm => match (h nm.2).kind with
    | .load t => series t
    | .renewable t => series t
    | .grid p t => series t && decide ((h nm.2).ffc = .controllable) && ((List.range n).all fun j => decide (t.cell (c + j) 3 = 1)) &&
      (List.range (n + H)).all fun j => decide (t.ahead (c + j) 1 = 0 ∧ 0 ≤ t.ahead (c + j) 0 + p.costPerCo2 * t.ahead (c + j) 2)
    | .battery b => decide (b.efficiency = 1 ∧ 0 ≤ b.costCycle)
    | .genset _ => false
    | .balancing u => decide (0 ≤ u.lossLoadCost ∧ 0 ≤ u.overgenerationCost)) &&
  (mods.any fun nm => (h nm.2).kind.cls == .grid) && decide (n ≤ H + 1)

theorem foreseen_of {h : Heap} {mods : List (String × Nat)} {c n H : Nat} (e : foreseen? h mods c n H = true) : Foreseen h mods c n H := by
  simp only [foreseen?, Bool.and_eq_true, List.all_eq_true, List.any_eq_true, decide_eq_true_eq, beq_iff_eq] at e
  obtain ⟨⟨all, any⟩, reach⟩ := e
  refine ⟨fun nm hm t ht => ?_, reach, fun nm hm x hx => ?_, fun nm hm b hb => ?_, ?_, fun nm hm p t ht => ?_, fun nm hm u hu => ?_⟩
  · have := all nm hm
    have key : ∀ k : FKind, (k matches .oracle) = true → k = .oracle := by intro k hk; cases k <;> simp_all
    unfold series? at ht
    cases hk : (h nm.2).kind <;> rw [hk] at this ht <;> simp at ht
    · subst ht
      simp only [Bool.and_eq_true, decide_eq_true_eq] at this
      exact ⟨this.1.1.1.1.1, this.1.1.1.1.2, .inr (key _ this.1.1.1.2)⟩
    · subst ht
      simp only [Bool.and_eq_true, decide_eq_true_eq] at this
      exact ⟨this.1.1, this.1.2, .inr (key _ this.2)⟩
    · subst ht
      simp only [Bool.and_eq_true, decide_eq_true_eq] at this
      exact ⟨this.1.1, this.1.2, .inr (key _ this.2)⟩
  · have := all nm hm
    rw [hx] at this
    simp at this
  · have := all nm hm
    rw [hb] at this
    simpa using this
  · obtain ⟨nm, hm, hc⟩ := any
    refine ⟨nm, hm, ?_⟩
    cases hk : (h nm.2).kind <;> rw [hk] at hc <;> simp [Kind.cls] at hc ⊢
  · have := all nm hm
    rw [ht] at this
    simp only [Bool.and_eq_true, decide_eq_true_eq, List.all_eq_true, List.mem_range] at this
    refine ⟨this.1.1.2, fun j h1 h2 => ?_, fun j h1 h2 => ?_⟩
    · have := this.1.2 (j - c) (by omega)
      rwa [show c + (j - c) = j by omega] at this
    · have := this.2 (j - c) (by omega)
      rwa [show c + (j - c) = j by omega] at this
  · have := all nm hm
    rw [hu] at this
    simpa using this

/-- Names of the modules below. -/
def pantryMods : List (String × Nat) := [("load", 0), ("pv", 1), ("battery", 2), ("grid", 3), ("balancing", 4)]

/-- The planner of both microgrids. -/
def pantryPlanner : Planner :=
  { names := { load := some "load", pv := some "pv", battery := some "battery", grid := some "grid", genset := none
               balancing := some "balancing" }
    horizon := 2
    static := { eta := 1, capacity := 1, fuel := 0, cycle := 0, lossLoad := 10, gensetMin := 0, gensetMax := 0
                costCo2 := 0, gensetCo2 := 0 } }

theorem ok_of_some {α : Type} {e : Except Err α} {x : α} (h : e.toOption = some x) : e = .ok x := by
  cases e with
  | error y => simp [Except.toOption] at h
  | ok y => exact congrArg _ (Option.some.inj h)

/-- A microgrid in its last step: a load of 2, a full battery that holds 1, and a grid that sells at 1 (before: 3). -/
def hoardHeap : Heap
  | 0 => okModule (mkLoad [2, 2] .oracle 1 1 (-1) false)
  | 1 => okModule (mkRenewable [0, 0] .oracle 1 1 (-1) false)
  | 2 => okModule (mkBattery 0 1 1 1 1 0 none (some 1) none 1 false)
  | 3 => okModule (mkGrid 10 10 4 [[3, 0, 0, 1], [1, 0, 0, 1]] .oracle 1 1 (-1) 0 false)
  | _ => mkBalancing false 1 10 5

@[inherit_doc hoardHeap]
def hoardGrid : Microgrid := okGrid (Microgrid.create hoardHeap pantryMods none none)

theorem hoardGrid_ok : Microgrid.create hoardHeap pantryMods none none = .ok hoardGrid := okGrid_eq (by decide +kernel)

theorem hoard_library : ∀ nm ∈ pantryMods, LibraryModule (hoardHeap nm.2) := by
  intro nm hm
  simp only [pantryMods, List.mem_cons, List.not_mem_nil, or_false] at hm
  rcases hm with rfl | rfl | rfl | rfl | rfl
  · exact .series (.load (okModule_eq (r := mkLoad [2, 2] .oracle 1 1 (-1) false) (by decide +kernel))) trivial
  · exact .series (.renewable (okModule_eq (r := mkRenewable [0, 0] .oracle 1 1 (-1) false) (by decide +kernel))) trivial
  · exact .battery (okModule_eq (r := mkBattery 0 1 1 1 1 0 none (some 1) none 1 false) (by decide +kernel))
      ⟨by norm_num, by norm_num, 1, by decide +kernel, by norm_num, by norm_num⟩
  · exact .series (.grid (by decide +kernel) (okModule_eq
      (r := mkGrid 10 10 4 [[3, 0, 0, 1], [1, 0, 0, 1]] .oracle 1 1 (-1) 0 false) (by decide +kernel))) trivial
  · exact .balancing (by norm_num) (by norm_num)

/-- What its planner sees: after the end of the data, a load of 1 and a price of 2, neither of which will ever come. -/
def hoardTask : Problem :=
  { genset := false, horizon := 2, static := pantryPlanner.static
    inputs := { load := [2, 1], pv := [0, 0], grid := [1, 1], importPrice := [1, 2], exportPrice := [0, 0], eMax := 1, eMin := 0
                pCharge := 1, pDischarge := 1, pImport := 10, pExport := 10, soc := 1, costCo2 := 0, gridCo2 := [0, 0] } }

theorem hoard_planner : createModular hoardGrid = .ok pantryPlanner := ok_of_some (by decide +kernel)

theorem hoard_task : modularProblem pantryPlanner hoardGrid = .ok hoardTask := ok_of_some (by decide +kernel)

/-- The best plan: buy 2 now, and keep the energy of the battery. -/
def hoardFlow (j : Nat) : Flow := if j = 0 then { imp := 2, soc := 1 } else { discharge := 1, soc := 0 }

theorem hoard_admissible : Admissible hoardTask hoardFlow fun _ => 0 := by
  intro j hj
  have : j = 0 ∨ j = 1 := by simp only [hoardTask] at hj; omega
  rcases this with rfl | rfl <;> constructor <;> norm_num [hoardTask, pantryPlanner, socBefore, hoardFlow]

/-- What any plan costs. -/
theorem hoard_costs {x : Point} (hx : Feasible hoardTask x) :
    2 + (x.p 3 - x.p 2) + x.p 1 + 9 * x.p 5 ≤ totalBilled hoardTask (x.flow false) ∧ 0 ≤ x.p 3 - x.p 2 ∧ 0 ≤ x.p 1 ∧ 0 ≤ x.p 5 ∧
      x.p 0 - x.p 1 + x.p 5 = 2 - (x.p 3 - x.p 2) := by
  have ad := (feasible_iff _ x).mp hx
  have o0 := ad 0 (by decide)
  have o1 := ad 1 (by decide)
  have e : hoardTask.genset = false := rfl
  rw [e] at o0 o1
  have b0 := o0.balance
  have b1 := o1.balance
  have d0 := o0.dynamics
  have d1 := o1.dynamics
  have w0 := o0.window
  have w1 := o1.window
  have u0 := o0.curtailed
  have u1 := o1.curtailed
  have x0 := o0.exp.1
  have x1 := o1.exp.1
  have l0 := o0.loss.1
  have l1 := o1.loss.1
  have i0 := o0.imp.1
  have i1 := o1.imp.1
  have hsum : totalBilled hoardTask (x.flow false) = billed hoardTask 0 (x.flow false 0) + billed hoardTask 1 (x.flow false 1) := by
    unfold totalBilled
    rw [show hoardTask.horizon = 2 from rfl, Finset.sum_range_succ, Finset.sum_range_one]
  rw [hsum]
  simp [billed, hoardTask, pantryPlanner, socBefore, Point.flow] at b0 b1 d0 d1 w0 w1 u0 u1 x0 x1 l0 l1 i0 i1 ⊢
  refine ⟨?_, ?_, ?_, ?_, ?_⟩ <;> linarith

theorem hoard_optimal : Optimal hoardTask (ofFlows false hoardFlow fun _ => 0) := by
  obtain ⟨hy, hq⟩ := admissible_feasible hoard_admissible
  rw [show hoardTask.genset = false from rfl] at hy hq
  refine ⟨hy, fun z hz => ?_⟩
  obtain ⟨h1, h2, h3, h4, -⟩ := hoard_costs hz
  have noexp : ∀ x : Point, objective hoardTask x = totalBilled hoardTask (x.flow false) := by
    intro x
    rw [objective_eq]
    unfold totalBilled
    refine Finset.sum_congr rfl fun j hj => ?_
    have : j = 0 ∨ j = 1 := by simp [hoardTask] at hj; omega
    rcases this with rfl | rfl <;> simp [hoardTask]
  rw [noexp, noexp]
  have e : totalBilled hoardTask ((ofFlows false hoardFlow fun _ => 0).flow false) = 2 := by
    unfold totalBilled
    rw [show hoardTask.horizon = 2 from rfl, Finset.sum_range_succ, Finset.sum_range_one, hq 0 (by decide), hq 1 (by decide)]
    norm_num [billed, hoardTask, pantryPlanner, hoardFlow]
  rw [e]
  linarith

/-- Finding, C103: planning with perfect forecasts can cost money at the end of the data.  Perfect forecasts go on beyond the end,
    with the middle of the bounds of each series, and energy is saved for that time.  In the last step of this microgrid every
    best plan buys 2 at a price of 1 and saves the energy in the battery; using it would have cost half. -/
theorem C103_phantom :
    Microgrid.create hoardHeap pantryMods none none = .ok hoardGrid ∧ (∀ nm ∈ pantryMods, LibraryModule (hoardHeap nm.2)) ∧
    createModular hoardGrid = .ok pantryPlanner ∧ LockStep pantryMods hoardGrid 1 ∧ hoardGrid.finalStep = some 2 ∧
    Foreseen hoardHeap pantryMods 1 1 1 ∧
    (∃ solve : Solver, (∀ P x, solve P = some x → Optimal P x) ∧ (modularStep solve pantryPlanner hoardGrid).2.isOk = true) ∧
    (∀ solve : Solver, (∀ P x, solve P = some x → Optimal P x) → ∀ g' o, modularStep solve pantryPlanner hoardGrid = (g', .ok o) →
      o.reward = -2) ∧
    ∃ ctl g'' o', Supplies hoardHeap pantryMods ctl ∧ hoardGrid.run ctl false = (g'', .ok o') ∧ o'.reward = -1 := by
  refine ⟨hoardGrid_ok, hoard_library, hoard_planner, by unfold LockStep; decide +kernel, by decide +kernel,
    foreseen_of (by decide +kernel), ?_, ?_, ?_⟩
  · refine ⟨fun P => if P = hoardTask then some (ofFlows false hoardFlow fun _ => 0) else none, fun P x hx => ?_, ?_⟩
    · beta_reduce at hx
      by_cases hP : P = hoardTask
      · subst hP
        rw [if_pos rfl] at hx
        obtain rfl := Option.some.inj hx
        exact hoard_optimal
      · rw [if_neg hP] at hx
        simp at hx
    · unfold modularStep
      rw [hoard_task]
      simp only [if_true]
      decide +kernel
  · intro solve opt g' o hs
    unfold modularStep at hs
    rw [hoard_task] at hs
    simp only at hs
    cases hx : solve hoardTask with
    | none => rw [hx] at hs; simp at hs
    | some x =>
      rw [hx] at hs
      have ox := opt _ x hx
      obtain ⟨h1, h2, h3, h4, h5⟩ := hoard_costs ox.1
      have hmin := C66_minimal_partial ox (by
        intro j hj
        have : j = 0 ∨ j = 1 := by simp [hoardTask] at hj; omega
        rcases this with rfl | rfl <;> rfl) hoard_admissible
      have e : totalBilled hoardTask hoardFlow = 2 := by
        unfold totalBilled
        rw [show hoardTask.horizon = 2 from rfl, Finset.sum_range_succ, Finset.sum_range_one]
        norm_num [billed, hoardTask, pantryPlanner, hoardFlow]
      rw [e, show hoardTask.genset = false from rfl] at hmin
      have hb : x.p 3 - x.p 2 = 0 := by linarith
      have hg : x.p 0 - x.p 1 = 2 := by linarith
      have hctl : modularControl pantryPlanner.names x = [("grid", .scalar 2), ("battery", .scalar 0)] := by
        have : modularControl pantryPlanner.names x =
          [("grid", .scalar (x.p 0 - x.p 1)), ("battery", .scalar (x.p 3 - x.p 2))] := rfl
        rw [this, hb, hg]
      have hs' : hoardGrid.run [("grid", .scalar 2), ("battery", .scalar 0)] false = (g', .ok o) := by rw [← hctl]; exact hs
      have hd : (hoardGrid.run [("grid", .scalar 2), ("battery", .scalar 0)] false).2.toOption.map (fun o => o.reward) = some (-2) := by
        decide +kernel
      rw [hs'] at hd
      exact Option.some.inj hd
  · have hd : (hoardGrid.run [("grid", .scalar 1), ("battery", .scalar 1)] false).2.toOption.map (fun o => o.reward) = some (-1) := by
      decide +kernel
    rcases hr : hoardGrid.run [("grid", .scalar 1), ("battery", .scalar 1)] false with ⟨g'', _ | o'⟩
    · rw [hr] at hd; simp [Except.toOption] at hd
    · rw [hr] at hd
      refine ⟨[("grid", .scalar 1), ("battery", .scalar 1)], g'', o', ?_, hr, Option.some.inj hd⟩
      have key : ∀ nm ∈ pantryMods, (hoardHeap nm.2).ffc = .controllable → nm.1 = "battery" ∨ nm.1 = "grid" := by decide +kernel
      have len : ∀ nm ∈ pantryMods, (modulesNamed hoardHeap pantryMods .controllable nm.1).length ≤ 1 := by decide +kernel
      intro nm hm hf
      rcases key nm hm hf with e | e
      · exact ⟨.scalar 1, by rw [e]; rfl, len nm hm⟩
      · exact ⟨.scalar 1, by rw [e]; rfl, len nm hm⟩

/-- A microgrid that has to store what the sun gives in the first step for the load of the second. -/
def larderHeap : Heap
  | 0 => okModule (mkLoad [0, 1] .oracle 1 0 (-1) false)
  | 1 => okModule (mkRenewable [2, 0] .oracle 1 0 (-1) false)
  | 2 => okModule (mkBattery 0 1 1 1 1 0 none (some 0) none 0 false)
  | 3 => okModule (mkGrid 1 1 4 [[1, 0, 0, 1], [1, 0, 0, 1]] .oracle 1 0 (-1) 0 false)
  | _ => mkBalancing false 0 10 5

@[inherit_doc larderHeap]
def larderGrid : Microgrid := okGrid (Microgrid.create larderHeap pantryMods none none)

theorem larderGrid_ok : Microgrid.create larderHeap pantryMods none none = .ok larderGrid := okGrid_eq (by decide +kernel)

theorem larder_library : ∀ nm ∈ pantryMods, LibraryModule (larderHeap nm.2) := by
  intro nm hm
  simp only [pantryMods, List.mem_cons, List.not_mem_nil, or_false] at hm
  rcases hm with rfl | rfl | rfl | rfl | rfl
  · exact .series (.load (okModule_eq (r := mkLoad [0, 1] .oracle 1 0 (-1) false) (by decide +kernel))) trivial
  · exact .series (.renewable (okModule_eq (r := mkRenewable [2, 0] .oracle 1 0 (-1) false) (by decide +kernel))) trivial
  · exact .battery (okModule_eq (r := mkBattery 0 1 1 1 1 0 none (some 0) none 0 false) (by decide +kernel))
      ⟨by norm_num, by norm_num, 0, by decide +kernel, by norm_num, by norm_num⟩
  · exact .series (.grid (by decide +kernel) (okModule_eq
      (r := mkGrid 1 1 4 [[1, 0, 0, 1], [1, 0, 0, 1]] .oracle 1 0 (-1) 0 false) (by decide +kernel))) trivial
  · exact .balancing (by norm_num) (by norm_num)

theorem larder_planner : createModular larderGrid = .ok pantryPlanner := ok_of_some (by decide +kernel)

/-- What its planner sees in both steps. -/
def larderTask (k : Nat) : Problem :=
  { genset := false, horizon := 2, static := pantryPlanner.static
    inputs := { load := if k = 0 then [0, 1] else [1, 1/2], pv := if k = 0 then [2, 0] else [0, 1], grid := [1, 1]
                importPrice := [1, 1], exportPrice := [0, 0], eMax := 1, eMin := 0, pCharge := 1, pDischarge := 1, pImport := 1
                pExport := 1, soc := if k = 0 then 0 else 1, costCo2 := 0, gridCo2 := [0, 0] } }

/-- Its plans: store 1, use it, and leave it at that. -/
def larderFlow (k j : Nat) : Flow :=
  if k = 0 then (if j = 0 then { charge := 1, curtailed := 1, soc := 1 } else { discharge := 1, soc := 0 })
  else (if j = 0 then { discharge := 1, soc := 0 } else { curtailed := 1/2, soc := 0 })

theorem larder_optimal (k : Nat) : Optimal (larderTask k) (ofFlows false (larderFlow k) fun _ => 0) := by
  have ad : Admissible (larderTask k) (larderFlow k) fun _ => 0 := by
    intro j hj
    have : j = 0 ∨ j = 1 := by simp only [larderTask] at hj; omega
    by_cases hk : k = 0 <;> rcases this with rfl | rfl <;> constructor <;>
      norm_num [larderTask, pantryPlanner, socBefore, larderFlow, hk]
  obtain ⟨hy, hq⟩ := admissible_feasible ad
  rw [show (larderTask k).genset = false from rfl] at hy hq
  refine ⟨hy, fun z hz => ?_⟩
  have adz := (feasible_iff _ z).mp hz
  rw [show (larderTask k).genset = false from rfl] at adz
  rw [objective_eq, objective_eq, show (larderTask k).genset = false from rfl]
  have e : ∑ j ∈ Finset.range (larderTask k).horizon, (billed (larderTask k) j ((ofFlows false (larderFlow k) fun _ => 0).flow false j) +
      2 * ((larderTask k).inputs.exportPrice.getD j 0 * ((ofFlows false (larderFlow k) fun _ => 0).flow false j).exp)) = 0 := by
    rw [show (larderTask k).horizon = 2 from rfl, Finset.sum_range_succ, Finset.sum_range_one, hq 0 Nat.zero_lt_two, hq 1 Nat.one_lt_two]
    by_cases hk : k = 0 <;> norm_num [billed, larderTask, pantryPlanner, larderFlow, hk]
  rw [e]
  refine Finset.sum_nonneg fun j hj => ?_
  have ok := adz j (Finset.mem_range.mp hj)
  have : j = 0 ∨ j = 1 := by simp [larderTask] at hj; omega
  have i := ok.imp.1
  have l := ok.loss.1
  rcases this with rfl | rfl <;> simp [billed, larderTask, pantryPlanner] <;> linarith

/-- A solver for it. -/
def larderSolve : Solver := fun P =>
  if P = larderTask 0 then some (ofFlows false (larderFlow 0) fun _ => 0)
  else if P = larderTask 1 then some (ofFlows false (larderFlow 1) fun _ => 0) else none

theorem larder_room : ∀ nm ∈ pantryMods, ∀ b, (larderHeap nm.2).kind = .battery b → 0 ≤ b.minCapacity ∧ 0 < b.maxCapacity := by
  have room : ∀ nm ∈ pantryMods, (match (larderHeap nm.2).kind with
      | .battery b => decide (0 ≤ b.minCapacity ∧ 0 < b.maxCapacity)
      | _ => true) = true := by decide +kernel
  intro nm hm b hb
  have := room nm hm
  rw [hb] at this
  simpa using this

/-- Nobody earns more in this microgrid than the planner, which pays nothing. -/
example : ∃ g₁ g₂ o₁ o₂, modularStep larderSolve pantryPlanner larderGrid = (g₁, .ok o₁) ∧
    modularStep larderSolve pantryPlanner g₁ = (g₂, .ok o₂) ∧ o₁.reward = 0 ∧ o₂.reward = 0 ∧
    ∀ cs os' g'', Runs larderGrid cs os' g'' → (∀ cn ∈ cs, Supplies larderHeap pantryMods cn.1) → os'.length = 2 →
      (os'.map RunOut.reward).sum ≤ 0 := by
  have hd : (larderGrid.run [("grid", .scalar 0), ("battery", .scalar (-1))] false).2.toOption.map (fun o => o.reward) = some 0 := by
    decide +kernel
  rcases hr : larderGrid.run [("grid", .scalar 0), ("battery", .scalar (-1))] false with ⟨g₁, _ | o₁⟩
  · rw [hr] at hd; simp [Except.toOption] at hd
  have e₁ : g₁ = runG larderGrid [.run [("grid", .scalar 0), ("battery", .scalar (-1))] false] := by simp [runG, GOp.apply, hr]
  have hd' : ((runG larderGrid [.run [("grid", .scalar 0), ("battery", .scalar (-1))] false]).run
      [("grid", .scalar 0), ("battery", .scalar 1)] false).2.toOption.map (fun o => o.reward) = some 0 := by
    decide +kernel
  rw [← e₁] at hd'
  rcases hr' : g₁.run [("grid", .scalar 0), ("battery", .scalar 1)] false with ⟨g₂, _ | o₂⟩
  · rw [hr'] at hd'; simp [Except.toOption] at hd'
  rw [hr] at hd
  rw [hr'] at hd'
  have r1 : o₁.reward = 0 := Option.some.inj hd
  have r2 : o₂.reward = 0 := Option.some.inj hd'
  have p0 : modularProblem pantryPlanner larderGrid = .ok (larderTask 0) := ok_of_some (by decide +kernel)
  have p1 : modularProblem pantryPlanner g₁ = .ok (larderTask 1) := by rw [e₁]; exact ok_of_some (by decide +kernel)
  have s0 : larderSolve (larderTask 0) = some (ofFlows false (larderFlow 0) fun _ => 0) := by simp [larderSolve]
  have s1 : larderSolve (larderTask 1) = some (ofFlows false (larderFlow 1) fun _ => 0) := by
    simp [larderSolve, show larderTask 1 ≠ larderTask 0 by decide +kernel]
  have c0 : modularControl pantryPlanner.names (ofFlows false (larderFlow 0) fun _ => 0) =
      [("grid", .scalar 0), ("battery", .scalar (-1))] := by
    norm_num [modularControl, pantryPlanner, ofFlows, larderFlow, dictSet]
    decide
  have c1 : modularControl pantryPlanner.names (ofFlows false (larderFlow 1) fun _ => 0) =
      [("grid", .scalar 0), ("battery", .scalar 1)] := by
    norm_num [modularControl, pantryPlanner, ofFlows, larderFlow, dictSet]
    decide
  have names : DistinctNames larderHeap pantryMods := by unfold DistinctNames; decide +kernel
  have live : ∀ (g : Microgrid), (∀ nm ∈ pantryMods, ((g.heap nm.2).series?.all fun t =>
      decide ((g.heap nm.2).currentStep < t.rows.length)) = true) → ∀ nm ∈ pantryMods, (g.heap nm.2).Live := by
    intro g hg nm hm t ht
    have := hg nm hm
    rw [ht] at this
    simpa using this
  obtain ⟨-, poses0, -, carries0, -⟩ := user_problem larderGrid_ok larder_library names larder_room [] []
    larder_planner (live _ (by decide +kernel)) p0 (ofFlows false (larderFlow 0) fun _ => 0)
  obtain ⟨-, poses1, -, carries1, -⟩ := user_problem larderGrid_ok larder_library names larder_room []
    [.run [("grid", .scalar 0), ("battery", .scalar (-1))] false] larder_planner (live _ (by decide +kernel)) (e₁ ▸ p1)
    (ofFlows false (larderFlow 1) fun _ => 0)
  rw [← e₁] at poses1 carries1
  have plan : PlanRuns larderSolve pantryMods larderGrid [o₁, o₂] g₂ :=
    .cons poses0 s0 carries0 (by rw [c0]; exact hr) (.cons poses1 s1 carries1 (by rw [c1]; exact hr') (.nil g₂))
  refine ⟨g₁, g₂, o₁, o₂, ?_, ?_, r1, r2, fun cs os' g'' hrs hs hn => ?_⟩
  · unfold modularStep
    rw [p0]
    simp only [s0]
    rw [c0]; exact hr
  · unfold modularStep
    rw [p1]
    simp only [s1]
    rw [c1]; exact hr'
  · have cov : CoveredAfter larderHeap pantryMods 0 2 1 := by
      have key : ∀ nm ∈ pantryMods, ∀ nm' ∈ pantryMods, (match (larderHeap nm.2).kind, (larderHeap nm'.2).kind with
          | .load t, .renewable t' => decide (-t.ahead 2 0 ≤ t'.ahead 2 0)
          | _, _ => true) = true := by decide +kernel
      intro nm hm t ht nm' hm' t' ht' j h1 h2
      obtain rfl : j = 2 := by omega
      have := key nm hm nm' hm'
      rw [ht, ht'] at this
      simpa using this
    have := C103_optimal_partial larderGrid_ok larder_library (by decide) names larder_room [] [] larder_planner (c := 0)
      (by unfold LockStep; decide +kernel) (foreseen_of (by decide +kernel)) cov (fun P x hx => by
        unfold larderSolve at hx
        by_cases h0 : P = larderTask 0
        · rw [if_pos h0] at hx
          obtain rfl := Option.some.inj hx
          rw [h0]
          exact larder_optimal 0
        · rw [if_neg h0] at hx
          by_cases h1 : P = larderTask 1
          · rw [if_pos h1] at hx
            obtain rfl := Option.some.inj hx
            rw [h1]
            exact larder_optimal 1
          · rw [if_neg h1] at hx
            simp at hx) plan rfl hrs hs hn
    simpa [r1, r2] using this

end Pymgrid.MPC
