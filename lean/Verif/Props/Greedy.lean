import Verif.Lemmas.Greedy
import Verif.Props.PriorityList
import Verif.Props.Dual
import Verif.Props.Ledger

set_option autoImplicit false

/-!
# C99: off the grid, with one battery, rule-based control loses the least load

Microgrids with any loads, renewable modules and balancing modules whose only controllable module is a battery.
-/

namespace Pymgrid

open Module PriorityList

section
variable {h : Heap} {mods : List (String × Nat)} {tr : Option (Nat → Nat → Option Nat → Except Err (Nat × Nat))} {g₀ : Microgrid}

/-- C99: if the battery is the only controllable module, then no controls whatsoever lose less load in any number of steps than
    the runs planned from a priority list, up to the tolerance of the plans (0.0001 units of energy per step). -/
theorem C99_planned (hc : Microgrid.create h mods none tr = .ok g₀) (hl : ∀ nm ∈ mods, LibraryModule (h nm.2))
    (hb : ∃ nm ∈ mods, ∃ u, (h nm.2).kind = .balancing u)
    (hid : (mods.map Prod.snd).Nodup) (hn : (mods.map Prod.fst).Nodup) (bat : String × Nat) (O : OneStore h mods bat)
    (ops ops' : List GOp) (pl : List Element) (hp : IsPriorityList (runG g₀ ops).heap mods pl) (c : Nat)
    (hlock : LockStep mods (runG g₀ ops') c) (os : List RunOut)
    (g' : Microgrid) (P : PlannedRuns mods pl (runG g₀ ops') os g')
    (cs : List (List (String × Ctrl) × Bool)) (hs : ∀ cn ∈ cs, Supplies h mods cn.1) (os' : List RunOut) (g'' : Microgrid)
    (hr : Runs (runG g₀ ops') cs os' g'') (hlen : os'.length = os.length) :
    lossTotal h mods os ≤ lossTotal h mods os' + os.length * (1/10000) := by
  have hb' : ∃ nm ∈ mods, (h nm.2).kind.isBalancing = true := by
    obtain ⟨nm, hm, u, hu⟩ := hb
    exact ⟨nm, hm, by rw [hu]; rfl⟩
  have wf₀ : ∀ nm ∈ mods, (h nm.2).WF := (Microgrid.create_ok hc).1 ▸ (GridOK.created hc hl).wf
  have fit : Fits h mods pl := by
    have := user_fits hc hl ops [] hp
    rwa [show runG g₀ [] = g₀ from rfl, (Microgrid.create_ok hc).1] at this
  obtain ⟨b, hk⟩ := O.battery
  have f := user_follows hc hl ops'
  have := (f.greedy f wf₀ hid hn hb' O hk hlock hlock fit P hr hs hlen (V := 0) (δ := 0) (by norm_num) (by simp)).1
  linarith

/-- The rewards of runs where only the loss of load and overgeneration cost something. -/
theorem only_loss (hc : Microgrid.create h mods none tr = .ok g₀) (hl : ∀ nm ∈ mods, LibraryModule (h nm.2))
    (hid : (mods.map Prod.snd).Nodup) (hn : (mods.map Prod.fst).Nodup) (bat : String × Nat) (O : OneStore h mods bat)
    {L : ℚ} (hL : OnlyLossCosts h mods bat L) (ops : List GOp) (c : Nat)
    (hlock : LockStep mods (runG g₀ ops) c) (cs : List (List (String × Ctrl) × Bool)) (hs : ∀ cn ∈ cs, Supplies h mods cn.1)
    (os : List RunOut) (g' : Microgrid) (hr : Runs (runG g₀ ops) cs os g') :
    (os.map RunOut.reward).sum ≤ -(L * lossTotal h mods os) ∧
    ((∀ o ∈ os, overOf h mods o = 0) → (os.map RunOut.reward).sum = -(L * lossTotal h mods os)) := by
  have wf₀ : ∀ nm ∈ mods, (h nm.2).WF := (Microgrid.create_ok hc).1 ▸ (GridOK.created hc hl).wf
  have poss := (C80_exchanges hc hl hid hn ops c hlock cs hs os g' hr).1
  have rew := C80_rewards hc hl hid hn ops c hlock cs hs os g' hr
  clear hr hlock hs
  have due : ∀ nm ∈ mods, ∀ c p a, (h nm.2).kind.Possible c p a →
      L * (h nm.2).kind.ifBal p ≤ (h nm.2).kind.dues c p a ∧
      ((h nm.2).kind.ifBal a = 0 → (h nm.2).kind.dues c p a = L * (h nm.2).kind.ifBal p) := by
    intro nm hm c p a hp
    cases hk : (h nm.2).kind with
    | load t => simp [Kind.ifBal, Kind.dues]
    | renewable t => simp [Kind.ifBal, Kind.dues]
    | grid g t => exact absurd hk (O.off nm hm g t)
    | genset g =>
      have hf : (h nm.2).ffc = .controllable := by
        cases wf₀ nm hm with
        | genset _ h' => exact h'.ffc
        | battery _ h' => have := h'.kind; rw [hk] at this; simp at this
        | grid _ _ h' => have := h'.kind; rw [hk] at this; simp at this
        | load _ h' => have := h'.kind; rw [hk] at this; simp at this
        | renewable _ h' => have := h'.kind; rw [hk] at this; simp at this
        | balancing _ h' => have := h'.kind; rw [hk] at this; simp at this
      obtain rfl := O.only nm hm hf
      obtain ⟨b, hb⟩ := O.battery
      rw [hk] at hb; simp at hb
    | battery b =>
      have hf : (h nm.2).ffc = .controllable := by
        cases wf₀ nm hm with
        | battery _ h' => exact h'.ffc
        | genset _ h' => have := h'.kind; rw [hk] at this; simp at this
        | grid _ _ h' => have := h'.kind; rw [hk] at this; simp at this
        | load _ h' => have := h'.kind; rw [hk] at this; simp at this
        | renewable _ h' => have := h'.kind; rw [hk] at this; simp at this
        | balancing _ h' => have := h'.kind; rw [hk] at this; simp at this
      obtain rfl := O.only nm hm hf
      simp [Kind.ifBal, Kind.dues, hL.wear b hk]
    | balancing u =>
      obtain ⟨e, h0⟩ := hL.price nm hm u hk
      rw [hk] at hp
      simp only [Kind.Possible] at hp
      simp only [Kind.ifBal, Kind.dues, e]
      exact ⟨by nlinarith [hp.2.1], fun ha => by rw [ha]; ring⟩
  have each : ∀ k (hk : k < os.length), os[k].reward ≤ -(L * lossOf h mods os[k]) ∧
      (overOf h mods os[k] = 0 → os[k].reward = -(L * lossOf h mods os[k])) := by
    intro k hk
    have e : L * lossOf h mods os[k] = (mods.map fun nm => L * (h nm.2).kind.ifBal (os[k].provBy nm.1)).sum := by
      unfold lossOf; rw [List.sum_map_mul_left]
    rw [rew k hk, e]
    constructor
    · exact neg_le_neg (List.sum_le_sum fun nm hm => (due nm hm _ _ _ (poss k hk nm hm)).1)
    · intro h0
      have z : ∀ nm ∈ mods, (h nm.2).kind.ifBal (os[k].absBy nm.1) = 0 := by
        have nonneg : ∀ nm ∈ mods, 0 ≤ (h nm.2).kind.ifBal (os[k].absBy nm.1) := by
          intro nm hm
          have hp := poss k hk nm hm
          cases hk : (h nm.2).kind <;> rw [hk] at hp <;> simp only [Kind.Possible] at hp <;> simp only [Kind.ifBal, le_refl]
          exact hp.2.1
        exact zero_of_sum_zero _ nonneg h0
      congr 2
      apply List.map_congr_left
      intro nm hm
      exact (due nm hm _ _ _ (poss k hk nm hm)).2 (z nm hm)
  clear rew poss
  induction os with
  | nil =>
    have : lossTotal h mods [] = 0 := by simp [lossTotal, provTotal]
    simp [this]
  | cons o os ih =>
    obtain ⟨i1, i2⟩ := ih fun k hk => by
      have := each (k + 1) (by simpa using hk)
      simpa using this
    obtain ⟨j1, j2⟩ := each 0 (by simp)
    simp only [List.getElem_cons_zero] at j1 j2
    rw [lossTotal_cons, List.map_cons, List.sum_cons]
    refine ⟨by linarith, fun hz => ?_⟩
    rw [j2 (hz o (by simp)), i2 fun o' ho' => hz o' (by simp [ho'])]
    ring

/-- C99, what that is worth: if wear of the battery is free and lost load has one price `L`, then no controls whatsoever earn more
    than planned runs, up to the price of the tolerance of the plans. -/
theorem C99_planned_earns (hc : Microgrid.create h mods none tr = .ok g₀) (hl : ∀ nm ∈ mods, LibraryModule (h nm.2))
    (hb : ∃ nm ∈ mods, ∃ u, (h nm.2).kind = .balancing u)
    (hid : (mods.map Prod.snd).Nodup) (hn : (mods.map Prod.fst).Nodup) (bat : String × Nat) (O : OneStore h mods bat)
    {L : ℚ} (hL : OnlyLossCosts h mods bat L)
    (ops ops' : List GOp) (pl : List Element) (hp : IsPriorityList (runG g₀ ops).heap mods pl) (c : Nat)
    (hlock : LockStep mods (runG g₀ ops') c) (os : List RunOut)
    (g' : Microgrid) (P : PlannedRuns mods pl (runG g₀ ops') os g')
    (cs : List (List (String × Ctrl) × Bool)) (hs : ∀ cn ∈ cs, Supplies h mods cn.1) (os' : List RunOut) (g'' : Microgrid)
    (hr : Runs (runG g₀ ops') cs os' g'') (hlen : os'.length = os.length) :
    (os'.map RunOut.reward).sum ≤ (os.map RunOut.reward).sum + os.length * (L / 10000) := by
  have hb' : ∃ nm ∈ mods, (h nm.2).kind.isBalancing = true := by
    obtain ⟨nm, hm, u, hu⟩ := hb
    exact ⟨nm, hm, by rw [hu]; rfl⟩
  have wf₀ : ∀ nm ∈ mods, (h nm.2).WF := (Microgrid.create_ok hc).1 ▸ (GridOK.created hc hl).wf
  have fit : Fits h mods pl := by
    have := user_fits hc hl ops [] hp
    rwa [show runG g₀ [] = g₀ from rfl, (Microgrid.create_ok hc).1] at this
  obtain ⟨b, hk⟩ := O.battery
  have f := user_follows hc hl ops'
  obtain ⟨h1, h2⟩ := f.greedy f wf₀ hid hn hb' O hk hlock hlock fit P hr hs hlen (V := 0) (δ := 0) (by norm_num) (by simp)
  obtain ⟨cs₁, hr₁, hs₁⟩ := PlannedRuns.runs f P
  have e1 := (only_loss hc hl hid hn bat O hL ops' c hlock cs₁ hs₁ os g' hr₁).2 h2
  have e2 := (only_loss hc hl hid hn bat O hL ops' c hlock cs hs os' g'' hr).1
  rw [e1]
  have := mul_le_mul_of_nonneg_left h1 hL.nonneg
  linarith

/-- C99, rule-based control: it completes its run after any history, and at every moment of the run no controls for the same
    number of steps after the reset would have lost less load, up to the tolerance of the plans. -/
theorem C99_rule_based (hc : Microgrid.create h mods none none = .ok g₀) (hl : ∀ nm ∈ mods, LibraryModule (h nm.2))
    (hb : ∃ nm ∈ mods, ∃ u, (h nm.2).kind = .balancing u)
    (hid : (mods.map Prod.snd).Nodup) (hn : (mods.map Prod.fst).Nodup) (hr : ∀ nm ∈ mods, (h nm.2).raiseErrors = false)
    (hdata : ∀ nm ∈ mods, ∀ t, (h nm.2).series? = some t →
      (h nm.2).initialStep < t.finalStep ∧ t.finalStep ≤ t.rows.length)
    (bat : String × Nat) (O : OneStore h mods bat) (ops ops' : List GOp) (n : Nat) :
    ∃ r, RBC.create (runG g₀ ops) none true = .ok r ∧
    ∃ F g₁ g' os, g₀.finalStep = some F ∧ (runG g₀ ops').reset = (g₁, .ok ()) ∧
      RBC.run ⟨runG g₀ ops', r.list⟩ n = (⟨g', r.list⟩, .ok ()) ∧ PlannedRuns mods r.list g₁ os g' ∧
      os.length = min n (F - g₀.initialStep) ∧
      ∀ cs os' g'', (∀ cn ∈ cs, Supplies h mods cn.1) → Runs g₁ cs os' g'' → os'.length = os.length →
        lossTotal h mods os ≤ lossTotal h mods os' + os.length * (1/10000) := by
  have hu : ClearNames h mods := unique_clear hn
  have hd : DistinctNames h mods := by
    intro x hx y hy he
    obtain rfl := List.inj_on_of_nodup_map hn hx hy he
    exact ⟨rfl, rfl⟩
  have hs : ∀ f, (none : Option Shaper) = some f → ∀ i c, ∃ r, f i c = .ok r := by simp
  obtain ⟨pl, hcr, hp, -, -⟩ := C37_default_list hc hl hu ops true
  refine ⟨_, hcr, ?_⟩
  obtain ⟨F, g₁, hF, hrs, hg₁, hIF, hR⟩ := user_running hc hl hb hid hd hr hs hdata ops'
  have R := hR pl (by rw [hg₁]; exact user_fits hc hl ops _ hp)
  obtain ⟨F', g₁', g', os, hF', hrs', hrun, pr, hlen⟩ := C36_rbc_run hc hl hb hid hd hr hs hdata ops ops' pl hp n
  obtain rfl : F' = F := Option.some.inj (hF'.symm.trans hF)
  obtain rfl : g₁' = g₁ := (Prod.mk.inj (hrs'.symm.trans hrs)).1
  refine ⟨F', g₁', g', os, hF, hrs, hrun, pr, hlen, ?_⟩
  intro cs os' g'' hsup hruns hlen'
  rw [hg₁] at pr hruns
  exact C99_planned hc hl hb hid hn bat O ops (ops' ++ [.reset]) pl hp g₀.initialStep (hg₁ ▸ R.lock) os g' pr cs hsup os' g'' hruns
    hlen'

/-- C99, rule-based control earns the most: under the same prices, at every moment of its run no controls for the same number of
    steps after the reset would have earned more, up to the price of the tolerance. -/
theorem C99_rule_based_earns (hc : Microgrid.create h mods none none = .ok g₀) (hl : ∀ nm ∈ mods, LibraryModule (h nm.2))
    (hb : ∃ nm ∈ mods, ∃ u, (h nm.2).kind = .balancing u)
    (hid : (mods.map Prod.snd).Nodup) (hn : (mods.map Prod.fst).Nodup) (hr : ∀ nm ∈ mods, (h nm.2).raiseErrors = false)
    (hdata : ∀ nm ∈ mods, ∀ t, (h nm.2).series? = some t →
      (h nm.2).initialStep < t.finalStep ∧ t.finalStep ≤ t.rows.length)
    (bat : String × Nat) (O : OneStore h mods bat) {L : ℚ} (hL : OnlyLossCosts h mods bat L) (ops ops' : List GOp) (n : Nat) :
    ∃ r, RBC.create (runG g₀ ops) none true = .ok r ∧
    ∃ F g₁ g' os, g₀.finalStep = some F ∧ (runG g₀ ops').reset = (g₁, .ok ()) ∧
      RBC.run ⟨runG g₀ ops', r.list⟩ n = (⟨g', r.list⟩, .ok ()) ∧ PlannedRuns mods r.list g₁ os g' ∧
      os.length = min n (F - g₀.initialStep) ∧
      ∀ cs os' g'', (∀ cn ∈ cs, Supplies h mods cn.1) → Runs g₁ cs os' g'' → os'.length = os.length →
        (os'.map RunOut.reward).sum ≤ (os.map RunOut.reward).sum + os.length * (L / 10000) := by
  have hu : ClearNames h mods := unique_clear hn
  have hd : DistinctNames h mods := by
    intro x hx y hy he
    obtain rfl := List.inj_on_of_nodup_map hn hx hy he
    exact ⟨rfl, rfl⟩
  have hs : ∀ f, (none : Option Shaper) = some f → ∀ i c, ∃ r, f i c = .ok r := by simp
  obtain ⟨pl, hcr, hp, -, -⟩ := C37_default_list hc hl hu ops true
  refine ⟨_, hcr, ?_⟩
  obtain ⟨F, g₁, hF, hrs, hg₁, hIF, hR⟩ := user_running hc hl hb hid hd hr hs hdata ops'
  have R := hR pl (by rw [hg₁]; exact user_fits hc hl ops _ hp)
  obtain ⟨F', g₁', g', os, hF', hrs', hrun, pr, hlen⟩ := C36_rbc_run hc hl hb hid hd hr hs hdata ops ops' pl hp n
  obtain rfl : F' = F := Option.some.inj (hF'.symm.trans hF)
  obtain rfl : g₁' = g₁ := (Prod.mk.inj (hrs'.symm.trans hrs)).1
  refine ⟨F', g₁', g', os, hF, hrs, hrun, pr, hlen, ?_⟩
  intro cs os' g'' hsup hruns hlen'
  rw [hg₁] at pr hruns
  exact C99_planned_earns hc hl hb hid hn bat O hL ops (ops' ++ [.reset]) pl hp g₀.initialStep (hg₁ ▸ R.lock) os g' pr cs hsup os' g''
    hruns hlen'

end

/-! ### Findings and examples -/

/-- A load, renewable production, a battery and a balancing module. -/
def cabinHeap : Heap
  | 0 => okModule (mkLoad [10, 20, 30, 40] .none 2 0 (-1) false)
  | 1 => okModule (mkRenewable [30, 5, 0, 0] .none 2 0 (-1) false)
  | 2 => okModule (mkBattery 10 60 40 25 (4/5) 0 none none (some (1/2)) 0 false)
  | _ => mkBalancing false 0 10 5

/-- Their names. -/
def cabinMods : List (String × Nat) := [("load", 0), ("pv", 1), ("battery", 2), ("balancing", 3)]

/-- The microgrid. -/
def cabin : Microgrid := okGrid (Microgrid.create cabinHeap cabinMods none none)

/-- What the modules of the name provide in consecutive steps of rule-based control (examples only). -/
def rbcSteps (name : String) : Nat → RBC → List (Option ℚ)
  | 0, _ => []
  | n + 1, r => let s := r.step; s.2.toOption.map (fun o => o.provBy name) :: rbcSteps name n s.1

/-- What they provide in consecutive runs of controls (examples only). -/
def ctlSteps (name : String) : List (List (String × Ctrl)) → Microgrid → List (Option ℚ)
  | [], _ => []
  | c :: cs, g => let s := g.run c false; s.2.toOption.map (fun o => o.provBy name) :: ctlSteps name cs s.1

/-- The rule-based control of a microgrid after a reset, with its default list. -/
def afterReset (g : Microgrid) : RBC := ⟨g.reset.1, (((RBC.create g none true).toOption).map RBC.list).getD []⟩

/-- Rule-based control stores the surplus of the first step, covers the second step and what it can of the third: 56.2 units are
    lost. -/
example : rbcSteps "balancing" 4 (afterReset cabin) = [some 0, some 0, some (81/5), some 40] := by decide +kernel
/-- Keeping charge for the last step loses exactly as much. -/
example : ctlSteps "balancing" [[("battery", .seq [.num (-20)])], [("battery", .seq [.num 0])], [("battery", .seq [.num (44/5)])],
      [("battery", .seq [.num 20])]] cabin.reset.1 = [some 0, some 15, some (106/5), some 20] := by decide +kernel
/-- Not storing the surplus of the first step loses 16 units more. -/
example : ctlSteps "balancing" [[("battery", .seq [.num 0])], [("battery", .seq [.num 15])], [("battery", .seq [.num 1])],
      [("battery", .seq [.num 0])]] cabin.reset.1 = [some 0, some 0, some 29, some 40] := by decide +kernel

theorem cabin_ok : Microgrid.create cabinHeap cabinMods none none = .ok cabin := okGrid_eq (by decide +kernel)

theorem cabin_library : ∀ nm ∈ cabinMods, LibraryModule (cabinHeap nm.2) := by
  intro nm hm
  simp only [cabinMods, List.mem_cons, List.not_mem_nil, or_false] at hm
  rcases hm with rfl | rfl | rfl | rfl
  · have : mkLoad [10, 20, 30, 40] .none 2 0 (-1) false = .ok (cabinHeap 0) := okModule_eq (by decide +kernel)
    exact .series (.load this) trivial
  · have : mkRenewable [30, 5, 0, 0] .none 2 0 (-1) false = .ok (cabinHeap 1) := okModule_eq (by decide +kernel)
    exact .series (.renewable this) trivial
  · have : mkBattery 10 60 40 25 (4/5) 0 none none (some (1/2)) 0 false = .ok (cabinHeap 2) := okModule_eq (by decide +kernel)
    exact .battery this ⟨by norm_num, by norm_num, 30, by decide +kernel, by norm_num, by norm_num⟩
  · exact .balancing (by norm_num) (by norm_num)

theorem cabin_store : OneStore cabinHeap cabinMods ("battery", 2) where
  mem := by simp [cabinMods]
  battery := by
    have : (cabinHeap 2).kind.cls = .battery := by decide +kernel
    cases hk : (cabinHeap 2).kind <;> simp [hk, Kind.cls] at this
    exact ⟨_, rfl⟩
  only := by decide +kernel
  off := by
    have : ∀ nm ∈ cabinMods, (cabinHeap nm.2).kind.cls ≠ .grid := by decide +kernel
    intro nm hm p t hk
    exact this nm hm (by rw [hk]; rfl)

/-- The hypotheses of `C99_rule_based` hold. -/
example (n : Nat) : ∃ r, RBC.create cabin none true = .ok r ∧
    ∃ F g₁ g' os, cabin.finalStep = some F ∧ cabin.reset = (g₁, .ok ()) ∧
      RBC.run ⟨cabin, r.list⟩ n = (⟨g', r.list⟩, .ok ()) ∧ PlannedRuns cabinMods r.list g₁ os g' ∧
      os.length = min n (F - cabin.initialStep) ∧
      ∀ cs os' g'', (∀ cn ∈ cs, Supplies cabinHeap cabinMods cn.1) → Runs g₁ cs os' g'' → os'.length = os.length →
        lossTotal cabinHeap cabinMods os ≤ lossTotal cabinHeap cabinMods os' + os.length * (1/10000) :=
  C99_rule_based cabin_ok cabin_library ⟨("balancing", 3), by simp [cabinMods], _, rfl⟩ (by decide) (by decide) (by decide +kernel)
    (by
      have : ∀ nm ∈ cabinMods, ((cabinHeap nm.2).series?.all fun t =>
          decide ((cabinHeap nm.2).initialStep < t.finalStep ∧ t.finalStep ≤ t.rows.length)) = true := by decide +kernel
      intro nm hm t ht
      have := this nm hm
      rw [ht] at this
      simpa using this)
    ("battery", 2) cabin_store [] [] n

theorem cabin_prices : OnlyLossCosts cabinHeap cabinMods ("battery", 2) 10 where
  wear := by
    have : (match (cabinHeap 2).kind with | .battery b => decide (b.costCycle = 0) | _ => true) = true := by decide +kernel
    intro b hb
    simp only at hb
    rw [hb] at this
    simpa using this
  nonneg := by norm_num
  price := by
    have : ∀ nm ∈ cabinMods, (match (cabinHeap nm.2).kind with
        | .balancing u => decide (u.lossLoadCost = 10 ∧ 0 ≤ u.overgenerationCost) | _ => true) = true := by decide +kernel
    intro nm hm u hu
    have := this nm hm
    rw [hu] at this
    simpa using this

/-- The hypotheses of `C99_rule_based_earns` hold as well. -/
example (n : Nat) : ∃ r, RBC.create cabin none true = .ok r ∧
    ∃ F g₁ g' os, cabin.finalStep = some F ∧ cabin.reset = (g₁, .ok ()) ∧
      RBC.run ⟨cabin, r.list⟩ n = (⟨g', r.list⟩, .ok ()) ∧ PlannedRuns cabinMods r.list g₁ os g' ∧
      os.length = min n (F - cabin.initialStep) ∧
      ∀ cs os' g'', (∀ cn ∈ cs, Supplies cabinHeap cabinMods cn.1) → Runs g₁ cs os' g'' → os'.length = os.length →
        (os'.map RunOut.reward).sum ≤ (os.map RunOut.reward).sum + os.length * (10 / 10000) :=
  C99_rule_based_earns cabin_ok cabin_library ⟨("balancing", 3), by simp [cabinMods], _, rfl⟩ (by decide) (by decide)
    (by decide +kernel)
    (by
      have : ∀ nm ∈ cabinMods, ((cabinHeap nm.2).series?.all fun t =>
          decide ((cabinHeap nm.2).initialStep < t.finalStep ∧ t.finalStep ≤ t.rows.length)) = true := by decide +kernel
      intro nm hm t ht
      have := this nm hm
      rw [ht] at this
      simpa using this)
    ("battery", 2) cabin_store cabin_prices [] [] n

/-- A battery whose wear costs something, and more sun than anybody needs. -/
def idleHeap : Heap
  | 0 => okModule (mkLoad [10, 10] .none 2 0 (-1) false)
  | 1 => okModule (mkRenewable [30, 30] .none 2 0 (-1) false)
  | 2 => okModule (mkBattery 0 100 40 40 1 1 none none (some 0) 0 false)
  | _ => mkBalancing false 0 10 5

/-- The microgrid. -/
def idle : Microgrid := okGrid (Microgrid.create idleHeap cabinMods none none)

/-- C99, the price of wear must be nothing: rule-based control stores what is never needed, and pays 40 for it, where leaving the
    battery alone costs nothing. -/
theorem C99_wear_matters : (Microgrid.create idleHeap cabinMods none none).isOk ∧
    ((afterReset idle).step.2.toOption.map RunOut.reward, (afterReset idle).step.1.step.2.toOption.map RunOut.reward) =
      (some (-20), some (-20)) ∧
    ((idle.reset.1.run [("battery", .seq [.num 0])] false).2.toOption.map RunOut.reward,
      ((idle.reset.1.run [("battery", .seq [.num 0])] false).1.run [("battery", .seq [.num 0])] false).2.toOption.map
        RunOut.reward) = (some 0, some 0) := by
  decide +kernel

/-- The same with a genset. -/
def dieselHeap : Heap
  | 0 => okModule (mkLoad [20, 20, 40] .none 2 0 (-1) false)
  | 1 => okModule (mkGenset 0 20 (.const 2) 0 0 0 0 true false 0 false)
  | 2 => okModule (mkBattery 0 40 40 40 1 1 none none (some 1) 0 false)
  | _ => mkBalancing false 0 10 5

/-- The microgrid. -/
def diesel : Microgrid :=
  okGrid (Microgrid.create dieselHeap [("load", 0), ("genset", 1), ("battery", 2), ("balancing", 3)] none none)

/-- C99 does not extend to microgrids with another controllable module.  The default list uses the cheaper battery first, so that it
    is empty when the genset alone cannot cover the load: 20 units are lost, where nothing need be. -/
theorem C99_two_modules : (Microgrid.create dieselHeap [("load", 0), ("genset", 1), ("battery", 2), ("balancing", 3)] none none).isOk ∧
    (afterReset diesel).list.map (fun e => (e.module.1, e.action)) = [("battery", 0), ("genset", 1)] ∧
    rbcSteps "balancing" 3 (afterReset diesel) = [some 0, some 0, some 20] ∧
    ctlSteps "balancing" [[("battery", .seq [.num 0]), ("genset", .seq [.arr [1, 20]])],
      [("battery", .seq [.num 0]), ("genset", .seq [.arr [1, 20]])],
      [("battery", .seq [.num 20]), ("genset", .seq [.arr [1, 20]])]] diesel.reset.1 = [some 0, some 0, some 0] := by
  decide +kernel

end Pymgrid
