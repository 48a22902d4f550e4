import Verif.Lemmas.LegacyRBC
import Verif.Props.Legacy

set_option autoImplicit false

/-!
# C53: the legacy rule-based control

`_run_priority_based` for every load, PV, state of charge, parameters and priority dict, and the baseline computed by
`run_rule_based`.
-/

namespace Pymgrid.Legacy

section
variable {a : Arch} {p : Params} {load pv soc : ℚ} {q : Priorities} {x : Plan}

/-- C53: set points are never negative, the battery is not charged and discharged at once nor is energy bought and sold
    at once, and the PV in use is part of the PV available. -/
theorem C53_nonneg (hp : p.Good) (hl : 0 ≤ load) (hpv : 0 ≤ pv) (h : runPriorities a p load pv soc q = .ok x) :
    (0 ≤ x.charge ∧ 0 ≤ x.discharge ∧ 0 ≤ x.imp ∧ 0 ≤ x.exp ∧ 0 ≤ x.genset) ∧
      (x.charge = 0 ∨ x.discharge = 0) ∧ (x.imp = 0 ∨ x.exp = 0) ∧
      0 ≤ x.pvKept ∧ 0 ≤ x.pvCurtailed ∧ x.pvKept + x.pvCurtailed = pv ∧ x.charge + x.exp ≤ x.pvKept := by
  obtain ⟨L, M, q', d, -, -, -, i, rfl⟩ := runPriorities_inv hp hl hpv h
  have := i.pv
  have := i.excess
  exact ⟨⟨i.charge, i.discharge, i.imp, i.exp, i.genset⟩, i.oneWay, i.oneWayGrid, i.kept, by simp only; linarith,
    by simp only; ring, i.stored⟩

/-- C53: the battery set points respect its power limits and, taking the losses into account, its energy limits. -/
theorem C53_battery (hp : p.Good) (hl : 0 ≤ load) (hpv : 0 ≤ pv) (h : runPriorities a p load pv soc q = .ok x) :
    x.charge ≤ p.pCharge ∧ x.discharge ≤ p.pDischarge ∧
      (soc ≤ p.socMax → soc * p.capacity + x.charge * p.eff ≤ p.socMax * p.capacity) ∧
      (p.socMin ≤ soc → p.socMin * p.capacity ≤ soc * p.capacity - x.discharge / p.eff) := by
  obtain ⟨L, M, q', d, -, -, -, i, rfl⟩ := runPriorities_inv hp hl hpv h
  refine ⟨i.charge_power, i.discharge_power, fun hs => ?_, fun hs => discharge_fits hp hs i.discharge_capa⟩
  have hr := i.charge_room
  have hc := hp.capacity
  have he := hp.eff
  have room : 0 ≤ p.socMax * p.capacity - soc * p.capacity := by nlinarith
  unfold Params.room at hr
  rw [max_eq_left (div_nonneg room he.le), le_div_iff₀ he] at hr
  simp only
  linarith

/-- C53, coverage: unless the genset is forced to run, PV, battery, grid and genset cover load, charge and export, except
    for an unserved rest, and there is such a rest iff `loss_load` is set.
    Missing: the case that the genset is forced (`C53_forced_partial`, `C53_unserved`). -/
theorem C53_covers_partial (hp : p.Good) (hl : 0 ≤ load) (hpv : 0 ≤ pv) (hf : ¬ Forced a p load pv soc q)
    (h : runPriorities a p load pv soc q = .ok x) : 0 ≤ x.unserved load ∧ (x.lossLoad = true ↔ 0 < x.unserved load) := by
  obtain ⟨L, M, q', d, e, -, -, i, rfl⟩ := runPriorities_inv hp hl hpv h
  rcases prepare_cases a hp load pv soc q with ⟨-, e'⟩ | ⟨hf', -⟩ | ⟨hf', -⟩
  · rw [e'] at e
    simp only [Prod.mk.injEq, Dispatch.mk.injEq] at e
    obtain ⟨⟨hL, -, -, -, -, -, -, -, hM⟩, hq⟩ := e
    subst hL hM hq
    have hm : d.minLoad = 0 := by rcases i.minLoad with ⟨h, -⟩ | ⟨h, -⟩ <;> exact h
    have hb := i.balance
    have : Plan.unserved ⟨d.charge, d.discharge, d.genset, d.imp, d.exp, decide (d.load > 0), d.kept, pv - d.kept⟩
        load = d.load := by
      unfold Plan.unserved
      simp only
      linarith
    rw [this]
    exact ⟨i.load, by simp⟩
  · exact absurd hf' hf
  · exact absurd hf' hf

/-- C53, coverage when the genset is forced and its minimum does not exceed the load: the genset is off or above its
    minimum.  If it is on, all is as in `C53_covers_partial`; if it is off, its minimum is unserved, whether or not
    `loss_load` is set.
    Missing: coverage of that minimum, which the code gets wrong (`C53_unserved`). -/
theorem C53_forced_partial (hp : p.Good) (hl : 0 ≤ load) (hpv : 0 ≤ pv) (hf : Forced a p load pv soc q)
    (hm : p.rated * p.pmin ≤ load) (h : runPriorities a p load pv soc q = .ok x) :
    (p.rated * p.pmin < x.genset ∧ 0 ≤ x.unserved load ∧ (x.lossLoad = true ↔ 0 < x.unserved load)) ∨
    (x.genset = 0 ∧ p.rated * p.pmin ≤ x.unserved load ∧ (x.lossLoad = true ↔ p.rated * p.pmin < x.unserved load)) := by
  obtain ⟨L, M, q', d, e, -, -, i, rfl⟩ := runPriorities_inv hp hl hpv h
  rcases prepare_cases a hp load pv soc q with ⟨hf', -⟩ | ⟨-, -, e'⟩ | ⟨-, hm', -⟩
  · exact absurd hf hf'
  · rw [e'] at e
    simp only [Prod.mk.injEq, Dispatch.mk.injEq] at e
    obtain ⟨⟨hL, -, -, -, -, -, -, -, hM⟩, hq⟩ := e
    subst hL hM hq
    have hb := i.balance
    have hu : Plan.unserved ⟨d.charge, d.discharge, d.genset, d.imp, d.exp, decide (d.load > 0), d.kept, pv - d.kept⟩
        load = d.load + d.minLoad := by
      unfold Plan.unserved
      simp only
      linarith
    rw [hu]
    have hl' := i.load
    rcases i.minLoad with ⟨h1, h2⟩ | ⟨h1, h2⟩
    · exact .inr ⟨h2, by rw [h1]; linarith, by simp [h1]⟩
    · exact .inl ⟨h2, by rw [h1]; linarith, by simp [h1]⟩
  · exact absurd hm (not_le.mpr hm')

/-- C53: if the minimum of the genset exceeds the load, the genset is set to *twice* its minimum and nothing else runs,
    not even PV. -/
theorem C53_double_minimum (hp : p.Good) (hl : 0 ≤ load) (hpv : 0 ≤ pv) (hf : Forced a p load pv soc q)
    (hm : load < p.rated * p.pmin) (h : runPriorities a p load pv soc q = .ok x) :
    x = { charge := 0, discharge := 0, genset := 2 * (p.rated * p.pmin), imp := 0, exp := 0, lossLoad := false
          pvKept := 0, pvCurtailed := pv } := by
  obtain ⟨L, M, q', d, e, -, hd, -, rfl⟩ := runPriorities_inv hp hl hpv h
  rcases prepare_cases a hp load pv soc q with ⟨hf', -⟩ | ⟨-, hm', -⟩ | ⟨-, -, e'⟩
  · exact absurd hf hf'
  · exact absurd hm (not_lt.mpr hm')
  · rw [e'] at e
    simp only [Prod.mk.injEq, Dispatch.mk.injEq] at e
    obtain ⟨⟨hL, -, -, -, -, -, -, -, hM⟩, hq⟩ := e
    subst hL hM hq
    have ho : (⟨0, 0, 0, 1⟩ : Priorities).order = [.genset] := by decide
    rw [ho] at hd
    have hpos : p.rated * p.pmin > 0 := by linarith
    simp only [List.foldl_cons, List.foldl_nil, Dispatch.serve, if_pos hpos] at hd
    rw [hd]
    simp only [Plan.mk.injEq, gt_iff_lt, lt_irrefl, decide_false, true_and, sub_zero, and_true]
    ring

/-- C53: the merit order.  With a battery and a grid that is up, what PV leaves of the load - or of itself - goes to the
    battery first if buying energy later costs more than selling, with the losses of a round trip, brings now, and to the
    grid alone otherwise; the genset stays off and nothing is lost. -/
theorem C53_merit_order (hp : p.Good) (hb : a.battery = true) (hg : a.grid = true)
    (buy sell : ℚ) (h : runPriorities a p load pv soc (generatePriorities a p 1 buy sell) = .ok x) :
    x.genset = 0 ∧ x.lossLoad = false ∧ x.pvCurtailed = 0 ∧
    (sell < buy * p.eff ^ 2 →
      x.discharge = min (max 0 (load - pv)) (p.dischargeLimit soc) ∧ x.imp = max 0 (load - pv) - x.discharge ∧
      x.charge = min (max 0 (pv - load)) (min p.pCharge (max 0 ((p.socMax - soc) * p.capacity / p.eff))) ∧
      x.exp = max 0 (pv - load) - x.charge) ∧
    (buy * p.eff ^ 2 ≤ sell →
      x.discharge = 0 ∧ x.charge = 0 ∧ x.imp = max 0 (load - pv) ∧ x.exp = max 0 (pv - load)) := by
  obtain ⟨b, n, g⟩ := a
  simp only at hb hg
  subst hb hg
  have he : (0 : ℚ) < p.eff ^ 2 := by have := hp.eff; positivity
  have e1 : ((3 : ℚ) * 1).floor.toNat = 3 := by decide +kernel
  have e3 : ((2 : ℚ) * 1).floor.toNat = 2 := by decide +kernel
  have hD : p.dischargeLimit soc = min (p.capaToDischarge soc) p.pDischarge := by
    unfold Params.dischargeLimit Params.capaToDischarge
    rw [min_comm, max_comm, show (soc - p.socMin) * p.capacity * p.eff =
      (soc * p.capacity - p.socMin * p.capacity) * p.eff by ring]
  have hR : max 0 ((p.socMax - soc) * p.capacity / p.eff) = p.room soc := by
    unfold Params.room
    rw [max_comm, show (p.socMax - soc) * p.capacity = p.socMax * p.capacity - soc * p.capacity by ring]
  rw [hD, hR]
  have hC0 : 0 ≤ min (p.capaToDischarge soc) p.pDischarge := le_min (le_max_right _ _) hp.discharge
  have hR0 : 0 ≤ min p.pCharge (p.room soc) := le_min hp.charge (le_max_right _ _)
  rw [min_comm p.pCharge] at hR0 ⊢
  have hprep : ∀ q : Priorities, q.grid = 3 ∨ q.grid = 2 → q.genset = times 4 n →
      prepare ⟨true, n, true⟩ p load pv soc q = ({ load }, q) := by
    intro q h1 h2
    unfold prepare
    cases n
    · rfl
    · simp only [times, if_true] at h2
      rw [if_pos rfl]
      simp only
      rw [if_neg (fun hh => hh.2 ⟨trivial, by omega, by omega⟩)]
  have run : ∀ {q : Priorities} {l : List Gen}, q.grid = 3 ∨ q.grid = 2 → q.genset = times 4 n →
      q.order = .pv :: l → runPriorities ⟨true, n, true⟩ p load pv soc q = .ok x →
      x = (fun d : Dispatch => (⟨d.charge, d.discharge, d.genset, d.imp, d.exp, decide (d.load > 0), d.kept, pv - d.kept⟩ : Plan))
        (l.foldl (fun d x => d.serve p pv soc x)
          { load := max 0 (load - pv), excess := max 0 (pv - load), kept := min load pv }) := by
    intro q l h1 h2 h3 h4
    unfold runPriorities at h4
    rw [if_neg (by simp)] at h4
    simp only [hprep q h1 h2, h3, List.foldl_cons] at h4
    have hs : ({ load } : Dispatch).serve p pv soc .pv =
        { load := max 0 (load - pv), excess := max 0 (pv - load), kept := min load pv } := by
      simp only [Dispatch.serve, Dispatch.mk.injEq, and_true, true_and]
      rcases le_total load pv with hh | hh
      · rw [min_eq_left hh]
        refine ⟨?_, ?_, by ring⟩
        · rw [max_eq_left (by linarith), max_eq_left (by linarith)]
        · rw [max_eq_right (by linarith)]
      · rw [min_eq_right hh]
        refine ⟨rfl, ?_, by ring⟩
        rw [max_eq_left (by linarith)]
        ring
    rw [hs] at h4
    injection h4 with h4
    exact h4.symm
  have sep : max 0 (load - pv) = 0 ∨ max 0 (pv - load) = 0 := by
    rcases le_total load pv with hh | hh
    · exact .inl (max_eq_left (by linarith))
    · exact .inr (max_eq_left (by linarith))
  have hkept : min load pv + max 0 (pv - load) = pv := by
    rcases le_total load pv with hh | hh
    · rw [min_eq_left hh, max_eq_right (by linarith)]; ring
    · rw [min_eq_right hh, max_eq_left (by linarith)]; ring
  have bat : ∀ {L E i e k : ℚ}, 0 ≤ L → 0 ≤ E → L = 0 ∨ E = 0 →
      (⟨L, E, 0, 0, i, e, 0, k, 0⟩ : Dispatch).serve p pv soc .battery =
        ⟨L - min L (min (p.capaToDischarge soc) p.pDischarge), E - min E (min (p.room soc) p.pCharge),
          min E (min (p.room soc) p.pCharge), min L (min (p.capaToDischarge soc) p.pDischarge), i, e, 0,
          k + min E (min (p.room soc) p.pCharge), 0⟩ := by
    intro L E i e k hL hE hz
    simp only [Dispatch.serve]
    split
    · rename_i hh
      have hE : E = 0 := hz.resolve_left (by simp only [gt_iff_lt] at hh; exact hh.ne')
      subst hE
      rw [min_eq_left hR0, max_eq_right (le_min hC0 hL), min_comm L]
      simp
    · rename_i hh
      have hL : L = 0 := le_antisymm (not_lt.mp hh) hL
      subst hL
      rw [min_eq_left hC0]
      split
      · rw [max_eq_right (le_min hR0 hE), min_comm E]
        simp
      · rename_i hh
        have hE : E = 0 := le_antisymm (not_lt.mp hh) hE
        subst hE
        rw [min_eq_left hR0]
        simp
  have grd : ∀ {L E c d k : ℚ}, 0 ≤ L → 0 ≤ E → L = 0 ∨ E = 0 →
      (⟨L, E, c, d, 0, 0, 0, k, 0⟩ : Dispatch).serve p pv soc .grid = ⟨0, 0, c, d, L, E, 0, k + E, 0⟩ := by
    intro L E c d k hL hE hz
    simp only [Dispatch.serve]
    split
    · rename_i hh
      have hE : E = 0 := hz.resolve_left (by simp only [gt_iff_lt] at hh; exact hh.ne')
      subst hE
      simp
    · rename_i hh
      have hL : L = 0 := le_antisymm (not_lt.mp hh) hL
      subst hL
      split
      · rfl
      · rename_i hh
        have hE : E = 0 := le_antisymm (not_lt.mp hh) hE
        subst hE
        simp
  have gen : ∀ d : Dispatch, d.load = 0 →
      (if n then [Gen.genset] else []).foldl (fun d x => d.serve p pv soc x) d = d := by
    intro d hd
    cases n
    · rfl
    · simp only [if_true, List.foldl_cons, List.foldl_nil, Dispatch.serve]
      rw [if_neg (by rw [hd]; exact lt_irrefl 0)]
  have hL : 0 ≤ max 0 (load - pv) := le_max_left _ _
  have hE : 0 ≤ max 0 (pv - load) := le_max_left _ _
  by_cases hc : sell / p.eff ^ 2 < buy
  · have hq : generatePriorities ⟨true, n, true⟩ p 1 buy sell = ⟨1, 2, 3, times 4 n⟩ := by
      unfold generatePriorities
      rw [if_pos rfl, if_pos hc, e1]
      rfl
    rw [hq] at h
    have ho : (⟨1, 2, 3, times 4 n⟩ : Priorities).order = .pv :: .battery :: .grid :: (if n then [.genset] else []) := by
      cases n <;> decide
    have hx := run (.inl rfl) rfl ho h
    have hlt : sell < buy * p.eff ^ 2 := (div_lt_iff₀ he).mp hc
    rw [List.foldl_cons, List.foldl_cons, bat hL hE sep,
      grd (sub_nonneg.mpr (min_le_left _ _)) (sub_nonneg.mpr (min_le_left _ _)), gen _ rfl] at hx
    · subst hx
      refine ⟨rfl, by simp, ?_, fun _ => ⟨rfl, rfl, rfl, rfl⟩, fun hn => absurd hlt (not_lt.mpr hn)⟩
      simp only
      linarith
    · rcases sep with hz | hz <;> rw [hz]
      · exact .inl (by rw [min_eq_left hC0, sub_zero])
      · exact .inr (by rw [min_eq_left hR0, sub_zero])
  · have hq : generatePriorities ⟨true, n, true⟩ p 1 buy sell = ⟨1, 3, 2, times 4 n⟩ := by
      unfold generatePriorities
      rw [if_pos rfl, if_neg hc, e3]
      rfl
    rw [hq] at h
    have ho : (⟨1, 3, 2, times 4 n⟩ : Priorities).order = .pv :: .grid :: .battery :: (if n then [.genset] else []) := by
      cases n <;> decide
    have hx := run (.inr rfl) rfl ho h
    have hle : buy * p.eff ^ 2 ≤ sell := (le_div_iff₀ he).mp (not_lt.mp hc)
    rw [List.foldl_cons, List.foldl_cons, grd hL hE sep, bat le_rfl le_rfl (.inl rfl), min_eq_left hC0,
      min_eq_left hR0, gen _ (sub_zero 0)] at hx
    subst hx
    refine ⟨rfl, by simp, ?_, fun hn => absurd hle (not_le.mpr hn), fun _ => ⟨rfl, rfl, rfl, rfl⟩⟩
    simp only
    linarith

/-- C53: a grid that is down, or absent, is not used, whatever the prices. -/
theorem C53_grid_down (hp : p.Good) (hl : 0 ≤ load) (hpv : 0 ≤ pv) {status : ℚ} (hs : a.grid = false ∨ status = 0)
    (buy sell : ℚ) (h : runPriorities a p load pv soc (generatePriorities a p status buy sell) = .ok x) :
    x.imp = 0 ∧ x.exp = 0 := by
  obtain ⟨L, M, q', d, e, -, hd, -, rfl⟩ := runPriorities_inv hp hl hpv h
  have hq : (generatePriorities a p status buy sell).grid = 0 := by
    unfold generatePriorities
    rcases hs with hs | rfl
    · rw [hs]
      rfl
    · have e0 : ((3 : ℚ) * 0).floor.toNat = 0 := by decide +kernel
      have e2 : ((2 : ℚ) * 0).floor.toNat = 0 := by decide +kernel
      rw [e0, e2]
      split
      · split <;> rfl
      · rfl
  have hq' : q'.grid = 0 := by
    rcases prepare_cases a hp load pv soc (generatePriorities a p status buy sell) with ⟨-, e'⟩ | ⟨-, -, e'⟩ | ⟨-, -, e'⟩ <;>
      rw [e'] at e <;> injection e with _ e <;> subst e
    · exact hq
    · exact hq
    · rfl
  have hno : Gen.grid ∉ q'.order := by
    unfold Priorities.order
    intro hm
    obtain ⟨y, hy, h1⟩ := List.mem_map.mp hm
    obtain ⟨hy, h2⟩ := List.mem_filter.mp hy
    rw [List.mem_insertionSort] at hy
    simp only [Priorities.items, List.mem_cons, List.not_mem_nil, or_false] at hy
    rcases hy with rfl | rfl | rfl | rfl <;> simp_all
  have key : ∀ (l : List Gen) (d : Dispatch), Gen.grid ∉ l →
      (l.foldl (fun d x => d.serve p pv soc x) d).imp = d.imp ∧ (l.foldl (fun d x => d.serve p pv soc x) d).exp = d.exp := by
    intro l
    induction l with
    | nil => intro d _; exact ⟨rfl, rfl⟩
    | cons y l ih =>
      intro d hn
      obtain ⟨h1, h2⟩ := ih (d.serve p pv soc y) fun hh => hn (List.mem_cons_of_mem _ hh)
      rw [List.foldl_cons, h1, h2]
      cases y
      · exact ⟨rfl, rfl⟩
      · simp only [Dispatch.serve]
        split
        · exact ⟨rfl, rfl⟩
        · split <;> exact ⟨rfl, rfl⟩
      · exact absurd List.mem_cons_self hn
      · simp only [Dispatch.serve]
        split <;> exact ⟨rfl, rfl⟩
  rw [hd]
  exact key _ _ hno

end

/-- Parameters with a large battery power and a genset minimum of 20. -/
def demoParams' : Params := { demoParams with pmin := 1/5, pCharge := 100, pDischarge := 100 }

theorem demoParams'_good : demoParams'.Good := by
  constructor <;> norm_num [demoParams', demoParams]

/-- C53 is violated: a load of 100 with 50 units of PV and 40.5 in the battery forces the genset (minimum 20).  PV and
    battery serve the 80 units left, the genset stays off, 20 units are unserved and `loss_load` is not set. -/
theorem C53_unserved :
    runPriorities ⟨true, true, false⟩ demoParams' 100 50 (13/20) ⟨1, 2, 0, 4⟩ =
      .ok { charge := 0, discharge := 30, genset := 0, imp := 0, exp := 0, lossLoad := false, pvKept := 50
            pvCurtailed := 0 } ∧
    Plan.unserved { charge := 0, discharge := 30, genset := 0, imp := 0, exp := 0, lossLoad := false, pvKept := 50
                    pvCurtailed := 0 } 100 = 20 := by
  have h : (runPriorities ⟨true, true, false⟩ demoParams' 100 50 (13/20) ⟨1, 2, 0, 4⟩).toOption =
      some { charge := 0, discharge := 30, genset := 0, imp := 0, exp := 0, lossLoad := false, pvKept := 50
             pvCurtailed := 0 } := by decide +kernel
  refine ⟨?_, by decide +kernel⟩
  revert h
  generalize runPriorities _ _ _ _ _ _ = r
  intro h
  cases r with
  | error e => simp [Except.toOption] at h
  | ok x => simpa [Except.toOption] using h

/-- C53: genset and grid set points are not limited.  A load of 500 is assigned to a genset with at most 90 and
    to a grid connection with at most 200. -/
theorem C53_unlimited :
    ((runPriorities ⟨true, true, false⟩ demoParams 500 0 (1/5) ⟨1, 2, 0, 4⟩).toOption.map (·.genset)) = some 500 ∧
    ((runPriorities ⟨true, true, true⟩ demoParams 500 0 (1/5) ⟨1, 2, 3, 4⟩).toOption.map (·.imp)) = some 500 ∧
    demoParams.rated * demoParams.pmax = 90 ∧ demoParams.pImport = 200 := by
  decide +kernel

/-- C53: the baseline never fails for positive loads.  For every microgrid with such data, `run_rule_based` returns after
    the given number of steps, and each step adds a production entry that is within the limits and balances load and PV
    of that step.
    Missing: loads that are zero (`C53_zero_load`). -/
theorem C53_baseline_partial {g : Grid} (hp : g.params.Good) (hf : g.FullSeries)
    (hs : ∀ s ∈ g.statuses, s = 0 ∨ s = 1) (hl : ∀ x ∈ g.loads, 0 < x) (hpv : ∀ x ∈ g.pvs, 0 ≤ x)
    (ha : g.arch.battery = true ∨ g.arch.grid = false ∧ g.arch.genset = false) (length : Option Nat) :
    ∃ b, runRuleBased g length = .ok b ∧
      Turns g 0 (g.baselineLength length) ⟨g.states, g.production, g.costs, g.co2⟩ b := by
  have key : ∀ (n i : Nat) (b : Baseline), i + n + 1 ≤ g.dataLength ∨ n = 0 →
      ∃ b', baselineFrom g i n b = .ok b' ∧ Turns g i n b b' := by
    intro n
    induction n with
    | zero => intro i b _; exact ⟨b, rfl, .none i b⟩
    | succ n ih =>
      intro i b hi
      obtain ⟨b₁, e, load, pv, row, h1, t⟩ := baselineStep_turn (b := b) (i := i) hp hf hs hl hpv ha (by omega)
      obtain ⟨b₂, h2, ts⟩ := ih (i + 1) b₁ (by omega)
      refine ⟨b₂, ?_, .more t ts⟩
      unfold baselineFrom
      rw [h1]
      exact h2
  have hn : runRuleBased g length =
      baselineFrom g 0 (g.baselineLength length) ⟨g.states, g.production, g.costs, g.co2⟩ := by
    unfold runRuleBased Grid.baselineLength
    cases length with
    | none => simp only [Option.getD_none]; congr 1; omega
    | some n =>
      simp only [Option.getD_some]
      congr 1
      split <;> omega
  rw [hn]
  refine key _ _ _ ?_
  unfold Grid.baselineLength
  omega

/-- C53 and C52: in a baseline the state of charge stays in the window, with or without a grid. -/
theorem C53_baseline_soc {g : Grid} (hp : g.params.Good) (hb : g.arch.battery = true) {i n : Nat} {b b' : Baseline}
    (h : Turns g i n b b') (hne : b.states ≠ [])
    (hw : ∀ row ∈ b.states, g.params.socMin ≤ row.soc ∧ row.soc ≤ g.params.socMax) :
    b'.states.length = b.states.length + n ∧
      ∀ row ∈ b'.states, g.params.socMin ≤ row.soc ∧ row.soc ≤ g.params.socMax := by
  induction h with
  | none i b => exact ⟨rfl, hw⟩
  | @more i n b b₁ b₂ e load pv row t ts ih =>
    have hsoc : g.params.socMin ≤ b.soc ∧ b.soc ≤ g.params.socMax := by
      unfold Baseline.soc
      rw [List.getLast?_eq_getLast_of_ne_nil hne]
      exact hw _ (List.getLast_mem hne)
    have hc := hp.capacity
    have he := hp.eff
    have h1 := t.within.full hsoc.2
    have h2 := t.within.empty hsoc.1
    have h3 : 0 ≤ e.charge * g.params.eff := mul_nonneg t.within.charge.1 he.le
    have h4 : 0 ≤ e.discharge / g.params.eff := div_nonneg t.within.discharge.1 he.le
    have h5 := t.soc hb
    have hrow : g.params.socMin ≤ row.soc ∧ row.soc ≤ g.params.socMax :=
      ⟨le_of_mul_le_mul_right (by linarith) hc, le_of_mul_le_mul_right (by linarith) hc⟩
    obtain ⟨l1, l2⟩ := ih (by rw [t.states]; simp) (by
      intro r hr
      rw [t.states] at hr
      rcases List.mem_append.mp hr with hr | hr
      · exact hw r hr
      · rw [List.mem_singleton] at hr; subst hr; exact hrow)
    refine ⟨?_, l2⟩
    rw [l1, t.states]
    simp only [List.length_append, List.length_singleton]
    omega

/-- A microgrid with a full battery, sun and no load in its first step. -/
def demoNight (load : ℚ) : Grid :=
  match create ⟨true, true, false⟩ demoParams [load, 40, 30, 20] [30, 50, 10, 0] [] [] [] [] 1 1
    ⟨some load, some 30, 0, 1, 0, 72, none⟩ with
  | .ok g => g
  | .error _ => demo false

theorem demoNight_ok : (create ⟨true, true, false⟩ demoParams [0, 40, 30, 20] [30, 50, 10, 0] [] [] [] [] 1 1
    ⟨some 0, some 30, 0, 1, 0, 72, none⟩).toOption = some (demoNight 0) := by decide +kernel

/-- C53: the baseline fails when there is sun, no load and nowhere to put the energy. -/
theorem C53_zero_load :
    (match runRuleBased (demoNight 0) none with | .error e => some e | .ok _ => none) = some .assertion := by
  decide +kernel

/-- Non-vacuity of the dispatch theorems: load 70 with 30 units of PV and 27 in the battery (limited to 25) forces the
    genset, which gets 15; load 60 with enough PV charges the battery and sells the rest. -/
example : (runPriorities ⟨true, true, false⟩ demoParams 70 30 (1/2) ⟨1, 2, 0, 4⟩).toOption.map (fun x =>
      (x.discharge, x.genset, x.lossLoad, x.pvKept)) = some (25, 15, false, 30) := by decide +kernel
example : (runPriorities ⟨true, true, true⟩ demoParams 60 100 (1/2) ⟨1, 2, 3, 4⟩).toOption.map (fun x =>
      (x.charge, x.exp, x.lossLoad, x.pvKept)) = some (25, 15, false, 100) := by decide +kernel

/-- Non-vacuity of `C53_merit_order` and `C53_grid_down`: at a tariff of 1/5 for imports and 1/10 for exports the battery comes
    first, without a spread the grid does, and with the grid down the genset serves the rest. -/
example : (runPriorities ⟨true, true, true⟩ demoParams 60 20 (1/2)
      (generatePriorities ⟨true, true, true⟩ demoParams 1 (1/5) (1/10))).toOption.map (fun x => (x.discharge, x.imp)) =
        some (25, 15) ∧
    (runPriorities ⟨true, true, true⟩ demoParams 60 20 (1/2)
      (generatePriorities ⟨true, true, true⟩ demoParams 1 (1/5) (1/5))).toOption.map (fun x => (x.discharge, x.imp)) =
        some (0, 40) ∧
    (runPriorities ⟨true, true, true⟩ demoParams 60 20 (1/2)
      (generatePriorities ⟨true, true, true⟩ demoParams 0 (1/5) (1/5))).toOption.map (fun x => (x.discharge, x.genset)) =
        some (25, 15) := by decide +kernel

/-- Non-vacuity of `C53_forced_partial`, `C53_double_minimum` and `C53_covers_partial`. -/
example : Forced ⟨true, true, false⟩ demoParams 60 30 (1/2) ⟨1, 2, 0, 4⟩ ∧ demoParams.rated * demoParams.pmin ≤ 60 ∧
    Forced ⟨true, true, false⟩ demoParams' 10 0 (1/5) ⟨1, 2, 0, 4⟩ ∧ 10 < demoParams'.rated * demoParams'.pmin ∧
    ¬ Forced ⟨true, true, true⟩ demoParams 60 30 (1/2) ⟨1, 2, 3, 4⟩ := by
  refine ⟨⟨rfl, by decide +kernel, by simp⟩, by decide +kernel, ⟨rfl, by decide +kernel, by simp⟩, by decide +kernel, ?_⟩
  intro h
  exact h.2.2 ⟨rfl, by decide, by decide⟩

/-- Non-vacuity of `C53_baseline_partial` and `C53_baseline_soc`: a baseline of two steps. -/
example : (demoNight 70).params.Good ∧ (demoNight 70).FullSeries ∧ (∀ x ∈ (demoNight 70).loads, 0 < x) ∧
    (∀ x ∈ (demoNight 70).pvs, 0 ≤ x) ∧ (demoNight 70).arch.battery = true ∧ (demoNight 70).baselineLength none = 2 ∧
    ((runRuleBased (demoNight 70) none).toOption.map (fun b => (b.states.map (·.soc), b.production.genset))) =
      some ([1, 13/18, 731/900], [15, 0]) := by
  have h1 : (demoNight 70).params = demoParams := by decide +kernel
  have h2 : (demoNight 70).arch.grid = false := by decide +kernel
  refine ⟨by rw [h1]; exact demoParams_good, fun h => by rw [h2] at h; simp at h, by decide +kernel, by decide +kernel,
    by decide +kernel, by decide +kernel, by decide +kernel⟩

end Pymgrid.Legacy
