import Verif.Lemmas.Generator
import Verif.Props.LegacyRBC

set_option autoImplicit false

/-!
# C55, C56: generated microgrids

For all random draws in their ranges and all data files of the shipped form.
-/

namespace Pymgrid.Legacy.Generator

/-! ## C56 -/

/-- C56: the profile has one entry per draw, it is binary, and an hour is an outage iff it drew one or one of the following
    `duration - 1` hours did; the first hour only by its own draw. -/
theorem C56_profile (draws : List ℚ) (outagePerDay : ℚ) (duration : Nat) :
    (weakGridProfile draws outagePerDay duration 8760).length = draws.length ∧
    ∀ k, k < draws.length →
      ((weakGridProfile draws outagePerDay duration 8760)[k]? = some 0 ∧ Outage draws (outagePerDay / 24) duration k) ∨
      ((weakGridProfile draws outagePerDay duration 8760)[k]? = some 1 ∧ ¬ Outage draws (outagePerDay / 24) duration k) := by
  refine ⟨?_, fun k hk => ?_⟩
  · unfold weakGridProfile
    rw [extendOutages_length, List.length_map]
  · obtain ⟨a, b⟩ := weakGridProfile_get draws outagePerDay duration hk
    by_cases ho : Outage draws (outagePerDay / 24) duration k
    · exact .inl ⟨a ho, ho⟩
    · exact .inr ⟨b ho, ho⟩

/-- C56 for other time steps: with `nb` steps per year an outage lasts the number of whole steps in its duration. -/
theorem C56_timestep (draws : List ℚ) (outagePerDay nb : ℚ) (duration n : Nat) (hn : 0 < nb)
    (h1 : (n : ℚ) ≤ duration * nb / 8760) (h2 : (duration : ℚ) * nb / 8760 < n + 1) {k : Nat} (hk : k < draws.length) :
    ((weakGridProfile draws outagePerDay duration nb)[k]? = some 0 ∧ Outage draws (outagePerDay / 24) n k) ∨
    ((weakGridProfile draws outagePerDay duration nb)[k]? = some 1 ∧ ¬ Outage draws (outagePerDay / 24) n k) := by
  have : ((duration : ℚ) / (8760 / nb)).floor.toNat = n := by
    have e : (duration : ℚ) / (8760 / nb) = duration * nb / 8760 := by field_simp
    have : ((duration : ℚ) / (8760 / nb)).floor = n := by
      rw [e]
      have f1 : ((n : Int)) ≤ ((duration : ℚ) * nb / 8760).floor := Rat.le_floor_iff.mpr (by exact_mod_cast h1)
      have f2 : ((duration : ℚ) * nb / 8760).floor < (n : Int) + 1 :=
        Rat.floor_lt_iff.mpr (by push_cast; exact h2)
      omega
    rw [this]
    rfl
  unfold weakGridProfile
  rw [this]
  obtain ⟨a, b⟩ := extendOutages_get draws (outagePerDay / 24) n k hk
  by_cases ho : Outage draws (outagePerDay / 24) n k
  · exact .inl ⟨a ho, ho⟩
  · exact .inr ⟨b ho, ho⟩

/-- C56: the status series of a generated grid covers the year and is binary. -/
theorem C56_year {d : Draws} (hv : d.Valid) : d.statuses.length = 8760 ∧ ∀ s ∈ d.statuses, s = 0 ∨ s = 1 :=
  ⟨statuses_length hv, statuses_binary d⟩

/-- Non-vacuity of C56: outages of three hours drawn at hours 4 and 7 and one at hour 0; hour 1 is an outage only if hour 2
    or 3 drew one. -/
example : weakGridProfile [0, 1/2, 1/2, 1/2, 1/100, 1/2, 1/2, 1/50, 1/2] 1 3 8760 = [0, 1, 0, 0, 0, 0, 0, 0, 1] := by
  decide +kernel

/-- Hour 0 is not extended to: the draw of hour 1 leaves it alone. -/
example : weakGridProfile [1/2, 0, 1/2] 1 3 8760 = [1, 0, 1] := by decide +kernel

/-! ## C55 -/

section
variable {d : Draws} {g : Grid}

/-- C55: the generator never fails. -/
theorem C55_total (hv : d.Valid) : ∃ g, d.create = .ok g := by
  obtain ⟨g, -, h, -⟩ := create_spec hv
  exact ⟨g, h⟩

/-- C55: the sizes of a generated microgrid.  The peak load is the drawn size; genset and grid connection can each carry
    it alone; PV peaks at the drawn fraction of it; the battery holds the drawn number of hours of mean load; the initial
    state of charge is in the window and the window can be crossed in four hours in either direction, losses included. -/
theorem C55_sizes (hv : d.Valid) (h : d.create = .ok g) :
    g.params.Good ∧ IsPeak g.loads d.sizeLoad ∧
    (∀ x ∈ g.loads, x ≤ g.params.rated * g.params.pmax ∧ 2 * x ≤ g.params.pImport) ∧
    IsPeak g.pvs ((d.pvPercent : ℚ) / 100 * d.sizeLoad) ∧
    (d.batteryHours : ℚ) * (g.loads.sum / g.loads.length) ≤ g.params.capacity ∧
    (g.params.socMin ≤ g.soc ∧ g.soc ≤ g.params.socMax ∧ g.batterySoc = g.soc) ∧
    (g.params.socMax - g.params.socMin) * g.params.capacity ≤ 4 * g.params.pCharge * g.params.eff ∧
    (g.params.socMax - g.params.socMin) * g.params.capacity ≤ 4 * g.params.pDischarge / g.params.eff := by
  obtain ⟨g', row, h', h1, h2, h3, h4, h5, h6, h7, h8, -⟩ := create_spec hv
  rw [h] at h'
  injection h' with h'
  subst h'
  have hsoc : g.soc = d.soc₀ := by unfold Grid.soc; rw [h6]; exact h7
  obtain ⟨c1, c2, -⟩ := hv.capacity
  obtain ⟨p1, p2⟩ := d.power
  refine ⟨h2 ▸ hv.good, h3 ▸ hv.loads_peak, ?_, h4 ▸ hv.pvs_peak, ?_, ?_, ?_, ?_⟩
  · intro x hx
    rw [h3] at hx
    rw [h2]
    have a := hv.loads_peak.2 x hx
    have b := hv.genset
    have c := hv.grid.1
    exact ⟨by linarith, by linarith⟩
  · rw [h2, h3]; exact c2
  · rw [h2, hsoc, h8]
    exact ⟨(soc₀_mem d).1, (soc₀_mem d).2, rfl⟩
  · rw [h2]
    show ((1 : ℚ) - 1/5) * d.params.capacity ≤ 4 * d.params.pCharge * (9/10)
    linarith
  · rw [h2, p2]
    show ((1 : ℚ) - 1/5) * d.params.capacity ≤ 4 * d.params.pCharge / (9/10)
    rw [le_div_iff₀ (by norm_num)]
    linarith

/-- C55: a generated microgrid has a battery and a genset or a grid; where the grid can fail, there is a genset. -/
theorem C55_architecture (hv : d.Valid) (h : d.create = .ok g) :
    g.arch.battery = true ∧ (g.arch.genset = true ∨ g.arch.grid = true) ∧
      ((∃ s ∈ g.statuses, s ≠ 1) → g.arch.genset = true) := by
  obtain ⟨g', row, h', h1, -, -, -, -, -, -, -, -, -, -, -, h5, h6⟩ := create_spec hv
  rw [h] at h'
  injection h' with h'
  subst h'
  obtain ⟨a1, a2, a3⟩ := arch_spec d
  rw [h1]
  refine ⟨a1, a2, ?_⟩
  rintro ⟨s, hs, hne⟩
  cases hg : d.arch.grid with
  | false => rw [h6 hg] at hs; simp at hs
  | true =>
    rw [(h5 hg).1] at hs
    refine a3 hg ?_
    by_contra hw
    unfold Draws.statuses at hs
    have hs := List.mem_of_mem_take hs
    rw [if_neg hw] at hs
    exact hne (List.mem_replicate.mp hs).2

/-- C55, the series: load, PV and grid data cover the same steps, so that the microgrid can be run to the end. -/
theorem C55_series (hv : d.Valid) (h : d.create = .ok g) : g.FullSeries ∧ g.dataLength = d.load.length := by
  obtain ⟨g', row, h', h1, -, h3, h4, -, -, -, -, -, -, -, -, h5, -⟩ := create_spec hv
  rw [h] at h'
  injection h' with h'
  subst h'
  have hl : g.dataLength = d.load.length := by
    unfold Grid.dataLength
    rw [h3, h4]
    unfold Draws.loads Draws.pvs scaleMax
    rw [List.length_map, List.length_map, hv.pv_rows, min_self]
  refine ⟨fun hg => ?_, hl⟩
  rw [h1] at hg
  obtain ⟨e1, e2, e3, e4⟩ := h5 hg
  obtain ⟨t1, t2⟩ := tariff_length hv.scenario
  have := hv.rows.2
  rw [hl, e1, e2, e3, e4, statuses_length hv, t1, t2, hv.co2_rows]
  exact ⟨this, this, this, le_refl _⟩

/-- C55 and C53: the rule-based baseline of every generated microgrid runs through the whole year, each step within the
    limits and balanced, and the state of charge stays in its window. -/
theorem C55_baseline (hv : d.Valid) (h : d.create = .ok g) :
    ∃ b, runRuleBased g none = .ok b ∧ b.states.length = 1 + (d.load.length - 1 - 24) ∧
      Turns g 0 (d.load.length - 1 - 24) ⟨g.states, {}, [], []⟩ b ∧
      ∀ row ∈ b.states, g.params.socMin ≤ row.soc ∧ row.soc ≤ g.params.socMax := by
  have hgood := (C55_sizes hv h).1
  obtain ⟨hf, hlen⟩ := C55_series hv h
  have hsz := (C55_sizes hv h).2.2.2.2.2.1
  obtain ⟨ab, -, -⟩ := C55_architecture hv h
  obtain ⟨g', row, h', h1, h2, h3, h4, h5, h6, h7, h8, h9, h10, h11, h12, h13, h14⟩ := create_spec hv
  rw [h] at h'
  injection h' with h'
  subst h'
  have hst : ∀ s ∈ g.statuses, s = 0 ∨ s = 1 := by
    cases hg : d.arch.grid with
    | false => rw [h14 hg]; simp
    | true => rw [(h13 hg).1]; exact statuses_binary d
  obtain ⟨b, hb, ht⟩ := C53_baseline_partial hgood hf hst (h3 ▸ hv.loads_pos) (h4 ▸ hv.pvs_nonneg) (.inl ab) none
  have hn : g.baselineLength none = d.load.length - 1 - 24 := by
    unfold Grid.baselineLength
    rw [hlen, h5, Option.getD_none]
    omega
  rw [hn, h9, h10, h11] at ht
  have hw : ∀ r ∈ g.states, g.params.socMin ≤ r.soc ∧ r.soc ≤ g.params.socMax := by
    intro r hr
    rw [h6, List.mem_singleton] at hr
    subst hr
    rw [h7, h2]
    exact soc₀_mem d
  obtain ⟨l1, l2⟩ := C53_baseline_soc hgood ab ht (by rw [h6]; simp) hw
  refine ⟨b, hb, ?_, ht, l2⟩
  rw [l1]
  simp only [h6, List.length_singleton]

end

/-- Draws of a weak-grid microgrid with three hours of data. -/
def demoDraws : Draws :=
  { rand := 1/2, sizeLoad := 500, load := [3, 5, 4], pvPercent := 80, batteryHours := 4, pv := [0, 2, 1], soc := -3/10
    weak := true, scenario := 1, outages := 1, duration := 3, hours := List.replicate 8761 (1/100), co2 := [1/4, 1/5, 1/4] }

theorem demoDraws_valid : demoDraws.Valid where
  sizeLoad := by decide
  pvPercent := by decide
  batteryHours := by decide
  scenario := .inl rfl
  duration := by decide
  hours := List.length_replicate
  rows := by decide
  pv_rows := rfl
  co2_rows := rfl
  load := by decide +kernel
  pv := by decide +kernel
  sun := ⟨2, by decide +kernel, by norm_num⟩

/-- Non-vacuity of C55: the sizes of the example. -/
example : demoDraws.Valid ∧ demoDraws.loads = [300, 500, 400] ∧ demoDraws.pvs = [0, 400, 200] ∧ demoDraws.soc₀ = 1/5 ∧
    demoDraws.params.capacity = 1600 ∧ demoDraws.params.pCharge = 400 ∧ demoDraws.params.rated = 556 ∧
    demoDraws.params.pImport = 1000 ∧ demoDraws.arch = ⟨true, true, true⟩ :=
  ⟨demoDraws_valid, by decide +kernel, by decide +kernel, by decide +kernel, by decide +kernel, by decide +kernel,
    by decide +kernel, by decide +kernel, by decide +kernel⟩

end Pymgrid.Legacy.Generator
