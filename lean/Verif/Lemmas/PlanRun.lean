import Verif.Lemmas.Populate
import Verif.Lemmas.GridRun

set_option autoImplicit false

/-! Runs on the controls computed from priority lists. -/

namespace Pymgrid

namespace Module

theorem request_num (m : Module) (x : ℚ) : m.request (.num x) false = .ok x := by
  simp [request, energyOf]

theorem request_genset {m : Module} {g : Genset} (h : m.GenWF g) (a x : ℚ) :
    m.request (.arr [a, x]) false = .ok x := by
  simp [request, energyPos, h.kind, energyOf]

/-- A genset switched by the discrete action of a plan. -/
theorem GenWF.goal {m : Module} {g : Genset} (h : m.GenWF g) {action : Nat} (ha : action < 2) :
    ∃ g', g.updateStatus (action : ℚ) = .ok g' ∧ ({ m with kind := .genset g' } : Module).GenWF g' ∧
      g'.status = g.nextStatus (action : Int) ∧ g.SameParams g' := by
  obtain ⟨p, hp⟩ := h.phase
  have h01 : (0 : ℚ) ≤ action ∧ (action : ℚ) ≤ 1 := by
    refine ⟨by positivity, ?_⟩
    have : action ≤ 1 := by omega
    exact_mod_cast this
  obtain ⟨g', e', hp', hs, hst⟩ := hp.update h01.1 h01.2
  have hreq : Genset.reqInt (Genset.asksOn (action : ℚ)) = (action : Int) := by
    have : action = 0 ∨ action = 1 := by omega
    rcases this with rfl | rfl
    · norm_num [Genset.reqInt, Genset.asksOn]
    · norm_num [Genset.reqInt, Genset.asksOn]
  rw [hreq] at hst
  exact ⟨g', e', h.withStatus ⟨_, hp'⟩ hs, hst, hs⟩

/-- A module that is asked for an energy it can deliver delivers it. -/
theorem WF.step_exact {m : Module} (h : m.WF) (hl : m.Live) (hf : m.ffc = .controllable) {action : Nat}
    (ha : action < m.kind.cls.actions) {lo hi x : ℚ} (hw : m.planWindow action = some (lo, hi)) (hx : lo ≤ x ∧ x ≤ hi) :
    ∃ m' o, m.step (m.planAct action x) false = (m', .ok o) ∧
      o.info.provided.getD 0 - o.info.absorbed.getD 0 = x := by
  unfold planWindow at hw
  cases h with
  | battery b h =>
    have hw' : (-b.maxConsumption, b.maxProduction) = (lo, hi) := by
      simpa [afterStatus, window, h.kind, Battery.maxConsumption, Battery.maxProduction] using hw
    obtain ⟨rfl, rfl⟩ := Prod.mk.inj hw'
    simp only [planAct, h.kind]
    rw [h.step_eq, request_num]
    have := h.stepEnergy x
    by_cases h0 : 0 ≤ x
    · rw [if_pos h0, if_neg (fun hh => absurd hh.2 (not_lt.mpr hx.2))] at this
      obtain ⟨m', o, e, s⟩ := this
      refine ⟨m', o, e, ?_⟩
      rw [s.provided, s.absorbed, min_eq_left hx.2]
      simp [Dir.out, Dir.into]
    · rw [if_neg h0, if_neg (fun hh => absurd hh.2 (not_lt.mpr (by linarith [hx.1])))] at this
      obtain ⟨m', o, e, s⟩ := this
      refine ⟨m', o, e, ?_⟩
      rw [s.provided, s.absorbed, min_eq_left (by linarith [hx.1])]
      simp [Dir.out, Dir.into]
  | grid p t h w =>
    obtain ⟨r, hr⟩ := hl.row h.ts.series
    obtain ⟨imp, exp, co2, st, rfl, hst, -⟩ := h.row hr
    have hw' : (-(p.maxExport * st), p.maxImport * st) = (lo, hi) := by
      have := h.window hr hst
      simp only [afterStatus, h.kind] at hw
      rw [this] at hw
      exact Option.some.inj hw
    obtain ⟨rfl, rfl⟩ := Prod.mk.inj hw'
    simp only [planAct, h.kind]
    have hun := (h.unnormalizedStep x).2 _ _ _ _ hr
    rw [h.ts.step_eq, request_num]
    rcases le_or_gt 0 x with h0 | h0
    · have hun := hun.1 h0
      rw [if_neg (fun hh => absurd hh.2 (not_lt.mpr hx.2)), min_eq_left hx.2] at hun
      obtain ⟨pre, row, f, obs, -, -, -, -, he⟩ := h.ts.stepEnergy_ok hun (by simp [h.prov]) (by simp) w
      exact ⟨_, _, he, by simp⟩
    · have hun := hun.2 h0
      rw [if_neg (fun hh => absurd hh.2 (not_lt.mpr (by linarith [hx.1]))), min_eq_left (by linarith [hx.1])] at hun
      obtain ⟨pre, row, f, obs, -, -, -, -, he⟩ := h.ts.stepEnergy_ok hun (by simp) (by simp [h.abs]) w
      exact ⟨_, _, he, by simp⟩
  | genset g h =>
    rw [h.kind] at ha
    obtain ⟨g', e', wf, -, -⟩ := h.goal (action := action) ha
    simp only [afterStatus, h.kind, e'] at hw
    rw [wf.window] at hw
    obtain ⟨rfl, rfl⟩ := Prod.mk.inj (Option.some.inj hw)
    have h01 : (0 : ℚ) ≤ action ∧ (action : ℚ) ≤ 1 := by
      refine ⟨by positivity, ?_⟩
      have : action < 2 := ha
      have : action ≤ 1 := by omega
      exact_mod_cast this
    simp only [planAct, h.kind]
    rw [h.step_eq]
    simp only [List.getElem?_cons_zero]
    rw [if_neg (not_not.mpr h01), e', request_genset h]
    simp only
    have := wf.stepEnergy x
    have h0 : 0 ≤ g'.minProduction := by
      obtain ⟨p', hp''⟩ := wf.phase
      rcases hp''.1.status with e | e <;> simp [Genset.minProduction, e, wf.min_nonneg]
    rw [if_neg (not_lt.mpr (h0.trans hx.1)), if_neg (by
      rintro ⟨-, h1 | h1⟩
      · exact absurd h1 (not_lt.mpr hx.2)
      · exact absurd h1 (not_lt.mpr hx.1))] at this
    obtain ⟨m', o, e, s⟩ := this
    refine ⟨m', o, e, ?_⟩
    rw [s.provided, s.absorbed, clamp, if_neg (not_lt.mpr hx.2), if_neg (not_lt.mpr hx.1)]
    simp
  | load t h w => rw [h.ffc] at hf; exact absurd hf (by decide)
  | renewable t h w => rw [h.ffc] at hf; exact absurd hf (by decide)
  | balancing u h => rw [h.ffc] at hf; exact absurd hf (by decide)

theorem WF.genWF {m : Module} {g : Genset} (h : m.WF) (hk : m.kind = .genset g) : m.GenWF g := by
  cases h with
  | genset g' h' => rwa [← show g' = g by have := h'.kind; rw [hk] at this; simpa using this.symm]
  | battery b h' => have := h'.kind; simp [hk] at this
  | grid p t h' w => have := h'.kind; simp [hk] at this
  | load t h' w => have := h'.kind; simp [hk] at this
  | renewable t h' w => have := h'.kind; simp [hk] at this
  | balancing u h' => have := h'.kind; simp [hk] at this

/-- A genset that is off and asked to be off stays off. -/
theorem genset_stays_off {m m' : Module} {g : Genset} {x : ℚ} {o : StepOut} (h : m.WF) (hk : m.kind = .genset g)
    (h0 : g.status = 0) (hs : m.step (.arr [((0 : Nat) : ℚ), x]) false = (m', .ok o)) :
    ∃ g', m'.kind = .genset g' ∧ g'.status = 0 ∧ g'.runMin = g.runMin ∧ o.info.provided = some 0 := by
  have hwf := h.genWF hk
  obtain ⟨g', e', wf, hst, hsp⟩ := hwf.goal (action := 0) (by decide)
  have hst0 : g'.status = 0 := by rw [hst]; simp [Genset.nextStatus, h0]
  rw [hwf.step_eq] at hs
  simp only [List.getElem?_cons_zero] at hs
  rw [if_neg (by simp), e', request_genset hwf] at hs
  simp only at hs
  have := wf.stepEnergy x
  by_cases hx : x < 0
  · rw [if_pos hx, hs] at this; simp at this
  · rw [if_neg hx] at this
    by_cases hr : ({ m with kind := .genset g' } : Module).raiseErrors = true ∧ (g'.maxProduction < x ∨ x < g'.minProduction)
    · rw [if_pos hr, hs] at this; simp at this
    · rw [if_neg hr] at this
      obtain ⟨m₁, o₁, e, s⟩ := this
      rw [hs] at e
      simp only [Prod.mk.injEq, Except.ok.injEq] at e
      obtain ⟨rfl, rfl⟩ := e
      refine ⟨g', s.wf.kind, hst0, hsp.runMin, ?_⟩
      rw [s.provided]
      simp only [clamp, Genset.minProduction, Genset.maxProduction, hst0, Int.cast_zero, zero_mul]
      split
      · rfl
      · simp
        linarith

end Module

/-- In a run on a planned control, each listed module makes exactly one step, with its entry of the plan. -/
theorem planned_event {mods : List (String × Nat)} {g g' : Microgrid} {c : List (String × Ctrl)} {o : RunOut}
    (ok : GridOK mods g) (hu : ClearNames g.heap mods) (hid : (mods.map Prod.snd).Nodup)
    (hr : g.run c false = (g', .ok o)) {key : String × Nat} {i : Nat} (hd : Denotes g.heap mods key i) {k : Ctrl}
    (hk : dictGet? c key.1 = some k) {a : Act} (ha : k.acts[key.2]? = some a) :
    ∃ out, (g.heap i).step a false = (g'.heap i, .ok out) := by
  obtain ⟨trF, trC, trX, h₁, h₂, ci, r⟩ := Microgrid.run_ok hr
  have hmem : (key.1, i, a) ∈ controlSteps c (g.cont.levelDict .controllable) := by
    unfold controlSteps
    simp only [List.mem_flatMap, List.mem_map, Prod.mk.injEq, Prod.exists]
    refine ⟨key.1, _, dictGet?_mem (PriorityList.level_ctrl_get hu ok hd), i, a, ?_, rfl, rfl, rfl⟩
    rw [hk]
    simp only [Option.map_some, Option.getD_some]
    rw [List.mem_iff_getElem?]
    exact ⟨key.2, by rw [List.getElem?_zip_eq_some]; exact ⟨hd, ha⟩⟩
  have hmap := r.ctrlL
  rw [← hmap] at hmem
  obtain ⟨e, he, hee⟩ := List.mem_map.mp hmem
  simp only [Prod.mk.injEq] at hee
  obtain ⟨-, hei, hea⟩ := hee
  have hnC : (trC.map Event.id).Nodup := by
    have := ok.controlSteps_nodup hid c
    rw [← hmap, List.map_map] at this
    exact this
  have h1 := r.ctrl.once hnC he
  rw [hei, hea, r.ctrlN e he] at h1
  -- untouched by the fixed steps
  have hfx : h₁ i = g.heap i := by
    refine Exec.other_level r.fixed (f := .fixed) (f' := .controllable) (by decide) ?_ hd.mem.2
    intro e' he'
    have hp := fixed_pairs r
    have : (e'.name, e'.id) ∈ Container.toTuples (g.cont.levelDict .fixed) :=
      hp ▸ List.mem_map_of_mem (f := fun e : Event => (e.name, e.id)) he'
    rw [ok.cont] at this
    exact (Container.mem_level this).2
  have hxx : g'.heap i = h₂ i := by
    apply r.flex.other
    intro hm
    obtain ⟨e', he', hid'⟩ := List.mem_map.mp hm
    have hin : (e'.name, e'.id) ∈ g.flexList :=
      r.flexL ▸ List.mem_map_of_mem (f := fun e : Event => (e.name, e.id)) he'
    have := (ok.mem_flexList hin).2
    rw [hid', hd.mem.2] at this
    exact absurd this (by decide)
  rw [hfx, ← hxx] at h1
  exact ⟨e.out, h1⟩

end Pymgrid
