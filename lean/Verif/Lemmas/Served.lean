import Verif.Spec.Served
import Verif.Lemmas.Simulate
import Verif.Lemmas.Optimal
import Verif.Lemmas.RBC

set_option autoImplicit false

/-!
# Carrying the load alone: lemmas
-/

namespace Pymgrid

open Module

theorem Module.BalWF.provided_of_net {m m' : Module} {u : Unbalanced} (h : m.BalWF u) {a : Act} {n : Bool} {o : StepOut}
    (he : m.step a n = (m', .ok o)) (h0 : StepOut.net o ≤ 0) : o.info.provided.getD 0 = 0 := by
  rw [h.step_eq] at he
  cases hq : m.request a n with
  | error e => rw [hq] at he; simp at he
  | ok q =>
    rw [hq] at he
    obtain ⟨row, -, h1⟩ := h.stepEnergy q
    simp only [h1, Prod.mk.injEq, Except.ok.injEq] at he
    obtain ⟨-, rfl⟩ := he
    rcases le_or_gt 0 q with hq | hq
    · simp [StepOut.net, hq] at h0 ⊢
      linarith
    · simp [not_le.mpr hq]

/-- A load absorbs what it is told to and provides nothing. -/
theorem Module.LoadWF.step_absorbed {m m' : Module} {t : TS} (h : m.LoadWF t) (hl : m.Live) {a : Act} {n : Bool} {o : StepOut}
    (he : m.step a n = (m', .ok o)) : o.info.absorbed.getD 0 = -(t.rows.getD m.currentStep []).getD 0 0 := by
  obtain ⟨r, hr⟩ := hl.row h.ts.series
  obtain ⟨x, rfl, -, hx⟩ := h.itemAt hr
  rw [h.ts.step_eq] at he
  cases hq : m.request a n with
  | error e => rw [hq] at he; simp at he
  | ok q =>
    rw [hq] at he
    simp only at he
    rcases h.ts.stepEnergy q with ⟨e, h1⟩ | ⟨u, pre, row, hu, -, -, h1⟩
    · rw [h1] at he; simp at he
    · have huu := h.unnormalizedStep q
      rcases lt_or_ge 0 q with h0 | h0
      · rw [huu.1 h0] at hu; simp at hu
      · rw [huu.2 h0, hx] at hu
        simp only [Prod.mk.injEq, Except.ok.injEq, true_and] at hu
        rcases h1 with ⟨f, -, -, obs, h1⟩ | ⟨e, -, h1⟩
        · rw [h1] at he
          simp only [Prod.mk.injEq, Except.ok.injEq] at he
          obtain ⟨-, rfl⟩ := he
          subst hu
          rw [show t.rows.getD m.currentStep [] = [x] by rw [List.getD_eq_getElem?_getD, hr]; rfl]
          simp
        · rw [h1] at he; simp at he

end Pymgrid

namespace Pymgrid.Legacy

open Module

theorem carry_battery (g : Grid) (L : ℚ) (h : g.arch.battery = true) :
    dictGet? (g.carry L) "battery" = some (.scalar 0) := by
  simp [Grid.carry, h, dictGet?]

theorem carry_genset (g : Grid) (L : ℚ) (h : g.arch.genset = true) :
    dictGet? (g.carry L) "genset" = some (.seq [.arr [1, max L (g.params.rated * g.params.pmin)]]) := by
  cases hb : g.arch.battery <;> simp [Grid.carry, h, hb, dictGet?]

theorem carry_grid (g : Grid) (L : ℚ) (h : g.arch.grid = true) :
    dictGet? (g.carry L) "grid" = some (.scalar (if g.arch.genset then 0 else L)) := by
  cases hb : g.arch.battery <;> cases hg : g.arch.genset <;> simp [Grid.carry, h, hb, hg, dictGet?]

section
variable {g : Grid} {ms : List (String × Module)} {m₀ : Microgrid}

theorem Setup.entry (s : Setup g ms m₀) (ops : List GOp) (L : ℚ) {nm : String × Nat} (hm : nm ∈ references ms)
    (hctl : ((runG m₀ ops).heap nm.2).ffc = .controllable) :
    ∃ k a, dictGet? (g.carry L) nm.1 = some k ∧ k.acts = [a] ∧ ((runG m₀ ops).heap nm.2).Accepts a false := by
  have part := s.part ops hm
  cases (s.site ops).ok.wf nm hm with
  | battery b h =>
    obtain ⟨ha, hn, -⟩ := part.of_battery h.kind
    refine ⟨_, _, by rw [hn]; exact carry_battery g L ha, rfl, ?_⟩
    simp only [Accepts, h.kind]
    exact ⟨_, request_num _ _⟩
  | grid p t h _ =>
    obtain ⟨ha, hn, -⟩ := part.of_grid h.kind
    refine ⟨_, _, by rw [hn]; exact carry_grid g L ha, rfl, ?_⟩
    simp only [Accepts, h.kind]
    exact ⟨_, request_num _ _⟩
  | genset y h =>
    obtain ⟨ha, hn, -⟩ := part.of_genset h.kind
    refine ⟨_, _, by rw [hn]; exact carry_genset g L ha, rfl, ?_⟩
    simp only [Accepts, h.kind]
    exact ⟨_, _, rfl, by norm_num, by norm_num, _, request_genset h _ _, s.good.genset_min.trans (le_max_right _ _)⟩
  | load t h _ => rw [h.ffc] at hctl; exact absurd hctl (by decide)
  | renewable t h _ => rw [h.ffc] at hctl; exact absurd hctl (by decide)
  | balancing u h => rw [h.ffc] at hctl; exact absurd hctl (by decide)

theorem Setup.runs (s : Setup g ms m₀) (ops : List GOp) (L : ℚ)
    (live : ∀ nm ∈ references ms, ((runG m₀ ops).heap nm.2).Live) :
    Supplies (runG m₀ ops).heap (references ms) (g.carry L) ∧
      ∃ m' o, (runG m₀ ops).run (g.carry L) false = (m', .ok o) := by
  have r := s.site ops
  refine ⟨?_, ?_⟩
  · intro nm hm hctl
    obtain ⟨k, a, h1, h2, -⟩ := s.entry ops L hm hctl
    exact ⟨k, h1, by rw [h2]; exact MPC.named_one r.names _ _ _⟩
  · refine C19_run_succeeds s.made (fun nm hm => (s.library nm hm).1) s.balancing (references_ids ms)
      (fun nm hm => (s.library nm hm).2) (by simp) ops live _ _ fun nl hnl => ?_
    have hne : nl.2 ≠ [] := PriorityList.level_nonempty (by have := hnl; rwa [r.ok.cont] at this)
    obtain ⟨i₀, hi₀⟩ := List.exists_mem_of_ne_nil _ hne
    obtain ⟨hm₀, hf₀⟩ := r.ok.mem_levelDict nl hnl i₀ hi₀
    obtain ⟨k, a, h1, h2, h3⟩ := s.entry ops L hm₀ hf₀
    refine ⟨k, h1, fun ia hia => ?_⟩
    have hi := (List.of_mem_zip hia).1
    have ha := (List.of_mem_zip hia).2
    rw [h2, List.mem_singleton] at ha
    obtain ⟨hm', hf'⟩ := r.ok.mem_levelDict nl hnl ia.1 hi
    have : (nl.1, ia.1) = (nl.1, i₀) := List.inj_on_of_nodup_map r.names hm' hm₀ rfl
    have : ia.1 = i₀ := (Prod.mk.inj this).2
    rw [this, ha]
    exact h3

/-- What a controllable module delivers. -/
theorem Setup.delivers (s : Setup g ms m₀) (ad : g.Adequate) (ops : List GOp) {L : ℚ} (hL : L ∈ g.loads)
    (live : ∀ nm ∈ references ms, ((runG m₀ ops).heap nm.2).Live)
    (hs : Supplies (runG m₀ ops).heap (references ms) (g.carry L)) {m' : Microgrid} {o : RunOut}
    {trF trC trX : List Event} {h₁ h₂ : Heap} {ci : CostInfo}
    (ri : RunInfo (runG m₀ ops) (g.carry L) false m' o trF trC trX h₁ h₂ ci) {ev : Event}
    (he : ev ∈ trF ++ trC ++ trX) :
    (((runG m₀ ops).heap ev.id).kind.cls = .battery → StepOut.net ev.out = 0) ∧
    (((runG m₀ ops).heap ev.id).kind.cls = .grid → StepOut.net ev.out = if g.arch.genset then 0 else L) ∧
    (((runG m₀ ops).heap ev.id).kind.cls = .genset → L ≤ StepOut.net ev.out) := by
  have r := s.site ops
  obtain ⟨hst, -, hm⟩ := run_event r.ok r.ids r.names r.clear hs ri he
  have hl := live _ hm
  have part := s.part ops hm
  have wf := r.ok.wf _ hm
  simp only at hl part wf
  have h0 := s.loads L hL
  cases wf with
  | load t h wk => rw [h.kind]; exact ⟨nofun, nofun, nofun⟩
  | renewable t h wk => rw [h.kind]; exact ⟨nofun, nofun, nofun⟩
  | balancing u h => rw [h.kind]; exact ⟨nofun, nofun, nofun⟩
  | battery b h =>
    obtain ⟨ha, hn, -⟩ := part.of_battery h.kind
    rw [h.kind]
    refine ⟨fun _ => ?_, nofun, nofun⟩
    obtain ⟨hact, hno⟩ := run_act r.ok ri he h.ffc (by rw [hn]; exact carry_battery g L ha) rfl
    rw [hact, hno] at hst
    exact (h.step_net (q := 0) ⟨by linarith [h.valid.maxConsumption_nonneg], h.valid.maxProduction_nonneg⟩ hst).1
  | grid p t h wk =>
    obtain ⟨ha, hn, hctl, p1, p2, p3, p4⟩ := part.of_grid h.kind
    rw [h.kind]
    refine ⟨nofun, fun _ => ?_, nofun⟩
    obtain ⟨hact, hno⟩ := run_act r.ok ri he hctl (by rw [hn]; exact carry_grid g L ha) rfl
    rw [hact, hno] at hst
    obtain ⟨rr, hr⟩ := hl.row h.ts.series
    have hg : t.rows.getD ((runG m₀ ops).heap ev.id).currentStep [] = rr := by rw [List.getD_eq_getElem?_getD, hr]; rfl
    have hmem := List.mem_of_getElem? hr
    have hst0 : 0 ≤ rr.getD 3 0 := by
      rcases Nat.lt_or_ge 3 rr.length with h3 | h3
      · rw [List.getD_eq_getElem _ _ h3]
        exact h.nonneg rr hmem _ (List.getElem_mem h3)
      · rw [List.getD_eq_default _ _ h3]
    have hi := mul_nonneg s.good.imp hst0
    have hx := mul_nonneg s.good.exp hst0
    refine (h.step_net wk hl ?_ hst).1
    rw [hg, p1, p2]
    cases hgs : g.arch.genset with
    | true => simp only [if_true]; constructor <;> linarith
    | false =>
      obtain ⟨-, g2, g3⟩ := ad.grid hgs
      simp only [Bool.false_eq_true, if_false]
      have h1 : rr.getD 3 0 = 1 := by
        rw [p4] at hmem
        unfold Grid.gridSeries at hmem
        obtain ⟨x, hx1, rfl⟩ := List.mem_map.mp hmem
        exact g3 _ (List.of_mem_zip hx1).2
      rw [h1, mul_one, mul_one]
      exact ⟨by linarith [s.good.exp], g2 L hL⟩
  | genset y h =>
    obtain ⟨ha, hn, p1, p2, p3, p4, p5, p6, p7⟩ := part.of_genset h.kind
    rw [h.kind]
    refine ⟨nofun, nofun, fun _ => ?_⟩
    obtain ⟨hact, hno⟩ := run_act r.ok ri he h.ffc (by rw [hn]; exact carry_genset g L ha) rfl
    rw [hact, hno] at hst
    have hph : y.untilUp = 0 ∧ y.untilDown = 0 := by
      obtain ⟨ph, hp, -⟩ := h.phase
      cases ph with
      | off => exact ⟨hp.2.2.1.trans (by rw [p6]; rfl), hp.2.2.2⟩
      | on => exact ⟨hp.2.2.1, hp.2.2.2.trans (by rw [p7]; rfl)⟩
      | starting k => have := hp.2.2.2.2; omega
      | stopping k => have := hp.2.2.2.2; omega
    have key := h.step_net (action := 1) (x := max L (g.params.rated * g.params.pmin)) (o := ev.out) (m' := m'.heap ev.id)
      (by omega) ⟨fun _ => .inr hph.1, fun _ => .inr hph.2⟩
      (by
        rw [p1, p2]
        push_cast
        rw [one_mul, one_mul]
        exact ⟨le_max_right _ _, max_le (ad.genset ha L hL) s.good.genset_max⟩) (by push_cast; exact hst)
    rw [key.1]
    exact le_max_left _ _

/-- One step in which one component carries the load. -/
theorem Setup.serve (s : Setup g ms m₀) (ad : g.Adequate) (ops : List GOp)
    (live : ∀ nm ∈ references ms, ((runG m₀ ops).heap nm.2).Live) :
    ∃ L, (∀ nm ∈ references ms, nm.1 = "load" → g.loads[((runG m₀ ops).heap nm.2).currentStep]? = some L) ∧
      ∃ m' o, (runG m₀ ops).run (g.carry L) false = (m', .ok o) ∧ o.absBy "load" = L ∧ o.provBy "unbalanced_energy" = 0 ∧
        ∀ nm ∈ references ms, (m'.heap nm.2).currentStep = ((runG m₀ ops).heap nm.2).currentStep + 1 := by
  have r := s.site ops
  have nameEq : ∀ nm ∈ references ms, nm.1 = nameOf ((runG m₀ ops).heap nm.2).kind.cls := fun nm hm => (s.part ops hm).name
  have exists_of : ∀ {cl : Cls} {x : Except Err Module}, (nameOf cl, x) ∈ g.components false →
      ∃ nm ∈ references ms, ((runG m₀ ops).heap nm.2).kind.cls = cl ∧ nm.1 = nameOf cl := by
    intro cl x hx
    obtain ⟨nm, hm, hn⟩ := s.named hx
    exact ⟨nm, hm, nameOf_inj (by rw [← nameEq nm hm, hn]), hn⟩
  obtain ⟨nl, hml, cl, nnl⟩ := exists_of (cl := .load) (mem_load g false)
  obtain ⟨np, hmp, cp, nnp⟩ := exists_of (cl := .renewable) (mem_pv g false)
  obtain ⟨nu, hmu, cu, nnu⟩ := exists_of (cl := .balancing) (mem_balancing g false)
  obtain ⟨t, wl⟩ : ∃ t, ((runG m₀ ops).heap nl.2).LoadWF t := by
    cases r.ok.wf nl hml with
    | load t h _ => exact ⟨t, h⟩
    | battery b h => rw [h.kind] at cl; simp [Kind.cls] at cl
    | grid p t h w => rw [h.kind] at cl; simp [Kind.cls] at cl
    | genset n h => rw [h.kind] at cl; simp [Kind.cls] at cl
    | balancing u h => rw [h.kind] at cl; simp [Kind.cls] at cl
    | renewable t h w => rw [h.kind] at cl; simp [Kind.cls] at cl
  have hrows := (s.part ops hml).of_load wl.kind
  obtain ⟨rr, hrr⟩ := (live nl hml).row wl.ts.series
  have hrr' := hrr
  rw [hrows, List.getElem?_map, Option.map_eq_some_iff] at hrr'
  obtain ⟨L, hgL, rfl⟩ := hrr'
  have hL := List.mem_of_getElem? hgL
  have h0 := s.loads L hL
  have hrow : (t.rows.getD ((runG m₀ ops).heap nl.2).currentStep []).getD 0 0 = -L := by
    rw [List.getD_eq_getElem?_getD (i := ((runG m₀ ops).heap nl.2).currentStep), hrr]
    simp [abs_of_nonneg h0]
  obtain ⟨hs, m', o, hrun⟩ := s.runs ops L live
  obtain ⟨trF, trC, trX, h₁, h₂, ci, ri⟩ := Microgrid.run_ok hrun
  have ev : ∀ nm ∈ references ms, ∃ x ∈ trF ++ trC ++ trX, (x.name, x.id) = nm := by
    intro nm hm
    obtain ⟨x, hx, hxx⟩ := List.mem_map.mp ((r.ok.events_perm r.clear hs ri).mem_iff.mpr hm)
    exact ⟨x, hx, hxx⟩
  have absent : ∀ cl, (∀ nm ∈ references ms, ((runG m₀ ops).heap nm.2).kind.cls ≠ cl) → MPC.delivered o (nameOf cl) = 0 := by
    intro cl hcl
    unfold MPC.delivered
    rw [(ri.reported (nameOf cl)).1, List.filter_eq_nil_iff.mpr]
    · simp
    · intro x hx hh
      have hm := (run_event r.ok r.ids r.names r.clear hs ri hx).2.2
      refine hcl _ hm (nameOf_inj ?_)
      rw [← nameEq _ hm]
      exact of_decide_eq_true hh
  have find : ∀ cl, (∀ nm ∈ references ms, ((runG m₀ ops).heap nm.2).kind.cls ≠ cl) ∨
      ∃ x ∈ trF ++ trC ++ trX, ((runG m₀ ops).heap x.id).kind.cls = cl ∧ x.name = nameOf cl := by
    intro cl
    by_cases hc : ∃ nm ∈ references ms, ((runG m₀ ops).heap nm.2).kind.cls = cl
    · obtain ⟨nm, hm, h1⟩ := hc
      obtain ⟨x, hx, rfl⟩ := ev nm hm
      exact .inr ⟨x, hx, h1, h1 ▸ nameEq _ hm⟩
    · exact .inl fun nm hm h => hc ⟨nm, hm, h⟩
  have net : ∀ x ∈ trF ++ trC ++ trX, MPC.delivered o x.name = StepOut.net x.out := fun x hx =>
    (run_event r.ok r.ids r.names r.clear hs ri hx).2.1
  have dB : MPC.delivered o "battery" = 0 := by
    rcases find .battery with h | ⟨x, hx, hc, hn⟩
    · exact absent _ h
    · have := net x hx
      rw [hn] at this
      exact this.trans ((s.delivers ad ops hL live hs ri hx).1 hc)
  have dGN : L ≤ MPC.delivered o "grid" + MPC.delivered o "genset" := by
    cases hgs : g.arch.genset with
    | true =>
      have d1 : MPC.delivered o "grid" = 0 := by
        rcases find .grid with h | ⟨x, hx, hc, hn⟩
        · exact absent _ h
        · have := net x hx
          rw [hn] at this
          have h2 := (s.delivers ad ops hL live hs ri hx).2.1 hc
          rw [hgs] at h2
          exact this.trans h2
      obtain ⟨nm, hm, hc, hn⟩ := exists_of (cl := .genset) (mem_genset false hgs)
      obtain ⟨x, hx, rfl⟩ := ev nm hm
      have := net x hx
      simp only at hn
      rw [hn] at this
      have h2 := (s.delivers ad ops hL live hs ri hx).2.2 hc
      rw [← this] at h2
      simp only [nameOf] at h2
      linarith
    | false =>
      have d1 : MPC.delivered o "genset" = 0 := by
        refine absent .genset fun nm hm hc => ?_
        have := nameEq nm hm
        cases hk : ((runG m₀ ops).heap nm.2).kind with
        | genset y => have := ((s.part ops hm).of_genset hk).1; rw [hgs] at this; simp at this
        | _ => rw [hk] at hc; simp [Kind.cls] at hc
      obtain ⟨nm, hm, hc, hn⟩ := exists_of (cl := .grid) (mem_grid false (ad.grid hgs).1)
      obtain ⟨x, hx, rfl⟩ := ev nm hm
      have := net x hx
      simp only at hn
      rw [hn] at this
      have h2 := (s.delivers ad ops hL live hs ri hx).2.1 hc
      rw [hgs, ← this] at h2
      simp only [nameOf, Bool.false_eq_true, if_false] at h2
      linarith
  have dL : MPC.delivered o "load" = -L := by
    obtain ⟨x, hx, rfl⟩ := ev nl hml
    have h1 := net x hx
    simp only at nnl
    rw [nnl] at h1
    rw [show ("load" : String) = nameOf .load from rfl, h1,
      (wl.step_net (live _ hml) (run_event r.ok r.ids r.names r.clear hs ri hx).1).1]
    exact hrow
  obtain ⟨u, hu⟩ : ∃ u, ((runG m₀ ops).heap nu.2).BalWF u := by
    cases r.ok.wf nu hmu with
    | balancing u h => exact ⟨u, h⟩
    | load t h _ => rw [h.kind] at cu; simp [Kind.cls] at cu
    | battery b h => rw [h.kind] at cu; simp [Kind.cls] at cu
    | grid p t h w => rw [h.kind] at cu; simp [Kind.cls] at cu
    | genset n h => rw [h.kind] at cu; simp [Kind.cls] at cu
    | renewable t h w => rw [h.kind] at cu; simp [Kind.cls] at cu
  obtain ⟨tp, wp⟩ := (r.ok.wf np hmp).renWF cp
  have htot := r.total hs hmu hu.kind ri
  rw [r.sum (H := fun c => MPC.delivered o (nameOf c)) (fun nm hm => by rw [nameEq nm hm]) absent] at htot
  simp only [nameOf] at htot
  have hdis := r.dispatch live hs hmp wp hmu hu.kind ri
  rw [nnp, nnu] at hdis
  simp only [nameOf] at hdis
  have hPU : MPC.delivered o "PV" + MPC.delivered o "unbalanced_energy" ≤ 0 := by linarith
  have hP : 0 ≤ MPC.delivered o "PV" := by rw [hdis]; exact le_max_left _ _
  have hU : MPC.delivered o "unbalanced_energy" ≤ 0 := by linarith
  refine ⟨L, ?_, m', o, hrun, ?_, ?_, fun nm hm => ((r.ok.run_modules r.ids r.clear hs hrun).1 nm hm).1⟩
  · intro nm hm hn
    have : nm = nl := names_inj r.names hm hml (by rw [hn, nnl]; rfl)
    rw [this]
    exact hgL
  · obtain ⟨x, hx, rfl⟩ := ev nl hml
    obtain ⟨h1, -, h3⟩ := ri.told r.ok r.ids r.names hs hx
    simp only at nnl
    rw [nnl] at h3
    rw [show ("load" : String) = nameOf .load from rfl, h3, wl.step_absorbed (live _ hml) h1]
    rw [hrow, neg_neg]
  · obtain ⟨x, hx, rfl⟩ := ev nu hmu
    obtain ⟨h1, h2, -⟩ := ri.told r.ok r.ids r.names hs hx
    simp only at nnu
    rw [nnu] at h2
    rw [show ("unbalanced_energy" : String) = nameOf .balancing from rfl, h2]
    refine hu.provided_of_net h1 ?_
    rw [← net x hx, nnu]
    exact hU

theorem Setup.live (s : Setup g ms m₀) (ops : List GOp) {c : Nat} (lock : LockStep (references ms) (runG m₀ ops) c)
    (hi : c < g.loads.length) : ∀ nm ∈ references ms, ((runG m₀ ops).heap nm.2).Live := by
  intro nm hm t ht
  rw [lock nm hm]
  unfold Module.series? at ht
  have part := s.part ops hm
  cases hk : ((runG m₀ ops).heap nm.2).kind with
  | load t' =>
    rw [hk] at ht
    simp only [Option.some.injEq] at ht
    subst ht
    rw [part.of_load hk, List.length_map]; exact hi
  | renewable t' =>
    rw [hk] at ht
    simp only [Option.some.injEq] at ht
    subst ht
    rw [part.of_pv hk, List.length_map, s.length]; exact hi
  | grid p t' =>
    rw [hk] at ht
    simp only [Option.some.injEq] at ht
    subst ht
    obtain ⟨ha, -, -, -, -, -, hr⟩ := part.of_grid hk
    rw [hr, s.aligned ha]; exact hi
  | _ => rw [hk] at ht; simp at ht

/-- The remaining loads of the series, one after the other. -/
theorem Setup.serves (s : Setup g ms m₀) (ad : g.Adequate) (n : Nat) (ops : List GOp) {c : Nat} (hn : n = g.loads.length - c)
    (lock : LockStep (references ms) (runG m₀ ops) c) : ∃ m', Serves g (runG m₀ ops) (g.loads.drop c) m' := by
  induction n generalizing ops c with
  | zero => rw [List.drop_eq_nil_of_le (by omega)]; exact ⟨_, .nil _⟩
  | succ n ih =>
    have hi : c < g.loads.length := by omega
    obtain ⟨L, hL, m', o, hrun, h1, h2, h3⟩ := s.serve ad ops (s.live ops lock hi)
    obtain ⟨nl, hml, nnl⟩ := s.named (mem_load g false)
    have hget := hL nl hml nnl
    rw [lock nl hml] at hget
    have he : m' = runG m₀ (ops ++ [.run (g.carry L) false]) := by
      simp only [runG, List.foldl_append, List.foldl_cons, List.foldl_nil, GOp.apply]
      rw [show List.foldl (fun g op => GOp.apply g op) m₀ ops = runG m₀ ops from rfl, hrun]
    obtain ⟨m'', hrest⟩ := ih (ops ++ [.run (g.carry L) false]) (c := c + 1) (by omega) (by
      intro nm hm
      rw [← he, h3 nm hm, lock nm hm])
    rw [← he] at hrest
    rw [List.drop_eq_getElem_cons hi]
    rw [List.getElem?_eq_getElem hi] at hget
    injection hget with hget
    rw [hget]
    exact ⟨m'', .cons hrun h1 h2 hrest⟩

/-- After a reset all modules are at the first step. -/
theorem Setup.restart (s : Setup g ms m₀) (ops : List GOp) :
    ∃ m', (runG m₀ ops).reset = (m', .ok ()) ∧ LockStep (references ms) m' 0 := by
  have r := s.site ops
  obtain ⟨-, alike, -, -⟩ := user_grid s.made (fun nm hm => (s.library nm hm).1) ops
  have htr : m₀.trajectory = none := (Microgrid.create_ok s.made).2.2.2.1
  have htr' : (runG m₀ ops).trajectory = none := (runG_fixed m₀ ops).trajectory.trans htr
  obtain ⟨m', hr⟩ := r.ok.reset_total htr'
  refine ⟨m', hr, fun nm hm => ?_⟩
  obtain ⟨hcur, -, hlim, -⟩ := r.ok.reset_modules r.ids (distinct_of_names r.names) hr
  rw [(hcur nm hm).1, (hlim htr' nm hm).1, (limits_kept htr ops nm.2).1, (Microgrid.create_ok s.made).1]
  exact (component_steps s.comps (List.mem_of_getElem? (mem_references hm))).1

theorem Grid.Comparable.setup (h : g.Comparable) (hm : g.toModular false = .ok m₀) : ∃ ms, Setup g ms m₀ := by
  obtain ⟨ms, e, hn, hc⟩ := toModular_ok hm
  have conv := (toModular_iff h.aligned).mp ⟨m₀, hm⟩
  exact ⟨ms, e, hn, hc, h.params, h.socMax,
    fun hb => by rw [(h.soc hb).1]; exact ⟨(h.soc hb).2.1, (h.soc hb).2.2.trans h.socMax⟩, h.loss, h.over, h.loads, h.pvs,
    conv.pv_length, fun hg => (gridSeries_length h.aligned hg).trans (conv.grid_length hg)⟩

end

end Pymgrid.Legacy
