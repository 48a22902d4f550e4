import Verif.Lemmas.Optimal
import Verif.Lemmas.PlanRun

set_option autoImplicit false

/-! The rewards of rule-based control where there is nothing to plan ahead. -/

namespace Pymgrid

open Module

theorem core_grid_inv {k : Kind} {p : GridParams} {t : TS} (e : k.core = (Kind.grid p t).core) :
    ∃ t', k = .grid p t' ∧ t'.rows = t.rows := by
  cases k <;> simp [Kind.core] at e
  rename_i p' t'
  obtain ⟨rfl, e⟩ := e
  exact ⟨t', rfl, e.1⟩

theorem core_genset_inv {k : Kind} {s : Genset} (e : k.core = (Kind.genset s).core) :
    ∃ s', k = .genset s' ∧ s'.runMin = s.runMin ∧ s'.runMax = s.runMax ∧ s'.startUpTime = s.startUpTime := by
  cases k <;> simp [Kind.core] at e
  rename_i s'
  refine ⟨s', rfl, ?_⟩
  simp_all

theorem core_load_inv {k : Kind} {t : TS} (e : k.core = (Kind.load t).core) : ∃ t', k = .load t' ∧ t'.rows = t.rows := by
  cases k <;> simp [Kind.core] at e
  rename_i t'
  exact ⟨t', rfl, e.1⟩

theorem core_ren_inv {k : Kind} {t : TS} (e : k.core = (Kind.renewable t).core) : ∃ t', k = .renewable t' ∧ t'.rows = t.rows := by
  cases k <;> simp [Kind.core] at e
  rename_i t'
  exact ⟨t', rfl, e.1⟩

theorem cell_of_rows {t t' : TS} (e : t'.rows = t.rows) (c j : Nat) : t'.cell c j = t.cell c j := by
  unfold TS.cell
  rw [e]

theorem named_single {h : Heap} {mods : List (String × Nat)} {f : FFC} (hn : (mods.map Prod.fst).Nodup) {nm : String × Nat}
    (hm : nm ∈ mods) (hf : (h nm.2).ffc = f) : modulesNamed h mods f nm.1 = [nm.2] := by
  unfold modulesNamed
  induction mods with
  | nil => simp at hm
  | cons a l ih =>
    simp only [List.map_cons, List.nodup_cons, List.mem_map, not_exists, not_and] at hn
    rcases List.mem_cons.mp hm with rfl | hm'
    · have : (l.filter fun x => decide (x.1 = nm.1 ∧ (h x.2).ffc = f)) = [] := by
        rw [List.filter_eq_nil_iff]
        intro x hx
        simp only [decide_eq_true_eq, not_and]
        intro h1
        exact absurd h1 (hn.1 x hx)
      rw [List.filter_cons_of_pos (by simp [hf]), this]
      rfl
    · have hne : ¬ a.1 = nm.1 := fun h1 => hn.1 nm hm' h1.symm
      rw [List.filter_cons_of_neg (by simp [hne])]
      exact ih hn.2 hm'

theorem sum_nonpos_of {l : List ℚ} (hl : ∀ x ∈ l, x ≤ 0) : l.sum ≤ 0 := by
  induction l with
  | nil => simp
  | cons a l ih =>
    have := hl a (by simp)
    have := ih fun x hx => hl x (by simp [hx])
    rw [List.sum_cons]
    linarith

/-- What a unit of production needs in fuel. -/
def Kind.fuelRate : Kind → ℚ
  | .genset s => fuelPrice s.cost 1
  | _ => 0

section
variable {h : Heap} {mods : List (String × Nat)} {pl : List Element} {L : ℚ} {c : Nat} {g g' : Microgrid}
  {ctl : List (String × Ctrl)} {net rem : ℚ} {xs : List ℚ} {o : RunOut}

/-- The limits of the controllable modules. -/
theorem Follows.plan_window (f : Follows h mods none g) (w : ∀ nm ∈ mods, (h nm.2).WF) (N : NothingToPlan h mods L)
    (hl : LockStep mods g c) (live : ∀ nm ∈ mods, (g.heap nm.2).Live) {nm : String × Nat} (hm : nm ∈ mods)
    (hf : (h nm.2).ffc = .controllable) {action : Nat} (ha : ∀ s, (h nm.2).kind = .genset s → action = 1) :
    (∃ p t, (h nm.2).kind = .grid p t ∧
      (g.heap nm.2).planWindow action = some (-(p.maxExport * t.cell c 3), p.maxImport * t.cell c 3) ∧
      0 ≤ p.maxExport * t.cell c 3 ∧ 0 ≤ p.maxImport * t.cell c 3 ∧ 0 ≤ t.cell c 1) ∨
    ∃ s, (h nm.2).kind = .genset s ∧ (g.heap nm.2).planWindow action = some (0, s.runMax) ∧ 0 ≤ s.runMax := by
  have e := f.core nm hm
  have W := f.ok.wf nm hm
  have hlv := live nm hm
  have hls := hl nm hm
  cases w nm hm with
  | battery b h' => exact absurd h'.kind (N.battery nm hm b)
  | load t h' w => rw [h'.ffc] at hf; simp at hf
  | renewable t h' w => rw [h'.ffc] at hf; simp at hf
  | balancing u h' => rw [h'.ffc] at hf; simp at hf
  | grid p t h' w =>
    left
    rw [h'.kind] at e
    obtain ⟨t', hk, hrows⟩ := core_grid_inv e
    have wg := W.toGrid hk
    obtain ⟨r, hr⟩ := hlv.row (t := t') (by simp [Module.series?, hk])
    obtain ⟨imp, exp, co2, st, rfl, hst, h1, h2, h3⟩ := wg.row hr
    have hr' := hr
    rw [hls, hrows] at hr'
    refine ⟨p, t, h'.kind, ?_, ?_, ?_, ?_⟩
    · have : (g.heap nm.2).afterStatus (.arr [(action : ℚ), 0]) = g.heap nm.2 := by simp [Module.afterStatus, hk]
      unfold Module.planWindow
      rw [this, wg.window hr hst, cell_eq hr']
      rfl
    · rw [cell_eq hr']
      exact mul_nonneg wg.exp (by rcases hst with rfl | rfl <;> simp)
    · rw [cell_eq hr']
      exact mul_nonneg wg.imp (by rcases hst with rfl | rfl <;> simp)
    · rw [cell_eq hr']
      exact h2
  | genset s h' =>
    right
    rw [h'.kind] at e
    obtain ⟨s', hk, e1, e2, e3⟩ := core_genset_inv e
    obtain ⟨n1, n2, -⟩ := N.genset nm hm s h'.kind
    have wg := W.genWF hk
    refine ⟨s, h'.kind, ?_, h'.min_nonneg.trans h'.min_le⟩
    rw [ha s h'.kind, wg.on_window (.inr (by rw [e3, n2])), e1, e2, n1]

/-- What a controllable module earns that responds to the price. -/
theorem responds_margin {m : Module} {x lo hi d p a : ℚ} (w : m.WF) (hp : m.kind.Possible c p a) (hd : p - a = d)
    (r : Responds (m.kind.unitPrice c) (m.kind.resale c) lo hi x d) (hvu : m.kind.resale c ≤ m.kind.unitPrice c)
    (hw : (∃ q t, m.kind = .grid q t ∧ lo = -(q.maxExport * t.cell c 3) ∧ hi = q.maxImport * t.cell c 3 ∧ lo ≤ 0 ∧ 0 ≤ hi) ∨
      ∃ s, m.kind = .genset s ∧ lo = 0 ∧ hi = s.runMax ∧ 0 ≤ hi ∧ ∀ p, 0 ≤ p → p ≤ s.runMax → fuelPrice s.cost p = fuelPrice s.cost 1 * p) :
    m.kind.margin x 0 m.kind.fuelRate c = x * (p - a) - m.kind.dues c p a := by
  rcases hw with ⟨q, t, hk, rfl, rfl, h1, h2⟩ | ⟨s, hk, rfl, rfl, h2, h3⟩
  · rw [hk] at hp r hvu ⊢
    simp only [Kind.Possible, Kind.unitPrice, Kind.resale, Kind.margin, Kind.dues] at hp r hvu ⊢
    have := r.best hvu h1 h2 hp.1 hp.2.2.1 hp.2.2.2.2 hd
    rw [neg_neg] at this
    rw [show x - t.cell c 0 - q.costPerCo2 * t.cell c 2 = x - (t.cell c 0 + q.costPerCo2 * t.cell c 2) by ring, this]
    ring
  · rw [hk] at hp r hvu ⊢
    simp only [Kind.Possible, Kind.unitPrice, Kind.resale, Kind.margin, Kind.dues, Kind.fuelRate] at hp r hvu ⊢
    have hwf := w.genWF hk
    have hp' : 0 ≤ p ∧ p ≤ s.runMax := by
      rcases hp.1 with rfl | h4
      · exact ⟨le_rfl, h2⟩
      · exact ⟨hwf.min_nonneg.trans h4.1, h4.2⟩
    have := r.best hvu le_rfl h2 hp'.1 hp.2.ge (.inr hp.2) hd
    rw [neg_zero, mul_zero, max_eq_left (mul_nonneg (le_max_left _ _) h2)] at this
    rw [show x - fuelPrice s.cost 1 - s.costPerCo2 * s.co2PerUnit = x - (fuelPrice s.cost 1 + s.costPerCo2 * s.co2PerUnit) by ring,
      this, h3 p hp'.1 hp'.2]
    ring

/-- The part of a number that belongs to renewable modules, and to balancing modules. -/
def Kind.ifRen (q : ℚ) : Kind → ℚ
  | .renewable _ => q
  | _ => 0

def Kind.ifBal (q : ℚ) : Kind → ℚ
  | .balancing _ => q
  | _ => 0

/-- What the other modules miss. -/
theorem other_margin {m : Module} {x p a : ℚ} (w : m.WF) (hf : m.ffc ≠ .controllable) (hp : m.kind.Possible c p a)
    (h0 : 0 ≤ x) (hg : m.kind.isGrid = false) (hb : ∀ u, m.kind = .balancing u → u.lossLoadCost = L)
    (ha : m.kind.ifBal a = 0) :
    m.kind.margin x 0 m.kind.fuelRate c - (x * (p - a) - m.kind.dues c p a) =
        x * (m.kind.harvest c - m.kind.ifRen p) + (L - x) * m.kind.ifBal p := by
  cases w with
  | battery b h' => exact absurd h'.ffc hf
  | genset b h' => exact absurd h'.ffc hf
  | grid q t h' w => rw [h'.kind] at hg; simp [Kind.isGrid] at hg
  | load t h' w =>
    rw [h'.kind] at hp ⊢
    simp only [Kind.Possible, Kind.margin, Kind.dues, Kind.harvest, Kind.ifRen, Kind.ifBal] at *
    rw [hp.1, hp.2]; ring
  | renewable t h' w =>
    rw [h'.kind] at hp ⊢
    simp only [Kind.Possible, Kind.margin, Kind.dues, Kind.harvest, Kind.ifRen, Kind.ifBal] at *
    rw [hp.2.2, max_eq_right h0]; ring
  | balancing u h' =>
    have := hb u h'.kind
    rw [h'.kind] at hp ha ⊢
    simp only [Kind.Possible, Kind.margin, Kind.dues, Kind.harvest, Kind.ifRen, Kind.ifBal] at *
    rw [ha, this]; ring

/-- How energy is exchanged by the other modules. -/
theorem other_net {m : Module} {p a : ℚ} (w : m.WF) (hf : m.ffc ≠ .controllable) (hp : m.kind.Possible c p a)
    (hg : m.kind.isGrid = false) :
    p - a = -m.kind.demand c + m.kind.ifRen p + m.kind.ifBal p - m.kind.ifBal a := by
  cases w with
  | battery b h' => exact absurd h'.ffc hf
  | genset b h' => exact absurd h'.ffc hf
  | grid q t h' w => rw [h'.kind] at hg; simp [Kind.isGrid] at hg
  | load t h' w =>
    rw [h'.kind] at hp ⊢
    simp only [Kind.Possible, Kind.demand, Kind.ifRen, Kind.ifBal] at *
    rw [hp.1, hp.2]; ring
  | renewable t h' w =>
    rw [h'.kind] at hp ⊢
    simp only [Kind.Possible, Kind.demand, Kind.ifRen, Kind.ifBal] at *
    rw [hp.2.2]; ring
  | balancing u h' =>
    rw [h'.kind] at hp ⊢
    simp only [Kind.demand, Kind.ifRen, Kind.ifBal] at *
    ring

/-- Controllable modules here are neither loads nor renewable nor balancing. -/
theorem ctrl_zero {m : Module} (w : m.WF) (hf : m.ffc = .controllable) (q : ℚ) :
    m.kind.demand c = 0 ∧ m.kind.harvest c = 0 ∧ m.kind.ifRen q = 0 ∧ m.kind.ifBal q = 0 := by
  cases w with
  | battery b h' => rw [h'.kind]; exact ⟨rfl, rfl, rfl, rfl⟩
  | genset b h' => rw [h'.kind]; exact ⟨rfl, rfl, rfl, rfl⟩
  | grid p t h' w => rw [h'.kind]; exact ⟨rfl, rfl, rfl, rfl⟩
  | load t h' w => rw [h'.ffc] at hf; simp at hf
  | renewable t h' w => rw [h'.ffc] at hf; simp at hf
  | balancing u h' => rw [h'.ffc] at hf; simp at hf

theorem Follows.net_load (f : Follows h mods none g) (w : ∀ nm ∈ mods, (h nm.2).WF) (hl : LockStep mods g c)
    (live : ∀ nm ∈ mods, (g.heap nm.2).Live) :
    netLoad g.heap mods = (mods.map fun nm => (h nm.2).kind.demand c).sum - (mods.map fun nm => (h nm.2).kind.harvest c).sum := by
  have key : ∀ nm ∈ mods, (g.heap nm.2).demand = (h nm.2).kind.demand c ∧ (g.heap nm.2).available = (h nm.2).kind.harvest c := by
    intro nm hm
    have e := f.core nm hm
    have W := f.ok.wf nm hm
    have hlv := live nm hm
    have hls := hl nm hm
    cases w nm hm with
    | load t h' w =>
      rw [h'.kind] at e
      obtain ⟨t', hk, hrows⟩ := core_load_inv e
      obtain ⟨r, hr⟩ := hlv.row (t := t') (by simp [Module.series?, hk])
      have hr' := hr
      rw [hls, hrows] at hr'
      obtain ⟨x, rfl, hx, -⟩ := h'.itemAt hr'
      rw [h'.kind]
      simp [Module.demand, Module.available, hk, hr, Kind.demand, Kind.harvest, cell_eq hr', abs_of_nonpos hx]
    | renewable t h' w =>
      rw [h'.kind] at e
      obtain ⟨t', hk, hrows⟩ := core_ren_inv e
      obtain ⟨r, hr⟩ := hlv.row (t := t') (by simp [Module.series?, hk])
      have hr' := hr
      rw [hls, hrows] at hr'
      obtain ⟨x, rfl, hx, -⟩ := h'.itemAt hr'
      rw [h'.kind]
      simp [Module.demand, Module.available, hk, hr, Kind.demand, Kind.harvest, cell_eq hr']
    | battery b h' =>
      rw [h'.kind] at e ⊢
      cases hk : (g.heap nm.2).kind <;> simp [hk, Kind.core] at e
      simp [Module.demand, Module.available, hk, Kind.demand, Kind.harvest]
    | genset b h' =>
      rw [h'.kind] at e ⊢
      obtain ⟨s', hk, -⟩ := core_genset_inv e
      simp [Module.demand, Module.available, hk, Kind.demand, Kind.harvest]
    | grid p t h' w =>
      rw [h'.kind] at e ⊢
      obtain ⟨t', hk, -⟩ := core_grid_inv e
      simp [Module.demand, Module.available, hk, Kind.demand, Kind.harvest]
    | balancing u h' =>
      rw [h'.kind] at e ⊢
      cases hk : (g.heap nm.2).kind <;> simp [hk, Kind.core] at e
      simp [Module.demand, Module.available, hk, Kind.demand, Kind.harvest]
  unfold netLoad
  rw [List.map_congr_left fun nm hm => (key nm hm).1, List.map_congr_left fun nm hm => (key nm hm).2]

/-- The modules of a list are the controllable ones. -/
theorem Fits.sum_eq (fit : Fits h mods pl) (hn : (mods.map Prod.fst).Nodup) (F : String → ℚ) :
    ((mods.filter fun nm => decide ((h nm.2).ffc = .controllable)).map fun nm => F nm.1).sum =
      (pl.map fun e => F e.module.1).sum := by
  have hz : ∀ {key : String × Nat} {i}, Denotes h mods key i → key.2 = 0 := by
    intro key i hd
    have hd' := hd
    unfold Denotes at hd'
    rw [named_single hn hd.mem.1 hd.mem.2] at hd'
    have := List.getElem?_eq_some_iff.mp hd'
    obtain ⟨h1, -⟩ := this
    simpa using h1
  have n1 : (((mods.filter fun nm => decide ((h nm.2).ffc = .controllable))).map Prod.fst).Nodup :=
    hn.sublist ((List.filter_sublist).map _)
  have n2 : (pl.map fun e => e.module.1).Nodup := by
    have h1 := fit.use.once
    have h0 : pl.Nodup := List.Nodup.of_map _ h1
    rw [List.nodup_map_iff_inj_on h0] at h1 ⊢
    intro x hx y hy hxy
    obtain ⟨i, hi, -⟩ := fit.use.element x hx
    obtain ⟨j, hj, -⟩ := fit.use.element y hy
    exact h1 x hx y hy (Prod.ext hxy ((hz hi).trans (hz hj).symm))
  have perm : ((mods.filter fun nm => decide ((h nm.2).ffc = .controllable)).map Prod.fst).Perm (pl.map fun e => e.module.1) := by
    rw [List.perm_ext_iff_of_nodup n1 n2]
    intro s
    simp only [List.mem_map, List.mem_filter, decide_eq_true_eq]
    constructor
    · rintro ⟨nm, ⟨hm, hf⟩, rfl⟩
      have hd : Denotes h mods (nm.1, 0) nm.2 := by
        unfold Denotes
        rw [named_single hn hm hf]
        rfl
      obtain ⟨e, he, hee⟩ := List.mem_map.mp (fit.all _ _ hd)
      exact ⟨e, he, by rw [hee]⟩
    · rintro ⟨e, he, rfl⟩
      obtain ⟨i, hi, -⟩ := fit.use.element e he
      exact ⟨(e.module.1, i), hi.mem, rfl⟩
  have := (perm.map F).sum_eq
  simpa only [List.map_map, Function.comp_def] using this

/-- At some price of energy nobody in the microgrid could have earned more in a planned run, up to the tolerance of the plan. -/
theorem Follows.optimal_step (f : Follows h mods none g) (w : ∀ nm ∈ mods, (h nm.2).WF) (hid : (mods.map Prod.snd).Nodup)
    (hn : (mods.map Prod.fst).Nodup) (hb : ∃ nm ∈ mods, (h nm.2).kind.isBalancing = true) (N : NothingToPlan h mods L)
    (hl : LockStep mods g c) (fit : Fits h mods pl) (O : OrderedByPrice h mods pl L c 1)
    (P : Planned g.heap mods pl ctl (netLoad g.heap mods) rem xs) (hr : g.run ctl false = (g', .ok o)) :
    ∃ x, 0 ≤ x ∧ x ≤ L ∧
      (mods.map fun nm => (h nm.2).kind.margin x 0 (h nm.2).kind.fuelRate c).sum ≤ o.reward + L / 10000 := by
  have hff : ∀ j, (g.heap j).ffc = (h j).ffc := fun j => (f.alike j).ffc
  have hD : ∀ {key i}, Denotes g.heap mods key i ↔ Denotes h mods key i := Denotes.congr hff
  have hsg : Supplies g.heap mods ctl := P.supplied
  have hs : Supplies h mods ctl := by
    intro nm hm hf
    have := hsg nm hm ((hff nm.2).trans hf)
    rwa [modulesNamed_congr hff] at this
  have live := f.ok.was_live hid hn hsg hr
  obtain ⟨a1, -, -⟩ := f.account hid hn hl hs hr
  have bal := a1.balance hb
  have rew := a1.reward rfl
  have win := fun {nm} hm hf {action} ha => f.plan_window w N hl live (nm := nm) hm hf (action := action) ha
  have hw1 : ∀ e ∈ pl, ∀ i, Denotes h mods e.module i → ∀ s, (h (e.module.1, i).2).kind = .genset s → e.action = 1 :=
    fun e he i hd s hs => O.running e he i s hd hs
  -- the price of energy
  have hW : ∀ e ∈ pl, ∀ i lo hi, Denotes h mods e.module i → (g.heap i).planWindow e.action = some (lo, hi) →
      lo ≤ 0 ∧ 0 ≤ hi ∧ ((h i).kind.isGrid = false → lo = 0) := by
    intro e he i lo hi hd hwin
    rcases win hd.mem.1 hd.mem.2 (hw1 e he i hd) with ⟨p, t, hk, k1, k2, k3, -⟩ | ⟨s, hk, k1, k2⟩
    · rw [hwin] at k1
      obtain ⟨rfl, rfl⟩ := Prod.mk.inj (Option.some.inj k1)
      exact ⟨by linarith, k3, fun hg => by simp only at hk; rw [hk] at hg; simp [Kind.isGrid] at hg⟩
    · rw [hwin] at k1
      obtain ⟨rfl, rfl⟩ := Prod.mk.inj (Option.some.inj k1)
      exact ⟨le_rfl, k2, fun _ => rfl⟩
  have elem : ∀ key i, Denotes h mods key i → ∃ e ∈ pl, e.module = key := by
    intro key i hd
    simpa using fit.all key i hd
  have hres : ∀ key i, Denotes h mods key i → 0 ≤ (h i).kind.resale c := by
    intro key i hd
    obtain ⟨e, he, rfl⟩ := elem key i hd
    rcases win hd.mem.1 hd.mem.2 (hw1 e he i hd) with ⟨p, t, hk, -, -, -, k4⟩ | ⟨s, hk, -⟩
    · simp only at hk
      rw [hk]; exact k4
    · simp only at hk
      rw [hk]; exact le_rfl
  obtain ⟨x, x0, xL, hx1, hx2, hresp⟩ := P.price hff O hW hres
  refine ⟨x, x0, xL, ?_⟩
  obtain ⟨b, -, -, hbt⟩ := O.between c le_rfl (by omega)
  -- what the controllable modules deliver
  have zipped : ∀ e ∈ pl, ∃ d, (e, d) ∈ pl.zip xs := by
    intro e he
    obtain ⟨n, hn', hne⟩ := List.getElem_of_mem he
    refine ⟨xs[n]'(by rw [P.len]; exact hn'), List.mem_iff_getElem.mpr ⟨n, ?_, ?_⟩⟩
    · simp only [List.length_zip, P.len]; simpa using hn'
    · rw [List.getElem_zip]; exact Prod.ext hne rfl
  have deliver : ∀ p ∈ pl.zip xs, o.provBy p.1.module.1 - o.absBy p.1.module.1 = p.2 := by
    intro p hp
    obtain ⟨i, k, lo, hi, d1, d2, d3, d4, d5, -, -⟩ := P.each p hp
    have he := (List.of_mem_zip hp).1
    have hw' := hW p.1 he i lo hi (hD.mp d1) d4
    have d5' : lo ≤ p.2 ∧ p.2 ≤ hi := by
      rcases d5 with d5 | ⟨-, d5⟩
      · exact d5
      · linarith [hw'.1]
    obtain ⟨out, s1, s2, s3⟩ := f.ok.delivery hid hn hsg hr d1 d2 d3
    obtain ⟨j, hj1, hj2, hj3⟩ := fit.use.element p.1 he
    obtain rfl : j = i := Option.some.inj (hj1.symm.trans (hD.mp d1))
    have hcl : (g.heap j).kind.cls = (h j).kind.cls := by
      rw [← Kind.core_cls, f.core _ d1.mem.1, Kind.core_cls]
    obtain ⟨m', out', s1', s4⟩ := (f.ok.wf _ d1.mem.1).step_exact (live _ d1.mem.1) d1.mem.2
      (by simp only; rw [hcl, ← hj2]; exact hj3) d4 d5'
    simp only at s1'
    rw [s1] at s1'
    simp only [Prod.mk.injEq, Except.ok.injEq] at s1'
    rw [s2, s3, s1'.2, s4]
  have ctrl : ∀ nm ∈ mods, (h nm.2).ffc = .controllable →
      (h nm.2).kind.margin x 0 (h nm.2).kind.fuelRate c =
        x * (o.provBy nm.1 - o.absBy nm.1) - (h nm.2).kind.dues c (o.provBy nm.1) (o.absBy nm.1) := by
    intro nm hm hf
    have hd : Denotes h mods (nm.1, 0) nm.2 := by
      unfold Denotes
      rw [named_single hn hm hf]
      rfl
    obtain ⟨e, he, hem⟩ := elem _ _ hd
    obtain ⟨d, hz⟩ := zipped e he
    have hdl := deliver _ hz
    simp only [hem] at hdl
    have hda : Denotes h mods e.module nm.2 := by rw [hem]; exact hd
    have hbb := hbt _ _ hd
    have hact := hw1 e he nm.2 hda
    rcases win hm hf hact with ⟨p, t, hk, k1, k2, k3, -⟩ | ⟨s, hk, k1, k2⟩
    · exact responds_margin (w nm hm) (a1.possible nm hm) hdl (hresp _ hz _ _ _ hda k1) (hbb.1.trans hbb.2)
        (.inl ⟨p, t, hk, rfl, rfl, by linarith, k3⟩)
    · exact responds_margin (w nm hm) (a1.possible nm hm) hdl (hresp _ hz _ _ _ hda k1) (hbb.1.trans hbb.2)
        (.inr ⟨s, hk, rfl, rfl, k2, (N.genset nm hm s hk).2.2⟩)
  have notgrid : ∀ nm ∈ mods, (h nm.2).ffc ≠ .controllable → (h nm.2).kind.isGrid = false := by
    intro nm hm hf
    by_contra hc
    cases hk : (h nm.2).kind <;> simp [hk, Kind.isGrid] at hc
    exact hf (N.grid nm hm _ _ hk)
  -- the totals
  set D := (mods.map fun nm => (h nm.2).kind.demand c).sum with hDdef
  set A := (mods.map fun nm => (h nm.2).kind.harvest c).sum with hAdef
  set R := (mods.map fun nm => (h nm.2).kind.ifRen (o.provBy nm.1)).sum with hRdef
  set Bp := (mods.map fun nm => (h nm.2).kind.ifBal (o.provBy nm.1)).sum with hBpdef
  set Ba := (mods.map fun nm => (h nm.2).kind.ifBal (o.absBy nm.1)).sum with hBadef
  have hX : (mods.map fun nm => if (h nm.2).ffc = .controllable then o.provBy nm.1 - o.absBy nm.1 else 0).sum = xs.sum := by
    rw [← PriorityList.sum_filter_map mods (fun nm => decide ((h nm.2).ffc = .controllable)) _ (by
      intro nm _ hf
      rw [if_neg (by simpa using hf)])]
    rw [List.map_congr_left (g := fun nm => o.provBy nm.1 - o.absBy nm.1) (by
      intro nm hm
      rw [if_pos (by simpa using (List.mem_filter.mp hm).2)])]
    rw [fit.sum_eq hn (fun s => o.provBy s - o.absBy s)]
    have e1 : pl = (pl.zip xs).map Prod.fst := by rw [List.map_fst_zip]; exact P.len.ge
    have e2 : xs = (pl.zip xs).map Prod.snd := by rw [List.map_snd_zip]; exact P.len.le
    conv_lhs => rw [e1]
    conv_rhs => rw [e2]
    rw [List.map_map]
    congr 1
    apply List.map_congr_left
    intro p hp
    exact deliver p hp
  have hnet := f.net_load w hl live
  rw [← hDdef, ← hAdef] at hnet
  have htot : rem = D - A - xs.sum := by rw [P.total, hnet]
  have flow : xs.sum - D + R + Bp - Ba = 0 := by
    have : (mods.map fun nm => o.provBy nm.1 + -o.absBy nm.1).sum =
        (mods.map fun nm => (if (h nm.2).ffc = .controllable then o.provBy nm.1 - o.absBy nm.1 else 0) +
          -(h nm.2).kind.demand c + (h nm.2).kind.ifRen (o.provBy nm.1) + (h nm.2).kind.ifBal (o.provBy nm.1) +
          -(h nm.2).kind.ifBal (o.absBy nm.1)).sum := by
      congr 1
      apply List.map_congr_left
      intro nm hm
      by_cases hf : (h nm.2).ffc = .controllable
      · obtain ⟨z1, -, z3, z4⟩ := ctrl_zero (c := c) (w nm hm) hf (o.provBy nm.1)
        obtain ⟨-, -, -, z5⟩ := ctrl_zero (c := c) (w nm hm) hf (o.absBy nm.1)
        rw [if_pos hf, z1, z3, z4, z5]; ring
      · rw [if_neg hf]
        have := other_net (w nm hm) hf (a1.possible nm hm) (notgrid nm hm hf)
        linarith
    rw [sum_map_add, sum_map_neg, bal, sum_map_add, sum_map_add, sum_map_add, sum_map_add, sum_map_neg, sum_map_neg, hX] at this
    linarith
  -- signs
  have pos : ∀ nm ∈ mods, 0 ≤ (h nm.2).kind.demand c ∧ 0 ≤ (h nm.2).kind.ifRen (o.provBy nm.1) ∧
      (h nm.2).kind.ifRen (o.provBy nm.1) ≤ (h nm.2).kind.harvest c ∧ 0 ≤ (h nm.2).kind.ifBal (o.provBy nm.1) ∧
      0 ≤ (h nm.2).kind.ifBal (o.absBy nm.1) := by
    intro nm hm
    have hp := a1.possible nm hm
    cases hk : (h nm.2).kind <;> rw [hk] at hp <;> simp only [Kind.Possible] at hp <;>
      simp only [Kind.demand, Kind.ifRen, Kind.ifBal, Kind.harvest, abs_nonneg, le_refl, true_and, and_true, and_self]
    · exact ⟨hp.1, hp.2.1⟩
    · exact ⟨hp.1, hp.2.1⟩
  have sumNonneg : ∀ F : String × Nat → ℚ, (∀ nm ∈ mods, 0 ≤ F nm) → 0 ≤ (mods.map F).sum := by
    intro F hF
    apply List.sum_nonneg
    intro q hq
    obtain ⟨nm, hm, rfl⟩ := List.mem_map.mp hq
    exact hF nm hm
  have hD0 : 0 ≤ D := sumNonneg _ fun nm hm => (pos nm hm).1
  have hR0 : 0 ≤ R := sumNonneg _ fun nm hm => (pos nm hm).2.1
  have hRA : R ≤ A := List.sum_le_sum fun nm hm => (pos nm hm).2.2.1
  have hBp0 : 0 ≤ Bp := sumNonneg _ fun nm hm => (pos nm hm).2.2.2.1
  have hBa0 : 0 ≤ Ba := sumNonneg _ fun nm hm => (pos nm hm).2.2.2.2
  have NoMin : ∀ e ∈ pl, ∀ i lo hi, Denotes g.heap mods e.module i → (g.heap i).planWindow e.action = some (lo, hi) → lo ≤ 0 :=
    fun e he i lo hi hd hw => (hW e he i lo hi (hD.mp hd) hw).1
  have hXD : xs.sum ≤ D := by
    rcases le_or_gt 0 (netLoad g.heap mods) with h0 | h0
    · have := (P.merit.deficit NoMin h0).1
      linarith
    · have := (P.merit.surplus h0.le).2
      have h1 : xs.sum ≤ 0 := sum_nonpos_of this
      linarith
  have flexR : ∀ nm ∈ mods, (h nm.2).kind.ifRen 1 ≠ 0 ∨ (h nm.2).kind.ifBal 1 ≠ 0 → (g.heap nm.2).ffc = .flex := by
    intro nm hm hh
    rw [hff]
    cases w nm hm with
    | battery b h' => rw [h'.kind] at hh; simp [Kind.ifRen, Kind.ifBal] at hh
    | genset b h' => rw [h'.kind] at hh; simp [Kind.ifRen, Kind.ifBal] at hh
    | grid p t h' w => rw [h'.kind] at hh; simp [Kind.ifRen, Kind.ifBal] at hh
    | load t h' w => rw [h'.kind] at hh; simp [Kind.ifRen, Kind.ifBal] at hh
    | renewable t h' w => exact h'.ffc
    | balancing u h' => exact h'.ffc
  have zeroRen : ∀ nm ∈ mods, ∀ q, ((g.heap nm.2).ffc = .flex → q = 0) → (h nm.2).kind.ifRen q = 0 ∧ (h nm.2).kind.ifBal q = 0 := by
    intro nm hm q hq
    have := flexR nm hm
    cases hk : (h nm.2).kind <;> rw [hk] at this <;> simp [Kind.ifRen, Kind.ifBal] at this ⊢ <;> exact hq this
  have sumZero : ∀ F : String × Nat → ℚ, (∀ nm ∈ mods, F nm = 0) → (mods.map F).sum = 0 := by
    intro F hF
    rw [List.map_congr_left hF]
    simp
  have res : Ba = 0 ∧ (0 < Bp → A = R) := by
    rcases f.ok.flexible hid hn hsg hr with hfl | ⟨hfl, hus⟩
    · have r0 : R = 0 := sumZero _ fun nm hm => (zeroRen nm hm _ (hfl nm hm)).1
      have b0 : Bp = 0 := sumZero _ fun nm hm => (zeroRen nm hm _ (hfl nm hm)).2
      exact ⟨by linarith, fun h' => by linarith⟩
    · refine ⟨sumZero _ fun nm hm => (zeroRen nm hm _ (hfl nm hm)).2, fun hpos => ?_⟩
      have : ∃ nb ∈ mods, 0 < (h nb.2).kind.ifBal (o.provBy nb.1) := by
        by_contra hc
        have : Bp = 0 := sumZero _ fun nm hm => le_antisymm (not_lt.mp fun h1 => hc ⟨nm, hm, h1⟩) (pos nm hm).2.2.2.1
        linarith
      obtain ⟨nb, hmb, hpb⟩ := this
      have hkb : ∃ u, (h nb.2).kind = .balancing u := by
        cases hk : (h nb.2).kind <;> rw [hk] at hpb <;> simp [Kind.ifBal] at hpb
        exact ⟨_, rfl⟩
      obtain ⟨u, hku⟩ := hkb
      rw [hku] at hpb
      simp only [Kind.ifBal] at hpb
      obtain ⟨u', hku'⟩ := core_balancing (f.core nb hmb) (by rw [hku]; rfl)
      rw [hAdef, hRdef]
      congr 1
      apply List.map_congr_left
      intro np hmp
      cases hk : (h np.2).kind <;> simp only [Kind.harvest, Kind.ifRen]
      rename_i t
      have e := f.core np hmp
      rw [hk] at e
      obtain ⟨t', hk', hrows⟩ := core_ren_inv e
      rw [hus np hmp nb hmb t' u' hk' hku' hpb, hl np hmp, cell_of_rows hrows]
  obtain ⟨hBaz, hBpA⟩ := res
  have eachBa : ∀ nm ∈ mods, (h nm.2).kind.ifBal (o.absBy nm.1) = 0 := by
    intro nm hm
    refine le_antisymm ?_ (pos nm hm).2.2.2.2
    rw [← hBaz, hBadef]
    exact List.single_le_sum (by
      intro q hq
      obtain ⟨nm', hm', rfl⟩ := List.mem_map.mp hq
      exact (pos nm' hm').2.2.2.2) _ (List.mem_map.mpr ⟨nm, hm, rfl⟩)
  -- what is missed
  have gap : (mods.map fun nm => (h nm.2).kind.margin x 0 (h nm.2).kind.fuelRate c).sum =
      o.reward + (x * (A - R) + (L - x) * Bp) := by
    have : (mods.map fun nm => (h nm.2).kind.margin x 0 (h nm.2).kind.fuelRate c).sum =
        (mods.map fun nm => x * o.provBy nm.1 + -(x * o.absBy nm.1) + -(h nm.2).kind.dues c (o.provBy nm.1) (o.absBy nm.1) +
          x * (h nm.2).kind.harvest c + -(x * (h nm.2).kind.ifRen (o.provBy nm.1)) +
          (L - x) * (h nm.2).kind.ifBal (o.provBy nm.1)).sum := by
      congr 1
      apply List.map_congr_left
      intro nm hm
      by_cases hf : (h nm.2).ffc = .controllable
      · obtain ⟨-, z2, z3, z4⟩ := ctrl_zero (c := c) (w nm hm) hf (o.provBy nm.1)
        rw [ctrl nm hm hf, z2, z3, z4]; ring
      · have := other_margin (w nm hm) hf (a1.possible nm hm) x0 (notgrid nm hm hf)
          (fun u hu => (N.balancing nm hm u hu).1) (eachBa nm hm)
        linarith
    rw [this, sum_map_add, sum_map_add, sum_map_add, sum_map_add, sum_map_add, sum_map_neg, sum_map_neg, sum_map_neg,
      List.sum_map_mul_left, List.sum_map_mul_left, List.sum_map_mul_left, List.sum_map_mul_left, List.sum_map_mul_left, bal, rew]
    ring
  rw [gap]
  have hAR : A - R = Bp - rem := by linarith
  rcases hBp0.eq_or_lt with hz | hz
  · rw [← hz] at hAR ⊢
    rw [hAR]
    rcases lt_or_ge rem (-(1/10000)) with h1 | h1
    · rw [hx2 h1]
      linarith
    · have : x * (-rem) ≤ x * (1/10000) := mul_le_mul_of_nonneg_left (by linarith) x0
      linarith
  · have hAR0 : A - R = 0 := by linarith [hBpA hz]
    have hBr : Bp = rem := by linarith
    rw [hAR0, hBr]
    rcases lt_or_ge (1/10000) rem with h1 | h1
    · rw [hx1 h1]
      linarith
    · have : (L - x) * rem ≤ (L - x) * (1/10000) := mul_le_mul_of_nonneg_left h1 (by linarith)
      linarith

theorem OrderedByPrice.mono {n c' n' : Nat} (O : OrderedByPrice h mods pl L c n) (h1 : c ≤ c') (h2 : c' + n' ≤ c + n) :
    OrderedByPrice h mods pl L c' n' where
  running := O.running
  cheap j a b := O.cheap j (h1.trans a) (by omega)
  resale j a b := O.resale j (h1.trans a) (by omega)
  worth j a b := O.worth j (h1.trans a) (by omega)
  between j a b := O.between j (h1.trans a) (by omega)

/-- Prices at which nobody could have earned more in the planned runs, up to the tolerance. -/
theorem Follows.optimal_runs (f : Follows h mods none g) (w : ∀ nm ∈ mods, (h nm.2).WF) (hid : (mods.map Prod.snd).Nodup)
    (hn : (mods.map Prod.fst).Nodup) (hb : ∃ nm ∈ mods, (h nm.2).kind.isBalancing = true) (N : NothingToPlan h mods L)
    (hl : LockStep mods g c) (fit : Fits h mods pl) {os : List RunOut} (O : OrderedByPrice h mods pl L c os.length)
    (P : PlannedRuns mods pl g os g') :
    ∃ X : Nat → ℚ, (∀ j, c ≤ j → j < c + os.length → 0 ≤ X j ∧ X j ≤ L) ∧
      (mods.map fun nm => overSteps c os.length fun j => (h nm.2).kind.margin (X j) 0 (h nm.2).kind.fuelRate j).sum ≤
        (os.map RunOut.reward).sum + os.length * (L / 10000) := by
  induction P generalizing c with
  | nil g =>
    refine ⟨fun _ => 0, fun j h1 h2 => by simp only [List.length_nil] at h2; omega, ?_⟩
    simp [overSteps]
  | @cons g g₁ g' ctl rem xs o os plan run rest ih =>
    obtain ⟨x, x0, xL, hx⟩ := f.optimal_step w hid hn hb N hl fit (O.mono le_rfl (by simp)) plan run
    have hff : ∀ j, (g.heap j).ffc = (h j).ffc := fun j => (f.alike j).ffc
    have hs : Supplies h mods ctl := by
      intro nm hm hf
      have := plan.supplied nm hm ((hff nm.2).trans hf)
      rwa [modulesNamed_congr hff] at this
    obtain ⟨-, a2, -⟩ := f.account hid hn hl hs run
    obtain ⟨X, hX, hs⟩ := ih (f.run run) a2 (O.mono (by omega) (by simp only [List.length_cons]; omega))
    refine ⟨fun j => if j = c then x else X j, ?_, ?_⟩
    · intro j h1 h2
      simp only [List.length_cons] at h2
      by_cases hj : j = c
      · simp only [hj, if_true]; exact ⟨x0, xL⟩
      · simp only [hj, if_false]; exact hX j (by omega) (by omega)
    · have e : ∀ nm ∈ mods, (overSteps c (o :: os).length fun j =>
          (h nm.2).kind.margin (if j = c then x else X j) 0 (h nm.2).kind.fuelRate j) =
          (h nm.2).kind.margin x 0 (h nm.2).kind.fuelRate c +
            overSteps (c + 1) os.length fun j => (h nm.2).kind.margin (X j) 0 (h nm.2).kind.fuelRate j := by
        intro nm _
        rw [List.length_cons, overSteps_succ]
        simp only [if_true]
        congr 1
        apply overSteps_congr
        intro j h1 _
        rw [if_neg (by omega)]
      rw [List.map_congr_left e, sum_map_add]
      simp only [List.map_cons, List.sum_cons, List.length_cons]
      push_cast
      linarith

/-- The quotes of these prices. -/
def spotQuotes (h : Heap) (mods : List (String × Nat)) (X : Nat → ℚ) : Quotes where
  energy := X
  store _ _ := 0
  fuel name := (dictGet? mods name).elim 0 fun i => (h i).kind.fuelRate

theorem spot_fair {n : Nat} {X : Nat → ℚ} (hn : (mods.map Prod.fst).Nodup) (w : ∀ nm ∈ mods, (h nm.2).WF) (N : NothingToPlan h mods L)
    (hX : ∀ j, c ≤ j → j < c + n → 0 ≤ X j ∧ X j ≤ L) : (spotQuotes h mods X).Fair h mods c n := by
  refine ⟨?_, ?_⟩
  · intro nm hm u hu j h1 h2
    obtain ⟨n1, n2⟩ := N.balancing nm hm u hu
    obtain ⟨x0, xL⟩ := hX j h1 h2
    exact ⟨by show -u.overgenerationCost ≤ X j; linarith, by show X j ≤ u.lossLoadCost; linarith⟩
  · intro nm hm s hs p hp
    obtain ⟨n1, -, n3⟩ := N.genset nm hm s hs
    have e : (spotQuotes h mods X).fuel nm.1 = fuelPrice s.cost 1 := by
      simp only [spotQuotes, dictGet?_of_mem hn hm, Option.elim, hs, Kind.fuelRate]
    rw [e]
    rcases hp with rfl | ⟨h1, h2⟩
    · have wg := (w nm hm).genWF hs
      rw [n3 0 le_rfl (wg.min_nonneg.trans wg.min_le)]
    · rw [n3 p (by linarith) h2]

theorem spot_ceiling (hn : (mods.map Prod.fst).Nodup) (X : Nat → ℚ) {nm : String × Nat} (hm : nm ∈ mods) (now : Kind) (n : Nat) :
    (spotQuotes h mods X).ceiling nm.1 now (h nm.2).kind c n =
      overSteps c n fun j => (h nm.2).kind.margin (X j) 0 (h nm.2).kind.fuelRate j := by
  unfold Quotes.ceiling Kind.holding
  simp only [spotQuotes, dictGet?_of_mem hn hm, Option.elim, sub_self, max_self, overSteps_zero, neg_zero, zero_mul, zero_add,
    add_zero]

/-- No other controls earn more than the planned ones, up to the tolerance. -/
theorem Follows.optimal (f : Follows h mods none g) (w : ∀ nm ∈ mods, (h nm.2).WF) (hid : (mods.map Prod.snd).Nodup)
    (hn : (mods.map Prod.fst).Nodup) (hb : ∃ nm ∈ mods, (h nm.2).kind.isBalancing = true) (N : NothingToPlan h mods L)
    (hl : LockStep mods g c) (fit : Fits h mods pl) {os : List RunOut} (O : OrderedByPrice h mods pl L c os.length)
    (P : PlannedRuns mods pl g os g') {cs : List (List (String × Ctrl) × Bool)} {os' : List RunOut} {g'' : Microgrid}
    (hr : Runs g cs os' g'') (hs : ∀ cn ∈ cs, Supplies h mods cn.1) (hlen : os'.length = os.length) :
    (os'.map RunOut.reward).sum ≤ (os.map RunOut.reward).sum + os.length * (L / 10000) := by
  obtain ⟨X, hX, hsum⟩ := f.optimal_runs w hid hn hb N hl fit O P
  have := f.ceiling w hid hn hb hr hs hl (spotQuotes h mods X) (spot_fair hn w N (by rw [hlen]; exact hX))
  rw [List.map_congr_left fun nm hm => spot_ceiling hn X hm _ _, hlen] at this
  exact this.trans hsum

end

end Pymgrid
