import Verif.Lemmas.UnitGrid
import Verif.Lemmas.CurrencyBuild

set_option autoImplicit false

/-! Lemmas for C92: construction of modules and microgrids in two units. -/

namespace Pymgrid

section
variable {u : ℚ}

/-! ### Modules -/

theorem battery_scaled (hu : 0 < u) {minC maxC maxCh maxDis eff cost : ℚ} {c s : Option ℚ} {i : Nat} {r : Bool} {m : Module}
    (good : GoodBattery minC maxC maxCh maxDis m) (hp : 0 < maxCh + maxDis)
    (h : Module.mkBattery minC maxC maxCh maxDis eff cost none c s i r = .ok m) :
    ∃ m', Module.mkBattery (u * minC) (u * maxC) (u * maxCh) (u * maxDis) eff (cost / u) none (c.map (u * ·)) s i r =
      .ok m' ∧ ModScaled u false true m m' ∧ GoodBattery (u * minC) (u * maxC) (u * maxCh) (u * maxDis) m' := by
  obtain ⟨b, hk, he, he1, hc, h1, h2, h3, h4, h5, h6, h7, -, h9, -, -⟩ := Module.mkBattery_inv h
  obtain ⟨q, hq, hlo, hhi⟩ := good.start
  have hch : b.charge = q := by simpa [Module.charge?, hk] using hq
  have hv : b.Valid := ⟨by rw [h5]; exact he, by rw [h5]; exact he1, by rw [h3]; exact good.maxCh,
      by rw [h4]; exact good.maxDis, by rw [h2]; exact hc, h7, by rw [h1, hch]; exact hlo,
      by rw [h2, hch]; exact hhi, by rw [h9, h2]⟩
  unfold Module.mkBattery Battery.init at h ⊢
  rw [if_neg (not_not.mpr ⟨he, he1⟩), if_neg hc] at h
  rw [if_neg (not_not.mpr ⟨he, he1⟩), if_neg (mul_ne_zero hu.ne' hc)]
  have hi : Battery.initBattery (u * maxC) (c.map (u * ·)) s = (Battery.initBattery maxC c s).map fun x => (u * x.1, x.2) := by
    unfold Battery.initBattery
    cases c with
    | some c =>
      simp only [Option.map_some]
      rw [if_neg hc, if_neg (mul_ne_zero hu.ne' hc), mul_div_mul_left _ _ hu.ne']
      rfl
    | none =>
      cases s with
      | none => rfl
      | some s =>
        simp only [Option.map_none, Except.map, Except.ok.injEq, Prod.mk.injEq, and_true]
        ring
  rw [hi]
  cases hx : Battery.initBattery maxC c s with
  | error e => rw [hx] at h; simp at h
  | ok x =>
    rw [hx] at h
    simp only [Except.ok.injEq] at h
    subst h
    simp only [Kind.battery.injEq] at hk
    subst hk
    simp only at hch
    simp only [Except.map]
    refine ⟨_, rfl, ⟨rfl, rfl, rfl, ?_, ?_, rfl, rfl, rfl, by simp, ?_⟩, ?_⟩
    · simp only [Option.map_some, Option.some.injEq, Space.inUnit, rowIn, List.mapIdx_cons, List.mapIdx_nil, actUnit,
        Battery.minAct, Battery.maxAct, Bool.false_eq_true, false_and, if_false]
      congr 2
      · ring
      · ring
    · intro _ sp hs
      simp only [Option.some.injEq] at hs
      subst hs
      refine ⟨?_, by simp⟩
      intro j l h' e1 e2
      match j with
      | 0 =>
        simp only [List.getElem?_cons_zero, Option.some.injEq, Battery.minAct, Battery.maxAct] at e1 e2
        subst e1 e2
        intro e
        have a1 : 0 ≤ maxDis / eff := div_nonneg good.maxDis he.le
        have a2 : 0 ≤ maxCh * eff := mul_nonneg good.maxCh he.le
        have e' : maxCh * eff + maxDis / eff = 0 := by rw [← e]; ring
        have z1 : maxCh * eff = 0 := by linarith
        have z2 : maxDis / eff = 0 := by linarith
        rcases mul_eq_zero.mp z1 with z | z
        · rcases div_eq_zero_iff.mp z2 with w | w
          · linarith
          · exact he.ne' w
        · exact he.ne' z
      | j + 1 => simp at e1
    · have hb := KindScaled.battery (u := u) _ hv
      have em : u * minC / (u * maxC) = minC / maxC := mul_div_mul_left _ _ hu.ne'
      simpa only [Battery.inUnit, em] using hb
    · refine ⟨mul_nonneg hu.le good.maxCh, mul_nonneg hu.le good.maxDis, u * x.1, rfl, ?_, ?_⟩
      · rw [hch]; exact mul_le_mul_of_nonneg_left hlo hu.le
      · rw [hch]; exact mul_le_mul_of_nonneg_left hhi hu.le

theorem genset_scaled (hu : 0 < u) {rmin rmax : ℚ} {cost : GensetCost} {c1 c2 : ℚ} {S W : Nat} {ab iu : Bool} {i : Nat}
    {r : Bool} {m : Module} (hp : 0 < rmax) (h : Module.mkGenset rmin rmax cost c1 c2 S W ab iu i r = .ok m) :
    ∃ m', Module.mkGenset (u * rmin) (u * rmax) (cost.inUnit u) (c1 / u) c2 S W ab iu i r = .ok m' ∧
      ModScaled u true true m m' := by
  unfold Module.mkGenset at *
  have key : Genset.init (u * rmin) (u * rmax) (cost.inUnit u) (c1 / u) c2 S W ab iu =
      (Genset.init rmin rmax cost c1 c2 S W ab iu).map fun g =>
        g.withUnit (u * rmin) (u * rmax) (cost.inUnit u) (c1 / u) c2 := by
    unfold Genset.init
    simp only [gt_iff_lt, mul_lt_mul_iff_right₀ hu]
    split
    · rfl
    · exact resetTimes_withUnit ⟨rmin, rmax, cost, c1, c2, S, W, ab, iu, if iu then 1 else 0, if iu then 1 else 0, 0, 0⟩
        (u * rmin) (u * rmax) (cost.inUnit u) (c1 / u) c2
  rw [key]
  cases hg : Genset.init rmin rmax cost c1 c2 S W ab iu with
  | error e => rw [hg] at h; simp at h
  | ok g =>
    rw [hg] at h
    simp only [Except.ok.injEq] at h
    subst h
    have hc : g = g.withUnit rmin rmax cost c1 c2 := by
      unfold Genset.init at hg
      split at hg
      · simp at hg
      · have := resetTimes_withUnit ⟨rmin, rmax, cost, c1, c2, S, W, ab, iu, if iu then 1 else 0, if iu then 1 else 0, 0, 0⟩
          rmin rmax cost c1 c2
        unfold Genset.withUnit at this
        simp only at this hg
        rw [hg] at this
        simp only [Except.map, Except.ok.injEq] at this
        exact this
    have e1 : g.runMax = rmax := by rw [hc]; rfl
    have e2 : g.inUnit u = g.withUnit (u * rmin) (u * rmax) (cost.inUnit u) (c1 / u) c2 := by
      rw [hc]; rfl
    refine ⟨_, rfl, rfl, rfl, rfl, ?_, ?_, rfl, rfl, rfl, by simp, ?_⟩
    · simp only [Option.map_some, Option.some.injEq, Space.inUnit, rowIn, actUnit, Genset.minAct, Genset.maxAct,
        Genset.withUnit, e1]
      simp
    · intro _ sp hs
      simp only [Option.some.injEq] at hs
      subst hs
      refine ⟨?_, fun _ => ⟨rfl, rfl⟩⟩
      intro j l h' a1 a2
      match j with
      | 0 =>
        simp only [Genset.minAct, Genset.maxAct, List.getElem?_cons_zero, Option.some.injEq] at a1 a2
        subst a1 a2
        norm_num
      | 1 =>
        simp only [Genset.minAct, Genset.maxAct, List.getElem?_cons_succ, List.getElem?_cons_zero, Option.some.injEq] at a1 a2
        subst a1 a2
        rw [e1]
        exact hp.ne
      | j + 2 => simp [Genset.minAct] at a1
    · have hx := KindScaled.genset (u := u) g { low := g.minObs, high := g.maxObs }
      rw [e2] at hx
      exact hx

theorem rowIn_append {r : List ℚ} (h : r.length = 3) :
    rowIn (gridUnit u) (r ++ [1]) = rowIn (gridUnit u) r ++ [1] := by
  unfold rowIn
  rw [List.mapIdx_append]
  simp [h, gridUnit]

theorem gridRows_scaled {ncols : Nat} {rows : List (List ℚ)} (hrect : ∀ r ∈ rows, r.length = ncols)
    (h34 : ncols = 3 ∨ ncols = 4) :
    gridRows ncols (rows.map (rowIn (gridUnit u))) = (gridRows ncols rows).map (rowIn (gridUnit u)) := by
  unfold gridRows
  split
  · rfl
  · rw [List.map_map, List.map_map]
    apply List.map_congr_left
    intro r hr
    exact (rowIn_append (by rw [hrect r hr]; omega)).symm

theorem foldl_scaled {σ : Nat → ℚ} (hσ : ∀ j, 0 < σ j) {op : ℚ → ℚ → ℚ}
    (hop : ∀ u a b, 0 < u → op (u * a) (u * b) = u * op a b) (rs : List (List ℚ)) (r : List ℚ) :
    (rs.map (rowIn σ)).foldl (List.zipWith op) (rowIn σ r) = rowIn σ (rs.foldl (List.zipWith op) r) := by
  induction rs generalizing r with
  | nil => rfl
  | cons x rs ih =>
    rw [List.map_cons, List.foldl_cons, List.foldl_cons, ← ih]
    congr 1
    simp only [rowIn_eq]
    exact zipWith_scaleBy hop _ hσ _ _

theorem rowIn_nonneg {σ : Nat → ℚ} (hσ : ∀ j, 0 < σ j) {r : List ℚ} (h : ∀ x ∈ r, 0 ≤ x) : ∀ x ∈ rowIn σ r, 0 ≤ x := by
  intro x hx
  obtain ⟨j, hj⟩ := List.mem_iff_getElem?.mp hx
  rw [rowIn_get] at hj
  cases e : r[j]? with
  | none => rw [e] at hj; simp at hj
  | some y =>
    rw [e] at hj
    simp only [Option.map_some, Option.some.injEq] at hj
    rw [← hj]
    exact mul_nonneg (hσ j).le (h y (List.mem_of_getElem? e))

/-- The series of a new module. -/
theorem create_scaled {σ : Nat → ℚ} (hσ : ∀ j, 0 < σ j) {rows : List (List ℚ)} {comps : List String} {mn mx : List ℚ}
    {param param' : FKind} {horizon i : Nat} {fs : Int} (hl : mn.length = comps.length) (hbox : Within mn mx mn)
    (hin : ∀ s ∈ rows, Within mn mx s) (hf : UnitForecast σ param param') {t : TS}
    (h : TS.create rows comps mn mx param horizon i fs = .ok t) :
    ∃ t', TS.create (rows.map (rowIn σ)) comps (rowIn σ mn) (rowIn σ mx) param' horizon i fs = .ok t' ∧
      TSScaled σ t t' ∧ t.Shaped t.cur ∧ t.comps = comps := by
  have scale : ∀ {s : List ℚ}, Within mn mx s → Within (rowIn σ mn) (rowIn σ mx) (rowIn σ s) := by
    intro s w
    simp only [rowIn_eq]
    exact within_scaleBy hσ w
  have hv := TS.blank_valid (comps := comps) param horizon fs hl hbox hin
  have hv' := TS.blank_valid (comps := comps) (rows := rows.map (rowIn σ)) param' horizon fs
    (by rw [rowIn_length]; exact hl) (scale hbox) (by
      intro s hs
      obtain ⟨s', hs', rfl⟩ := List.mem_map.mp hs
      exact scale (hin s' hs'))
  have hb : TSScaled σ (TS.blank rows comps mn mx param horizon fs)
      (TS.blank (rows.map (rowIn σ)) comps (rowIn σ mn) (rowIn σ mx) param' horizon fs) := by
    refine ⟨rfl, rfl, rfl, rfl, ?_, ?_, ?_, rfl, rfl, hv, hv'⟩
    · simp [TS.blank]
    · simp [TS.blank, hf.isSome]
    · simp only [TS.blank, hf.isSome]
      exact hf.get _ _ _ _ _
  obtain ⟨hr1, hr2⟩ := hb.refresh hσ i
  rw [create_eq] at h ⊢
  have hsh : ((TS.blank rows comps mn mx param horizon fs).refresh i).2 = .ok () →
      ((TS.blank rows comps mn mx param horizon fs).refresh i).1.Shaped
        ((TS.blank rows comps mn mx param horizon fs).refresh i).1.cur ∧
      ((TS.blank rows comps mn mx param horizon fs).refresh i).1.comps = comps := by
    rcases hv.refresh i with ⟨f, e1, e2⟩ | ⟨e, e1, e2⟩
    · intro _; rw [e2]; exact ⟨hv.forecast_shaped e1, rfl⟩
    · rw [e2]; simp
  cases e1 : (TS.blank rows comps mn mx param horizon fs).refresh i with
  | mk t₁ x =>
  cases e1' : (TS.blank (rows.map (rowIn σ)) comps (rowIn σ mn) (rowIn σ mx) param' horizon fs).refresh i with
  | mk t' x' =>
  rw [e1] at h hsh
  rw [e1, e1'] at hr1 hr2
  simp only at hr1 hr2 hsh
  subst hr2
  cases x' with
  | error e => simp at h
  | ok _ =>
    simp only [Except.ok.injEq] at h ⊢
    subst h
    exact ⟨_, rfl, hr1, (hsh rfl).1, (hsh rfl).2⟩

theorem grid_scaled (hu : 0 < u) {mi me cc : ℚ} {ncols : Nat} {rows : List (List ℚ)} {param param' : FKind}
    {horizon i : Nat} {fs : Int} {r : Bool} {m : Module} (hp : 0 < mi + me) (hrect : ∀ r ∈ rows, r.length = ncols)
    (hf : UnitForecast (gridUnit u) param param') (hm : Module.mkGrid mi me ncols rows param horizon i fs cc r = .ok m) :
    ∃ m', Module.mkGrid (u * mi) (u * me) ncols (rows.map (rowIn (gridUnit u))) param' horizon i fs cc r = .ok m' ∧
      ModScaled u false true m m' := by
  unfold Module.mkGrid at *
  split at hm
  · simp at hm
  rename_i rows' hc
  obtain ⟨hmi, hme, h34, hpos, h4, rfl⟩ := (gridCheckParams_iff hrect).mp hc
  have hspec := gridRows_spec hrect h34 hpos h4
  have hc' : gridCheckParams (u * mi) (u * me) ncols (rows.map (rowIn (gridUnit u))) =
      .ok ((gridRows ncols rows).map (rowIn (gridUnit u))) := by
    rw [gridCheckParams_iff (by
      intro r hr
      obtain ⟨r', hr', rfl⟩ := List.mem_map.mp hr
      rw [rowIn_length, hrect r' hr'])]
    refine ⟨mul_nonneg hu.le hmi, mul_nonneg hu.le hme, h34, ?_, ?_, (gridRows_scaled hrect h34).symm⟩
    · intro r hr
      obtain ⟨r', hr', rfl⟩ := List.mem_map.mp hr
      exact rowIn_nonneg (gridUnit_pos hu) (hpos r' hr')
    · intro h r hr
      obtain ⟨r', hr', rfl⟩ := List.mem_map.mp hr
      rw [rowIn_get]
      rcases h4 h r' hr' with e | e <;> simp [e, gridUnit]
  rw [hc']
  simp only
  cases hrows : gridRows ncols rows with
  | nil => rw [hrows] at hm; simp [colFold] at hm
  | cons r₀ rs =>
    rw [hrows] at hm
    simp only [colFold, List.map_cons] at hm ⊢
    rw [foldl_scaled (gridUnit_pos hu) min_scale, foldl_scaled (gridUnit_pos hu) max_scale]
    rw [hrows] at hspec
    have hl₀ : r₀.length = 4 := (hspec r₀ (by simp)).1
    obtain ⟨l1, l2, hw⟩ := foldl_zipWith_bounds rs r₀ (fun s hs => by rw [hl₀]; exact (hspec s (by simp [hs])).1)
    generalize rs.foldl (List.zipWith min) r₀ = mn at *
    generalize rs.foldl (List.zipWith max) r₀ = mx at *
    have hin : ∀ s ∈ r₀ :: rs, Within mn mx s := fun s hs => hw s (by simpa using hs)
    have hbox : Within mn mx mn := by
      have w := hin r₀ (by simp)
      refine ⟨rfl, by rw [l1, l2], ?_⟩
      intro j l h v e1 e2 e3
      rw [e1] at e3
      simp only [Option.some.injEq] at e3
      subst e3
      have hj : j < r₀.length := by
        have := (List.getElem?_eq_some_iff.mp e1).1
        rwa [l1] at this
      have := w.2.2 j l h r₀[j] e1 e2 (List.getElem?_eq_getElem hj)
      exact ⟨le_rfl, this.1.trans this.2⟩
    cases ht : TS.create (r₀ :: rs) gridComps mn mx param horizon i fs with
    | error e => rw [ht] at hm; simp at hm
    | ok t =>
      rw [ht] at hm
      simp only [Except.ok.injEq] at hm
      subst hm
      obtain ⟨t', e, hts, hsh, hcomps⟩ := create_scaled (gridUnit_pos hu) (by rw [l1, hl₀]; rfl) hbox hin hf ht
      rw [List.map_cons] at e
      rw [e]
      refine ⟨_, rfl, rfl, rfl, rfl, ?_, ?_, rfl, rfl, rfl, by simp,
        .grid ⟨mi, me, cc⟩ t t' hts hsh (by rw [hcomps]; rfl)⟩
      · simp only [Option.map_some, Option.some.injEq, Space.inUnit, rowIn, List.mapIdx_cons, List.mapIdx_nil, actUnit,
          Bool.false_eq_true, false_and, if_false]
        congr 2
        ring
      · intro _ sp hs
        simp only [Option.some.injEq] at hs
        subst hs
        refine ⟨?_, by simp⟩
        intro j l h' e1 e2
        match j with
        | 0 =>
          simp only [List.getElem?_cons_zero, Option.some.injEq] at e1 e2
          subst e1 e2
          intro e
          linarith
        | j + 1 => simp at e1

theorem signCheck_scaled (hu : 0 < u) (b : Bool) (xs : List ℚ) :
    signCheck b (xs.map (u * ·)) = (signCheck b xs).map (List.map (u * ·)) := by
  unfold signCheck
  have h1 : (∀ x ∈ xs.map (u * ·), x ≤ 0) ↔ ∀ x ∈ xs, x ≤ 0 := by
    simp only [List.mem_map, forall_exists_index, and_imp, forall_apply_eq_imp_iff₂]
    exact ⟨fun h x hx => by have := h x hx; exact nonpos_of_mul_nonpos_right this hu, fun h x hx => mul_nonpos_of_nonneg_of_nonpos hu.le (h x hx)⟩
  have h2 : (∀ x ∈ xs.map (u * ·), 0 ≤ x) ↔ ∀ x ∈ xs, 0 ≤ x := by
    simp only [List.mem_map, forall_exists_index, and_imp, forall_apply_eq_imp_iff₂]
    exact ⟨fun h x hx => by have := h x hx; exact nonneg_of_mul_nonneg_right this hu, fun h x hx => mul_nonneg hu.le (h x hx)⟩
  simp only [h1, h2]
  split
  · rfl
  · cases b <;> simp [Except.map, List.map_map, Function.comp_def, abs_mul, abs_of_pos hu]

theorem getBounds_scaled (hu : 0 < u) (xs : List ℚ) :
    getBounds (xs.map (u * ·)) = (getBounds xs).map fun x => (u * x.1, u * x.2) := by
  have fold : ∀ {op : ℚ → ℚ → ℚ} (_ : ∀ u a b, 0 < u → op (u * a) (u * b) = u * op a b) (l : List ℚ) (x : ℚ),
      (l.map (u * ·)).foldl op (u * x) = u * l.foldl op x := by
    intro op hop l
    induction l with
    | nil => intro x; rfl
    | cons y l ih => intro x; rw [List.map_cons, List.foldl_cons, List.foldl_cons, hop _ _ _ hu, ih]
  cases xs with
  | nil => rfl
  | cons x xs =>
    unfold getBounds
    simp only [List.map_cons, listMin, listMax, fold min_scale, fold max_scale]
    generalize xs.foldl min x = mn
    generalize xs.foldl max x = mx
    have e1 : u * mn > 0 ↔ mn > 0 := mul_pos_iff_of_pos_left hu
    have e2 : u * mx < 0 ↔ mx < 0 := by
      constructor
      · intro h; by_contra hn; exact absurd (mul_nonneg hu.le (not_lt.mp hn)) (not_le.mpr h)
      · exact mul_neg_of_pos_of_neg hu
    simp only [e1, e2]
    split
    · simp [Except.map]
    · split <;> simp [Except.map]

theorem rowIn_single (x : ℚ) : rowIn (fun _ => u) [x] = [u * x] := by simp [rowIn]

/-- What loads and renewables have in common. -/
theorem column_scaled (hu : 0 < u) {xs : List ℚ} {name : String} {param param' : FKind} {horizon i : Nat} {fs : Int}
    {mn mx : ℚ} (hf : UnitForecast (fun _ => u) param param') (hb : getBounds xs = .ok (mn, mx)) {t : TS}
    (h : TS.create (xs.map fun x => [x]) [name] [mn] [mx] param horizon i fs = .ok t) :
    ∃ t', TS.create ((xs.map (u * ·)).map fun x => [x]) [name] [u * mn] [u * mx] param' horizon i fs = .ok t' ∧
      TSScaled (fun _ => u) t t' ∧ t.Shaped t.cur := by
  obtain ⟨-, hb1, hb2, hb3, -⟩ := getBounds_spec hb
  have one : ∀ {y : ℚ}, mn ≤ y → y ≤ mx → Within [mn] [mx] [y] := by
    intro y h1 h2
    refine ⟨rfl, rfl, ?_⟩
    intro j l h v e1 e2 e3
    match j with
    | 0 =>
      simp only [List.getElem?_cons_zero, Option.some.injEq] at e1 e2 e3
      subst e1 e2 e3
      exact ⟨h1, h2⟩
    | j + 1 => simp at e1
  obtain ⟨t', e, h1, h2, -⟩ := create_scaled (σ := fun _ => u) (fun _ => hu) (by simp) (one le_rfl (hb2.trans hb3)) (by
    intro s hs
    obtain ⟨x, hx, rfl⟩ := List.mem_map.mp hs
    exact one (hb1 x hx).1 (hb1 x hx).2) hf h
  rw [rowIn_single, rowIn_single] at e
  refine ⟨t', ?_, h1, h2⟩
  rw [← e, List.map_map, List.map_map]
  congr 1

theorem load_scaled (hu : 0 < u) {xs : List ℚ} {param param' : FKind} {horizon i : Nat} {fs : Int} {r : Bool} {m : Module}
    (hf : UnitForecast (fun _ => u) param param') (h : Module.mkLoad xs param horizon i fs r = .ok m) :
    ∃ m', Module.mkLoad (xs.map (u * ·)) param' horizon i fs r = .ok m' ∧ ModScaled u false true m m' := by
  unfold Module.mkLoad at *
  rw [signCheck_scaled hu]
  cases hs : signCheck false xs with
  | error e => rw [hs] at h; simp at h
  | ok ys =>
    rw [hs] at h
    simp only [Except.map] at h ⊢
    rw [getBounds_scaled hu]
    cases hb : getBounds ys with
    | error e => rw [hb] at h; simp at h
    | ok x =>
      obtain ⟨mn, mx⟩ := x
      rw [hb] at h
      simp only [Except.map] at h ⊢
      cases ht : TS.create (ys.map fun x => [x]) ["load"] [mn] [mx] param horizon i fs with
      | error e => rw [ht] at h; simp at h
      | ok t =>
        rw [ht] at h
        simp only [Except.ok.injEq] at h
        subst h
        obtain ⟨t', e, h1, h2⟩ := column_scaled hu hf hb ht
        rw [e]
        refine ⟨_, rfl, rfl, rfl, rfl, rfl, ?_, rfl, rfl, rfl, by simp, .load t t' h1 h2⟩
        intro _ sp hs
        simp only [Option.some.injEq] at hs
        subst hs
        exact ⟨fun j l h' e1 => by simp at e1, by simp⟩

theorem renewable_scaled (hu : 0 < u) {xs : List ℚ} {param param' : FKind} {horizon i : Nat} {fs : Int} {r : Bool}
    {m : Module} (hf : UnitForecast (fun _ => u) param param') (h : Module.mkRenewable xs param horizon i fs r = .ok m) :
    ∃ m', Module.mkRenewable (xs.map (u * ·)) param' horizon i fs r = .ok m' ∧ ModScaled u false false m m' := by
  unfold Module.mkRenewable at *
  rw [signCheck_scaled hu]
  cases hs : signCheck true xs with
  | error e => rw [hs] at h; simp at h
  | ok ys =>
    rw [hs] at h
    simp only [Except.map] at h ⊢
    rw [getBounds_scaled hu]
    cases hb : getBounds ys with
    | error e => rw [hb] at h; simp at h
    | ok x =>
      obtain ⟨mn, mx⟩ := x
      rw [hb] at h
      simp only [Except.map] at h ⊢
      cases ht : TS.create (ys.map fun x => [x]) ["renewable"] [mn] [mx] param horizon i fs with
      | error e => rw [ht] at h; simp at h
      | ok t =>
        rw [ht] at h
        simp only [Except.ok.injEq] at h
        subst h
        obtain ⟨t', e, h1, h2⟩ := column_scaled hu hf hb ht
        rw [e]
        refine ⟨_, rfl, rfl, rfl, rfl, ?_, by simp, rfl, rfl, rfl, by simp, .renewable t t' h1 h2⟩
        simp [Space.inUnit, rowIn, actUnit]

theorem ModScaled.narrow {gen wide wide' : Bool} {m m' : Module} (h : ModScaled u gen wide m m')
    (hw : wide' = true → wide = true) : ModScaled u gen wide' m m' :=
  ⟨h.raiseErrors, h.initialStep, h.currentStep, h.actSpace, fun e => h.wide (hw e), h.provName, h.absName, h.ffc, h.ctrl,
    h.kind⟩

theorem ModScaled.isGenset {gen wide : Bool} {m m' : Module} (h : ModScaled u gen wide m m') : m.isGenset = gen := by
  have hkind := h.kind
  unfold Module.isGenset
  generalize m.kind = a at hkind ⊢
  generalize m'.kind = b at hkind
  generalize m.obsSpace = s at hkind
  generalize m'.obsSpace = s' at hkind
  cases hkind <;> rfl

theorem Rescaled.modScaled (hu : 0 < u) {m m' : Module} (h : Rescaled u m m') :
    ModScaled u m.isGenset (decide (m.ffc = .controllable)) m m' ∧ LibraryModule m ∧ LibraryModule m' := by
  induction h with
  | battery good hp h h' =>
    obtain ⟨x, e, hx, hg⟩ := battery_scaled hu good hp h
    rw [h'] at e
    injection e with e
    subst e
    rw [hx.isGenset]
    exact ⟨hx.narrow fun _ => rfl, .battery h good, .battery h' hg⟩
  | genset h0 hp h h' =>
    obtain ⟨x, e, hx⟩ := genset_scaled hu hp h
    rw [h'] at e
    injection e with e
    subst e
    rw [hx.isGenset]
    exact ⟨hx.narrow fun _ => rfl, .genset h h0, .genset h' (mul_nonneg hu.le h0)⟩
  | grid hp hrect hf hw hw' h h' =>
    obtain ⟨x, e, hx⟩ := grid_scaled hu hp hrect hf h
    rw [h'] at e
    injection e with e
    subst e
    rw [hx.isGenset]
    refine ⟨hx.narrow fun _ => rfl, .series (.grid hrect h) hw, .series (.grid ?_ h') hw'⟩
    intro r hr
    obtain ⟨r', hr', rfl⟩ := List.mem_map.mp hr
    rw [rowIn_length, hrect r' hr']
  | load hf hw hw' h h' =>
    obtain ⟨x, e, hx⟩ := load_scaled hu hf h
    rw [h'] at e
    injection e with e
    subst e
    rw [hx.isGenset]
    exact ⟨hx.narrow fun _ => rfl, .series (.load h) hw, .series (.load h') hw'⟩
  | @renewable _ _ _ _ _ _ _ m m' hf hw hw' h h' =>
    obtain ⟨x, e, hx⟩ := renewable_scaled hu hf h
    rw [h'] at e
    injection e with e
    subst e
    rw [hx.isGenset]
    refine ⟨hx.narrow ?_, .series (.renewable h) hw, .series (.renewable h') hw'⟩
    have : m.ffc = .flex := by
      unfold Module.mkRenewable at h
      repeat' split at h
      all_goals first | (simp at h; done) | skip
      simp only [Except.ok.injEq] at h
      subst h
      rfl
    rw [this]
    simp
  | balancing r i hl ho =>
    refine ⟨⟨rfl, rfl, rfl, rfl, ?_, rfl, rfl, rfl, by simp [Module.mkBalancing], .balancing _ _⟩, .balancing hl ho,
      .balancing (div_nonneg hl hu.le) (div_nonneg ho hu.le)⟩
    intro _ s hs
    simp [Module.mkBalancing] at hs
  | @flexGrid m m' p t h hk ih =>
    obtain ⟨hm, l1, l2⟩ := ih
    have hk' : ∃ p' t', m'.kind = .grid p' t' := by
      have hkind := hm.kind
      generalize m.isGenset = gg at hkind
      rw [hk] at hkind
      generalize m'.kind = b at hkind ⊢
      generalize m.obsSpace = s at hkind
      generalize m'.obsSpace = s' at hkind
      cases hkind
      exact ⟨_, _, rfl⟩
    obtain ⟨p', t', hk'⟩ := hk'
    refine ⟨⟨hm.raiseErrors, hm.initialStep, hm.currentStep, hm.actSpace, by simp, hm.provName, hm.absName, rfl, ?_, hm.kind⟩,
      .flexGrid l1 hk, .flexGrid l2 hk'⟩
    intro b hb
    simp only at hb
    rw [hk] at hb
    cases hb

/-! ### Microgrids -/

theorem ModScaled.finalStep {gen wide : Bool} {m m' : Module} (h : ModScaled u gen wide m m') :
    m'.finalStep? = m.finalStep? := by
  have := h.kind
  unfold Module.finalStep?
  generalize m.kind = a at this ⊢
  generalize m'.kind = b at this ⊢
  generalize m.obsSpace = s at this
  generalize m'.obsSpace = s' at this
  cases this with
  | grid p t t' ht hs => simp [ht.finalStep]
  | load t t' ht hs => simp [ht.finalStep]
  | renewable t t' ht hs => simp [ht.finalStep]
  | _ => rfl

theorem build_scaled {gen wide : Nat → Bool} {h h' : Heap} {mods : List (String × Nat)} (t : ∀ nm ∈ mods, ModScaled u (gen nm.2) (wide nm.2) (h nm.2) (h' nm.2)) :
    Container.build h' mods = Container.build h mods := by
  unfold Container.build
  generalize Container.empty = c
  induction mods generalizing c with
  | nil => rfl
  | cons nm mods ih =>
    have hm := t nm (by simp)
    have e : Container.add h' c nm = Container.add h c nm := by
      unfold Container.add Module.ss
      simp only [hm.ffc, hm.isSource, hm.isSink]
    rw [List.foldl_cons, List.foldl_cons, e]
    exact ih (fun x hx => t x (by simp [hx])) _

theorem grid_create_scaled {gs : String → Bool} {gen wide : Nat → Bool} {h h' : Heap} {mods : List (String × Nat)}
    (hn : ∀ nm ∈ mods, (h nm.2).ffc = .controllable → gen nm.2 = gs nm.1 ∧ wide nm.2 = true)
    (t : ∀ nm ∈ mods, ModScaled u (gen nm.2) (wide nm.2) (h nm.2) (h' nm.2))
    {sh sh' : Option Shaper} (hs : UnitShaper u sh sh')
    {tr : Option (Nat → Nat → Option Nat → Except Err (Nat × Nat))} {g : Microgrid}
    (hc : Microgrid.create h mods sh tr = .ok g) :
    ∃ g', Microgrid.create h' mods sh' tr = .ok g' ∧ ScaledGrid u gs gen wide g g' := by
  have hb := build_scaled t
  have full : ∀ i ∈ (Container.build h mods).fullList, ModScaled u (gen i) (wide i) (h i) (h' i) := by
    intro i hi
    obtain ⟨nm, hm, rfl⟩ := List.mem_map.mp ((Container.fullList_perm h mods).mem_iff.mp hi)
    exact t nm hm
  have nms : ∀ x ∈ (Container.build h mods).levelDict .controllable, ∀ i ∈ x.2, gen i = gs x.1 ∧ wide i = true := by
    intro x hx i hi
    obtain ⟨hm, hf⟩ := Container.mem_level (toTuples_mem hx hi)
    exact hn (x.1, i) hm hf
  have check : ∀ (i0 : Nat) (f0 : Option Nat),
      Microgrid.checkTrajectory { heap := h, cont := Container.build h mods, initialStep := i0, finalStep := f0, shaper := sh } tr = .ok g →
      ∃ g', Microgrid.checkTrajectory { heap := h', cont := Container.build h mods, initialStep := i0, finalStep := f0, shaper := sh' } tr = .ok g' ∧
        ScaledGrid u gs gen wide g g' := by
    intro i0 f0 hg
    unfold Microgrid.checkTrajectory at *
    cases tr with
    | none =>
      simp only [Except.ok.injEq] at hg ⊢
      subst hg
      exact ⟨_, rfl, nms, full, rfl, rfl, rfl, hs, rfl, rfl⟩
    | some f =>
      simp only at hg ⊢
      cases hf : f 0 i0 f0 with
      | error e => rw [hf] at hg; simp at hg
      | ok x =>
        rw [hf] at hg
        simp only at hg ⊢
        split at hg
        · simp at hg
        · rename_i h1
          rw [if_neg h1]
          split at hg
          · simp at hg
          · rename_i h2
            rw [if_neg h2]
            split at hg
            · simp at hg
            · rename_i h3
              rw [if_neg h3]
              simp only [Except.ok.injEq] at hg ⊢
              subst hg
              exact ⟨_, rfl, nms, full, rfl, rfl, rfl, hs, rfl, rfl⟩
  have mem : ∀ i ∈ (Container.toTuples (Container.build h mods).fullDict).map Prod.snd, ModScaled u (gen i) (wide i) (h i) (h' i) := by
    intro i hi
    obtain ⟨ni, hni, rfl⟩ := List.mem_map.mp hi
    exact full _ (Container.full_fullList hni)
  unfold Microgrid.create at *
  simp only [hb] at hc ⊢
  have e1 : ((Container.toTuples (Container.build h mods).fullDict).map Prod.snd).map (fun i => (h' i).initialStep) =
      ((Container.toTuples (Container.build h mods).fullDict).map Prod.snd).map (fun i => (h i).initialStep) :=
    List.map_congr_left fun i hi => (mem i hi).initialStep
  have e2 : ((Container.toTuples (Container.build h mods).fullDict).map Prod.snd).filterMap (fun i => (h' i).finalStep?) =
      ((Container.toTuples (Container.build h mods).fullDict).map Prod.snd).filterMap (fun i => (h i).finalStep?) :=
    List.filterMap_congr fun i hi => (mem i hi).finalStep
  rw [e1, e2]
  split
  · rename_i h0
    rw [if_pos h0] at hc
    exact check _ _ hc
  · rename_i h0
    rw [if_neg h0] at hc
    cases u1 : uniqueVal (((Container.toTuples (Container.build h mods).fullDict).map Prod.snd).map (fun i => (h i).initialStep)) with
    | error e => rw [u1] at hc; simp at hc
    | ok i0 =>
      rw [u1] at hc
      simp only at hc ⊢
      cases u2 : uniqueVal (((Container.toTuples (Container.build h mods).fullDict).map Prod.snd).filterMap (fun i => (h i).finalStep?)) with
      | error e => rw [u2] at hc; simp at hc
      | ok f0 =>
        rw [u2] at hc
        simp only at hc ⊢
        exact check _ _ hc

end

end Pymgrid
