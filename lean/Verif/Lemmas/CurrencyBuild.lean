import Verif.Lemmas.CurrencyGrid

set_option autoImplicit false

/-! Lemmas for C86: construction of modules, microgrids and rule-based controllers in two currencies. -/

namespace Pymgrid

/-! ### Modules -/

section
variable {k : ℚ}

theorem battery_priced {minC maxC maxCh maxDis eff cost : ℚ} {c s : Option ℚ} {i : Nat} {r : Bool} {m : Module}
    (h : Module.mkBattery minC maxC maxCh maxDis eff cost none c s i r = .ok m) :
    ∃ m', Module.mkBattery minC maxC maxCh maxDis eff (k * cost) none c s i r = .ok m' ∧ ModPriced k m m' := by
  unfold Module.mkBattery Battery.init at *
  by_cases he : ¬ (0 < eff ∧ eff ≤ 1)
  · rw [if_pos he] at h; simp at h
  · rw [if_neg he] at h ⊢
    by_cases hz : maxC = 0
    · rw [if_pos hz] at h; simp at h
    · rw [if_neg hz] at h ⊢
      cases hi : Battery.initBattery maxC c s with
      | error e => rw [hi] at h; simp at h
      | ok x =>
        rw [hi] at h
        simp only [Except.ok.injEq] at h ⊢
        subst h
        exact ⟨_, rfl, rfl, rfl, rfl, rfl, rfl, rfl, rfl, .battery _ _ rfl⟩

theorem genset_priced {rmin rmax : ℚ} {cost : GensetCost} {c1 c2 : ℚ} {S W : Nat} {ab iu : Bool} {i : Nat} {r : Bool}
    {m : Module} (h : Module.mkGenset rmin rmax cost c1 c2 S W ab iu i r = .ok m) :
    ∃ m', Module.mkGenset rmin rmax (cost.priced k) c1 (k * c2) S W ab iu i r = .ok m' ∧ ModPriced k m m' := by
  unfold Module.mkGenset at *
  have key : Genset.init rmin rmax (cost.priced k) c1 (k * c2) S W ab iu =
      (Genset.init rmin rmax cost c1 c2 S W ab iu).map fun g => g.withCost (cost.priced k) (k * c2) := by
    unfold Genset.init
    split
    · rfl
    · exact resetTimes_withCost ⟨rmin, rmax, cost, c1, c2, S, W, ab, iu, if iu then 1 else 0, if iu then 1 else 0, 0, 0⟩
        (cost.priced k) (k * c2)
  rw [key]
  cases hg : Genset.init rmin rmax cost c1 c2 S W ab iu with
  | error e => rw [hg] at h; simp at h
  | ok g =>
    rw [hg] at h
    simp only [Except.ok.injEq] at h
    subst h
    refine ⟨_, rfl, rfl, rfl, rfl, rfl, rfl, rfl, rfl, ?_⟩
    have hc : g.cost = cost ∧ g.costPerCo2 = c2 := by
      unfold Genset.init at hg
      split at hg
      · simp at hg
      · have := resetTimes_withCost ⟨rmin, rmax, cost, c1, c2, S, W, ab, iu, if iu then 1 else 0, if iu then 1 else 0, 0, 0⟩
          cost c2
        unfold Genset.withCost at this
        simp only at this hg
        rw [hg] at this
        simp only [Except.map, Except.ok.injEq] at this
        rw [this]
        exact ⟨rfl, rfl⟩
    have hp := KindPriced.genset (k := k) g { low := g.minObs, high := g.maxObs }
    rw [hc.1, hc.2] at hp
    exact hp

theorem priceRow_append {r : List ℚ} (h : r.length = 3) :
    priceRow k (r ++ [1]) = priceRow k r ++ [1] := by
  unfold priceRow
  rw [List.mapIdx_append]
  simp [h]

theorem gridRows_priced {ncols : Nat} {rows : List (List ℚ)} (hrect : ∀ r ∈ rows, r.length = ncols)
    (h34 : ncols = 3 ∨ ncols = 4) : gridRows ncols (rows.map (priceRow k)) = (gridRows ncols rows).map (priceRow k) := by
  unfold gridRows
  split
  · rfl
  · rw [List.map_map, List.map_map]
    apply List.map_congr_left
    intro r hr
    exact (priceRow_append (by rw [hrect r hr]; omega)).symm

theorem min_scale (u a b : ℚ) (hu : 0 < u) : min (u * a) (u * b) = u * min a b := (mul_min_of_nonneg a b hu.le).symm

theorem max_scale (u a b : ℚ) (hu : 0 < u) : max (u * a) (u * b) = u * max a b := (mul_max_of_nonneg a b hu.le).symm

theorem foldl_priced (hk : 0 < k) {op : ℚ → ℚ → ℚ} (hop : ∀ u a b, 0 < u → op (u * a) (u * b) = u * op a b)
    (rs : List (List ℚ)) (r : List ℚ) :
    (rs.map (priceRow k)).foldl (List.zipWith op) (priceRow k r) = priceRow k (rs.foldl (List.zipWith op) r) := by
  induction rs generalizing r with
  | nil => rfl
  | cons x rs ih =>
    rw [List.map_cons, List.foldl_cons, List.foldl_cons, ← ih]
    congr 1
    simp only [priceRow_eq]
    exact zipWith_scaleBy hop _ (priceUnit_pos hk) _ _

theorem priceRow_nonneg (hk : 0 < k) {r : List ℚ} (h : ∀ x ∈ r, 0 ≤ x) : ∀ x ∈ priceRow k r, 0 ≤ x := by
  intro x hx
  obtain ⟨j, hj⟩ := List.mem_iff_getElem?.mp hx
  rw [priceRow_get] at hj
  cases e : r[j]? with
  | none => rw [e] at hj; simp at hj
  | some y =>
    rw [e] at hj
    simp only [Option.map_some, Option.some.injEq] at hj
    have := h y (List.mem_of_getElem? e)
    rw [← hj]
    split
    · exact mul_nonneg hk.le this
    · exact this

theorem create_eq (rows : List (List ℚ)) (comps : List String) (mn mx : List ℚ) (param : FKind) (horizon i : Nat) (fs : Int) :
    TS.create rows comps mn mx param horizon i fs =
      match (TS.blank rows comps mn mx param horizon fs).refresh i with
      | (t', .ok ()) => .ok t'
      | (_, .error e) => .error e := rfl

theorem grid_priced (hk : 0 < k) {mi me cc : ℚ} {ncols : Nat} {rows : List (List ℚ)} {param param' : FKind}
    {horizon i : Nat} {fs : Int} {r : Bool} {m : Module} (hrect : ∀ r ∈ rows, r.length = ncols)
    (hf : SameForecast k param param') (hm : Module.mkGrid mi me ncols rows param horizon i fs cc r = .ok m) :
    ∃ m', Module.mkGrid mi me ncols (rows.map (priceRow k)) param' horizon i fs (k * cc) r = .ok m' ∧
      ModPriced k m m' := by
  unfold Module.mkGrid at *
  split at hm
  · simp at hm
  rename_i rows' hc
  obtain ⟨hmi, hme, h34, hpos, h4, rfl⟩ := (gridCheckParams_iff hrect).mp hc
  have hspec := gridRows_spec hrect h34 hpos h4
  have hc' : gridCheckParams mi me ncols (rows.map (priceRow k)) = .ok ((gridRows ncols rows).map (priceRow k)) := by
    rw [gridCheckParams_iff (by
      intro r hr
      obtain ⟨r', hr', rfl⟩ := List.mem_map.mp hr
      rw [priceRow_length, hrect r' hr'])]
    refine ⟨hmi, hme, h34, ?_, ?_, (gridRows_priced hrect h34).symm⟩
    · intro r hr
      obtain ⟨r', hr', rfl⟩ := List.mem_map.mp hr
      exact priceRow_nonneg hk (hpos r' hr')
    · intro h r hr
      obtain ⟨r', hr', rfl⟩ := List.mem_map.mp hr
      rw [priceRow_get]
      rcases h4 h r' hr' with e | e <;> simp [e]
  rw [hc']
  simp only
  cases hrows : gridRows ncols rows with
  | nil => rw [hrows] at hm; simp [colFold] at hm
  | cons r₀ rs =>
    rw [hrows] at hm
    simp only [colFold, List.map_cons] at hm ⊢
    rw [foldl_priced hk min_scale, foldl_priced hk max_scale]
    rw [hrows] at hspec
    have hl₀ : r₀.length = 4 := (hspec r₀ (by simp)).1
    obtain ⟨l1, l2, hw⟩ := foldl_zipWith_bounds rs r₀ (fun s hs => by rw [hl₀]; exact (hspec s (by simp [hs])).1)
    generalize rs.foldl (List.zipWith min) r₀ = mn at *
    generalize rs.foldl (List.zipWith max) r₀ = mx at *
    have hin : ∀ s ∈ r₀ :: rs, Within mn mx s := fun s hs => hw s (by simpa using hs)
    have hbox : Within mn mx mn := by
      have w := hin r₀ (by simp)
      refine ⟨rfl, by rw [l1, l2], ?_⟩
      intro j l h v e1 e2 e3
      rw [e1] at e3
      simp only [Option.some.injEq] at e3
      subst e3
      have hj : j < r₀.length := by
        have := (List.getElem?_eq_some_iff.mp e1).1
        rwa [l1] at this
      have := w.2.2 j l h r₀[j] e1 e2 (List.getElem?_eq_getElem hj)
      exact ⟨le_rfl, this.1.trans this.2⟩
    have scale : ∀ {s : List ℚ}, Within mn mx s → Within (priceRow k mn) (priceRow k mx) (priceRow k s) := by
      intro s w
      simp only [priceRow_eq]
      exact within_scaleBy (priceUnit_pos hk) w
    have hv := TS.blank_valid (comps := gridComps) param horizon fs (by rw [l1, hl₀]; rfl) hbox hin
    have hv' := TS.blank_valid (comps := gridComps) (rows := (r₀ :: rs).map (priceRow k)) param' horizon fs
      (by rw [priceRow_length, l1, hl₀]; rfl) (scale hbox) (by
        intro s hs
        obtain ⟨s', hs', rfl⟩ := List.mem_map.mp hs
        exact scale (hin s' hs'))
    have hb : TSPriced k (TS.blank (r₀ :: rs) gridComps mn mx param horizon fs)
        (TS.blank ((r₀ :: rs).map (priceRow k)) gridComps (priceRow k mn) (priceRow k mx) param' horizon fs) := by
      refine ⟨rfl, rfl, rfl, rfl, ?_, ?_, ?_, rfl, rfl, rfl, hv, hv'⟩
      · simp [TS.blank]
      · simp [TS.blank, hf.isSome]
      · simp only [TS.blank, hf.isSome]
        exact hf.get _ _ _ _ _
    obtain ⟨hr1, hr2⟩ := hb.refresh hk i
    rw [create_eq] at hm
    rw [← List.map_cons, create_eq]
    have hsh : ((TS.blank (r₀ :: rs) gridComps mn mx param horizon fs).refresh i).2 = .ok () →
        ((TS.blank (r₀ :: rs) gridComps mn mx param horizon fs).refresh i).1.Shaped
          ((TS.blank (r₀ :: rs) gridComps mn mx param horizon fs).refresh i).1.cur := by
      rcases hv.refresh i with ⟨f, e1, e2⟩ | ⟨e, e1, e2⟩
      · intro _; rw [e2]; exact hv.forecast_shaped e1
      · rw [e2]; simp
    cases e1 : (TS.blank (r₀ :: rs) gridComps mn mx param horizon fs).refresh i with
    | mk t x =>
    cases e1' : (TS.blank ((r₀ :: rs).map (priceRow k)) gridComps (priceRow k mn) (priceRow k mx) param' horizon fs).refresh i with
    | mk t' x' =>
    rw [e1] at hm hsh
    rw [e1, e1'] at hr1 hr2
    simp only at hr1 hr2 hsh
    subst hr2
    cases x' with
    | error e => simp at hm
    | ok u =>
      simp only [Except.ok.injEq] at hm ⊢
      subst hm
      exact ⟨_, rfl, rfl, rfl, rfl, rfl, rfl, rfl, rfl, .grid ⟨mi, me, cc⟩ t t' hr1 (hsh rfl)⟩

theorem Repriced.modPriced (hk : 0 < k) {m m' : Module} (h : Repriced k m m') : ModPriced k m m' := by
  induction h with
  | battery h h' =>
    obtain ⟨x, e, hx⟩ := battery_priced (k := k) h
    rw [h'] at e
    injection e with e
    rw [e]; exact hx
  | genset h h' =>
    obtain ⟨x, e, hx⟩ := genset_priced (k := k) h
    rw [h'] at e
    injection e with e
    rw [e]; exact hx
  | grid hrect hf h h' =>
    obtain ⟨x, e, hx⟩ := grid_priced hk hrect hf h
    rw [h'] at e
    injection e with e
    rw [e]; exact hx
  | @load _ _ _ _ _ _ m h =>
    have hx : ∃ t, m.kind = .load t := by
      unfold Module.mkLoad at h
      repeat' split at h
      all_goals first | (simp at h; done) | skip
      simp only [Except.ok.injEq] at h
      subst h
      exact ⟨_, rfl⟩
    obtain ⟨t, ht⟩ := hx
    exact ⟨rfl, rfl, rfl, rfl, rfl, rfl, rfl, by rw [ht]; exact .load t _⟩
  | @renewable _ _ _ _ _ _ m h =>
    have hx : ∃ t, m.kind = .renewable t := by
      unfold Module.mkRenewable at h
      repeat' split at h
      all_goals first | (simp at h; done) | skip
      simp only [Except.ok.injEq] at h
      subst h
      exact ⟨_, rfl⟩
    obtain ⟨t, ht⟩ := hx
    exact ⟨rfl, rfl, rfl, rfl, rfl, rfl, rfl, by rw [ht]; exact .renewable t _⟩
  | balancing r i l o => exact ⟨rfl, rfl, rfl, rfl, rfl, rfl, rfl, .balancing ⟨l, o⟩ _⟩
  | flexGrid h _ ih =>
    exact ⟨ih.raiseErrors, ih.initialStep, ih.currentStep, ih.actSpace, ih.provName, ih.absName, rfl, ih.kind⟩

/-! ### Microgrids -/

theorem ModPriced.finalStep {m m' : Module} (h : ModPriced k m m') : m'.finalStep? = m.finalStep? := by
  have := h.kind
  unfold Module.finalStep?
  generalize m.kind = a at this ⊢
  generalize m'.kind = b at this ⊢
  generalize m.obsSpace = s at this
  generalize m'.obsSpace = s' at this
  cases this with
  | grid p t t' ht hs => simp [ht.finalStep]
  | _ => rfl

theorem build_priced {h h' : Heap} {mods : List (String × Nat)} (t : ∀ nm ∈ mods, ModPriced k (h nm.2) (h' nm.2)) :
    Container.build h' mods = Container.build h mods := by
  unfold Container.build
  generalize Container.empty = c
  induction mods generalizing c with
  | nil => rfl
  | cons nm mods ih =>
    have hm := t nm (by simp)
    have e : Container.add h' c nm = Container.add h c nm := by
      unfold Container.add Module.ss
      simp only [hm.ffc, hm.isSource, hm.isSink]
    rw [List.foldl_cons, List.foldl_cons, e]
    exact ih (fun x hx => t x (by simp [hx])) _

theorem create_priced {h h' : Heap} {mods : List (String × Nat)} (t : ∀ nm ∈ mods, ModPriced k (h nm.2) (h' nm.2))
    {sh sh' : Option Shaper} (hs : SameShaper k sh sh')
    {tr : Option (Nat → Nat → Option Nat → Except Err (Nat × Nat))} {g : Microgrid}
    (hc : Microgrid.create h mods sh tr = .ok g) :
    ∃ g', Microgrid.create h' mods sh' tr = .ok g' ∧ PricedGrid k g g' := by
  have hb := build_priced t
  have full : ∀ i ∈ (Container.build h mods).fullList, ModPriced k (h i) (h' i) := by
    intro i hi
    obtain ⟨nm, hm, rfl⟩ := List.mem_map.mp ((Container.fullList_perm h mods).mem_iff.mp hi)
    exact t nm hm
  have check : ∀ (i0 : Nat) (f0 : Option Nat),
      Microgrid.checkTrajectory { heap := h, cont := Container.build h mods, initialStep := i0, finalStep := f0, shaper := sh } tr = .ok g →
      ∃ g', Microgrid.checkTrajectory { heap := h', cont := Container.build h mods, initialStep := i0, finalStep := f0, shaper := sh' } tr = .ok g' ∧
        PricedGrid k g g' := by
    intro i0 f0 hg
    unfold Microgrid.checkTrajectory at *
    cases tr with
    | none =>
      simp only [Except.ok.injEq] at hg ⊢
      subst hg
      exact ⟨_, rfl, full, rfl, rfl, rfl, hs, rfl, rfl⟩
    | some f =>
      simp only at hg ⊢
      cases hf : f 0 i0 f0 with
      | error e => rw [hf] at hg; simp at hg
      | ok x =>
        rw [hf] at hg
        simp only at hg ⊢
        split at hg
        · simp at hg
        · rename_i h1
          rw [if_neg h1]
          split at hg
          · simp at hg
          · rename_i h2
            rw [if_neg h2]
            split at hg
            · simp at hg
            · rename_i h3
              rw [if_neg h3]
              simp only [Except.ok.injEq] at hg ⊢
              subst hg
              exact ⟨_, rfl, full, rfl, rfl, rfl, hs, rfl, rfl⟩
  have mem : ∀ i ∈ (Container.toTuples (Container.build h mods).fullDict).map Prod.snd, ModPriced k (h i) (h' i) := by
    intro i hi
    obtain ⟨ni, hni, rfl⟩ := List.mem_map.mp hi
    exact full _ (Container.full_fullList hni)
  unfold Microgrid.create at *
  simp only [hb] at hc ⊢
  have e1 : ((Container.toTuples (Container.build h mods).fullDict).map Prod.snd).map (fun i => (h' i).initialStep) =
      ((Container.toTuples (Container.build h mods).fullDict).map Prod.snd).map (fun i => (h i).initialStep) :=
    List.map_congr_left fun i hi => (mem i hi).initialStep
  have e2 : ((Container.toTuples (Container.build h mods).fullDict).map Prod.snd).filterMap (fun i => (h' i).finalStep?) =
      ((Container.toTuples (Container.build h mods).fullDict).map Prod.snd).filterMap (fun i => (h i).finalStep?) :=
    List.filterMap_congr fun i hi => (mem i hi).finalStep
  rw [e1, e2]
  split
  · rename_i h0
    rw [if_pos h0] at hc
    exact check _ _ hc
  · rename_i h0
    rw [if_neg h0] at hc
    cases u1 : uniqueVal (((Container.toTuples (Container.build h mods).fullDict).map Prod.snd).map (fun i => (h i).initialStep)) with
    | error e => rw [u1] at hc; simp at hc
    | ok i0 =>
      rw [u1] at hc
      simp only at hc ⊢
      cases u2 : uniqueVal (((Container.toTuples (Container.build h mods).fullDict).map Prod.snd).filterMap (fun i => (h i).finalStep?)) with
      | error e => rw [u2] at hc; simp at hc
      | ok f0 =>
        rw [u2] at hc
        simp only at hc ⊢
        exact check _ _ hc

end

end Pymgrid
