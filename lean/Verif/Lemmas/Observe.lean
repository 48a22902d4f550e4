import Verif.Lemmas.Spaces
import Verif.Spec.Observe

set_option autoImplicit false

/-! Observations in terms of `Module.readings`. -/

namespace Pymgrid

theorem norm1_pos (lo hi v : ℚ) : norm1 lo hi v = Reading.pos ⟨lo, v, hi⟩ := by
  unfold norm1 spread1 Reading.pos
  by_cases h : lo = hi
  · rw [if_pos h, if_pos (by rw [h]; ring), div_one]
  · rw [if_neg h, if_neg (fun e => h (by linarith))]

theorem mapBounds_readRow : ∀ lo hi row : List ℚ, mapBounds norm1 lo hi row = (readRow lo hi row).map Reading.pos
  | [], _, _ => rfl
  | _ :: _, [], _ => rfl
  | _ :: _, _ :: _, [] => rfl
  | l :: lo, h :: hi, v :: row => by
    simp only [mapBounds, readRow, List.map_cons, norm1_pos]
    rw [mapBounds_readRow]

theorem readRow_append : ∀ (lo hi row lo' hi' row' : List ℚ), row.length = lo.length → row.length = hi.length →
    readRow (lo ++ lo') (hi ++ hi') (row ++ row') = readRow lo hi row ++ readRow lo' hi' row'
  | [], [], [], _, _, _, _, _ => rfl
  | [], _ :: _, [], _, _, _, _, h => by simp at h
  | [], _, _ :: _, _, _, _, h, _ => by simp at h
  | _ :: _, _, [], _, _, _, h, _ => by simp at h
  | _ :: _, [], _ :: _, _, _, _, _, h => by simp at h
  | l :: lo, h :: hi, v :: row, lo', hi', row', h1, h2 => by
    simp only [List.length_cons, Nat.add_right_cancel_iff] at h1 h2
    simp only [List.cons_append, readRow]
    rw [readRow_append lo hi row lo' hi' row' h1 h2]

theorem readRow_flatten {lo hi : List ℚ} (f : List (List ℚ)) (h : ∀ r ∈ f, r.length = lo.length ∧ r.length = hi.length) :
    readRow (List.replicate f.length lo).flatten (List.replicate f.length hi).flatten f.flatten =
      f.flatMap (readRow lo hi) := by
  induction f with
  | nil => rfl
  | cons r f ih =>
    simp only [List.length_cons, List.replicate_succ, List.flatten_cons, List.flatMap_cons]
    rw [readRow_append _ _ _ _ _ _ (h r (by simp)).1 (h r (by simp)).2, ih (fun r hr => h r (by simp [hr]))]

theorem Within.readRow {lo hi row : List ℚ} (w : Within lo hi row) :
    ∀ r ∈ Pymgrid.readRow lo hi row, r.lo ≤ r.val ∧ r.val ≤ r.hi :=
  Within.rec' (motive := fun lo hi row => ∀ r ∈ Pymgrid.readRow lo hi row, r.lo ≤ r.val ∧ r.val ≤ r.hi)
    (by simp [Pymgrid.readRow])
    (fun _ _ _ _ _ _ h₁ h₂ _ ih => by
      intro r hr
      simp only [Pymgrid.readRow, List.mem_cons] at hr
      rcases hr with rfl | hr
      · exact ⟨h₁, h₂⟩
      · exact ih r hr) lo hi row w

theorem Reading.pos_mem {r : Reading} (h₁ : r.lo ≤ r.val) (h₂ : r.val ≤ r.hi) : 0 ≤ r.pos ∧ r.pos ≤ 1 := by
  unfold Reading.pos
  by_cases h : r.lo = r.hi
  · rw [if_pos h]; constructor <;> linarith
  · rw [if_neg h]
    have : 0 < r.hi - r.lo := by
      have := lt_of_le_of_ne (h₁.trans h₂) h
      linarith
    exact ⟨div_nonneg (by linarith) this.le, (div_le_one this).mpr (by linarith)⟩

namespace Module

theorem TSWF.readings_row {m : Module} {t : TS} (h : m.TSWF t) :
    m.readings = readRow t.obsSpace.low t.obsSpace.high (t.obsAt m.currentStep ++ t.flatCur) := by
  have hr : m.readings = (t.obsAt m.currentStep :: t.cur.getD []).flatMap (readRow t.minRow t.maxRow) := by
    have := h.series
    unfold Module.series? at this
    unfold Module.readings TS.obsAt
    cases hk : m.kind <;> simp_all
  have hl : (t.cur.getD []).length = t.horizon ∧
      ∀ r ∈ t.cur.getD [], r.length = t.minRow.length ∧ r.length = t.maxRow.length := by
    have hs := h.shaped
    cases hc : t.cur with
    | none => rw [hc] at hs; exact ⟨hs.symm, by simp⟩
    | some f => rw [hc] at hs; exact ⟨hs.1, fun r hr => ⟨(hs.2 r hr).1, (hs.2 r hr).2.1⟩⟩
  have hw := h.valid.obsAt_within m.currentStep
  rw [hr]
  rw [← readRow_flatten _ (by
    intro r hr
    simp only [List.mem_cons] at hr
    rcases hr with rfl | hr
    · exact ⟨hw.1, hw.2.1⟩
    · exact hl.2 r hr)]
  simp only [List.length_cons, hl.1, TS.obsSpace, TS.minObs, TS.maxObs, Nat.add_comm 1, List.flatten_cons, TS.flatCur]

theorem TSWF.readings {m : Module} {t : TS} (h : m.TSWF t) (sp : m.obsSpace = t.obsSpace) :
    (∃ obs, m.normalizedObs = .ok obs ∧ obs.vals = m.readings.map Reading.pos) ∧
      ∀ r ∈ m.readings, r.lo ≤ r.val ∧ r.val ≤ r.hi := by
  have e := h.readings_row
  refine ⟨?_, ?_⟩
  · obtain ⟨obs, ho⟩ := h.normalizedObs
    refine ⟨obs, ho, ?_⟩
    unfold Module.normalizedObs at ho
    rw [h.state] at ho
    have hd : (Act.arr (t.obsAt m.currentStep ++ t.flatCur)).vals.length = m.obsSpace.dim := by
      rw [sp]; exact h.state_within.1
    simp only [Space.normalize, Space.apply_ok _ _ _ hd, Except.ok.injEq] at ho
    rw [← ho, Space.item_vals, sp, e]
    exact mapBounds_readRow _ _ _
  · rw [e]; exact h.state_within.readRow

theorem WF.readings {m : Module} (h : m.WF) (sp : m.Spaced) :
    (∃ obs, m.normalizedObs = .ok obs ∧ obs.vals = m.readings.map Reading.pos) ∧
      (m.PositiveCapacity → ∀ r ∈ m.readings, r.lo ≤ r.val ∧ r.val ≤ r.hi) := by
  have ts : ∀ {t : TS}, m.TSWF t → m.kind.obsBox = t.obsSpace → _ := fun {t} (hw : m.TSWF t) hb =>
    hw.readings (sp.obs.trans hb)
  have arr : ∀ l : List ℚ, m.state = .ok l → l.length = m.obsSpace.dim →
      ∃ obs, m.normalizedObs = .ok obs ∧ obs.vals = (readRow m.obsSpace.low m.obsSpace.high l).map Reading.pos := by
    intro l hl hd
    unfold Module.normalizedObs
    rw [hl]
    refine ⟨_, Space.apply_ok _ _ _ hd, ?_⟩
    rw [Space.item_vals]
    exact mapBounds_readRow _ _ _
  cases h with
  | battery b h =>
    refine ⟨?_, ?_⟩
    · obtain ⟨obs, h1, h2⟩ := arr [b.soc, b.charge] (by simp [Module.state, Module.stateDict, h.kind, Battery.stateDict])
        (by rw [h.dim]; rfl)
      refine ⟨obs, h1, ?_⟩
      rw [h2, sp.obs, h.kind]
      simp [Kind.obsBox, readRow, Module.readings, h.kind, h.valid.soc_eq]
    · intro hp r hr
      have hpos := hp b h.kind
      simp only [Module.readings, h.kind, List.mem_cons, List.not_mem_nil, or_false] at hr
      rcases hr with rfl | rfl
      · exact ⟨div_le_div_of_nonneg_right h.valid.low hpos.le, (div_le_one hpos).mpr h.valid.high⟩
      · exact ⟨h.valid.low, h.valid.high⟩
  | genset g h =>
    refine ⟨?_, ?_⟩
    · obtain ⟨obs, h1, h2⟩ := arr [g.status, g.goal, g.untilUp, g.untilDown]
        (by simp [Module.state, Module.stateDict, h.kind, Genset.stateDict]) (by rw [h.dim]; rfl)
      refine ⟨obs, h1, ?_⟩
      rw [h2, sp.obs, h.kind]
      simp [Kind.obsBox, readRow, Module.readings, h.kind, Genset.minObs, Genset.maxObs]
    · intro _ r hr
      obtain ⟨p, hp, -⟩ := h.phase
      have key : 0 ≤ g.status ∧ g.status ≤ 1 ∧ 0 ≤ g.goal ∧ g.goal ≤ 1 ∧ 0 ≤ g.untilUp ∧ g.untilUp ≤ g.startUpTime ∧
          0 ≤ g.untilDown ∧ g.untilDown ≤ g.windDownTime := by
        unfold Genset.InPhase at hp
        cases p <;> simp only at hp <;> omega
      obtain ⟨k1, k2, k3, k4, k5, k6, k7, k8⟩ := key
      simp only [Module.readings, h.kind, List.mem_cons, List.not_mem_nil, or_false] at hr
      rcases hr with rfl | rfl | rfl | rfl
      · exact ⟨by simp only; exact_mod_cast k1, by simp only; exact_mod_cast k2⟩
      · exact ⟨by simp only; exact_mod_cast k3, by simp only; exact_mod_cast k4⟩
      · exact ⟨by simp only; exact_mod_cast k5, by simp only; exact_mod_cast k6⟩
      · exact ⟨by simp only; exact_mod_cast k7, by simp only; exact_mod_cast k8⟩
  | grid p t h w => exact ⟨(ts h.ts (by rw [h.kind]; rfl)).1, fun _ => (ts h.ts (by rw [h.kind]; rfl)).2⟩
  | load t h w => exact ⟨(ts h.ts (by rw [h.kind]; rfl)).1, fun _ => (ts h.ts (by rw [h.kind]; rfl)).2⟩
  | renewable t h w => exact ⟨(ts h.ts (by rw [h.kind]; rfl)).1, fun _ => (ts h.ts (by rw [h.kind]; rfl)).2⟩
  | balancing u h =>
    refine ⟨?_, ?_⟩
    · obtain ⟨obs, h1, h2⟩ := arr [] (by simp [Module.state, Module.stateDict, h.kind])
        (by rw [sp.obs, h.kind]; rfl)
      refine ⟨obs, h1, ?_⟩
      rw [h2, sp.obs, h.kind]
      simp [Kind.obsBox, readRow, Module.readings, h.kind]
    · intro _ r hr
      simp [Module.readings, h.kind] at hr

/-- A successful step returns the normalised state after it. -/
theorem step_obs {m m' : Module} {a : Act} {n : Bool} {o : StepOut} (h : m.step a n = (m', .ok o)) :
    m'.normalizedObs = .ok o.obs := by
  obtain ⟨m₀, q, -, he, -⟩ := step_split h
  obtain ⟨_, _, _, _, _, _, _, _, ho, _⟩ := stepEnergy_inv he
  exact ho

/-- A successful reset returns the normalised state after it. -/
theorem reset_obs {m m' : Module} {obs : Act} (h : m.reset = (m', .ok obs)) : m'.normalizedObs = .ok obs := by
  unfold reset at h
  split at h
  · simp at h
  · simp only [Prod.mk.injEq] at h
    rw [← h.1]; exact h.2

/-- Batteries keep their capacity. -/
theorem box_capacity {m m' : Module} (h : SameBox m m') (hp : m.PositiveCapacity) : m'.PositiveCapacity := by
  intro b hb
  have h1 := h.obs
  have h2 := h.tag
  rw [hb] at h1 h2
  cases hk : m.kind with
  | battery b' =>
    rw [hk] at h1
    simp only [Kind.obsBox, Space.mk.injEq, List.cons.injEq, and_true, true_and] at h1
    rw [h1.2]
    exact hp b' hk
  | _ => rw [hk] at h2; simp [Kind.tag] at h2

/-- Resets of consistent modules succeed. -/
theorem WF.reset_ok {m : Module} (h : m.WF) : ∃ obs, m.reset.2 = .ok obs := by
  have ts : ∀ {t : TS}, m.TSWF t → t.Works → ∃ obs, m.reset.2 = .ok obs := by
    intro t hw w
    rcases hw.reset with ⟨f, obs, -, -, he⟩ | ⟨e, hv, -⟩
    · exact ⟨obs, by rw [he]⟩
    · obtain ⟨f, hf⟩ := hw.valid.forecast_ok w m.initialStep
      rw [hv] at hf; simp at hf
  cases h with
  | battery b h => obtain ⟨m', obs, he, -⟩ := h.reset; exact ⟨obs, by rw [he]⟩
  | genset g h => obtain ⟨m', obs, he, -⟩ := h.reset; exact ⟨obs, by rw [he]⟩
  | grid p t h w => exact ts h.ts w
  | load t h w => exact ts h.ts w
  | renewable t h w => exact ts h.ts w
  | balancing u h => exact ⟨_, by rw [h.reset]⟩

/-- Both bounds of the action space have the same length: 2 for gensets, at most 1 otherwise. -/
theorem WF.act_shape {m : Module} (h : m.WF) (sp : m.Spaced) {s : Space} (hs : m.actSpace = some s) :
    s.low.length = s.high.length ∧ (s.low.length = 0 ∨ s.low.length = 1 ∨
      ∃ g, m.kind = .genset g ∧ s = ⟨[0, 0], [1, g.runMax]⟩) := by
  have ha := sp.act.symm.trans hs
  cases h with
  | battery b h => rw [h.kind] at ha; simp only [Kind.actBox, Option.some.injEq] at ha; subst ha; simp
  | genset g h =>
    rw [h.kind] at ha
    simp only [Kind.actBox, Option.some.injEq] at ha
    subst ha
    exact ⟨rfl, .inr (.inr ⟨g, h.kind, rfl⟩)⟩
  | grid p t h w => rw [h.kind] at ha; simp only [Kind.actBox, Option.some.injEq] at ha; subst ha; simp
  | load t h w => rw [h.kind] at ha; simp only [Kind.actBox, Option.some.injEq] at ha; subst ha; simp
  | renewable t h w =>
    rw [h.kind] at ha
    simp only [Kind.actBox, Option.some.injEq] at ha
    subst ha
    have h1 := h.ts.valid.minLen
    have h2 := h.ts.valid.mid
    simp only
    exact ⟨h2.1.symm.trans h2.2.1, .inr (.inl (by rw [h1, h.one]))⟩
  | balancing u h => rw [h.kind] at ha; simp [Kind.actBox] at ha

theorem energyOf_vals {a a' : Act} (h : a.vals = a'.vals) (hl : a.vals.length ≤ 1) : energyOf 0 a = energyOf 0 a' := by
  cases a with
  | num x =>
    cases a' with
    | num y => simp only [Act.vals, List.cons.injEq, and_true] at h; subst h; rfl
    | arr l => simp only [Act.vals] at h; subst h; rfl
  | arr l =>
    cases a' with
    | num y => simp only [Act.vals] at h; subst h; rfl
    | arr l' => simp only [Act.vals] at h; subst h; rfl

theorem WF.normalized {m : Module} (h : m.WF) (sp : m.Spaced) {s : Space} (hs : m.actSpace = some s) {a raw : Act}
    (hl : raw.vals.length = s.low.length) (hn : a.vals = (readRow s.low s.high raw.vals).map Reading.pos) :
    m.step a true = m.step raw false := by
  obtain ⟨hb, hsh⟩ := h.act_shape sp hs
  rw [← mapBounds_readRow] at hn
  have hla : a.vals.length = s.dim := by rw [hn, mapBounds_length _ _ _ _ hl hb]; exact hl
  have hd : m.denormalizeAct a = .ok (Space.item raw.vals) := by
    unfold denormalizeAct
    rw [hs]
    simp only [Space.denormalize]
    rw [Space.apply_ok _ _ _ hla, hn, mapBounds_comp _ _ denorm1_norm1 _ _ _ hl hb]
  by_cases hg : ∃ g, m.kind = .genset g
  · obtain ⟨g, hg⟩ := hg
    have hs2 : ∃ r : ℚ, s = ⟨[0, 0], [1, r]⟩ := by
      have ha := sp.act.symm.trans hs
      rw [hg] at ha
      simp only [Kind.actBox, Option.some.injEq] at ha
      exact ⟨g.runMax, ha.symm⟩
    obtain ⟨r, rfl⟩ := hs2
    have hraw : ∃ x y : ℚ, raw = .arr [x, y] := by
      cases raw with
      | num q => simp [Act.vals] at hl
      | arr l =>
        match l, hl with
        | [x, y], _ => exact ⟨x, y, rfl⟩
    obtain ⟨x, y, rfl⟩ := hraw
    have hx : norm1 0 1 x = x := by unfold norm1 spread1; norm_num
    simp only [Act.vals, mapBounds, hx] at hn
    have ha : ∃ z : ℚ, a = .arr [x, z] := by
      cases a with
      | num q => simp at hn
      | arr l => simp only at hn; exact ⟨_, by rw [hn]⟩
    obtain ⟨z, rfl⟩ := ha
    simp only [Act.vals, Space.item] at hd
    unfold Module.step
    rw [hg]
    simp only [List.getElem?_cons_zero]
    split
    · rfl
    · split
      · rfl
      · rename_i g' _
        rw [baseStep_eq, baseStep_eq]
        have hr : ({ m with kind := .genset g' } : Module).request (.arr [x, z]) true =
            ({ m with kind := .genset g' } : Module).request (.arr [x, y]) false := by
          unfold request
          rw [show ({ m with kind := .genset g' } : Module).denormalizeAct (.arr [x, z]) =
            m.denormalizeAct (.arr [x, z]) from rfl, hd]
          rfl
        rw [hr]
  · have hng : ∀ g, m.kind ≠ .genset g := fun g e => hg ⟨g, e⟩
    have hlen : s.low.length ≤ 1 := by
      rcases hsh with h0 | h1 | ⟨g, hk, -⟩
      · omega
      · omega
      · exact absurd hk (hng g)
    have hpos : m.energyPos = 0 := by
      unfold energyPos
      cases hk : m.kind <;> first | rfl | exact absurd hk (hng _)
    rw [step_eq_baseStep m a true hng, step_eq_baseStep m raw false hng, baseStep_eq, baseStep_eq]
    have hr : m.request a true = m.request raw false := by
      unfold request
      rw [if_pos rfl, hd, hpos]
      simp only [Bool.false_eq_true, if_false]
      exact energyOf_vals (Space.item_vals _) (by rw [Space.item_vals, hl]; exact hlen)
    rw [hr]

/-- `reset` on batteries and gensets. -/
theorem storage_reset {m : Module} (hk : m.kind.tag = 0 ∨ m.kind.tag = 1) :
    m.reset.1 = { m with currentStep := m.initialStep, logger := {} } := by
  unfold reset updateStep refresh
  cases h : m.kind <;> rw [h] at hk <;> simp only [Kind.tag] at hk <;> first | rfl | omega

end Module

end Pymgrid
