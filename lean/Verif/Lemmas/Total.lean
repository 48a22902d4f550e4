import Verif.Lemmas.Acc
import Verif.Lemmas.Container

set_option autoImplicit false

/-! When `run` succeeds. -/

namespace Pymgrid

namespace Module

/-- A consistent module that has data accepts every documented action. -/
theorem WF.step_accepts {m : Module} (h : m.WF) (hl : m.Live) (hr : m.raiseErrors = false) {a : Act} {n : Bool}
    (ha : m.Accepts a n) : ∃ m' o, m.step a n = (m', .ok o) := by
  cases h with
  | battery b h =>
    simp only [Accepts, h.kind] at ha
    obtain ⟨q, hq⟩ := ha
    rw [h.step_eq, hq]
    have := h.stepEnergy q
    simp only [hr, Bool.false_eq_true, false_and, if_false] at this ⊢
    split at this
    · obtain ⟨m', o, e, -⟩ := this; exact ⟨m', o, e⟩
    · obtain ⟨m', o, e, -⟩ := this; exact ⟨m', o, e⟩
  | genset g h =>
    simp only [Accepts, h.kind] at ha
    obtain ⟨goal, e, rfl, h0, h1, q, hq, hq0⟩ := ha
    rw [h.step_eq]
    simp only [List.getElem?_cons_zero]
    rw [if_neg (not_not.mpr ⟨h0, h1⟩)]
    obtain ⟨p, hp⟩ := h.phase
    obtain ⟨g', e', hp', hs, -⟩ := hp.update h0 h1
    rw [e']
    have wf := h.withStatus ⟨_, hp'⟩ hs
    simp only [hq]
    have := wf.stepEnergy q
    simp only [hr, Bool.false_eq_true, false_and, if_false, not_lt.mpr hq0] at this
    obtain ⟨m', o, e, -⟩ := this
    exact ⟨m', o, by rw [← e, ← hr]⟩
  | grid p t h w =>
    simp only [Accepts, h.kind] at ha
    obtain ⟨q, hq⟩ := ha
    obtain ⟨r, hrow⟩ := hl.row h.ts.series
    obtain ⟨a', b, c, d, rfl, -⟩ := h.row hrow
    have hun := (h.unnormalizedStep q).2 a' b c d hrow
    simp only [hr, Bool.false_eq_true, false_and, if_false] at hun
    rw [h.ts.step_eq, hq]
    rcases le_or_gt 0 q with h0 | h0
    · obtain ⟨pre, row, f, obs, -, -, -, -, he⟩ := h.ts.stepEnergy_ok (hun.1 h0) (by simp [h.prov]) (by simp) w
      exact ⟨_, _, he⟩
    · obtain ⟨pre, row, f, obs, -, -, -, -, he⟩ := h.ts.stepEnergy_ok (hun.2 h0) (by simp) (by simp [h.abs]) w
      exact ⟨_, _, he⟩
  | load t h w =>
    simp only [Accepts, h.kind] at ha
    obtain ⟨q, hq, hq0⟩ := ha
    obtain ⟨r, hrow⟩ := hl.row h.ts.series
    obtain ⟨x, rfl, -, hi⟩ := h.itemAt hrow
    have hun := (h.unnormalizedStep q).2 hq0
    rw [hi] at hun
    obtain ⟨pre, row, f, obs, -, -, -, -, he⟩ := h.ts.stepEnergy_ok hun (by simp) (by simp [h.abs]) w
    rw [h.ts.step_eq, hq]
    exact ⟨_, _, he⟩
  | renewable t h w =>
    simp only [Accepts, h.kind] at ha
    obtain ⟨q, hq, hq0⟩ := ha
    obtain ⟨r, hrow⟩ := hl.row h.ts.series
    obtain ⟨x, rfl, hx, hi⟩ := h.itemAt hrow
    have hun := (h.unnormalizedStep q).2.2 x hrow hq0
    simp only [hr, Bool.false_eq_true, false_and, if_false] at hun
    obtain ⟨pre, row, f, obs, -, -, -, -, he⟩ := h.ts.stepEnergy_ok hun (by simp [h.prov]) (by simp) w
    rw [h.ts.step_eq, hq]
    exact ⟨_, _, he⟩
  | balancing u h =>
    simp only [Accepts, h.kind] at ha
    obtain ⟨q, hq⟩ := ha
    obtain ⟨row, -, he⟩ := h.stepEnergy q
    rw [h.step_eq, hq]
    exact ⟨_, _, he⟩

/-- The modules of the fixed level are loads. -/
theorem WF.fixed_step {m : Module} (h : m.WF) (hl : m.Live) (hf : m.ffc = .fixed) :
    ∃ m' o, m.step (.num 0) false = (m', .ok o) := by
  cases h with
  | battery b h => rw [h.ffc] at hf; simp at hf
  | genset g h => rw [h.ffc] at hf; simp at hf
  | grid p t h w => exact absurd hf h.ffc
  | renewable t h w => rw [h.ffc] at hf; simp at hf
  | balancing u h => rw [h.ffc] at hf; simp at hf
  | load t h w =>
    obtain ⟨r, hrow⟩ := hl.row h.ts.series
    obtain ⟨x, rfl, -, hi⟩ := h.itemAt hrow
    have hun := (h.unnormalizedStep 0).2 le_rfl
    rw [hi] at hun
    obtain ⟨m', o, he, -⟩ := h.ts.step_num w hun (by simp) (by simp [h.abs])
    exact ⟨m', o, he⟩

theorem WF.costs {m : Module} (h : m.WF) : (∃ p, m.marginalCost = .ok p) ∧ ∃ a, m.absorptionCost = .ok a := by
  cases h with
  | battery b h => simp [marginalCost, absorptionCost, h.kind]
  | genset g h => simp [marginalCost, absorptionCost, h.kind]
  | load t h w => simp [marginalCost, absorptionCost, h.kind]
  | renewable t h w => simp [marginalCost, absorptionCost, h.kind]
  | balancing u h => simp [marginalCost, absorptionCost, h.kind]
  | grid p t h w =>
    obtain ⟨s, hs, hl⟩ := h.state_get
    simp only [marginalCost, absorptionCost, h.kind, hs]
    rw [List.getElem?_eq_getElem (by omega : 0 < s.length), List.getElem?_eq_getElem (by omega : 1 < s.length)]
    simp

end Module

theorem costInfo_ok {h : Heap} {d : ModDict} (hw : ∀ nl ∈ d, ∀ i ∈ nl.2, (h i).WF) : ∃ ci, costInfo h d = .ok ci := by
  have one : ∀ l : List Nat, (∀ i ∈ l, (h i).WF) → ∃ c, costInfoOf h l = .ok c := by
    intro l
    induction l with
    | nil => intro _; exact ⟨[], rfl⟩
    | cons i l ih =>
      intro hl
      obtain ⟨c, hc⟩ := ih (fun j hj => hl j (by simp [hj]))
      obtain ⟨⟨p, hp⟩, a, ha⟩ := (hl i (by simp)).costs
      exact ⟨(p, a) :: c, by simp [costInfoOf, hp, ha, hc]⟩
  induction d with
  | nil => exact ⟨[], rfl⟩
  | cons x d ih =>
    obtain ⟨n, l⟩ := x
    obtain ⟨c, hc⟩ := ih (fun nl hnl => hw nl (by simp [hnl]))
    obtain ⟨c', hc'⟩ := one l (hw (n, l) (by simp))
    exact ⟨(n, c') :: c, by simp [costInfo, hc, hc']⟩

theorem RunSt.stepMany_total {l : List (String × Nat × Act)} {n : Bool} {s : RunSt}
    (hn : (l.map fun x => x.2.1).Nodup)
    (hl : ∀ x ∈ l, ∃ m' o, (s.heap x.2.1).step x.2.2 n = (m', .ok o)) : ∃ s', RunSt.stepMany l n s = (s', .ok ()) := by
  induction l generalizing s with
  | nil => exact ⟨s, rfl⟩
  | cons x l ih =>
    obtain ⟨name, i, a⟩ := x
    simp only [List.map_cons, List.nodup_cons] at hn
    obtain ⟨m', o, hs⟩ := hl _ (List.mem_cons_self ..)
    simp only at hs
    have h1 : s.stepOne name i a n = ({ heap := s.heap.set i m', acc := s.acc.append name o }, .ok ()) := by
      unfold stepOne; rw [hs]
    simp only [stepMany, h1]
    apply ih hn.2
    intro y hy
    have hne : y.2.1 ≠ i := fun e => hn.1 (e ▸ List.mem_map_of_mem (f := fun x : String × Nat × Act => x.2.1) hy)
    simpa [Heap.set, hne] using hl y (by simp [hy])

theorem RunSt.stepMany_append (l l' : List (String × Nat × Act)) (n : Bool) (s : RunSt) :
    RunSt.stepMany (l ++ l') n s =
      match RunSt.stepMany l n s with
      | (s', .error e) => (s', .error e)
      | (s', .ok ()) => RunSt.stepMany l' n s' := by
  induction l generalizing s with
  | nil => rfl
  | cons x l ih =>
    obtain ⟨name, i, a⟩ := x
    simp only [List.cons_append, stepMany]
    rcases h : s.stepOne name i a n with ⟨s', e | _⟩
    · rfl
    · exact ih s'

theorem RunSt.stepControls_eq {c : List (String × Ctrl)} {n : Bool} {d : ModDict} {s : RunSt}
    (hd : ∀ nl ∈ d, (dictGet? c nl.1).isSome = true) :
    RunSt.stepControls c n d s = RunSt.stepMany (controlSteps c d) n s := by
  induction d generalizing s with
  | nil => rfl
  | cons x d ih =>
    obtain ⟨name, ids⟩ := x
    have h1 := hd (name, ids) (by simp)
    simp only at h1
    obtain ⟨ct, hct⟩ := Option.isSome_iff_exists.mp h1
    have hcs : controlSteps c ((name, ids) :: d) =
        (ids.zip ct.acts).map (fun ia => (name, ia.1, ia.2)) ++ controlSteps c d := by
      simp [controlSteps, hct]
    rw [hcs, stepMany_append]
    simp only [stepControls, hct]
    rcases h : stepMany ((ids.zip ct.acts).map fun ia => (name, ia.1, ia.2)) n s with ⟨s', e | _⟩ <;> rw [h]
    exact ih fun nl hnl => hd nl (by simp [hnl])

theorem RunSt.coverNeed_total {l : List (String × Nat)} {x : ℚ} {s : RunSt} (hn : (l.map Prod.snd).Nodup)
    (hl : ∀ y ∈ l, (s.heap y.2).WF ∧ (s.heap y.2).Live ∧ (s.heap y.2).ffc = .flex) (hx : 0 ≤ x) :
    ∃ s', RunSt.coverNeed l x s = (s', .ok ()) := by
  induction l generalizing s x with
  | nil => exact ⟨s, rfl⟩
  | cons y l ih =>
    obtain ⟨name, i⟩ := y
    simp only [List.map_cons, List.nodup_cons] at hn
    obtain ⟨hw, hlive, hf⟩ := hl _ (List.mem_cons_self ..)
    simp only at hw hlive hf
    obtain ⟨h1, h2, h3, m', o, hs, -⟩ := hw.flex_source hlive hf hx
    have h4 : s.stepOne name i (.num (capMin (s.heap i).canProvide x)) false =
        ({ heap := s.heap.set i m', acc := s.acc.append name o }, .ok ()) := by
      unfold stepOne; rw [hs]
    simp only [coverNeed, h1, h4]
    apply ih hn.2 ?_ (by linarith)
    intro z hz
    have hne : z.2 ≠ i := fun e => hn.1 (e ▸ List.mem_map_of_mem hz)
    simpa [Heap.set, hne] using hl z (by simp [hz])

theorem RunSt.absorbExcess_total {l : List (String × Nat)} {x : ℚ} {s : RunSt} (hn : (l.map Prod.snd).Nodup)
    (hl : ∀ y ∈ l, (s.heap y.2).WF ∧ (s.heap y.2).Live ∧ (s.heap y.2).ffc = .flex) (hx : 0 ≤ x) :
    ∃ s', RunSt.absorbExcess l x s = (s', .ok ()) := by
  induction l generalizing s x with
  | nil => exact ⟨s, rfl⟩
  | cons y l ih =>
    obtain ⟨name, i⟩ := y
    simp only [List.map_cons, List.nodup_cons] at hn
    obtain ⟨hw, hlive, hf⟩ := hl _ (List.mem_cons_self ..)
    simp only at hw hlive hf
    obtain ⟨h1, h2, h3, m', o, hs, -⟩ := hw.flex_sink hlive hf hx
    have h4 : s.stepOne name i (.num (-1 * capMin (s.heap i).canAbsorb x)) false =
        ({ heap := s.heap.set i m', acc := s.acc.append name o }, .ok ()) := by
      unfold stepOne; rw [hs]
    simp only [absorbExcess, h1, h4]
    apply ih hn.2 ?_ (by linarith)
    intro z hz
    have hne : z.2 ≠ i := fun e => hn.1 (e ▸ List.mem_map_of_mem hz)
    simpa [Heap.set, hne] using hl z (by simp [hz])

end Pymgrid
