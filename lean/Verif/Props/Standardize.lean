import Verif.Model.Standardize
import Verif.Props.Legacy
import Mathlib.Tactic.Linarith
import Mathlib.Tactic.FieldSimp
import Mathlib.Tactic.NormNum

/-!
# C120: standardised actions of the deprecated environments stand for the controls within the limits
-/

namespace Pymgrid.Legacy

/-- Specification: an action is in a box, entry by entry. -/
def InBox (low high a : List ℚ) : Prop :=
  a.length = low.length ∧ a.length = high.length ∧
    ∀ (i : Nat) (x l u : ℚ), a[i]? = some x → low[i]? = some l → high[i]? = some u → l ≤ x ∧ x ≤ u

private theorem roundtrip (f : Bool) : ∀ data mean std : List ℚ, (∀ s ∈ std, s ≠ 0) → data.length = mean.length →
    mean.length = std.length →
    List.zipWith (scale1 (!f)) (List.zipWith (scale1 f) data (mean.zip std)) (mean.zip std) = data := by
  intro data
  induction data with
  | nil => intro mean std _ _ _; simp
  | cons x data ih =>
    intro mean std hs h1 h2
    match mean, std, h1, h2 with
    | m :: mean, s :: std, h1, h2 =>
      have h0 : s ≠ 0 := hs s (by simp)
      simp only [List.zip_cons_cons, List.zipWith_cons_cons]
      rw [ih mean std (fun s h => hs s (by simp [h])) (by simpa using h1) (by simpa using h2)]
      congr 1
      cases f
      · simp only [scale1]
        simp
        field_simp
      · simp only [scale1]
        simp
        field_simp
        try ring

/-- The standard deviations that are used are at least one. -/
theorem C120_scales {genset : Bool} {columns : String → Option (ℚ × ℚ)} {mean std : List ℚ}
    (h : actionScales genset columns = some (mean, std)) : mean.length = std.length ∧ ∀ s ∈ std, 1 ≤ s := by
  unfold actionScales at h
  split at h
  · cases h
  · cases h
    refine ⟨by simp, ?_⟩
    intro s hs
    obtain ⟨ms, -, rfl⟩ := List.mem_map.1 hs
    split <;> linarith

/-- Standardising and going back, in either order, gives back any action of the right shape. -/
theorem C120_roundtrip {genset : Bool} {columns : String → Option (ℚ × ℚ)} {mean std : List ℚ}
    (h : actionScales genset columns = some (mean, std)) (forward : Bool) (a : List ℚ) (ha : a.length = mean.length) :
    ∃ b, standardize forward a mean std = some b ∧ standardize (!forward) b mean std = some a := by
  obtain ⟨hl, hs⟩ := C120_scales h
  refine ⟨_, if_pos ⟨ha, hl⟩, ?_⟩
  unfold standardize
  rw [if_pos ⟨by simp; omega, hl⟩, roundtrip forward a mean std (fun s hm => by have := hs s hm; intro h0; linarith) ha hl]

/-- With a generator the standardised environment cannot be made: there is no column of the name that is looked up. -/
theorem C120_genset (p : Params) (pvMax : ℚ) (columns : String → Option (ℚ × ℚ))
    (hc : columns "grid_import, grid_export, battery_charge, battery_discharge, pv_consummed" = none) :
    actionBox true p pvMax columns = none := by
  have h : actionScales true columns = none := by
    unfold actionScales actionKeys
    simp only [if_true, List.mapM_cons, List.mapM_nil, hc]
    cases columns "genset" <;> rfl
  unfold actionBox
  rw [h]

private theorem up_of {m s x u : ℚ} (hs : 1 ≤ s) (h : x ≤ (u - m) / s) : x * s + m ≤ u := by
  have := (le_div_iff₀ (by linarith : (0 : ℚ) < s)).1 h
  linarith

private theorem low_of {m s x l : ℚ} (hs : 1 ≤ s) (h : (l - m) / s ≤ x) : l ≤ x * s + m := by
  have := (div_le_iff₀ (by linarith : (0 : ℚ) < s)).1 h
  linarith

private theorem of_up {m s y u : ℚ} (hs : 1 ≤ s) (h : y ≤ u) : (y - m) / s ≤ (u - m) / s :=
  div_le_div_of_nonneg_right (by linarith) (by linarith)

/-- The five means and standard deviations of an environment without generator. -/
private theorem box_false {p : Params} {pvMax : ℚ} {columns : String → Option (ℚ × ℚ)} {low high mean std : List ℚ}
    (h : actionBox false p pvMax columns = some ((low, high), (mean, std))) :
    ∃ m0 m1 m2 m3 m4 s0 s1 s2 s3 s4 : ℚ, mean = [m0, m1, m2, m3, m4] ∧ std = [s0, s1, s2, s3, s4] ∧
      (1 ≤ s0 ∧ 1 ≤ s1 ∧ 1 ≤ s2 ∧ 1 ≤ s3 ∧ 1 ≤ s4) ∧
      low = [(0 - m0) / s0, (0 - m1) / s1, (0 - m2) / s2, (0 - m3) / s3, (0 - m4) / s4] ∧
      high = [(p.pImport - m0) / s0, 1 / 10, (p.pCharge - m2) / s2, (p.pDischarge - m3) / s3, (pvMax - m4) / s4] := by
  unfold actionBox at h
  split at h
  · cases h
  rename_i mean' std' hsc
  have hge := (C120_scales hsc).2
  unfold actionScales at hsc
  split at hsc
  · cases hsc
  rename_i l hl
  have hlen : l.length = 5 := by
    unfold actionKeys at hl
    simp only [Bool.false_eq_true, if_false, List.mapM_cons, List.mapM_nil, Option.bind_eq_bind, Option.pure_def,
      Option.bind_eq_some_iff, Option.some.injEq] at hl
    obtain ⟨_, _, _, ⟨_, _, _, ⟨_, _, _, ⟨_, _, _, ⟨_, _, _, rfl, rfl⟩, rfl⟩, rfl⟩, rfl⟩, rfl⟩ := hl
    rfl
  match l, hlen with
  | [a, b, c, d, e], _ =>
    simp only [Option.some.injEq, Prod.mk.injEq] at hsc
    obtain ⟨rfl, rfl⟩ := hsc
    simp only [List.map_cons, List.map_nil] at hge h
    simp only [List.mem_cons, List.not_mem_nil, or_false, forall_eq_or_imp, forall_eq] at hge
    simp only [standardize, actionBounds, Bool.false_eq_true, if_false, List.length_cons, List.length_nil, and_self, if_true,
      List.zip_cons_cons, List.zip_nil_right, List.zipWith_cons_cons, List.zipWith_nil_right, scale1,
      List.set_cons_succ, List.set_cons_zero, Option.some.injEq, Prod.mk.injEq] at h
    obtain ⟨⟨rfl, rfl⟩, rfl, rfl⟩ := h
    exact ⟨_, _, _, _, _, _, _, _, _, _, rfl, rfl, hge, rfl, rfl⟩

/-- Without a generator every action of the action space has a control that is not negative and within the limits of imports,
    charging and discharging.  Missing: the limit of exports (`C120_export`). -/
theorem C120_limits_partial {p : Params} {pvMax : ℚ} {columns : String → Option (ℚ × ℚ)} {low high : List ℚ} {scales : List ℚ × List ℚ}
    (h : actionBox false p pvMax columns = some ((low, high), scales)) {a : List ℚ} (ha : InBox low high a) :
    ∃ imp exp c d, stepControl false scales a = some { charge := some c, discharge := some d, imp := some imp, exp := some exp } ∧
      (0 ≤ imp ∧ imp ≤ p.pImport) ∧ 0 ≤ exp ∧ (0 ≤ c ∧ c ≤ p.pCharge) ∧ (0 ≤ d ∧ d ≤ p.pDischarge) := by
  obtain ⟨mean, std⟩ := scales
  obtain ⟨m0, m1, m2, m3, m4, s0, s1, s2, s3, s4, rfl, rfl, ⟨g0, g1, g2, g3, g4⟩, rfl, rfl⟩ := box_false h
  obtain ⟨hl, -, hb⟩ := ha
  match a, hl with
  | [x0, x1, x2, x3, x4], _ =>
    have b0 := hb 0 _ _ _ rfl rfl rfl
    have b1 := hb 1 _ _ _ rfl rfl rfl
    have b2 := hb 2 _ _ _ rfl rfl rfl
    have b3 := hb 3 _ _ _ rfl rfl rfl
    exact ⟨x0 * s0 + m0, x1 * s1 + m1, x2 * s2 + m2, x3 * s3 + m3, rfl, ⟨low_of g0 b0.1, up_of g0 b0.2⟩, low_of g1 b1.1,
      ⟨low_of g2 b2.1, up_of g2 b2.2⟩, ⟨low_of g3 b3.1, up_of g3 b3.2⟩⟩

/-- Without a generator a control within the limits is that of an action of the action space if and only if it exports no more
    than the mean of the exports and a tenth of their standard deviation, whatever the limit of exports. -/
theorem C120_export {p : Params} {pvMax : ℚ} (hpv : 0 ≤ pvMax) {columns : String → Option (ℚ × ℚ)} {low high mean std : List ℚ}
    (h : actionBox false p pvMax columns = some ((low, high), (mean, std))) {imp exp c d : ℚ} (hi : 0 ≤ imp ∧ imp ≤ p.pImport)
    (he : 0 ≤ exp) (hc : 0 ≤ c ∧ c ≤ p.pCharge) (hd : 0 ≤ d ∧ d ≤ p.pDischarge) :
    (∃ a, InBox low high a ∧
      stepControl false (mean, std) a = some { charge := some c, discharge := some d, imp := some imp, exp := some exp }) ↔
    ∃ m s, mean[1]? = some m ∧ std[1]? = some s ∧ exp ≤ m + s / 10 := by
  obtain ⟨m0, m1, m2, m3, m4, s0, s1, s2, s3, s4, rfl, rfl, ⟨g0, g1, g2, g3, g4⟩, rfl, rfl⟩ := box_false h
  have p0 : s0 ≠ 0 := by linarith
  have p1 : s1 ≠ 0 := by linarith
  have p2 : s2 ≠ 0 := by linarith
  have p3 : s3 ≠ 0 := by linarith
  constructor
  · rintro ⟨a, ⟨hl, -, hb⟩, hs⟩
    match a, hl with
    | [x0, x1, x2, x3, x4], _ =>
      have b1 := (hb 1 _ _ _ rfl rfl rfl).2
      have hs' : some (⟨some (x2 * s2 + m2), some (x3 * s3 + m3), some (x0 * s0 + m0), some (x1 * s1 + m1), none⟩ : Control) = _ := hs
      simp only [Option.some.injEq, Control.mk.injEq] at hs'
      refine ⟨m1, s1, rfl, rfl, ?_⟩
      rw [← hs'.2.2.2.1]
      nlinarith
  · rintro ⟨m, s, hm, hs, hle⟩
    simp only [List.getElem?_cons_succ, List.getElem?_cons_zero, Option.some.injEq] at hm hs
    subst hm hs
    refine ⟨[(imp - m0) / s0, (exp - m1) / s1, (c - m2) / s2, (d - m3) / s3, (0 - m4) / s4], ⟨rfl, rfl, ?_⟩, ?_⟩
    · intro i x l u hx hl hu
      match i with
      | 0 => cases hx; cases hl; cases hu; exact ⟨of_up g0 hi.1, of_up g0 hi.2⟩
      | 1 =>
        cases hx; cases hl; cases hu
        refine ⟨of_up g1 he, ?_⟩
        rw [div_le_iff₀ (by linarith)]
        linarith
      | 2 => cases hx; cases hl; cases hu; exact ⟨of_up g2 hc.1, of_up g2 hc.2⟩
      | 3 => cases hx; cases hl; cases hu; exact ⟨of_up g3 hd.1, of_up g3 hd.2⟩
      | 4 => cases hx; cases hl; cases hu; exact ⟨le_rfl, of_up g4 hpv⟩
      | i + 5 => simp at hx
    · change some (⟨some ((c - m2) / s2 * s2 + m2), some ((d - m3) / s3 * s3 + m3), some ((imp - m0) / s0 * s0 + m0),
        some ((exp - m1) / s1 * s1 + m1), none⟩ : Control) = _
      simp only [div_mul_cancel₀ _ p0, div_mul_cancel₀ _ p1, div_mul_cancel₀ _ p2, div_mul_cancel₀ _ p3, sub_add_cancel]

/-- The columns of a run that always exports `x` and does nothing else. -/
def steadyExport (x : ℚ) (k : String) : Option (ℚ × ℚ) :=
  if k = "grid_export" then some (x, 0)
  else if k ∈ ["grid_import", "battery_charge", "battery_discharge", "pv_consummed"] then some (0, 0) else none

/-- The claim fails in both directions: after a run that always exports at the limit there is an action that exports more than
    the limit, after one that never exports none that exports one unit. -/
theorem C120_violated :
    (∃ low high scales a x, actionBox false demoParams 50 (steadyExport demoParams.pExport) = some ((low, high), scales) ∧
      InBox low high a ∧ (stepControl false scales a).bind (·.exp) = some x ∧ demoParams.pExport < x) ∧
    (∃ low high scales, actionBox false demoParams 50 (steadyExport 0) = some ((low, high), scales) ∧ 1 ≤ demoParams.pExport ∧
      ∀ a, InBox low high a →
        stepControl false scales a ≠ some { charge := some 0, discharge := some 0, imp := some 0, exp := some 1 }) := by
  have hn : 0 ≤ demoParams.pImport ∧ 0 ≤ demoParams.pCharge ∧ 0 ≤ demoParams.pDischarge ∧ 1 ≤ demoParams.pExport := by decide +kernel
  constructor
  · have hb : ∃ low high, actionBox false demoParams 50 (steadyExport demoParams.pExport) =
        some ((low, high), ([0, demoParams.pExport, 0, 0, 0], [1, 1, 1, 1, 1])) := by
      have hm : (actionBox false demoParams 50 (steadyExport demoParams.pExport)).map (·.2) =
          some ([0, demoParams.pExport, 0, 0, 0], [1, 1, 1, 1, 1]) := by decide +kernel
      obtain ⟨⟨⟨low, high⟩, sc⟩, h1, h2⟩ := Option.map_eq_some_iff.1 hm
      exact ⟨low, high, by rw [h1]; simp only [Option.some.injEq, Prod.mk.injEq, true_and]; exact h2⟩
    obtain ⟨low, high, hb⟩ := hb
    obtain ⟨a, ha, hs⟩ := (C120_export (by norm_num) hb (imp := 0) (exp := demoParams.pExport + 1 / 10) (c := 0) (d := 0)
      ⟨le_rfl, hn.1⟩ (by linarith [hn.2.2.2]) ⟨le_rfl, hn.2.1⟩ ⟨le_rfl, hn.2.2.1⟩).2 ⟨_, _, rfl, rfl, le_rfl⟩
    exact ⟨low, high, _, a, _, hb, ha, by rw [hs]; rfl, by linarith⟩
  · have hb : ∃ low high, actionBox false demoParams 50 (steadyExport 0) = some ((low, high), ([0, 0, 0, 0, 0], [1, 1, 1, 1, 1])) := by
      have hm : (actionBox false demoParams 50 (steadyExport 0)).map (·.2) =
          some ([0, 0, 0, 0, 0], [1, 1, 1, 1, 1]) := by decide +kernel
      obtain ⟨⟨⟨low, high⟩, sc⟩, h1, h2⟩ := Option.map_eq_some_iff.1 hm
      exact ⟨low, high, by rw [h1]; simp only [Option.some.injEq, Prod.mk.injEq, true_and]; exact h2⟩
    obtain ⟨low, high, hb⟩ := hb
    refine ⟨low, high, _, hb, hn.2.2.2, fun a ha hs => ?_⟩
    obtain ⟨m, s, hm, hs', hle⟩ := (C120_export (by norm_num) hb (imp := 0) (exp := 1) (c := 0) (d := 0)
      ⟨le_rfl, hn.1⟩ (by norm_num) ⟨le_rfl, hn.2.1⟩ ⟨le_rfl, hn.2.2.1⟩).1 ⟨a, ha, hs⟩
    cases hm
    cases hs'
    norm_num at hle

/-- Cases meeting the hypotheses of `C120_roundtrip` and `C120_genset`. -/
example : actionScales false (steadyExport 7) = some ([0, 7, 0, 0, 0], [1, 1, 1, 1, 1]) ∧
    standardize true [3, 8, 2, 0, 1] [0, 7, 0, 0, 0] [1, 4, 1, 1, 1] = some [3, 1 / 4, 2, 0, 1] ∧
    (fun k => if k = "genset" then some (4, 2) else steadyExport 7 k)
      "grid_import, grid_export, battery_charge, battery_discharge, pv_consummed" = none := by
  decide +kernel

end Pymgrid.Legacy
