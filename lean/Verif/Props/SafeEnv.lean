import Verif.Model.SafeEnv
import Verif.Props.Legacy
import Mathlib.Tactic.Linarith
import Mathlib.Tactic.FieldSimp
import Mathlib.Tactic.NormNum

/-!
# C121: the constraint values of the deprecated safe environment tell whether an action keeps the limits
-/

namespace Pymgrid.Legacy

/-- Specification: the factors by which constraints are divided are positive. -/
structure Scalable (p : Params) : Prop where
  capacity : 0 < p.capacity
  imp : 0 < p.pImport
  exp : 0 < p.pExport
  socMax : 0 < p.socMax
  socMin : 0 < p.socMin
  top : 0 < p.rated * p.pmax
  bottom : 0 < p.rated * p.pmin

/-- Specification: what an action has to keep, given the observation. -/
structure KeepsLimits (a : Arch) (p : Params) (tolerance status : ℚ) (v : EnvValues) : Prop where
  charge : v.charge ≤ v.capaCharge
  discharge : v.discharge ≤ v.capaDischarge
  imp : v.imp ≤ p.pImport * status
  exp : v.exp ≤ p.pExport * status
  soc : p.socMin ≤ v.soc ∧ v.soc ≤ p.socMax
  genset : a.genset = true → (-tolerance ≤ v.genset ∧ v.genset < 1) ∨
    (1 ≤ v.genset ∧ p.rated * p.pmin ≤ v.genset ∧ v.genset ≤ p.rated * p.pmax)

private theorem scaled_iff (scale : Bool) {f x : ℚ} (hf : 0 < f) : scaledBy scale f x ≤ 0 ↔ x ≤ 0 := by
  cases scale
  · rfl
  · simp only [scaledBy, if_true]
    rw [div_le_iff₀ hf, zero_mul]

private theorem scaled_zero (scale : Bool) {f x : ℚ} (hf : 0 < f) : scaledBy scale f x = 0 ↔ x = 0 := by
  cases scale
  · rfl
  · simp only [scaledBy, if_true]
    rw [div_eq_zero_iff]
    exact ⟨fun h => h.resolve_right hf.ne', Or.inl⟩

private theorem constraintValues_of (a : Arch) (p : Params) (scale only : Bool) (tolerance : ℚ) {v : EnvValues} {status : ℚ}
    (hs : v.status = some status) :
    let l := [scaledBy scale p.capacity (v.charge - v.capaCharge), scaledBy scale p.capacity (v.discharge - v.capaDischarge),
      scaledBy scale p.pImport (v.imp - p.pImport * status), scaledBy scale p.pExport (v.exp - p.pExport * status),
      scaledBy scale p.socMax (v.soc - p.socMax), scaledBy scale p.socMin (p.socMin - v.soc)] ++
      (if a.genset then gensetConstraints p scale tolerance v else [])
    constraintValues a p scale only tolerance v = some (if only = true then l else l ++ [envBalance a p scale v]) := by
  simp only [constraintValues, inequalities, hs]

/-- As many values are returned as announced. -/
theorem C121_count {a : Arch} {p : Params} {scale only : Bool} {tolerance : ℚ} {v : EnvValues} {l : List ℚ}
    (h : constraintValues a p scale only tolerance v = some l) : l.length = numConstraints a only := by
  unfold constraintValues inequalities at h
  cases hs : v.status with
  | none => simp [hs] at h
  | some s =>
    simp only [hs, Option.some.injEq] at h
    subst h
    cases hg : a.genset <;> cases only <;> by_cases h1 : v.genset < 1 <;> simp [numConstraints, gensetConstraints, hg, h1]

/-- No inequality value is positive if and only if the action keeps the limits of the observation, scaled or not.
    Missing: microgrids without grid (`C121_no_grid`) and the limits before the step (`C121_stale`). -/
theorem C121_inequalities_partial {a : Arch} {p : Params} (hp : Scalable p) (scale : Bool) (tolerance : ℚ) {v : EnvValues} {status : ℚ}
    (hs : v.status = some status) :
    ∃ l, constraintValues a p scale true tolerance v = some l ∧ ((∀ x ∈ l, x ≤ 0) ↔ KeepsLimits a p tolerance status v) := by
  have hg : (∀ x ∈ gensetConstraints p scale tolerance v, x ≤ 0) ↔ ((-tolerance ≤ v.genset ∧ v.genset < 1) ∨
      (1 ≤ v.genset ∧ p.rated * p.pmin ≤ v.genset ∧ v.genset ≤ p.rated * p.pmax)) := by
    unfold gensetConstraints
    split
    · rename_i h1
      simp only [List.mem_cons, List.not_mem_nil, or_false, forall_eq_or_imp, forall_eq, scaled_iff scale hp.top]
      constructor
      · rintro ⟨-, h⟩; exact .inl ⟨by linarith, h1⟩
      · rintro (h | h)
        · exact ⟨by linarith, by linarith [h.1]⟩
        · exact absurd h1 (not_lt.2 h.1)
    · rename_i h1
      simp only [List.mem_cons, List.not_mem_nil, or_false, forall_eq_or_imp, forall_eq, scaled_iff scale hp.top,
        scaled_iff scale hp.bottom]
      constructor
      · rintro ⟨h2, h3⟩; exact .inr ⟨not_lt.1 h1, by linarith, by linarith⟩
      · rintro (h | h)
        · exact absurd h.2 h1
        · exact ⟨by linarith [h.2.2], by linarith [h.2.1]⟩
  have hl := constraintValues_of a p scale true tolerance hs
  simp only [if_true] at hl
  refine ⟨_, hl, ?_⟩
  simp only [List.cons_append, List.nil_append, List.mem_cons, forall_eq_or_imp, scaled_iff scale hp.capacity, scaled_iff scale hp.imp,
    scaled_iff scale hp.exp, scaled_iff scale hp.socMax, scaled_iff scale hp.socMin]
  constructor
  · rintro ⟨h1, h2, h3, h4, h5, h6, h7⟩
    refine ⟨by linarith, by linarith, by linarith, by linarith, ⟨by linarith, by linarith⟩, fun h => ?_⟩
    rw [if_pos h] at h7
    exact hg.1 h7
  · intro k
    refine ⟨by linarith [k.charge], by linarith [k.discharge], by linarith [k.imp], by linarith [k.exp], by linarith [k.soc.2],
      by linarith [k.soc.1], ?_⟩
    split
    · rename_i h; exact hg.2 (k.genset h)
    · intro x hx; cases hx

/-- The last value, if asked for, is zero if and only if what is produced, discharged, imported and used of the PV is what is
    consumed, charged and exported. -/
theorem C121_balance {a : Arch} {p : Params} (hp : Scalable p) (scale : Bool) (tolerance : ℚ) {v : EnvValues} {status : ℚ}
    (hs : v.status = some status) :
    ∃ l x, constraintValues a p scale false tolerance v = some (l ++ [x]) ∧
      (x = 0 ↔ (if a.genset then v.genset else 0) + v.discharge + v.imp + v.pvConsumed = v.load + v.charge + v.exp) := by
  have hl := constraintValues_of a p scale false tolerance hs
  simp only [Bool.false_eq_true, if_false] at hl
  refine ⟨_, _, hl, ?_⟩
  unfold envBalance
  rw [scaled_zero scale hp.capacity]
  constructor <;> intro h <;> linarith

/-- Without a grid there are no constraint values: the status of the grid is asked for. -/
theorem C121_no_grid (a : Arch) (p : Params) (scale only : Bool) (tolerance : ℚ) (v : EnvValues) (h : v.status = none) :
    constraintValues a p scale only tolerance v = none := by
  simp [constraintValues, inequalities, h]

/-- The limits of charging are those after the step: charging all that may be charged has a positive value. -/
theorem C121_stale {a : Arch} {p : Params} (hp : Scalable p) (he : 0 < p.eff) (hb : a.battery = true) {soc : ℚ} (hsoc : soc < p.socMax)
    (load pv : Option ℚ) (t : Nat) (grid : Option GridRow) (scale : Bool) (tolerance : ℚ) {v : EnvValues} {status : ℚ}
    (hs : v.status = some status) (hc : v.charge = p.capaToCharge soc)
    (hv : v.capaCharge = (nextRow a p soc v.charge 0 load pv t grid).capaToCharge) :
    ∃ l, constraintValues a p scale true tolerance v = some l ∧ ∃ x ∈ l, 0 < x := by
  have hcap := hp.capacity
  have hx : 0 < (p.socMax * p.capacity - soc * p.capacity) * p.eff :=
    mul_pos (by nlinarith [mul_pos (sub_pos.2 hsoc) hcap]) he
  have hch : v.charge = (p.socMax * p.capacity - soc * p.capacity) * p.eff := by
    rw [hc, Params.capaToCharge, max_eq_left hx.le]
  have hlt : v.capaCharge < v.charge := by
    rw [hv]
    simp only [nextRow, hb, if_true, Params.capaToCharge]
    refine max_lt ?_ (by rw [hch]; exact hx)
    have h2 : (p.socMax * p.capacity - (soc + (v.charge * p.eff - 0 / p.eff) / p.capacity) * p.capacity) * p.eff =
        v.charge - v.charge * (p.eff * p.eff) := by
      rw [zero_div, sub_zero, add_mul, div_mul_cancel₀ _ hcap.ne']
      rw [show (p.socMax * p.capacity - (soc * p.capacity + v.charge * p.eff)) * p.eff =
        (p.socMax * p.capacity - soc * p.capacity) * p.eff - v.charge * (p.eff * p.eff) by ring, ← hch]
    rw [h2]
    have : 0 < v.charge * (p.eff * p.eff) := mul_pos (hch ▸ hx) (mul_pos he he)
    linarith
  obtain ⟨l, hl, hiff⟩ := C121_inequalities_partial (a := a) hp scale tolerance hs
  refine ⟨l, hl, ?_⟩
  by_contra hn
  push Not at hn
  have := (hiff.1 hn).charge
  linarith

/-- The sample parameters can be scaled by. -/
theorem demoParams_scalable : Scalable demoParams := by
  constructor <;> norm_num [demoParams]

/-- Negative imports and generation pass: constraints are on one side only. -/
theorem C121_negative : ∃ v : EnvValues, v.imp < 0 ∧ v.genset < 0 ∧ KeepsLimits ⟨true, true, true⟩ demoParams 1 1 v ∧
    constraintValues ⟨true, true, true⟩ demoParams false true 1 v = some [-10, -10, -205, -200, -1/2, -3/10, -3/2, -1/2] := by
  refine ⟨⟨-5, 0, 0, 0, -1/2, 0, 0, 0, 1/2, 10, 10, some 1⟩, by norm_num, by norm_num, ?_, by decide +kernel⟩
  refine ⟨?_, ?_, ?_, ?_, ⟨?_, ?_⟩, fun _ => .inl ⟨?_, ?_⟩⟩ <;> norm_num [demoParams]

/-- A case meeting the hypotheses: charging 45 units, all that the half empty sample battery may be given. -/
example : ∃ l, constraintValues ⟨true, true, true⟩ demoParams true true 1
    ⟨100, 0, 45, 0, 0, 5, 60, 5, 181/200, 171/20, 60, some 1⟩ = some l ∧ ∃ x ∈ l, 0 < x := by
  have h : demoParams.capaToCharge (1/2) = 45 := by norm_num [Params.capaToCharge, demoParams]
  refine C121_stale demoParams_scalable (by norm_num [demoParams]) rfl (soc := 1/2) (by norm_num [demoParams]) (some 40) (some 50) 0 none
    true 1 rfl h.symm ?_
  norm_num [nextRow, Params.capaToCharge, demoParams]

end Pymgrid.Legacy
