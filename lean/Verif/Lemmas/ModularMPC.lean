import Verif.Lemmas.Planner
import Verif.Lemmas.MPC
import Mathlib.Data.List.GetD

set_option autoImplicit false
set_option linter.unnecessarySeqFocus false

/-! The planning problems of modular microgrids and the controls taken from their solutions. -/

namespace Pymgrid

open Module

/-! ### States of series modules -/

theorem flatten_getD {rows : List (List ℚ)} {w : Nat} (h : ∀ r ∈ rows, r.length = w) (j k : Nat) (hk : k < w) :
    rows.flatten.getD (w * j + k) 0 = (rows.getD j []).getD k 0 := by
  induction rows generalizing j with
  | nil => simp
  | cons r rows ih =>
    have hr : r.length = w := h r (by simp)
    have ih := ih (fun r hr => h r (by simp [hr]))
    cases j with
    | zero =>
      simp only [Nat.mul_zero, Nat.zero_add, List.flatten_cons, List.getD_cons_zero]
      rw [List.getD_append _ _ _ _ (by omega)]
    | succ j =>
      simp only [List.flatten_cons, List.getD_cons_succ]
      rw [List.getD_append_right _ _ _ _ (by rw [hr, Nat.mul_succ]; omega)]
      rw [← ih j]
      congr 1
      rw [hr, Nat.mul_succ]
      omega

theorem flatten_len {rows : List (List ℚ)} {w : Nat} (h : ∀ r ∈ rows, r.length = w) :
    rows.flatten.length = w * rows.length := by
  induction rows with
  | nil => simp
  | cons r rows ih =>
    simp only [List.flatten_cons, List.length_append, List.length_cons, ih (fun r hr => h r (by simp [hr])), h r (by simp)]
    ring

theorem flatten_ones {rows : List (List ℚ)} (h : ∀ r ∈ rows, r.length = 1) : rows.flatten = rows.map fun r => r.getD 0 0 := by
  induction rows with
  | nil => rfl
  | cons r rows ih =>
    obtain ⟨x, rfl⟩ := List.length_eq_one_iff.mp (h r (by simp))
    simp [ih (fun r hr => h r (by simp [hr]))]

theorem MPC.strided_flatten {rows : List (List ℚ)} (h : ∀ r ∈ rows, r.length = 4) {k : Nat} (hk : k < 4) :
    MPC.strided k rows.flatten = rows.map fun r => r.getD k 0 := by
  unfold MPC.strided
  have hl : (rows.flatten.length + 3 - k) / 4 = rows.length := by rw [flatten_len h]; omega
  rw [hl]
  apply List.ext_getElem
  · simp
  · intro j h1 h2
    simp only [List.length_map, List.length_range] at h1
    simp only [List.getElem_map, List.getElem_range]
    rw [flatten_getD h j k hk]
    congr 1
    rw [List.getD_eq_getElem _ _ h1]

section
variable {m : Module} {t : TS}

/-- The current row and the forecast. -/
def Module.rowsNow (m : Module) (t : TS) : List (List ℚ) := t.rows.getD m.currentStep [] :: t.cur.getD []

theorem Module.TSWF.rowsNow (h : m.TSWF t) (hl : m.Live) :
    m.state = .ok (m.rowsNow t).flatten ∧ (∀ r ∈ m.rowsNow t, Within t.minRow t.maxRow r) ∧
      (m.rowsNow t).length = t.horizon + 1 := by
  have hc := hl t h.series
  refine ⟨?_, ?_, ?_⟩
  · rw [h.state]
    unfold Module.rowsNow TS.obsAt TS.flatCur
    simp [List.getD_eq_getElem?_getD, List.getElem?_eq_getElem hc]
  · intro r hr
    unfold Module.rowsNow at hr
    rcases List.mem_cons.mp hr with rfl | hr
    · rw [List.getD_eq_getElem _ _ hc]
      exact h.valid.inBox _ (List.getElem_mem hc)
    · have hs := h.shaped
      cases hcur : t.cur with
      | none => rw [hcur] at hr; simp at hr
      | some f =>
        rw [hcur] at hr hs
        exact hs.2 r (by simpa using hr)
  · unfold Module.rowsNow
    have hs := h.shaped
    cases hcur : t.cur with
    | none => rw [hcur] at hs; have : t.horizon = 0 := hs; simp [this]
    | some f => rw [hcur] at hs; simp [hs.1]

theorem Module.TSWF.outlook (h : m.TSWF t) (hl : m.Live) (h1 : t.comps.length = 1) :
    m.state = .ok (m.outlook t 0) := by
  obtain ⟨h2, h3, -⟩ := h.rowsNow hl
  rw [h2, flatten_ones fun r hr => (h.valid.width (h3 r hr)).trans h1]
  rfl

theorem Module.TSWF.outlook_len (h : m.TSWF t) (hl : m.Live) (k : Nat) : (m.outlook t k).length = t.horizon + 1 := by
  rw [← (h.rowsNow hl).2.2]
  exact List.length_map _

/-- Every value of the outlook of a series with one component lies between its bounds. -/
theorem Module.TSWF.outlook_mem (h : m.TSWF t) (hl : m.Live) {q : ℚ} (hq : q ∈ m.outlook t 0) (h1 : t.comps.length = 1)
    {lo hi : ℚ} (h2 : t.minRow[0]? = some lo) (h3 : t.maxRow[0]? = some hi) : lo ≤ q ∧ q ≤ hi := by
  obtain ⟨-, h4, -⟩ := h.rowsNow hl
  obtain ⟨r, hr, rfl⟩ := List.mem_map.mp hq
  have hw := h4 r hr
  obtain ⟨x, rfl⟩ := List.length_eq_one_iff.mp ((h.valid.width hw).trans h1)
  exact hw.2.2 0 lo hi x h2 h3 rfl

end


/-! ### Bounds that the constructors establish -/

/-- The upper bound of loads is 0, and the lower end of the state of charge is that of the charge. -/
def Kind.Sane : Kind → Prop
  | .load t => t.maxRow = [0]
  | .battery b => b.minSoc = b.minCapacity / b.maxCapacity
  | _ => True

theorem Kind.sane_core (k : Kind) : k.core.Sane ↔ k.Sane := by cases k <;> exact Iff.rfl

theorem LibraryModule.sane {m : Module} (h : LibraryModule m) : m.kind.Sane := by
  induction h with
  | battery hm good =>
    obtain ⟨b, hk, -, -, -, h1, h2, -, -, -, -, -, h8, -⟩ := Module.mkBattery_inv hm
    rw [hk]
    show b.minSoc = _
    rw [h8, h1, h2]
  | genset hm h =>
    obtain ⟨g, hg, hk, -⟩ := Module.mkGenset_inv hm
    rw [hk]
    trivial
  | series hb hw =>
    cases hb with
    | load hm =>
      obtain ⟨t, mn, mx, wf, -, hb, hs, -⟩ := Module.mkLoad_inv hm
      rw [wf.kind]
      show t.maxRow = _
      rw [hs.maxRow]
      obtain ⟨-, -, -, h4, -, h6⟩ := getBounds_spec hb
      have : mx = 0 := by
        rcases h6 with h6 | h6
        · exact h6
        · refine le_antisymm ?_ h4
          obtain ⟨x, -, rfl⟩ := List.mem_map.mp h6
          exact neg_nonpos.mpr (abs_nonneg x)
      rw [this]; rfl
    | renewable hm => obtain ⟨t, mn, mx, wf, -⟩ := Module.mkRenewable_inv hm; rw [wf.kind]; trivial
    | grid hrect hm => obtain ⟨t, mn, mx, wf, -⟩ := Module.mkGrid_inv hrect hm; rw [wf.kind]; trivial
  | balancing hl ho => trivial
  | flexGrid h hk ih => exact ih
  | step h a n ih =>
    rw [← Kind.sane_core, (kept_core.step _ a n h.wf).2, Kind.sane_core]
    exact ih
  | reset h ih =>
    rw [← Kind.sane_core, (kept_core.reset _ h.wf).2, Kind.sane_core]
    exact ih


/-! ### Modules by class -/

namespace Module

variable {m : Module}

theorem WF.loadWF (h : m.WF) (hc : m.kind.cls = .load) : ∃ t, m.LoadWF t := by
  cases h with
  | load t h => exact ⟨t, h⟩
  | battery b h => rw [h.kind] at hc; simp [Kind.cls] at hc
  | genset g h => rw [h.kind] at hc; simp [Kind.cls] at hc
  | grid p t h => rw [h.kind] at hc; simp [Kind.cls] at hc
  | renewable t h => rw [h.kind] at hc; simp [Kind.cls] at hc
  | balancing u h => rw [h.kind] at hc; simp [Kind.cls] at hc

theorem WF.renWF (h : m.WF) (hc : m.kind.cls = .renewable) : ∃ t, m.RenWF t := by
  cases h with
  | renewable t h => exact ⟨t, h⟩
  | battery b h => rw [h.kind] at hc; simp [Kind.cls] at hc
  | genset g h => rw [h.kind] at hc; simp [Kind.cls] at hc
  | grid p t h => rw [h.kind] at hc; simp [Kind.cls] at hc
  | load t h => rw [h.kind] at hc; simp [Kind.cls] at hc
  | balancing u h => rw [h.kind] at hc; simp [Kind.cls] at hc

theorem WF.batWF (h : m.WF) (hc : m.kind.cls = .battery) : ∃ b, m.BattWF b := by
  cases h with
  | battery b h => exact ⟨b, h⟩
  | genset g h => rw [h.kind] at hc; simp [Kind.cls] at hc
  | grid p t h => rw [h.kind] at hc; simp [Kind.cls] at hc
  | load t h => rw [h.kind] at hc; simp [Kind.cls] at hc
  | renewable t h => rw [h.kind] at hc; simp [Kind.cls] at hc
  | balancing u h => rw [h.kind] at hc; simp [Kind.cls] at hc

theorem WF.gridWF (h : m.WF) (hc : m.kind.cls = .grid) : ∃ p t, m.GridWF p t := by
  cases h with
  | grid p t h => exact ⟨p, t, h⟩
  | battery b h => rw [h.kind] at hc; simp [Kind.cls] at hc
  | genset g h => rw [h.kind] at hc; simp [Kind.cls] at hc
  | load t h => rw [h.kind] at hc; simp [Kind.cls] at hc
  | renewable t h => rw [h.kind] at hc; simp [Kind.cls] at hc
  | balancing u h => rw [h.kind] at hc; simp [Kind.cls] at hc

theorem WF.gensetWF (h : m.WF) (hc : m.kind.cls = .genset) : ∃ g, m.GenWF g := by
  cases h with
  | genset g h => exact ⟨g, h⟩
  | battery b h => rw [h.kind] at hc; simp [Kind.cls] at hc
  | grid p t h => rw [h.kind] at hc; simp [Kind.cls] at hc
  | load t h => rw [h.kind] at hc; simp [Kind.cls] at hc
  | renewable t h => rw [h.kind] at hc; simp [Kind.cls] at hc
  | balancing u h => rw [h.kind] at hc; simp [Kind.cls] at hc

end Module

/-! ### Prices of emissions -/

theorem filterMap_unique {α β : Type} {l : List α} (hn : l.Nodup) {f : α → Option β} {x : α} {b : β} (hx : x ∈ l)
    (hf : f x = some b) (hu : ∀ y ∈ l, (f y).isSome = true → y = x) : l.filterMap f = [b] := by
  induction l with
  | nil => simp at hx
  | cons a l ih =>
    have hn' := List.nodup_cons.mp hn
    rcases List.mem_cons.mp hx with rfl | hx
    · have : l.filterMap f = [] := by
        rw [List.filterMap_eq_nil_iff]
        intro y hy
        cases hfy : f y with
        | none => rfl
        | some c =>
          have := hu y (by simp [hy]) (by rw [hfy]; rfl)
          rw [this] at hy
          exact absurd hy hn'.1
      rw [List.filterMap_cons, hf, this]
    · have ha : f a = none := by
        cases hfa : f a with
        | none => rfl
        | some c =>
          have := hu a (by simp) (by rw [hfa]; rfl)
          rw [this] at hn'
          exact absurd hx hn'.1
      rw [List.filterMap_cons, ha]
      exact ih hn'.2 hx fun y hy => hu y (by simp [hy])

theorem filterMap_or {α β : Type} (l : List α) (f g h : α → Option β)
    (hh : ∀ x, (h x = f x ∧ g x = none) ∨ (h x = g x ∧ f x = none)) :
    (l.filterMap h).Perm (l.filterMap f ++ l.filterMap g) := by
  induction l with
  | nil => exact .refl _
  | cons a l ih =>
    simp only [List.filterMap_cons]
    rcases hh a with ⟨h1, h2⟩ | ⟨h1, h2⟩
    · rw [h1, h2]
      cases f a with
      | none => exact ih
      | some b => exact ih.cons b
    · rw [h1, h2]
      cases g a with
      | none => exact ih
      | some b => exact (ih.cons b).trans List.perm_middle.symm


/-! ### The problem of a step -/

namespace MPC

/-- A state in which a planner can be used. -/
structure Ready (mods : List (String × Nat)) (pl : Planner) (m : Microgrid) : Prop where
  ok : GridOK mods m
  perm : (Container.toTuples m.cont.fullDict).Perm mods
  singles : Singles m
  placed : Placed mods m.heap pl
  sane : ∀ nm ∈ mods, (m.heap nm.2).kind.Sane
  room : ∀ nm ∈ mods, ∀ b, (m.heap nm.2).kind = .battery b → 0 ≤ b.minCapacity ∧ 0 < b.maxCapacity

section
variable {mods : List (String × Nat)} {pl : Planner} {m : Microgrid}

theorem Ready.state (r : Ready mods pl m) {nm : String × Nat} (hm : nm ∈ mods) :
    stateOf m (some nm.1) = (m.heap nm.2).state := by
  unfold stateOf itemOf
  simp only [itemOf_ok r.singles r.perm hm]

theorem Ready.batteryOf (r : Ready mods pl m) {nm : String × Nat} (hm : nm ∈ mods) (hn : nm.1 = "battery") {b : Battery}
    (hb : (m.heap nm.2).kind = .battery b) : MPC.batteryOf m = .ok b := by
  have h1 := itemOf_ok r.singles r.perm hm
  have h2 : fieldsOf m batteryPart nm.1 = .ok b := fieldsOf_at r.singles r.perm hm (by unfold batteryPart; rw [hb])
  unfold MPC.batteryOf
  rw [← hn, h1]
  exact h2

/-- The prices of emissions of the grid and of the genset. -/
def gridPrice (m : Module) : Option ℚ := match m.kind with
  | .grid p _ => some p.costPerCo2
  | _ => none

@[inherit_doc gridPrice]
def gensetPrice (m : Module) : Option ℚ := match m.kind with
  | .genset n => some n.costPerCo2
  | _ => none

theorem meanCo2_eq {h : Heap} {l : List ℚ}
    (hp : (mods.filterMap fun nm => gridPrice (h nm.2)).Perm l) {l' : List ℚ}
    (hp' : (mods.filterMap fun nm => gensetPrice (h nm.2)).Perm l') :
    (l ++ l').sum / (l ++ l').length = meanCo2 h mods := by
  have := (filterMap_or mods (fun nm => gridPrice (h nm.2)) (fun nm => gensetPrice (h nm.2)) (fun nm =>
    match (h nm.2).kind with
    | .grid p _ => some p.costPerCo2
    | .genset n => some n.costPerCo2
    | _ => none) (by
      intro x
      unfold gridPrice gensetPrice
      cases (h x.2).kind <;> simp)).trans (hp.append hp')
  have e := congrArg₂ (fun (a : ℚ) (b : Nat) => a / (b : ℚ)) this.sum_eq this.length_eq
  exact e.symm

theorem Ready.gridPrices (r : Ready mods pl m) :
    (∃ nm ∈ mods, ∃ p t, (m.heap nm.2).GridWF p t ∧ pl.names.grid = some nm.1 ∧
      (mods.filterMap fun nm => gridPrice (m.heap nm.2)) = [p.costPerCo2]) ∨
    (pl.names.grid = none ∧ (∀ nm ∈ mods, (m.heap nm.2).kind.cls ≠ .grid) ∧
      (mods.filterMap fun nm => gridPrice (m.heap nm.2)) = []) := by
  rcases r.placed.grid with ⟨nm, hm, e, hc⟩ | ⟨e, hc⟩
  · obtain ⟨p, t, h⟩ := (r.ok.wf nm hm).gridWF hc
    refine .inl ⟨nm, hm, p, t, h, e, filterMap_unique (List.Nodup.of_map _ r.placed.names) hm ?_ ?_⟩
    · unfold gridPrice; rw [h.kind]
    · intro y hy hs
      apply r.placed.uniq y hy nm hm
      rw [hc]
      unfold gridPrice at hs
      cases hk : (m.heap y.2).kind <;> rw [hk] at hs <;> simp at hs
      rfl
  · refine .inr ⟨e, hc, ?_⟩
    rw [List.filterMap_eq_nil_iff]
    intro y hy
    have := hc y hy
    unfold gridPrice
    cases hk : (m.heap y.2).kind <;> rw [hk] at this <;> simp [Kind.cls] at this ⊢

theorem Ready.gensetPrices (r : Ready mods pl m) :
    (∃ nm ∈ mods, ∃ n, (m.heap nm.2).GenWF n ∧ pl.names.genset = some nm.1 ∧
      (mods.filterMap fun nm => gensetPrice (m.heap nm.2)) = [n.costPerCo2]) ∨
    (pl.names.genset = none ∧ (∀ nm ∈ mods, (m.heap nm.2).kind.cls ≠ .genset) ∧
      (mods.filterMap fun nm => gensetPrice (m.heap nm.2)) = []) := by
  rcases r.placed.genset with ⟨nm, hm, e, hc⟩ | ⟨e, hc⟩
  · obtain ⟨n, h⟩ := (r.ok.wf nm hm).gensetWF hc
    refine .inl ⟨nm, hm, n, h, e, filterMap_unique (List.Nodup.of_map _ r.placed.names) hm ?_ ?_⟩
    · unfold gensetPrice; rw [h.kind]
    · intro y hy hs
      apply r.placed.uniq y hy nm hm
      rw [hc]
      unfold gensetPrice at hs
      cases hk : (m.heap y.2).kind <;> rw [hk] at hs <;> simp at hs
      rfl
  · refine .inr ⟨e, hc, ?_⟩
    rw [List.filterMap_eq_nil_iff]
    intro y hy
    have := hc y hy
    unfold gensetPrice
    cases hk : (m.heap y.2).kind <;> rw [hk] at this <;> simp [Kind.cls] at this ⊢

/-- What is read from the grid. -/
theorem Ready.gridInputs (r : Ready mods pl m) (live : ∀ nm ∈ mods, (m.heap nm.2).Live) :
    ∃ g, MPC.gridInputs pl m = .ok g ∧
      (∀ nm ∈ mods, ∀ p t, (m.heap nm.2).kind = .grid p t →
        g.status = List.replicate pl.horizon 1 ∧ g.pImport = p.maxImport ∧ g.pExport = p.maxExport ∧
          g.importPrice = (m.heap nm.2).outlook t 0 ∧ g.exportPrice = (m.heap nm.2).outlook t 1 ∧
          g.co2 = (m.heap nm.2).outlook t 2) ∧
      ((∀ nm ∈ mods, (m.heap nm.2).kind.cls ≠ .grid) →
        g.status = List.replicate pl.horizon 0 ∧ g.pImport = 0 ∧ g.pExport = 0) ∧
      0 ≤ g.pImport ∧ 0 ≤ g.pExport ∧ (g.status = List.replicate pl.horizon 0 ∨ g.status = List.replicate pl.horizon 1) ∧
      (mods.filterMap fun nm => gridPrice (m.heap nm.2)) = g.costCo2 ∧
      (g.costCo2 = [] ↔ ∀ nm ∈ mods, (m.heap nm.2).kind.cls ≠ .grid) := by
  rcases r.gridPrices with ⟨nm, hm, p, t, h, e, hf⟩ | ⟨e, hc, hf⟩
  · obtain ⟨h1, h2, -⟩ := h.ts.rowsNow (live nm hm)
    have h4 : ∀ q ∈ (m.heap nm.2).rowsNow t, q.length = 4 := fun q hq => (h.ts.valid.width (h2 q hq)).trans h.four
    refine ⟨⟨List.replicate pl.horizon 1, p.maxImport, p.maxExport, (m.heap nm.2).outlook t 0, (m.heap nm.2).outlook t 1,
      (m.heap nm.2).outlook t 2, [p.costPerCo2]⟩, ?_, ?_, ?_, h.imp, h.exp, .inr rfl, hf, ?_⟩
    · unfold MPC.gridInputs
      simp only [e, r.state hm, h1, fieldsOf_at r.singles r.perm hm (f := gridPart) (a := (p, t)) (by unfold gridPart; rw [h.kind]),
        strided_flatten h4 (k := 0) (by decide), strided_flatten h4 (k := 1) (by decide), strided_flatten h4 (k := 2) (by decide)]
      rfl
    · intro nm' hm' p' t' hk
      obtain rfl := r.placed.uniq nm' hm' nm hm (by rw [hk, h.kind]; rfl)
      rw [h.kind] at hk
      injection hk with h1 h2
      subst h1 h2
      exact ⟨rfl, rfl, rfl, rfl, rfl, rfl⟩
    · intro hn
      exact absurd (by rw [h.kind]; rfl) (hn nm hm)
    · simp only [List.cons_ne_nil, false_iff]
      intro hn
      exact absurd (by rw [h.kind]; rfl) (hn nm hm)
  · refine ⟨_, by unfold MPC.gridInputs; simp only [e]; rfl, ?_, ?_, le_rfl, le_rfl, .inl rfl, hf, ?_⟩
    · intro nm' hm' p' t' hk
      exact absurd (by rw [hk]; rfl) (hc nm' hm')
    · intro _; exact ⟨rfl, rfl, rfl⟩
    · simp only [true_iff]; exact hc

theorem Ready.gensetCo2 (r : Ready mods pl m) :
    ∃ c, gensetCo2Cost pl m = .ok c ∧ (mods.filterMap fun nm => gensetPrice (m.heap nm.2)) = c ∧
      (c = [] ↔ ∀ nm ∈ mods, (m.heap nm.2).kind.cls ≠ .genset) := by
  rcases r.gensetPrices with ⟨nm, hm, n, h, e, hf⟩ | ⟨e, hc, hf⟩
  · refine ⟨[n.costPerCo2], ?_, hf, ?_⟩
    · unfold gensetCo2Cost
      simp only [e, fieldsOf_at r.singles r.perm hm (f := gensetPart) (a := n) (by unfold gensetPart; rw [h.kind])]
    · simp only [List.cons_ne_nil, false_iff]
      intro hn
      exact absurd (by rw [h.kind]; rfl) (hn nm hm)
  · exact ⟨[], by unfold gensetCo2Cost; simp only [e], hf, by simp only [true_iff]; exact hc⟩

theorem source_iff {h : Heap} : HasSource h mods ↔
    ¬ ((∀ nm ∈ mods, (h nm.2).kind.cls ≠ .grid) ∧ ∀ nm ∈ mods, (h nm.2).kind.cls ≠ .genset) := by
  constructor
  · rintro ⟨nm, hm, ⟨p, t, hk⟩ | ⟨n, hk⟩⟩ ⟨h1, h2⟩
    · exact h1 nm hm (by rw [hk]; rfl)
    · exact h2 nm hm (by rw [hk]; rfl)
  · intro hn
    by_contra hs
    apply hn
    constructor
    · intro nm hm hc
      cases hk : (h nm.2).kind <;> rw [hk] at hc <;> simp [Kind.cls] at hc
      exact hs ⟨nm, hm, .inl ⟨_, _, hk⟩⟩
    · intro nm hm hc
      cases hk : (h nm.2).kind <;> rw [hk] at hc <;> simp [Kind.cls] at hc
      exact hs ⟨nm, hm, .inr ⟨_, hk⟩⟩

theorem Ready.problem (r : Ready mods pl m) (live : ∀ nm ∈ mods, (m.heap nm.2).Live) (hs : HasSource m.heap mods) :
    ∃ P, modularProblem pl m = .ok P ∧ Poses m.heap mods P ∧ P.Good ∧ (P.inputs.eMin ≤ P.inputs.soc ∧ P.inputs.soc ≤ P.inputs.eMax) ∧
      0 < P.horizon ∧ P.genset = pl.names.genset.isSome := by
  obtain ⟨nl, hml, enl, cl⟩ := r.placed.load
  obtain ⟨tl, wl⟩ := (r.ok.wf nl hml).loadWF cl
  obtain ⟨np, hmp, enp, cp⟩ := r.placed.pv
  obtain ⟨tp, wp⟩ := (r.ok.wf np hmp).renWF cp
  obtain ⟨nb, hmb, enb, hnb, cb⟩ := r.placed.battery
  obtain ⟨b, wb⟩ := (r.ok.wf nb hmb).batWF cb
  obtain ⟨g, hg, g1, g2, g3, g4, g5, g6, g7⟩ := r.gridInputs live
  obtain ⟨c, hc, c1, c2⟩ := r.gensetCo2
  have hsl : stateOf m pl.names.load = .ok ((m.heap nl.2).outlook tl 0) := by
    rw [enl, r.state hml]; exact wl.ts.outlook (live nl hml) wl.one
  have hsp : stateOf m pl.names.pv = .ok ((m.heap np.2).outlook tp 0) := by
    rw [enp, r.state hmp]; exact wp.ts.outlook (live np hmp) wp.one
  have hne : ¬ g.costCo2 ++ c = [] := by
    rw [List.append_eq_nil_iff, g7, c2]
    exact source_iff.mp hs
  obtain ⟨sb1, sb2, sb3⟩ := r.placed.sBattery nb hmb { b with charge := 0, soc := 0 } (by rw [wb.kind]; rfl)
  obtain ⟨room1, room2⟩ := r.room nb hmb b wb.kind
  have hsane : b.minSoc = b.minCapacity / b.maxCapacity := by
    have := r.sane nb hmb; rw [wb.kind] at this; exact this
  have hhl : pl.horizon = tl.horizon + 1 := r.placed.horizon nl hml _ (by rw [wl.kind]; rfl)
  have hhp : pl.horizon = tp.horizon + 1 := r.placed.horizon np hmp _ (by rw [wp.kind]; rfl)
  refine ⟨_, by unfold modularProblem; simp only [hsl, hsp, hg, r.batteryOf hmb hnb wb.kind, hc, if_neg hne]; rfl, ?_, ?_, ?_, ?_, rfl⟩
  · constructor
    · intro nm hm t hk
      obtain rfl := r.placed.uniq nm hm nl hml (by rw [hk, wl.kind]; rfl)
      rw [wl.kind] at hk
      injection hk with hk
      subst hk
      exact ⟨hhl, by simp⟩
    · intro nm hm t hk
      obtain rfl := r.placed.uniq nm hm np hmp (by rw [hk, wp.kind]; rfl)
      rw [wp.kind] at hk
      injection hk with hk
      subst hk
      rfl
    · intro nm hm b' hk
      obtain rfl := r.placed.uniq nm hm nb hmb (by rw [hk, wb.kind]; rfl)
      rw [wb.kind] at hk
      injection hk with hk
      subst hk
      exact ⟨sb1, sb2, sb3, rfl, rfl, rfl, rfl, rfl⟩
    · intro nm hm n hk
      have hcls : (m.heap nm.2).kind.cls = .genset := by rw [hk]; rfl
      refine ⟨?_, r.placed.sGenset nm hm { n with status := 0, goal := 0, untilUp := 0, untilDown := 0 } (by rw [hk]; rfl)⟩
      rcases r.placed.genset with ⟨_, _, e, _⟩ | ⟨e, e'⟩
      · simp [e]
      · exact absurd hcls (e' nm hm)
    · intro hn
      rcases r.placed.genset with ⟨nm, hm, e, hcls⟩ | ⟨e, e'⟩
      · exfalso
        cases hk : (m.heap nm.2).kind <;> rw [hk] at hcls <;> simp [Kind.cls] at hcls
        exact hn nm hm _ hk
      · simp [e]
    · exact g1
    · intro hn
      apply g2
      intro nm hm hcls
      cases hk : (m.heap nm.2).kind <;> rw [hk] at hcls <;> simp [Kind.cls] at hcls
      exact hn nm hm _ _ hk
    · exact meanCo2_eq (by rw [g6]) (by rw [c1])
    · intro nm hm u hk
      exact r.placed.sBalancing nm hm u (by rw [hk]; rfl)
  · have hgen : 0 ≤ pl.static.gensetMin ∧ pl.static.gensetMin ≤ pl.static.gensetMax := by
      rcases r.placed.genset with ⟨nm, hm, e, hcls⟩ | ⟨e, e'⟩
      · obtain ⟨n, wn⟩ := (r.ok.wf nm hm).gensetWF hcls
        obtain ⟨-, s1, s2, -⟩ := r.placed.sGenset nm hm { n with status := 0, goal := 0, untilUp := 0, untilDown := 0 }
          (by rw [wn.kind]; rfl)
        rw [s1, s2]
        exact ⟨wn.min_nonneg, wn.min_le⟩
      · rw [(r.placed.sNone e).1, (r.placed.sNone e).2]
        exact ⟨le_rfl, le_rfl⟩
    constructor
    · simp only [sb1]; exact ⟨wb.valid.eff_pos, wb.valid.eff_le⟩
    · simp only [sb2]; exact room2
    · show 0 ≤ b.minSoc
      rw [hsane]; exact div_nonneg room1 room2.le
    · exact wb.valid.maxCharge_nonneg
    · exact wb.valid.maxDischarge_nonneg
    · exact g3
    · exact g4
    · exact hgen.1
    · exact hgen.2
    · intro j hj
      simp only at hj ⊢
      have hlen := wl.ts.outlook_len (live nl hml) 0
      rw [List.getD_eq_getElem _ _ (by rw [List.length_map, hlen, ← hhl]; exact hj)]
      rw [List.getElem_map]
      have hmax : tl.maxRow = [0] := by have := r.sane nl hml; rw [wl.kind] at this; exact this
      have hmin : ∃ lo, tl.minRow[0]? = some lo := by
        have := wl.ts.valid.minLen
        rw [wl.one] at this
        exact ⟨tl.minRow[0]'(by omega), List.getElem?_eq_getElem _⟩
      obtain ⟨lo, hlo⟩ := hmin
      have := (wl.ts.outlook_mem (live nl hml) (List.getElem_mem (n := j) (by rw [hlen, ← hhl]; exact hj)) wl.one hlo
        (hi := 0) (by rw [hmax]; rfl)).2
      linarith
    · intro j hj
      simp only at hj ⊢
      have hlen := wp.ts.outlook_len (live np hmp) 0
      rw [List.getD_eq_getElem _ _ (by rw [hlen, ← hhp]; exact hj)]
      have hmax : ∃ hi, tp.maxRow[0]? = some hi := by
        have := wp.ts.valid.box
        have hl := this.2.1
        have hl0 := this.1
        rw [wp.low] at hl hl0
        refine ⟨tp.maxRow[0]'(by simp at hl hl0 ⊢; omega), List.getElem?_eq_getElem _⟩
      obtain ⟨hi, hhi⟩ := hmax
      exact (wp.ts.outlook_mem (live np hmp) (List.getElem_mem (n := j) (by rw [hlen, ← hhp]; exact hj)) wp.one (lo := 0)
        (by rw [wp.low]; rfl) hhi).1
    · intro j hj
      simp only at hj ⊢
      rcases g5 with e | e
      · left; rw [e, List.getD_replicate _ hj]
      · right; rw [e, List.getD_replicate _ hj]
  · constructor
    · show b.minSoc ≤ b.soc
      rw [hsane, wb.valid.soc_eq]
      exact div_le_div_of_nonneg_right wb.valid.low room2.le
    · show b.soc ≤ 1
      rw [wb.valid.soc_eq, div_le_one room2]
      exact wb.valid.high
  · show 0 < pl.horizon
    omega

/-- Without grid and genset there is no price of emissions. -/
theorem Ready.no_problem (r : Ready mods pl m) (live : ∀ nm ∈ mods, (m.heap nm.2).Live) (hs : ¬ HasSource m.heap mods) :
    modularProblem pl m = .error .runtime := by
  obtain ⟨nl, hml, enl, cl⟩ := r.placed.load
  obtain ⟨tl, wl⟩ := (r.ok.wf nl hml).loadWF cl
  obtain ⟨np, hmp, enp, cp⟩ := r.placed.pv
  obtain ⟨tp, wp⟩ := (r.ok.wf np hmp).renWF cp
  obtain ⟨nb, hmb, enb, hnb, cb⟩ := r.placed.battery
  obtain ⟨b, wb⟩ := (r.ok.wf nb hmb).batWF cb
  obtain ⟨g, hg, -, -, -, -, -, -, g7⟩ := r.gridInputs live
  obtain ⟨c, hc, -, c2⟩ := r.gensetCo2
  have hsl : stateOf m pl.names.load = .ok ((m.heap nl.2).outlook tl 0) := by
    rw [enl, r.state hml]; exact wl.ts.outlook (live nl hml) wl.one
  have hsp : stateOf m pl.names.pv = .ok ((m.heap np.2).outlook tp 0) := by
    rw [enp, r.state hmp]; exact wp.ts.outlook (live np hmp) wp.one
  have hne : g.costCo2 ++ c = [] := by
    rw [List.append_eq_nil_iff, g7, c2]
    by_contra hh
    exact hs (source_iff.mpr hh)
  unfold modularProblem
  simp only [hsl, hsp, hg, r.batteryOf hmb hnb wb.kind, hc, if_pos hne]

theorem Ready.of_core {m' : Microgrid} (r : Ready mods pl m) (ok : GridOK mods m') (hc : m'.cont = m.cont)
    (he : ∀ nm ∈ mods, (m'.heap nm.2).kind.core = (m.heap nm.2).kind.core) : Ready mods pl m' := by
  refine ⟨ok, by rw [hc]; exact r.perm, by unfold Singles; rw [hc]; exact r.singles, r.placed.later he, ?_, ?_⟩
  · intro nm hm
    rw [← Kind.sane_core, he nm hm, Kind.sane_core]
    exact r.sane nm hm
  · intro nm hm b hb
    have := he nm hm
    rw [hb] at this
    cases hk : (m.heap nm.2).kind with
    | battery b' =>
      rw [hk] at this
      simp only [Kind.core, Kind.battery.injEq] at this
      have h1 := congrArg Battery.minCapacity this
      have h2 := congrArg Battery.maxCapacity this
      simp only at h1 h2
      rw [h1, h2]
      exact r.room nm hm b' hk
    | _ => rw [hk] at this; simp [Kind.core] at this

theorem Ready.runG (r : Ready mods pl m) (ops : List GOp) : Ready mods pl (runG m ops) :=
  r.of_core (r.ok.runG ops) (runG_fixed m ops).cont fun nm hm => (kept_core.runG m ops nm.2 (r.ok.wf nm hm)).2

/-! ### The control of a step -/

theorem Ready.carries (r : Ready mods pl m) {P : Problem} (hP : P.genset = pl.names.genset.isSome) (x : Point) :
    Carries m.heap mods P x (modularControl pl.names x) := by
  obtain ⟨nb, hmb, enb, -, cb⟩ := r.placed.battery
  have hne : ∀ y ∈ mods, ∀ z ∈ mods, (m.heap y.2).kind.cls ≠ (m.heap z.2).kind.cls → y.1 ≠ z.1 := by
    intro y hy z hz hc he
    have := List.inj_on_of_nodup_map r.placed.names hy hz he
    exact hc (by rw [this])
  constructor
  · intro nm hm b hk
    obtain rfl := r.placed.uniq nm hm nb hmb (by rw [hk, cb]; rfl)
    unfold modularControl
    simp only [enb, Option.getD_some, dictGet?_dictSet, if_true]
    unfold Point.flow
    rw [hP]
    cases pl.names.genset <;> simp
  · intro nm hm p t hk
    rcases r.placed.grid with ⟨ng, hmg, e, cg⟩ | ⟨e, e'⟩
    · obtain rfl := r.placed.uniq nm hm ng hmg (by rw [hk, cg]; rfl)
      have h1 : nb.1 ≠ nm.1 := hne nb hmb nm hm (by rw [cb, cg]; decide)
      unfold modularControl
      simp only [enb, e, Option.getD_some, dictGet?_dictSet, if_neg h1, if_true]
      unfold Point.flow
      rw [hP]
      cases pl.names.genset <;> simp
    · exact absurd (by rw [hk]; rfl) (e' nm hm)
  · intro nm hm n hk
    rcases r.placed.genset with ⟨ns, hms, e, cs⟩ | ⟨e, e'⟩
    · obtain rfl := r.placed.uniq nm hm ns hms (by rw [hk, cs]; rfl)
      have h1 : nb.1 ≠ nm.1 := hne nb hmb nm hm (by rw [cb, cs]; decide)
      unfold modularControl
      rw [e] at hP
      simp only [Option.isSome_some] at hP
      rcases r.placed.grid with ⟨ng, hmg, eg, cg⟩ | ⟨eg, -⟩
      · have h2 : ng.1 ≠ nm.1 := hne ng hmg nm hm (by rw [cg, cs]; decide)
        simp only [enb, e, eg, Option.getD_some, dictGet?_dictSet, if_neg h1, if_neg h2, if_true]
        simp [Point.flow, hP]
      · simp only [enb, e, eg, Option.getD_some, dictGet?_dictSet, if_neg h1, if_true]
        simp [Point.flow, hP]
    · exact absurd (by rw [hk]; rfl) (e' nm hm)

theorem named_one (hn : (mods.map Prod.fst).Nodup) (h : Heap) (f : FFC) (name : String) :
    (modulesNamed h mods f name).length ≤ 1 := by
  unfold modulesNamed
  rw [List.length_map]
  have hsub : ((mods.filter fun nm => decide (nm.1 = name ∧ (h nm.2).ffc = f)).map Prod.fst).Nodup :=
    hn.sublist (List.filter_sublist.map _)
  have key : ∀ y ∈ mods.filter (fun nm => decide (nm.1 = name ∧ (h nm.2).ffc = f)), y.1 = name := by
    intro y hy
    have := (List.mem_filter.mp hy).2
    simp only [decide_eq_true_eq] at this
    exact this.1
  generalize mods.filter (fun nm => decide (nm.1 = name ∧ (h nm.2).ffc = f)) = l at *
  match l with
  | [] => simp
  | [_] => simp
  | a :: b :: l =>
    exfalso
    have h1 := key a (by simp)
    have h2 := key b (by simp)
    simp [h1, h2] at hsub

/-- Every controllable module has an entry that it accepts. -/
theorem Ready.entry (r : Ready mods pl m) {P : Problem} {x : Point} {c : List (String × Ctrl)}
    (hc : Carries m.heap mods P x c) (hf : 0 < P.horizon → Feasible P x) (hh : 0 < P.horizon)
    (hg : ∀ nm ∈ mods, ∀ n, (m.heap nm.2).kind = .genset n → P.genset = true) {nm : String × Nat} (hm : nm ∈ mods)
    (hctl : (m.heap nm.2).ffc = .controllable) :
    ∃ k a, dictGet? c nm.1 = some k ∧ k.acts = [a] ∧ (m.heap nm.2).Accepts a false := by
  cases r.ok.wf nm hm with
  | battery b h => exact ⟨_, _, hc.battery nm hm b h.kind, rfl, by simp only [Accepts, h.kind]; exact ⟨_, request_num _ _⟩⟩
  | grid p t h w => exact ⟨_, _, hc.grid nm hm p t h.kind, rfl, by simp only [Accepts, h.kind]; exact ⟨_, request_num _ _⟩⟩
  | genset g h =>
    have ad := ((feasible_iff P x).mp (hf hh)) 0 hh
    have hg := hg nm hm g h.kind
    refine ⟨_, _, hc.genset nm hm g h.kind, rfl, ?_⟩
    simp only [Accepts, h.kind]
    have key := ad.genset
    rw [hg, if_pos rfl] at key
    rw [hg]
    refine ⟨_, _, rfl, ?_, ?_, _, request_genset h _ _, ?_⟩
    · rcases key with ⟨e, -⟩ | ⟨e, -⟩ <;> rw [e] <;> norm_num
    · rcases key with ⟨e, -⟩ | ⟨e, -⟩ <;> rw [e] <;> norm_num
    · rcases key with ⟨-, e, -⟩ | ⟨-, e, -⟩
      · exact e.ge
      · exact e
  | load t h w => rw [h.ffc] at hctl; exact absurd hctl (by decide)
  | renewable t h w => rw [h.ffc] at hctl; exact absurd hctl (by decide)
  | balancing u h => rw [h.ffc] at hctl; exact absurd hctl (by decide)

/-! ### The loop -/

theorem Ready.step {F c : Nat} {prio : List Element} {solve : Solver} (r : Ready mods pl m) (run : Running mods prio F m c)
    (hid : (mods.map Prod.snd).Nodup) (hc : c < F) (hs : HasSource m.heap mods) (sound : solve.Sound) :
    ∃ P x ctl g' o, Poses m.heap mods P ∧ solve P = some x ∧ Carries m.heap mods P x ctl ∧ m.run ctl false = (g', .ok o) ∧
      modularStep solve pl m = (g', .ok o) ∧ o.done = decide (F ≤ c + 1) ∧ Running mods prio F g' (c + 1) ∧
      Ready mods pl g' ∧ HasSource g'.heap mods := by
  obtain ⟨P, hP, poses, good, win, hh, hgen⟩ := r.problem (run.live hc) hs
  obtain ⟨y, hy⟩ := exists_feasible good win
  obtain ⟨x, hx⟩ := sound.complete P y hy
  have hfeas := sound.feasible P x hx
  have carries := r.carries hgen x
  have entry := fun {nm} (hm : nm ∈ mods) => r.entry carries (fun _ => hfeas) hh (fun nm hm n hk => (poses.genset nm hm n hk).1) hm
  obtain ⟨g', o, hr, hd, run'⟩ := run.step_on hid hc (ctl := modularControl pl.names x)
    (by
      intro nm hm hctl
      obtain ⟨k, a, h1, h2, -⟩ := entry hm hctl
      exact ⟨k, h1, by rw [h2]; exact named_one r.placed.names _ _ _⟩)
    (by
      intro nl hnl
      have hne : nl.2 ≠ [] := PriorityList.level_nonempty (by have := hnl; rwa [run.ok.cont] at this)
      obtain ⟨i₀, hi₀⟩ := List.exists_mem_of_ne_nil _ hne
      obtain ⟨hm₀, hf₀⟩ := run.ok.mem_levelDict nl hnl i₀ hi₀
      obtain ⟨k, a, h1, h2, h3⟩ := entry hm₀ hf₀
      refine ⟨k, h1, fun ia hia => ?_⟩
      have hi := (List.of_mem_zip hia).1
      have ha := (List.of_mem_zip hia).2
      rw [h2, List.mem_singleton] at ha
      obtain ⟨hm', hf'⟩ := run.ok.mem_levelDict nl hnl ia.1 hi
      have : (nl.1, ia.1) = (nl.1, i₀) := List.inj_on_of_nodup_map r.placed.names hm' hm₀ rfl
      have : ia.1 = i₀ := (Prod.mk.inj this).2
      rw [this, ha]
      exact h3)
  have hg' : g' = Pymgrid.runG m [.run (modularControl pl.names x) false] := by
    simp [Pymgrid.runG, GOp.apply, hr]
  have r' : Ready mods pl g' := by rw [hg']; exact r.runG _
  refine ⟨P, x, _, g', o, poses, hx, carries, hr, ?_, hd, run', r', ?_⟩
  · unfold modularStep
    simp only [hP, hx, hr]
  · rw [source_iff] at hs ⊢
    have hcl : ∀ j, (g'.heap j).kind.cls = (m.heap j).kind.cls := fun j => by
      have := kept_cls.toRespected.run m (modularControl pl.names x) false j
      rwa [hr] at this
    simpa only [hcl] using hs

theorem Ready.loop {F : Nat} {prio : List Element} {solve : Solver} (hid : (mods.map Prod.snd).Nodup) (sound : solve.Sound)
    (n : Nat) {m : Microgrid} {c : Nat} (r : Ready mods pl m) (run : Running mods prio F m c) (hc : c < F)
    (hs : HasSource m.heap mods) :
    ∃ g' os, modularLoop solve pl n m = (g', .ok ()) ∧ PlanRuns solve mods m os g' ∧ os.length = min n (F - c) := by
  induction n generalizing m c with
  | zero => exact ⟨m, [], rfl, .nil m, by simp⟩
  | succ n ih =>
    obtain ⟨P, x, ctl, g₁, o, poses, hx, carries, hr, hst, hd, run', r', hs'⟩ := r.step run hid hc hs sound
    simp only [modularLoop, hst]
    by_cases hF : F ≤ c + 1
    · rw [hd, if_pos (by simpa using hF)]
      exact ⟨g₁, [o], rfl, .cons poses hx carries hr (.nil g₁), by simp only [List.length_singleton]; omega⟩
    · rw [hd, if_neg (by simpa using hF)]
      obtain ⟨g', os, e, pr, hl⟩ := ih r' run' (by omega) hs'
      exact ⟨g', o :: os, e, .cons poses hx carries hr pr, by simp only [List.length_cons, hl]; omega⟩

/-! ### The number of iterations -/

theorem foldl_min_iff (l : List Nat) (a n : Nat) : n ≤ l.foldl min a ↔ n ≤ a ∧ ∀ x ∈ l, n ≤ x := by
  induction l generalizing a with
  | nil => simp
  | cons b l ih =>
    simp only [List.foldl_cons, ih, List.mem_cons, forall_eq_or_imp, le_min_iff, and_assoc]

/-- `len(microgrid)` is the length of the shortest series. -/
theorem lengthOf_spec (ok : GridOK mods m) (hne : ∃ nm ∈ mods, ∃ t, (m.heap nm.2).series? = some t) :
    ∃ l, lengthOf m = .ok l ∧ ∀ n, n ≤ l ↔ ∀ nm ∈ mods, ∀ t, (m.heap nm.2).series? = some t → n ≤ t.rows.length := by
  have hp : m.cont.fullList.Perm (mods.map Prod.snd) := by rw [ok.cont]; exact Container.fullList_perm _ _
  unfold lengthOf
  have hmem : ∀ k, k ∈ (m.cont.fullList.filterMap fun i =>
      match (m.heap i).kind with
      | .grid _ t | .load t | .renewable t => some t.rows.length
      | _ => none) ↔ ∃ nm ∈ mods, ∃ t, (m.heap nm.2).series? = some t ∧ t.rows.length = k := by
    intro k
    simp only [List.mem_filterMap, hp.mem_iff, List.mem_map]
    constructor
    · rintro ⟨i, ⟨nm, hm, rfl⟩, h⟩
      refine ⟨nm, hm, ?_⟩
      unfold series?
      cases hk : (m.heap nm.2).kind <;> rw [hk] at h <;> simp at h <;> simp [h]
    · rintro ⟨nm, hm, t, ht, rfl⟩
      refine ⟨nm.2, ⟨nm, hm, rfl⟩, ?_⟩
      unfold series? at ht
      cases hk : (m.heap nm.2).kind <;> rw [hk] at ht <;> simp at ht <;> simp [ht]
  generalize (m.cont.fullList.filterMap fun i =>
      match (m.heap i).kind with
      | .grid _ t | .load t | .renewable t => some t.rows.length
      | _ => none) = l at hmem
  cases l with
  | nil =>
    obtain ⟨nm, hm, t, ht⟩ := hne
    have := (hmem t.rows.length).mpr ⟨nm, hm, t, ht, rfl⟩
    simp at this
  | cons a l =>
    refine ⟨_, rfl, fun n => ?_⟩
    rw [foldl_min_iff]
    constructor
    · rintro ⟨h1, h2⟩ nm hm t ht
      rcases List.mem_cons.mp ((hmem _).mpr ⟨nm, hm, t, ht, rfl⟩) with e | e
      · rw [e]; exact h1
      · exact h2 _ e
    · intro h
      have key : ∀ k ∈ a :: l, n ≤ k := by
        intro k hk
        obtain ⟨nm, hm, t, ht, rfl⟩ := (hmem k).mp hk
        exact h nm hm t ht
      exact ⟨key a (by simp), fun x hx => key x (by simp [hx])⟩

theorem Placed.has_series {h : Heap} (p : Placed mods h pl) : ∃ nm ∈ mods, ∃ t, (h nm.2).series? = some t := by
  obtain ⟨nm, hm, -, hc⟩ := p.load
  refine ⟨nm, hm, ?_⟩
  unfold series?
  cases hk : (h nm.2).kind <;> rw [hk] at hc <;> simp [Kind.cls] at hc ⊢

/-! ### Which microgrids are accepted -/

theorem create_ready (ok : GridOK mods m) (hd : DistinctNames m.heap mods) (h : createModular m = .ok pl)
    (sane : ∀ nm ∈ mods, (m.heap nm.2).kind.Sane)
    (room : ∀ nm ∈ mods, ∀ b, (m.heap nm.2).kind = .battery b → 0 ≤ b.minCapacity ∧ 0 < b.maxCapacity) :
    Ready mods pl m := by
  have hp := GridOK.tuples ok hd
  obtain ⟨x, k, hx, -⟩ := create_inv h
  exact ⟨ok, hp, convertible_singles hx, create_placed hp h, sane, room⟩

theorem full_nonempty (ok : GridOK mods m) {nl : String × List Nat} (hx : nl ∈ m.cont.fullDict) : nl.2 ≠ [] := by
  rw [ok.cont] at hx
  obtain ⟨d, hd, hxd⟩ := Container.mem_toDict hx
  have : ∃ f s, (nl.1, nl.2) ∈ (Container.build m.heap mods).cat f s := by
    simp only [Container.all, Container.level, List.mem_append, List.mem_cons, List.not_mem_nil, or_false] at hd
    rcases hd with (((rfl | rfl | rfl) | (rfl | rfl | rfl)) | (rfl | rfl | rfl)) <;> exact ⟨_, _, hxd⟩
  obtain ⟨f, s, hs⟩ := this
  exact (Container.mem_cat.mp hs).2

theorem create_of {x : Nonmodular} (hx : m.toNonmodular = .ok x) :
    ∃ k, createModular m = match parseModular m (getModules m) with
      | .error e => .error e
      | .ok static => .ok { names := getModules m, horizon := k + 1, static } := by
  obtain ⟨load, pv, l, p, fuel, horizon, -, -, -, -, -, -, hh, -⟩ := Legacy.toNonmodular_ok hx
  exact ⟨horizon, by unfold createModular; simp only [hx, hh]; rfl⟩

theorem battery_none (ok : GridOK mods m) (hp : (Container.toTuples m.cont.fullDict).Perm mods) (hs : Singles m)
    (hn : ¬ ∃ nm ∈ mods, nm.1 = "battery" ∧ ∃ b, (m.heap nm.2).kind = .battery b) : batteryOf m = .error .attribute := by
  unfold batteryOf
  cases hd : dictGet? m.cont.fullDict "battery" with
  | none => rfl
  | some l =>
    simp only
    unfold fieldsOf itemOf
    rw [hd]
    have hl := hs _ (dictGet?_mem hd)
    have hne : l ≠ [] := by
      have := dictGet?_mem hd
      intro h0
      rw [h0] at this
      exact full_nonempty ok this rfl
    match l, hl, hne, hd with
    | [i], _, _, hd =>
      simp only
      have hm : ("battery", i) ∈ mods := by
        refine hp.mem_iff.mp ?_
        simp only [Container.toTuples, List.mem_flatMap, List.mem_map]
        exact ⟨_, dictGet?_mem hd, i, by simp, rfl⟩
      cases hk : (m.heap i).kind with
      | battery b => exact absurd ⟨_, hm, rfl, b, hk⟩ hn
      | _ => simp [batteryPart, hk]
    | _ :: _ :: _, h, _, _ => simp at h

/-- The conversion has checked everything but the battery's name and the balancing module. -/
theorem parse_of (ok : GridOK mods m) (hp : (Container.toTuples m.cont.fullDict).Perm mods) {x : Nonmodular}
    (hx : m.toNonmodular = .ok x) :
    ((∃ s, parseModular m (getModules m) = .ok s) ↔ Suited m.heap mods) ∧
      ((¬ ∃ nm ∈ mods, nm.1 = "battery" ∧ ∃ b, (m.heap nm.2).kind = .battery b) →
        parseModular m (getModules m) = .error .attribute) ∧
      ((∃ nm ∈ mods, nm.1 = "battery" ∧ ∃ b, (m.heap nm.2).kind = .battery b) →
        (¬ ∃ nm ∈ mods, ∃ u, (m.heap nm.2).kind = .balancing u) → parseModular m (getModules m) = .error .key) := by
  have hs := convertible_singles hx
  have bat : ∀ nm ∈ mods, nm.1 = "battery" → ∀ b, (m.heap nm.2).kind = .battery b → batteryOf m = .ok b := by
    intro nm hm hn b hb
    have h1 := itemOf_ok hs hp hm
    have h2 : fieldsOf m batteryPart nm.1 = .ok b := fieldsOf_at hs hp hm (by unfold batteryPart; rw [hb])
    unfold batteryOf
    rw [← hn, h1]
    exact h2
  have bal : (∃ nm ∈ mods, ∃ u, (m.heap nm.2).kind = .balancing u) → ∃ n u, (getModules m).balancing = some n ∧
      fieldsOf m balancingPart n = .ok u := by
    rintro ⟨nm, hm, u, hu⟩
    rcases nameOf_spec (f := balancingPart) hp with ⟨nm', hm', e, hf'⟩ | ⟨-, e⟩
    · obtain ⟨u', hu'⟩ := Option.isSome_iff_exists.mp hf'
      exact ⟨nm'.1, u', e, fieldsOf_at hs hp hm' hu'⟩
    · have := e nm hm; simp [balancingPart, hu] at this
  have nobal : (¬ ∃ nm ∈ mods, ∃ u, (m.heap nm.2).kind = .balancing u) → (getModules m).balancing = none := by
    intro hn
    rcases nameOf_spec (f := balancingPart) hp with ⟨nm', hm', e, hf'⟩ | ⟨e, -⟩
    · exfalso
      apply hn
      refine ⟨nm', hm', ?_⟩
      unfold balancingPart at hf'
      cases hk : (m.heap nm'.2).kind <;> rw [hk] at hf' <;> simp at hf' ⊢
    · exact e
  have gen : (getModules m).genset = none ∨ ∃ n g fuel, (getModules m).genset = some n ∧ fieldsOf m gensetPart n = .ok g ∧
      g.cost = .const fuel := by
    rcases nameOf_spec (f := gensetPart) hp with ⟨nm', hm', e, hf'⟩ | ⟨e, -⟩
    · right
      obtain ⟨n, hn⟩ := Option.isSome_iff_exists.mp hf'
      obtain ⟨load, pv, l, p, fuel, horizon, ⟨-, -, -, -, c5, -⟩, -, -, -, -, hfuel, -⟩ := Legacy.toNonmodular_ok hx
      have hmem : n ∈ m.parts gensetPart := Legacy.mem_parts.mpr ⟨nm', hp.mem_iff.mpr hm', hn⟩
      rw [Legacy.mem_head c5] at hmem
      rw [hmem] at hfuel
      unfold Legacy.fuelOf at hfuel
      simp only at hfuel
      cases hc : n.cost with
      | fn f => rw [hc] at hfuel; simp at hfuel
      | const c => exact ⟨nm'.1, n, c, e, fieldsOf_at hs hp hm' hn, hc⟩
    · exact .inl e
  refine ⟨⟨?_, ?_⟩, ?_, ?_⟩
  · rintro ⟨s, h⟩
    obtain ⟨b, nu, u, hb, hnu, hub, -⟩ := parse_inv h
    obtain ⟨i, hi, hbi⟩ := fieldsOf_inv hp hb
    obtain ⟨iu, hiu, hbu⟩ := fieldsOf_inv hp hub
    refine ⟨⟨_, hi, rfl, ?_⟩, _, hiu, ?_⟩
    · unfold batteryPart at hbi
      cases hk : (m.heap i).kind <;> rw [hk] at hbi <;> simp at hbi ⊢
    · unfold balancingPart at hbu
      cases hk : (m.heap iu).kind <;> rw [hk] at hbu <;> simp at hbu ⊢
  · rintro ⟨⟨nm, hm, hn, b, hb⟩, h2⟩
    obtain ⟨nu, u, h3, h4⟩ := bal h2
    unfold parseModular
    rw [bat nm hm hn b hb]
    simp only [h3, h4]
    rcases gen with e | ⟨n, g, fuel, e, e', e''⟩
    · rw [e]; exact ⟨_, rfl⟩
    · rw [e]; simp only [e', e'']; exact ⟨_, rfl⟩
  · intro hn
    unfold parseModular
    rw [battery_none ok hp hs hn]
  · rintro ⟨nm, hm, hn, b, hb⟩ h2
    unfold parseModular
    rw [bat nm hm hn b hb]
    simp only [nobal h2]

end

end MPC

end Pymgrid
