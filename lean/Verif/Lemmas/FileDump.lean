import Verif.Lemmas.GridSerialize
import Verif.Model.FileDump

set_option autoImplicit false

/-! Dumping to files: what the files hold in the end and what is read from them. -/

namespace Pymgrid
open Module

/-! ### Files -/

theorem writeAll_append (f : Files) (a b : List (String × Dump)) :
    f.writeAll (a ++ b) = (f.writeAll a).writeAll b := by
  induction a generalizing f with
  | nil => rfl
  | cons x a ih => exact ih _

theorem series_other {f : Files} {ds : List (String × Dump)} {t : Tag} (h : ∀ nd ∈ ds, nd.2.params.tag ≠ t) :
    (f.writeAll ds).series t = f.series t := by
  induction ds generalizing f with
  | nil => rfl
  | cons x ds ih =>
    rw [Files.writeAll, ih fun nd hm => h nd (by simp [hm])]
    exact if_neg (h x (by simp))

theorem log_other {f : Files} {ds : List (String × Dump)} {t : Tag} (h : ∀ nd ∈ ds, nd.2.params.tag ≠ t) :
    (f.writeAll ds).log t = f.log t := by
  induction ds generalizing f with
  | nil => rfl
  | cons x ds ih =>
    rw [Files.writeAll, ih fun nd hm => h nd (by simp [hm])]
    exact if_neg (h x (by simp))

theorem series_last {f : Files} {a b : List (String × Dump)} {nd : String × Dump} {x : Table}
    (hx : nd.2.params.table = some x) (h : ∀ e ∈ b, e.2.params.tag ≠ nd.2.params.tag) :
    (f.writeAll (a ++ nd :: b)).series nd.2.params.tag = some x := by
  rw [writeAll_append, Files.writeAll, series_other h]
  simp [Files.write, hx]

theorem log_last {f : Files} {a b : List (String × Dump)} {nd : String × Dump} {x : List (Key × List (Option ℚ))}
    (hx : nd.2.log = some x) (h : ∀ e ∈ b, e.2.params.tag ≠ nd.2.params.tag) :
    (f.writeAll (a ++ nd :: b)).log nd.2.params.tag = some x := by
  rw [writeAll_append, Files.writeAll, log_other h]
  simp [Files.write, hx]

theorem series_from (f : Files) (ds : List (String × Dump)) (t : Tag) :
    (f.writeAll ds).series t = f.series t ∨
      ∃ nd ∈ ds, nd.2.params.tag = t ∧ nd.2.params.table = (f.writeAll ds).series t := by
  induction ds generalizing f with
  | nil => exact .inl rfl
  | cons x ds ih =>
    rcases ih (f.write x.2) with h | ⟨nd, h1, h2, h3⟩
    · simp only [Files.writeAll, h]
      unfold Files.write
      simp only
      by_cases hx : x.2.params.tag = t
      · rw [if_pos hx]
        cases ht : x.2.params.table with
        | none => exact .inl rfl
        | some y => exact .inr ⟨x, by simp, hx, ht⟩
      · rw [if_neg hx]; exact .inl rfl
    · exact .inr ⟨nd, by simp [h1], h2, h3⟩

theorem log_from (f : Files) (ds : List (String × Dump)) (t : Tag) :
    (f.writeAll ds).log t = f.log t ∨
      ∃ nd ∈ ds, nd.2.params.tag = t ∧ nd.2.log = (f.writeAll ds).log t := by
  induction ds generalizing f with
  | nil => exact .inl rfl
  | cons x ds ih =>
    rcases ih (f.write x.2) with h | ⟨nd, h1, h2, h3⟩
    · simp only [Files.writeAll, h]
      unfold Files.write
      simp only
      by_cases hx : x.2.params.tag = t
      · rw [if_pos hx]
        cases ht : x.2.log with
        | none => exact .inl rfl
        | some y => exact .inr ⟨x, by simp, hx, ht⟩
      · rw [if_neg hx]; exact .inl rfl
    · exact .inr ⟨nd, by simp [h1], h2, h3⟩

theorem flatten_singletons (l : List ℚ) : (l.map fun x => [x]).flatten = l := by
  induction l with
  | nil => rfl
  | cons x l ih => simp [ih]

theorem withTable_own {p : Params} {t : Table} (h : p.table = some t) : p.withTable t = p := by
  cases p <;> simp only [Params.table, Option.some.injEq, reduceCtorEq] at h <;> subst h <;>
    simp [Params.withTable, flatten_singletons]

/-- Files that belong to one module each, or to modules of the same contents, change nothing. -/
theorem read_same {ds : List (String × Dump)} (h : ∀ a ∈ ds, ∀ b ∈ ds, a.2.params.tag = b.2.params.tag →
    a.2.params.table = b.2.params.table ∧ a.2.log = b.2.log) :
    ds.map (fun nd => (nd.1, (Files.writeAll {} ds).read nd.2)) = ds := by
  conv_rhs => rw [← List.map_id ds]
  apply List.map_congr_left
  intro nd hm
  obtain ⟨n, d⟩ := nd
  simp only [id_eq, Prod.mk.injEq, true_and]
  have h1 : (match (Files.writeAll {} ds).series d.params.tag with | some t => d.params.withTable t | none => d.params) =
      d.params := by
    rcases series_from {} ds d.params.tag with e | ⟨nd, m', e1, e2⟩
    · rw [e]
    · rw [(h nd m' (n, d) hm e1).1] at e2
      cases ht : (Files.writeAll {} ds).series d.params.tag with
      | none => rfl
      | some t => exact withTable_own (e2.trans ht)
  have h2 : (d.log.map fun own => ((Files.writeAll {} ds).log d.params.tag).getD own) = d.log := by
    cases hl : d.log with
    | none => rfl
    | some own =>
      rcases log_from {} ds d.params.tag with e | ⟨nd, m', e1, e2⟩
      · rw [e]; rfl
      · rw [(h nd m' (n, d) hm e1).2] at e2
        rw [← e2]
        simp only [hl, Option.map_some, Option.getD_some]
  show (⟨_, d.state, _⟩ : Dump) = ⟨d.params, d.state, d.log⟩
  exact congr (congrFun (congrArg Dump.mk h1) d.state) h2

/-! ### Modules -/

/-- The tag is the class. -/
def Cls.tag : Cls → Tag
  | .battery => .battery
  | .genset => .genset
  | .grid => .grid
  | .load => .load
  | .renewable => .renewable
  | .balancing => .balancing

theorem Cls.tag_inj {a b : Cls} (h : a.tag = b.tag) : a = b := by
  cases a <;> cases b <;> simp_all [Cls.tag]

theorem params_tag (m : Module) : m.params.tag = m.kind.cls.tag := by
  unfold Module.params
  cases m.kind <;> rfl

theorem dump_params {m : Module} {d : Dump} (h : m.dump = .ok d) :
    d.params = m.params ∧ m.logger.serialize = .ok d.log ∧ d.state = m.stateAttrs := by
  unfold Module.dump at h
  split at h
  · simp at h
  · rename_i log hl
    split at h
    · simp only [Except.ok.injEq] at h
      subst h
      exact ⟨rfl, hl, rfl⟩
    · simp at h

/-- Equal series give equal tables. -/
theorem table_congr {m m' : Module} (h : LibraryModule m) (h' : LibraryModule m') (hc : m.kind.cls = m'.kind.cls)
    (hs : m.series?.map (·.rows) = m'.series?.map (·.rows)) : m.params.table = m'.params.table := by
  have four : ∀ {m : Module} {p : GridParams} {t : TS}, LibraryModule m → m.kind = .grid p t → t.comps.length = 4 := by
    intro m p t h hk
    cases h.wf with
    | grid p' t' w => rw [w.kind] at hk; injection hk with _ hk; subst hk; exact w.four
    | battery b w => rw [w.kind] at hk; simp at hk
    | genset b w => rw [w.kind] at hk; simp at hk
    | load b w => rw [w.kind] at hk; simp at hk
    | renewable b w => rw [w.kind] at hk; simp at hk
    | balancing b w => rw [w.kind] at hk; simp at hk
  unfold Module.params
  unfold Module.series? at hs
  cases hk : m.kind <;> cases hk' : m'.kind <;> rw [hk, hk'] at hs hc <;> simp only [Kind.cls, reduceCtorEq] at hc <;>
    simp only [Params.table, Option.map_some, Option.some.injEq] at hs ⊢
  · rw [four h hk, four h' hk', hs]
  · rw [hs]
  · rw [hs]

theorem column_rows {rows : List (List ℚ)} (h : ∀ r ∈ rows, r.length = 1) : rows.flatten.map (fun x => [x]) = rows := by
  induction rows with
  | nil => rfl
  | cons r rows ih =>
    have hr := h r (by simp)
    obtain ⟨x, rfl⟩ := List.length_eq_one_iff.mp hr
    simp [ih fun s hs => h s (by simp [hs])]

/-- A module built with the series of another one has the series of the other one. -/
theorem build_table {m m' : Module} (h : LibraryModule m') (hc : m.kind.cls = m'.kind.cls) {c : FFC} {n : Module}
    {x : Table} (hx : m'.params.table = some x) (hb : (m.params.withTable x).build c = .ok n) :
    n.series?.map (·.rows) = m'.series?.map (·.rows) ∧ n.kind.cls = m'.kind.cls := by
  have hp : ∀ {xs : List ℚ} {rows : List (List ℚ)} {s : ℚ}, xs = rows.flatten → (∀ r ∈ rows, r.length = 1) →
      (∀ r ∈ rows, ∀ x ∈ r, s * |x| = x) → xs.map (fun x => [s * |x|]) = rows := by
    intro xs rows s e h1 h2
    conv_rhs => rw [← column_rows h1]
    rw [e]
    apply List.map_congr_left
    intro y hy
    obtain ⟨r, hr, hy⟩ := List.mem_flatten.mp hy
    rw [h2 r hr y hy]
  cases h.wf with
  | battery b w => rw [Module.params, w.kind] at hx; simp [Params.table] at hx
  | genset b w => rw [Module.params, w.kind] at hx; simp [Params.table] at hx
  | balancing b w => rw [Module.params, w.kind] at hx; simp [Params.table] at hx
  | load t w =>
    rw [w.kind] at hc
    rw [Module.params, w.kind] at hx
    simp only [Params.table, Option.some.injEq] at hx
    subst hx
    cases hk : m.kind <;> rw [hk] at hc <;> simp only [Kind.cls, reduceCtorEq] at hc
    rw [Module.params, hk] at hb
    simp only [Params.withTable, Params.build] at hb
    obtain ⟨t', mn, mx, wf, -, -, s, -⟩ := Module.mkLoad_inv hb
    rw [Module.series?, Module.series?, wf.kind, w.kind]
    simp only [Option.map_some, Option.some.injEq]
    refine ⟨?_, rfl⟩
    rw [s.rows]
    have := hp (s := -1) (xs := (List.map (fun x => [x]) t.rows.flatten).flatten) (rows := t.rows) (flatten_singletons _)
      (fun r hr => by rw [w.ts.valid.width (w.ts.valid.inBox r hr), w.one])
      (fun r hr x hx => by rw [abs_of_nonpos (w.sign r hr x hx)]; ring)
    simpa [TS.blank] using this
  | renewable t w =>
    rw [w.kind] at hc
    rw [Module.params, w.kind] at hx
    simp only [Params.table, Option.some.injEq] at hx
    subst hx
    cases hk : m.kind <;> rw [hk] at hc <;> simp only [Kind.cls, reduceCtorEq] at hc
    rw [Module.params, hk] at hb
    simp only [Params.withTable, Params.build] at hb
    obtain ⟨t', mn, mx, wf, -, -, s, -⟩ := Module.mkRenewable_inv hb
    rw [Module.series?, Module.series?, wf.kind, w.kind]
    simp only [Option.map_some, Option.some.injEq]
    refine ⟨?_, rfl⟩
    rw [s.rows]
    have := hp (s := 1) (xs := (List.map (fun x => [x]) t.rows.flatten).flatten) (rows := t.rows) (flatten_singletons _)
      (fun r hr => by rw [w.ts.valid.width (w.ts.valid.inBox r hr), w.one])
      (fun r hr x hx => by rw [abs_of_nonneg (w.sign r hr x hx)]; ring)
    simpa [TS.blank] using this
  | grid p t w =>
    rw [w.kind] at hc
    rw [Module.params, w.kind] at hx
    simp only [Params.table, Option.some.injEq] at hx
    subst hx
    cases hk : m.kind <;> rw [hk] at hc <;> simp only [Kind.cls, reduceCtorEq] at hc
    rw [Module.params, hk] at hb
    simp only [Params.withTable, Params.build] at hb
    split at hb
    · rename_i n' hn
      simp only [Except.ok.injEq] at hb
      obtain ⟨t', mn, mx, wf, -, -, s, -⟩ := Module.mkGrid_inv
        (fun r hr => w.ts.valid.width (w.ts.valid.inBox r hr)) hn
      have hk' : n.kind = n'.kind := by rw [← hb]
      rw [Module.series?, Module.series?, hk', wf.kind, w.kind]
      simp only [Option.map_some, Option.some.injEq]
      refine ⟨?_, rfl⟩
      rw [s.rows]
      simp [TS.blank, gridRows, w.four]
    · simp at hb

theorem withTable_without {m m' : Module} (hc : m.kind.cls = m'.kind.cls) (hx : m'.params.table = none) (t : Table) :
    m.params.withTable t = m.params := by
  unfold Module.params at hx ⊢
  cases hk : m.kind <;> cases hk' : m'.kind <;> rw [hk, hk'] at hc <;> rw [hk'] at hx <;>
    simp_all [Kind.cls, Params.withTable, Params.table]

/-- The other classes have no series, whatever is in the files. -/
theorem build_without {m m' : Module} (hc : m.kind.cls = m'.kind.cls) {c : FFC} {n : Module}
    {o : Option Table} (hx : m'.params.table = none)
    (hb : (match o with | some t => m.params.withTable t | none => m.params).build c = .ok n) :
    n.series?.map (·.rows) = m'.series?.map (·.rows) := by
  replace hb : m.params.build c = .ok n := by
    cases o with
    | none => exact hb
    | some t => rw [← withTable_without hc hx t]; exact hb
  unfold Module.params at hx hb
  unfold Module.series?
  cases hk : m.kind <;> cases hk' : m'.kind <;> rw [hk, hk'] at hc <;> rw [hk'] at hx <;> rw [hk] at hb <;>
    simp only [Kind.cls, reduceCtorEq] at hc <;> simp only [Params.table, reduceCtorEq] at hx <;>
    simp only [Params.build] at hb
  · unfold Module.mkBattery at hb
    split at hb
    · simp at hb
    · simp only [Except.ok.injEq] at hb; rw [← hb]
  · unfold Module.mkGenset at hb
    split at hb
    · simp at hb
    · simp only [Except.ok.injEq] at hb; rw [← hb]
  · simp only [Except.ok.injEq] at hb; rw [← hb]; rfl

theorem restore_rows {m m' : Module} {s : StateAttrs} (h : m.restore s = .ok m') :
    m'.series?.map (·.rows) = m.series?.map (·.rows) ∧ m'.logger = m.logger := by
  unfold Module.restore at h
  repeat' split at h
  all_goals first
    | (simp only [reduceCtorEq] at h)
    | (simp only [Except.ok.injEq] at h; subst h; simp_all [Module.series?])

theorem dumpAll_each {h : Heap} {T : List (String × Nat)} {ds : List (String × Dump)} (hd : dumpAll h T = .ok ds) :
    List.Forall₂ (fun x nd => nd.1 = x.1 ∧ (h x.2).dump = .ok nd.2) T ds := by
  induction T generalizing ds with
  | nil =>
    simp only [dumpAll, Except.ok.injEq] at hd
    subst hd
    exact .nil
  | cons x T ih =>
    obtain ⟨n, i⟩ := x
    unfold dumpAll at hd
    split at hd
    · simp at hd
    · rename_i d hi
      split at hd
      · simp at hd
      · rename_i ds' hds
        simp only [Except.ok.injEq] at hd
        subst hd
        exact .cons ⟨rfl, hi⟩ (ih hds)

theorem loadAll_each {c : FFC} {ds : List (String × Dump)} {xs : List (String × Loaded)} (hd : loadAll c ds = .ok xs) :
    List.Forall₂ (fun nd x => x.1 = nd.1 ∧ nd.2.load c = .ok x.2) ds xs := by
  induction ds generalizing xs with
  | nil =>
    simp only [loadAll, Except.ok.injEq] at hd
    subst hd
    exact .nil
  | cons x ds ih =>
    obtain ⟨n, d⟩ := x
    unfold loadAll at hd
    split at hd
    · simp at hd
    · rename_i y hi
      split at hd
      · simp at hd
      · rename_i ys hys
        simp only [Except.ok.injEq] at hd
        subst hd
        exact .cons ⟨rfl, hi⟩ (ih hys)

theorem forall₂_get {α β : Type} {R : α → β → Prop} {a : List α} {b : List β} (h : List.Forall₂ R a b) {k : Nat} {x : α}
    (hx : a[k]? = some x) : ∃ y, b[k]? = some y ∧ R x y := by
  induction h generalizing k with
  | nil => simp at hx
  | cons h _ ih =>
    cases k with
    | zero => simp only [List.getElem?_cons_zero, Option.some.injEq] at hx ⊢; subst hx; exact ⟨_, rfl, h⟩
    | succ k => simp only [List.getElem?_cons_succ] at hx ⊢; exact ih hx

theorem forall₂_split {α β : Type} {R : α → β → Prop} {a a' : List α} {b : List β} (h : List.Forall₂ R (a ++ a') b) :
    ∃ b₁ b₂, List.Forall₂ R a b₁ ∧ List.Forall₂ R a' b₂ ∧ b = b₁ ++ b₂ := by
  induction a generalizing b with
  | nil => exact ⟨[], b, .nil, h, rfl⟩
  | cons x a ih =>
    cases h with
    | @cons _ y _ b hxy h =>
      obtain ⟨b₁, b₂, h1, h2, rfl⟩ := ih h
      exact ⟨y :: b₁, b₂, .cons hxy h1, h2, rfl⟩

end Pymgrid
