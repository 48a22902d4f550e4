import Verif.Lemmas.Equality
import Verif.Props.Reproduce
import Verif.Props.Order

set_option autoImplicit false

/-! # C101: what `==` of modules and microgrids guarantees -/

namespace Pymgrid

open Module

section
variable {i : Ident} {a b : Module}

/-- C101: two modules that compare equal answer every sequence of calls with the same results and the same exceptions, and the
    log of the one holds the columns of the other.
    Missing: the claim without identical data (arrays are compared up to a tolerance, `C101_tolerance`, and with broadcasting,
    `C101_lengths`), random forecasters, and the module type, which is not compared (`C101_type_ignored`). -/
theorem C101_module_partial (hi : i.Sound) (ha : LibraryModule a) (hb : LibraryModule b) (hf : b.ffc = a.ffc)
    (hd : SameData a b) (hdet : a.Deterministic) (h : a.eq i b = .ok true) :
    (∀ ops, replies b ops = replies a ops) ∧
    ∀ k c, dictGet? a.logger.cols k = some c → dictGet? b.logger.cols k = some c := by
  obtain ⟨h1, h2⟩ := eq_core hi ha.wf hb.wf ha.spaced hb.spaced hf hd h
  exact ⟨fun ops => twin_replies ops h1 hdet, fun k c => dictEq_get h2⟩

/-- C101 for batteries, gensets and balancing modules, without conditions on the data. -/
theorem C101_device (hi : i.Sound) (ha : LibraryModule a) (hb : LibraryModule b) (hf : b.ffc = a.ffc)
    (hs : a.series? = none) (h : a.eq i b = .ok true) :
    (∀ ops, replies b ops = replies a ops) ∧
    ∀ k c, dictGet? a.logger.cols k = some c → dictGet? b.logger.cols k = some c :=
  C101_module_partial hi ha hb hf (fun t _ ht => by simp [hs] at ht) (fun t ht => by simp [hs] at ht) h

/-- C101: modules of different classes are never equal. -/
theorem C101_class (h : a.eq i b = .ok true) : a.kind.cls = b.kind.cls := by
  unfold Module.eq at h
  split at h <;> first | (simp at h; done) | (rename_i h1 h2; rw [h1, h2]; rfl)

/-- C101: data of modules that compare equal are close, entry by entry, unless one of them has a single time step. -/
theorem C101_data_close {t t' : TS} (ha : a.series? = some t) (hb : b.series? = some t') (h : a.eq i b = .ok true)
    (h1 : t.rows.length ≠ 1) (h2 : t'.rows.length ≠ 1) :
    t.rows.length = t'.rows.length ∧
    ∀ (k j : Nat) (row row' : List ℚ) (x y : ℚ), t.rows[k]? = some row → t'.rows[k]? = some row' → row.length = row'.length →
      row[j]? = some x → row'[j]? = some y → Near x y := by
  have hrows : allcloseRows t.rows t'.rows = .ok true := by
    have hcls := C101_class h
    unfold Module.eq at h
    unfold Module.series? at ha hb
    cases hk : a.kind <;> cases hk' : b.kind <;> rw [hk] at ha <;> rw [hk'] at hb <;> rw [hk, hk'] at h hcls <;>
      simp only [Kind.cls, reduceCtorEq, Option.some.injEq] at ha hb hcls <;> subst ha <;> subst hb <;>
      exact allEager_true h _ (by simp [TS.attrs])
  rcases pairUp_true hrows with ⟨hl, hr⟩ | ⟨x, e, -⟩ | ⟨x, e, -⟩
  · refine ⟨hl, fun k j row row' x y hk hk' hlen hx hy => ?_⟩
    have := hr k row row' hk hk'
    unfold allcloseRow at this
    rcases pairUp_true this with ⟨-, hr⟩ | ⟨z, e, hr⟩ | ⟨z, e, hr⟩
    · have := hr j x y hx hy
      simp only [Except.ok.injEq] at this
      exact isclose_near this
    · have h3 := List.mem_of_getElem? hx
      rw [e, List.mem_singleton] at h3
      have := hr y (List.mem_of_getElem? hy)
      simp only [Except.ok.injEq] at this
      rw [h3]
      exact isclose_near this
    · have h3 := List.mem_of_getElem? hy
      rw [e, List.mem_singleton] at h3
      have := hr x (List.mem_of_getElem? hx)
      simp only [Except.ok.injEq] at this
      rw [h3]
      exact isclose_near this
  · rw [e] at h1; simp at h1
  · rw [e] at h2; simp at h2

/-- C101: a module equals itself.
    Missing: modules whose random forecaster has increasing uncertainty, for which the comparison raises
    (`C101_self_raises`). -/
theorem C101_self_partial (hi : i.Refl) (ha : LibraryModule a)
    (hn : ∀ t, a.series? = some t → ∀ n s r, t.forecaster.kind ≠ .gaussian n s (some r)) : a.eq i a = .ok true := by
  have hlog : a.logger.eq a.logger = true := by
    obtain ⟨rows, hr⟩ := ha.table
    have hk := (hr.even ha.wf.logKeys_nodup).1
    unfold Logger.eq dictEq
    simp only [decide_true, Bool.true_and, List.all_eq_true, decide_eq_true_eq]
    exact fun kv hkv => dictGet?_of_mem hk hkv
  have hbase : ∀ x ∈ Module.baseAttrs a a, x = .ok true := by
    unfold Module.baseAttrs
    simp only [List.mem_cons, List.not_mem_nil, or_false, forall_eq_or_imp, forall_eq, Except.ok.injEq, decide_true, true_and,
      hlog, Space.eq_refl]
    refine ⟨?_, trivial⟩
    cases a.actSpace <;> simp [Space.eq_refl]
  have hts : ∀ t, a.series? = some t → (∀ x ∈ t.attrs i t, x = .ok true) ∧ forecastEq t.cur t.cur = .ok true := by
    intro t ht
    have hrow : ∀ r, allcloseRow r r = .ok true := pairUp_refl fun x => by rw [isclose_refl]
    have hrows : ∀ r, allcloseRows r r = .ok true := pairUp_refl hrow
    refine ⟨?_, ?_⟩
    · unfold TS.attrs
      simp only [List.mem_cons, List.not_mem_nil, or_false, forall_eq_or_imp, forall_eq, hrow, hrows, decide_true, true_and,
        and_true, Except.ok.injEq]
      refine ⟨?_, ?_⟩
      · unfold FKind.eq
        cases t.param <;> simp [hi.param]
      · have hatt : ∃ l, Forecaster.attrs i t.forecaster t.forecaster = some l ∧ ∀ x ∈ l, x = .ok true := by
          unfold Forecaster.attrs
          cases hk : t.forecaster.kind with
          | none => simp
          | oracle => simp
          | gaussian n s r =>
            cases r with
            | none => simp [hi.inner]
            | some r => exact absurd hk (hn t ht n s r)
          | user f => simp [hi.inner]
          | userScalar f => simp [hi.inner]
        obtain ⟨l, h1, h2⟩ := hatt
        unfold Forecaster.eq
        rw [h1]
        apply allLazy_of
        intro x hx
        simp only [List.mem_cons] at hx
        rcases hx with rfl | rfl | rfl | hx
        · exact pairUp_refl (fun x => by simp) _
        · rw [Space.eq_refl]
        · rw [Space.eq_refl]
        · exact h2 x hx
    · unfold forecastEq
      cases t.cur with
      | none => rfl
      | some f => exact hrows f
  unfold Module.eq
  have two : ∀ {l l' : List (Except Err Bool)}, (∀ x ∈ l, x = .ok true) → (∀ x ∈ l', x = .ok true) →
      ∀ x ∈ l ++ l', x = .ok true := by
    intro l l' h1 h2 x hx
    rcases List.mem_append.mp hx with hx | hx
    · exact h1 x hx
    · exact h2 x hx
  have one : ∀ {y : Except Err Bool}, y = .ok true → ∀ x ∈ [y], x = .ok true := by
    intro y hy x hx
    rw [List.mem_singleton.mp hx, hy]
  cases hk : a.kind with
  | battery x =>
    refine allEager_of (two ?_ hbase)
    unfold Battery.attrs
    simp only [List.mem_cons, List.not_mem_nil, or_false, forall_eq_or_imp, forall_eq, Except.ok.injEq, decide_true, true_and,
      and_true]
    cases x.transition <;> simp [hi.transition]
  | genset x =>
    refine allEager_of (two ?_ hbase)
    unfold Genset.attrs
    simp only [List.mem_cons, List.not_mem_nil, or_false, forall_eq_or_imp, forall_eq, Except.ok.injEq, decide_true, true_and,
      and_true]
    cases x.cost <;> simp [hi.cost]
  | grid p t =>
    obtain ⟨h1, h2⟩ := hts t (by simp [Module.series?, hk])
    exact allEager_of (two (two (two (by simp) h1) hbase) (one h2))
  | load t =>
    obtain ⟨h1, h2⟩ := hts t (by simp [Module.series?, hk])
    exact allEager_of (two (two h1 hbase) (one h2))
  | renewable t =>
    obtain ⟨h1, h2⟩ := hts t (by simp [Module.series?, hk])
    exact allEager_of (two (two h1 hbase) (one h2))
  | balancing u => exact allEager_of (two hbase (by simp))

end

section
variable {i : Ident} {h h' : Heap} {mods : List (String × Nat)} {sh : Option Shaper}
  {tr tr' : Option (Nat → Nat → Option Nat → Except Err (Nat × Nat))} {g₀ g₀' : Microgrid} {ops₁ ops₂ : List GOp}

private theorem equal_twins (hi : i.Sound) (hc : Microgrid.create h mods sh tr = .ok g₀)
    (hc' : Microgrid.create h' mods sh tr' = .ok g₀') (hl : ∀ nm ∈ mods, LibraryModule (h nm.2))
    (hl' : ∀ nm ∈ mods, LibraryModule (h' nm.2)) (hdet : ∀ nm ∈ mods, (h nm.2).Deterministic)
    (hcls : ∀ nm ∈ mods, (h' nm.2).kind.cls = (h nm.2).kind.cls ∧ (h' nm.2).ffc = (h nm.2).ffc)
    (hd : ∀ nm ∈ mods, SameData ((runG g₀ ops₁).heap nm.2) ((runG g₀' ops₂).heap nm.2))
    (heq : (runG g₀ ops₁).eq i (runG g₀' ops₂) = .ok true) :
    Twins (runG g₀ ops₁).cont.fullList id (runG g₀ ops₁).heap (runG g₀' ops₂).heap ∧
    (runG g₀' ops₂).cont = (runG g₀ ops₁).cont ∧ (runG g₀' ops₂).trajectory = (runG g₀ ops₁).trajectory ∧
    ∀ nm ∈ mods, nm.2 ∈ (runG g₀ ops₁).cont.fullList := by
  have ok := GridOK.created hc hl
  have ok' := GridOK.created hc' hl'
  obtain ⟨rfl, hb, hsh, ht, -⟩ := Microgrid.create_ok hc
  obtain ⟨rfl, hb', hsh', ht', -⟩ := Microgrid.create_ok hc'
  have f₁ := runG_fixed g₀ ops₁
  have f₂ := runG_fixed g₀' ops₂
  have hcont : (runG g₀' ops₂).cont = (runG g₀ ops₁).cont := by
    rw [f₁.cont, f₂.cont, hb, hb']
    refine Container.build_congr fun nm hm => ⟨(hcls nm hm).2, ?_⟩
    have := (hcls nm hm).1
    unfold Module.ss Module.isSink Module.isSource
    cases hk : (g₀.heap nm.2).kind <;> cases hk' : (g₀'.heap nm.2).kind <;> rw [hk, hk'] at this <;>
      first | rfl | (simp [Kind.cls] at this)
  have a₁ := kept_alike.runG g₀ ops₁
  have a₂ := kept_alike.runG g₀' ops₂
  obtain ⟨tw, htr, -, -⟩ := eq_twins hi (ok.runG ops₁) (ok'.runG ops₂)
    (fun nm hm => kept_spaced.runG g₀ ops₁ nm.2 (hl nm hm).spaced)
    (fun nm hm => kept_spaced.runG g₀' ops₂ nm.2 (hl' nm hm).spaced) hcont
    (fun nm hm => by rw [(a₁ nm.2).ffc, (a₂ nm.2).ffc, (hcls nm hm).2]) hd
    (fun nm hm => det_core (kept_core.runG g₀ ops₁ nm.2 (ok.wf nm hm)).2.symm (hdet nm hm)) heq
  refine ⟨tw, hcont, htr, fun nm hm => ?_⟩
  rw [(ok.runG ops₁).cont]
  exact (Container.fullList_perm _ _).symm.subset (List.mem_map_of_mem hm)

/-- C101: two microgrids that compare equal cannot be told apart: every sequence of runs and resets returns the same on both,
    and leaves the modules in the same states.
    The microgrids are built from modules of the same classes and types under the same names in the same order.
    Missing: these conditions (`C101_order_ignored`), the reward shaping function, which is not compared
    (`C101_shaper_ignored`), nor is the number of calls of a trajectory function so far, identical data as for modules, and
    random forecasters. -/
theorem C101_grid_partial (hi : i.Sound) (hc : Microgrid.create h mods sh tr = .ok g₀)
    (hc' : Microgrid.create h' mods sh tr' = .ok g₀') (hl : ∀ nm ∈ mods, LibraryModule (h nm.2))
    (hl' : ∀ nm ∈ mods, LibraryModule (h' nm.2)) (hdet : ∀ nm ∈ mods, (h nm.2).Deterministic)
    (hcls : ∀ nm ∈ mods, (h' nm.2).kind.cls = (h nm.2).kind.cls ∧ (h' nm.2).ffc = (h nm.2).ffc)
    (hd : ∀ nm ∈ mods, SameData ((runG g₀ ops₁).heap nm.2) ((runG g₀' ops₂).heap nm.2))
    (hinit : g₀'.initialStep = g₀.initialStep) (hfin : g₀'.finalStep = g₀.finalStep)
    (hr : tr = none ∨ resets ops₁ = resets ops₂)
    (heq : (runG g₀ ops₁).eq i (runG g₀' ops₂) = .ok true) :
    SameFuture mods (runG g₀ ops₁) (runG g₀' ops₂) := by
  obtain ⟨tw, hcont, htr, mem⟩ := equal_twins hi hc hc' hl hl' hdet hcls hd heq
  obtain ⟨rfl, -, hsh, ht, -⟩ := Microgrid.create_ok hc
  obtain ⟨rfl, -, hsh', ht', -⟩ := Microgrid.create_ok hc'
  have f₁ := runG_fixed g₀ ops₁
  have f₂ := runG_fixed g₀' ops₂
  have htr0 : tr' = tr := by
    rw [← ht, ← ht', ← f₁.trajectory, ← f₂.trajectory, htr]
  have t : TwinGrid id (runG g₀ ops₁) (runG g₀' ops₂) := by
    refine ⟨tw, by rw [hcont, Container.rename_id], ?_, ?_, ?_, htr, ?_⟩
    · rw [f₁.initialStep, f₂.initialStep, hinit]
    · rw [f₁.finalStep, f₂.finalStep, hfin]
    · rw [f₁.shaper, f₂.shaper, hsh, hsh']
    · rw [runG_calls, runG_calls, ht, ht', create_calls hc, create_calls hc', htr0]
      rcases hr with rfl | hr
      · rfl
      · rw [hr]
  intro future
  obtain ⟨e, t'⟩ := t.results future
  refine ⟨e, fun nm hm => ?_⟩
  have hin : nm.2 ∈ (runG (runG g₀ ops₁) future).cont.fullList := by
    rw [(runG_fixed _ future).cont]
    exact mem nm hm
  have := t'.heap.core nm.2 hin
  rw [id_eq] at this
  rw [← core_stateDict, ← this, core_stateDict]

/-- C101 for microgrids without trajectory functions: their steps need not be compared.
    Missing: as in `C101_grid_partial`. -/
theorem C101_plain_grid_partial (hi : i.Sound) (hc : Microgrid.create h mods sh none = .ok g₀)
    (hc' : Microgrid.create h' mods sh none = .ok g₀') (hl : ∀ nm ∈ mods, LibraryModule (h nm.2))
    (hl' : ∀ nm ∈ mods, LibraryModule (h' nm.2)) (hdet : ∀ nm ∈ mods, (h nm.2).Deterministic)
    (hn : DistinctNames h mods) (hn' : DistinctNames h' mods)
    (hcls : ∀ nm ∈ mods, (h' nm.2).kind.cls = (h nm.2).kind.cls ∧ (h' nm.2).ffc = (h nm.2).ffc)
    (hd : ∀ nm ∈ mods, SameData ((runG g₀ ops₁).heap nm.2) ((runG g₀' ops₂).heap nm.2))
    (heq : (runG g₀ ops₁).eq i (runG g₀' ops₂) = .ok true) :
    SameFuture mods (runG g₀ ops₁) (runG g₀' ops₂) := by
  obtain ⟨tw, -, -, mem⟩ := equal_twins hi hc hc' hl hl' hdet hcls hd heq
  obtain ⟨e1, e2⟩ := eq_steps hc hc' hl hl' hn hn' fun nm hm => tw.core nm.2 (mem nm hm)
  exact C101_grid_partial hi hc hc' hl hl' hdet hcls hd e1 e2 (.inl rfl) heq

end

/-! ### Examples and violations -/

/-- Functions and standard deviations of separately built modules are different objects (examples only). -/
def strangers : Ident :=
  { transition := fun _ _ => false, cost := fun _ _ => false, param := fun _ _ => false, inner := fun _ _ => false,
    trajectory := fun _ _ => false }

/-- Every object equals every other one: two comparisons of one object with itself (examples only). -/
def oneObject : Ident :=
  { transition := fun _ _ => true, cost := fun _ _ => true, param := fun _ _ => true, inner := fun _ _ => true,
    trajectory := fun _ _ => true }

theorem strangers_sound : strangers.Sound := ⟨by simp [strangers], by simp [strangers], by simp [strangers]⟩

theorem oneObject_refl : oneObject.Refl :=
  ⟨fun _ => rfl, fun _ => rfl, fun _ => rfl, fun _ => rfl, fun _ => rfl⟩

/-- A battery that was charged and discharged by the same amount is not the same as before: its log has rows. -/
example : sampleBattery.eq strangers (runOps sampleBattery [.step (.num (-10)) false, .step (.num (5/2)) false]) =
    .ok false := by decide +kernel

/-- Two batteries with the same past are equal, hence have the same future. -/
example : ∀ ops, replies (runOps sampleBattery [.step (.num 10) false]) ops =
    replies (runOps sampleBattery [.step (.num 10) false]) ops :=
  (C101_device strangers_sound
    (.step (.battery sampleBattery_ok (by constructor <;> decide +kernel)) _ _)
    (.step (.battery sampleBattery_ok (by constructor <;> decide +kernel)) _ _) rfl (by decide +kernel)
    (by decide +kernel)).1

/-- Modules equal themselves. -/
example : exLoad.eq oneObject exLoad = .ok true :=
  C101_self_partial oneObject_refl (demo_library ("load", 0) (by simp [demoMods])) fun t ht n s r e => by
    have : (exLoad.series?.all fun t => match t.forecaster.kind with | .oracle => true | _ => false) = true := by decide +kernel
    rw [ht] at this
    simp [e] at this

/-- The microgrid of the examples and a second one built like it are equal after the same calls. -/
example : SameFuture outpostMods (runG outpost [.run outpostControl false]) (runG outpost [.run outpostControl false]) := by
  have lib : ∀ nm ∈ outpostMods, LibraryModule (demoHeap nm.2) := fun nm hm => demo_library nm (by
    simp only [outpostMods, demoMods, List.mem_cons, List.not_mem_nil, or_false] at hm ⊢; tauto)
  have det : ∀ nm ∈ outpostMods, (demoHeap nm.2).Deterministic := fun nm hm => demo_deterministic nm (by
    simp only [outpostMods, demoMods, List.mem_cons, List.not_mem_nil, or_false] at hm ⊢; tauto)
  have names : DistinctNames demoHeap outpostMods := by
    unfold DistinctNames
    decide +kernel
  refine C101_plain_grid_partial (i := strangers) strangers_sound outpost_ok outpost_ok lib lib det names names
    (fun _ _ => ⟨rfl, rfl⟩) ?_ (by decide +kernel)
  intro nm _ t t' ht ht'
  rw [ht] at ht'
  obtain rfl := Option.some.inj ht'
  exact ⟨rfl, rfl, rfl, rfl, rfl, rfl⟩

/-- C101 is violated by modules with data: two loads compare equal, yet ask for different amounts. -/
theorem C101_tolerance :
    let a := mkLoad [60, 40, 20] .none 2 0 (-1) false
    let b := mkLoad [60, 40 + 1/10000, 20] .none 2 0 (-1) false
    a.isOk = true ∧ b.isOk = true ∧ (okModule a).eq strangers (okModule b) = .ok true ∧
    ((runOps (okModule a) [.step (.arr []) false]).step (.arr []) false).2.toOption.map (·.info.absorbed) = some (some 40) ∧
    ((runOps (okModule b) [.step (.arr []) false]).step (.arr []) false).2.toOption.map (·.info.absorbed) =
      some (some (40 + 1/10000)) := by
  decide +kernel

/-- C101: `==` of modules is not symmetric. -/
theorem C101_not_symmetric :
    let a := okModule (mkLoad [20000, 10000, 0] .none 2 0 (-1) false)
    let b := okModule (mkLoad [20000, 10000 + 1/10 + 1/1000000 + 1/100000000, 0] .none 2 0 (-1) false)
    a.eq strangers b = .ok true ∧ b.eq strangers a = .ok false := by
  decide +kernel

/-- C101: comparing loads with series of different lengths raises, unless one of the lengths is one: then they may be equal. -/
theorem C101_lengths :
    let a := okModule (mkLoad [60, 60, 60] .none 2 0 1 false)
    let b := okModule (mkLoad [60] .none 2 0 1 false)
    let c := okModule (mkLoad [60, 60] .none 2 0 1 false)
    a.eq strangers b = .ok true ∧ a.eq strangers c = .error .value := by
  decide +kernel

/-- C101: comparing a module with increasing forecast uncertainty to itself raises. -/
theorem C101_self_raises :
    let a := okModule (mkLoad [60, 40, 20] (.gaussian (fun _ _ _ => 0) true (some 2)) 2 0 (-1) false)
    a.eq oneObject a = .error .value := by
  decide +kernel

/-- C101: comparing a module without forecasts to one with forecasts raises. -/
theorem C101_forecast_raises :
    let a := okModule (mkLoad [60, 40, 20] .none 2 0 (-1) false)
    let b := okModule (mkLoad [60, 40, 20] .oracle 2 0 (-1) false)
    a.eq strangers b = .error .value ∧ b.eq strangers a = .error .type := by
  decide +kernel

/-- C101: the type of a module is not compared: a flexible grid equals a controllable one. -/
theorem C101_type_ignored : exGrid.ffc = .controllable ∧ exGrid.eq strangers { exGrid with ffc := .flex } = .ok true := by
  decide +kernel

/-- C101 is violated by reward shaping functions: they are not compared. -/
theorem C101_shaper_ignored :
    let zero : Shaper := fun _ _ => .ok 0
    let a := Microgrid.create demoHeap outpostMods none none
    let b := Microgrid.create demoHeap outpostMods (some zero) none
    a.isOk = true ∧ b.isOk = true ∧ (okGrid a).eq strangers (okGrid b) = .ok true ∧
    ((okGrid a).run outpostControl false).2.toOption.map (·.reward) = some (-540) ∧
    ((okGrid b).run outpostControl false).2.toOption.map (·.reward) = some 0 := by
  decide +kernel

/-- C101 is violated by the order of the modules: it is not compared, yet the first flexible source is curtailed last. -/
theorem C101_order_ignored :
    let a := Microgrid.create twinPvHeap [("load", 0), ("east", 1), ("west", 2), ("balancing", 3)] none none
    let b := Microgrid.create twinPvHeap [("load", 0), ("west", 2), ("east", 1), ("balancing", 3)] none none
    a.isOk = true ∧ b.isOk = true ∧ (okGrid a).eq strangers (okGrid b) = .ok true ∧
    ((okGrid a).run [] false).2.toOption.map (fun o => (dictGet? o.infos "east").map fun l => l.map fun i => i.provided) =
      some (some [some 50]) ∧
    ((okGrid b).run [] false).2.toOption.map (fun o => (dictGet? o.infos "east").map fun l => l.map fun i => i.provided) =
      some (some [some 30]) := by
  decide +kernel

end Pymgrid
