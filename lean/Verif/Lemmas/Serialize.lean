import Verif.Spec.Serialize
import Verif.Lemmas.Restart
import Verif.Lemmas.Log

set_option autoImplicit false

/-! Dumping and loading modules. -/

namespace Pymgrid

/-- The same up to what changes in operation. -/
inductive Kind.Sib : Kind → Kind → Prop
  | battery (b : Battery) (c s : ℚ) : Sib (.battery b) (.battery { b with charge := c, soc := s })
  | genset (g : Genset) (a b c d : Int) :
      Sib (.genset g) (.genset { g with status := a, goal := b, untilUp := c, untilDown := d })
  | grid (p : GridParams) {t t' : TS} (s : TS.Same t t') : Sib (.grid p t) (.grid p t')
  | load {t t' : TS} (s : TS.Same t t') : Sib (.load t) (.load t')
  | renewable {t t' : TS} (s : TS.Same t t') : Sib (.renewable t) (.renewable t')
  | balancing (u : Unbalanced) : Sib (.balancing u) (.balancing u)

theorem Kind.Sib.refl (k : Kind) : k.Sib k := by
  cases k with
  | battery b => exact .battery b b.charge b.soc
  | genset g => exact .genset g g.status g.goal g.untilUp g.untilDown
  | grid p t => exact .grid p rfl
  | load t => exact .load rfl
  | renewable t => exact .renewable rfl
  | balancing u => exact .balancing u

theorem Kind.Sib.trans {k k' k'' : Kind} (h : k.Sib k') (h' : k'.Sib k'') : k.Sib k'' := by
  cases h with
  | battery b c s => cases h' with | battery _ c' s' => exact .battery b c' s'
  | genset g => cases h' with | genset _ a' b' c' d' => exact .genset g a' b' c' d'
  | grid p s => cases h' with | grid _ s' => exact .grid p (s.trans s')
  | load s => cases h' with | load s' => exact .load (s.trans s')
  | renewable s => cases h' with | renewable s' => exact .renewable (s.trans s')
  | balancing u => exact h'

theorem Kind.sib_withTS {k : Kind} {t t' : TS} (h : k = k.withTS t) (s : TS.Same t t') : k.Sib (k.withTS t') := by
  cases k with
  | grid p t₀ => simp only [Kind.withTS, Kind.grid.injEq, true_and] at h ⊢; subst h; exact .grid p s
  | load t₀ => simp only [Kind.withTS, Kind.load.injEq] at h ⊢; subst h; exact .load s
  | renewable t₀ => simp only [Kind.withTS, Kind.renewable.injEq] at h ⊢; subst h; exact .renewable s
  | _ => exact .refl _

theorem Genset.SameParams.sib {g g' : Genset} (h : g.SameParams g') :
    g' = { g with status := g'.status, goal := g'.goal, untilUp := g'.untilUp, untilDown := g'.untilDown } := by
  obtain ⟨h1, h2, h3, h4, h5, h6, h7, h8, h9⟩ := h
  obtain ⟨a1, a2, a3, a4, a5, a6, a7, a8, a9, a10, a11, a12, a13⟩ := g'
  simp only at *
  subst h1 h2 h3 h4 h5 h6 h7 h8 h9
  rfl

theorem TS.Same.symm {t t' : TS} (s : TS.Same t t') : TS.Same t' t := by
  unfold TS.Same at *
  rw [s]

theorem TS.Same.dumpParam {t t' : TS} (s : TS.Same t t') : t'.dumpParam = t.dumpParam := by
  unfold TS.dumpParam
  rw [s.param, s.forecaster]

namespace Module

structure Sib (m m' : Module) : Prop where
  frame : Frame m m'
  kind : m.kind.Sib m'.kind

theorem Sib.refl (m : Module) : Sib m m := ⟨.refl m, .refl _⟩

theorem Sib.trans {m m' m'' : Module} (h : Sib m m') (h' : Sib m' m'') : Sib m m'' :=
  ⟨h.frame.trans h'.frame, h.kind.trans h'.kind⟩

theorem Sib.params {m m' : Module} (h : Sib m m') : m'.params = m.params := by
  obtain ⟨f, k⟩ := h
  unfold Module.params
  rw [f.init, f.raise]
  generalize m.kind = K at k
  generalize m'.kind = K' at k
  cases k with
  | grid p s => simp only [s.dumpParam]; rw [s.rows, s.comps, s.horizon, s.finalStep]
  | load s => simp only [s.dumpParam]; rw [s.rows, s.horizon, s.finalStep]
  | renewable s => simp only [s.dumpParam]; rw [s.rows, s.horizon, s.finalStep]
  | _ => rfl

theorem WF.sib_step {m : Module} (h : m.WF) (a : Act) (n : Bool) : Sib m (m.step a n).1 := by
  refine ⟨frame_step m a n, ?_⟩
  have ts : ∀ t, m.TSWF t → m.kind.Sib (m.step a n).1.kind := by
    intro t ht
    obtain ⟨t', s, -, hk⟩ := ht.op (.step a n)
    rw [show (m.step a n).1.kind = _ from hk]
    exact Kind.sib_withTS ht.kind_eq s
  cases h with
  | battery b h =>
    rcases h.step_cases a n with ⟨e, he⟩ | ⟨d, x, m', o, he, hs⟩
    · rw [he]; exact .refl _
    · rw [he, hs.kind, h.kind]; exact .battery b _ _
  | genset g h =>
    rw [h.step_eq]
    cases a with
    | num q => exact .refl _
    | arr l =>
      simp only
      cases l[0]? with
      | none => exact .refl _
      | some goal =>
        simp only
        split
        · exact .refl _
        · rename_i hg
          obtain ⟨h0, h1⟩ := not_not.mp hg
          obtain ⟨p, hp⟩ := h.phase
          obtain ⟨g', e, hp', hs, -⟩ := hp.update h0 h1
          rw [e]
          have wf := h.withStatus ⟨_, hp'⟩ hs
          have key : m.kind.Sib (.genset g') := by
            rw [h.kind, hs.sib]; exact .genset g _ _ _ _
          simp only
          cases m.request (.arr l) n with
          | error e => exact key
          | ok q =>
            have := wf.stepEnergy q
            simp only
            split at this
            · rw [this]; exact key
            · split at this
              · rw [this]; exact key
              · obtain ⟨m', o, e, hg⟩ := this
                rw [e, hg.wf.kind]; exact key
  | grid p t h w => exact ts t h.ts
  | load t h w => exact ts t h.ts
  | renewable t h w => exact ts t h.ts
  | balancing u h => rw [h.kind, show (m.step a n).1.kind = _ from (h.op (.step a n)).kind]; exact .balancing u

theorem WF.sib_reset {m : Module} (h : m.WF) : Sib m m.reset.1 := by
  refine ⟨frame_reset m, ?_⟩
  have ts : ∀ t, m.TSWF t → m.kind.Sib m.reset.1.kind := by
    intro t ht
    obtain ⟨t', s, -, hk⟩ := ht.op .reset
    rw [show m.reset.1.kind = _ from hk]
    exact Kind.sib_withTS ht.kind_eq s
  cases h with
  | battery b h => obtain ⟨m', obs, he, h', -⟩ := h.reset; rw [he, h'.kind, h.kind]; exact .refl _
  | genset g h => obtain ⟨m', obs, he, h', -⟩ := h.reset; rw [he, h'.kind, h.kind]; exact .refl _
  | grid p t h w => exact ts t h.ts
  | load t h w => exact ts t h.ts
  | renewable t h w => exact ts t h.ts
  | balancing u h => rw [h.kind, show m.reset.1.kind = _ from (h.op .reset).kind]; exact .balancing u

end Module

/-! ### The constructors applied to the dumped arguments -/

theorem TS.create_again (rows : List (List ℚ)) (comps : List String) (mn mx : List ℚ) (param : FKind)
    (horizon i : Nat) (fs : Int) :
    TS.create rows comps mn mx param (if param.isSome then horizon else 0) i
      ((if fs ≤ 0 then rows.length else fs.toNat : Nat) : Int) =
    TS.create rows comps mn mx param horizon i fs := by
  unfold TS.create
  have h1 : (if param.isSome = true then (if param.isSome = true then horizon else 0) else 0) =
      if param.isSome = true then horizon else 0 := by split <;> rfl
  have h2 : (if ((if fs ≤ 0 then rows.length else fs.toNat : Nat) : Int) ≤ 0 then rows.length
      else ((if fs ≤ 0 then rows.length else fs.toNat : Nat) : Int).toNat) =
      if fs ≤ 0 then rows.length else fs.toNat := by
    split <;> split <;> omega
  simp only [h1, h2]

theorem TS.blank_dumpParam {rows : List (List ℚ)} {comps : List String} {mn mx : List ℚ} {param : FKind}
    {horizon : Nat} {fs : Int} {t : TS} (s : TS.Same (TS.blank rows comps mn mx param horizon fs) t) :
    t.dumpParam = param := by
  rw [s.dumpParam]
  unfold TS.dumpParam TS.blank Forecaster.get
  cases param <;> rfl

namespace Module

theorem signCheck_again {src : Bool} {xs ys : List ℚ} (h : signCheck src xs = .ok ys) : signCheck src ys = .ok ys := by
  cases src with
  | true =>
    obtain ⟨rfl, -⟩ := signCheck_source h
    unfold signCheck
    rw [if_neg]
    · simp
    · rw [not_not]; right; simp
  | false =>
    obtain ⟨rfl, -⟩ := signCheck_sink h
    unfold signCheck
    rw [if_neg]
    · simp
    · rw [not_not]; left; simp

theorem flatten_column (xs : List ℚ) (f : ℚ → ℚ) : (xs.map fun x => [f x]).flatten = xs.map f := by
  induction xs with
  | nil => rfl
  | cons x xs ih => simp [ih]

theorem mkLoad_again {xs : List ℚ} {param : FKind} {horizon i : Nat} {fs : Int} {r : Bool} {m : Module}
    (hm : mkLoad xs param horizon i fs r = .ok m) (c : FFC) : m.params.build c = .ok m := by
  obtain ⟨t, mn, mx, wf, -, -, s, -, hi, -, hr, -⟩ := mkLoad_inv hm
  have hp : m.params = .load (xs.map fun x => -|x|) param (if param.isSome then horizon else 0) i
      ((if fs ≤ 0 then xs.length else fs.toNat : Nat) : Int) r := by
    unfold params
    rw [wf.kind]
    simp only
    rw [TS.blank_dumpParam s, s.rows, s.horizon, s.finalStep, hi, hr]
    simp only [TS.blank, flatten_column, List.length_map]
  rw [hp]
  show mkLoad _ _ _ _ _ _ = _
  rw [← hm]
  unfold mkLoad
  cases hs : signCheck false xs with
  | error e => unfold mkLoad at hm; rw [hs] at hm; simp at hm
  | ok ys =>
    have := (signCheck_sink hs).1
    subst this
    rw [signCheck_again hs]
    simp only
    cases hb : getBounds (xs.map fun x => -|x|) with
    | error e => rfl
    | ok b =>
      simp only
      have := TS.create_again ((xs.map fun x => -|x|).map fun x => [x]) ["load"] [b.1] [b.2] param horizon i fs
      simp only [List.length_map] at this
      rw [this]

theorem mkRenewable_again {xs : List ℚ} {param : FKind} {horizon i : Nat} {fs : Int} {r : Bool} {m : Module}
    (hm : mkRenewable xs param horizon i fs r = .ok m) (c : FFC) : m.params.build c = .ok m := by
  obtain ⟨t, mn, mx, wf, -, -, s, -, hi, -, hr, -⟩ := mkRenewable_inv hm
  have hp : m.params = .renewable (xs.map fun x => |x|) param (if param.isSome then horizon else 0) i
      ((if fs ≤ 0 then xs.length else fs.toNat : Nat) : Int) r := by
    unfold params
    rw [wf.kind]
    simp only
    rw [TS.blank_dumpParam s, s.rows, s.horizon, s.finalStep, hi, hr]
    simp only [TS.blank, flatten_column, List.length_map]
  rw [hp]
  show mkRenewable _ _ _ _ _ _ = _
  rw [← hm]
  unfold mkRenewable
  cases hs : signCheck true xs with
  | error e => unfold mkRenewable at hm; rw [hs] at hm; simp at hm
  | ok ys =>
    have := (signCheck_source hs).1
    subst this
    rw [signCheck_again hs]
    simp only
    cases hb : getBounds (xs.map fun x => |x|) with
    | error e => rfl
    | ok b =>
      simp only
      have := TS.create_again ((xs.map fun x => |x|).map fun x => [x]) ["renewable"] [b.1] [b.2] param horizon i fs
      simp only [List.length_map] at this
      rw [this]

theorem mkGrid_again {mi me cc : ℚ} {ncols : Nat} {rows : List (List ℚ)} {param : FKind} {horizon i : Nat}
    {fs : Int} {r : Bool} {m : Module} (hrect : ∀ r ∈ rows, r.length = ncols)
    (hm : mkGrid mi me ncols rows param horizon i fs cc r = .ok m) : m.params.build m.ffc = .ok m := by
  obtain ⟨t, mn, mx, wf, -, -, s, h34, -, hi, -, hr, -⟩ := mkGrid_inv hrect hm
  have hp : m.params = .grid mi me 4 (gridRows ncols rows) param (if param.isSome then horizon else 0) i
      ((if fs ≤ 0 then (gridRows ncols rows).length else fs.toNat : Nat) : Int) cc r := by
    unfold params
    rw [wf.kind]
    simp only
    rw [TS.blank_dumpParam s, s.rows, s.horizon, s.finalStep, s.comps, hi, hr]
    rfl
  cases hc : gridCheckParams mi me ncols rows with
  | error e => unfold mkGrid at hm; rw [hc] at hm; simp at hm
  | ok rows' =>
    obtain ⟨hmi, hme, -, hpos, h4, rfl⟩ := (gridCheckParams_iff hrect).mp hc
    have hspec := gridRows_spec hrect h34 hpos h4
    have hc' : gridCheckParams mi me 4 (gridRows ncols rows) = .ok (gridRows ncols rows) :=
      (gridCheckParams_iff fun r hr => (hspec r hr).1).mpr
        ⟨hmi, hme, .inr rfl, fun r hr => (hspec r hr).2.2, fun _ r hr => (hspec r hr).2.1, rfl⟩
    have key : mkGrid mi me 4 (gridRows ncols rows) param (if param.isSome then horizon else 0) i
        ((if fs ≤ 0 then (gridRows ncols rows).length else fs.toNat : Nat) : Int) cc r = .ok m := by
      rw [← hm]
      unfold mkGrid
      rw [hc, hc']
      simp only [TS.create_again]
    rw [hp]
    simp only [Params.build, key]

theorem mkBattery_again {minC maxC maxCh maxDis eff cost : ℚ} {tr : Option (ℚ → TransitionArgs → ℚ)}
    {c s : Option ℚ} {i : Nat} {r : Bool} {m : Module}
    (hm : mkBattery minC maxC maxCh maxDis eff cost tr c s i r = .ok m) (f : FFC) : m.params.build f = .ok m := by
  have hp : m.params = .battery minC maxC maxCh maxDis eff cost tr c s i r := by
    unfold mkBattery at hm
    split at hm
    · simp at hm
    rename_i b hb
    unfold Battery.init at hb
    split at hb
    · simp at hb
    split at hb
    · simp at hb
    split at hb
    · simp at hb
    injection hb with hb
    injection hm with hm
    subst hb hm
    rfl
  rw [hp]
  exact hm

theorem mkGenset_again {rmin rmax : ℚ} {cost : GensetCost} {c1 c2 : ℚ} {S W : Nat} {ab iu : Bool} {i : Nat} {r : Bool}
    {m : Module} (hm : mkGenset rmin rmax cost c1 c2 S W ab iu i r = .ok m) (f : FFC) : m.params.build f = .ok m := by
  have hp : m.params = .genset rmin rmax cost c1 c2 S W ab iu i r := by
    unfold mkGenset at hm
    split at hm
    · simp at hm
    rename_i g hg
    injection hm with hm
    subst hm
    unfold Genset.init Genset.resetTimes at hg
    simp only at hg
    split at hg
    · simp at hg
    cases iu <;> simp at hg <;> subst hg <;> rfl
  rw [hp]
  exact hm

end Module

/-- A module as it comes from its constructor. -/
structure Module.New (m : Module) : Prop where
  step : m.currentStep = m.initialStep
  log : m.logger = {}
  fresh : ∀ t, m.series? = some t → t.Fresh m.initialStep
  lib : LibraryModule m

/-- The constructor applied to the dumped arguments yields the module as it was when built. -/
theorem LibraryModule.rebuild {m : Module} (h : LibraryModule m) :
    ∃ m₀, m.params.build m.ffc = .ok m₀ ∧ m₀.New ∧ Module.Sib m₀ m := by
  induction h with
  | @battery minC maxC maxCh maxDis eff cost c s i r m hm good =>
    obtain ⟨b, hk, -⟩ := Module.mkBattery_inv hm
    refine ⟨m, Module.mkBattery_again hm _, ⟨?_, ?_, ?_, .battery hm good⟩, .refl m⟩
    · unfold Module.mkBattery at hm; split at hm <;> simp at hm; subst hm; rfl
    · unfold Module.mkBattery at hm; split at hm <;> simp at hm; subst hm; rfl
    · intro t ht; simp [Module.series?, hk] at ht
  | @genset rmin rmax cost c1 c2 S W ab iu i r m hm h =>
    obtain ⟨g, hg, hk, -⟩ := Module.mkGenset_inv hm
    refine ⟨m, Module.mkGenset_again hm _, ⟨?_, ?_, ?_, .genset hm h⟩, .refl m⟩
    · unfold Module.mkGenset at hm; split at hm <;> simp at hm; subst hm; rfl
    · unfold Module.mkGenset at hm; split at hm <;> simp at hm; subst hm; rfl
    · intro t ht; simp [Module.series?, hk] at ht
  | @series param horizon i fs r m rows k hb hw =>
    obtain ⟨t, comps, mn, mx, -, wf, hf, -, h1, h2, -, -, h3⟩ := hb.start
    refine ⟨m, ?_, ⟨by rw [h1, h2], h3, ?_, .series hb hw⟩, .refl m⟩
    · cases hb with
      | load hm => exact Module.mkLoad_again hm _
      | renewable hm => exact Module.mkRenewable_again hm _
      | grid hrect hm => exact Module.mkGrid_again hrect hm
    · intro t' ht'
      rw [wf.series] at ht'
      injection ht' with ht'
      subst ht'
      rw [h2]; exact hf
  | @balancing r i l o hl ho =>
    exact ⟨_, rfl, ⟨rfl, rfl, fun t ht => by simp [Module.series?, Module.mkBalancing] at ht, .balancing hl ho⟩, .refl _⟩
  | @flexGrid m p t h hk ih =>
    obtain ⟨m₀, hb, hn, hs⟩ := ih
    have hp : Module.params { m with ffc := .flex } = m.params := by
      unfold Module.params; simp only [hk]
    refine ⟨{ m₀ with ffc := .flex }, ?_, ⟨hn.step, hn.log, hn.fresh, ?_⟩,
      ⟨⟨hs.frame.raise, hs.frame.init, hs.frame.act, hs.frame.obs, hs.frame.prov, hs.frame.abs, rfl⟩, hs.kind⟩⟩
    swap
    · have hk' := hs.kind
      rw [hk] at hk'
      cases hk₀ : m₀.kind with
      | grid p' t' => rw [← hk₀]; exact .flexGrid hn.lib hk₀
      | _ => rw [hk₀] at hk'; cases hk'
    rw [hp]
    unfold Module.params at hb ⊢
    simp only [hk, Params.build] at hb ⊢
    split at hb
    · rename_i m₁ h₁
      injection hb with hb
      subst hb
      rfl
    · simp at hb
  | step h a n ih =>
    obtain ⟨m₀, hb, hn, hs⟩ := ih
    have h1 := h.wf.sib_step a n
    exact ⟨m₀, by rw [h1.params, h1.frame.ffc]; exact hb, hn, hs.trans h1⟩
  | reset h ih =>
    obtain ⟨m₀, hb, hn, hs⟩ := ih
    have h1 := h.wf.sib_reset
    exact ⟨m₀, by rw [h1.params, h1.frame.ffc]; exact hb, hn, hs.trans h1⟩

/-- The log of a library module is a table. -/
theorem LibraryModule.table {m : Module} (h : LibraryModule m) : ∃ rows, m.logger.Holds m.logKeys rows := by
  have new : ∀ {m : Module}, m.logger = {} → ∃ rows, m.logger.Holds m.logKeys rows :=
    fun e => ⟨[], by rw [e]; exact .empty _⟩
  induction h with
  | battery hm good => exact new (by unfold Module.mkBattery at hm; split at hm <;> simp at hm; subst hm; rfl)
  | genset hm h => exact new (by unfold Module.mkGenset at hm; split at hm <;> simp at hm; subst hm; rfl)
  | series hb hw =>
    obtain ⟨t, comps, mn, mx, -, wf, hf, -, h1, h2, -, -, h3⟩ := hb.start
    exact new h3
  | balancing hl ho => exact new rfl
  | flexGrid h hk ih =>
    obtain ⟨rows, hr⟩ := ih
    exact ⟨rows, hr⟩
  | @step m h a n ih =>
    obtain ⟨rows, hr⟩ := ih
    rw [Module.logKeys_step h.wf a n]
    cases hs : m.step a n with
    | mk m' r =>
      cases r with
      | ok o =>
        obtain ⟨h1, h2⟩ := h.wf.logs hs
        simp only [h1]
        exact ⟨_, hr.log h2 h.wf.logKeys_nodup⟩
      | error e =>
        rcases h.wf.failed hs with rfl | ⟨g, g', -, rfl⟩ <;> exact ⟨rows, hr⟩
  | @reset m h ih =>
    obtain ⟨obs, ho⟩ := h.wf.reset_ok
    obtain ⟨-, -, -, h2⟩ := Module.reset_ok (show m.reset = (m.reset.1, .ok obs) from Prod.ext rfl ho)
    exact new h2

/-- The counter of a library module counts the rows of its log. -/
theorem LibraryModule.counted {m : Module} (h : LibraryModule m) : m.currentStep = m.initialStep + m.logger.len := by
  have new : ∀ {m : Module}, m.currentStep = m.initialStep → m.logger = {} →
      m.currentStep = m.initialStep + m.logger.len := fun e e' => by rw [e, e']; rfl
  induction h with
  | battery hm good => unfold Module.mkBattery at hm; split at hm <;> simp at hm; subst hm; rfl
  | genset hm h => unfold Module.mkGenset at hm; split at hm <;> simp at hm; subst hm; rfl
  | series hb hw =>
    obtain ⟨t, comps, mn, mx, -, wf, hf, -, h1, h2, -, -, h3⟩ := hb.start
    exact new (by rw [h1, h2]) h3
  | balancing hl ho => rfl
  | flexGrid h hk ih => exact ih
  | @step m h a n ih =>
    have hfr := Module.frame_step m a n
    cases hs : m.step a n with
    | mk m' r =>
      rw [hs] at hfr
      simp only at hfr ⊢
      cases r with
      | ok o =>
        obtain ⟨h1, -⟩ := h.wf.logs hs
        obtain ⟨-, -, h3, -⟩ := Module.step_ok hs
        rw [h3, h1, ih, hfr.init]
        simp only [Logger.log]
        omega
      | error e =>
        rcases h.wf.failed hs with rfl | ⟨g, g', -, rfl⟩ <;> exact ih
  | @reset m h ih =>
    obtain ⟨obs, ho⟩ := h.wf.reset_ok
    obtain ⟨hf, -, h1, h2⟩ := Module.reset_ok (show m.reset = (m.reset.1, .ok obs) from Prod.ext rfl ho)
    exact new (by rw [h1, hf.init]) h2

theorem Logger.Holds.serialize {l : Logger} {k : Key} {K : List Key} {rows : List (List (Key × ℚ))}
    (h : l.Holds (k :: K) rows) :
    ∃ raw, l.serialize = .ok raw ∧ Logger.fromRaw raw = l ∧ raw.isSome = decide (0 < l.len) := by
  obtain ⟨cols, len⟩ := l
  obtain ⟨-, hl, hc⟩ := h
  simp only at hl hc
  by_cases hr : rows = []
  · rw [if_pos hr] at hc
    subst hr hc
    simp only [List.length_nil] at hl
    subst hl
    exact ⟨none, rfl, rfl, rfl⟩
  · rw [if_neg hr] at hc
    have hpos : 0 < rows.length := List.length_pos_iff.mpr hr
    unfold Logger.serialize
    rw [if_neg (by simp only; omega)]
    subst hc hl
    simp only [List.map_cons]
    rw [if_pos]
    · refine ⟨_, rfl, ?_, by simpa using hpos⟩
      unfold Logger.fromRaw
      simp only [Logger.mk.injEq, true_and, List.foldl_cons, List.length_map]
      have : ∀ (L : List Key) (n : Nat), n = rows.length →
          (L.map fun k => (k, rows.map fun r => dictGet? r k)).foldl (fun n c => max n c.2.length) n = rows.length := by
        intro L
        induction L with
        | nil => intro n hn; exact hn
        | cons k L ih => intro n hn; simp only [List.map_cons, List.foldl_cons, List.length_map]; exact ih _ (by omega)
      exact this K _ (by omega)
    · rw [List.all_eq_true]
      intro d hd
      obtain ⟨k', -, rfl⟩ := List.mem_map.mp hd
      simp

theorem Module.representable_iff (m : Module) : m.params.representable = true ↔ ¬ m.HasCallable := by
  have ts : ∀ t : TS, (match t.dumpParam with | .user _ | .userScalar _ => false | _ => true) = true ↔
      ¬ ((∃ f, t.param = .user f) ∨ ∃ f, t.param = .userScalar f) := by
    intro t
    unfold TS.dumpParam
    cases hp : t.param with
    | gaussian n i s => cases t.forecaster.kind <;> simp
    | _ => simp
  unfold Module.params Module.HasCallable
  cases hk : m.kind with
  | battery b =>
    simp only [Params.representable]
    cases b.transition <;> simp
  | genset g =>
    simp only [Params.representable]
    cases g.cost <;> simp
  | grid p t => exact ts t
  | load t => exact ts t
  | renewable t => exact ts t
  | balancing u => simp [Params.representable]

/-- Assigning the dumped attributes to the rebuilt module. -/
theorem Module.WF.restored {m m₀ : Module} (h : m.WF) (s : Sib m₀ m) :
    ∃ m', ({ m₀ with logger := m.logger } : Module).restore m.stateAttrs = .ok m' ∧
      (m.series? = none → m' = m) ∧
      (∀ t, m.series? = some t → ∃ t₀, m₀.series? = some t₀ ∧ TS.Same t t₀ ∧
        m' = { m with kind := m.kind.withTS t₀ }) := by
  have hk := s.kind
  obtain ⟨f1, f2, f3, f4, f5, f6, f7⟩ := s.frame
  obtain ⟨r1, r2, r3, r4, r5, r6, r7, r8, r9, r10⟩ := m
  obtain ⟨s1, s2, s3, s4, s5, s6, s7, s8, s9, s10⟩ := m₀
  simp only at f1 f2 f3 f4 f5 f6 f7 hk
  subst f1 f2 f3 f4 f5 f6 f7
  cases hk with
  | battery b c x =>
    cases h with
    | battery b' hb =>
      have hkb := hb.kind
      simp only [Kind.battery.injEq] at hkb
      have h1 := hb.valid.cap_ne
      have h2 := hb.valid.soc_eq
      subst hkb
      simp only at h1 h2
      subst h2
      refine ⟨_, ?_, fun _ => rfl, fun t ht => by simp [series?] at ht⟩
      unfold restore stateAttrs
      simp only [Battery.setSoc, Battery.setCharge, Battery.initBattery, if_neg h1]
    | genset g hb => have := hb.kind; simp at this
    | grid p t hb => have := hb.kind; simp at this
    | load t hb => have := hb.kind; simp at this
    | renewable t hb => have := hb.kind; simp at this
    | balancing u hb => have := hb.kind; simp at this
  | genset g => exact ⟨_, rfl, fun _ => rfl, fun t ht => by simp [series?] at ht⟩
  | balancing u => exact ⟨_, rfl, fun _ => rfl, fun t ht => by simp [series?] at ht⟩
  | grid p st =>
    refine ⟨_, rfl, fun h => by simp [series?] at h, fun t ht => ?_⟩
    simp only [series?, Option.some.injEq] at ht
    subst ht
    exact ⟨_, rfl, st.symm, rfl⟩
  | load st =>
    refine ⟨_, rfl, fun h => by simp [series?] at h, fun t ht => ?_⟩
    simp only [series?, Option.some.injEq] at ht
    subst ht
    exact ⟨_, rfl, st.symm, rfl⟩
  | renewable st =>
    refine ⟨_, rfl, fun h => by simp [series?] at h, fun t ht => ?_⟩
    simp only [series?, Option.some.injEq] at ht
    subst ht
    exact ⟨_, rfl, st.symm, rfl⟩

theorem Module.WF.ts {m : Module} (h : m.WF) (hs : m.series?.isSome) : ∃ t, m.TSWF t := by
  cases h with
  | battery b h => simp [series?, h.kind] at hs
  | genset b h => simp [series?, h.kind] at hs
  | balancing b h => simp [series?, h.kind] at hs
  | grid p t h => exact ⟨t, h.ts⟩
  | load t h => exact ⟨t, h.ts⟩
  | renewable t h => exact ⟨t, h.ts⟩

theorem Module.WF.works {m : Module} (h : m.WF) {t : TS} (hs : m.TSWF t) : t.Works := by
  have hs := hs.series
  cases h with
  | battery b h => simp [series?, h.kind] at hs
  | genset b h => simp [series?, h.kind] at hs
  | balancing b h => simp [series?, h.kind] at hs
  | grid p t h w => rw [h.ts.series] at hs; injection hs with hs; exact hs ▸ w
  | load t h w => rw [h.ts.series] at hs; injection hs with hs; exact hs ▸ w
  | renewable t h w => rw [h.ts.series] at hs; injection hs with hs; exact hs ▸ w

/-- The forecast stored in a library module belongs to its current step. -/
theorem LibraryModule.fresh {m : Module} (h : LibraryModule m) :
    ∀ t, m.series? = some t → t.Fresh m.currentStep := by
  have op : ∀ {m : Module} (op : MOp), LibraryModule m → (∀ t, m.series? = some t → t.Fresh m.currentStep) →
      (op.apply m).series?.isSome → m.series?.isSome → ∀ t, (op.apply m).series? = some t →
        t.Fresh (op.apply m).currentStep := by
    intro m op h ih _ hs t ht
    obtain ⟨t₁, h₁⟩ := h.wf.ts hs
    obtain ⟨t₂, -, h₂, hf⟩ := h₁.fresh_op (ih t₁ h₁.series) (h.wf.works h₁) op
    rw [h₂.series] at ht
    injection ht with ht
    exact ht ▸ hf
  have back : ∀ {m m' : Module}, m.Sib m' → m'.series?.isSome → m.series?.isSome := by
    intro m m' s hs
    have hk := s.kind
    unfold Module.series? at *
    cases hm : m.kind <;> cases hm' : m'.kind <;> rw [hm, hm'] at hk <;> simp_all <;> cases hk
  induction h with
  | battery hm good =>
    obtain ⟨b, hk, -⟩ := Module.mkBattery_inv hm
    intro t ht; simp [Module.series?, hk] at ht
  | genset hm h =>
    obtain ⟨g, hg, hk, -⟩ := Module.mkGenset_inv hm
    intro t ht; simp [Module.series?, hk] at ht
  | series hb hw =>
    obtain ⟨t, comps, mn, mx, -, wf, hf, -, h1, h2, -, -, h3⟩ := hb.start
    intro t' ht'
    rw [wf.series] at ht'
    injection ht' with ht'
    subst ht'
    rw [h1]; exact hf
  | balancing hl ho => intro t ht; simp [Module.series?, Module.mkBalancing] at ht
  | flexGrid h hk ih => exact ih
  | @step m h a n ih =>
    intro t ht
    have hs : (m.step a n).1.series?.isSome := by rw [ht]; rfl
    exact op (.step a n) h ih hs (back (h.wf.sib_step a n) hs) t ht
  | @reset m h ih =>
    intro t ht
    have hs : m.reset.1.series?.isSome := by rw [ht]; rfl
    exact op .reset h ih hs (back h.wf.sib_reset hs) t ht

/-- Dumping and loading a library module. -/
theorem LibraryModule.reloaded {m : Module} (h : LibraryModule m) (hc : ¬ m.HasCallable) :
    ∃ l, m.reload = .ok l ∧ l.frozen = decide (0 < m.logger.len) ∧ (m.series? = none → l.mod = m) ∧
      (∀ t, m.series? = some t → ∃ t₀, TS.Same t t₀ ∧ t₀.Fresh m.initialStep ∧ t₀.Shaped t₀.cur ∧
        l.mod = { m with kind := m.kind.withTS t₀ }) := by
  obtain ⟨rows, hr⟩ := h.table
  obtain ⟨raw, h1, h2, h3⟩ := Logger.Holds.serialize (show m.logger.Holds (.str "reward" :: _) rows from hr)
  obtain ⟨m₀, hb, hn, hs⟩ := h.rebuild
  obtain ⟨m', hr', hx, hy⟩ := h.wf.restored hs
  refine ⟨⟨m', raw.isSome⟩, ?_, h3, hx, ?_⟩
  · unfold Module.reload Module.dump
    rw [h1]
    simp only [(m.representable_iff).mpr hc, if_true]
    unfold Dump.load
    simp only [hb, h2, hr']
  · intro t ht
    obtain ⟨t₀, a, b, c⟩ := hy t ht
    refine ⟨t₀, b, by rw [hs.frame.init]; exact hn.fresh t₀ a, ?_, c⟩
    obtain ⟨t', ht'⟩ := hn.lib.wf.ts (by rw [a]; rfl)
    rw [ht'.series] at a
    injection a with a
    subst a
    exact ht'.shaped

/-! ### Behaviour of loaded modules -/

theorem Module.frozenStep_error (m : Module) (a : Act) (n : Bool) : ∃ e, (m.frozenStep a n).2 = .error e := by
  have en : ∀ (m : Module) (q : ℚ), ∃ e, (m.frozenEnergy q).2 = .error e := by
    intro m q
    unfold Module.frozenEnergy
    repeat' split
    all_goals exact ⟨_, rfl⟩
  have base : ∀ (m : Module), ∃ e, (m.frozenBase a n).2 = .error e := by
    intro m
    unfold Module.frozenBase
    simp only
    split
    · exact ⟨_, rfl⟩
    · split
      · exact ⟨_, rfl⟩
      · exact en _ _
  unfold Module.frozenStep
  repeat' split
  all_goals first | exact ⟨_, rfl⟩ | exact base _

/-- A loaded module that is not frozen is like any other module. -/
theorem loaded_free (m : Module) (ops : List MOp) :
    Loaded.outputs ⟨m, false⟩ ops = outputs m ops ∧ Loaded.run ⟨m, false⟩ ops = ⟨runOps m ops, false⟩ := by
  have ap : ∀ (m : Module) (op : MOp), Loaded.apply ⟨m, false⟩ op = ⟨op.apply m, false⟩ := by
    intro m op
    cases op with
    | step a n => rfl
    | reset =>
      simp only [Loaded.apply, Loaded.reset, MOp.apply, Module.reset]
      split <;> rename_i h <;> simp only [h]
    | setSoc v => rfl
    | setCharge v => rfl
  induction ops generalizing m with
  | nil => exact ⟨rfl, rfl⟩
  | cons op ops ih =>
    have e := ap m op
    refine ⟨?_, ?_⟩
    · cases op with
      | step a n =>
        simp only [Loaded.outputs, outputs, e, (ih _).1, Loaded.step]
        rfl
      | _ => simp only [Loaded.outputs, outputs, e, (ih _).1]
    · show Loaded.run (Loaded.apply _ op) ops = _
      rw [e, (ih _).2]
      rfl

theorem loaded_reset (l : Loaded) (obs : Act) (h : l.mod.reset.2 = .ok obs) :
    l.reset = (⟨l.mod.reset.1, false⟩, .ok obs) := by
  unfold Module.reset at *
  unfold Loaded.reset
  split at h
  · simp at h
  · rename_i m₁ hm
    rw [hm]
    simp only at h ⊢
    rw [h]

end Pymgrid
