import Verif.Lemmas.Battery
import Verif.Lemmas.Genset
import Verif.Lemmas.SeriesHist
import Verif.Spec.Library

set_option autoImplicit false

/-! One invariant for the modules of all classes. -/

namespace Pymgrid

/-- The forecaster of a series works. -/
def TS.Works (t : TS) : Prop := t.forecaster.kind.Works t.comps.length t.horizon

theorem TS.Same.works {t t' : TS} (s : TS.Same t t') (h : t.Works) : t'.Works := by
  unfold TS.Works at *
  rw [s.forecaster, s.comps, s.horizon]
  exact h

namespace Module

/-- A module in a consistent state. -/
inductive WF (m : Module) : Prop
  | battery (b : Battery) (h : m.BattWF b)
  | genset (g : Genset) (h : m.GenWF g)
  | grid (p : GridParams) (t : TS) (h : m.GridWF p t) (w : t.Works)
  | load (t : TS) (h : m.LoadWF t) (w : t.Works)
  | renewable (t : TS) (h : m.RenWF t) (w : t.Works)
  | balancing (u : Unbalanced) (h : m.BalWF u)

theorem GenWF.step_cases {m : Module} {g : Genset} (h : m.GenWF g) (a : Act) (n : Bool) :
    ∃ g', (m.step a n).1.GenWF g' := by
  rw [h.step_eq]
  cases a with
  | num q => exact ⟨g, h⟩
  | arr l =>
    simp only
    cases l[0]? with
    | none => exact ⟨g, h⟩
    | some goal =>
      simp only
      split
      · exact ⟨g, h⟩
      · rename_i hg
        obtain ⟨h0, h1⟩ := not_not.mp hg
        obtain ⟨p, hp⟩ := h.phase
        obtain ⟨g', e, hp', hs, -⟩ := hp.update h0 h1
        rw [e]
        have wf := h.withStatus ⟨_, hp'⟩ hs
        simp only
        cases m.request (.arr l) n with
        | error e => exact ⟨g', wf⟩
        | ok q =>
          have := wf.stepEnergy q
          simp only
          split at this
          · rw [this]; exact ⟨g', wf⟩
          · split at this
            · rw [this]; exact ⟨g', wf⟩
            · obtain ⟨m', o, e, hg⟩ := this
              rw [e]; exact ⟨g', hg.wf⟩

theorem WF.step {m : Module} (h : m.WF) (a : Act) (n : Bool) : (m.step a n).1.WF := by
  cases h with
  | battery b h =>
    rcases h.step_cases a n with ⟨e, he⟩ | ⟨d, x, m', o, he, hs⟩
    · rw [he]; exact .battery b h
    · rw [he]; exact .battery _ hs.wf
  | genset g h => obtain ⟨g', h'⟩ := h.step_cases a n; exact .genset g' h'
  | grid p t h w => obtain ⟨t', hs, h'⟩ := h.ops [.step a n]; exact .grid p t' h' (hs.works w)
  | load t h w => obtain ⟨t', hs, h'⟩ := h.ops [.step a n]; exact .load t' h' (hs.works w)
  | renewable t h w => obtain ⟨t', hs, h'⟩ := h.ops [.step a n]; exact .renewable t' h' (hs.works w)
  | balancing u h => exact .balancing u (h.op (.step a n))

theorem WF.reset {m : Module} (h : m.WF) : m.reset.1.WF := by
  cases h with
  | battery b h => obtain ⟨m', obs, he, h', -⟩ := h.reset; rw [he]; exact .battery b h'
  | genset g h => obtain ⟨m', obs, he, h', -⟩ := h.reset; rw [he]; exact .genset g h'
  | grid p t h w => obtain ⟨t', hs, h'⟩ := h.ops [.reset]; exact .grid p t' h' (hs.works w)
  | load t h w => obtain ⟨t', hs, h'⟩ := h.ops [.reset]; exact .load t' h' (hs.works w)
  | renewable t h w => obtain ⟨t', hs, h'⟩ := h.ops [.reset]; exact .renewable t' h' (hs.works w)
  | balancing u h => exact .balancing u (h.op .reset)

/-- Changing `initial_step` does not affect consistency. -/
theorem WF.withInitial {m : Module} (h : m.WF) (v : Nat) : WF { m with initialStep := v } := by
  cases h with
  | battery b h => exact .battery b ⟨h.kind, h.valid, h.ffc, h.prov, h.abs, h.dim⟩
  | genset g h => exact .genset g ⟨h.kind, h.phase, h.min_nonneg, h.min_le, h.ffc, h.prov, h.abs, h.dim⟩
  | grid p t h w =>
    exact .grid p t ⟨h.kind, ⟨h.ts.series, h.ts.valid, h.ts.shaped, h.ts.dim⟩, h.names, h.ffc, h.prov, h.abs, h.imp,
      h.exp, h.status, h.nonneg⟩ w
  | load t h w =>
    exact .load t ⟨h.kind, ⟨h.ts.series, h.ts.valid, h.ts.shaped, h.ts.dim⟩, h.one, h.ffc, h.prov, h.abs, h.sign⟩ w
  | renewable t h w =>
    exact .renewable t ⟨h.kind, ⟨h.ts.series, h.ts.valid, h.ts.shaped, h.ts.dim⟩, h.one, h.ffc, h.prov, h.abs,
      h.sign, h.low⟩ w
  | balancing u h => exact .balancing u ⟨h.kind, h.ffc, h.prov, h.abs, h.dim, h.loss, h.over, h.space⟩

theorem TSWF.withFinal {m : Module} {t : TS} (h : m.TSWF t) (f : Nat) :
    TSWF { m with kind := m.kind.withTS { t with finalStep := f } } { t with finalStep := f } :=
  ⟨series_withTS h.series _ _ _,
    ⟨h.valid.minLen, h.valid.box, h.valid.inBox, h.valid.fMin, h.valid.fMax, h.valid.fObs, h.valid.fRows,
      h.valid.noneH⟩, h.shaped, h.dim⟩

end Module

/-- Every module of the library is consistent. -/
theorem LibraryModule.wf {m : Module} (h : LibraryModule m) : m.WF := by
  induction h with
  | @battery minC maxC maxCh maxDis eff cost c s i r m hm good =>
    obtain ⟨b, hk, he, he1, hc, h1, h2, h3, h4, h5, h6, h7, -, h9, -, hf, hp, ha, hd, -⟩ := Module.mkBattery_inv hm
    obtain ⟨q, hq, hlo, hhi⟩ := good.start
    have hch : b.charge = q := by simpa [Module.charge?, hk] using hq
    exact .battery b ⟨hk, ⟨by rw [h5]; exact he, by rw [h5]; exact he1, by rw [h3]; exact good.maxCh,
      by rw [h4]; exact good.maxDis, by rw [h2]; exact hc, h7, by rw [h1, hch]; exact hlo,
      by rw [h2, hch]; exact hhi, by rw [h9, h2]⟩, hf, hp, ha, hd⟩
  | @genset rmin rmax cost c1 c2 S W ab iu i r m hm h =>
    obtain ⟨g, hg, hk, hf, hp, ha, hd, -⟩ := Module.mkGenset_inv hm
    obtain ⟨hle, hph, h1, h2, -⟩ := Genset.init_inv hg
    exact .genset g ⟨hk, ⟨_, hph⟩, by rw [h1]; exact h, by rw [h1, h2]; exact hle, hf, hp, ha, hd⟩
  | @series param horizon i fs r m rows k hb hw =>
    have key : ∀ {t : TS} {rows : List (List ℚ)} {comps : List String} {mn mx : List ℚ},
        comps.length = k → TS.Same (TS.blank rows comps mn mx param horizon fs) t → t.Works := by
      intro t rows comps mn mx hk hs
      unfold TS.Works
      rw [hs.forecaster, hs.comps, hs.horizon]
      exact TS.blank_works (by rw [← hk] at hw; exact hw)
    cases hb with
    | load hm => obtain ⟨t, mn, mx, wf, -, -, hs, -⟩ := Module.mkLoad_inv hm; exact .load t wf (key rfl hs)
    | renewable hm =>
      obtain ⟨t, mn, mx, wf, -, -, hs, -⟩ := Module.mkRenewable_inv hm; exact .renewable t wf (key rfl hs)
    | grid hrect hm => obtain ⟨t, mn, mx, wf, -, -, hs, -⟩ := Module.mkGrid_inv hrect hm; exact .grid _ t wf (key rfl hs)
  | balancing hl ho => exact .balancing _ (Module.mkBalancing_wf hl ho)
  | @flexGrid m p t _ hk ih =>
    cases ih with
    | grid p' t' h w =>
      exact .grid p' t' ⟨h.kind, ⟨h.ts.series, h.ts.valid, h.ts.shaped, h.ts.dim⟩, h.names, by simp, h.prov, h.abs,
        h.imp, h.exp, h.status, h.nonneg⟩ w
    | battery b h => rw [h.kind] at hk; simp at hk
    | genset g h => rw [h.kind] at hk; simp at hk
    | load t h w => rw [h.kind] at hk; simp at hk
    | renewable t h w => rw [h.kind] at hk; simp at hk
    | balancing u h => rw [h.kind] at hk; simp at hk
  | step _ a n ih => exact ih.step a n
  | reset _ ih => exact ih.reset

end Pymgrid
