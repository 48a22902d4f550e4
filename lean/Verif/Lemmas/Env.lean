import Verif.Lemmas.GetLog
import Verif.Props.PriorityList

set_option autoImplicit false

/-! The discrete environment. -/

namespace Pymgrid

open Module

/-- A reset does not depend on the microgrid's own log. -/
theorem Microgrid.reset_other (g : Microgrid) (l : Logger) :
    ∃ l', ({ g with otherLog := l } : Microgrid).reset = ({ g.reset.1 with otherLog := l' }, g.reset.2) ∧
      (g.reset.2 = .ok () → l' = {} ∧ g.reset.1.otherLog = {}) := by
  obtain ⟨heap, cont, i₀, f₀, shaper, tr, calls, bl, ol⟩ := g
  unfold Microgrid.reset Microgrid.setTrajectory
  cases tr with
  | none =>
    simp only
    split
    · exact ⟨l, rfl, by simp⟩
    · exact ⟨{}, rfl, fun _ => ⟨rfl, rfl⟩⟩
  | some f =>
    simp only
    cases f calls i₀ f₀ with
    | error e => exact ⟨l, rfl, by simp⟩
    | ok v =>
      simp only
      rcases hq : setFinalMany (setInitialMany heap v.1 cont.fullList) v.2 false cont.fullList with ⟨h₂, r⟩
      cases r with
      | error e => exact ⟨l, rfl, by simp⟩
      | ok u =>
        simp only
        split
        · exact ⟨l, rfl, by simp⟩
        · exact ⟨{}, rfl, fun _ => ⟨rfl, rfl⟩⟩

namespace DiscreteEnv

variable {g : Microgrid} {rg es : Bool} {e : DiscreteEnv}

theorem create_ok (h : create g rg es = .ok e) :
    e.g = g ∧ PriorityList.getPriorityLists g rg = .ok e.lists ∧ e.n = e.lists.length ∧ e.emptySpace = es := by
  unfold create at h
  repeat' split at h
  all_goals try (simp at h; done)
  rename_i pls h2 _ n h3
  simp only [Except.ok.injEq] at h
  subst h
  refine ⟨rfl, h2, ?_, rfl⟩
  unfold discrete at h3
  split at h3
  · simp at h3
  · exact (Except.ok.inj h3).symm

/-- The number of actions, unless the last action could not be removed properly. -/
def Counted (e : DiscreteEnv) : Prop :=
  e.n = e.lists.length ∨ e.lists = [] ∧ e.n = 1 ∧ e.emptySpace = false

theorem step_same (e : DiscreteEnv) (a : Int) :
    (e.step a).1.lists = e.lists ∧ (e.step a).1.n = e.n ∧ (e.step a).1.emptySpace = e.emptySpace := by
  unfold step
  simp only
  repeat' split
  all_goals exact ⟨rfl, rfl, rfl⟩

theorem removeAction_cases (e : DiscreteEnv) (a : Int) (hc : e.Counted) :
    ((e.removeAction a).1 = e ∧ ((e.removeAction a).2 = .error .value ∨ (e.removeAction a).2 = .error .index ∧ e.lists = [])) ∨
    (∃ k : Nat, a = k ∧ k < e.lists.length ∧ (e.removeAction a).2 = .ok () ∧
      (e.removeAction a).1 = { e with lists := e.lists.eraseIdx k, n := e.lists.length - 1 } ∧
      (1 < e.lists.length ∨ e.emptySpace = true)) ∨
    (a = 0 ∧ e.lists.length = 1 ∧ e.n = 1 ∧ e.emptySpace = false ∧ (e.removeAction a).2 = .error .assertion ∧
      (e.removeAction a).1 = { e with lists := [] }) := by
  unfold removeAction
  by_cases h : e.contains a = false
  · rw [if_pos h]; exact Or.inl ⟨rfl, Or.inl rfl⟩
  rw [if_neg h]
  have h' : 0 ≤ a ∧ a < e.n := by simpa [contains] using h
  by_cases hk : a.toNat < e.lists.length
  · rw [if_pos hk]
    have hn : e.n = e.lists.length := by
      rcases hc with hc | hc
      · exact hc
      · rw [hc.1] at hk; simp at hk
    right
    have ha : a = (a.toNat : Int) := by omega
    simp only [discrete, hn]
    by_cases hz : e.lists.length - 1 = 0 ∧ e.emptySpace = false
    · rw [if_pos hz]
      right
      have h1 : e.lists.length = 1 := by omega
      have h0 : a.toNat = 0 := by omega
      refine ⟨by omega, h1, by omega, hz.2, rfl, ?_⟩
      have : e.lists.eraseIdx a.toNat = [] := by
        rw [h0, ← List.length_eq_zero_iff, List.length_eraseIdx, if_pos (by omega), h1]
      simp only [this]
    · rw [if_neg hz]
      left
      refine ⟨a.toNat, ha, hk, rfl, rfl, ?_⟩
      by_cases h1 : 1 < e.lists.length
      · exact Or.inl h1
      · right
        cases hes : e.emptySpace with
        | true => rfl
        | false => exact absurd ⟨by omega, hes⟩ hz
  · rw [if_neg hk]
    left
    refine ⟨rfl, Or.inr ⟨rfl, ?_⟩⟩
    rcases hc with hc | hc
    · omega
    · exact hc.1

theorem op_counted (e : DiscreteEnv) (op : EOp) (hc : e.Counted) : (op.apply e).Counted := by
  cases op with
  | step a =>
    obtain ⟨h1, h2, h3⟩ := step_same e a
    unfold Counted EOp.apply at *
    simp only
    rw [h1, h2, h3]
    exact hc
  | reset => exact hc
  | remove a =>
    unfold EOp.apply
    simp only
    rcases removeAction_cases e a hc with ⟨h, -⟩ | ⟨k, -, hk, -, h, -⟩ | ⟨-, -, hn, hes, -, h⟩
    · rw [h]; exact hc
    · rw [h]
      left
      simp only [List.length_eraseIdx, if_pos hk]
    · rw [h]; exact Or.inr ⟨rfl, hn, hes⟩

theorem op_sublist (e : DiscreteEnv) (op : EOp) : (op.apply e).lists.Sublist e.lists := by
  cases op with
  | step a => rw [show (EOp.apply e (.step a)).lists = e.lists from (step_same e a).1]
  | reset => exact List.Sublist.refl _
  | remove a =>
    unfold EOp.apply removeAction
    simp only
    repeat' split
    all_goals first
      | exact List.Sublist.refl _
      | exact List.eraseIdx_sublist _ _

theorem runE_lists (ops : List EOp) (hc : e.Counted) :
    (runE e ops).Counted ∧ (runE e ops).lists.Sublist e.lists := by
  induction ops generalizing e with
  | nil => exact ⟨hc, List.Sublist.refl _⟩
  | cons op ops ih =>
    obtain ⟨h1, h2⟩ := ih (op_counted e op hc)
    exact ⟨h1, h2.trans (op_sublist e op)⟩

theorem op_emptySpace (e : DiscreteEnv) (op : EOp) : (op.apply e).emptySpace = e.emptySpace := by
  cases op with
  | step a => exact (step_same e a).2.2
  | reset => rfl
  | remove a =>
    unfold EOp.apply removeAction
    simp only
    repeat' split
    all_goals rfl

theorem runE_emptySpace (ops : List EOp) : (runE e ops).emptySpace = e.emptySpace := by
  induction ops generalizing e with
  | nil => rfl
  | cons op ops ih => exact (ih (e := op.apply e)).trans (op_emptySpace e op)

/-- The microgrid in an environment is one that has made runs and resets, but for its own log. -/
theorem op_grid (e : DiscreteEnv) (op : EOp) {g₀ : Microgrid} (h : ∃ gops l, e.g = { runG g₀ gops with otherLog := l }) :
    ∃ gops l, (op.apply e).g = { runG g₀ gops with otherLog := l } := by
  obtain ⟨gops, l, hg⟩ := h
  cases op with
  | step a =>
    simp only [EOp.apply, step, hg]
    split
    · exact ⟨gops, _, rfl⟩
    · split
      · exact ⟨gops, _, rfl⟩
      · rename_i c _
        refine ⟨gops ++ [.run c false], l.log [(.str "action", (a : ℚ))], ?_⟩
        rw [show runG g₀ (gops ++ [.run c false]) = ((runG g₀ gops).run c false).1 by
          simp only [runG, List.foldl_append, List.foldl_cons, List.foldl_nil, GOp.apply]]
        exact congrArg Prod.fst ((runG g₀ gops).run_other c false (l.log [(.str "action", (a : ℚ))]))
  | reset =>
    simp only [EOp.apply, reset, hg]
    obtain ⟨l', hl, -⟩ := (runG g₀ gops).reset_other l
    rw [hl]
    exact ⟨gops ++ [.reset], l', by simp only [runG, List.foldl_append, List.foldl_cons, List.foldl_nil, GOp.apply]⟩
  | remove a =>
    refine ⟨gops, l, ?_⟩
    rw [← hg]
    unfold EOp.apply removeAction
    simp only
    repeat' split
    all_goals rfl

theorem runE_grid (ops : List EOp) {g₀ : Microgrid} (h : ∃ gops l, e.g = { runG g₀ gops with otherLog := l }) :
    ∃ gops l, (runE e ops).g = { runG g₀ gops with otherLog := l } := by
  induction ops generalizing e with
  | nil => exact h
  | cons op ops ih => exact ih (op_grid e op h)

end DiscreteEnv

/-! ### Steps -/

variable {mods : List (String × Nat)} {pl : List Element}

theorem Running.other {F c : Nat} {g : Microgrid} (r : Running mods pl F g c) (l : Logger) :
    Running mods pl F { g with otherLog := l } c where
  ok := ⟨r.ok.cont, r.ok.wf⟩
  names := r.names
  dims := r.dims
  fits := r.fits
  lock := r.lock
  episode := r.episode
  raise := r.raise
  bal := r.bal
  size := r.size
  shaper := r.shaper

theorem Running.withList {F c : Nat} {g : Microgrid} (r : Running mods pl F g c) {pl' : List Element}
    (hf : Fits g.heap mods pl') : Running mods pl' F g c := { r with fits := hf }

theorem Running.envStep {F c : Nat} {e : DiscreteEnv} (r : Running mods pl F e.g c) (hid : (mods.map Prod.snd).Nodup)
    (hc : c < F) (hn : e.n = e.lists.length) {k : Nat} (hk : e.lists[k]? = some pl) :
    ∃ ctl rem xs e₁ o, Planned e.g.heap mods pl ctl (netLoad e.g.heap mods) rem xs ∧
      e.g.run ctl false = ({ e₁.g with otherLog := e.g.otherLog }, .ok o) ∧ e.step k = (e₁, .ok o) ∧
      o.done = decide (F ≤ c + 1) ∧ Running mods pl F e₁.g (c + 1) ∧
      e₁.g.otherLog = e.g.otherLog.log [(.str "action", (k : ℚ))] := by
  obtain ⟨act, rem, ctl, xs, h1, h2, p⟩ :=
    PriorityList.populateAction_ok r.ok r.names r.dims (r.live hc) r.fits.use r.fits.all
  obtain ⟨ctl', rem', xs', g', o, p', hr, hs, hd, r'⟩ := r.step hid hc
  simp only [RBC.step, h1, h2] at hs
  have hr2 : e.g.run ctl false = (g', .ok o) := by
    cases hq : e.g.run ctl false with
    | mk a b =>
      rw [hq] at hs
      simp only [Prod.mk.injEq, RBC.mk.injEq, and_true] at hs
      rw [hs.1, hs.2]
  have hot := Microgrid.run_otherLog hr2
  have hlt : k < e.lists.length := (List.getElem?_eq_some_iff.mp hk).1
  refine ⟨ctl, rem, xs, { e with g := { g' with otherLog := e.g.otherLog.log [(.str "action", (k : ℚ))] } }, o, p, ?_, ?_, hd,
    r'.other _, rfl⟩
  · rw [hr2]
    simp only
    rw [← hot]
  · have hcon : e.contains (k : Int) = true := by
      simp only [DiscreteEnv.contains, decide_eq_true_eq]
      omega
    have hga : e.getAction k = .ok act := by
      unfold DiscreteEnv.getAction
      rw [hcon, if_neg (by simp), Int.toNat_natCast, hk]
      simp only [h1]
    simp only [DiscreteEnv.step, hga, h2, Microgrid.run_other, hr2, Int.cast_natCast]

theorem Running.driven {F c : Nat} {e : DiscreteEnv} (hid : (mods.map Prod.snd).Nodup) (hn : e.n = e.lists.length)
    (r : ∀ pl ∈ e.lists, Running mods pl F e.g c) {acts : List Int} (ha : ∀ a ∈ acts, 0 ≤ a ∧ a < e.lists.length)
    (hlen : c + acts.length ≤ F) : ∃ os e', Driven mods e acts os e' ∧
      (∀ i (_ : i < os.length), os[i].done = decide (F ≤ c + i + 1)) := by
  induction acts generalizing e c with
  | nil => exact ⟨[], e, .nil e, by simp⟩
  | cons a acts ih =>
    simp only [List.length_cons] at hlen
    obtain ⟨ha0, ha1⟩ := ha a (by simp)
    obtain ⟨k, rfl⟩ := Int.eq_ofNat_of_zero_le ha0
    have hk : k < e.lists.length := by omega
    have hkl : e.lists[k]? = some e.lists[k] := List.getElem?_eq_getElem hk
    have rk := r _ (List.getElem_mem hk)
    obtain ⟨ctl, rem, xs, e₁, o, p, hr, hs, hd, r', hl⟩ := rk.envStep hid (by omega) hn hkl
    obtain ⟨s1, s2, -⟩ := DiscreteEnv.step_same e (k : Int)
    rw [hs] at s1 s2
    simp only at s1 s2
    have hal : ∀ j, (e.g.heap j).Alike (e₁.g.heap j) := fun j => run_alike hr j
    have hcl : ∀ j, (e₁.g.heap j).kind.cls = (e.g.heap j).kind.cls := fun j => by
      have := kept_cls.toRespected.run e.g ctl false j
      rwa [hr] at this
    obtain ⟨os, e', hdr, hdone⟩ := ih (e := e₁) (c := c + 1) (by rw [s1, s2, hn]) (fun pl' hp => by
      rw [s1] at hp
      exact r'.withList ((r pl' hp).fits.congr (fun j => (hal j).ffc) hcl))
      (fun a h => by rw [s1]; exact ha a (by simp [h])) (by omega)
    refine ⟨o :: os, e', .cons hkl p hr hs hdr, ?_⟩
    intro i hi
    cases i with
    | zero => simpa using hd
    | succ i =>
      simp only [List.length_cons] at hi
      have := hdone i (by omega)
      simp only [List.getElem_cons_succ, this]
      congr 1
      simp only [eq_iff_iff]
      constructor <;> intro <;> omega

/-- The runs of the microgrid of a driven environment, apart from the microgrid's own log. -/
theorem Driven.runs {e e' : DiscreteEnv} {acts : List Int} {os : List RunOut} (hd : Driven mods e acts os e') :
    ∃ cs g', Runs e.g cs os g' ∧ (∀ cn ∈ cs, Supplies e.g.heap mods cn.1) ∧ e'.g = { g' with otherLog := e'.g.otherLog } := by
  have key : ∀ (g : Microgrid) (l : Logger), e.g = { g with otherLog := l } →
      ∃ cs g', Runs g cs os g' ∧ (∀ cn ∈ cs, Supplies g.heap mods cn.1) ∧ e'.g = { g' with otherLog := e'.g.otherLog } := by
    induction hd with
    | nil e =>
      intro g l he
      exact ⟨[], g, .nil g, by simp, by rw [he]⟩
    | @cons e e₁ e' k acts pl c rem xs o os list plan run step rest ih =>
      intro g l he
      have hrun : ∃ g₁, g.run c false = (g₁, .ok o) ∧ e₁.g = { g₁ with otherLog := e₁.g.otherLog } := by
        rw [he, Microgrid.run_other] at run
        cases hq : g.run c false with
        | mk a b =>
          rw [hq] at run
          simp only [Prod.mk.injEq] at run
          refine ⟨a, by rw [run.2], ?_⟩
          have h1 := congrArg (fun x : Microgrid => { x with otherLog := e₁.g.otherLog }) run.1
          exact h1.symm
      obtain ⟨g₁, hg₁, he₁⟩ := hrun
      obtain ⟨cs, g', hr, hs, hlast⟩ := ih g₁ _ he₁
      refine ⟨(c, false) :: cs, g', .cons hg₁ hr, ?_, hlast⟩
      intro cn hcn
      rcases List.mem_cons.mp hcn with rfl | hcn
      · have := plan.supplied
        rw [he] at this
        exact this
      · intro nm hm hf
        rw [← modulesNamed_congr fun j => (run_alike hg₁ j).ffc]
        exact hs cn hcn nm hm ((run_alike hg₁ nm.2).ffc.trans hf)
  exact key e.g e.g.otherLog rfl

theorem Driven.logged {e e' : DiscreteEnv} {acts : List Int} {os : List RunOut} (hd : Driven mods e acts os e')
    {rows : List (List (Key × ℚ))} (h0 : e.g.otherLog.Holds [.str "action"] rows) :
    e'.g.otherLog.Holds [.str "action"] (rows ++ acts.map fun a : Int => [(.str "action", (a : ℚ))]) := by
  induction hd generalizing rows with
  | nil e => simpa using h0
  | @cons e e₁ e' k acts pl c rem xs o os list plan run step rest ih =>
    have h1 : e₁.g.otherLog = e.g.otherLog.log [(.str "action", (k : ℚ))] := by
      have : (e.step (k : Int)).1.g.otherLog = e.g.otherLog.log [(.str "action", (k : ℚ))] := by
        simp only [DiscreteEnv.step, Int.cast_natCast]
        repeat' split
        · rfl
        · rfl
        · rw [Microgrid.run_other]
      rw [step] at this
      exact this
    have h2 := h0.log (row := [(.str "action", (k : ℚ))]) rfl (by simp)
    rw [← h1] at h2
    have := ih h2
    simpa using this

theorem Driven.length {e e' : DiscreteEnv} {acts : List Int} {os : List RunOut} (hd : Driven mods e acts os e') :
    os.length = acts.length := by
  induction hd with
  | nil => rfl
  | cons _ _ _ _ _ ih => simp [ih]

end Pymgrid
