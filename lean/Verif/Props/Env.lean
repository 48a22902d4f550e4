import Verif.Lemmas.Env
import Verif.Props.GetLog

set_option autoImplicit false

/-!
# C39: the discrete environment

For every environment `e₀` on a microgrid `g₀` that the constructor accepts for library modules, after every history `ops`
of steps (with any integer, valid or not), removals of actions (with any integer) and resets.
-/

namespace Pymgrid

open Module PriorityList

section
variable {h : Heap} {mods : List (String × Nat)} {sh : Option Shaper}
  {tr : Option (Nat → Nat → Option Nat → Except Err (Nat × Nat))} {g₀ : Microgrid} {rg es : Bool} {e₀ : DiscreteEnv}

/-- C39: environments can be created; their actions are the priority lists of the microgrid. -/
theorem C39_create (hc : Microgrid.create h mods sh tr = .ok g₀) (hl : ∀ nm ∈ mods, LibraryModule (h nm.2))
    (hu : ClearNames h mods) (rg es : Bool) :
    ∃ e, DiscreteEnv.create g₀ rg es = .ok e ∧ e.g = g₀ ∧ e.n = e.lists.length ∧ 0 < e.n ∧ e.lists.Nodup ∧
      ∀ pl, pl ∈ e.lists ↔ IsPriorityList h mods pl ∧ (rg = true → NoIdleGenset h mods pl) := by
  have hheap := (Microgrid.create_ok hc).1
  obtain ⟨ok, alike, -, -⟩ := user_grid hc hl []
  obtain ⟨rest, hf⟩ := first_list ok (hu.congr alike) (user_dims hc hl []) rg
  obtain ⟨rest', hf'⟩ := first_list ok (hu.congr alike) (user_dims hc hl []) false
  obtain ⟨pls, hp, hnd, hm⟩ := C35_priority_lists_partial hc hl hu [] rg
  simp only [runG, List.foldl_nil] at hf hf' hp hm
  have hpos : 0 < pls.length := by
    rw [hf] at hp
    rw [← Except.ok.inj hp]
    simp
  refine ⟨⟨g₀, pls, pls.length, es⟩, ?_, rfl, rfl, hpos, hnd, by rw [← hheap]; exact hm⟩
  unfold DiscreteEnv.create DiscreteEnv.discrete
  rw [hf', hp]
  simp only [List.length_cons, Nat.add_eq_zero_iff, Nat.succ_ne_self, and_false, false_and, ↓reduceIte]
  rw [if_neg (by omega)]

/-- C39: no operation changes the order of the actions or adds actions. -/
theorem C39_order (hc : DiscreteEnv.create g₀ rg es = .ok e₀) (ops : List EOp) :
    (runE e₀ ops).lists.Sublist e₀.lists :=
  (DiscreteEnv.runE_lists ops (Or.inl (DiscreteEnv.create_ok hc).2.2.1)).2

/-- C39: removing an action keeps the others in order: actions below it keep their index, actions above it move down by
    one.  The microgrid is not touched.  Anything but the index of an action is rejected with `ValueError`.
    Missing: the removal of the only remaining action, which fails (`C39_last_action`) unless gym has empty spaces. -/
theorem C39_remove_partial (hc : DiscreteEnv.create g₀ rg es = .ok e₀) (ops : List EOp) (a : Int)
    (hlast : 1 < (runE e₀ ops).lists.length ∨ es = true) :
    (∀ k : Nat, a = k → k < (runE e₀ ops).lists.length → ∃ e', (runE e₀ ops).removeAction a = (e', .ok ()) ∧
      e'.g = (runE e₀ ops).g ∧ e'.n + 1 = (runE e₀ ops).lists.length ∧ e'.lists.length = e'.n ∧
      (∀ i, i < k → e'.lists[i]? = (runE e₀ ops).lists[i]?) ∧
      (∀ i, k ≤ i → e'.lists[i]? = (runE e₀ ops).lists[i + 1]?)) ∧
    (a < 0 ∨ ((runE e₀ ops).lists.length : Int) ≤ a →
      (runE e₀ ops).removeAction a = (runE e₀ ops, .error .value)) := by
  obtain ⟨-, -, hn₀, hes₀⟩ := DiscreteEnv.create_ok hc
  have hcnt := (DiscreteEnv.runE_lists ops (Or.inl hn₀)).1
  have hes := DiscreteEnv.runE_emptySpace (e := e₀) ops
  generalize runE e₀ ops = e at *
  rw [hes₀] at hes
  have hn : e.n = e.lists.length := by
    rcases hcnt with hcnt | ⟨h1, -, h3⟩
    · exact hcnt
    · rcases hlast with hlast | hlast
      · rw [h1] at hlast; simp at hlast
      · rw [← hes, h3] at hlast; exact absurd hlast (by decide)
  constructor
  · rintro k rfl hk
    rcases e.removeAction_cases k hcnt with ⟨h1, h2⟩ | ⟨k', hk', -, h2, h1, -⟩ | ⟨h1, h2, -, h3, -⟩
    · exfalso
      have hcon : e.contains (k : Int) = true := by
        simp only [DiscreteEnv.contains, decide_eq_true_eq]
        omega
      unfold DiscreteEnv.removeAction at h2
      rw [hcon] at h2
      simp only [Int.toNat_natCast, hk, if_true, Bool.true_eq_false, if_false, DiscreteEnv.discrete] at h2
      split at h2
      · rename_i heq
        split at heq
        · rename_i hz
          rcases hlast with hlast | hlast
          · omega
          · rw [← hes, hz.2] at hlast; exact absurd hlast (by decide)
        · simp at heq
      · simp at h2
    · obtain rfl : k = k' := by exact_mod_cast hk'
      refine ⟨_, Prod.ext h1 h2, rfl, by simp only; omega, by simp [List.length_eraseIdx, hk], ?_, ?_⟩
      · intro i hi
        simp only
        rw [List.getElem?_eraseIdx, if_pos hi]
      · intro i hi
        simp only
        rw [List.getElem?_eraseIdx, if_neg (by omega)]
    · exfalso
      rcases hlast with hlast | hlast
      · omega
      · rw [← hes, h3] at hlast; exact absurd hlast (by decide)
  · intro ha
    unfold DiscreteEnv.removeAction
    rw [if_pos]
    simp only [DiscreteEnv.contains, decide_eq_false_iff_not, hn]
    omega

/-- C39 is violated for the only remaining action, with versions of gym that have no empty discrete spaces: its removal
    raises `AssertionError`, but has removed it; the action space still contains 0, and a step with it raises `IndexError`
    from then on. -/
theorem C39_last_action (hc : DiscreteEnv.create g₀ rg false = .ok e₀) (ops ops' : List EOp)
    (hone : (runE e₀ ops).lists.length = 1) :
    ((runE e₀ ops).removeAction 0).2 = .error .assertion ∧
    (runE e₀ (ops ++ .remove 0 :: ops')).lists = [] ∧ (runE e₀ (ops ++ .remove 0 :: ops')).contains 0 = true ∧
    ((runE e₀ (ops ++ .remove 0 :: ops')).step 0).2 = .error .index := by
  obtain ⟨-, -, hn₀, hes₀⟩ := DiscreteEnv.create_ok hc
  have hcnt := (DiscreteEnv.runE_lists ops (Or.inl hn₀)).1
  have hes := DiscreteEnv.runE_emptySpace (e := e₀) ops
  have happ : runE e₀ (ops ++ .remove 0 :: ops') = runE ((runE e₀ ops).removeAction 0).1 ops' := by
    simp only [runE, List.foldl_append, List.foldl_cons, EOp.apply]
  rw [happ]
  generalize runE e₀ ops = e at *
  rw [hes₀] at hes
  have hn : e.n = 1 := by
    rcases hcnt with h | h
    · omega
    · exact h.2.1
  have hcon : e.contains 0 = true := by simp [DiscreteEnv.contains, hn]
  have hrem : e.removeAction 0 = ({ e with lists := [] }, .error .assertion) := by
    have hE : e.lists.eraseIdx 0 = [] := by
      rw [← List.length_eq_zero_iff, List.length_eraseIdx, if_pos (by omega), hone]
    unfold DiscreteEnv.removeAction
    rw [hcon, if_neg (by simp), if_pos (by simp [hone])]
    simp [DiscreteEnv.discrete, hn, hes, hE]
  rw [hrem]
  clear happ hrem
  have key : ∀ e' : DiscreteEnv, e'.lists = [] → e'.n = 1 → (runE e' ops').lists = [] ∧ (runE e' ops').n = 1 := by
    induction ops' with
    | nil => intro e' h1 h2; exact ⟨h1, h2⟩
    | cons op ops' ih =>
      intro e' h1 h2
      refine ih (op.apply e') ?_ ?_
      · exact List.sublist_nil.mp (h1 ▸ DiscreteEnv.op_sublist e' op)
      · cases op with
        | step a => exact (DiscreteEnv.step_same e' a).2.1.trans h2
        | reset => exact h2
        | remove a =>
          unfold EOp.apply DiscreteEnv.removeAction
          simp only [h1]
          split
          · exact h2
          · rw [if_neg (by simp)]; exact h2
  obtain ⟨h1, h2⟩ := key { e with lists := [] } rfl hn
  generalize runE ({ e with lists := [] }, Except.error (α := Unit) Err.assertion).1 ops' = e' at *
  refine ⟨rfl, h1, by simp [DiscreteEnv.contains, h2], ?_⟩
  unfold DiscreteEnv.step DiscreteEnv.getAction
  rw [show e'.contains 0 = true by simp [DiscreteEnv.contains, h2], if_neg (by simp), h1]
  rfl

/-- C39: a step with anything but the index of an action raises `ValueError`; modules, actions and balance log remain as
    they are.
    Missing: the microgrid remains as it is but for its own log, in which the rejected action is entered
    (`C39_rejected_action_log`); an environment whose only action was removed (`C39_last_action`). -/
theorem C39_invalid_partial (hc : DiscreteEnv.create g₀ rg es = .ok e₀) (ops : List EOp) (a : Int)
    (hlast : (runE e₀ ops).lists ≠ [] ∨ es = true) (ha : a < 0 ∨ ((runE e₀ ops).lists.length : Int) ≤ a) :
    ∃ log, (runE e₀ ops).step a =
      ({ runE e₀ ops with g := { (runE e₀ ops).g with otherLog := log } }, .error .value) := by
  obtain ⟨-, -, hn₀, hes₀⟩ := DiscreteEnv.create_ok hc
  have hcnt := (DiscreteEnv.runE_lists ops (Or.inl hn₀)).1
  have hes := DiscreteEnv.runE_emptySpace (e := e₀) ops
  generalize runE e₀ ops = e at *
  rw [hes₀] at hes
  have hn : e.n = e.lists.length := by
    rcases hcnt with hcnt | ⟨h1, -, h3⟩
    · exact hcnt
    · rcases hlast with hlast | hlast
      · exact absurd h1 hlast
      · rw [← hes, h3] at hlast; exact absurd hlast (by decide)
  have : e.getAction a = .error .value := by
    unfold DiscreteEnv.getAction
    rw [if_pos]
    simp only [DiscreteEnv.contains, decide_eq_false_iff_not, hn]
    omega
  unfold DiscreteEnv.step
  rw [this]
  exact ⟨_, rfl⟩

/-- After any history and a reset, an environment is ready for each of its actions. -/
theorem env_running (hc : Microgrid.create h mods sh none = .ok g₀) (he : DiscreteEnv.create g₀ rg es = .ok e₀)
    (hl : ∀ nm ∈ mods, LibraryModule (h nm.2)) (hb : ∃ nm ∈ mods, ∃ u, (h nm.2).kind = .balancing u)
    (hid : (mods.map Prod.snd).Nodup) (hd : DistinctNames h mods) (hr : ∀ nm ∈ mods, (h nm.2).raiseErrors = false)
    (hs : ∀ f, sh = some f → ∀ i c, ∃ r, f i c = .ok r)
    (hdata : ∀ nm ∈ mods, ∀ t, (h nm.2).series? = some t →
      (h nm.2).initialStep < t.finalStep ∧ t.finalStep ≤ t.rows.length) (ops : List EOp) :
    ∃ F e₁ gops, g₀.finalStep = some F ∧ (runE e₀ ops).reset = (e₁, .ok ()) ∧ e₁.lists = (runE e₀ ops).lists ∧
      e₁.n = (runE e₀ ops).n ∧ (runG g₀ gops).reset = (e₁.g, .ok ()) ∧
      g₀.initialStep < F ∧ ∀ pl ∈ e₁.lists, Running mods pl F e₁.g g₀.initialStep := by
  obtain ⟨hg₀, -, hn₀, -⟩ := DiscreteEnv.create_ok he
  obtain ⟨hcnt, hsub⟩ := DiscreteEnv.runE_lists ops (Or.inl hn₀)
  obtain ⟨gops, l, hg⟩ := DiscreteEnv.runE_grid (e := e₀) ops (g₀ := g₀) ⟨[], g₀.otherLog, by rw [hg₀]; rfl⟩
  obtain ⟨F, g₁, hF, hrs, hg₁, hIF, hR⟩ := user_running hc hl hb hid hd hr hs hdata gops
  obtain ⟨l', hl', hok⟩ := (runG g₀ gops).reset_other l
  rw [hrs] at hl' hok
  obtain ⟨rfl, ho⟩ := hok rfl
  simp only at hl' ho
  have hg₁' : ({ g₁ with otherLog := {} } : Microgrid) = g₁ := by rw [← ho]
  rw [hg₁'] at hl'
  refine ⟨F, { runE e₀ ops with g := g₁ }, gops, hF, ?_, rfl, rfl, hrs, hIF, ?_⟩
  · unfold DiscreteEnv.reset
    rw [hg, hl']
  · intro pl hp
    refine hR pl ?_
    obtain ⟨-, hls, -, -⟩ := DiscreteEnv.create_ok he
    obtain ⟨pls, hpl, -, hm⟩ := C35_priority_lists_partial hc hl hd.clear [] rg
    simp only [runG, List.foldl_nil] at hpl
    rw [hls] at hpl
    obtain rfl := Except.ok.inj hpl
    rw [hg₁]
    exact user_fits hc hl [] _ ((hm pl).mp (hsub.subset hp)).1

/-- C39: after any history and a reset, a step with the index of an action succeeds, until the end of the episode; it is a
    run of the microgrid on a control that is planned, in the state of that step, from the list with that index. -/
theorem C39_valid (hc : Microgrid.create h mods sh none = .ok g₀) (he : DiscreteEnv.create g₀ rg es = .ok e₀)
    (hl : ∀ nm ∈ mods, LibraryModule (h nm.2)) (hb : ∃ nm ∈ mods, ∃ u, (h nm.2).kind = .balancing u)
    (hid : (mods.map Prod.snd).Nodup) (hd : DistinctNames h mods) (hr : ∀ nm ∈ mods, (h nm.2).raiseErrors = false)
    (hs : ∀ f, sh = some f → ∀ i c, ∃ r, f i c = .ok r)
    (hdata : ∀ nm ∈ mods, ∀ t, (h nm.2).series? = some t →
      (h nm.2).initialStep < t.finalStep ∧ t.finalStep ≤ t.rows.length) (ops : List EOp) (acts : List Int)
    (ha : ∀ a ∈ acts, 0 ≤ a ∧ a < (runE e₀ ops).lists.length) :
    ∃ F, g₀.finalStep = some F ∧ (g₀.initialStep + acts.length ≤ F →
      ∃ e₁ os e', (runE e₀ ops).reset = (e₁, .ok ()) ∧ Driven mods e₁ acts os e' ∧
        ∀ i (_ : i < os.length), os[i].done = decide (F ≤ g₀.initialStep + i + 1)) := by
  obtain ⟨F, e₁, gops, hF, hrs, hls, hn, -, hIF, hR⟩ := env_running hc he hl hb hid hd hr hs hdata ops
  refine ⟨F, hF, fun hlen => ?_⟩
  have hcnt := (DiscreteEnv.runE_lists ops (Or.inl (DiscreteEnv.create_ok he).2.2.1)).1
  cases acts with
  | nil => exact ⟨e₁, [], e₁, hrs, .nil e₁, by simp⟩
  | cons a acts =>
    have hne : (runE e₀ ops).n = (runE e₀ ops).lists.length := by
      rcases hcnt with h | ⟨h, -⟩
      · exact h
      · have := ha a (by simp)
        rw [h] at this
        simp only [List.length_nil] at this
        omega
    obtain ⟨os, e', hdr, hdone⟩ := Running.driven hid (by rw [hn, hls, hne]) hR (by rw [hls]; exact ha) hlen
    exact ⟨e₁, os, e', hrs, hdr, hdone⟩

theorem driven_facts (hc : Microgrid.create h mods sh none = .ok g₀) (he : DiscreteEnv.create g₀ rg es = .ok e₀)
    (hl : ∀ nm ∈ mods, LibraryModule (h nm.2)) (hb : ∃ nm ∈ mods, ∃ u, (h nm.2).kind = .balancing u)
    (hid : (mods.map Prod.snd).Nodup) (hd : DistinctNames h mods) (hr : ∀ nm ∈ mods, (h nm.2).raiseErrors = false)
    (hs : ∀ f, sh = some f → ∀ i c, ∃ r, f i c = .ok r)
    (hdata : ∀ nm ∈ mods, ∀ t, (h nm.2).series? = some t →
      (h nm.2).initialStep < t.finalStep ∧ t.finalStep ≤ t.rows.length) (ops : List EOp) (e₁ e' : DiscreteEnv)
    (hrs : (runE e₀ ops).reset = (e₁, .ok ())) (acts : List Int) (os : List RunOut) (hdr : Driven mods e₁ acts os e') :
    e'.g.cont = Container.build e'.g.heap mods ∧ DistinctNames e'.g.heap mods ∧ Even mods e'.g acts.length ∧
      e'.g.currentStep = .ok (g₀.initialStep + acts.length) ∧ e'.g.initialStep = g₀.initialStep ∧
      e'.g.otherLog.Holds [.str "action"] (acts.map fun a : Int => [(.str "action", (a : ℚ))]) := by
  obtain ⟨F, e₂, gops, hF, hrs', -, -, hg₂, hIF, hR⟩ := env_running hc he hl hb hid hd hr hs hdata ops
  rw [hrs] at hrs'
  obtain rfl := (Prod.mk.inj hrs').1
  obtain ⟨cs, g', hruns, hsup, hlast⟩ := hdr.runs
  obtain ⟨ok, alike, -, -⟩ := user_grid hc hl gops
  have hd' := hd.congr alike
  have alike₁ : ∀ j, (h j).Alike (e₁.g.heap j) := fun j => (alike j).trans (reset_alike hg₂ j)
  obtain ⟨c, hlock, h1, -⟩ := C23_reset_aligns_all hc hl hid hd gops e₁.g hg₂
  obtain rfl := h1 rfl
  obtain ⟨ok', alike', hlock'⟩ := hruns.lock (ok.reset_next hg₂) hid (hd.clear.congr alike₁) hsup hlock
  have hd₂ : DistinctNames g'.heap mods := hd.congr fun j => (alike₁ j).trans (alike' j)
  have hne : mods ≠ [] := by
    obtain ⟨nm, hm, -⟩ := hb
    exact List.ne_nil_of_mem hm
  have hcur := ok'.currentStep hd₂ hne hlock'
  have hev := even_after ok hid hd' hg₂ hruns hsup
  have hinit : g'.initialStep = g₀.initialStep := by
    rw [hruns.fixed]
    have := (runG g₀ gops).reset_fixed.initialStep
    rw [hg₂] at this
    rw [this, (runG_fixed g₀ gops).initialStep]
  have hlen := hdr.length
  have hol : e₁.g.otherLog = {} := by
    obtain ⟨_, -, h2⟩ := (runG g₀ gops).reset_other {}
    rw [hg₂] at h2
    exact (h2 rfl).2
  have hlog := hdr.logged (rows := []) (by rw [hol]; exact Logger.Holds.empty _)
  rw [List.nil_append] at hlog
  have hev' : Even mods e'.g acts.length := by rw [hlast, ← hlen]; exact ⟨hev.keys, hev.modules, hev.bkeys, hev.balance⟩
  refine ⟨by rw [hlast]; exact ok'.cont, by rw [hlast]; exact hd₂, hev', ?_, by rw [hlast]; exact hinit, hlog⟩
  rw [hlast, ← hlen]
  exact hcur

/-- C49, for discrete environments: after a reset and steps, `get_log` succeeds; it has a row for each step since the
    reset, with the action taken. -/
theorem C49_environment_log (hc : Microgrid.create h mods sh none = .ok g₀) (he : DiscreteEnv.create g₀ rg es = .ok e₀)
    (hl : ∀ nm ∈ mods, LibraryModule (h nm.2)) (hb : ∃ nm ∈ mods, ∃ u, (h nm.2).kind = .balancing u)
    (hid : (mods.map Prod.snd).Nodup) (hd : DistinctNames h mods) (hr : ∀ nm ∈ mods, (h nm.2).raiseErrors = false)
    (hs : ∀ f, sh = some f → ∀ i c, ∃ r, f i c = .ok r)
    (hdata : ∀ nm ∈ mods, ∀ t, (h nm.2).series? = some t →
      (h nm.2).initialStep < t.finalStep ∧ t.finalStep ≤ t.rows.length) (ops : List EOp) (e₁ e' : DiscreteEnv)
    (hrs : (runE e₀ ops).reset = (e₁, .ok ())) (acts : List Int) (os : List RunOut) (hdr : Driven mods e₁ acts os e') :
    ∃ f, e'.g.getLog = .ok f ∧ f.index = List.range' g₀.initialStep acts.length ∧
      (∀ c ∈ f.cols, c.2.length = acts.length) ∧
      (acts ≠ [] → f.column "action" 0 (.str "") = some (acts.map fun a : Int => some (a : ℚ))) ∧
      (∀ name j i k, name ≠ "balance" → (allNamed mods name)[j]? = some i → k ≠ .str "" →
        f.column name j k = dictGet? (e'.g.heap i).logger.cols k) ∧
      ∀ k ∈ e'.g.balanceLog.cols.map Prod.fst, k ≠ .str "" →
        f.column "balance" 0 k = dictGet? e'.g.balanceLog.cols k := by
  obtain ⟨hcont, hd₂, hev', hcur', hinit', hlog⟩ := driven_facts hc he hl hb hid hd hr hs hdata ops e₁ e' hrs acts os hdr
  have ho : ∀ c ∈ e'.g.otherLog.cols, c.2.length = acts.length := by
    intro c hcm
    have := (hlog.even (by simp)).2 c hcm
    simpa using this
  have hg := getLog_ok hcont hev' ho hcur' (by rw [hinit'])
  refine ⟨_, hg, by simp only [hinit'], logColumns_len hcont hev' ho, ?_, ?_, ?_⟩
  · intro hna
    have hcols := hlog.cols
    unfold Frame.column Microgrid.logColumns
    rw [hcols, if_neg (by simpa using hna)]
    simp only [List.map_cons, List.map_nil, dictUpdate, List.foldl_cons, List.foldl_nil, Key.label]
    rw [dictGet?_dictSet, if_pos rfl]
    simp [dictGet?]
  · intro name j i k hname hi hk
    exact column_module hcont hd₂ hev' hname hi hk
  · intro k hk hne
    exact column_balance hev'.bkeys hne hk

/-- Finding, C39/C49: after two or more steps, a rejected action leaves an entry in the microgrid's log that has no step,
    and `get_log` raises `ValueError` until the next reset. -/
theorem C39_rejected_action_log (hc : Microgrid.create h mods sh none = .ok g₀) (he : DiscreteEnv.create g₀ rg es = .ok e₀)
    (hl : ∀ nm ∈ mods, LibraryModule (h nm.2)) (hb : ∃ nm ∈ mods, ∃ u, (h nm.2).kind = .balancing u)
    (hid : (mods.map Prod.snd).Nodup) (hd : DistinctNames h mods) (hr : ∀ nm ∈ mods, (h nm.2).raiseErrors = false)
    (hs : ∀ f, sh = some f → ∀ i c, ∃ r, f i c = .ok r)
    (hdata : ∀ nm ∈ mods, ∀ t, (h nm.2).series? = some t →
      (h nm.2).initialStep < t.finalStep ∧ t.finalStep ≤ t.rows.length) (ops : List EOp) (e₁ e' : DiscreteEnv)
    (hrs : (runE e₀ ops).reset = (e₁, .ok ())) (acts : List Int) (os : List RunOut) (hdr : Driven mods e₁ acts os e')
 (_h : acts ≠ [])
    (a : Int) (ha : a < 0 ∨ (e'.n : Int) ≤ a) :
    (e'.step a).2 = .error .value ∧ (e'.step a).1.g.getLog = .error .value := by
  obtain ⟨-, -, -, hcur, hinit, hlog⟩ := driven_facts hc he hl hb hid hd hr hs hdata ops e₁ e' hrs acts os hdr
  have hga : e'.getAction a = .error .value := by
    unfold DiscreteEnv.getAction
    rw [if_pos]
    simp only [DiscreteEnv.contains, decide_eq_false_iff_not]
    omega
  unfold DiscreteEnv.step
  rw [hga]
  refine ⟨rfl, ?_⟩
  have h3 := (hlog.log (row := [(.str "action", (a : ℚ))]) rfl (by simp)).cols
  rw [if_neg (by simp)] at h3
  simp only
  generalize e'.g.otherLog.log [(.str "action", (a : ℚ))] = L at h3
  have hcur' : ({ e'.g with otherLog := L } : Microgrid).currentStep = .ok (g₀.initialStep + acts.length) := hcur
  unfold Microgrid.getLog
  rw [hcur']
  simp only [hinit]
  rw [if_neg]
  simp only [List.all_eq_true, decide_eq_true_eq, List.length_range', not_forall]
  have hmem : ∀ g : Microgrid, g.otherLog = L → ∃ v, (("action", 0, Key.str ""), v) ∈ g.logColumns ∧
      v.length = acts.length + 1 := by
    intro g hg
    unfold Microgrid.logColumns
    simp only [hg, h3, List.map_cons, List.map_nil, dictUpdate, List.foldl_cons, List.foldl_nil, Key.label]
    exact ⟨_, dictGet?_mem (by rw [dictGet?_dictSet, if_pos rfl]), by simp⟩
  obtain ⟨v, hv, hvl⟩ := hmem _ (rfl : ({ e'.g with otherLog := L } : Microgrid).otherLog = L)
  refine ⟨_, by rw [← hinit]; exact hv, ?_⟩
  simp only [hvl]
  omega

end

/-! ### Examples -/

/-- The sample microgrid as an environment: 12 actions. -/
def demoEnv : DiscreteEnv :=
  match DiscreteEnv.create demoGrid true false with
  | .ok e => e
  | .error _ => ⟨demoGrid, [], 0, false⟩

example : (DiscreteEnv.create demoGrid true false).toOption.map (fun e => (e.n, e.lists.length)) = some (12, 12) := by
  decide +kernel
/-- Steps with valid actions succeed, the others do not; removed actions shift the indices. -/
example : ((runE demoEnv [.step 3, .step 12, .remove 0, .step (-1)]).step 10).2.isOk = true ∧
    ((runE demoEnv [.step 3, .step 12, .remove 0, .step (-1)]).step 11).2.isOk = false ∧
    (runE demoEnv [.step 3, .remove 5, .remove 20]).lists[5]? = demoEnv.lists[6]? ∧
    (runE demoEnv [.step 3, .remove 5, .remove 20]).lists[4]? = demoEnv.lists[4]? := by decide +kernel
example : ((runE demoEnv [.step 3, .reset, .step 7, .step 2]).g.getLog).toOption.map
    (fun f => (f.index, f.column "action" 0 (.str ""))) = some ([0, 1], some [some 7, some 2]) := by decide +kernel
/-- After a rejected action there is no log. -/
example : ((runE demoEnv [.reset, .step 7, .step 2, .step 99]).g.getLog).isOk = false := by decide +kernel
/-- All actions removed but one. -/
example : (runE demoEnv (List.replicate 11 (.remove 0))).lists.length = 1 ∧
    ((runE demoEnv (List.replicate 11 (.remove 0))).step 0).2.isOk = true ∧
    ((runE demoEnv (List.replicate 12 (.remove 0))).step 0).2.isOk = false := by decide +kernel

end Pymgrid
