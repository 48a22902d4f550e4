import Verif.Lemmas.Generic
import Verif.Lemmas.Run
import Verif.Lemmas.WF

set_option autoImplicit false

/-! What never changes while a microgrid is used. -/

namespace Pymgrid

namespace Module

theorem shape_stepEnergy (m : Module) (q : ℚ) : Shape m (m.stepEnergy q).1 := by
  unfold stepEnergy
  cases m.stateDict with
  | error e => exact Shape.refl m
  | ok pre =>
    have hc := calm_unnormalizedStep m q
    simp only
    cases hu : m.unnormalizedStep q with
    | mk m₁ r =>
      rw [hu] at hc
      simp only at hc
      cases r with
      | error e => exact hc.shape
      | ok u =>
        simp only [log]
        cases m₁.logRow pre u with
        | error e => exact hc.shape
        | ok row =>
          have h2 := (updateStep_spec { m₁ with logger := m₁.logger.log row } false).2.2
          have h3 : Shape m ({ m₁ with logger := m₁.logger.log row } : Module) :=
            ⟨hc.shape.source, hc.shape.sink, hc.shape.final⟩
          have h4 := h3.trans h2
          simp only
          cases hs : updateStep { m₁ with logger := m₁.logger.log row } false with
          | mk m₃ r₃ =>
            rw [hs] at h4
            cases r₃ with
            | error e => exact h4
            | ok _ =>
              simp only
              cases m₃.normalizedObs <;> exact h4

theorem shape_baseStep (m : Module) (a : Act) (n : Bool) : Shape m (m.baseStep a n).1 := by
  rw [baseStep_eq]
  cases m.request a n with
  | error e => exact Shape.refl m
  | ok q => exact shape_stepEnergy m q

theorem shape_step (m : Module) (a : Act) (n : Bool) : Shape m (m.step a n).1 := by
  unfold step
  split
  · rename_i g hk
    repeat' split
    all_goals first
      | exact Shape.refl m
      | refine Shape.trans (m' := { m with kind := .genset _ }) ⟨?_, ?_, ?_⟩ (shape_baseStep _ _ _)
        · simp [isSource, hk]
        · simp [isSink, hk]
        · simp [finalStep?, hk]
  · exact shape_baseStep m a n

theorem shape_reset (m : Module) : Shape m m.reset.1 := by
  have h := (updateStep_spec m true).2.2
  unfold reset
  cases hs : m.updateStep true with
  | mk m₁ r =>
    rw [hs] at h
    cases r with
    | error e => exact h
    | ok _ => exact ⟨h.source, h.sink, h.final⟩

/-- Equal class and configuration, except for the episode limits. -/
structure Alike (m m' : Module) : Prop where
  raise : m'.raiseErrors = m.raiseErrors
  act : m'.actSpace = m.actSpace
  obs : m'.obsSpace = m.obsSpace
  prov : m'.provName = m.provName
  abs : m'.absName = m.absName
  ffc : m'.ffc = m.ffc
  source : m'.isSource = m.isSource
  sink : m'.isSink = m.isSink

theorem Alike.refl (m : Module) : Alike m m := ⟨rfl, rfl, rfl, rfl, rfl, rfl, rfl, rfl⟩

theorem Alike.trans {m m' m'' : Module} (h : Alike m m') (h' : Alike m' m'') : Alike m m'' :=
  ⟨h'.raise.trans h.raise, h'.act.trans h.act, h'.obs.trans h.obs, h'.prov.trans h.prov, h'.abs.trans h.abs,
    h'.ffc.trans h.ffc, h'.source.trans h.source, h'.sink.trans h.sink⟩

theorem Alike.of {m m' : Module} (hf : Frame m m') (hs : Shape m m') : Alike m m' :=
  ⟨hf.raise, hf.act, hf.obs, hf.prov, hf.abs, hf.ffc, hs.source, hs.sink⟩

theorem Alike.ss {m m' : Module} (h : Alike m m') : m'.ss = m.ss := by
  unfold Module.ss
  rw [h.source, h.sink]

theorem alike_step (m : Module) (a : Act) (n : Bool) : Alike m (m.step a n).1 :=
  .of (frame_step m a n) (shape_step m a n)

theorem alike_reset (m : Module) : Alike m m.reset.1 := .of (frame_reset m) (shape_reset m)

theorem alike_setFinal (m : Module) (v : Int) : Alike m (Microgrid.setFinalOne m v).1 := by
  unfold Microgrid.setFinalOne
  cases hk : m.kind with
  | grid p t =>
    simp only
    split <;> exact ⟨rfl, rfl, rfl, rfl, rfl, rfl, by simp [isSource, hk], by simp [isSink, hk]⟩
  | load t =>
    simp only
    split <;> exact ⟨rfl, rfl, rfl, rfl, rfl, rfl, by simp [isSource, hk], by simp [isSink, hk]⟩
  | renewable t =>
    simp only
    split <;> exact ⟨rfl, rfl, rfl, rfl, rfl, rfl, by simp [isSource, hk], by simp [isSink, hk]⟩
  | _ => exact .refl m

theorem WF.setFinal {m : Module} (h : m.WF) (v : Int) : (Microgrid.setFinalOne m v).1.WF := by
  cases h with
  | battery b h => simp only [Microgrid.setFinalOne, h.kind]; exact .battery b h
  | genset g h => simp only [Microgrid.setFinalOne, h.kind]; exact .genset g h
  | balancing u h => simp only [Microgrid.setFinalOne, h.kind]; exact .balancing u h
  | grid p t h w =>
    have key : ∀ f : Nat, WF { m with kind := .grid p { t with finalStep := f } } := by
      intro f
      have := h.ts.withFinal f
      rw [h.kind] at this
      exact .grid p { t with finalStep := f } ⟨rfl, this, h.names, h.ffc, h.prov, h.abs, h.imp, h.exp, h.status,
        h.nonneg⟩ w
    simp only [Microgrid.setFinalOne, h.kind, TS.setFinalStep]
    split <;> rename_i heq <;> (simp only [Prod.mk.injEq] at heq; obtain ⟨rfl, -⟩ := heq; exact key _)
  | load t h w =>
    have key : ∀ f : Nat, WF { m with kind := .load { t with finalStep := f } } := by
      intro f
      have := h.ts.withFinal f
      rw [h.kind] at this
      exact .load { t with finalStep := f } ⟨rfl, this, h.one, h.ffc, h.prov, h.abs, h.sign⟩ w
    simp only [Microgrid.setFinalOne, h.kind, TS.setFinalStep]
    split <;> rename_i heq <;> (simp only [Prod.mk.injEq] at heq; obtain ⟨rfl, -⟩ := heq; exact key _)
  | renewable t h w =>
    have key : ∀ f : Nat, WF { m with kind := .renewable { t with finalStep := f } } := by
      intro f
      have := h.ts.withFinal f
      rw [h.kind] at this
      exact .renewable { t with finalStep := f } ⟨rfl, this, h.one, h.ffc, h.prov, h.abs, h.sign, h.low⟩ w
    simp only [Microgrid.setFinalOne, h.kind, TS.setFinalStep]
    split <;> rename_i heq <;> (simp only [Prod.mk.injEq] at heq; obtain ⟨rfl, -⟩ := heq; exact key _)

end Module

/-! ### Relations that hold between the states of every module before and after an operation -/

/-- A relation between two states of one module that every operation of a microgrid respects. -/
structure Respected (P : Module → Module → Prop) : Prop where
  refl : ∀ m, P m m
  trans : ∀ {a b c}, P a b → P b c → P a c
  step : ∀ m a n, P m (m.step a n).1

/-- As `Respected`, for resets as well. -/
structure Kept (P : Module → Module → Prop) : Prop extends Respected P where
  reset : ∀ m, P m m.reset.1
  initial : ∀ (m : Module) (v : Nat), P m { m with initialStep := v }
  final : ∀ (m : Module) (v : Int), P m (Microgrid.setFinalOne m v).1

section
variable {P : Module → Module → Prop}

theorem heapSet_rel (hP : ∀ m, P m m) {h : Heap} {i : Nat} {m' : Module} (hm : P (h i) m') (j : Nat) :
    P (h j) (h.set i m' j) := by
  unfold Heap.set
  split
  · rename_i e; subst e; exact hm
  · exact hP _

theorem Respected.stepOne (hP : Respected P) (s : RunSt) (name : String) (i : Nat) (a : Act) (n : Bool) (j : Nat) :
    P (s.heap j) ((s.stepOne name i a n).1.heap j) := by
  have hs := hP.step (s.heap i) a n
  unfold RunSt.stepOne
  cases h : (s.heap i).step a n with
  | mk m' r =>
    rw [h] at hs
    cases r <;> exact heapSet_rel hP.refl hs j

theorem Respected.stepMany (hP : Respected P) (l : List (String × Nat × Act)) (n : Bool) (s : RunSt) (j : Nat) :
    P (s.heap j) ((RunSt.stepMany l n s).1.heap j) := by
  induction l generalizing s with
  | nil => exact hP.refl _
  | cons x l ih =>
    obtain ⟨name, i, a⟩ := x
    have h1 := hP.stepOne s name i a n j
    simp only [RunSt.stepMany]
    cases h : s.stepOne name i a n with
    | mk s' r =>
      rw [h] at h1
      cases r with
      | error e => exact h1
      | ok u => exact hP.trans h1 (ih s')

theorem Respected.stepControls (hP : Respected P) (c : List (String × Ctrl)) (n : Bool) (d : ModDict) (s : RunSt)
    (j : Nat) : P (s.heap j) ((RunSt.stepControls c n d s).1.heap j) := by
  induction d generalizing s with
  | nil => exact hP.refl _
  | cons x d ih =>
    obtain ⟨name, ids⟩ := x
    simp only [RunSt.stepControls]
    cases dictGet? c name with
    | none => exact hP.refl _
    | some ct =>
      have h1 := hP.stepMany ((ids.zip ct.acts).map fun ia => (name, ia.1, ia.2)) n s j
      simp only
      cases h : RunSt.stepMany ((ids.zip ct.acts).map fun ia => (name, ia.1, ia.2)) n s with
      | mk s' r =>
        rw [h] at h1
        cases r with
        | error e => exact h1
        | ok u => exact hP.trans h1 (ih s')

theorem Respected.absorbExcess (hP : Respected P) (l : List (String × Nat)) (x : ℚ) (s : RunSt) (j : Nat) :
    P (s.heap j) ((RunSt.absorbExcess l x s).1.heap j) := by
  induction l generalizing s x with
  | nil => exact hP.refl _
  | cons y l ih =>
    obtain ⟨name, i⟩ := y
    simp only [RunSt.absorbExcess]
    cases sinkAmount (s.heap i) x with
    | error e => exact hP.refl _
    | ok amt =>
      have h1 := hP.stepOne s name i (.num (-1 * amt)) false j
      simp only
      cases h : s.stepOne name i (.num (-1 * amt)) false with
      | mk s' r =>
        rw [h] at h1
        cases r with
        | error e => exact h1
        | ok u => exact hP.trans h1 (ih _ s')

theorem Respected.coverNeed (hP : Respected P) (l : List (String × Nat)) (x : ℚ) (s : RunSt) (j : Nat) :
    P (s.heap j) ((RunSt.coverNeed l x s).1.heap j) := by
  induction l generalizing s x with
  | nil => exact hP.refl _
  | cons y l ih =>
    obtain ⟨name, i⟩ := y
    simp only [RunSt.coverNeed]
    cases sourceAmount (s.heap i) x with
    | error e => exact hP.refl _
    | ok amt =>
      have h1 := hP.stepOne s name i (.num amt) false j
      simp only
      cases h : s.stepOne name i (.num amt) false with
      | mk s' r =>
        rw [h] at h1
        cases r with
        | error e => exact h1
        | ok u => exact hP.trans h1 (ih _ s')

/-- The parts of a microgrid that `run` and `reset` never assign. -/
structure Microgrid.Fixed (g g' : Microgrid) : Prop where
  cont : g'.cont = g.cont
  initialStep : g'.initialStep = g.initialStep
  finalStep : g'.finalStep = g.finalStep
  shaper : g'.shaper = g.shaper
  trajectory : g'.trajectory = g.trajectory

theorem Microgrid.Fixed.refl (g : Microgrid) : Microgrid.Fixed g g := ⟨rfl, rfl, rfl, rfl, rfl⟩

theorem Microgrid.Fixed.trans {g g' g'' : Microgrid} (h : Microgrid.Fixed g g') (h' : Microgrid.Fixed g' g'') :
    Microgrid.Fixed g g'' :=
  ⟨h'.cont.trans h.cont, h'.initialStep.trans h.initialStep, h'.finalStep.trans h.finalStep,
    h'.shaper.trans h.shaper, h'.trajectory.trans h.trajectory⟩

theorem Respected.run (hP : Respected P) (g : Microgrid) (c : List (String × Ctrl)) (n : Bool) (j : Nat) :
    P (g.heap j) ((g.run c n).1.heap j) := by
  unfold Microgrid.run
  cases costInfo g.heap g.cont.fullDict with
  | error e => exact hP.refl _
  | ok ci =>
    simp only
    have h1 := hP.stepMany g.fixedSteps false { heap := g.heap, acc := {} } j
    cases hs1 : RunSt.stepMany g.fixedSteps false { heap := g.heap, acc := {} } with
    | mk s₁ r₁ =>
      rw [hs1] at h1
      cases r₁ with
      | error e => exact h1
      | ok _ =>
        simp only
        cases s₁.acc.balance g.shaper ci with
        | error e => exact h1
        | ok b =>
          have h2 := hP.trans h1 (hP.stepControls c n (g.cont.levelDict .controllable) s₁ j)
          simp only
          cases hs2 : RunSt.stepControls c n (g.cont.levelDict .controllable) s₁ with
          | mk s₂ r₂ =>
            rw [hs2] at h2
            cases r₂ with
            | error e => exact h2
            | ok _ =>
              simp only
              cases s₂.acc.balance g.shaper ci with
              | error e => exact h2
              | ok b₂ =>
                have h3 : P (g.heap j) ((g.dispatch (b₂.1 - b₂.2.1) s₂).1.heap j) := by
                  unfold Microgrid.dispatch
                  split
                  · exact hP.trans h2 (hP.absorbExcess _ _ _ _)
                  · exact hP.trans h2 (hP.coverNeed _ _ _ _)
                simp only
                cases hs3 : g.dispatch (b₂.1 - b₂.2.1) s₂ with
                | mk s₃ r₃ =>
                  rw [hs3] at h3
                  cases r₃ with
                  | error e => exact h3
                  | ok _ =>
                    simp only [Microgrid.finish]
                    repeat' split
                    all_goals exact h3

theorem Microgrid.run_fixed (g : Microgrid) (c : List (String × Ctrl)) (n : Bool) :
    Microgrid.Fixed g (g.run c n).1 := by
  unfold Microgrid.run Microgrid.finish
  simp only
  repeat' split
  all_goals exact ⟨rfl, rfl, rfl, rfl, rfl⟩

theorem Microgrid.reset_fixed (g : Microgrid) : Microgrid.Fixed g g.reset.1 := by
  unfold Microgrid.reset Microgrid.setTrajectory
  simp only
  cases hT : g.trajectory with
  | none =>
    simp only
    split <;> exact ⟨rfl, rfl, rfl, rfl, rfl⟩
  | some f =>
    simp only
    cases f g.calls g.initialStep g.finalStep with
    | error e => exact ⟨rfl, rfl, rfl, rfl, hT.symm⟩
    | ok p =>
      simp only
      cases (Microgrid.setFinalMany (Microgrid.setInitialMany g.heap p.1 g.cont.fullList) p.2 false
        g.cont.fullList).2 with
      | error e => exact ⟨rfl, rfl, rfl, rfl, hT.symm⟩
      | ok _ =>
        simp only
        split <;> exact ⟨rfl, rfl, rfl, rfl, hT.symm⟩

theorem Kept.resetMany (hP : Kept P) (l : List Nat) (h : Heap) (j : Nat) :
    P (h j) ((Microgrid.resetMany h l).1 j) := by
  induction l generalizing h with
  | nil => exact hP.refl _
  | cons i l ih =>
    have hs := hP.reset (h i)
    simp only [Microgrid.resetMany]
    cases hr : (h i).reset with
    | mk m' r =>
      rw [hr] at hs
      cases r with
      | error e => exact heapSet_rel hP.refl hs j
      | ok _ => exact hP.trans (heapSet_rel hP.refl hs j) (ih _)

theorem Kept.setInitialMany (hP : Kept P) (l : List Nat) (v : Nat) (h : Heap) (j : Nat) :
    P (h j) (Microgrid.setInitialMany h v l j) := by
  induction l generalizing h with
  | nil => exact hP.refl _
  | cons i l ih => exact hP.trans (heapSet_rel hP.refl (hP.initial (h i) v) j) (ih _)

theorem Kept.setFinalMany (hP : Kept P) (l : List Nat) (v : Int) (b : Bool) (h : Heap) (j : Nat) :
    P (h j) ((Microgrid.setFinalMany h v b l).1 j) := by
  induction l generalizing h b with
  | nil => exact hP.refl _
  | cons i l ih =>
    have hs := hP.final (h i) v
    simp only [Microgrid.setFinalMany]
    cases hr : Microgrid.setFinalOne (h i) v with
    | mk m' r =>
      rw [hr] at hs
      cases r with
      | error e => exact heapSet_rel hP.refl hs j
      | ok b' => exact hP.trans (heapSet_rel hP.refl hs j) (ih _ _)

theorem Kept.setTrajectory (hP : Kept P) (g : Microgrid) (j : Nat) : P (g.heap j) (g.setTrajectory.1.heap j) := by
  unfold Microgrid.setTrajectory
  cases g.trajectory with
  | none => exact hP.refl _
  | some f =>
    simp only
    cases f g.calls g.initialStep g.finalStep with
    | error e => exact hP.refl _
    | ok p => exact hP.trans (hP.setInitialMany _ _ _ _) (hP.setFinalMany _ _ _ _ _)

theorem Kept.reset' (hP : Kept P) (g : Microgrid) (j : Nat) : P (g.heap j) (g.reset.1.heap j) := by
  have h1 := hP.setTrajectory g j
  unfold Microgrid.reset
  cases hs : g.setTrajectory with
  | mk g₁ r =>
    rw [hs] at h1
    cases r with
    | error e => exact h1
    | ok _ =>
      have h2 := hP.trans h1 (hP.resetMany ((Container.toTuples g.cont.fullDict).map Prod.snd) g₁.heap j)
      simp only
      cases hr : Microgrid.resetMany g₁.heap ((Container.toTuples g.cont.fullDict).map Prod.snd) with
      | mk h' r' =>
        rw [hr] at h2
        cases r' <;> exact h2

theorem Kept.runG (hP : Kept P) (g : Microgrid) (ops : List GOp) (j : Nat) :
    P (g.heap j) ((runG g ops).heap j) := by
  unfold Pymgrid.runG
  induction ops generalizing g with
  | nil => exact hP.refl _
  | cons op ops ih =>
    refine hP.trans ?_ (ih (op.apply g))
    cases op with
    | run c n => exact hP.toRespected.run g c n j
    | reset => exact hP.reset' g j

end

theorem runG_fixed (g : Microgrid) (ops : List GOp) : Microgrid.Fixed g (runG g ops) := by
  unfold runG
  induction ops generalizing g with
  | nil => exact .refl g
  | cons op ops ih =>
    refine Microgrid.Fixed.trans ?_ (ih (op.apply g))
    cases op with
    | run c n => exact g.run_fixed c n
    | reset => exact g.reset_fixed

theorem kept_alike : Kept Module.Alike where
  refl := Module.Alike.refl
  trans := Module.Alike.trans
  step := Module.alike_step
  reset := Module.alike_reset
  initial := fun _ _ => ⟨rfl, rfl, rfl, rfl, rfl, rfl, rfl, rfl⟩
  final := Module.alike_setFinal

theorem kept_wf : Kept fun m m' => m.WF → m'.WF where
  refl := fun _ h => h
  trans := fun h h' hw => h' (h hw)
  step := fun _ a n h => h.step a n
  reset := fun _ h => h.reset
  initial := fun _ v h => h.withInitial v
  final := fun _ v h => h.setFinal v

end Pymgrid
