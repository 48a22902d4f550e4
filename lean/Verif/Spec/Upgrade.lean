import Verif.Spec.GridSerialize
import Verif.Spec.Ledger
import Verif.Spec.Order

set_option autoImplicit false

/-! Specification for C102. -/

namespace Pymgrid

/-- `k'` is a device like `k` whose limits are at least as wide.  Batteries: the charge, the efficiency and the cost agree,
    both have the library's transition model.  Grids: the time series and the length of the episode agree; forecasts may
    differ.  Gensets: everything but the range of productions agrees. -/
inductive Wider : Kind → Kind → Prop
  | battery {b b' : Battery} (charge : b'.charge = b.charge) (efficiency : b'.efficiency = b.efficiency)
      (costCycle : b'.costCycle = b.costCycle) (minCapacity : b'.minCapacity ≤ b.minCapacity)
      (maxCapacity : b.maxCapacity ≤ b'.maxCapacity) (maxCharge : b.maxCharge ≤ b'.maxCharge)
      (maxDischarge : b.maxDischarge ≤ b'.maxDischarge) : Wider (.battery b) (.battery b')
  | grid {p p' : GridParams} {t t' : TS} (rows : t'.rows = t.rows) (finalStep : t'.finalStep = t.finalStep)
      (minRow : t'.minRow = t.minRow) (maxRow : t'.maxRow = t.maxRow) (maxImport : p.maxImport ≤ p'.maxImport) (maxExport : p.maxExport ≤ p'.maxExport)
      (costPerCo2 : p'.costPerCo2 = p.costPerCo2) : Wider (.grid p t) (.grid p' t')
  | genset {g g' : Genset} (rest : g' = { g with runMin := g'.runMin, runMax := g'.runMax }) (runMin : g'.runMin ≤ g.runMin)
      (runMax : g.runMax ≤ g'.runMax) : Wider (.genset g) (.genset g')

/-- A controllable module replaced by one with wider limits.  The logs and `raise_errors` may differ. -/
structure Upgraded (m m' : Module) : Prop where
  kind : Wider m.kind m'.kind
  ffc : m.ffc = .controllable
  ffc' : m'.ffc = .controllable
  initialStep : m'.initialStep = m.initialStep
  currentStep : m'.currentStep = m.currentStep

/-- The same energy in both directions, an amount that is not mentioned counting as zero, and the same remaining entries. -/
structure SameFlow (i i' : Info) : Prop where
  provided : i'.provided.getD 0 = i.provided.getD 0
  absorbed : i'.absorbed.getD 0 = i.absorbed.getD 0
  extra : i'.extra = i.extra

/-- The same flows at every module. -/
def SameFlows (l l' : List (String × List Info)) : Prop :=
  List.Forall₂ (fun x y => y.1 = x.1 ∧ List.Forall₂ SameFlow x.2 y.2) l l'

/-- Two calls with the same outcome: both resets, or runs with the same reward, done flag and flows. -/
def SameResult : Option RunOut → Option RunOut → Prop
  | none, none => True
  | some o, some o' => o'.reward = o.reward ∧ o'.done = o.done ∧ SameFlows o.infos o'.infos
  | _, _ => False

/-- A reward shaping function, if there is one, does not distinguish an amount of zero from one that is not mentioned. -/
def EvenShaper (sh : Option Shaper) : Prop :=
  ∀ f, sh = some f → ∀ l l' ci, SameFlows l l' → f l' ci = f l ci

/-- A call that uses no normalised controls. -/
def GOp.Plain : GOp → Prop
  | .run _ n => n = false
  | .reset => True

/-- The sum of the rewards. -/
def total (os : List (Option RunOut)) : ℚ := (os.map fun o => (o.map RunOut.reward).getD 0).sum

end Pymgrid
