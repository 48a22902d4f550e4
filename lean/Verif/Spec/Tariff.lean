import Verif.Spec.Order
import Verif.Spec.Library

set_option autoImplicit false

/-! Specification for C105.  `P` tells whether the second prices are also known to be no better for the user. -/

namespace Pymgrid

/-- Two rows of grid data that agree in the CO2 content and the status.  If `P`, importing costs at least as much and
    exporting earns at most as much. -/
structure RowPrices (P : Prop) (r r' : List ℚ) : Prop where
  buy : P → ∀ x x', r[0]? = some x → r'[0]? = some x' → x ≤ x'
  sell : P → ∀ x x', r[1]? = some x → r'[1]? = some x' → x' ≤ x
  co2 : r'[2]? = r[2]?
  status : r'[3]? = r[3]?

/-- The same device with other prices.  Of grids, the forecasts may differ too. -/
inductive OtherPrices (P : Prop) : Kind → Kind → Prop
  | battery (b : Battery) (c : ℚ) (cycle : P → b.costCycle ≤ c) :
      OtherPrices P (.battery b) (.battery { b with costCycle := c })
  | genset (g : Genset) (cost : GensetCost) (c : ℚ)
      (fuel : P → ∀ x, 0 ≤ x → g.fuelCost x ≤ { g with cost := cost }.fuelCost x)
      (co2 : P → 0 ≤ g.co2PerUnit ∧ g.costPerCo2 ≤ c) :
      OtherPrices P (.genset g) (.genset { g with cost := cost, costPerCo2 := c })
  | grid (p : GridParams) (t t' : TS) (c : ℚ) (rows : List.Forall₂ (RowPrices P) t.rows t'.rows)
      (finalStep : t'.finalStep = t.finalStep) (co2 : P → p.costPerCo2 ≤ c) :
      OtherPrices P (.grid p t) (.grid { p with costPerCo2 := c } t')
  | balancing (u u' : Unbalanced) (loss : P → u.lossLoadCost ≤ u'.lossLoadCost)
      (over : P → u.overgenerationCost ≤ u'.overgenerationCost) : OtherPrices P (.balancing u) (.balancing u')

/-- The same module with other prices.  The logs may differ. -/
structure Tariff (P : Prop) (m m' : Module) : Prop where
  kind : OtherPrices P m.kind m'.kind
  ffc : m'.ffc = m.ffc
  raiseErrors : m'.raiseErrors = m.raiseErrors
  initialStep : m'.initialStep = m.initialStep
  currentStep : m'.currentStep = m.currentStep
  actSpace : m'.actSpace = m.actSpace

/-- What the fuel for producing `x` costs: a price per unit, or a function. -/
def GensetCost.eval (c : GensetCost) (x : ℚ) : ℚ :=
  match c with
  | .const p => p * x
  | .fn f => f x

/-- A reward shaping function, if there is one, does not look at the marginal costs. -/
def PriceFree (sh : Option Shaper) : Prop := ∀ f, sh = some f → ∀ l ci ci', f l ci = f l ci'

/-- Two calls with the same flows and done flag; if `P`, the second yields no more reward. -/
def NoBetter (P : Prop) : Option RunOut → Option RunOut → Prop
  | none, none => True
  | some o, some o' => (P → o'.reward ≤ o.reward) ∧ o'.done = o.done ∧ o'.infos = o.infos
  | _, _ => False

end Pymgrid
