import Verif.Model.PriorityList
import Verif.Spec.Shaper
import Verif.Spec.Strict

set_option autoImplicit false

/-! What a priority list is. -/

namespace Pymgrid

/-- Number of discrete actions of the modules of a class: gensets have two (off and on), loads none. -/
def Cls.actions : Cls → Nat
  | .genset => 2
  | .load => 0
  | _ => 1

/-- The module that a key (name, index) of a priority list stands for: the one at that index among the controllable
    modules with that name, in the order in which they were passed to the microgrid. -/
def Denotes (h : Heap) (mods : List (String × Nat)) (key : String × Nat) (i : Nat) : Prop :=
  (modulesNamed h mods .controllable key.1)[key.2]? = some i

/-- A priority list for the modules `mods` in state `h`: an ordering of all controllable modules, each with one of its
    actions and its marginal cost. -/
structure IsPriorityList (h : Heap) (mods : List (String × Nat)) (pl : List Element) : Prop where
  once : (pl.map Element.module).Nodup
  all : ∀ key i, Denotes h mods key i → key ∈ pl.map Element.module
  element : ∀ e ∈ pl, ∃ i, Denotes h mods e.module i ∧ e.actions = (h i).kind.cls.actions ∧ e.action < e.actions ∧
    (h i).marginalCost = .ok e.cost

/-- The list does not switch off a genset without minimum production. -/
def NoIdleGenset (h : Heap) (mods : List (String × Nat)) (pl : List Element) : Prop :=
  ∀ e ∈ pl, ∀ i g, Denotes h mods e.module i → (h i).kind = .genset g → g.runMin = 0 → e.action = 1

/-- Demand of a load module in its current step; 0 for other modules. -/
def Module.demand (m : Module) : ℚ :=
  match m.kind with
  | .load t => -(((t.rows[m.currentStep]?).bind (·[0]?)).getD 0)
  | _ => 0

/-- Production available from a renewable module in its current step; 0 for other modules. -/
def Module.available (m : Module) : ℚ :=
  match m.kind with
  | .renewable t => ((t.rows[m.currentStep]?).bind (·[0]?)).getD 0
  | _ => 0

/-- Demand minus available renewable production of all modules. -/
def netLoad (h : Heap) (mods : List (String × Nat)) : ℚ :=
  (mods.map fun nm => (h nm.2).demand).sum - (mods.map fun nm => (h nm.2).available).sum

/-- Smallest and largest energy that can be requested of a module together with its discrete action. -/
def Module.planWindow (m : Module) (action : Nat) : Option (ℚ × ℚ) := (m.afterStatus (.arr [(action : ℚ), 0])).window

/-- The entry of a control that asks a module for an energy, with its discrete action if it is a genset. -/
def Module.planAct (m : Module) (action : Nat) (x : ℚ) : Act :=
  match m.kind with
  | .genset _ => .arr [(action : ℚ), x]
  | _ => .num x

/-- The element is assigned the most that can be requested of its module. -/
def AtTop (h : Heap) (mods : List (String × Nat)) (p : Element × ℚ) : Prop :=
  ∀ i lo hi, Denotes h mods p.1.module i → (h i).planWindow p.1.action = some (lo, hi) → p.2 = hi

/-- The element is assigned the least that can be requested of its module, which is not more than 0. -/
def AtBottom (h : Heap) (mods : List (String × Nat)) (p : Element × ℚ) : Prop :=
  ∀ i lo hi, Denotes h mods p.1.module i → (h i).planWindow p.1.action = some (lo, hi) → p.2 = min lo 0

/-- The energies respect the order of the list: a module produces only if all modules before it are at their maximum, and,
    unless there is a net load, absorbs only if all modules before it are at their minimum.  Nothing is absorbed to cover a
    load (if no module has a positive minimum) and nothing produced to use a surplus, and neither is overdone. -/
structure Merit (h : Heap) (mods : List (String × Nat)) (pl : List Element) (net rem : ℚ) (xs : List ℚ) : Prop where
  produce : (pl.zip xs).Pairwise fun p q => 0 < q.2 → AtTop h mods p
  absorb : net ≤ 1/10000 → (pl.zip xs).Pairwise fun p q => q.2 < 0 → AtBottom h mods p
  deficit : (∀ e ∈ pl, ∀ i lo hi, Denotes h mods e.module i → (h i).planWindow e.action = some (lo, hi) → lo ≤ 0) →
    0 ≤ net → 0 ≤ rem ∧ ∀ x ∈ xs, 0 ≤ x
  surplus : net ≤ 0 → rem ≤ 0 ∧ ∀ x ∈ xs, x ≤ 0

/-- A control `c` that assigns the energies `xs` to the modules of a priority list, for the net load `net`, leaving
    `rem`: it has exactly one entry for each controllable module; the energies account for the difference of `net` and
    `rem`; each is an energy that can be requested of the module, or 0 for a genset that is asked to run; if load
    remains (more than the tolerance of 0.0001) every module is at its maximum, and if surplus remains (and there was
    surplus in the first place) every module is at its minimum; and the modules are used in the order of the list. -/
structure Planned (h : Heap) (mods : List (String × Nat)) (pl : List Element) (c : List (String × Ctrl))
    (net rem : ℚ) (xs : List ℚ) : Prop where
  len : xs.length = pl.length
  total : rem = net - xs.sum
  supplies : ∀ name, dictGet? c name = none ∧ modulesNamed h mods .controllable name = [] ∨
    ∃ k, dictGet? c name = some k ∧ k.acts.length = (modulesNamed h mods .controllable name).length ∧ k.acts ≠ []
  each : ∀ p ∈ pl.zip xs, ∃ i k lo hi, Denotes h mods p.1.module i ∧ dictGet? c p.1.module.1 = some k ∧
    k.acts[p.1.module.2]? = some ((h i).planAct p.1.action p.2) ∧
    (h i).planWindow p.1.action = some (lo, hi) ∧ ((lo ≤ p.2 ∧ p.2 ≤ hi) ∨ (p.2 = 0 ∧ 0 < lo)) ∧
    (1/10000 < rem → p.2 = hi) ∧ (net ≤ 1/10000 → rem < -(1/10000) → p.2 = min lo 0)
  merit : Merit h mods pl net rem xs

/-- Successful runs, each on a control planned from the list in the state of that run. -/
inductive PlannedRuns (mods : List (String × Nat)) (pl : List Element) : Microgrid → List RunOut → Microgrid → Prop
  | nil (g : Microgrid) : PlannedRuns mods pl g [] g
  | cons {g g₁ g' : Microgrid} {c : List (String × Ctrl)} {rem : ℚ} {xs : List ℚ} {o : RunOut} {os : List RunOut}
      (plan : Planned g.heap mods pl c (netLoad g.heap mods) rem xs) (run : g.run c false = (g₁, .ok o))
      (rest : PlannedRuns mods pl g₁ os g') : PlannedRuns mods pl g (o :: os) g'

end Pymgrid
