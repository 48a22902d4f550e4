import Verif.Spec.Library
import Verif.Spec.Microgrid

set_option autoImplicit false

/-! An agent that controls a microgrid. -/

namespace Pymgrid

/-- An agent: it answers what happened since the reset with the next control and whether that control is normalised. Any
    strategy is such a function, also one that has a state or that draws random numbers (the draws are then fixed by the
    function). -/
abbrev Agent := List RunOut → List (String × Ctrl) × Bool

/-- A control that addresses each controllable module with an action that the module accepts. -/
def Playable (h : Heap) (mods : List (String × Nat)) (cn : List (String × Ctrl) × Bool) : Prop :=
  ∀ nm ∈ mods, (h nm.2).ffc = .controllable → ∃ c, dictGet? cn.1 nm.1 = some c ∧
    (modulesNamed h mods .controllable nm.1).length ≤ c.acts.length ∧
    ∀ ia ∈ (modulesNamed h mods .controllable nm.1).zip c.acts, (h ia.1).Accepts ia.2 cn.2

/-- The loop that users write: `while not done: ... = microgrid.run(agent(history))`, given up after `n` iterations; `hist`
    has what happened so far. The result is the microgrid and, unless a call raised, all outputs. -/
def play (π : Agent) : Nat → Microgrid → List RunOut → Microgrid × Except Err (List RunOut)
  | 0, g, hist => (g, .ok hist)
  | n + 1, g, hist =>
    match g.run (π hist).1 (π hist).2 with
    | (g', .error e) => (g', .error e)
    | (g', .ok o) => if o.done then (g', .ok (hist ++ [o])) else play π n g' (hist ++ [o])

/-- Training: `k` times a reset and an episode (of at most `n` steps), by an agent that knows the past episodes. -/
def train (π : List (List RunOut) → Agent) (n : Nat) :
    Nat → Microgrid → List (List RunOut) → Microgrid × Except Err (List (List RunOut))
  | 0, g, past => (g, .ok past)
  | k + 1, g, past =>
    match g.reset with
    | (g₁, .error e) => (g₁, .error e)
    | (g₁, .ok ()) =>
      match play (π past) n g₁ [] with
      | (g₂, .error e) => (g₂, .error e)
      | (g₂, .ok os) => train π n k g₂ (past ++ [os])

end Pymgrid
