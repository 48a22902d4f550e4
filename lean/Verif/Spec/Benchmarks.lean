import Verif.Model.Benchmarks

set_option autoImplicit false

/-!
# What a report on benchmarks should say

Written without the functions of the model that make the report.
-/

namespace Pymgrid.Bench

/-- What each step of the recorded runs cost: `costs a` is the record of algorithm `a`, complete and of `T` steps. -/
def Recorded (outs : List (String × Output)) (costs : String → List ℚ) (T : Nat) : Prop :=
  outs ≠ [] ∧ ∀ a o, (a, o) ∈ outs → (costs a).length = T ∧
    ∃ c, dictGet? o "cost" = some c ∧ dictGet? c "total_cost" = some ((costs a).map some)

/-- The name of the algorithm that a line is about. -/
def Line.alg : Line → String
  | .last a _ _ _ => a
  | .split a _ _ => a

/-- The algorithms that were run and asked for, in the order of the report. -/
def Selected (outs : List (String × Output)) (asked : Option (List String)) (names : List String) : Prop :=
  names.Sublist ["mpc", "rbc", "saa"] ∧
    ∀ a, a ∈ names ↔ a ∈ ["mpc", "rbc", "saa"] ∧ (∃ o, (a, o) ∈ outs) ∧ ∀ l ∈ asked, a ∈ l

/-- All names given are names of algorithms. -/
def Known (asked : Option (List String)) : Prop := ∀ l ∈ asked, ∀ a ∈ l, a ∈ ["mpc", "rbc", "saa"]

/-- `c` is the number `x` up to half a cent. -/
def Cents (c : Cell) (x : ℚ) : Prop := ∃ y, c = some y ∧ |y - x| ≤ 1/200

/-- The line says that the last `n` steps of the record cost what they did, and that they are the share `r` of all steps. -/
def LastLine (costs : String → List ℚ) (n : Nat) (r : ℚ) (l : Line) : Prop :=
  ∃ percent c, l = .last l.alg n percent c ∧ |percent - 100 * r| ≤ 1/20 ∧
    Cents c (((costs l.alg).drop ((costs l.alg).length - n)).sum)

/-- The line gives the cost before position `k` and that from `k` on. -/
def SplitLine (costs : String → List ℚ) (k : Nat) (l : Line) : Prop :=
  ∃ test train, l = .split l.alg test train ∧ Cents train (((costs l.alg).take k).sum) ∧
    Cents test (((costs l.alg).drop k).sum)

end Pymgrid.Bench
