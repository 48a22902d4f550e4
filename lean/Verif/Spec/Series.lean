import Verif.Spec.History

set_option autoImplicit false

/-! Vocabulary for the properties of time-series modules. -/

namespace Pymgrid

/-- `row` has as many components as the bounds and each lies between them. -/
def Within (lo hi row : List ℚ) : Prop :=
  row.length = lo.length ∧ row.length = hi.length ∧
    ∀ (j : Nat) (l h v : ℚ), lo[j]? = some l → hi[j]? = some h → row[j]? = some v → l ≤ v ∧ v ≤ h

/-- Mid-points of bounds. -/
def midpoints (lo hi : List ℚ) : List ℚ := List.zipWith (fun l h => (l + h) / 2) lo hi

/-- A forecaster that works for a series of `k` components and the horizon `h`: callables return
    between 0 and `h` rows of `k` numbers.  Scalar callables only work with horizon 0 at the end of
    the series (`forecaster.py:362-373`), so they are admitted for that horizon only. -/
def FKind.Works (k h : Nat) : FKind → Prop
  | .none | .oracle => True
  | .gaussian _ _ std => ∀ r, std = some r → h ≤ r
  | .user f => ∀ c win, c.length = k → win.length ≤ h → (∀ r ∈ win, r.length = k) →
      ∃ out, f c win h = .ok out ∧ out.length ≤ h ∧ ∀ r ∈ out, r.length = k
  | .userScalar _ => h = 0

/-- The time series and the data that goes with it, for the modules that have one. -/
def Module.series? (m : Module) : Option TS :=
  match m.kind with
  | .grid _ t | .load t | .renewable t => some t
  | _ => none

/-- Import price, export price, CO2 per kWh and status of the grid at a step; a series without status
    column means always connected. -/
def gridData (rows : List (List ℚ)) (c : Nat) : Option (ℚ × ℚ × ℚ × ℚ) :=
  match rows[c]? with
  | some [imp, exp, co2] => some (imp, exp, co2, 1)
  | some [imp, exp, co2, st] => some (imp, exp, co2, st)
  | _ => none

/-- `m` was built by the constructor of a load, renewable or grid module; `rows` is the series it has
    to store, row by row, `k` the number of components per row. -/
inductive BuiltSeries (param : FKind) (horizon i : Nat) (fs : Int) (r : Bool) :
    Module → List (List ℚ) → Nat → Prop
  | load {xs : List ℚ} {m : Module} (h : Module.mkLoad xs param horizon i fs r = .ok m) :
      BuiltSeries param horizon i fs r m (xs.map fun x => [-|x|]) 1
  | renewable {xs : List ℚ} {m : Module} (h : Module.mkRenewable xs param horizon i fs r = .ok m) :
      BuiltSeries param horizon i fs r m (xs.map fun x => [|x|]) 1
  | grid {mi me cc : ℚ} {ncols : Nat} {rows : List (List ℚ)} {m : Module}
      (hrect : ∀ r ∈ rows, r.length = ncols)
      (h : Module.mkGrid mi me ncols rows param horizon i fs cc r = .ok m) :
      BuiltSeries param horizon i fs r m (if ncols = 4 then rows else rows.map fun r => r ++ [1]) 4

/-- What the oracle should forecast at step `c`: the next rows of the series, and the mid-points of the
    bounds where the series has ended. -/
def trueFuture (rows : List (List ℚ)) (mid : List ℚ) (c h : Nat) : List (List ℚ) :=
  (List.range h).map fun j => (rows[c + 1 + j]?).getD mid

end Pymgrid
