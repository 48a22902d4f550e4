import Verif.Model.SAA
import Verif.Model.TimeSeries

set_option autoImplicit false

/-!
# Noisy data (`utils/DataGenerator.py`)

Random draws are arguments: `u` uniform in `[0, 1)`, `z` standard normal.  Standard deviations are not rational, and the curves
through the daily peaks come from a quantile regression (`DataGenerator.py:124-305`); both are arguments, too.  Data frames have
the index `0, 1, ...` and one column; `nan` is the absence of a value.  Plots and messages are omitted.
-/

namespace Pymgrid.Noisy

/-! ### Status of the grid -/

/-- `transition_prob_matrix` and `occurrences` while transitions are counted (`DataGenerator.py:757-762`). -/
structure Tally where
  n00 : ℚ
  n01 : ℚ
  n10 : ℚ
  n11 : ℚ
  occ0 : ℚ
  occ1 : ℚ
  deriving DecidableEq, Repr

/-- Counting one transition (`DataGenerator.py:761-762`); the values are 0 or 1. -/
def Tally.add (t : Tally) (a b : ℚ) : Tally :=
  if a = 0 then
    if b = 0 then { t with n00 := t.n00 + 1, occ0 := t.occ0 + 1 } else { t with n01 := t.n01 + 1, occ0 := t.occ0 + 1 }
  else
    if b = 0 then { t with n10 := t.n10 + 1, occ1 := t.occ1 + 1 } else { t with n11 := t.n11 + 1, occ1 := t.occ1 + 1 }

/-- The loop over the data (`DataGenerator.py:759-762`): the last value has no successor. -/
def tally : List ℚ → Tally → Tally
  | a :: b :: l, t => tally (b :: l) (t.add a b)
  | _, t => t

/-- The learned distribution: the matrix and the occurrences. -/
structure Markov where
  p00 : ℚ
  p01 : ℚ
  p10 : ℚ
  p11 : ℚ
  occ0 : ℚ
  occ1 : ℚ
  deriving DecidableEq, Repr

/-- `learn_distribution` with `dist_type = 'markov'` (`DataGenerator.py:755-777`). -/
def learnMarkov (data : List ℚ) : Except Err Markov :=
  let t := tally data ⟨0, 0, 0, 0, 0, 0⟩
  let r0 := if 0 < t.occ0 then (t.n00 / t.occ0, t.n01 / t.occ0) else (1, t.n01)
  let r1 := if 0 < t.occ1 then (t.n10 / t.occ1, t.n11 / t.occ1) else (t.n10, 1)
  if r0.1 + r0.2 = 1 ∧ r1.1 + r1.2 = 1 then .ok ⟨r0.1, r0.2, r1.1, r1.2, t.occ0, t.occ1⟩ else .error .assertion

/-- `np.random.choice([0, 1], p=[p0, p1])`: the first entry of the cumulated probabilities that exceeds the draw.  numpy allows
    rounding errors in the sum. -/
def choice (p0 p1 u : ℚ) : Except Err ℚ :=
  if p0 < 0 ∨ p1 < 0 ∨ p0 + p1 ≠ 1 then .error .value else .ok (if u < p0 then 0 else 1)

/-- The loop of `sample` (`DataGenerator.py:801-803`): `n` further values from position `j` on, after the value `s`. -/
def chain (m : Markov) (u : Nat → ℚ) : Nat → Nat → ℚ → Except Err (List ℚ)
  | 0, _, _ => .ok []
  | n + 1, j, s =>
    match (if s = 0 then choice m.p00 m.p01 (u j) else choice m.p10 m.p11 (u j)) with
    | .error e => .error e
    | .ok s' =>
      match chain m u n (j + 1) s' with
      | .error e => .error e
      | .ok l => .ok (s' :: l)

/-- `dist_type` (`DataGenerator.py:736-738`). -/
inductive DistType
  | naive | markov
  deriving DecidableEq, Repr

/-- `NoisyGridData(data, dist_type).sample()` (`DataGenerator.py:728-809`).  The distribution is learned from the data once; it is
    the same for all samples.  The mean of no data is `nan`, as are the occurrences if there is no transition. -/
def sampleGrid (dist : DistType) (data : List ℚ) (u : Nat → ℚ) : Except Err (List ℚ) :=
  if ¬ (∀ x ∈ data, x = 1 ∨ x = 0) then .error .value
  else
    match dist with
    | .naive =>
      if data.length = 0 then .error .value
      else
        let p1 := data.sum / data.length
        (List.range data.length).mapM fun j => choice (1 - p1) p1 (u j)
    | .markov =>
      match learnMarkov data with
      | .error e => .error e
      | .ok m =>
        if m.occ0 + m.occ1 = 0 then .error .value
        else
          match choice (m.occ0 / (m.occ0 + m.occ1)) (m.occ1 / (m.occ0 + m.occ1)) (u 0) with
          | .error e => .error e
          | .ok s =>
            match chain m u (data.length - 1) 1 s with
            | .error e => .error e
            | .ok l => .ok (s :: l)

/-! ### Load -/

/-- The number of rows of the data arranged by day and hour (`DataGenerator.py:634-639`). -/
def days (n : Nat) : Nat := (n + 23) / 24

/-- The values of an hour on the days with the same `day_of_week` (`DataGenerator.py:640-643`). -/
def group (data : List ℚ) (w h : Nat) : List ℚ :=
  ((List.range (days data.length)).filter fun d => decide (d % 7 = w)).filterMap fun d => data[24 * d + h]?

/-- `groupby(...).mean()` of a group (`DataGenerator.py:642`); of no values it is `nan`. -/
def mean? (l : List ℚ) : Option ℚ := if l.length = 0 then none else some (l.sum / l.length)

/-- `groupby(...).std().fillna(0)` of a group (`DataGenerator.py:643`); of fewer than two values it is `nan`.  `sd` stands for the
    standard deviation. -/
def std (sd : List ℚ → ℚ) (l : List ℚ) : ℚ := if l.length < 2 then 0 else sd l

/-- All pairs of day and hour, in order. -/
def cells (n : Nat) : List (Nat × Nat) := (List.range n).flatMap fun d => (List.range 24).map fun h => (d, h)

/-- `NoisyLoadData._check_sample` (`DataGenerator.py:690-713`): negative values are replaced by the least value of the data. -/
def checkLoad (data xs : List ℚ) : Except Err (List ℚ) :=
  match listMin data with
  | .error e => .error e
  | .ok v =>
    let ys := xs.map fun x => if x < 0 then v else x
    if ∀ y ∈ ys, 0 ≤ y then .ok ys else .error .assertion

/-- `NoisyLoadData(data).sample(load_variance_scale=scale)` (`DataGenerator.py:595-688`) for a data frame or a series (with a file
    name, `len(None)` raises `TypeError`); the data is cut to 8760 rows.  A negative scale of the normal distribution raises
    `ValueError`; `stack` drops `nan`.  No data at all is not modelled faithfully. -/
def sampleLoad (sd : List ℚ → ℚ) (loads : List ℚ) (scale : ℚ) (z : Nat → Nat → ℚ) : Except Err (List ℚ) :=
  let data := loads.take 8760
  if ∃ c ∈ cells (days data.length), scale * std sd (group data (c.1 % 7) c.2) < 0 then .error .value
  else
    checkLoad data ((cells (days data.length)).filterMap fun c =>
      (mean? (group data (c.1 % 7) c.2)).map fun m => m + scale * std sd (group data (c.1 % 7) c.2) * z c.1 c.2)

/-! ### Photovoltaics -/

/-- The first two elements that are not consecutive numbers.  In the code the list is compared with its rotation
    (`DataGenerator.py:327-329`); if there is no gap, the last element differs from the first one plus one, and the access after it
    raises `IndexError`. -/
def firstGap : List Nat → Except Err (Nat × Nat)
  | a :: b :: l => if a + 1 ≠ b then .ok (a, b) else firstGap (b :: l)
  | _ => .error .index

/-- Dawn and dusk of a day (`DataGenerator.py:320-331`): the hours without light around the first light.  At midnight and at 11 pm
    it must be dark; `nan` is not 0. -/
def dawnDusk (data : List ℚ) (d : Nat) : Except Err (Nat × Nat) :=
  if data[24 * d]? ≠ some 0 then .error .runtime
  else if data[24 * d + 23]? ≠ some 0 then .error .runtime
  else firstGap ((List.range 24).filter fun h => decide (data[24 * d + h]? = some 0))

/-- The noise of the daily peak, with its parameters (`DataGenerator.py:351-385`); `mode` is always present
    (`DataGenerator.py:429,453-455`). -/
inductive PeakNoise
  | uniform (lower upper : ℚ)
  | triangular (lower upper mode : ℚ)
  deriving DecidableEq, Repr

/-- Negative bounds are flipped (`DataGenerator.py:340-347`). -/
def fixBounds (least most : ℚ) : ℚ × ℚ :=
  if least < 0 then
    if most < 0 then (-(max least most), -(min least most)) else (0, most)
  else (least, most)

/-- The peak of a day (`DataGenerator.py:349-393`).  Draws of both distributions lie between the ends; `u` tells where.  numpy raises
    `ValueError` for triangles without extent or with a mode outside; `push` is `push_peak_ratio`, `top` the largest value of the
    day in the data. -/
def peak (noise : PeakNoise) (b : ℚ × ℚ) (u : ℚ) (push : Option ℚ) (top : ℚ) : Except Err ℚ :=
  let spread := b.2 - b.1
  let pushed (v : ℚ) : ℚ :=
    match push with
    | none => v
    | some r => v + r * (top - v)
  match noise with
  | .uniform lower upper =>
    let low := b.1 + lower * spread
    let high := b.2 + (upper - 1) * spread
    .ok (pushed (low + u * (high - low)))
  | .triangular lower upper m =>
    let low := b.1 + lower * spread
    let high := b.2 + (upper - 1) * spread
    if ¬ (0 ≤ m ∧ m ≤ 1) then .error .value
    else
      let mode := spread * m + b.1
      if ¬ (mode ≤ high ∧ low ≤ mode) then .error .assertion
      else if low = high then .error .value
      else .ok (pushed (low + u * (high - low)))

/-- The quadratic curve through dawn, noon and dusk, 0 outside (`DataGenerator.py:395-403`; `interp1d` with three points). -/
def parabola (dawn dusk top h : ℚ) : ℚ :=
  if h < dawn ∨ dusk < h then 0 else top * ((h - dawn) * (dusk - h) / ((dusk - dawn) / 2) ^ 2)

/-- `_sample_parabola` (`DataGenerator.py:307-407`): a row of 24 values per day.  `curves` gives the interpolated least and most light
    of a day at a time. -/
def parabolas (curves : Nat → ℚ → ℚ × ℚ) (noise : PeakNoise) (push : Option ℚ) (data : List ℚ) (u : Nat → ℚ) :
    Except Err (List (List ℚ)) :=
  (List.range (days data.length)).mapM fun d =>
    match dawnDusk data d with
    | .error e => .error e
    | .ok (dawn, dusk) =>
      let c := curves d ((dawn + dusk) / 2)
      let top := ((List.range 24).filterMap fun h => data[24 * d + h]?).foldl max 0
      match peak noise (fixBounds c.1 c.2) (u d) push top with
      | .error e => .error e
      | .ok v => .ok ((List.range 24).map fun (h : Nat) => parabola dawn dusk v h)

/-- The second part of `NoisyPVData.sample` (`DataGenerator.py:468-503`) and `_check_sample` (`DataGenerator.py:505-530`): normal noise
    (unless `ratio` is `none`) whose scale is proportional to the values; negative values are replaced by 0. -/
def noisePv (base : List (List ℚ)) (ratio : Option ℚ) (z : Nat → Nat → ℚ) : Except Err (List ℚ) :=
  match ratio with
  | none => .ok (base.flatten.map fun x => if x < 0 then 0 else x)
  | some r =>
    if ∃ row ∈ base, ∃ x ∈ row, r * x < 0 then .error .value
    else .ok ((base.zipIdx.flatMap fun rd => rd.1.zipIdx.map fun xh => xh.1 + r * xh.1 * z rd.2 xh.2).map
      fun x => if x < 0 then 0 else x)

/-! ### Samples -/

/-- The columns of `forecasts` and the stored `parabolic_baseline`. -/
structure Forecasts where
  base : List (List ℚ)
  pv : List ℚ
  load : List ℚ
  grid : List ℚ
  deriving DecidableEq, Repr

/-- The random draws of a forecast or a sample. -/
structure Draws where
  peak : Nat → ℚ
  pv : Nat → Nat → ℚ
  load : Nat → Nat → ℚ
  grid : Nat → ℚ

/-- The functions that are not modelled: standard deviation and interpolated curves. -/
structure Statistics where
  sd : List ℚ → ℚ
  curves : Nat → ℚ → ℚ × ℚ

/-- Arguments of `sample`: noise of the peak, ratio of the normal noise, `push_peak_ratio` if `push_peak_val`, and
    `load_variance_scale`.  `push_individual_vals` is not modelled. -/
structure Args where
  noise : PeakNoise := .uniform 0 1
  ratio : Option ℚ := some (1/20)
  push : Option ℚ := none
  scale : ℚ := 1

/-- `SampleGenerator(microgrid)` with `create_forecasts` (`DataGenerator.py:812-862`).  Columns of different lengths would be padded
    with `nan`; here they keep their lengths. -/
def createForecasts (st : Statistics) (a : Args) (g : Legacy.Grid) (w : Draws) : Except Err Forecasts :=
  if g.arch.grid ∧ ¬ (∀ x ∈ g.statuses, x = 1 ∨ x = 0) then .error .value
  else
    match parabolas st.curves a.noise a.push g.pvs w.peak with
    | .error e => .error e
    | .ok base =>
      match noisePv base a.ratio w.pv with
      | .error e => .error e
      | .ok pv =>
        match sampleLoad st.sd g.loads a.scale w.load with
        | .error e => .error e
        | .ok load =>
          match (if g.arch.grid then sampleGrid .markov g.statuses w.grid else .ok (List.replicate g.loads.length 0)) with
          | .error e => .error e
          | .ok grid => .ok ⟨base, pv, load, grid⟩

/-- One sample (`DataGenerator.py:943-951`): PV from the stored baseline, load and status from the forecasts; cut to the shortest of
    the underlying data. -/
def sampleFrame (st : Statistics) (a : Args) (g : Legacy.Grid) (f : Forecasts) (w : Draws) : Except Err MPC.Frame :=
  match noisePv f.base a.ratio w.pv with
  | .error e => .error e
  | .ok pv =>
    match sampleLoad st.sd f.load a.scale w.load with
    | .error e => .error e
    | .ok load =>
      match sampleGrid .markov f.grid w.grid with
      | .error e => .error e
      | .ok grid =>
        let n := min g.pvs.length (min (f.load.take 8760).length f.grid.length)
        .ok (((load.zip (pv.zip grid)).map fun r => ⟨r.1, r.2.1, r.2.2⟩).take n)

/-- `sample_from_forecasts(n_samples)` (`DataGenerator.py:919-955`). -/
def sampleFrames (st : Statistics) (a : Args) (g : Legacy.Grid) (f : Forecasts) (n : Nat) (w : Nat → Draws) :
    Except Err (List MPC.Frame) :=
  (List.range n).mapM fun i => sampleFrame st a g f (w i)

end Pymgrid.Noisy
