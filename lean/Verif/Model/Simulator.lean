import Mathlib.Analysis.SpecialFunctions.Trigonometric.Basic
import Mathlib.Analysis.Real.Sqrt
import Mathlib.Data.List.Sort
import Verif.Model.Py

/-!
# `kats/utils/simulator.py`

Numbers are reals, positions and change points natural numbers (negative positions, which Python counts from the end, are not
modelled), and series of the caller have values of type float.  `pd.date_range`, the generator of normal numbers and its global
state are parameters.
-/

namespace Kats

noncomputable section

/-- `np.cumsum` -/
def simCumsum (x : List ℝ) : List ℝ := (List.range x.length).map fun i : Nat => (x.take (i + 1)).sum

/-- `moving_average`, lines 33-45, for `n ≥ 1`. -/
def movingAverage (a : List ℝ) (n : Nat) : List ℝ :=
  let ret := simCumsum a
  let ret' := ret.take n ++ List.zipWith (· - ·) (ret.drop n) (ret.take (ret.length - n))
  (ret'.drop (n - 1)).map (· / n)

/-- What is called: `pd.date_range(start, freq, periods)` in nanoseconds, `np.random.seed`, and the standard normal numbers that a
state of the generator gives. -/
structure SimWorld (R : Type) where
  dates : Nat → List Int
  seed : Int → R
  normal : R → Nat → ℝ

/-- The attributes `n`, `time` and `timeseries`. -/
structure Sim where
  n : Nat
  times : List Int
  timeseries : List ℝ

variable {R : Type}

/-- `__init__`, lines 60-81. -/
def Sim.init (W : SimWorld R) (n : Nat) : Sim := ⟨n, W.dates n, List.replicate n 0⟩

/-- `TimeSeriesData(time, value)`: the lengths must agree. -/
def simSeries (times : List Int) (values : List ℝ) : Except Err (List (Int × ℝ)) :=
  if times.length ≠ values.length then .error .valueError else .ok (times.zip values)

/-! ### ARIMA -/

/-- `np.dot` -/
def simDot (a b : List ℝ) : ℝ := (List.zipWith (· * ·) a b).sum

/-- Lines 152-159: the next value, from those before, the errors, and their number `i`; `ma` begins with 1. -/
def armaNext (ar ma : List ℝ) (t : ℝ) (eps x : List ℝ) : ℝ :=
  let i := x.length
  simDot (ar.take (min i ar.length)) ((x.drop (i - min i ar.length)).reverse)
    + simDot (ma.take (min (i + 1) ma.length)) (((eps.take (i + 1)).drop (i - min i (ma.length - 1))).reverse) + t

/-- Lines 147-159: `k + 1` values. -/
def armaSim (ar ma : List ℝ) (t : ℝ) (eps : List ℝ) : Nat → List ℝ
  | 0 => [eps.getD 0 0]
  | k + 1 => let x := armaSim ar ma t eps k; x ++ [armaNext ar ma t eps x]

/-- Lines 162-173: sums of sums; the array of the first sums is overwritten in place.  A negative `d` leaves zeros. -/
def arimaDrift (d : Int) (x : List ℝ) : List ℝ :=
  if d = 0 then x else if d < 0 then List.replicate x.length 0 else (simCumsum^[d.toNat]) x

/-- `arima_sim`, lines 83-185; `g` is the state of the generator. -/
def Sim.arima (W : SimWorld R) (g : R) (s : Sim) (ar ma : List ℝ) (mu sigma : ℝ) (burnin : Nat) (d : Int) (t : ℝ) :
    Except Err (List (Int × ℝ)) :=
  if sigma ≤ 0 then .error .valueError
  else
    let ma := 1 :: ma
    let len := s.n + max ar.length ma.length + burnin
    let eps := (List.range len).map fun k : Nat => mu + sigma * W.normal g k
    let x := armaSim ar ma t eps (len - 1)
    simSeries (W.dates s.n) (arimaDrift d (pyFrom x (-(s.n : Int))))

/-! ### Components -/

/-- `_add_component`, lines 276-298: `gen` gives the component at the time points. -/
def Sim.addComponent (s : Sim) (gen : List ℝ → List ℝ) (multiply : Bool) (scale : Option ℝ) : Except Err Sim :=
  let ts : List ℝ := s.times.map fun t : Int => (t : ℝ) / 1000000000
  match ts.head?, ts.getLast? with
  | some first, some last =>
    let scale := scale.getD (last - first + 1 / 2 ^ 52)
    let component := gen (ts.map fun t => (t - first) / scale)
    if s.timeseries.length ≠ component.length then .error .valueError
    else .ok { s with timeseries := List.zipWith (fun y c => if multiply then y * (1 + c) else y + c) s.timeseries component }
  | _, _ => .error .indexError

/-- `sigmoid`, lines 264-266. -/
def simSigmoid (x : ℝ) : ℝ := 1 / (1 + Real.exp (-10 * x))

/-- `add_trend`, lines 187-212. -/
def Sim.addTrend (s : Sim) (magnitude : ℝ) (type : String) (multiply : Bool) : Except Err Sim :=
  s.addComponent (fun tp => tp.map fun t => if type = "sigmoid" ∨ type = "S" then magnitude * simSigmoid (t - 1 / 2) else magnitude * t)
    multiply none

/-- `add_noise`, lines 214-235. -/
def Sim.addNoise (W : SimWorld R) (g : R) (s : Sim) (magnitude : ℝ) (multiply : Bool) : Except Err Sim :=
  s.addComponent (fun tp => (List.range tp.length).map fun k : Nat => magnitude * W.normal g k) multiply none

/-- `add_seasonality`, lines 237-262, with the period in seconds. -/
def Sim.addSeasonality (s : Sim) (magnitude period : ℝ) (multiply : Bool) : Except Err Sim :=
  s.addComponent (fun tp => tp.map fun t => magnitude * Real.sin (2 * Real.pi * t)) multiply (some period)

/-- `stl_sim`, lines 300-320. -/
def Sim.stl (s : Sim) : Except Err (List (Int × ℝ)) := simSeries s.times s.timeseries

/-! ### Level shifts -/

/-- `_adjust_length`, lines 322-332; `timeseries` stays. -/
def Sim.adjust (W : SimWorld R) (s : Sim) (length : Nat) : Sim := { s with n := length, times := W.dates length }

/-- Lines 381-389: the values of the segments between the bounds, drawn one after the other. -/
def levelSegments (z : Nat → ℝ) (noise : ℝ) : List Nat → List ℝ → List ℝ
  | a :: b :: r, l :: ls => ((List.range (b - a)).map fun k : Nat => l + noise * z (a + k)) ++ levelSegments z noise (b :: r) ls
  | _, _ => []

/-- Lines 403-407: the level that an anomaly is put on; `level_arr[-1]` is the last one. -/
def anomalyLevel (bounds : List Nat) (levels : List ℝ) (p : Nat) : ℝ :=
  let seg := bounds.findIdx fun c => decide (p ≤ c)
  if seg = 0 then levels.getLastD 0 else levels.getD (seg - 1) 0

/-- Lines 391-407. -/
def levelAnomalies (n : Nat) (bounds : List Nat) (levels : List ℝ) (noise : ℝ) : List (Int × ℝ) → List ℝ → Except Err (List ℝ)
  | [], y => .ok y
  | (p, z) :: r, y =>
    if p < 0 ∨ (n : Int) ≤ p then .error .valueError
    else levelAnomalies n bounds levels noise r (y.set p.toNat (anomalyLevel bounds levels p.toNat + z * noise))

/-- Lines 409-412 and 657-660: the seasonality; `np.pi / 0` raises `ZeroDivisionError`. -/
def addSeason (magnitude : ℝ) (period : Int) (y : List ℝ) : Except Err (List ℝ) :=
  if period = 0 then .error .otherError
  else .ok (y.mapIdx fun k v => v + magnitude * Real.sin (Real.pi / period * k))

/-- The arguments that the simulations have in common: `noise`, `seasonal_period`, `seasonal_magnitude`, `anomaly_arr` and
`z_score_arr`. -/
structure ShiftArgs where
  noise : ℝ := 30
  period : Int := 7
  magnitude : ℝ := 3
  anomalies : List Int := []
  zscores : List ℝ := []

/-- `_get_level_shift_y_val`, lines 334-414.  `norm.rvs` refuses a negative scale. -/
def levelValues (W : SimWorld R) (n : Nat) (seed : Int) (cps : List Nat) (levels : List ℝ) (a : ShiftArgs) : Except Err (List ℝ) := do
  let g := W.seed seed
  let sorted := cps.insertionSort (· ≤ ·)
  if (levels.length : Int) - sorted.length ≠ 1 then .error .valueError
  else if sorted ≠ [] ∧ n ≤ sorted.getLastD 0 then .error .valueError
  else
    let bounds := 0 :: (sorted ++ [n])
    let y ← if a.noise < 0 then .error .valueError else .ok (levelSegments (W.normal g) a.noise bounds levels)
    if a.anomalies.length ≠ a.zscores.length then .error .valueError
    else do
      let y ← levelAnomalies n bounds levels a.noise (a.anomalies.zip a.zscores) y
      addSeason a.magnitude a.period y

/-- `level_shift_sim`, lines 416-490: the simulator afterwards and the series. -/
def Sim.levelShift (W : SimWorld R) (s : Sim) (seed : Int) (cps : List Nat) (levels : List ℝ) (a : ShiftArgs) :
    Sim × Except Err (List (Int × ℝ)) :=
  let s := if cps ≠ [] ∧ s.n < cps.foldl max 0 then s.adjust W (cps.foldl max 0) else s
  (s, do
    let y ← levelValues W s.n seed cps levels a
    simSeries s.times y)

/-- `level_shift_multivariate_indep_sim`, lines 492-560: the columns; `np.max` of an empty list raises. -/
def Sim.levelShiftMulti (W : SimWorld R) (s : Sim) (cps : List Nat) (levels : List ℝ) (a : ShiftArgs) (dim : Nat) :
    Sim × Except Err (List (List ℝ)) :=
  if cps = [] then (s, .error .valueError)
  else
    let s := if s.n < cps.foldl max 0 then s.adjust W (cps.foldl max 0) else s
    (s, (List.range dim).mapM fun i : Nat => levelValues W s.n (100 * ((i : Int) + 1)) cps levels a)

/-! ### Trend shifts -/

/-- Lines 645-655, one segment; `first` is whether `i` is 0.  `y_val[-1]` is the last value. -/
def trendSegment (first : Bool) (lo hi : Nat) (t : ℝ) (y : List ℝ) : List ℝ :=
  let y1 := y.mapIdx fun k v => if lo ≤ k ∧ k < hi then v + t * k else v
  if first then y1
  else
    let delta := y1.getD lo 0 - (if lo = 0 then y1.getLastD 0 else y1.getD (lo - 1) 0)
    y1.mapIdx fun k v => if lo ≤ k ∧ k < hi then v - delta else v

/-- Lines 645-655, all segments. -/
def trendSegments : Bool → List Nat → List ℝ → List ℝ → List ℝ
  | first, a :: b :: r, t :: ts, y => trendSegments false (b :: r) ts (trendSegment first a b t y)
  | _, _, _, y => y

/-- Lines 672-676. -/
def noiseAnomalies (n : Nat) (noise : ℝ) : List (Int × ℝ) → List ℝ → Except Err (List ℝ)
  | [], e => .ok e
  | (p, z) :: r, e =>
    if p < 0 ∨ (n : Int) ≤ p then .error .valueError else noiseAnomalies n noise r (e.set p.toNat (z * noise))

/-- `trend_shift_sim`, lines 562-682; the argument `random_seed` is not used, `g` is the state of the generator. -/
def Sim.trendShift (W : SimWorld R) (g : R) (s : Sim) (_seed : Int) (cps : List Nat) (trends : List ℝ) (intercept : ℝ) (a : ShiftArgs) :
    Except Err (List (Int × ℝ)) := do
  let sorted := cps.insertionSort (· ≤ ·)
  if (trends.length : Int) - sorted.length ≠ 1 then .error .valueError
  else if sorted ≠ [] ∧ s.n ≤ sorted.getLastD 0 then .error .valueError
  else do
    let y ← addSeason a.magnitude a.period (trendSegments true (0 :: (sorted ++ [s.n])) trends (List.replicate s.n intercept))
    let e ← if a.noise < 0 then .error .valueError
      else .ok ((List.range s.n).map fun k : Nat => a.noise * W.normal g k)
    if a.anomalies.length ≠ a.zscores.length then .error .valueError
    else do
      let e ← noiseAnomalies s.n a.noise (a.anomalies.zip a.zscores) e
      simSeries s.times (List.zipWith (· + ·) y e)

/-! ### Injection -/

/-- `_check_arr_inputs`, lines 684-725. -/
def checkArr (len : Nat) (loc : List Nat) (param : List ℝ) (diff : Int) : Except Err Unit :=
  if loc = [] then .error .valueError
  else if param = [] then .error .valueError
  else if loc.insertionSort (· ≤ ·) ≠ loc then .error .valueError
  else if len ≤ loc.getLastD 0 then .error .valueError
  else if (loc.length : Int) - param.length ≠ diff then .error .valueError
  else .ok ()

/-- `values[lo:hi] += f`, with `f` a function of the place in the slice. -/
def addSlice (lo hi : Nat) (f : Nat → ℝ) (y : List ℝ) : List ℝ :=
  y.mapIdx fun k v => if lo ≤ k ∧ k < hi then v + f (k - lo) else v

/-- Lines 753-756. -/
def levelLoop : List Nat → List ℝ → List ℝ → List ℝ
  | a :: b :: r, l :: ls, y => levelLoop (b :: r) ls (addSlice a b (fun _ => l) y)
  | _, _, y => y

/-- `inject_level_shift`, lines 727-758. -/
def injectLevel (y : List ℝ) (cps : Option (List Nat)) (levels : Option (List ℝ)) : Except Err (List ℝ) :=
  match cps, levels with
  | some cps, some levels => do
    checkArr y.length cps levels 1
    pure (levelLoop cps levels y)
  | _, _ => .ok y

/-- Lines 785-792: `add_arr[-1]` of an empty array raises. -/
def trendLoop : List Nat → List ℝ → List ℝ → Except Err (List ℝ)
  | a :: b :: r, t :: ts, y =>
    let y := addSlice a b (fun j => t * j) y
    if b - a = 0 then .error .indexError
    else trendLoop (b :: r) ts (addSlice b y.length (fun _ => t * ((b - a - 1 : Nat) : ℝ)) y)
  | _, _, y => .ok y

/-- `inject_trend_shift`, lines 760-794. -/
def injectTrend (y : List ℝ) (cps : Option (List Nat)) (trends : Option (List ℝ)) : Except Err (List ℝ) :=
  match cps, trends with
  | some cps, some trends => do
    checkArr y.length cps trends 1
    trendLoop cps trends y
  | _, _ => .ok y

/-- `np.std` -/
def simStd (x : List ℝ) : ℝ :=
  let m := x.sum / x.length
  Real.sqrt ((x.map fun v => (v - m) ^ 2).sum / x.length)

/-- `inject_spikes`, lines 796-834.  (For fewer than three values the standard deviation of nothing is NaN, here 0.) -/
def injectSpikes (y : List ℝ) (locs : Option (List Nat)) (zs : Option (List ℝ)) (epsilon : ℝ) : Except Err (List ℝ) :=
  match locs, zs with
  | some locs, some zs => do
    checkArr y.length locs zs 0
    let sd := simStd (List.zipWith (· - ·) (y.drop 2) (movingAverage y 3))
    pure ((locs.zip zs).foldl (fun y p => y.set p.1 (y.getD p.1 0 + p.2 * (sd + epsilon))) y)
  | _, _ => .ok y

end

end Kats
