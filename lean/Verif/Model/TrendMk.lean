import Verif.Model.RobustStat

/-!
# `kats/detectors/trend_mk.py`: `MKDetector`

Values are reals, `none` is NaN, times are seconds.  The Mann-Kendall tests of `pymannkendall` (with its default
significance level) and exponential smoothing are parameters.  The window size is positive.
-/

namespace Kats

noncomputable section

open Classical

/-- The `trend` of a Mann-Kendall test. -/
inductive MkTrend where
  | increasing
  | decreasing
  | noTrend
deriving DecidableEq

/-- A test result: trend, p-value and Tau. -/
structure MkTest where
  trend : MkTrend
  p : ℝ
  tau : ℝ

/-- What is called: the test for one metric (`otherError` is `ZeroDivisionError`), the test for several, and the
smoothing of one column (203-220). -/
structure MkWorld where
  original : List ℝ → Except Err MkTest
  multi : List (List ℝ) → Except Err MkTest
  smooth : List ℝ → List ℝ

/-- The attributes set by the constructor (160-185). -/
structure MkCfg where
  threshold : ℝ := 8 / 10
  alpha : ℝ := 5 / 100
  multivariate : Bool := false

/-- 160-185, `__init__`: data with several metrics switch `multivariate` on; nothing switches it off. -/
def MkCfg.init (univariate : Bool) (threshold : ℝ := 8 / 10) (alpha : ℝ := 5 / 100) (multivariate : Bool := false) : MkCfg :=
  ⟨threshold, alpha, if !univariate && !multivariate then true else multivariate⟩

/-- A frame: times and columns. -/
structure MkFrame where
  times : List Int
  cols : List (String × List ℝ)

/-- 404, `dropna(axis=1)`: columns with a missing value are dropped. -/
def mkColumns (cols : List (String × List (Option ℝ))) : List (String × List ℝ) :=
  cols.filterMap fun c => if c.2.any fun x => x.isNone then none else some (c.1, c.2.map fun x => x.getD 0)

/-- 44-49. -/
def seasonDays (freq : String) : Option Nat :=
  if freq = "daily" then some 1
  else if freq = "weekly" then some 7
  else if freq = "monthly" then some 30
  else if freq = "yearly" then some 365
  else none

/-- 187-222, `_remove_seasonality` and `_smoothing`: trailing means, of which the first are missing and dropped;
without columns nothing is left, not even times.  A column of missing values only raises. -/
def mkSmoothed (W : MkWorld) (freq : Option String) (f : MkFrame) : Except Err MkFrame :=
  match freq with
  | none => .ok ⟨if f.cols = [] then [] else f.times, f.cols.map fun c => (c.1, W.smooth c.2)⟩
  | some s =>
    match seasonDays s with
    | none => .error .keyError
    | some k =>
      if f.cols ≠ [] ∧ f.times.length < k then .error .valueError
      else .ok ⟨if f.cols = [] then [] else f.times.drop (k - 1),
        f.cols.map fun c => (c.1, W.smooth ((rollMean k (c.2.map some)).filterMap id))⟩

/-- 261-264, `_apply_threshold`. -/
def applyThreshold (threshold : ℝ) (r : MkTest) : MkTrend := if |r.tau| ≤ threshold then .noTrend else r.trend

/-- A row of `MK_statistics`: time, trend, p-value and Tau overall; for several metrics also trend and Tau of each
(`none` after a division by zero). -/
structure MkStat where
  ds : Int
  trend : MkTrend
  p : ℝ
  tau : ℝ
  metrics : List (String × Option (MkTrend × ℝ)) := []

/-- 237, `ts[-window_size:]`, of a column up to position `i`. -/
def mkWindow (w i : Nat) (l : List ℝ) : List ℝ := (l.take (i + 1)).drop (i + 1 - w)

/-- 334-346: one metric. -/
def mkMetric (W : MkWorld) (threshold : ℝ) (w i : Nat) (c : String × List ℝ) : Except Err (String × Option (MkTrend × ℝ)) :=
  match W.original (mkWindow w i c.2) with
  | .ok r => .ok (c.1, some (applyThreshold threshold r, r.tau))
  | .error .otherError => .ok (c.1, none)
  | .error e => .error e

/-- 351-369, `runDetector` (with `MKtest`, 266-294, and `multivariate_MKtest`, 296-349) on the frame up to position `i`:
a single column becomes a one-dimensional array, which
cannot be indexed by two indices (335). -/
def mkRun (W : MkWorld) (c : MkCfg) (w : Nat) (f : MkFrame) (i : Nat) : Except Err MkStat :=
  if c.multivariate then do
    let r ← W.multi (f.cols.map fun col => mkWindow w i col.2)
    if f.cols.length = 1 then .error .indexError
    else do
      let ms ← f.cols.mapM (mkMetric W c.threshold w i)
      pure ⟨f.times.getD i 0, applyThreshold c.threshold r, r.p, r.tau, ms⟩
  else
    match f.cols, f.times[i]? with
    | [col], some t => do
      let r ← W.original (mkWindow w i col.2)
      pure ⟨t, applyThreshold c.threshold r, r.p, r.tau, []⟩
    | _, _ => .error .indexError

/-- `MKChangePoint` (52-107). -/
structure MkPoint where
  startTime : Int
  endTime : Int
  confidence : ℝ
  multivariate : Bool
  trend : MkTrend
  tau : ℝ

/-- 478-514, `get_MK_results`: without statistics there is no column `overall`. -/
def mkResults (multivariate : Bool) (stats : List MkStat) (direction : String) : Except Err (List MkStat) :=
  if direction ∉ ["up", "down", "both"] then .error .otherError
  else if multivariate ∧ stats = [] then .error .keyError
  else if direction = "down" then .ok (stats.filter fun s => decide (s.trend = .decreasing))
  else if direction = "up" then .ok (stats.filter fun s => decide (s.trend = .increasing))
  else .ok (stats.filter fun s => decide (s.trend ≠ .noTrend))

/-- 516-533, `_convert_detected_tps`. -/
def mkPoints (multivariate : Bool) (stats : List MkStat) : List MkPoint :=
  stats.map fun s => ⟨s.ds, s.ds, 1 - s.p, multivariate, s.trend, s.tau⟩

/-- 409-435: the checks of the lengths. -/
def mkChecks (n w : Nat) (training : Option Nat) : Except Err Unit :=
  match training with
  | none => if n < w then .error .otherError else .ok ()
  | some d => if d < w then .error .otherError else if n < d then .error .otherError else .ok ()

/-- 442-443: the last `days` days of a frame. -/
def mkRecent (days : Nat) (f : MkFrame) : MkFrame :=
  let start := f.times.getLast?.getD 0 - 86400 * (days : Int)
  ⟨f.times.filter fun t => decide (start ≤ t),
    f.cols.map fun c => (c.1, ((f.times.zip c.2).filter fun p => decide (start ≤ p.1)).map (·.2))⟩

/-- 438-469: `MK_statistics`. -/
def mkStatistics (W : MkWorld) (c : MkCfg) (w : Nat) (training : Option Nat) (freq : Option String) (f : MkFrame) :
    Except Err (List MkStat) :=
  match training with
  | some d => do
    let s ← mkSmoothed W freq (mkRecent d f)
    if s.times = [] then .error .indexError
    else do
      let r ← mkRun W c w s (s.times.length - 1)
      pure [r]
  | none => do
    let s ← mkSmoothed W freq f
    ((List.range s.times.length).drop w).mapM (mkRun W c w s)

/-- 372-476, `detector`. -/
def mkDetector (W : MkWorld) (c : MkCfg) (times : List Int) (cols : List (String × List (Option ℝ))) (w : Nat := 20)
    (training : Option Nat := none) (direction : String := "both") (freq : Option String := none) :
    Except Err (List MkPoint) := do
  mkChecks times.length w training
  let stats ← mkStatistics W c w training freq ⟨times, mkColumns cols⟩
  let res ← mkResults c.multivariate stats direction
  pure (mkPoints c.multivariate res)

/-- The order of metrics by Tau: a NaN comes last. -/
def mkBefore (direction : String) (a b : String × Option (MkTrend × ℝ)) : Prop :=
  match a.2, b.2 with
  | some x, some y => if direction = "down" then x.2 ≤ y.2 else if direction = "up" then y.2 ≤ x.2 else |y.2| ≤ |x.2|
  | some _, none => True
  | none, some _ => False
  | none, none => True

/-- 542-592, `get_top_k_metrics`, with `_metrics_analysis` (628-643); the position of equal values is that of a stable sort.
With `training_days` the time given is replaced by the last one. -/
def mkTop (multivariate : Bool) (direction : String) (training : Option Nat) (last : Int) (stats : List MkStat) (t : Int) (topK : Option Nat) :
    Except Err (List (String × Option (MkTrend × ℝ))) :=
  if !multivariate then .error .otherError
  else
    let t := if training.isSome then last else t
    let rows := (stats.filter fun s => decide (s.ds = t)).flatMap (·.metrics)
    let sorted := rows.insertionSort (mkBefore direction)
    .ok (match topK with
      | none => sorted
      | some k => sorted.take k)

end

end Kats
