import Verif.Model.Py
import Mathlib.Data.List.Sort
import Mathlib.Algebra.Order.Ring.Rat
import Mathlib.Algebra.Order.Group.Abs

/-!
# `kats/metrics/metrics.py`

Arrays are one-dimensional lists of exact rationals with NaN as `none`.  Not modelled: float
rounding, overflow, infinite inputs, the sign of zero, two-dimensional arrays (except in
`mult_exceed`), warnings.
-/

namespace Kats

/-- A float without infinities: NaN is `none`. -/
abbrev Val := Option Rat

/-- Elementwise arithmetic: NaN propagates. -/
def vsub (a b : Val) : Val := match a, b with
  | some x, some y => some (x - y)
  | _, _ => none
def vadd (a b : Val) : Val := match a, b with
  | some x, some y => some (x + y)
  | _, _ => none
def vmul (a b : Val) : Val := match a, b with
  | some x, some y => some (x * y)
  | _, _ => none
def vabs (a : Val) : Val := a.map fun x => |x|

/-- A comparison of floats: false if a NaN is involved. -/
def vlt (a b : Val) : Bool := match a, b with
  | some x, some y => decide (x < y)
  | _, _ => false
def vle (a b : Val) : Bool := match a, b with
  | some x, some y => decide (x ≤ y)
  | _, _ => false

/-- `np.nansum`. -/
def nansum (l : List Val) : Rat := (l.filterMap id).sum

/-- Median of numbers; 0 on the empty list (never used there). -/
def medianQ (l : List Rat) : Rat :=
  let s := l.insertionSort (· ≤ ·)
  let n := s.length
  if n % 2 = 1 then s.getD (n / 2) 0 else (s.getD (n / 2 - 1) 0 + s.getD (n / 2) 0) / 2

/-- `np.nanmedian`. -/
def nanmedian (l : List Val) : Val :=
  let v := l.filterMap id
  if v.isEmpty then none else some (medianQ v)

/-- Mean of a boolean array (`np.nanmean` of booleans); NaN when empty. -/
def boolMean (l : List Bool) : Val :=
  if l.isEmpty then none else some ((l.count true : Rat) / l.length)

/-- `metrics.py` 110-134, `_arrays`: the length check over the arrays that are given. -/
def arraysOk (ls : List (Option (List Val))) : Except Err Unit :=
  match ls.filterMap id with
  | [] => .ok ()
  | a :: rest => if rest.all (fun b => b.length == a.length) then .ok () else .error .valueError

/-- `metrics.py` 137-174, `_safe_divide` at one position.  The test in 159 (`~np.isscalar`) is
always true, so NaN survives only where numerator and denominator are both NaN; every other NaN
result, and 0/0, becomes 0. -/
def safeDiv (num den : Val) : Val :=
  match num, den with
  | none, none => none
  | none, some _ => some 0
  | some _, none => some 0
  | some a, some b =>
    if b = 0 then (if a < 0 then some (-1) else if a > 0 then some 1 else some 0)
    else some (a / b)

/-- `metrics.py` 185-194, `_err`. -/
def err_ (t p : List Val) (w : Option (List Val)) : List Val :=
  match w with
  | none => List.zipWith vsub t p
  | some w => (List.zipWith vmul (List.zipWith vsub t p) w).map (safeDiv · (some (nansum w)))

/-- `metrics.py` 213-223, `_abs_err`. -/
def absErr_ (t p : List Val) (w : Option (List Val)) : List Val :=
  let err := (List.zipWith vsub t p).map vabs
  match w with
  | none => err
  | some w => (List.zipWith vmul err w).map (safeDiv · (some (nansum w)))

/-- `metrics.py` 242-252, `_pct_err`. -/
def pctErr_ (t p : List Val) (w : Option (List Val)) : List Val :=
  let err := List.zipWith vsub t p
  match w with
  | none => List.zipWith safeDiv err t
  | some w => List.zipWith safeDiv (List.zipWith vmul err w) (t.map (vmul · (some (nansum w))))

/-- `metrics.py` 271-281, `_abs_pct_err`: divides by `y_true`, not by its absolute value. -/
def absPctErr_ (t p : List Val) (w : Option (List Val)) : List Val :=
  let err := (List.zipWith vsub t p).map vabs
  match w with
  | none => List.zipWith safeDiv err t
  | some w => List.zipWith safeDiv (List.zipWith vmul err w) (t.map (vmul · (some (nansum w))))

/-- `metrics.py` 197-210, `error`. -/
def metError (t p : List Val) (w : Option (List Val)) : Except Err (List Val) := do
  arraysOk [some t, some p, w]
  return err_ t p w

/-- `metrics.py` 226-239, `absolute_error`. -/
def metAbsError (t p : List Val) (w : Option (List Val)) : Except Err (List Val) := do
  arraysOk [some t, some p, w]
  return absErr_ t p w

/-- `metrics.py` 255-268, `percentage_error`. -/
def metPctError (t p : List Val) (w : Option (List Val)) : Except Err (List Val) := do
  arraysOk [some t, some p, w]
  return pctErr_ t p w

/-- `metrics.py` 284-297, `absolute_percentage_error`. -/
def metAbsPctError (t p : List Val) (w : Option (List Val)) : Except Err (List Val) := do
  arraysOk [some t, some p, w]
  return absPctErr_ t p w

/-- statsmodels `ECDF(ys)(x)`: `searchsorted(sorted ys, x, side="right") / n`; NaN is sorted last,
so the value at NaN is 1. -/
def ecdf (ys : List Val) (x : Val) : Rat :=
  match x with
  | none => 1
  | some _ => ((ys.countP (fun y => vle y x) : Nat) : Rat) / ys.length

/-- Lines 319-325 and 366-372: the pairs whose prediction is not NaN. -/
def withPred (t p : List Val) : List (Val × Val) := (List.zip t p).filter (·.2.isSome)

/-- `metrics.py` 305-327, CRPS. -/
def crps (t p : List Val) : Except Err Val := do
  arraysOk [some t, some p]
  let q := withPred t p
  if q.isEmpty then return none
  return nanmean (q.map fun x =>
    some ((ecdf (q.map (·.1)) x.2 - ecdf (q.map (·.1)) x.1) ^ 2))

/-- `metrics.py` 352-374, LEPS. -/
def leps (t p : List Val) : Except Err Val := do
  arraysOk [some t, some p]
  let q := withPred t p
  if q.isEmpty then return none
  return nanmean (q.map fun x => some |ecdf (q.map (·.1)) x.2 - ecdf (q.map (·.1)) x.1|)

/-- `metrics.py` 335-349. -/
def freqExceeds (t p : List Val) (thr : Rat) : Except Err Val := do
  arraysOk [some t, some p]
  return boolMean (List.zipWith (fun a b => vle (b.map (thr * ·)) a) t p)

/-- `metrics.py` 377-390, MdAE. -/
def mdae (t p : List Val) : Except Err Val := do
  arraysOk [some t, some p]
  if t.isEmpty then return none
  return nanmedian (absErr_ t p none)

/-- `metrics.py` 393-408, MdAPE. -/
def mdape (t p : List Val) : Except Err Val := do
  arraysOk [some t, some p]
  if t.isEmpty then return none
  return nanmedian (absPctErr_ t p none)

/-- `metrics.py` 411-445, MAE for one-dimensional arrays: masked (weighted) average of the absolute
errors.  The weights (finite) are not checked by `_arrays`, numpy raises `TypeError` when their
shape differs (`np.ma.average`).  An average with total weight zero is given as NaN here. -/
def mae (t p : List Val) (w : Option (List Rat) := none) : Except Err Val := do
  let err ← metAbsError t p none
  if err.isEmpty then return none
  match w with
  | none => return nanmean err
  | some w =>
    if w.length ≠ err.length then throw .typeError
    let q := (List.zip err w).filterMap fun (e, w) => e.map fun e => (e, w)
    let tot := (q.map (·.2)).sum
    return if tot = 0 then none else some ((q.map fun (e, w) => e * w).sum / tot)

/-- `metrics.py` 448-463, MAPE. -/
def mape (t p : List Val) : Except Err Val := do
  arraysOk [some t, some p]
  if t.isEmpty then return none
  return nanmean (absPctErr_ t p none)

/-- `np.diff`. -/
def vdiff : List Val → List Val
  | a :: b :: l => vsub b a :: vdiff (b :: l)
  | _ => []

/-- `metrics.py` 466-485, MASE.  `np.isclose(d, 0)` is `|d| ≤ 1e-8`; for NaN it is false and the
quotient is NaN. -/
def mase (t p : List Val) : Except Err Val := do
  arraysOk [some t, some p]
  if t.isEmpty then return none
  match nanmean ((vdiff t).map vabs) with
  | none => return none
  | some d =>
    if |d| ≤ 1 / 10 ^ 8 then return none
    let e ← mae t p
    return e.map (· / d)

/-- `metrics.py` 488-498. -/
def meanError (t p : List Val) : Except Err Val := do
  return nanmean (← metError t p none)

/-- `metrics.py` 507-517. -/
def mpe (t p : List Val) : Except Err Val := do
  return nanmean (← metPctError t p none)

/-- `metrics.py` 520-545, MSE; weights are finite.  Division by a zero mean weight is given as NaN
(numpy: NaN or an infinity). -/
def mse (t p : List Val) (w : Option (List Rat) := none) : Except Err Val := do
  if t.isEmpty then return none
  let sq := (List.zipWith vsub t p).map (fun d => vmul d d)
  match w with
  | none =>
    arraysOk [some t, some p]
    return nanmean sq
  | some w =>
    arraysOk [some t, some p, some (w.map some)]
    let avg := w.sum / w.length
    return if avg = 0 then none
      else (nanmean (List.zipWith vmul sq (w.map some))).map (· / avg)

/-- The square of `metrics.py` 590-611, RMSPE (unweighted). -/
def rmspeSq (t p : List Val) : Except Err Val := do
  if t.isEmpty then return none
  arraysOk [some t, some p]
  return nanmean ((pctErr_ t p none).map fun d => vmul d d)

/-- `metrics.py` 614-630, scaled SMAPE. -/
def scaledSmape (t p : List Val) : Except Err Val := do
  let num ← metAbsError t p none
  return nanmean (List.zipWith safeDiv num (List.zipWith vadd (t.map vabs) (p.map vabs)))

/-- `metrics.py` 649-661, SMAPE. -/
def smape (t p : List Val) : Except Err Val := do
  return (← scaledSmape t p).map (2 * ·)

/-- `metrics.py` 633-646, symmetric bias. -/
def sbias (t p : List Val) : Except Err Val := do
  let num ← metError t p none
  return (nanmean (List.zipWith safeDiv num (List.zipWith vadd (t.map vabs) (p.map vabs)))).map
    (-2 * ·)

/-- `np.sum`: NaN if any entry is. -/
def vsum (l : List Val) : Val := l.foldr vadd (some 0)

/-- `metrics.py` 664-679, tracking signal. -/
def trackingSignal (t p : List Val) : Except Err Val := do
  arraysOk [some t, some p]
  match ← mae t p with
  | none => return none
  | some e =>
    return if e = 0 then none else (vsum (List.zipWith vsub t p)).map (· / e)

/-- The sign of `metrics.py` 726 and 781. -/
def exceedMask (thr : Rat) : Rat := if thr > 1 / 2 then 1 else -1

/-- The comparison of `metrics.py` 728 and 782. -/
def exceedAt (thr : Rat) (t p : Val) : Bool := vlt (some 0) (vmul (vsub t p) (some (exceedMask thr)))

/-- `metrics.py` 762-783, `exceed`. -/
def exceed (t p : List Val) (thr : Rat) : Except Err Val := do
  arraysOk [some t, some p]
  return boolMean (List.zipWith (exceedAt thr) t p)

/-- Block `k` (of `h` columns) of a row. -/
def blockOf (h k : Nat) (row : List Val) : List Val := (row.drop (k * h)).take h

/-- Mean over rows; NaN if any is NaN or there are none. -/
def vmean (l : List Val) : Val :=
  if l.isEmpty then none else (vsum l).map (· / l.length)

/-- `metrics.py` 682-729, `mult_exceed`, for two-dimensional arrays given as rows; `h` is
`y_true.shape[1]` and `hp` is `y_pred.shape[1]` (every row of an array has that length).
`np.tile(y_true, m)` puts one copy of `y_true` over each block of `y_pred`. -/
def multExceed (h hp : Nat) (t p : List (List Val)) (thr : List Rat) :
    Except Err (List Val) :=
  if p.length ≠ t.length then .error .valueError
  else if hp ≠ thr.length * h then .error .valueError
  else .ok ((List.range thr.length).map fun k =>
    vmean (List.zipWith (fun tr pr =>
      boolMean (List.zipWith (exceedAt (thr.getD k 0)) tr (blockOf h k pr))) t p))

/-- `np.nanmax` of two numbers (both or none NaN here). -/
def vmax (a b : Val) : Val := match a, b with
  | some x, some y => some (max x y)
  | some x, none => some x
  | none, b => b

/-- `metrics.py` 732-759, pinball loss. -/
def pinball (t p : List Val) (thr : Rat) : Except Err Val := do
  arraysOk [some t, some p]
  if thr < 0 then throw .valueError
  if thr > 1 then throw .valueError
  return nanmean ((List.zipWith vsub t p).map fun d =>
    vmax (vmul d (some thr)) (vmul d (some (thr - 1))))

/-- The pointwise test of `metrics.py` 799 and 821. -/
def coveredAt (x : Val × Val × Val) : Bool :=
  vle (vsub x.2.1 x.1) (some 0) && vle (vsub x.1 x.2.2) (some 0)

/-- `metrics.py` 786-800, `coverage`. -/
def coverage (t lo up : List Val) : Except Err Val := do
  arraysOk [some t, some lo, some up]
  return boolMean ((List.zip t (List.zip lo up)).map coveredAt)

/-- Entry `i` of `np.convolve(x, np.ones(w), mode="same")`: entry `i + (min(N, w) - 1) / 2` of the
full convolution, i.e. the sum of the `x[j]` with `k - w < j ≤ k` for that index `k`. -/
def convSameAt (x : List Rat) (w i : Nat) : Rat :=
  let k := i + (min x.length w - 1) / 2
  ((x.take (k + 1)).drop (k + 1 - w)).sum

/-- `np.convolve(x, np.ones(w), mode="same") / w`; empty input or `w = 0` is a `ValueError`; the
result has `max(N, w)` entries. -/
def rollingConv (x : List Rat) (w : Nat) : Except Err (List Rat) :=
  if x.isEmpty ∨ w = 0 then .error .valueError
  else .ok ((List.range (max x.length w)).map fun i => convSameAt x w i / w)

/-- `metrics.py` 803-825, `mult_coverage`. -/
def multCoverage (t lo up : List Val) (window : Option Nat) : Except Err (List Rat) := do
  arraysOk [some t, some lo, some up]
  let d := (List.zip t (List.zip lo up)).map fun x => if coveredAt x then (1 : Rat) else 0
  match window with
  | none => return d
  | some w => rollingConv d w

/-- The score of `metrics.py` 844-851 at one point (all finite); `alpha = 0` would divide by zero and
is outside of this model. -/
def intScoreAt (alpha t lo up : Rat) : Rat :=
  (up - lo) + (if t - lo < 0 then 1 else 0) * ((lo - t) * 2 / alpha)
    + (if t - up > 0 then 1 else 0) * ((t - up) * 2 / alpha)

/-- The same with NaN. -/
def vIntScoreAt (alpha : Rat) (x : Val × Val × Val) : Val :=
  match x with
  | (some t, some lo, some up) => some (intScoreAt alpha t lo up)
  | _ => none

/-- `metrics.py` 828-853, `interval_score`. -/
def intervalScore (t lo up : List Val) (alpha : Rat) : Except Err Val := do
  arraysOk [some t, some lo, some up]
  return nanmean ((List.zip t (List.zip lo up)).map (vIntScoreAt alpha))

/-- `metrics.py` 856-891, `mult_interval_score` without rolling window. -/
def multIntervalScore (t lo up : List Val) (alpha : Rat) : Except Err (List Val) := do
  arraysOk [some t, some lo, some up]
  return (List.zip t (List.zip lo up)).map (vIntScoreAt alpha)

/-! ### Registry -/

/-- What calling a registered metric with just `(y_true, y_pred)` yields. -/
inductive CallKind | array | scalar | needsThreshold
deriving DecidableEq, Repr

/-- `metrics.py` 924-973, `ALL_METRICS`, each with the kind of its implementation. -/
def allMetrics : List (String × CallKind) :=
  [("error", .array), ("absolute_error", .array), ("percentage_error", .array),
   ("absolute_percentage_error", .array),
   ("mult_exceed", .needsThreshold), ("pinball_loss", .needsThreshold), ("exceed", .needsThreshold),
   ("continuous_rank_probability_score", .scalar),
   ("frequency_exceeds_relative_threshold", .needsThreshold),
   ("linear_error_in_probability_space", .scalar),
   ("median_absolute_error", .scalar), ("median_absolute_percentage_error", .scalar),
   ("mean_absolute_error", .scalar), ("mean_absolute_percentage_error", .scalar),
   ("mean_absolute_scaled_error", .scalar), ("mean_error", .scalar),
   ("mean_percentage_error", .scalar), ("mean_squared_error", .scalar),
   ("root_mean_squared_error", .scalar), ("root_mean_squared_log_error", .scalar),
   ("root_mean_squared_percentage_error", .scalar), ("symmetric_bias", .scalar),
   ("symmetric_mean_absolute_percentage_error", .scalar), ("tracking_signal", .scalar),
   ("ae", .array), ("ape", .array), ("bias", .scalar), ("crps", .scalar), ("leps", .scalar),
   ("mae", .scalar), ("mape", .scalar), ("mase", .scalar), ("mdae", .scalar), ("mdape", .scalar),
   ("me", .scalar), ("mean_absolute_deviation", .scalar), ("median_absolute_deviation", .scalar),
   ("mpe", .scalar), ("mse", .scalar), ("residual", .array), ("rmse", .scalar), ("rmsle", .scalar),
   ("rmspe", .scalar), ("sbias", .scalar), ("smape", .scalar)]

/-- `metrics.py` 998-1006: the names left out of `CORE_METRICS`. -/
def nonCore : List String :=
  ["error", "absolute_error", "percentage_error", "absolute_percentage_error",
   "frequency_exceeds_relative_threshold", "ae", "ape"]

/-- `metrics.py` 994-1007, `CORE_METRICS`. -/
def coreMetrics : List (String × CallKind) := allMetrics.filter fun x => !nonCore.contains x.1

/-- `metrics.py` 976-988, `metric`. -/
def metricByName (name : String) : Except Err CallKind :=
  match allMetrics.lookup name with
  | some k => .ok k
  | none => .error .valueError

/-- `metrics.py` 1010-1022, `core_metric`. -/
def coreMetricByName (name : String) : Except Err CallKind :=
  match coreMetrics.lookup name with
  | some k => .ok k
  | none => .error .valueError

/-- Bounds of `kats/metrics/metadata.py` 57-61; `none` is infinite. -/
structure Bounds where
  lower : Option Rat
  upper : Option Rat
deriving DecidableEq

def boundsNonneg : Bounds := ⟨some 0, none⟩
def boundsRate : Bounds := ⟨some 0, some 1⟩
def boundsAny : Bounds := ⟨none, none⟩
def boundsMax1 : Bounds := ⟨none, some 1⟩

/-- `kats/metrics/metadata.py` 81-127, `_metadata`: the bounds only. -/
def metricMetadata : List (String × Bounds) :=
  [("continuous_rank_probability_score", boundsRate), ("cross_entropy", boundsNonneg),
   ("frequency_exceed_relative_threshold", boundsRate),
   ("linear_error_in_probability_space", boundsRate), ("max_error", boundsAny),
   ("mean_absolute_error", boundsNonneg), ("mean_absolute_percentage_error", boundsNonneg),
   ("mean_absolute_scaled_error", boundsNonneg), ("mean_error", boundsAny),
   ("mean_interval_score", boundsNonneg), ("mean_percentage_error", boundsAny),
   ("mean_squared_error", boundsNonneg), ("mean_squared_log_error", boundsNonneg),
   ("median_absolute_error", boundsAny), ("median_absolute_percentage_error", boundsNonneg),
   ("r2_score", boundsMax1), ("root_mean_squared_error", boundsNonneg),
   ("root_mean_squared_log_error", boundsNonneg),
   ("root_mean_squared_percentage_error", boundsNonneg), ("symmetric_bias", boundsAny),
   ("symmetric_mean_absolute_percentage_error", boundsRate), ("tracking_signal", boundsAny),
   ("bias", boundsAny), ("crps", boundsRate), ("leps", boundsRate), ("mae", boundsNonneg),
   ("mape", boundsNonneg), ("mase", boundsNonneg), ("mdae", boundsAny), ("mdape", boundsNonneg),
   ("me", boundsAny), ("median_absolute_deviation", boundsAny),
   ("mean_absolute_deviation", boundsNonneg), ("mis", boundsNonneg), ("mpe", boundsAny),
   ("mse", boundsNonneg), ("r2", boundsMax1), ("rmse", boundsNonneg), ("rmsle", boundsNonneg),
   ("rmspe", boundsNonneg), ("sbias", boundsAny), ("smape", boundsRate)]

/-- `kats/metrics/metadata.py` 130-146, `inspect`. -/
def inspectMetric (name : String) : Except Err Bounds :=
  match metricMetadata.lookup name with
  | some b => .ok b
  | none => .error .valueError

end Kats
