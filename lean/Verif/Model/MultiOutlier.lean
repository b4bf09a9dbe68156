import Verif.Model.Outlier

/-!
# `kats/detectors/outlier.py`: `MultivariateAnomalyDetector`

Times and durations are integers.  The autoregressive model is a parameter; so is the survival function of
the chi-squared distribution.
-/

namespace Kats

noncomputable section

open Classical

/-- A row of the data: time and the values of all metrics. -/
abbrev MvRow := Int × List (Option ℝ)

/-- The differences of consecutive times. -/
def timeDiffs (ts : List Int) : List Int := (ts.drop 1).zipWith (· - ·) ts

/-- The attributes: metrics, rows in order of time, step, `training_days` as a duration. -/
structure Mad where
  names : List String
  rows : List MvRow
  step : Int
  lookBack : Int

/-- 184-209, `__init__`; `srt` sorts times. -/
def Mad.init (srt : List Int → List Int) (names : List String) (rows : List MvRow) (lookBack : Int) : Except Err Mad :=
  match (timeDiffs (srt (rows.map (·.1)))).dedup with
  | [g] => .ok ⟨names, rows, g, lookBack⟩
  | _ => .error .otherError

/-- 221-227, `_clean_data`, one column: values whose z-score is at least 3 are replaced by linear interpolation.  The
z-score is NaN for a constant column and for a column with a missing value. -/
def cleanCol (l : List (Option ℝ)) : List (Option ℝ) :=
  if l.any fun x => x.isNone then l.map fun _ => none
  else
    let v := l.map fun x => x.getD 0
    linInterp (v.map fun x =>
      if varOf v = 0 then none else if (x - meanOf v) / Real.sqrt (varOf v) < 3 then some x else none)

/-- 211-230, `_clean_data`. -/
def cleanData (k : Nat) (rows : List MvRow) : List MvRow :=
  let cols := (List.range k).map fun j : Nat => cleanCol (rows.map fun r => r.2.getD j none)
  (List.range rows.length).map fun i : Nat => ((rows.getD i (0, [])).1, cols.map fun c => c.getD i none)

/-- A fitted model: residuals by metric, whether the covariance matrix is positive definite, its inverse, and the forecast
of the next values. -/
structure MvFit where
  resid : List (List ℝ)
  posDef : Bool := true
  inv : List (List ℝ)
  est : List ℝ

/-- What is called. -/
structure MvWorld where
  fit : List MvRow → Except Err MvFit
  chi2sf : Nat → ℝ → ℝ

/-- `distance.mahalanobis`, of a difference. -/
def mahalanobis (inv : List (List ℝ)) (d : List ℝ) : ℝ :=
  Real.sqrt ((inv.zipWith (fun row x => x * (row.zipWith (· * ·) d).sum) d).sum)

/-- A row of `anomaly_score_df`; a score is `none` after a division by zero. -/
structure MvScore where
  time : Int
  metrics : List (String × Option ℝ)
  overall : ℝ
  p : ℝ

/-- `Series.var()`; NaN for fewer than two values. -/
def var1 (l : List ℝ) : Option ℝ :=
  if l.length ≤ 1 then none else some ((l.map fun x => (x - meanOf l) ^ 2).sum / ((l.length : ℝ) - 1))

/-- 312-318: the score of one metric, from residuals of the training and of the forecast. -/
def metricScore (resid : List ℝ) (r : ℝ) : Option ℝ :=
  (var1 resid).bind fun v => if v = 0 then none else some (|r - meanOf resid| / Real.sqrt v)

/-- 294-333, `_calc_anomaly_scores`; the residual of the forecast is the estimate minus the actual value (310). -/
def mvScores (W : MvWorld) (names : List String) (f : MvFit) (actual : List ℝ) (t : Int) : MvScore :=
  let rt := f.est.zipWith (· - ·) actual
  let dist := mahalanobis f.inv (rt.zipWith (· - ·) (f.resid.map meanOf))
  ⟨t, names.zip (f.resid.zipWith metricScore rt), dist, W.chi2sf names.length dist⟩

/-- 251-292, `_generate_forecast`: the model fitted to the time `t` and the values at the next time.  A value
missing at that time counts as 0 (in the code its scores are NaN). -/
def Mad.forecast (W : MvWorld) (m : Mad) (t : Int) : Except Err (MvFit × List ℝ) := do
  let train := m.rows.filter fun r => decide (t - m.lookBack ≤ r.1) && decide (r.1 ≤ t)
  let f ← W.fit (cleanData m.names.length train)
  if !f.posDef then .error .otherError
  else
    match m.rows.find? fun r => decide (r.1 = t + m.step) with
    | none => .error .keyError
    | some r => pure (f, r.2.map fun x => x.getD 0)

/-- 346-358: the loop; `fuel` bounds the number of steps. -/
def Mad.loop (W : MvWorld) (m : Mad) (last : Int) : Nat → Int → Except Err (List MvScore)
  | 0, _ => .ok []
  | fuel + 1, t =>
    if t < last then do
      let (f, actual) ← m.forecast W t
      let rest ← m.loop W last fuel (t + m.step)
      pure (mvScores W m.names f actual (t + m.step) :: rest)
    else .ok []

/-- The least and the largest time. -/
def mvFirst (rows : List MvRow) : Int := (rows.map (·.1)).foldl min ((rows.map (·.1)).headD 0)

def mvLast (rows : List MvRow) : Int := (rows.map (·.1)).foldl max ((rows.map (·.1)).headD 0)

/-- 335-361, `detector`; the step is positive, or all times are equal and there is nothing to do. -/
def Mad.detector (W : MvWorld) (m : Mad) : Except Err (List MvScore) :=
  m.loop W (mvLast m.rows) (mvLast m.rows - (mvFirst m.rows + m.lookBack)).toNat (mvFirst m.rows + m.lookBack)

/-- 363-383, `get_anomaly_timepoints`, of the stored scores; an empty frame has no column `p_value`. -/
def anomalyTimes (stored : Option (List MvScore)) (alpha : ℝ) : Except Err (List Int) :=
  match stored with
  | none => .error .valueError
  | some [] => .error .attributeError
  | some s => .ok ((s.filter fun x => decide (x.p < alpha)).map (·.time))

/-- 385-408, `get_anomalous_metrics`: only the overall score is left out (402).  `srt` sorts by decreasing score. -/
def anomalousMetrics (srt : List (String × Option ℝ) → List (String × Option ℝ)) (stored : Option (List MvScore)) (t : Int)
    (topK : Option Nat) : Except Err (List (String × Option ℝ)) :=
  match stored with
  | none => .error .valueError
  | some s =>
    match s.find? fun x => decide (x.time = t) with
    | none => .error .keyError
    | some x =>
      let all := srt (x.metrics ++ [("p_value", some x.p)])
      .ok (match topK with
        | none => all
        | some k => all.take k)

end

end Kats
