import Verif.Model.Py
import Mathlib.Algebra.Order.Ring.Rat
import Mathlib.Data.Rat.Floor

/-!
# `kats/detectors/anomaly_postprocessing.py`: `AnomalyPostProcessHandler`

Scores are finite rationals, times are integers (nanoseconds).  The classification of anomalies
(345-493) except `_if_individual_outlier` is in `Verif.Model.PostTypes`.  Not modelled: plotting.
-/

namespace Kats

/-- `ChangeDirections` as used at 123-133: value 1, value 2, anything else. -/
inductive AlertDir where
  | increase | decrease | both
deriving DecidableEq

/-- The configuration of the handler with its defaults (67-114). -/
structure PostCfg where
  low : Rat := -2
  high : Rat := 2
  dir : AlertDir := .both
  /-- `detection_window_sec` -/
  window : Nat := 1
  fraction : Rat := 1

/-- 116-133, `_crossed_threshold_df`, for one score. -/
def PostCfg.crossed (c : PostCfg) (x : Rat) : Bool :=
  match c.dir with
  | .increase => decide (c.high < x)
  | .decrease => decide (x < c.low)
  | .both => decide (x < c.low) || decide (c.high < x)

/-- The detection window in nanoseconds. -/
def PostCfg.span (c : PostCfg) : Int := c.window * 1000000000

/-- 148: the rows of `rolling("<w>s")` ending at position `i`: those up to `i` that are less than `w`
older than row `i` (the window is open on the left). -/
def rollWindow {α : Type} (w : Int) (rows : List (Int × α)) (i : Nat) : List (Int × α) :=
  match rows[i]? with
  | none => []
  | some r => (rows.take (i + 1)).filter fun q => decide (r.1 - w < q.1)

/-- 148-151: share of crossings in the window, compared with `fraction`. -/
def PostCfg.enough (c : PostCfg) (rows : List (Int × Bool)) (i : Nat) : Bool :=
  let w := rollWindow c.span rows i
  decide (c.fraction ≤ (w.countP (·.2) : Rat) / w.length)

/-- 135-158, `_start_alert_function`; `res.time[0]` fails on an empty table. -/
def PostCfg.startAlert (c : PostCfg) (rows : List (Int × Bool)) : Except Err (List (Int × Bool)) :=
  match rows with
  | [] => .error .keyError
  | r :: _ =>
    .ok (rows.mapIdx fun i q => (q.1, c.enough rows i && !decide (q.1 < r.1 + c.span)))

/-- `kats/consts.py` 1298-1311, `IntervalAnomaly.__init__` without a confidence. -/
def mkIntervalAnomaly (s e : Int) : Except Err (Int × Int) :=
  if s ≥ e then .error .valueError else .ok (s, e)

/-- 178-223, the loop over the alert points: `cp` is the start of the open alert, if any; returns the
closed intervals and the alert still open at the end. -/
def alertScan : Option Int → List (Int × Bool) → Except Err (List (Int × Int) × Option Int)
  | cp, [] => .ok ([], cp)
  | none, (t, true) :: l => alertScan (some t) l
  | none, (_, false) :: l => alertScan none l
  | some s, (_, true) :: l => alertScan (some s) l
  | some s, (t, false) :: l => do
    let iv ← mkIntervalAnomaly s t
    let r ← alertScan none l
    pure (iv :: r.1, r.2)

/-- 182-229: intervals from the alert points, including the one without an end. -/
def alertIntervals (alerts : List (Int × Bool)) : Except Err (List (Int × Int)) := do
  let r ← alertScan none alerts
  match r.2, alerts.getLast? with
  | some s, some l => if s < l.1 then pure (r.1 ++ [(s, l.1)]) else pure r.1
  | _, _ => pure r.1

/-- 160-167 and 264-269, `get_anomaly_intervals`. -/
def PostCfg.intervals (c : PostCfg) (scores : List (Int × Rat)) : Except Err (List (Int × Int)) := do
  let alerts ← c.startAlert (scores.map fun r => (r.1, c.crossed r.2))
  alertIntervals alerts

/-- 193, 230: the scores with time in `[start, end]`. -/
def scoresIn (scores : List (Int × Rat)) (iv : Int × Int) : List Rat :=
  (scores.filter fun r => decide (iv.1 ≤ r.1) && decide (r.1 ≤ iv.2)).map (·.2)

/-- 194-218: the excess of one score over the threshold, as stored in `score_lists`. -/
def PostCfg.excess (c : PostCfg) (x : Rat) : Rat :=
  match c.dir with
  | .increase => x - c.high
  | .decrease => -x + c.low
  | .both => max (max 0 (x - c.high)) (max 0 (-x + c.low))

/-- `array.max()`; 0 stands for the error on an empty array, which does not occur here. -/
def listMax : List Rat → Rat
  | [] => 0
  | x :: l => l.foldl max x

/-- 171-176: thresholds used as denominators. -/
def PostCfg.highDen (c : PostCfg) : Rat := if c.high = 0 then c.high + 1 / 100000000 else c.high
def PostCfg.lowDen (c : PostCfg) : Rat := if c.low = 0 then c.low - 1 / 100000000 else c.low

/-- 194-221: the magnitude of an interval. -/
def PostCfg.magnitude (c : PostCfg) (xs : List Rat) : Rat :=
  match c.dir with
  | .increase => |listMax (xs.map fun x => x - c.high) / c.highDen|
  | .decrease => |listMax (xs.map fun x => -x + c.low) / c.lowDen|
  | .both =>
    max |listMax (xs.map fun x => max 0 (x - c.high)) / c.highDen|
      |listMax (xs.map fun x => max 0 (-x + c.low)) / c.lowDen|

/-- One row of the severity table (271-313), without the anomaly type. -/
structure Severity where
  interval : Int × Int
  height : Rat
  volume : Rat
  magnitude : Rat
  seconds : Rat
deriving DecidableEq, Repr

/-- 280-292: duration, volume (a Riemann sum with equal steps over all scores but the last) and
average height of an interval. -/
def PostCfg.severity (c : PostCfg) (scores : List (Int × Rat)) (iv : Int × Int) : Severity :=
  let xs := scoresIn scores iv
  let ex := xs.map c.excess
  let sec : Rat := (iv.2 - iv.1 : Int) / 1000000000
  let n := ex.length - 1
  let step : Rat := sec / n
  let volume := (ex.dropLast.map fun e => step * e).sum
  { interval := iv
    seconds := sec
    volume := volume
    height := if sec = 0 then 0 else volume / sec
    magnitude := c.magnitude xs }

/-- 271-313, `get_severity_score_df`. -/
def PostCfg.severityTable (c : PostCfg) (scores : List (Int × Rat)) : Except Err (List Severity) := do
  let ivs ← c.intervals scores
  pure (ivs.map (c.severity scores))

/-- The result of `get_overall_severity_score` (333-341). -/
structure Overall where
  number : Nat
  volume : Rat
  duration : Rat
  height : Rat
  magnitude : Rat
deriving DecidableEq, Repr

/-- 315-343, `get_overall_severity_score`; `max` of an empty column raises ValueError. -/
def PostCfg.overall (c : PostCfg) (scores : List (Int × Rat)) : Except Err Overall := do
  let t ← c.severityTable scores
  let volume := (t.map (·.volume)).sum
  let secs := (t.map (·.seconds)).sum
  if t.isEmpty then .error .valueError else
    .ok { number := t.length, volume := volume, duration := secs,
          height := if secs = 0 then 0 else volume / secs, magnitude := listMax (t.map (·.magnitude)) }

/-- 409-413, `_if_individual_outlier`: fewer than five data points before the end of the interval. -/
def isIndividual (data : List (Int × Rat)) (iv : Int × Int) : Bool :=
  decide ((scoresIn data iv).dropLast.length < 5)

end Kats
