import Verif.Model.RollingStats
import Mathlib.Data.List.Dedup
import Mathlib.Data.List.Range

/-!
# `kats/detectors/hourly_ratio_detection.py`: `HourlyRatioDetector`

Times are seconds since the epoch, values are reals, `none` is NaN.  The series is sorted by time and its
columns are called `time` and `value`.
-/

namespace Kats

noncomputable section

open Classical

/-- The frequency argument (54): a string or a `Timedelta` in nanoseconds. -/
inductive HRFreq where
  | str (s : String)
  | delta (ns : Int)
deriving DecidableEq

/-- One hour in nanoseconds. -/
def hourNs : Int := 3600000000000

/-- 75-117, `_valid_frequency` once the frequency is known: any string passes 92-98, which only logs. -/
def hrValid (freq : HRFreq) (aggregate : Option String) : Except Err Unit :=
  if freq = .str "H" ∨ freq = .delta hourNs then .ok ()
  else
    let fine := match freq with
      | .str _ => true
      | .delta ns => decide (ns < hourNs)
    if !fine then .error .valueError
    else
      match aggregate with
      | none => .error .valueError
      | some a => if a ∈ ["min", "max", "sum", "mean"] then .ok () else .error .valueError

/-- 48-73, `__init__`: `infer` is the result of `infer_freq_robust`. -/
def hrInit (rows : List (Int × Option ℝ)) (univariate : Bool) (freq : Option HRFreq) (aggregate : Option String)
    (infer : Except Err Int) : Except Err HRFreq :=
  if rows.length = 0 then .error .valueError
  else if !univariate then .error .valueError
  else do
    let f ← match freq with
      | some f => .ok f
      | none => infer.map .delta
    hrValid f aggregate
    pure f

/-- A row of the frame in `_preprocess`: date (days since the epoch), hour and value. -/
structure HRRow where
  date : Int
  hour : Int
  value : ℝ

/-- 126-131: missing values dropped, date and hour of a time. -/
def hrRows (rows : List (Int × Option ℝ)) : List HRRow :=
  rows.filterMap fun r => r.2.map fun v => ⟨r.1 / 86400, r.1 % 86400 / 3600, v⟩

/-- `groupby(["date", "hour", "weekday"])["value"].agg(...)`: the aggregation methods. -/
def hrAgg (a : String) (vs : List ℝ) : ℝ :=
  if a = "min" then vs.foldl min (vs.headD 0)
  else if a = "max" then vs.foldl max (vs.headD 0)
  else if a = "sum" then vs.sum
  else vs.sum / vs.length

/-- 133-138: aggregation; the groups come in increasing order, which for sorted rows is the order of
occurrence. -/
def hrAggregate (a : String) (rs : List HRRow) : List HRRow :=
  ((rs.map fun r => (r.date, r.hour)).dedup).map fun k =>
    ⟨k.1, k.2, hrAgg a ((rs.filter fun r => decide ((r.date, r.hour) = k)).map (·.value))⟩

/-- 137: whether the data are aggregated. -/
def hrHourly (freq : HRFreq) (aggregate : Option String) (rs : List HRRow) : Except Err (List HRRow) :=
  if freq = .str "H" then .ok rs
  else match aggregate with
    | none => .ok rs
    | some a => if a ∈ ["min", "max", "sum", "mean"] then .ok (hrAggregate a rs) else .error .attributeError

/-- 149: the number of observations of a date. -/
def hrCount (rs : List HRRow) (d : Int) : Nat := rs.countP fun r => decide (r.date = d)

/-- 143-148, `incomplete_dates`. -/
def hrIncomplete (rs : List HRRow) : List Int :=
  ((rs.filter fun r => decide (hrCount rs r.date < 24)).map (·.date)).dedup

/-- 155: the complete dates. -/
def hrComplete (rs : List HRRow) : List HRRow := rs.filter fun r => decide (hrCount rs r.date = 24)

/-- 154-155: value over the total of the date; `none` is NaN or infinity. -/
def hrRatio (rs : List HRRow) (r : HRRow) : Option ℝ :=
  let t := ((rs.filter fun q => decide (q.date = r.date)).map (·.value)).sum
  if t = 0 then none else some (r.value / t)

/-- The result of `_preprocess` (119-157): incomplete dates, and rows with ratios. -/
def hrPreprocess (freq : HRFreq) (aggregate : Option String) (rows : List (Int × Option ℝ)) :
    Except Err (List Int × List (HRRow × Option ℝ)) := do
  let rs ← hrHourly freq aggregate (hrRows rows)
  let c := hrComplete rs
  if c.length = 0 then .error .valueError
  else pure (hrIncomplete rs, c.map fun r => (r, hrRatio c r))

/-- Monday is 0; day 0 is a Thursday. -/
def hrWeekday (d : Int) : Int := (d + 3) % 7

/-- `reshape(-1, 24)`. -/
def chunk24 (l : List ℝ) : List (List ℝ) := (List.range (l.length / 24)).map fun k => (l.drop (24 * k)).take 24

/-- 219-220: the centre, before the last entry is left out; `none` if the sum is zero. -/
def hrCentre (obs : List (List ℝ)) : List ℝ :=
  let m := (List.range 24).map fun h => medianR (obs.map fun o => o.getD h 0)
  m.map fun x => x / m.sum * 24

/-- 208-226: one weekday.  `test obs centre` are the p-values of the Mahalanobis test (159-183) with the fitted
covariance; the fit fails on an empty matrix. -/
def hrWeek (test : List (List ℝ) → List ℝ → Except Err (List ℝ)) (rs : List (HRRow × Option ℝ)) (w : Int) :
    Except Err (List (Int × ℝ)) := do
  let day := rs.filter fun r => decide (hrWeekday r.1.date = w)
  let dates := (day.map (·.1.date)).dedup
  let obs := chunk24 (day.map fun r => r.2.getD 0)
  if obs = [] then .error .valueError
  else if day.any fun r => r.2.isNone then .error .valueError
  else do
    let p ← test (obs.map List.dropLast) (hrCentre obs).dropLast
    pure ((dates.zip p).filter fun x => decide (x.2 ≤ 1 / 100))

/-- 186-232, `detector`: incomplete dates, anomalous dates with confidences. -/
def hrDetector (freq : HRFreq) (aggregate : Option String) (test : List (List ℝ) → List ℝ → Except Err (List ℝ))
    (rows : List (Int × Option ℝ)) : Except Err (List Int × List (Int × ℝ)) := do
  let (inc, rs) ← hrPreprocess freq aggregate rows
  let parts ← [0, 1, 2, 3, 4, 5, 6].mapM (hrWeek test rs)
  pure (inc, parts.flatten.map fun x => (x.1, 1 - x.2))

end

end Kats
