import Verif.Model.Cusum
import Verif.Model.TimeSeries
import Mathlib.Data.List.Sort

/-!
# `kats/detectors/rolling_stats_model.py`

Values are reals, `none` is NaN.  Times are integers in nanoseconds.  `SeasonalityHandler` and
`pd.infer_freq` are parameters.
-/

namespace Kats

noncomputable section
open Classical

/-- A univariate series that may have missing values. -/
abbrev NSeries := List (Int × Option ℝ)

/-- 40-46, `RollStatsFunction`. -/
inductive RSStat where
  | iqr | mad | zScore | modZMad | modZIqr | iqrMedianDev
deriving DecidableEq

/-! ### Statistics of one row (58-172) -/

/-- The entries that are not NaN. -/
def nanVals (l : List (Option ℝ)) : List ℝ := l.filterMap id

/-- `np.percentile(·, q)` with linear interpolation of the order statistics. -/
def percentileR (q : Nat) (l : List ℝ) : ℝ :=
  let s := l.insertionSort (· ≤ ·)
  let i := (s.length - 1) * q / 100
  let frac : ℝ := (((s.length - 1) * q % 100 : Nat) : ℝ) / 100
  s.getD i 0 + frac * (s.getD (min (i + 1) (s.length - 1)) 0 - s.getD i 0)

/-- `np.median`. -/
def medianR (l : List ℝ) : ℝ :=
  let s := l.insertionSort (· ≤ ·)
  (s.getD ((s.length - 1) / 2) 0 + s.getD (s.length / 2) 0) / 2

/-- A `nan`-aware reduction: NaN if every entry is NaN. -/
def nanRed (f : List ℝ → ℝ) (l : List (Option ℝ)) : Option ℝ :=
  if nanVals l = [] then none else some (f (nanVals l))

/-- 58-65, `calculate_iqr`. -/
def calcIqr (row : List (Option ℝ)) : Option ℝ :=
  nanRed (fun v => percentileR 75 v - percentileR 25 v) row

/-- 87-96, `calculate_mad`: `scipy.stats.median_abs_deviation` with `nan_policy="omit"`. -/
def calcMad (row : List (Option ℝ)) : Option ℝ :=
  nanRed (fun v => medianR (v.map fun x => |x - medianR v|)) row

/-- `np.divide(x - m, d, out=zeros, where=d != 0)`, with NaN. -/
def deviation (x m d : Option ℝ) : Option ℝ :=
  match d with
  | none => none
  | some d =>
    if d = 0 then some 0
    else match x, m with
      | some x, some m => some ((x - m) / d)
      | _, _ => none

/-- The last entry of a row. -/
def lastEntry (row : List (Option ℝ)) : Option ℝ := row.getLastD none

/-- 68-84, `calculate_z_scores`. -/
def calcZ (row : List (Option ℝ)) : Option ℝ :=
  deviation (lastEntry row) (nanRed mean row.dropLast) (nanRed npStd row.dropLast)

/-- 99-115, `calculate_modified_z_scores_mad`. -/
def calcModZMad (row : List (Option ℝ)) : Option ℝ :=
  deviation (lastEntry row) (nanRed medianR row.dropLast) (calcMad row.dropLast)

/-- 118-134, `calculate_modified_z_scores_iqr`. -/
def calcModZIqr (row : List (Option ℝ)) : Option ℝ :=
  deviation (lastEntry row) (nanRed medianR row.dropLast) (calcIqr row.dropLast)

/-- 157-162: the multiplier; comparisons with NaN are false. -/
def iqrSign (base : ℝ) (x : Option ℝ) (q1 q3 : ℝ) : ℝ :=
  match x with
  | none => 0
  | some x =>
    let range := base * (q3 - q1)
    if x < q1 - range then -1 else if q3 + range ≤ x then 1 else 0

/-- 137-172, `calculate_iqr_median_deviation`. -/
def calcIqrDev (base : ℝ) (row : List (Option ℝ)) : Option ℝ :=
  let v := nanVals row.dropLast
  if v = [] then none
  else
    let m := medianR v
    let sign := iqrSign base (lastEntry row) (percentileR 25 v) (percentileR 75 v)
    let ratio : Option ℝ := if m = 0 then some 0 else (lastEntry row).map fun x => |x - m| / m
    ratio.map fun r => sign * r

/-- 176-183, `SCORE_FUNC_DICT`. -/
def RSStat.score (s : RSStat) (iqrBase : ℝ) (row : List (Option ℝ)) : Option ℝ :=
  match s with
  | .iqr => calcIqr row
  | .mad => calcMad row
  | .zScore => calcZ row
  | .modZMad => calcModZMad row
  | .modZIqr => calcModZIqr row
  | .iqrMedianDev => calcIqrDev iqrBase row

/-- 279-282, `extend_rolling_window`. -/
def RSStat.extend : RSStat → Bool
  | .iqr => false
  | .mad => false
  | _ => true

/-! ### The model object -/

/-- The attributes (230-282); the window is a non-negative integer. -/
structure RSCfg where
  window : Nat
  stat : RSStat := .zScore
  remSeason : Bool := false
  pointBased : Bool := true
  period : String := "daily"
  scoreBase : ℝ := 1
  iqrBase : ℝ := 3 / 2
  expand : Bool := false

/-- The name of a statistic, as written by `json.dumps` for an enum that is a string. -/
def RSStat.name : RSStat → String
  | .iqr => "iqr"
  | .mad => "mad"
  | .zScore => "z_score"
  | .modZMad => "modified_z_score_mad"
  | .modZIqr => "modified_z_score_iqr"
  | .iqrMedianDev => "iqr_median_deviation"

/-- The json dictionary of `serialize` (284-288): `__dict__`. -/
structure RSJson where
  window : Nat
  stat : String
  remSeason : Bool
  pointBased : Bool
  period : String
  scoreBase : ℝ
  iqrBase : ℝ
  expand : Bool
  extend : Bool

/-- 284-288, `serialize`. -/
def RSCfg.serialize (c : RSCfg) : RSJson :=
  { window := c.window, stat := c.stat.name, remSeason := c.remSeason, pointBased := c.pointBased
    period := c.period, scoreBase := c.scoreBase, iqrBase := c.iqrBase, expand := c.expand
    extend := c.stat.extend }

/-- What the attribute `statistics` can hold after `__init__`: an enum member or a plain string. -/
inductive StatAttr where
  | member (s : RSStat)
  | text (s : String)

/-- `self.statistics.value` (279): a plain string has no attribute `value`. -/
def StatAttr.value : StatAttr → Except Err RSStat
  | .member s => .ok s
  | .text _ => .error .attributeError

/-- 51-55 and 245-254: a name, in any case, or the default. -/
def statOfName (s : String) : RSStat :=
  (([.iqr, .mad, .zScore, .modZMad, .modZIqr, .iqrMedianDev] : List RSStat).find?
    fun x => x.name == s.toLower).getD .zScore

/-- 30-37 -/
def seasonPeriods : List String := ["hourly", "daily", "weekly", "biweekly", "monthly", "yearly"]

/-- 218-282, `__init__`: with a serialised model the attribute `statistics` is the string of the json
dictionary (233). -/
def RSCfg.init (window : Nat) (stat : String) (remSeason pointBased : Bool) (period : String)
    (scoreBase iqrBase : ℝ) (expand : Bool) : Option RSJson → Except Err RSCfg
  | some j => do
    let s ← (StatAttr.text j.stat).value
    pure { window := j.window, stat := s, remSeason := j.remSeason, pointBased := j.pointBased
           period := j.period, scoreBase := j.scoreBase, iqrBase := j.iqrBase, expand := j.expand }
  | none =>
    if seasonPeriods.contains period then do
      let s ← (StatAttr.member (statOfName stat)).value
      pure { window := window, stat := s, remSeason := remSeason, pointBased := pointBased
             period := period, scoreBase := scoreBase, iqrBase := iqrBase, expand := expand }
    else .error .otherError

/-! ### Scoring -/

/-- 290-313: all windows of `k` consecutive entries, as made by `as_strided`.  Simplified: a negative
number of rows is not an error here; it does not occur when there is a point to score. -/
def strided (k : Nat) (v : List (Option ℝ)) : List (List (Option ℝ)) :=
  (List.range (v.length + 1 - k)).map fun i => (v.drop i).take k

/-- What the detector calls: the sort of `TimeSeriesData`, the remainder of
`SeasonalityHandler(data, period)` (`kats/utils/decomposition.py`), and whether `pd.infer_freq` finds
a frequency. -/
structure RSWorld where
  srt : TimeSort (Option ℝ)
  season : String → NSeries → Except Err NSeries
  inferFreq : List Int → Bool

/-- `score * score_base`. -/
def RSCfg.scored (c : RSCfg) (iqrBase : ℝ) (row : List (Option ℝ)) : Option ℝ :=
  (c.stat.score iqrBase row).map fun x => x * c.scoreBase

/-- 315-371, `_fit_predict_point_based`: the scores. -/
def rsPoint (W : RSWorld) (c : RSCfg) (all : NSeries) (nHist : Nat) : Except Err NSeries :=
  let rw : Int := if c.stat.extend then c.window else (c.window : Int) - 1
  let k : Nat := if c.stat.extend then c.window + 1 else c.window
  let vals := all.map (·.2)
  let times := (all.map (·.1)).drop nHist
  let build (rows : List (List (Option ℝ))) : Except Err NSeries :=
    construct W.srt { df := none, time := some times, value := some (rows.map (c.scored c.iqrBase), true) }
  if (nHist : Int) < rw then
    if !c.expand then .error .otherError
    else build (strided k (List.replicate (rw - nHist).toNat none ++ vals))
  else build (strided k (pyFrom vals ((nHist : Int) - rw)))

/-- 773-792 of `kats/consts.py`, `is_data_missing`. -/
def rsMissing (W : RSWorld) (all : NSeries) : Bool :=
  if all.length < 3 then false else !W.inferFreq (all.map (·.1))

/-- One second in nanoseconds. -/
def rsNsPerSec : Int := 1000000000

/-- 436-462: the score of a point from the values in a closed time window; `iqr_base` is not passed
on (457), so its default of 1.5 (152) is used. -/
def rsSlowScore (c : RSCfg) (all : NSeries) (freqSec : Int) (t : Int) : Option ℝ :=
  let start :=
    if c.stat.extend then t - c.window * rsNsPerSec else t - ((c.window : Int) - freqSec) * rsNsPerSec
  let win := (all.filter fun r => decide (start ≤ r.1) && decide (r.1 ≤ t)).map (·.2)
  if 2 ≤ win.length then c.scored (3 / 2) win else some 0

/-- What a call leaves behind: scores, the caller's history object, the model. -/
structure RSOut where
  result : Except Err NSeries
  callerHist : Option NSeries
  cfg : RSCfg

/-- 420-476, the time-based part, and the model after it (429). -/
def rsTime (W : RSWorld) (c : RSCfg) (all data : NSeries) (nHist : Nat) :
    Except Err NSeries × RSCfg :=
  match TSD.inferFreqRobust ⟨all, true⟩ with
  | .error e => (.error e, c)
  | .ok f =>
    let freqSec := f / rsNsPerSec
    -- 374: division by zero, or a window of less than three points
    if freqSec = 0 ∨ (c.window : Int) < 3 * freqSec then (.error .otherError, c)
    else if (c.window : Int) % freqSec = 0 ∧ rsMissing W all = false then
      let c' := { c with window := (c.window / freqSec.toNat : Nat) }
      (rsPoint W c' all nHist, c')
    else
      (construct W.srt
        { df := some ⟨true, true, data.map fun r => (r.1, rsSlowScore c all freqSec r.1)⟩
          time := none, value := none }, c)

/-- 382-476, `fit_predict`: the scores.  Simplified: univariate input; the sign of the inferred
frequency is positive, as it is for increasing times. -/
def rsFitPredict (W : RSWorld) (c : RSCfg) (data : NSeries) (hist : Option NSeries) : RSOut :=
  -- 399-406: the caller's history is extended in place
  let all := hist.getD [] ++ data
  let caller := hist.map fun _ => all
  let nHist := (hist.getD []).length
  match (if c.remSeason then W.season c.period all else .ok all) with
  | .error e => ⟨.error e, caller, c⟩
  | .ok all' =>
    if c.pointBased then ⟨rsPoint W c all' nHist, caller, c⟩
    else
      let r := rsTime W c all' data nHist
      ⟨r.1, caller, r.2⟩

end

end Kats
