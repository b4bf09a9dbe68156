import Verif.Model.TimeSeries
import Mathlib.Analysis.Real.Sqrt
import Mathlib.Data.Rat.Cast.Order

/-!
# `kats/detectors/prophet_detector.py`

The detector around Prophet: what is fitted and how the forecast is turned into scores.  Prophet itself is a parameter: `F` gives the
forecast and its bounds for a time, `pass1` the bounds of the model that removes outliers.  Times are nanoseconds since the epoch, floats
are reals, and `none` is a missing or infinite number.  Serialization, silencing of the output and time zones are left out.
-/

namespace Kats

/-- `SeasonalityTypes`, lines 189-193. -/
inductive PdSeason where
  | day
  | week
  | year
  | weekend
deriving DecidableEq

/-- A value of the dict of seasonalities: a bool, `"auto"`, or something else with its truth value. -/
inductive PdVal where
  | bool (b : Bool)
  | auto
  | other (truthy : Bool)
deriving DecidableEq

/-- A key of that dict. -/
inductive PdKey where
  | season (s : PdSeason)
  | other (name : String)
deriving DecidableEq

/-- An element of a list of seasonalities. -/
inductive PdItem where
  | name (s : String)
  | season (s : PdSeason)
  | other

/-- `SeasonalityTypes[name]` -/
def pdSeasonOf (u : String) : Option PdSeason :=
  if u = "DAY" then some .day else if u = "WEEK" then some .week else if u = "YEAR" then some .year
  else if u = "WEEKEND" then some .weekend else none

/-- `to_seasonality`, lines 199-212. -/
def toSeasonality : PdItem → Except Err PdSeason
  | .name s =>
    match pdSeasonOf s.toUpper with
    | some k => .ok k
    | none => .error .valueError
  | .season s => .ok s
  | .other => .error .valueError

/-- The argument `seasonalities`.  A single string, which would be kept as it is and fail in `fit`, is left out. -/
inductive PdSeasons where
  | none
  | one (s : PdSeason)
  | list (l : List PdItem)
  | dict (d : List (PdKey × PdVal))

/-- `seasonalities_to_dict`, lines 215-231; the first entry of a key counts. -/
def seasonsToDict : PdSeasons → Except Err (List (PdKey × PdVal))
  | .none => .ok []
  | .one s => .ok [(.season s, .bool true)]
  | .list l => (l.mapM toSeasonality).map fun ss => ss.map fun s => (.season s, .bool true)
  | .dict d => .ok d

/-- `d.get(s)` -/
def pdGet (d : List (PdKey × PdVal)) (s : PdSeason) : Option PdVal := d.lookup (.season s)

/-- `d[s] = v` -/
def pdPut (d : List (PdKey × PdVal)) (s : PdSeason) (v : PdVal) : List (PdKey × PdVal) := (.season s, v) :: d

/-- The truth value of `d.get(s)`. -/
def pdTruthy : Option PdVal → Bool
  | some (.bool b) => b
  | some .auto => true
  | some (.other t) => t
  | none => false

/-- One day in nanoseconds. -/
def pdDay : Int := 86400000000000

/-- `min_dt`, lines 245-246: `nonzero` is taken of the times, not of the differences. -/
def pdMinGap (times : List Int) : Option Int :=
  (((times.zip (times.drop 1)).filter fun p => decide (p.2 ≠ 0)).map fun p => p.2 - p.1).min?

/-- The condition of line 247. -/
def pdShort (times : List Int) : Bool :=
  (match times.min?, times.max? with
    | some a, some b => decide (b - a < 14 * pdDay)
    | _, _ => false) ||
  (match pdMinGap times with
    | some g => decide (7 * pdDay ≤ g)
    | none => false)

/-- The default of a seasonality, lines 250-259. -/
def pdDefault (d : List (PdKey × PdVal)) : PdSeason → PdVal
  | .week => if pdTruthy (pdGet d .weekend) then .bool false else .auto
  | .day => .auto
  | .year => .auto
  | .weekend => .bool false

/-- One pass of the loop, lines 249-265. -/
def pdStep (d : List (PdKey × PdVal)) (s : PdSeason) : Except Err (List (PdKey × PdVal)) :=
  let d' := if (pdGet d s).isSome then d else pdPut d s (pdDefault d s)
  match pdGet d' s with
  | some (.other _) => .error .otherError
  | _ => .ok d'

/-- `seasonalities_processing`, lines 234-266. -/
def seasonsProcess (times : List Int) (raw : List (PdKey × PdVal)) : Except Err (List (PdKey × PdVal)) :=
  let d := if pdGet raw .weekend = some .auto ∧ pdShort times = true then pdPut raw .weekend (.bool false) else raw
  [PdSeason.day, .week, .year, .weekend].foldlM pdStep d

/-- `dt.weekday`: Monday is 0, and the epoch was a Thursday. -/
def pdWeekday (t : Int) : Int := (t / pdDay + 3) % 7

/-- The two masks of `prophet_weekend_masks`, lines 269-291: weekend and workday. -/
def pdMasks (t : Int) : Bool × Bool := (decide (4 < pdWeekday t), decide (pdWeekday t ≤ 4))

/-- `ProphetScoreFunction` -/
inductive PdScore where
  | deviation
  | zScore
deriving DecidableEq

/-- `GrowthType` -/
inductive PdGrowth where
  | linear
  | flat
  | logistic
deriving DecidableEq

/-- The string for the score, lines 422-427. -/
def pdScoreOf (s : String) : PdScore :=
  if s = "deviation_from_predicted_val" then .deviation else if s = "z_score" then .zScore else .deviation

/-- The string for the growth, lines 408-414. -/
def pdGrowthOf (s : String) : Except Err PdGrowth :=
  if s = "linear" then .ok .linear else if s = "flat" then .ok .flat else if s = "logistic" then .ok .logistic else .error .otherError

/-- The argument `saturation_range`; `none` in a list is something that is not a number. -/
inductive PdSat where
  | none
  | list (l : List (Option ℚ))
  | other

/-- `_validate_saturation_range`, lines 757-776, after the empty list was turned into `None`, lines 404-406. -/
def pdSaturation : PdSat → Except Err (Option (ℚ × ℚ))
  | .none => .ok none
  | .other => .error .valueError
  | .list [] => .ok none
  | .list [some a, some b] => if b ≤ a then .error .valueError else .ok (some (a, b))
  | .list _ => .error .valueError

/-- What `__init__` computes, lines 404-460. -/
structure PdCore where
  saturation : Option (ℚ × ℚ)
  growth : PdGrowth
  score : PdScore
  samples : Nat

/-- `__init__`, lines 355-460. -/
def pdInit (sat : PdSat) (growth score : String) (samples : Nat) : Except Err PdCore := do
  let s ← pdSaturation sat
  let g ← pdGrowthOf growth
  let f := pdScoreOf score
  pure ⟨s, if s.isSome then .logistic else g, f, if f = .zScore then samples else 0⟩

/-! ### Training -/

/-- `holidays_list`: a list (whether its first entry is a string), a dict with the dates, or something else. -/
inductive PdHol where
  | none
  | list (strings : Bool) (dates : List Int)
  | table (dates : List Int)
  | other

/-- Lines 550-568: the new `holidays_list` and the holidays of the model. -/
def pdFitHolidays : PdHol → Except Err (PdHol × Option (List Int))
  | .none => .ok (.none, none)
  | .list b [] => .ok (.list b [], none)
  | .list true l => .ok (.table l, some l)
  | .list false _ => .error .valueError
  | .table l => .ok (.table l, some l)
  | .other => .error .valueError

/-- A bound of an excluded range: seconds or a timestamp. -/
inductive PdTime where
  | secs (s : Int)
  | stamp (ns : Int)

/-- Lines 709-716. -/
def PdTime.ns : PdTime → Int
  | .secs s => s * 1000000000
  | .stamp n => n

variable {V : Type}

/-- One pass of the loop of `_exclude_ranges`, lines 697-719. -/
def pdExcludeOne (srt : TimeSort V) (ts : TSD V) : List (Option PdTime) → Except Err (TSD V)
  | [some a, some b] => .ok (ts.exclude srt a.ns b.ns)
  | _ => .error .valueError

/-- `_exclude_ranges`, lines 689-720. -/
def pdExclude (srt : TimeSort V) (ts : TSD V) (ranges : List (List (Option PdTime))) : Except Err (TSD V) :=
  ranges.foldlM (pdExcludeOne srt) ts

/-- `is_outlier`, lines 749-751: comparisons with a missing value are false. -/
noncomputable def pdIsOutlier (y : Option ℝ) (b : ℝ × ℝ) : Bool :=
  match y with
  | some v => decide (v < b.1) || decide (b.2 < v)
  | none => false

/-- `_remove_outliers`, lines 722-755: the bounds of the first model are those for the times in order. -/
noncomputable def pdRemoveOutliers (pass1 : List (Row (Option ℝ)) → Int → ℝ × ℝ) (rows : List (Row (Option ℝ))) : List (Row (Option ℝ)) :=
  let bands := ((rows.map Prod.fst).insertionSort (· ≤ ·)).map (pass1 rows)
  ((rows.zip bands).filter fun p => !pdIsOutlier p.1.2 p.2).map Prod.fst

/-- The settings of the detector. -/
structure PdCfg where
  core : PdCore
  seasons : List (PdKey × PdVal)
  exclude : Option (List (List (Option PdTime)))
  removeOutliers : Bool
  holidays : PdHol
  country : Option (List Int)
  multiplier : Option ℝ
  legacy : Bool
  width : ℝ

/-- What is handed to Prophet: the rows, the bounds, the seasonalities, whether the masks are there, and the holidays. -/
structure PdFit where
  rows : List (Row (Option ℝ))
  bounds : Option (ℚ × ℚ)
  seasons : List (PdKey × PdVal)
  masks : Bool
  holidays : Option (List Int)
  holidaysList : PdHol

/-- `fit` from the series on, lines 526-587. -/
noncomputable def pdTrain (srt : TimeSort (Option ℝ)) (pass1 : List (Row (Option ℝ)) → Int → ℝ × ℝ) (c : PdCfg) (total : TSD (Option ℝ)) :
    Except Err PdFit := do
  let ts ← match c.exclude with
    | some r => do
      let ts ← pdExclude srt total r
      if ts.rows.length = 0 then throw .otherError
      pure ts
    | none => pure total
  let rows := if c.removeOutliers then pdRemoveOutliers pass1 ts.rows else ts.rows
  let seasons ← seasonsProcess (rows.map Prod.fst) c.seasons
  let (hol, days) ← pdFitHolidays c.holidays
  pure ⟨rows, c.core.saturation, seasons, pdTruthy (pdGet seasons .weekend), days, hol⟩

/-- `fit`, lines 501-587: the series `historical_data` afterwards, and the outcome. -/
noncomputable def pdFit (srt : TimeSort (Option ℝ)) (inferFreq : List Int → Bool) (pass1 : List (Row (Option ℝ)) → Int → ℝ × ℝ) (c : PdCfg)
    (data : TSD (Option ℝ)) (hist : Option (TSD (Option ℝ))) : Option (TSD (Option ℝ)) × Except Err PdFit :=
  match hist with
  | none => (none, pdTrain srt pass1 c data)
  | some h =>
    match h.extend inferFreq data true with
    | (h', some e) => (some h', .error e)
    | (h', none) => (some h', pdTrain srt pass1 c h')

/-! ### Scores -/

/-- The forecast and its bounds at one time. -/
structure PdBand where
  yhat : ℝ
  lower : ℝ
  upper : ℝ

/-- `deviation_from_predicted_val`, lines 121-129. -/
noncomputable def pdDeviation (y : Option ℝ) (b : PdBand) : Option ℝ :=
  y.bind fun v => if b.yhat = 0 then none else some ((v - b.yhat) / |b.yhat|)

/-- `scaled_std`, lines 139-154; `ppf` is `norm.ppf`, the constants are those of lines 92-94. -/
noncomputable def pdScaledStd (ppf : ℝ → ℝ) (legacy : Bool) (ci : ℝ) (b : PdBand) : ℝ :=
  let ciScale := ppf (8 / 10 / 2 + 5 / 10) / (8 / 10)
  let scale := Real.sqrt 50 * ciScale / 2
  let w := b.upper - b.lower
  max (if legacy then scale / ciScale * w / ci else scale * w / ppf (ci / 2 + 5 / 10)) (1 / 1000000000)

/-- `z_score`, lines 132-158. -/
noncomputable def pdZScore (ppf : ℝ → ℝ) (legacy : Bool) (ci : ℝ) (y : Option ℝ) (b : PdBand) : Option ℝ :=
  y.map fun v => (v - b.yhat) / pdScaledStd ppf legacy ci b

/-- The dates of `get_holiday_dates`, lines 294-314, as numbers of days: `.ds` of a frame without such a column is an
`AttributeError`; the rows of a list have no date when the holidays of the country have the column. -/
def pdHolidayDays (custom : PdHol) (country : Option (List Int)) : Except Err (List Int) :=
  match custom, country with
  | .table l, some c => .ok ((l ++ c).map fun t => t / pdDay)
  | .table l, none => .ok (l.map fun t => t / pdDay)
  | .list _ (_ :: _), some _ => .error .valueError
  | .other, some _ => .error .valueError
  | _, some c => .ok (c.map fun t => t / pdDay)
  | _, none => .error .attributeError

/-- `round(multiplier, 10) != 1.0`, lines 657-660. -/
noncomputable def pdMultiplies (m : Option ℝ) : Bool :=
  match m with
  | some x => decide (5 / 100000000000 < |x - 1|)
  | none => false

/-- Lines 669-676: the scores of the times on holidays are multiplied. -/
noncomputable def pdMultiply (days : List Int) (m : ℝ) (r : Row (Option ℝ)) : Row (Option ℝ) :=
  if r.1 / pdDay ∈ days then (r.1, r.2.map fun x => x * m) else r

/-- `AnomalyResponse` as `predict` returns it; the magnitudes and significances are zeros. -/
structure PdResponse where
  scores : List (Row (Option ℝ))
  predicted : List (Row ℝ)
  upper : List (Row ℝ)
  lower : List (Row ℝ)
  zeros : List (Row ℝ)

/-- The score of a value, lines 645-652. -/
noncomputable def pdScoreAt (ppf : ℝ → ℝ) (c : PdCfg) (y : Option ℝ) (b : PdBand) : Option ℝ :=
  match c.core.score with
  | .deviation => pdDeviation y b
  | .zScore => pdZScore ppf c.legacy c.width y b

/-- The scores after the holidays, lines 656-678; `hol` is `holidays_list` as `fit` left it.  The series is sorted again. -/
noncomputable def pdHolidayScores (srt : (V : Type) → TimeSort V) (c : PdCfg) (hol : PdHol) (times : List Int) (scores : List (Row (Option ℝ))) :
    Except Err (List (Row (Option ℝ))) :=
  match c.multiplier with
  | some m =>
    if pdMultiplies (some m) then do
      let days ← pdHolidayDays hol c.country
      pure (buildRows (srt _) true false ((times.zip (scores.map Prod.snd)).map (pdMultiply days m)))
    else .ok scores
  | none => .ok scores

/-- `predict`, lines 589-687: `fitted` says whether there is a model; a z-score without samples has no bounds to use. -/
noncomputable def pdPredict (srt : (V : Type) → TimeSort V) (ppf : ℝ → ℝ) (F : Int → PdBand) (c : PdCfg) (fitted : Bool) (hol : PdHol)
    (data : TSD (Option ℝ)) : Except Err PdResponse := do
  if !fitted then throw .otherError
  let times := data.rows.map Prod.fst
  let df := (times.insertionSort (· ≤ ·)).map F
  let series {W : Type} (l : List W) : List (Row W) := buildRows (srt W) true false (times.zip l)
  let predicted := series (df.map PdBand.yhat)
  if c.core.score = .zScore ∧ c.core.samples = 0 then throw .keyError
  let scores := series (List.zipWith (pdScoreAt ppf c) (data.rows.map Prod.snd) df)
  let scores ← pdHolidayScores srt c hol times scores
  pure { scores := scores, predicted := predicted,
         upper := if c.core.samples = 0 then predicted else series (df.map PdBand.upper),
         lower := if c.core.samples = 0 then predicted else series (df.map PdBand.lower),
         zeros := series (times.map fun _ => 0) }

/-- `fit_predict`, lines 472-499; `F` is the forecast of the model that was fitted. -/
noncomputable def pdFitPredict (srt : (V : Type) → TimeSort V) (inferFreq : List Int → Bool) (pass1 : List (Row (Option ℝ)) → Int → ℝ × ℝ) (ppf : ℝ → ℝ)
    (F : PdFit → Int → PdBand) (c : PdCfg) (data : TSD (Option ℝ)) (hist : Option (TSD (Option ℝ))) : Except Err PdResponse :=
  match hist with
  | none => .error .otherError
  | some h =>
    match (pdFit (srt _) inferFreq pass1 c h none).2 with
    | .error e => .error e
    | .ok fit => pdPredict srt ppf (F fit) c true fit.holidaysList data

/-! ### Trends -/

/-- What Prophet fits, as `fit_predict` of the trend detector uses it: the positions of the change points in the history, and the draws
of the changes, one list for each iteration. -/
structure PdTrendFit where
  positions : List Nat
  deltas : List (List ℝ)

/-- The history of Prophet: the rows with a value. -/
def pdHistory (rows : List (Row (Option ℝ))) : List (Row (Option ℝ)) := rows.filter fun r => r.2.isSome

/-- `np.abs(np.nanmean(delta, axis=0))` for change point `i`; no draw is missing. -/
noncomputable def pdMeanDelta (deltas : List (List ℝ)) (i : Nat) : ℝ := |(deltas.map fun d => d.getD i 0).sum / deltas.length|

/-- `ProphetTrendDetectorModel.fit_predict`, lines 819-848: the scores. -/
noncomputable def pdTrendScores (rows : List (Row (Option ℝ))) (f : PdTrendFit) : List (Row ℝ) :=
  let vals := ((List.range f.positions.length).map fun i : Nat => (f.positions.getD i 0, pdMeanDelta f.deltas i)).foldl
    (fun (r : List ℝ) p => r.set p.1 p.2) (List.replicate rows.length 0)
  (rows.map Prod.fst).zip vals

end Kats
