import Verif.Model.Float
import Verif.Model.Py

/-!
# `kats/models/ml_ar.py`

The autoregressive gradient-boosting model: parameters, normalization, embedding of the series into
rows of lags and horizons, training rows, prediction and its iteration over further steps.

Simplifications.  Every series lives on the common grid of the data frequency: times are grid
positions (`Int`) and adding `offset * h` is adding `h` (`_check_single_ts` reindexes every series
onto such a grid).  Values are `Fl`; the pandas row statistics, the calendar/Fourier features of a
time stamp and the LightGBM regressor are parameters (`MlWorld`), and the regressor predicts row by
row.  Categorical columns (`MlArCat.lean`), `transform_data="log"` (`MlArLog.lean`), the logging of
sMAPE and column names are left out.  The frame columns of a series are a function from column names to values.  Forecast frames are
lists of (time, variable, value); the iteration in `predict` is modelled for one target variable.
-/

namespace Kats

noncomputable section
open Classical

/-- `np.setdiff1d(np.arange(1, len(nums) + 2), nums)`, sorted, and its first element; `none` is the
NaN of an empty difference (`kats/models/ml_ar.py` lines 37-44). -/
def mlFirstMissing (nums : List Int) : Option Int :=
  ((List.range (nums.length + 1)).map fun k : Nat => (k : Int) + 1).find? fun k => k ∉ nums

/-- The normalization modes of `normalize` and `denormalize` (`ml_ar.py` lines 62-69, 90-97). -/
inductive MlOp where
  | sub
  | div
  | subDiv
deriving DecidableEq

/-- `normalize` on one cell (`ml_ar.py` lines 47-71). -/
def mlNormalize (op : MlOp) (useMin : Bool) (d n n2 x : Fl) : Fl :=
  let x := if useMin then x + d else x
  let n := if useMin then n + d else n
  let n2 := if useMin then n2 + d else n2
  match op with
  | .sub => x - n
  | .div => x / n
  | .subDiv => (x - n) / n2

/-- `denormalize` on one cell (`ml_ar.py` lines 74-99). -/
def mlDenormalize (op : MlOp) (useMin : Bool) (d n n2 x : Fl) : Fl :=
  let x := if useMin then x - d else x
  let n := if useMin then n - d else n
  let n2 := if useMin then n2 - d else n2
  match op with
  | .sub => x + n
  | .div => x * n
  | .subDiv => x * n2 + n

/-- `embed`: the rows of `lags + horizon` consecutive values, aligned so that the last lag of row `j`
is value `max_lags - 1 + j`, NaN beyond the end; `np.full` refuses a negative number of rows
(`ml_ar.py` lines 123-133). -/
def mlEmbed (series : List Fl) (lags horizon maxLags : Nat) : Except Err (List (List Fl)) :=
  if series.length + 1 < maxLags then .error .valueError
  else .ok ((List.range (series.length + 1 - maxLags)).map fun j : Nat =>
    let w := (series.drop (j + (maxLags - lags))).take (lags + horizon)
    w ++ List.replicate (lags + horizon - w.length) .nan)

/-- The `horizon` argument: an int, a list (`none` for an entry that is not an int) or anything
else. -/
inductive MlHorizon where
  | int (n : Int)
  | list (l : List (Option Int))
  | other

/-- `MLARParams` after `__init__` (`ml_ar.py` lines 187-331), without the LightGBM settings. -/
structure MlParams where
  targets : List String
  horizon : List Nat
  maxHorizon : Nat
  inputWindow : Nat
  maxLags : Nat
  hist : List (String × Nat)
  fut : List (String × Nat)
  normWindow : Nat
  normStat : String
  subDiv : String
  useMin : Bool
  dmin : Fl
  histNorm : Bool
  futNorm : Bool
  useStats : Bool

/-- The horizon list and its maximum (`ml_ar.py` lines 247-259; the maximum of an empty list is a
ValueError too). -/
def mlHorizon : MlHorizon → Except Err (List Nat × Nat)
  | .int n => if 0 < n then .ok ((List.range n.toNat).map (· + 1), n.toNat) else .error .valueError
  | .list l =>
      if l = [] ∨ ∃ t ∈ l, t = none ∨ ∃ v, t = some v ∧ v ≤ 0 then .error .valueError
      else
        let h := l.map fun t => (t.getD 0).toNat
        .ok (h, h.foldl max 0)
  | .other => .error .valueError

/-- `MLARParams.__init__` and `_validate_params` (`ml_ar.py` lines 242-366): `boosting` is the
boosting type, `calendar` the calendar features when they are a string. -/
def mlInit (targets : List String) (horizon : MlHorizon) (inputWindow : Nat) (boosting : String)
    (calendar : Option String) (hist fut : List (String × Int)) (normWindow : Option Nat)
    (normStat subDiv : String) (useMin : Bool) (dmin : Fl) (histNorm futNorm useStats : Bool) :
    Except Err MlParams := do
  let (hs, mh) ← mlHorizon horizon
  if boosting ∉ ["gbdt", "dart", "goss", "rf"] then throw .valueError
  if ∃ kv ∈ hist, kv.2 < 0 then throw .valueError
  if ∃ kv ∈ fut, kv.2 < 0 ∨ (mh : Int) < kv.2 then throw .valueError
  if ∃ c, calendar = some c ∧ c ≠ "auto" then throw .valueError
  return { targets, horizon := hs, maxHorizon := mh, inputWindow,
           maxLags := (hist.map fun kv => kv.2.toNat).foldl max inputWindow,
           hist := hist.map fun kv => (kv.1, kv.2.toNat),
           fut := fut.map fun kv => (kv.1, kv.2.toNat),
           normWindow := normWindow.getD inputWindow, normStat, subDiv, useMin, dmin,
           histNorm, futNorm, useStats }

/-- `_infer_freq` (`ml_ar.py` lines 416-429): the given frequency, or the inferred one with some
names merged; `inferred` is the result of `pd.infer_freq`. -/
def mlInferFreq (inferred given : Option String) : Except Err String :=
  match given with
  | some f => .ok f
  | none =>
    match inferred with
    | none => .error .valueError
    | some f =>
      if f ∈ ["BM", "CBM", "MS", "BMS", "CBMS"] then .ok "M"
      else if f ∈ ["BQ", "QS", "BQS"] then .ok "Q"
      else if f ∈ ["A", "BA", "BY", "AS", "YS", "BAS", "BYS"] then .ok "Y"
      else .ok f

/-- `_generate_auto_calendar_feature` (`ml_ar.py` lines 714-745). -/
def mlAutoCal (freq : String) : List String :=
  if freq = "Q" then ["year"]
  else if freq = "M" then ["year", "quarter"]
  else if freq = "W" then ["year", "quarter", "month", "weekofyear"]
  else if freq = "D" then ["year", "quarter", "month", "day", "weekday"]
  else if freq = "H" then ["year", "quarter", "month", "weekday", "hour"]
  else if freq = "min" then ["year", "quarter", "month", "weekday", "hour", "minuteofday"]
  else if freq = "S" then ["year", "quarter", "month", "weekday", "hour", "minuteofday"]
  else []

/-- `_generate_auto_fourier_features`: periods, orders and offset (`ml_ar.py` lines 747-773). -/
def mlAutoFourier (freq : String) : List Nat × List Nat × Nat :=
  if freq = "W" then ([365], [7], 60 * 60 * 24)
  else if freq = "D" then ([7, 365], [3, 7], 60 * 60 * 24)
  else if freq = "H" then ([24, 24 * 7, 24 * 365], [3, 5, 7], 60 * 60)
  else if freq = "min" then ([60], [7], 60)
  else if freq = "S" then ([60], [7], 1)
  else ([], [], 1)

/-- The library calls of the model. -/
structure MlWorld (Mdl : Type) where
  /-- `DataFrame.min(axis=1)` of one row, and the other row statistics -/
  min : List Fl → Fl
  max : List Fl → Fl
  mean : List Fl → Fl
  median : List Fl → Fl
  std : List Fl → Fl
  /-- the calendar and Fourier features of a time stamp -/
  cal : Int → List Fl
  /-- their number -/
  calLen : Nat
  /-- `LGBMRegressor.fit` -/
  fit : List (List Fl) → List Fl → Except Err Mdl
  /-- `LGBMRegressor.predict` of one row -/
  predict : Mdl → List Fl → Fl

/-- A series on its grid: the position of the first row, the number of rows, the columns. -/
structure MlSeries where
  start : Int
  len : Nat
  val : String → Nat → Fl

/-- A whole column. -/
def MlSeries.col (s : MlSeries) (c : String) : List Fl := (List.range s.len).map (s.val c)

/-- The value at a grid position; NaN outside the series (`DataFrame.join` with `how="left"`). -/
def MlSeries.at (s : MlSeries) (c : String) (t : Int) : Fl :=
  if s.start ≤ t ∧ t < s.start + s.len then s.val c (t - s.start).toNat else .nan

/-- The row number of `data[target_vars].last_valid_index()`: the last row with a value in some
target column. -/
def mlLastValid (targets : List String) (s : MlSeries) : Option Nat :=
  (List.range s.len).reverse.find? fun i => decide (∃ c ∈ targets, s.val c i ≠ .nan)

/-- The number of rows of `series_data.loc[: last_valid_index]`; without a valid row the bound is
`None` and all rows stay (`ml_ar.py` line 623). -/
def mlCut (targets : List String) (s : MlSeries) : Nat :=
  match mlLastValid targets s with
  | some i => i + 1
  | none => s.len

/-- The mode used by `_normalize_data` (`ml_ar.py` lines 523-542): a statistic that is not one of the
four known ones counts as the z-score and overwrites `params.sub_div`; dividing by a missing second
normalizer is a TypeError. -/
def mlOp (p : MlParams) : Except Err MlOp :=
  let known := p.normStat ∈ ["mean", "median", "max", "std"]
  let sd := if known then p.subDiv else "sub_div"
  if sd = "sub" then .ok .sub
  else if sd = "div" then .ok .div
  else if sd = "sub_div" then (if known then .error .typeError else .ok .subDiv)
  else .error .valueError

/-- The normalizers of a row from the last `w` entries of its features (`ml_ar.py` lines 523-534):
`iloc[:, -w:]`, and NaN in place of an absent second normalizer. -/
def mlNormalizers {Mdl : Type} (W : MlWorld Mdl) (p : MlParams) (feat : List Fl) (w : Nat) :
    Fl × Fl :=
  let win := pyFrom feat (-(w : Int))
  if p.normStat = "mean" then (W.mean win, .nan)
  else if p.normStat = "median" then (W.median win, .nan)
  else if p.normStat = "max" then (W.max win, .nan)
  else if p.normStat = "std" then (W.std win, .nan)
  else (W.mean win, W.std win)

/-- `_normalize_data` on one row whose normalizers come from `feat` (`ml_ar.py` lines 510-550). -/
def mlNormRow {Mdl : Type} (W : MlWorld Mdl) (p : MlParams) (op : MlOp) (row feat : List Fl)
    (w : Nat) : List Fl :=
  let nn := mlNormalizers W p feat w
  row.map (mlNormalize op p.useMin p.dmin nn.1 nn.2)

/-- One row of past features: the inputs, the normalized values of the horizons 1, 2, ..., the
normalizers and the origin. -/
structure MlPast where
  x : List Fl
  hors : List Fl
  n : Fl
  n2 : Fl
  origin : Int

/-- `_embed_regressor`: the embedded history covariates, each normalized by itself if asked
(`ml_ar.py` lines 552-591). -/
def mlHist {Mdl : Type} (W : MlWorld Mdl) (p : MlParams) (op : MlOp) (m : Nat) (s : MlSeries) :
    Except Err (List (List (List Fl))) :=
  p.hist.mapM fun kc => do
    let e ← mlEmbed ((s.col kc.1).take m) kc.2 0 p.maxLags
    return e.map fun r => if p.histNorm then mlNormRow W p op r r kc.2 else r

/-- The five summary statistics of the normalized lags (`ml_ar.py` lines 669-676). -/
def mlStats {Mdl : Type} (W : MlWorld Mdl) (p : MlParams) (r : List Fl) : List Fl :=
  if p.useStats then [W.min r, W.max r, W.mean r, W.median r, W.std r] else []

/-- The one-hot encoding of the target variable (`ml_ar.py` lines 687-689). -/
def mlOneHot (p : MlParams) (i : Nat) : List Fl :=
  (List.range p.targets.length).map fun k => if k = i then .fin 1 else .fin 0

/-- `_embed_and_gen_past_features_single_series` for the target variable number `i`
(`ml_ar.py` lines 615-712). -/
def mlPast {Mdl : Type} (W : MlWorld Mdl) (p : MlParams) (op : MlOp) (s : MlSeries) (i : Nat)
    (target : String) : Except Err (List MlPast) := do
  let m := mlCut p.targets s
  let hist ← mlHist W p op m s
  let emb ← mlEmbed ((s.col target).take m) p.inputWindow p.maxHorizon p.maxLags
  return (List.range emb.length).map fun j : Nat =>
    let row := emb.getD j []
    let lags := row.take p.inputWindow
    let norm := mlNormRow W p op row lags p.normWindow
    let inp := norm.take p.inputWindow
    let nn := mlNormalizers W p lags p.normWindow
    { x := inp ++ mlStats W p inp ++ (hist.flatMap fun t => t.getD j []) ++ mlOneHot p i,
      hors := norm.drop p.inputWindow, n := nn.1, n2 := nn.2,
      origin := s.start + ((p.maxLags - 1 + j : Nat) : Int) }

/-- `_embed_future_cov` for one covariate: the rows of its past and future windows
(`ml_ar.py` lines 835-857).  A window of 0 has one row more than there are rows, and an index of one
row: ValueError. -/
def mlFutTable {Mdl : Type} (W : MlWorld Mdl) (p : MlParams) (op : MlOp) (s : MlSeries)
    (kc : String × Nat) : Except Err (List (List Fl)) := do
  let e ← mlEmbed (s.col kc.1) kc.2 kc.2 kc.2
  if kc.2 = 0 ∧ s.len ≠ 0 then throw .valueError
  return e.map fun r => if p.futNorm then mlNormRow W p op r r kc.2 else r

/-- The left merge of one covariate's table at a target time: row `r` is indexed by the time of row
`c - 1 + r` of the series (`ml_ar.py` lines 848, 898-900). -/
def mlFutAt (start : Int) (c : Nat) (t : List (List Fl)) (target : Int) : List Fl :=
  let r := target - start - (c - 1 : Nat)
  if 0 ≤ r ∧ r < t.length then t.getD r.toNat [] else List.replicate (2 * c) .nan

/-- One row of the full matrix with its meta data. -/
structure MlRow where
  x : List Fl
  y : Fl
  origin : Int
  target : Int
  n : Fl
  n2 : Fl
  var : String
  h : Nat

/-- The calendar features merged at a target time: NaN unless the time is one of the collected time
stamps (`ml_ar.py` lines 894-896). -/
def mlCalAt {Mdl : Type} (W : MlWorld Mdl) (stamps : List Int) (t : Int) : List Fl :=
  if t ∈ stamps then W.cal t else List.replicate W.calLen .nan

/-- `_embed_and_gen_features` for one series: the past features of every target variable, the future
covariates, and `_merge_past_and_future_reg` (`ml_ar.py` lines 862-946, 996-1031). -/
def mlSeriesRows {Mdl : Type} (W : MlWorld Mdl) (p : MlParams) (stamps : List Int) (s : MlSeries) :
    Except Err (List MlRow) := do
  let op ← mlOp p
  let past ← (List.range p.targets.length).mapM fun i => mlPast W p op s i (p.targets.getD i "")
  let fut ← p.fut.mapM (mlFutTable W p op s)
  return (List.range p.targets.length).flatMap fun i => p.horizon.flatMap fun h : Nat =>
    (past.getD i []).map fun r =>
      let t := r.origin + (h : Int)
      { x := r.x ++ mlCalAt W stamps t ++
          ((p.fut.zip fut).flatMap fun kt => mlFutAt s.start kt.1.2 kt.2 t) ++ [.fin (h : ℝ)],
        y := r.hors.getD (h - 1) .nan, origin := r.origin, target := t, n := r.n, n2 := r.n2,
        var := p.targets.getD i "", h }

/-- The time stamps collected by `_valid_and_fillna`: every row of every series and the horizons
after its last row (`ml_ar.py` lines 497-507). -/
def mlStamps (p : MlParams) (ss : List MlSeries) : List Int :=
  ss.flatMap fun s =>
    ((List.range s.len).map fun i : Nat => s.start + (i : Int)) ++
      p.horizon.map fun h : Nat => s.start + (s.len : Int) - 1 + (h : Int)

/-- `_embed_and_gen_features` over all series; an empty data set is refused (`ml_ar.py` lines 474-477,
970-1040). -/
def mlAllRows {Mdl : Type} (W : MlWorld Mdl) (p : MlParams) (ss : List MlSeries) :
    Except Err (List (List MlRow)) :=
  if ss = [] then .error .valueError else ss.mapM (mlSeriesRows W p (mlStamps p ss))

/-- The rows kept for training: those whose output is not NaN (`ml_ar.py` lines 1072-1077). -/
def mlTrainRows (rows : List MlRow) : List MlRow := rows.filter fun r => decide (r.y ≠ .nan)

/-- `train` (`ml_ar.py` lines 1288-1314 with `_train`, lines 1058-1145). -/
def mlTrain {Mdl : Type} (W : MlWorld Mdl) (p : MlParams) (ss : List MlSeries) : Except Err Mdl := do
  let rows ← mlAllRows W p ss
  let tr := mlTrainRows rows.flatten
  W.fit (tr.map (·.x)) (tr.map (·.y))

/-- The window of grid positions `origin - (max_lags - 1) .. maxTs` filled by `f`
(`ml_ar.py` lines 1196-1207). -/
def mlWindow (p : MlParams) (origin maxTs : Int) (f : String → Int → Fl) : MlSeries :=
  let start := origin - ((p.maxLags : Int) - 1)
  { start, len := (maxTs - start + 1).toNat, val := fun c i => f c (start + (i : Int)) }

/-- The prediction window without new data (`ml_ar.py` lines 1160-1162): the origin is the last valid
row; without one, `max(None, ...)` is a TypeError. -/
def mlOwnWindow (p : MlParams) (s : MlSeries) : Except Err MlSeries :=
  match mlLastValid p.targets s with
  | none => .error .typeError
  | some i =>
    let o := s.start + (i : Int)
    .ok (mlWindow p o (Max.max o (s.start + (s.len : Int) - 1)) s.at)

/-- The prediction window with new data `d` (`ml_ar.py` lines 1182-1192, 1217-1228): the origin is
the last valid row of the new data, or the position before it; old target values after the origin
are dropped and the values of the new data that are not NaN written over the old ones. -/
def mlNewWindow (p : MlParams) (s d : MlSeries) : MlSeries :=
  let o := match mlLastValid p.targets d with
    | some i => d.start + (i : Int)
    | none => d.start - 1
  mlWindow p o (Max.max o (d.start + (d.len : Int) - 1)) fun c t =>
    if d.at c t ≠ .nan then d.at c t
    else if o < t ∧ c ∈ p.targets then .nan
    else s.at c t

/-- A forecast table of one series: time, variable, value. -/
abbrev MlFc := List (Int × String × Fl)

/-- `_post_process` on the rows of one series: those with the latest origin (`ml_ar.py` lines
1042-1056), with the denormalized forecasts of lines 1254-1270. -/
def mlForecast {Mdl : Type} (W : MlWorld Mdl) (p : MlParams) (op : MlOp) (m : Mdl)
    (rows : List MlRow) : MlFc :=
  (rows.filter fun r => decide (∀ r' ∈ rows, r'.origin ≤ r.origin)).map fun r =>
    (r.target, r.var, mlDenormalize op p.useMin p.dmin r.n r.n2 (W.predict m r.x))

/-- `_predict` and `_post_process` on prepared windows. -/
def mlPredictOnce {Mdl : Type} (W : MlWorld Mdl) (p : MlParams) (m : Mdl) (ws : List MlSeries) :
    Except Err (List MlFc) := do
  let rows ← mlAllRows W p ws
  let op ← mlOp p
  return rows.map (mlForecast W p op m)

/-- The origin of an iteration (`ml_ar.py` lines 1168-1180): the last forecast time, or the time
before the first gap between the first and the last. -/
def mlIterOrigin (times : List Int) : Int :=
  match times.max?, times.min? with
  | some mx, some mn =>
    match ((List.range (mx - mn).toNat).map fun k : Nat => mn + (k : Int)).find?
        fun t => decide (t ∉ times) with
    | some t => t - 1
    | none => mx
  | _, _ => 0

/-- The forecast for a time in a table (`pivot`; NaN if there is none). -/
def mlFcAt (fc : MlFc) (t : Int) : Fl :=
  match fc.find? fun r => decide (r.1 = t) with
  | some r => r.2.2
  | none => .nan

/-- The prediction window of an iteration (`ml_ar.py` lines 1164-1181, 1209-1216): missing target
values up to the origin are filled with forecasts. -/
def mlIterWindow (p : MlParams) (target : String) (s : MlSeries) (fc : MlFc) : MlSeries :=
  let o := mlIterOrigin (fc.map (·.1))
  mlWindow p o (Max.max o (s.start + (s.len : Int) - 1)) fun c t =>
    if c = target ∧ t ≤ o ∧ s.at c t = .nan then mlFcAt fc t else s.at c t

/-- `combine_first` on tables of one variable (`ml_ar.py` lines 1356-1366): the old forecasts, their
NaN filled from the new ones, and the new times; the sorting is not modelled. -/
def mlCombine (old new : MlFc) : MlFc :=
  (old.map fun r => if r.2.2 = .nan then (r.1, r.2.1, mlFcAt new r.1) else r) ++
    new.filter fun r => decide (r.1 ∉ old.map (·.1))

/-- One iteration of the loop of `predict` (`ml_ar.py` lines 1351-1366). -/
def mlIterate {Mdl : Type} (W : MlWorld Mdl) (p : MlParams) (m : Mdl) (target : String)
    (ss : List MlSeries) (fr : List MlFc) : Except Err (List MlFc) := do
  let new ← mlPredictOnce W p m ((ss.zip fr).map fun sf => mlIterWindow p target sf.1 sf.2)
  return (fr.zip new).map fun on => mlCombine on.1 on.2

/-- The loop of `predict` (`ml_ar.py` lines 1346-1372): `fuel` bounds the passes through the loop
head, `none` means that they were used up.  `hs` are the horizons counted as done, `c` the number of
contiguous steps. -/
def mlLoop {α : Type} (step : α → Except Err α) (H : List Nat) (steps : List Int) (c : Int) :
    Nat → Nat → List Int → α → Except Err (Option α)
  | 0, _, _, _ => .ok none
  | fuel + 1, i, hs, a =>
    if ∀ t ∈ steps, t ∈ hs then .ok (some a)
    else do
      let a ← step a
      mlLoop step H steps c fuel (i + 1) (hs ++ H.map fun h : Nat => (h : Int) + (i : Int) * c) a

/-- The `steps` argument of `predict`. -/
inductive MlSteps where
  | int (n : Int)
  | list (l : List Int)

/-- The requested steps (`ml_ar.py` lines 1339-1340). -/
def MlSteps.toList : MlSteps → List Int
  | .int n => (List.range n.toNat).map fun k : Nat => (k : Int) + 1
  | .list l => l

/-- `predict(steps, new_data)` for one target variable (`ml_ar.py` lines 1316-1374). -/
def mlPredict {Mdl : Type} (W : MlWorld Mdl) (p : MlParams) (m : Mdl) (target : String)
    (ss : List MlSeries) (new : Option (List MlSeries)) (steps : Option MlSteps) (fuel : Nat) :
    Except Err (Option (List MlFc)) := do
  let ws ← match new with
    | none => ss.mapM (mlOwnWindow p)
    | some ds => Except.ok ((ss.zip ds).map fun sd => mlNewWindow p sd.1 sd.2)
  let fr ← mlPredictOnce W p m ws
  match steps with
  | none => return some fr
  | some st =>
    let base := match new with
      | none => ss
      | some _ => ws
    let H := p.horizon.map fun h : Nat => (h : Int)
    let c := (mlFirstMissing H).getD 0 - 1
    mlLoop (mlIterate W p m target base) p.horizon st.toList c fuel 1 H fr

end

end Kats
