import Verif.Model.MultiOutlier

/-!
# `kats/detectors/outlier_detector.py`, `threshold_detector.py`, `multivariate_detector.py`

The detector models around the outlier detectors.  A series is a table of rows; a model that has been fitted
is represented by the data it was fitted to, or by its scores.  The history is an object of the caller, so that each
method returns its new contents.
-/

namespace Kats

noncomputable section

open Classical

/-- A table: rows with their time. -/
abbrev OTab := List (Int × List (Option ℝ))

/-- `historical_data.extend(data)`: the new contents of the history. -/
def extendHist (hist : Option OTab) (data : OTab) : Option OTab := hist.map (· ++ data)

/-- The data that are fitted: the history, once extended, or the data. -/
def totalData (hist : Option OTab) (data : OTab) : OTab := (extendHist hist data).getD data

/-- The rows at a time; there must be one. -/
def locOne (t : OTab) (x : Int) : Except Err OTab :=
  match t.filter fun r => decide (r.1 = x) with
  | [] => .error .keyError
  | l => .ok l

/-- `df.loc[times]`: the rows at each of the times; a time without a row raises. -/
def locRows (t : OTab) (times : List Int) : Except Err OTab := do
  let parts ← times.mapM (locOne t)
  pure parts.flatten

/-- `TimeSeriesData(time=…, value=…)`: as many values as times. -/
def mkSeries (times : List Int) (values : List (List (Option ℝ))) : Except Err OTab :=
  if times.length = values.length then .ok (times.zip values) else .error .valueError

/-- A response: scores, prediction, magnitudes. -/
structure OResp where
  scores : OTab
  predicted : Option OTab
  magnitude : OTab

/-! ### `OutlierDetectorModel` -/

/-- `OutlierDetector`: scores after `detector`, none if all metrics failed, and `remover`. -/
structure OMWorld where
  scores : String → ℝ → OTab → Option OTab
  remover : String → ℝ → Bool → OTab → Except Err OTab

/-- The attributes; the detector is represented by its data. -/
structure OModel where
  decomp : String := "additive"
  iqrMult : ℝ := 3
  model : Option OTab := none

/-- 41-53, `__init__`, from a dictionary or from arguments. -/
def OModel.init (decomp : String := "additive") (iqrMult : ℝ := 3) (serialized : Option (String × ℝ) := none) : OModel :=
  match serialized with
  | some (d, q) => { decomp := d, iqrMult := q }
  | none => { decomp := decomp, iqrMult := iqrMult }

/-- 55-64, `serialize`. -/
def OModel.serialize (m : OModel) : String × ℝ := (m.decomp, m.iqrMult)

/-- 66-93, `fit`: the model and the history afterwards. -/
def OModel.fit (m : OModel) (data : OTab) (hist : Option OTab) : OModel × Option OTab :=
  ({ m with model := some (totalData hist data) }, extendHist hist data)

/-- 123-148: the response of a fitted model. -/
def OModel.respond (W : OMWorld) (m : OModel) (interpolate : Bool) (data : OTab) : Except Err OResp :=
  match m.model with
  | none => .error .otherError
  | some total => do
    let cleaned ← W.remover m.decomp m.iqrMult interpolate total
    match W.scores m.decomp m.iqrMult total with
    | none => .error .otherError
    | some s =>
      let rows ← locRows s (data.map (·.1))
      let scores ← mkSeries (data.map (·.1)) (rows.map (·.2))
      let zeros ← mkSeries (data.map (·.1)) (rows.map fun r => r.2.map fun _ => some 0)
      pure ⟨scores, some (cleaned.filter fun r => decide (r.1 ∈ data.map (·.1))), zeros⟩

/-- 95-150, `predict`: fits only if there is no model yet. -/
def OModel.predict (W : OMWorld) (m : OModel) (interpolate : Bool) (data : OTab) (hist : Option OTab) :
    (OModel × Option OTab) × Except Err OResp :=
  let s := if m.model.isNone then m.fit data hist else (m, hist)
  (s, s.1.respond W interpolate data)

/-- 152-171, `fit_predict`: the same. -/
def OModel.fitPredict (W : OMWorld) (m : OModel) (interpolate : Bool) (data : OTab) (hist : Option OTab) :
    (OModel × Option OTab) × Except Err OResp :=
  m.predict W interpolate data hist

/-! ### `StaticThresholdModel` -/

/-- 32-39 and 41-49: the model is never set; `model_to_json(None)` raises. -/
def staticSerialize (model : Option String) : Except Err String :=
  match model with
  | none => .error .attributeError
  | some s => .ok s

/-- 61-87, `fit_predict`; the history is not used. -/
def staticFitPredict (data : OTab) (_hist : Option OTab) : OResp :=
  ⟨data, none, data.map fun r => (r.1, r.2.map fun _ => some 0)⟩

/-- 98-107, `predict`. -/
def staticPredict (_data : OTab) (_hist : Option OTab) : Except Err OResp := .error .valueError

/-! ### `MultivariateAnomalyDetectorModel` -/

/-- What is called: the check of the frequency in `extend`, the constructor of the detector, `detector`. -/
structure MMWorld where
  valid : OTab → Except Err Unit
  make : Int → OTab → Except Err Unit
  detect : Int → OTab → Except Err (List MvScore)

/-- The attributes; `model` holds the scores of the detector, which are `none` if `detector` raised. -/
structure MModel where
  trainingDays : Int
  model : Option (Option (List MvScore)) := none

/-- A value for `json.dumps`: an object of a class cannot be written. -/
inductive JVal where
  | num (x : Int)
  | str (s : String)
  | obj

/-- `json.dumps` of a dictionary. -/
def jsonDumps (d : List (String × JVal)) : Except Err (List (String × JVal)) :=
  if d.any fun p => match p.2 with
    | .obj => true
    | _ => false
  then .error .typeError
  else .ok d

/-- 62-77, `serialize`: the parameters and the type are objects. -/
def MModel.serialize (m : MModel) : Except Err (List (String × JVal)) :=
  jsonDumps [("params", .obj), ("training_days", .num m.trainingDays), ("model_type", .obj)]

/-- 79-109, `fit`: the model, the history and what is raised. -/
def MModel.fit (W : MMWorld) (m : MModel) (data : OTab) (hist : Option OTab) : (MModel × Option OTab) × Except Err Unit :=
  let h := extendHist hist data
  let total := totalData hist data
  match (if hist.isSome then W.valid total else .ok ()) with
  | .error e => ((m, h), .error e)
  | .ok () =>
    match W.make m.trainingDays total with
    | .error e => ((m, h), .error e)
    | .ok () =>
      match W.detect m.trainingDays total with
      | .error e => (({ m with model := some none }, h), .error e)
      | .ok s => (({ m with model := some (some s) }, h), .ok ())

/-- A row of the response: the time and the scores, NaN for rows of padding. -/
abbrev MRow := Int × Option MvScore

/-- The least time of the data. -/
def minTimeOf (data : OTab) : Int := (data.map (·.1)).foldl min ((data.map (·.1)).headD 0)

/-- 130-186: the response of a fitted model.  A negative number of rows of padding raises; so do scores without
columns. -/
def MModel.respond (m : MModel) (data : OTab) : Except Err (List MRow) :=
  match m.model with
  | none => .error .otherError
  | some none => .error .otherError
  | some (some []) => .error .indexError
  | some (some all) =>
    let s := all.filter fun x => decide (minTimeOf data ≤ x.time)
    if data.length < s.length then .error .valueError
    else .ok ((data.map (·.1)).zip (List.replicate (data.length - s.length) none ++ s.map some))

/-- 111-186, `predict`. -/
def MModel.predict (W : MMWorld) (m : MModel) (data : OTab) (hist : Option OTab) :
    (MModel × Option OTab) × Except Err (List MRow) :=
  if m.model.isNone then
    match m.fit W data hist with
    | (s, .error e) => (s, .error e)
    | (s, .ok ()) => (s, s.1.respond data)
  else ((m, hist), m.respond data)

/-- 188-209, `fit_predict`. -/
def MModel.fitPredict (W : MMWorld) (m : MModel) (data : OTab) (hist : Option OTab) :
    (MModel × Option OTab) × Except Err (List MRow) :=
  match m.fit W data hist with
  | (s, .error e) => (s, .error e)
  | (s, .ok ()) =>
    let q := s.1.predict W data none
    ((q.1.1, s.2), q.2)

end

end Kats
