import Verif.Model.MetaSelect

/-!
# `kats/detectors/meta_learning/metalearning_detection_model.py`

The preprocessing of meta data of detectors and `MetaDetectModelSelect`; also `metadata_detect_reader` of `hpt_tuning.py` and the tables
of `synth_metadata_reader.py`, without reading its file.  A text is what `ast.literal_eval` or `float` makes of it.  A parameter is an
exact number or a text; of a result of a search there are the parameters and the error.  The preprocessing changes the
frame and the dictionaries it is given, so it gives them back; what it leaves when it fails in the middle is not modelled, nor dictionaries
that are in two rows.  The features of a series, the rounding of `format(..., ".4f")` and what `MetaSelect` takes as parameters are parameters.
-/

namespace Kats

/-- A dictionary, its text with what `ast.literal_eval` gives (none if it fails), or something else. -/
inductive MeCell (α : Type) where
  | dict (d : α)
  | text (r : Option α)
  | other

/-- `change_str_to_dict` (50-60); none is None. -/
def MeCell.read {α : Type} : MeCell α → Except Err (Option α)
  | .dict d => .ok (some d)
  | .text r => .ok r
  | .other => .error .valueError

section
variable {K : Type} [Field K] [LinearOrder K]

/-- A feature: a number, missing or not, or what `float` makes of its text. -/
inductive MeVal (K : Type) where
  | num (v : Option K)
  | text (r : Except Err (Option K))

/-- `float(...)`. -/
def MeVal.float : MeVal K → Except Err (Option K)
  | .num v => .ok v
  | .text r => r

/-- `change_dtype` (44-47); None has no elements to go through. -/
def meFloats (d : Option (List (String × MeVal K))) : Except Err (List (String × Option K)) :=
  match d with
  | none => .error .typeError
  | some d => d.mapM fun e => do
    let v ← e.2.float
    return (e.1, v)

/-- A parameter: a number or a text. -/
abbrev MeParam (K : Type) := K ⊕ String

/-- `hpt_res`: for each algorithm the parameters and the error. -/
abbrev MeHpt (K : Type) := List (String × List (String × MeParam K) × K)

/-- A row of the raw data. -/
structure MeRow (K : Type) where
  hpt : MeCell (MeHpt K)
  features : MeCell (List (String × MeVal K))
  best : String

/-- `params[param] / NUM_SECS_IN_DAY` (85) for a parameter to scale. -/
def meScale (down : List String) (e : String × MeParam K) : Except Err (String × MeParam K) :=
  if e.1 ∈ down then match e.2 with
    | .inl v => .ok (e.1, .inl (v / 86400))
    | .inr _ => .error .typeError
  else .ok e

/-- The loop over the algorithms of a row (80-85). -/
def meScaleRow (down : List String) (h : Option (MeHpt K)) : Except Err (MeHpt K) :=
  match h with
  | none => .error .attributeError
  | some h => h.mapM fun e => do
    let p ← e.2.1.mapM (meScale down)
    return (e.1, p, e.2.2)

/-- `metadata_detect_preprocessor` (63-87): the table, and what the rows of the frame are afterwards, the same dictionaries. -/
def mePre (down : List String) (rows : List (MeRow K)) : Except Err (List (MeHpt K × List (String × Option K) × String)) := do
  let f ← rows.mapM fun r => r.features.read
  let f ← f.mapM meFloats
  let h ← rows.mapM fun r => r.hpt.read
  let h ← h.mapM (meScaleRow down)
  return h.zip (f.zip (rows.map (·.best)))

/-- A row of the frame after the preprocessing. -/
def meRow (t : MeHpt K × List (String × Option K) × String) : MeRow K := ⟨.dict t.1, .dict (t.2.1.map fun e => (e.1, .num e.2)), t.2.2⟩

/-! ## Frames -/

/-- The columns of `pd.DataFrame` of a list of dictionaries: the names in the order of their first rows. -/
def meCols {α : Type} (l : List (List (String × α))) : List String := msClasses (l.flatMap fun d => d.map (·.1))

/-- The rows of such a frame of features. -/
def meRows (l : List (List (String × Option K))) : List (List (Option K)) := l.map fun d => (meCols l).map fun c => (d.lookup c).join

/-- `metadata_detect_reader` (hpt_tuning.py, 65-85): the frame of features, the columns of the parameters of an algorithm and the rows of
the frame afterwards. -/
def meReader (down : List String) (rows : List (MeRow K)) (algorithm : String) :
    Except Err (((List String × List (List (Option K))) × List (String × List (Option (MeParam K)))) × List (MeRow K)) := do
  let t ← mePre down rows
  let y ← t.mapM fun r => needKey (r.1.lookup algorithm)
  let f := t.map (·.2.1)
  let p := y.map (·.1)
  return (((meCols f, meRows f), (meCols p).map fun c => (c, p.map fun d => d.lookup c)), t.map meRow)

/-- `PARAMS_TO_SCALE_DOWN` (20). -/
def meDown : List String := ["historical_window", "scan_window"]

/-- `SynthMetadataReader.PARAMS_TO_SCALE_DOWN` (synth_metadata_reader.py, 22-27). -/
def meSynthDown : List String := ["n_control", "n_test", "historical_window", "scan_window"]

/-- The parameters of one algorithm in all rows (synth_metadata_reader.py, 66-82). -/
def meSynthOne (down : List String) (h : List (MeHpt K)) (a : String) : Except Err (String × List (List (String × MeParam K))) := do
  let l ← h.mapM fun r => do
    let p ← needKey (r.lookup a)
    p.1.mapM (meScale down)
  return (a, l)

/-- `get_metadata` (synth_metadata_reader.py, 47-89) of the rows of the file. -/
def meSynth (rows : List (MeHpt K × List (String × Except Err (Option K)))) (algorithm : String) :
    Except Err ((List String × List (List (Option K))) × List (String × List (Option (MeParam K)))) := do
  let f ← rows.mapM fun r => r.2.mapM fun e => do
    let v ← e.2
    return (e.1, v)
  let names := msClasses (rows.flatMap fun r => r.1.map (·.1))
  let y ← names.mapM (meSynthOne meSynthDown (rows.map (·.1)))
  let p ← needKey (y.lookup algorithm)
  return ((meCols f, meRows f), (meCols p).map fun c => (c, p.map fun d => d.lookup c))

/-! ## `MetaDetectModelSelect` -/

/-- `metadata_df`: the names of the columns and the rows. -/
structure MeFrame (K : Type) where
  cols : List String
  rows : List (MeRow K)

/-- The attributes. -/
structure MeSel (K : Type) where
  df : MeFrame K
  results : Option (MsReport K)
  mlms : Option (MsObj K)
  down : List String

/-- `__init__` (115-140); none is something that is no frame. -/
def meInit (df : Option (MeFrame K)) (down : List String) : Except Err (MeSel K) :=
  match df with
  | none => .error .valueError
  | some df =>
    if df.rows.length ≤ 30 then .error .valueError
    else if ¬ (∀ c ∈ ["hpt_res", "features", "best_model"], c ∈ df.cols) then .error .valueError
    else .ok ⟨df, none, none, down⟩

/-- A row of the table for `MetaLearnModelSelect`. -/
def meEntry (t : MeHpt K × List (String × Option K) × String) : MsEntry K :=
  ⟨some (.dict (t.1.map fun e => (e.1, e.2.2))), some (.dict t.2.1), some t.2.2⟩

/-- `train` (147-171) with `_preprocess` (142-145): the object afterwards and the results or the error. -/
def meTrain (std : List K → K) (fit : String → List (List K) → List String → Except Err (MsClf K)) (perm : List Nat) (o : MeSel K)
    (method evalMethod : String) (testSize : Rat) : MeSel K × Except Err (MsReport K) :=
  match mePre o.down o.df.rows with
  | .error e => (o, .error e)
  | .ok t =>
    let o := { o with df := { o.df with rows := t.map meRow } }
    match msInit std (some (t.map meEntry)) false with
    | .error e => (o, .error e)
    | .ok none => (o, .error .otherError)
    | .ok (some s) => match msTrain fit perm s method evalMethod testSize with
      | .error e => ({ o with mlms := some (some (s, none)) }, .error e)
      | .ok r => ({ o with mlms := some (some (s, some r.1)), results := some r.2 }, .ok r.2)

/-- `report_metrics` (173-183): the rows with their type; the results are never None. -/
def meReport (o : MeSel K) : Except Err (List (String × List (String × K))) :=
  match o.results with
  | none => .error .keyError
  | some r => .ok [("fit_error", r.fit), ("pred_error", r.pred)]

/-- `algo_list`. -/
def meNames (r : List String ⊕ List (List String)) : Except Err (List String) :=
  match r with
  | .inl l => .ok l
  | .inr _ => .error .otherError

/-- `predict` (185-196); `features` has the features of the series, `round` is `float(format(..., ".4f"))`. -/
def mePredict (round : K → K) (features : List GmFlt → List (String × Option K)) (o : MeSel K) (values : List GmFlt) : Except Err String := do
  let f := (features values).map fun e => (e.1, e.2.map round)
  match o.mlms with
  | none => .error .valueError
  | some m => do
    let r ← msPredBy m (.rows (meRows [f])) 1
    let l ← meNames r
    match l.head? with
    | some a => return a
    | none => .error .indexError

/-- The rows of a frame of features (203-210, 227-234). -/
def meFeatures (l : List (MeCell (List (String × MeVal K)))) : Except Err (List (List (Option K))) := do
  let f ← l.mapM MeCell.read
  let f ← f.mapM meFloats
  return meRows f

/-- `fit_results` (198-220). -/
def meFit (o : MeSel K) : Except Err (List String) := do
  let x ← meFeatures (o.df.rows.map (·.features))
  match o.mlms with
  | none => .error .valueError
  | some m => do
    let r ← msPredBy m (.rows x) 1
    meNames r

/-- `pred_by_feature` (222-241). -/
def mePredBy (o : MeSel K) (l : List (MeCell (List (String × MeVal K)))) : Except Err (List String) := do
  let x ← meFeatures l
  match o.mlms with
  | none => .error .otherError
  | some m => do
    let r ← msPredBy m (.rows x) 1
    meNames r

end

end Kats
