import Verif.Model.Heuristic

/-!
# `kats/models/neuralprophet.py`

The wrapper around NeuralProphet, whose fit, future frame and forecasts are parameters.  A data frame is a list of names of
columns and a list of rows, which are functions from names to values; dates are numbers too.  The parameters that are only
passed on are one type.
-/

namespace Kats

/-- A data frame. -/
structure NpFrame where
  cols : List String
  rows : List (String → Option Rat)

/-- A dictionary for a seasonality: its keys. -/
abbrev NpSeason := List String

/-- An element of the lists of regressors: a dictionary (values as text), or `none` for something else. -/
abbrev NpReg := Option (List (String × String))

/-- `NeuralProphetParams`, lines 160-237; `rest` are all other parameters. -/
structure NpParams (R : Type) where
  seasons : List NpSeason
  future : List NpReg
  lagged : List NpReg
  rest : R

variable {R F : Type}

/-- The name of a regressor under the key `key`, lines 282-294 and 296-308. -/
def npName (key : String) (r : NpReg) : Except Err String :=
  match r with
  | none => .error .valueError
  | some d =>
    match d.lookup key with
    | none => .error .valueError
    | some n => if d.all fun x => x.1 ∈ [key, "regularization", "normalize"] then .ok n else .error .valueError

/-- `validate_params`, lines 265-308: the names of the required regressors. -/
def npValidate (p : NpParams R) : Except Err (List String) :=
  if ["name", "period", "fourier_order"].all fun k => p.seasons.all fun s => k ∈ s then do
    let f ← p.future.mapM (npName "name")
    let l ← p.lagged.mapM (npName "names")
    .ok (f ++ l)
  else .error .valueError

/-- The data: `values = none` for a series of one column, else the names of its columns; `rows` are functions from names,
with `value` for the single column and `time` for the time. -/
structure NpData where
  values : Option (List String)
  rows : List (String → Option Rat)

/-- A `NeuralProphetModel`; `names` are the required regressors of its parameters. -/
structure NpModel (R F : Type) where
  data : NpData
  params : NpParams R
  names : List String
  df : NpFrame
  model : Option F

/-- `__init__` (312-322) with `_data_params_validation` (324-343), for parameters with the required regressors `names`. -/
def npInit (data : NpData) (p : NpParams R) (names : List String) : Except Err (NpModel R F) :=
  match data.values with
  | none => if names = [] then .ok ⟨data, p, names, ⟨[], []⟩, none⟩ else .error .valueError
  | some cols =>
    if "y" ∉ cols then .error .valueError
    else if names.all fun n => n ∈ cols then .ok ⟨data, p, names, ⟨[], []⟩, none⟩
    else .error .valueError

/-- `_ts_to_df`, lines 345-355. -/
def npFrame (data : NpData) (names : List String) : NpFrame :=
  match data.values with
  | none => ⟨names ++ ["y", "ds"], data.rows.map fun r c => if c = "ds" then r "time" else if c = "y" then r "value" else none⟩
  | some _ => ⟨names ++ ["y", "ds"], data.rows.map fun r c => if c = "ds" then r "time" else r c⟩

/-- What NeuralProphet does: the fit with all parameters (lines 396-436), `make_future_dataframe(df, periods)` and
`predict`. -/
structure NpLib (R F : Type) where
  fit : NpParams R → NpFrame → Option String → Except Err F
  makeFuture : F → NpFrame → Nat → NpFrame
  predict : F → NpFrame → Except Err NpFrame

/-- `fit`, lines 357-437. -/
def npFit (L : NpLib R F) (M : NpModel R F) (freq : Option String) : Except Err (NpModel R F) := do
  let df := npFrame M.data M.names
  let f ← L.fit M.params df freq
  .ok { M with df := df, model := some f }

/-- Order of numbers, missing ones last (`sort_values`). -/
def npLe (a b : Option Rat) : Bool :=
  match a, b with
  | some x, some y => decide (x ≤ y)
  | none, some _ => false
  | _, none => true

/-- `future.sort_values("ds", inplace=True)` and `future["y"] = 0.0`, lines 495-497. -/
def npPrepare (future : NpFrame) : Except Err NpFrame :=
  if "ds" ∉ future.cols then .error .keyError
  else .ok ⟨if "y" ∈ future.cols then future.cols else future.cols ++ ["y"],
    (future.rows.mergeSort fun a b => npLe (a "ds") (b "ds")).map fun r c => if c = "y" then some 0 else r c⟩

/-- The columns that are returned, lines 505-508. -/
def npKeep (k : String) : Bool := k == "ds" || "yhat".toList.isPrefixOf k.toList

/-- `predict`, lines 442-511: the forecast, and the frame `future` as it is afterwards. -/
def npPredict (L : NpLib R F) (M : NpModel R F) (steps : Nat) (raw : Bool) (future : Option NpFrame) :
    Except Err (NpFrame × NpFrame) :=
  match M.model with
  | none => .error .valueError
  | some f => do
    let fut ← (if 0 < M.params.future.length + M.params.lagged.length then
        match future with
        | none => .error .valueError
        | some d =>
          if M.names.all (fun n => n ∈ d.cols) = false then .error .valueError
          else if "ds" ∉ d.cols then .error .valueError
          else .ok d
      else .ok (future.getD (L.makeFuture f M.df steps)))
    if fut.rows.length < steps then .error .valueError
    else do
      let fut' ← npPrepare fut
      let fc ← L.predict f fut'
      .ok (if raw = true then fc else ⟨fc.cols.filter npKeep, fc.rows⟩, fut')

end Kats
