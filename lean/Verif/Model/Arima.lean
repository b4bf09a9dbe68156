import Verif.Model.Ensemble
import Verif.Model.Decomposition

/-!
# `kats/models/arima.py` and `kats/models/sarima.py`

The wrappers around the two models of statsmodels.  The estimation and the forecasts of statsmodels are parameters, and
what is handed to them is modelled argument by argument; of the arguments of `fit` that are only passed on there is one
type.  Numbers are rationals or missing.
-/

namespace Kats

/-- The index of a row of a statsmodels series: a position or a date (if it accepted the dates as an index). -/
inductive SmLabel where
  | pos (i : Nat)
  | date (t : Int)
deriving DecidableEq

/-- A row of `summary_frame`, or of `predicted_mean` with `conf_int`. -/
structure SmRow where
  mean : Option Rat
  lower : Option Rat
  upper : Option Rat
deriving DecidableEq

/-- A row of a forecast of Kats. -/
structure FcRow where
  time : Int
  fcst : Option Rat
  lower : Option Rat
  upper : Option Rat
deriving DecidableEq

/-- `ARIMAParams`, lines 66-83; `E` is the type of regressors. -/
structure ArimaParams (E : Type) where
  p : Nat
  d : Nat
  q : Nat
  exog : Option E
  dates : Option (List Int)
  freq : Option String

/-- The arguments of `statsmodels.tsa.arima.model.ARIMA`; `trend = none` is not given. -/
structure ArimaCall (E : Type) where
  endog : List (Option Rat)
  order : Nat × Nat × Nat
  exog : Option E
  trend : Option String
  dates : List Int
  freq : Option String

/-- What statsmodels does: `fit` makes the model and fits it with the other arguments `A`; `forecast` is
`get_forecast(steps, exog).summary_frame(alpha)`, `predict` the forecasts of `start` to `end` in the sample. -/
structure ArimaLib (E A F : Type) where
  fit : ArimaCall E → A → Except Err F
  forecast : F → Nat → Option E → Rat → Except Err (List SmRow)
  predict : F → Nat → Nat → Except Err (List (SmLabel × Option Rat))

/-- An `ARIMAModel`; `fcst` is the attribute `fcst_df`. -/
structure ArimaModel (E F : Type) where
  times : List Int
  values : List (Option Rat)
  params : ArimaParams E
  model : Option F
  alpha : Rat
  fcst : Option (List FcRow)

variable {E A F : Type}

/-- `ARIMAModel.__init__`, lines 134-142; `columns` are the columns of values. -/
def arimaInit (times : List Int) (columns : List (List (Option Rat))) (p : ArimaParams E) :
    Except Err (ArimaModel E F) :=
  match columns with
  | [v] => .ok ⟨times, v, p, none, 5 / 100, none⟩
  | _ => .error .valueError

/-- `ARIMAModel.fit`, lines 144-232: the trend is checked (207) but is not an argument of the call (210-218). -/
def arimaFit (L : ArimaLib E A F) (M : ArimaModel E F) (trend : String) (args : A) : Except Err (ArimaModel E F) :=
  if trend ∈ ["n", "c", "t", "ct"] then do
    let f ← L.fit ⟨M.values, (M.params.p, M.params.d, M.params.q), M.params.exog, none, M.times, M.params.freq⟩ args
    .ok { M with model := some f }
  else .error .valueError

/-- `.assign(time=t_pred).dropna(subset=["time"])`, lines 296-304: the times from number `d` on are matched by position. -/
def arimaHistory (times : List Int) (d : Nat) (rows : List (SmLabel × Option Rat)) : List FcRow :=
  rows.filterMap fun r =>
    match r.1 with
    | .pos i => if d ≤ i then (times[i]?).map fun t => ⟨t, r.2, none, none⟩ else none
    | .date _ => none

/-- `pd.DataFrame({"time": dates, "fcst": …, "fcst_lower": …, "fcst_upper": …})`. -/
def smFrame (dates : List Int) (rows : List SmRow) : Except Err (List FcRow) := do
  let l ← mkFcst dates rows
  .ok (l.map fun r => ⟨r.1, r.2.mean, r.2.lower, r.2.upper⟩)

/-- `ARIMAModel.predict`, lines 236-316: the frame and the object.  The frequency is inferred also if it is given (261);
`alpha` is kept (259), but `summary_frame` is called without it (263-267), for which it is 0.05; every exception in the
forecasts in the sample is a `ValueError` (309-315). -/
def arimaPredict (L : ArimaLib E A F) (infer : List Int → Except Err (Option DateFreq)) (M : ArimaModel E F) (steps : Nat)
    (history : Bool) (exog : Option E) (alpha : Rat) (freq : Option (Option DateFreq)) :
    Except Err (List FcRow × ArimaModel E F) :=
  match M.model with
  | none => .error .valueError
  | some f => do
    let inferred ← infer M.times
    let rows ← L.forecast f steps exog (5 / 100)
    let dates := futureDates ((freq.getD inferred).getD daily) (maxTime (M.times.map fun t => (t, 0))) steps
    let df ← smFrame dates rows
    if history = true then
      match L.predict f M.params.d M.times.length with
      | .error _ => .error .valueError
      | .ok h =>
        let out := arimaHistory M.times M.params.d h ++ df
        .ok (out, { M with alpha := alpha, fcst := some out })
    else .ok (df, { M with alpha := alpha, fcst := some df })

/-! ## SARIMA -/

/-- `SARIMAParams`, `sarima.py` 74-110: the orders, the seasonal order, the regressors and the rest. -/
structure SarimaParams (E R : Type) where
  p : Nat
  d : Nat
  q : Nat
  exog : Option E
  seasonal : Nat × Nat × Nat × Nat
  rest : R

/-- What `sarima.fit` gives: results, or with `return_params` an array. -/
inductive SarimaFitted (F : Type) where
  | results (f : F)
  | array

/-- What statsmodels does: `fit` is lines 259-293, `mean` and `interval` are `get_forecast(steps, exog)` with its
`predicted_mean` and `conf_int(alpha)`, `histMean` and `histInterval` the same for `get_prediction(0)`; `named` tells
whether the columns of the interval have `lower` and `upper` in their names (370-372). -/
structure SarimaLib (E R A F : Type) where
  fit : List (Option Rat) → SarimaParams E R → A → Except Err F
  forecast : F → Nat → Option E → Except Err Unit
  mean : F → Nat → Option E → List (Option Rat)
  interval : F → Nat → Option E → Rat → List (Option Rat × Option Rat)
  histMean : F → List (Option Rat)
  histInterval : F → Rat → List (Option Rat × Option Rat)
  named : F → Bool

/-- A `SARIMAModel`. -/
structure SarimaModel (E R F : Type) where
  times : List Int
  values : List (Option Rat)
  params : SarimaParams E R
  model : Option (SarimaFitted F)
  alpha : Rat

variable {R : Type}

/-- `SARIMAModel.__init__`, lines 158-168. -/
def sarimaInit (times : List Int) (columns : List (List (Option Rat))) (p : SarimaParams E R) :
    Except Err (SarimaModel E R F) :=
  match columns with
  | [v] => .ok ⟨times, v, p, none, 5 / 100⟩
  | _ => .error .valueError

/-- `SARIMAModel.fit`, lines 170-294. -/
def sarimaFit (L : SarimaLib E R A F) (M : SarimaModel E R F) (args : A) (returnParams : Bool) :
    Except Err (SarimaModel E R F) := do
  let f ← L.fit M.values M.params args
  .ok { M with model := some (if returnParams = true then .array else .results f) }

/-- `<` of numbers that can be missing. -/
def nanLt (a b : Option Rat) : Bool :=
  match a, b with
  | some x, some y => decide (x < y)
  | _, _ => false

/-- Lines 353-358: the two columns are ordered by their first row. -/
def sarimaBounds (ci : List (Option Rat × Option Rat)) : Except Err (List (Option Rat × Option Rat)) :=
  match ci with
  | [] => .error .indexError
  | r :: _ => .ok (if nanLt r.1 r.2 = true then ci else ci.map fun x => (x.2, x.1))

/-- Lines 403-407. -/
def sarimaBurn (p : SarimaParams E R) : Nat :=
  max p.p (max p.d p.q) + max p.seasonal.1 (max p.seasonal.2.1 p.seasonal.2.2.1) * p.seasonal.2.2.2 + 1

/-- `fcst_df.loc[0:k, …] = np.nan`, line 409: a slice by label includes its end. -/
def sarimaBlank (k : Nat) (rows : List FcRow) : List FcRow :=
  (rows.take (k + 1)).map (fun r => ⟨r.time, none, none, none⟩) ++ rows.drop (k + 1)

/-- Rows of `predicted_mean` and an interval. -/
def smZip (means : List (Option Rat)) (ci : List (Option Rat × Option Rat)) : Except Err (List SmRow) :=
  if means.length = ci.length then .ok (List.zipWith (fun m c => ⟨m, c.1, c.2⟩) means ci) else .error .valueError

/-- A frequency given as a time difference, as `infer_freq_robust` gives it. -/
def deltaFreq (δ : Int) : DateFreq := ⟨id, (· + δ)⟩

/-- `SARIMAModel.predict`, lines 298-422.  The interval in the sample is made without `alpha` (369). -/
def sarimaPredict (L : SarimaLib E R A F) (M : SarimaModel E R F) (steps : Nat) (exog : Option E) (history : Bool)
    (alpha : Rat) (freq : Option DateFreq) : Except Err (List FcRow × SarimaModel E R F) :=
  match M.model with
  | none => .error .valueError
  | some fitted =>
    if M.params.exog.isSome = true ∧ exog.isNone = true then .error .valueError
    else do
      let δ ← inferFreqRobust M.times
      match fitted with
      | .array => .error .attributeError
      | .results f =>
        let _ ← L.forecast f steps exog
        let means := L.mean f steps exog
        if means.countP Option.isNone = steps then .error .valueError
        else do
          let ci ← sarimaBounds (L.interval f steps exog alpha)
          let dates := futureDates (freq.getD (deltaFreq δ)) (maxTime (M.times.map fun t => (t, 0))) steps
          if history = true then
            if L.named f = false then .error .valueError
            else do
              let rows ← smZip (L.histMean f ++ means) (L.histInterval f (5 / 100) ++ ci)
              let df ← smFrame (M.times ++ dates) rows
              .ok (sarimaBlank (sarimaBurn M.params) df, { M with alpha := alpha })
          else do
            let rows ← smZip means ci
            let df ← smFrame dates rows
            .ok (df, { M with alpha := alpha })

end Kats
