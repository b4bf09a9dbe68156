import Verif.Model.LeastSquares
import Verif.Model.Heuristic

/-!
# `kats/models/linear_model.py` and `kats/models/quadratic_model.py`

The two classes differ only in their regressors, so one model with a `PolyKind` stands for both.  The times
of the data do not enter the fit: the regressor is the position in the series.
-/

namespace Kats

open Classical

noncomputable section

/-- The class: `LinearModel` or `QuadraticModel`. -/
inductive PolyKind where
  | linear | quadratic
deriving DecidableEq

/-- The regressors of position `x`: `linear_model.py` 90 and 123-125, `quadratic_model.py` 91-92 and 136. -/
def PolyKind.features : PolyKind → Nat → List ℝ
  | .linear, x => [(x : ℝ)]
  | .quadratic, x => [(x : ℝ), (x : ℝ) ^ 2]

/-- What the models take from the libraries: the Student quantile of `wls_prediction_std` (probability and
degrees of freedom) and the pseudoinverse of a singular problem. -/
structure PolyWorld where
  tq : ℝ → Nat → ℝ
  pinv : List (List ℝ) → List ℝ → List ℝ

/-- A fitted `sm.OLS`: its regressors, the data and the coefficients. -/
structure PolyFitted where
  rows : List (List ℝ)
  y : List ℝ
  params : List ℝ

/-- A row of the forecast (NaN is `none`). -/
structure FcstRow where
  time : Int
  fcst : ℝ
  lower : Option ℝ
  upper : Option ℝ

/-- `fit`: `linear_model.py` 83-96, `quadratic_model.py` 83-100. -/
def polyFit (W : PolyWorld) (k : PolyKind) (values : List ℝ) : Except Err PolyFitted := do
  let rows ← addConstant ((List.range values.length).map k.features)
  pure ⟨rows, values, lstsq W.pinv rows values⟩

/-- The positions to forecast: `linear_model.py` 122-125, `quadratic_model.py` 131-134. -/
def polyPositions (n steps : Nat) (includeHistory : Bool) : List Nat :=
  if includeHistory then List.range (n + steps) else (List.range steps).map (n + ·)

/-- `self.data.time.max()`. -/
def lastDate (times : List Int) : Int := times.foldl max (times.headD 0)

/-- The dates: `linear_model.py` 143-151, `quadratic_model.py` 149-157. -/
def polyDates (f : DateFreq) (times : List Int) (steps : Nat) (includeHistory : Bool) : List Int :=
  if includeHistory then times ++ futureDates f (lastDate times) steps else futureDates f (lastDate times) steps

/-- The columns of the forecast from rows of regressors: `linear_model.py` 131-139, `quadratic_model.py` 138-145. -/
def polyForecast (W : PolyWorld) (alpha : ℝ) (m : PolyFitted) (exog : List (List ℝ)) :
    Except Err (List (ℝ × Option ℝ × Option ℝ)) :=
  exog.mapM fun x => do
    let v ← rowDot m.params x
    let me := predictionMargin W.tq alpha m.rows m.y m.params x
    pure (v, me.map (v - ·), me.map (v + ·))

/-- `predict`: `linear_model.py` 100-163, `quadratic_model.py` 104-169.  `model` is `none` before `fit`; the frequency
is the one passed in or inferred; the data frame rejects columns of unequal lengths. -/
def polyPredict (W : PolyWorld) (k : PolyKind) (alpha : ℝ) (f : DateFreq) (times : List Int)
    (model : Option PolyFitted) (steps : Nat) (includeHistory : Bool) : Except Err (List FcstRow) :=
  match model with
  | none => .error .valueError
  | some m => do
    let exog ← addConstant ((polyPositions times.length steps includeHistory).map k.features)
    let cols ← polyForecast W alpha m exog
    let rows ← mkFcst (polyDates f times steps includeHistory) cols
    pure (rows.map fun r => ⟨r.1, r.2.1, r.2.2.1, r.2.2.2⟩)

/-- `fit` followed by `predict` on a series with these times and values. -/
def polyRun (W : PolyWorld) (k : PolyKind) (alpha : ℝ) (f : DateFreq) (times : List Int)
    (values : List ℝ) (steps : Nat) (includeHistory : Bool) : Except Err (List FcstRow) := do
  let m ← polyFit W k values
  polyPredict W k alpha f times (some m) steps includeHistory

end

end Kats
