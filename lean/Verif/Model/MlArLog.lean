import Verif.Model.MlAr
import Mathlib.Analysis.SpecialFunctions.Log.Basic

/-!
# `kats/models/ml_ar.py`: the logarithm of the targets

One target of one series with `transform_data`: the transformation before the embedding, the normalization of a row, and
the way back after the regressor, in training and in forecasts.

Simplifications. Numbers are real, so the values are positive where the logarithm is taken and divisors are not zero
where this matters. The statistics of a window and the regressor are parameters; covariates, categories and calendar
features of the row are one list. Writing the logarithms into the part of the frame replaces its columns and leaves the
frame of the series as it was.
-/

namespace Kats

noncomputable section

/-- The parameters (218-222, 287-291) and the library calls: `stat` and `stat2` are the normalizers of `_normalize_data`
(523-534), `sums` the summary statistics (669-676), `predict` the regressor. -/
structure MtModel where
  log : Bool
  op : MlOp
  useMin : Bool
  dmin : ℝ
  window : ℕ
  stat : List ℝ → ℝ
  stat2 : List ℝ → ℝ
  sums : List ℝ → List ℝ
  predict : List ℝ → ℝ

/-- Lines 629-630. -/
def mtTransform (M : MtModel) (x : ℝ) : ℝ := if M.log then Real.log x else x

/-- Lines 1121-1124 and 1272-1275. -/
def mtBack (M : MtModel) (x : ℝ) : ℝ := if M.log then Real.exp x else x

/-- The normalizers of a row of transformed lags (523-534). -/
def mtStats (M : MtModel) (lags : List ℝ) : ℝ × ℝ :=
  let win := lags.drop (lags.length - M.window)
  (M.stat win, M.stat2 win)

/-- `normalize` (47-71). -/
def mtNormalize (M : MtModel) (n : ℝ × ℝ) (x : ℝ) : ℝ :=
  let d := if M.useMin then M.dmin else 0
  match M.op with
  | .sub => (x + d) - (n.1 + d)
  | .div => (x + d) / (n.1 + d)
  | .subDiv => ((x + d) - (n.1 + d)) / (n.2 + d)

/-- `denormalize` (74-99). -/
def mtDenormalize (M : MtModel) (n : ℝ × ℝ) (x : ℝ) : ℝ :=
  let d := if M.useMin then M.dmin else 0
  match M.op with
  | .sub => (x - d) + (n.1 - d)
  | .div => (x - d) * (n.1 - d)
  | .subDiv => (x - d) * (n.2 - d) + (n.1 - d)

/-- The row of features of a window of a series (648-692); `rest` are all columns that do not come from the target. -/
def mtRow (M : MtModel) (series rest : List ℝ) : List ℝ :=
  let lags := series.map (mtTransform M)
  let row := lags.map (mtNormalize M (mtStats M lags))
  row ++ M.sums row ++ rest

/-- The output of the row in training for the value `y` at its horizon (660). -/
def mtOutput (M : MtModel) (series : List ℝ) (y : ℝ) : ℝ :=
  mtNormalize M (mtStats M (series.map (mtTransform M))) (mtTransform M y)

/-- The forecast from a window (1105-1124 in training, 1252-1275 later). -/
def mtForecast (M : MtModel) (series rest : List ℝ) : ℝ :=
  mtBack M (mtDenormalize M (mtStats M (series.map (mtTransform M))) (M.predict (mtRow M series rest)))

/-- The two numbers of a row that the logged error of the training compares (1126-1141). -/
def mtReport (M : MtModel) (series rest : List ℝ) (y : ℝ) : ℝ × ℝ :=
  (mtDenormalize M (mtStats M (series.map (mtTransform M))) (mtOutput M series y), mtForecast M series rest)

end

end Kats
