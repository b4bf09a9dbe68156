import Verif.Model.LeastSquares
import Verif.Model.RobustStat
import Mathlib.Analysis.SpecialFunctions.Trigonometric.Basic

/-!
# `kats/models/harmonic_regression.py`

Times are whole seconds since the epoch.  The optimiser of `scipy` works on a function that is linear in the
coefficients, so its optimum is the least squares solution (`lstsq`); a singular problem is left to `pinv`.
-/

namespace Kats

open Classical

noncomputable section

/-- `HarmonicRegressionParams.__post_init__`: lines 28-40. -/
def harmParams (period : ℝ) (order : Int) : Except Err (ℝ × Nat) :=
  if period ≤ 0 then .error .valueError
  else if order ≤ 0 then .error .valueError
  else .ok (period, order.toNat)

/-- The row of one date in `fourier_series`: lines 154-165.  The period is in hours. -/
def harmRow (period : ℝ) (order : Nat) (date : Int) : List ℝ :=
  let t := (date : ℝ) / 3600
  (List.range order).flatMap fun i : Nat =>
    [Real.sin (2 * ((i : ℝ) + 1) * Real.pi * t / period), Real.cos (2 * ((i : ℝ) + 1) * Real.pi * t / period)]

/-- `fit_harmonics`: lines 187-237.  `curve_fit` rejects empty data (`ValueError`) and fewer points than coefficients
(`TypeError`). -/
def harmFit (pinv : List (List ℝ) → List ℝ → List ℝ) (period : ℝ) (order : Nat) (times : List Int) (values : List ℝ) :
    Except Err (List ℝ) :=
  let demeaned := values.map (· - meanOf values)
  if demeaned.isEmpty then .error .valueError
  else if demeaned.length < order * 2 then .error .typeError
  else .ok (lstsq pinv (times.map (harmRow period order)) demeaned)

/-- `predict`: lines 74-95.  The coefficients are `none` before `fit`. -/
def harmPredict (period : ℝ) (order : Nat) (coefs : Option (List ℝ)) (dates : List Int) : Except Err (List (Int × ℝ)) :=
  match coefs with
  | none => .error .valueError
  | some c => .ok (dates.map fun d => (d, (List.zipWith (· * ·) c (harmRow period order d)).sum))

/-- The parameters, the constructor, `fit` (lines 64-70) and `predict` one after the other. -/
def harmRun (pinv : List (List ℝ) → List ℝ → List ℝ) (period : ℝ) (order : Int) (times : List Int) (values : List ℝ)
    (dates : List Int) : Except Err (List (Int × ℝ)) := do
  let p ← harmParams period order
  let c ← harmFit pinv p.1 p.2 times values
  harmPredict p.1 p.2 (some c) dates

end

end Kats
