import Verif.Model.Py
import Mathlib.Analysis.SpecialFunctions.Pow.Real
import Mathlib.LinearAlgebra.Matrix.NonsingularInverse

/-!
# Least squares

`sm.add_constant`, `sm.OLS(y, X).fit()`, `np.linalg.lstsq` and `wls_prediction_std`, the library calls behind
`kats/models/linear_model.py`, `kats/models/quadratic_model.py`, `kats/models/theta.py` and
`kats/utils/emp_confidence_int.py`.
-/

namespace Kats

open Classical Matrix

noncomputable section

/-- Whether column `j` is constant and nonzero (`np.ptp(x, axis=0) == 0` and no zero entry). -/
def constColumn (rows : List (List ℝ)) (j : Nat) : Bool :=
  rows.all fun r => decide (r.getD j 0 = (rows.headD []).getD j 0 ∧ r.getD j 0 ≠ 0)

/-- `statsmodels.tools.add_constant(x)` with its default `has_constant="skip"`: a column of ones is put in
front, unless some column is already constant and nonzero, in which case `x` comes back unchanged.  The
maximum of no rows is a `ValueError` of numpy. -/
def addConstant (rows : List (List ℝ)) : Except Err (List (List ℝ)) :=
  if rows.isEmpty then .error .valueError
  else if (List.range (rows.headD []).length).any (constColumn rows) then .ok rows
  else .ok (rows.map (1 :: ·))

/-- The rows as a matrix with `p` columns. -/
def rowsMatrix (rows : List (List ℝ)) (p : Nat) : Matrix (Fin rows.length) (Fin p) ℝ :=
  fun i j => (rows.getD i []).getD j 0

/-- The data as a vector. -/
def dataVec (n : Nat) (y : List ℝ) : Fin n → ℝ := fun i => y.getD i 0

/-- The normal matrix `XᵀX`. -/
def gram (rows : List (List ℝ)) (p : Nat) : Matrix (Fin p) (Fin p) ℝ :=
  (rowsMatrix rows p)ᵀ * rowsMatrix rows p

/-- The coefficients of `sm.OLS(y, X).fit()` and of `np.linalg.lstsq(X, y)`: `(XᵀX)⁻¹ Xᵀ y`.  Both use the
pseudoinverse, which for a singular normal matrix is left to the parameter `pinv`. -/
def lstsq (pinv : List (List ℝ) → List ℝ → List ℝ) (rows : List (List ℝ)) (y : List ℝ) : List ℝ :=
  let p := (rows.headD []).length
  if IsUnit (gram rows p).det then
    List.ofFn ((gram rows p)⁻¹ *ᵥ ((rowsMatrix rows p)ᵀ *ᵥ dataVec rows.length y))
  else pinv rows y

/-- A product of a row with the coefficients; `np.dot` rejects unequal lengths. -/
def rowDot (beta r : List ℝ) : Except Err ℝ :=
  if r.length = beta.length then .ok ((List.zipWith (· * ·) r beta).sum) else .error .valueError

/-- `results.mse_resid`: the residual sum of squares over the degrees of freedom (NaN when there are none). -/
def mseResid (rows : List (List ℝ)) (y beta : List ℝ) : Option ℝ :=
  let p := (rows.headD []).length
  if rows.length ≤ p then none
  else some ((List.zipWith (fun r v => (v - (List.zipWith (· * ·) r beta).sum) ^ 2) rows y).sum
    / ((rows.length : ℝ) - p))

/-- `x (XᵀX)⁻¹ xᵀ` for one row `x`. -/
def leverage (rows : List (List ℝ)) (x : List ℝ) : ℝ :=
  let p := (rows.headD []).length
  dataVec p x ⬝ᵥ ((gram rows p)⁻¹ *ᵥ dataVec p x)

/-- `wls_prediction_std(res, exog, alpha)` for one row: the standard deviation of a new observation
(`predvar = mse_resid + x cov xᵀ`) times the Student quantile `1 - alpha / 2`. -/
def predictionMargin (tq : ℝ → Nat → ℝ) (alpha : ℝ) (rows : List (List ℝ)) (y beta x : List ℝ) : Option ℝ :=
  (mseResid rows y beta).map fun mse =>
    tq (1 - alpha / 2) (rows.length - (rows.headD []).length) * Real.sqrt (mse * (1 + leverage rows x))

end

end Kats
