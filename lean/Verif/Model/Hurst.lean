import Verif.Model.Py
import Mathlib.Analysis.Real.Sqrt
import Mathlib.Analysis.SpecialFunctions.Log.Basic

/-!
# `kats/tsfeatures/tsfeatures.py`: `TsFeatures.get_hurst`

Numbers are real.  `np.log` of zero is minus infinity, for which `np.polyfit` gives NaN.
-/

namespace Kats

noncomputable section
open Classical

/-- `range(2, min(lag_size, len(x) - 1))` (919). -/
def huLags (lag : Int) (n : Nat) : List Nat := (List.range (min lag ((n : Int) - 1)).toNat).drop 2

/-- `x[lag:] - x[:-lag]` for a positive lag (922). -/
def huDiff (x : List ℝ) (k : Nat) : List ℝ := List.zipWith (· - ·) (x.drop k) (x.take (x.length - k))

/-- `np.std`. -/
def huStd (l : List ℝ) : ℝ :=
  √((l.map fun v => (v - l.sum / l.length) ^ 2).sum / l.length)

/-- `np.polyfit(..., 1)[0]` (925): nothing to fit raises; for a single point the solution of least
norm after the scaling of the columns; else the slope of the regression line. -/
def huSlope : List (ℝ × ℝ) → Except Err ℝ
  | [] => .error .typeError
  | [p] => .ok (p.2 / (2 * p.1))
  | l => .ok ((l.length * (l.map fun p => p.1 * p.2).sum - (l.map (·.1)).sum * (l.map (·.2)).sum)
      / (l.length * (l.map fun p => p.1 ^ 2).sum - (l.map (·.1)).sum ^ 2))

/-- `get_hurst` (906-928). -/
def huHurst (lag : Int) (x : List ℝ) : Except Err ℝ :=
  let lags := huLags lag x.length
  let tau := lags.map fun k => huStd (huDiff x k)
  if (0 : ℝ) ∈ tau then .ok 0
  else huSlope ((lags.zip tau).map fun p => (Real.log p.1, Real.log p.2))

end

end Kats
