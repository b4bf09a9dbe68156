import Verif.Model.PolyModel

/-!
# `kats/utils/emp_confidence_int.py`

The backtester's raw errors (`kats/utils/backtesters.py`) and the forecast of the model on all data are inputs.
-/

namespace Kats

open Classical

noncomputable section

/-- The numeric arguments of the constructor (62-99). -/
structure EciParams where
  train : ℝ
  test : ℝ
  sliding : Int
  confidence : ℝ

/-- 79-96: the checks of the constructor. -/
def eciInit (p : EciParams) : Except Err EciParams :=
  if p.train ≤ 0 then .error .valueError
  else if 100 < p.train then .error .valueError
  else if p.test ≤ 0 then .error .valueError
  else if 100 < p.test then .error .valueError
  else if p.sliding < 0 then .error .valueError
  else .ok p

/-- `pd.Series.std()`: sample standard deviation, NaN for fewer than two values. -/
def sampleStd (l : List ℝ) : Option ℝ :=
  if l.length < 2 then none
  else some (Real.sqrt ((l.map fun x => (x - l.sum / l.length) ^ 2).sum / ((l.length : ℝ) - 1)))

/-- 152-155: the errors of all folds at horizon `j` (counted from 0); the data frame pads shorter folds with NaN, which
`std` skips. -/
def horizonErrors (rawErrors : List (List ℝ)) (j : Nat) : List ℝ := rawErrors.filterMap (·[j]?)

/-- 123-155, `run_cv`: the standard error per horizon. -/
def runCv (rawErrors : List (List ℝ)) : List (Option ℝ) :=
  (List.range ((rawErrors.map List.length).foldr max 0)).map fun j => sampleStd (horizonErrors rawErrors j)

/-- 157-175, `get_lr`: `np.linalg.lstsq` of the standard errors on horizon and constant.  `se` is `none` before `run_cv`;
a NaN among the standard errors makes the coefficients NaN (`none`). -/
def getLr (pinv : List (List ℝ) → List ℝ → List ℝ) (se : Option (List (Option ℝ))) : Except Err (Option (List ℝ)) :=
  match se with
  | none => .error .valueError
  | some y =>
    let X : List (List ℝ) := (List.range y.length).map fun i : Nat => [(i : ℝ) + 1, 1]
    .ok ((y.mapM id).map (lstsq pinv X))

/-- 203-207: the margin of error at horizon `h`. -/
def eciMargin (z : ℝ) (coefs : List ℝ) (h : Nat) : ℝ := z * ((h : ℝ) * coefs.getD 0 0 + coefs.getD 1 0)

/-- 177-218, `get_eci`: the forecast with bounds (`ppf` is `stats.norm.ppf`, `predicted` the forecast of the model fitted
to all data).  A forecast of another length than `steps` cannot be combined with the margins. -/
def getEci (ppf : ℝ → ℝ) (pinv : List (List ℝ) → List ℝ → List ℝ) (p : EciParams) (rawErrors : List (List ℝ))
    (predicted : List (Int × ℝ)) (steps : Nat) : Except Err (List FcstRow) := do
  let coefs ← getLr pinv (some (runCv rawErrors))
  let me := (List.range steps).map fun i : Nat => coefs.map fun c => eciMargin (ppf p.confidence) c (i + 1)
  if predicted.length = steps then
    pure (List.zipWith (fun (r : Int × ℝ) (m : Option ℝ) => ⟨r.1, r.2, m.map (r.2 - ·), m.map (r.2 + ·)⟩) predicted me)
  else .error .valueError

end

end Kats
