import Verif.Model.Py
import Mathlib.Analysis.SpecialFunctions.Log.Basic
import Mathlib.Analysis.Real.Sqrt
import Mathlib.Algebra.BigOperators.Fin

/-!
# `kats/detectors/cusum_detection.py`

The univariate, vectorised and multivariate CUSUM detectors: changepoint iteration, likelihood
ratio, decision.  Values are elements of an ordered field (exact arithmetic); where square roots and
logarithms occur, reals.  Not modelled: NaN data, the magnitude comparison with earlier days
(`_magnitude_compare`, a Boolean parameter here), plotting, a start point outside the series.
-/

namespace Kats

/-- The two values of `change_direction`. -/
inductive Dir where
  | increase | decrease
deriving DecidableEq, Repr

section
variable {K : Type} [Field K] [LinearOrder K]

/-- `np.mean` of a non-empty array. -/
def mean (l : List K) : K := l.sum / l.length

/-- `np.cumsum`, with a running total. -/
def cumsumFrom : K → List K → List K
  | _, [] => []
  | acc, a :: l => (acc + a) :: cumsumFrom (acc + a) l

/-- `np.cumsum(ts - m)`. -/
def cusum (ts : List K) (m : K) : List K := cumsumFrom 0 (ts.map (· - m))

/-- Is `a` strictly better than `b`: smaller for `np.argmin` (direction "increase"), greater for
`np.argmax` ("decrease") (353-358). -/
def Dir.better : Dir → K → K → Bool
  | .increase, a, b => a < b
  | .decrease, a, b => b < a

/-- `changepoint_func`: `np.argmin` / `np.argmax`, the first index of the extreme value. -/
def argBest (d : Dir) : List K → Nat
  | [] => 0
  | a :: l =>
    let j := argBest d l
    match l[j]? with
    | none => 0
    | some b => if d.better b a then j + 1 else 0

/-- Loop body 377-382: re-estimate the two means around `cp`, return the next changepoint.
`ts_int[: (cp + 1)]` is `ts.take (cp + 1)`. -/
def cusumStep (d : Dir) (ts : List K) (cp : Nat) : Nat :=
  let mu0 := mean (ts.take (cp + 1))
  let mu1 := mean (ts.drop (cp + 1))
  max 1 (min (argBest d (cusum ts ((mu0 + mu1) / 2))) (ts.length - 2))

/-- The loop 375-385, `fuel = max_iter - n`; returns the changepoint and the number of iterations
done. -/
def cusumLoop (d : Dir) (ts : List K) : Nat → Nat → Nat × Nat
  | 0, cp => (cp, 0)
  | fuel + 1, cp =>
    if cusumStep d ts cp = cp then (cp, 1)
    else
      let r := cusumLoop d ts fuel (cusumStep d ts cp)
      (r.1, r.2 + 1)

/-- The initial changepoint (367-371). -/
def cusumStart (d : Dir) (ts : List K) : Option Nat → Nat
  | none => min (argBest d (cusum ts (mean ts))) (ts.length - 2)
  | some s => s

/-- `CUSUMChangePointVal` (79-94), the fields set by `_get_change_point`, without `changetime`. -/
structure CusumVal (K : Type) where
  changepoint : Nat
  mu0 : K
  mu1 : K
  stable : Bool
  delta : K
  deltaInt : Option K
deriving DecidableEq, Repr

/-- `ts[w[0] : w[1]]` or the whole series (362-365). -/
def windowOf (w : Option (Nat × Nat)) (ts : List K) : List K :=
  match w with
  | none => ts
  | some (a, b) => (ts.take b).drop a

/-- The offset added to the changepoint (406). -/
def windowStart (w : Option (Nat × Nat)) : Nat :=
  match w with
  | none => 0
  | some (a, _) => a

/-- `delta_int` (397, 405). -/
def deltaInt (w : Option (Nat × Nat)) (tsInt : List K) (cp : Nat) : Option K :=
  match w with
  | none => none
  | some _ => some (mean (tsInt.drop (cp + 1)) - mean (tsInt.take (cp + 1)))

/-- `CUSUMDetector._get_change_point` (344-423), except the likelihood ratio in the window. -/
def getChangePoint (d : Dir) (w : Option (Nat × Nat)) (maxIter : Nat) (start : Option Nat)
    (ts : List K) : CusumVal K :=
  let tsInt := windowOf w ts
  let r := cusumLoop d tsInt maxIter (cusumStart d tsInt start)
  let cp := r.1 + windowStart w
  let mu0 := mean (ts.take (cp + 1))
  let mu1 := mean (ts.drop (cp + 1))
  ⟨cp, mu0, mu1, r.2 != maxIter, mu1 - mu0, deltaInt w tsInt r.1⟩

/-! ## Vectorised detector (1309-1435) -/

/-- `mask[: (c + 1), i] = True`: column of the Boolean mask. -/
def prefixMask (n c : Nat) : List Bool := (List.range n).map fun j => decide (j < c + 1)

/-- `np.sum(np.multiply(ts, mask)) / np.sum(mask)` for one column. -/
def maskMean (ts : List K) (mask : List Bool) : K :=
  (List.zipWith (fun x b => if b then x else 0) ts mask).sum / (mask.count true : Nat)

/-- One column of the loop body 1365-1381. -/
def vecStepCol (d : Dir) (ts : List K) (cp : Nat) : Nat :=
  let mask := prefixMask ts.length cp
  let mu0 := maskMean ts mask
  let mu1 := maskMean ts (mask.map not)
  max (min (argBest d (cusum ts ((mu0 + mu1) / 2))) (ts.length - 2)) 1

/-- The loop 1364-1385 over all columns; returns changepoints and stability flags. -/
def vecLoop (d : Dir) (cols : List (List K)) : Nat → List Nat → List Bool → List Nat × List Bool
  | 0, cps, st => (cps, st)
  | fuel + 1, cps, _ =>
    let nx := List.zipWith (vecStepCol d) cols cps
    let st := List.zipWith (fun a b => a == b) cps nx
    if st.all id then (cps, st) else vecLoop d cols fuel nx st

/-- `_get_change_point_multiple_ts` (1309-1435) for columns of positive length, without the
likelihood ratio in the window. -/
def vecChangePoints (d : Dir) (w : Option (Nat × Nat)) (maxIter : Nat) (start : Option Nat)
    (cols : List (List K)) : List (CusumVal K) :=
  let colsInt := cols.map (windowOf w)
  let cps0 := colsInt.map fun ts => cusumStart d ts start
  let r := vecLoop d colsInt maxIter cps0 (List.replicate cps0.length false)
  (cols.zip (r.1.zip r.2)).map fun q =>
    let cp := q.2.1 + windowStart w
    let mask := prefixMask q.1.length cp
    let mu0 := maskMean q.1 mask
    let mu1 := maskMean q.1 (mask.map not)
    ⟨cp, mu0, mu1, q.2.2, mu1 - mu0,
      w.map fun _ => maskMean (windowOf w q.1) ((prefixMask (windowOf w q.1).length q.2.1).map not)
        - maskMean (windowOf w q.1) (prefixMask (windowOf w q.1).length q.2.1)⟩

end

/-! ## Likelihood ratio and decision -/

/-- `_log_llr` (453-475): `log(l(0)/l(1))` of two Gaussians. -/
noncomputable def logLlr (x : List ℝ) (mu0 sigma0 mu1 sigma1 : ℝ) : ℝ :=
  (x.map fun v => Real.log (sigma1 / sigma0) +
    0.5 * (((v - mu1) / sigma1) ^ 2 - ((v - mu0) / sigma0) ^ 2)).sum

/-- Sum of squared deviations. -/
def sqDev {K : Type} [Field K] (x : List K) (m : K) : K := (x.map fun v => (v - m) ^ 2).sum

/-- `np.std` (population). -/
noncomputable def npStd (x : List ℝ) : ℝ := Real.sqrt (sqDev x (mean x) / x.length)

/-- `_get_llr` (425-451). -/
noncomputable def getLlr (ts : List ℝ) (mu0 mu1 : ℝ) (cp : Nat) : ℝ :=
  let scale := Real.sqrt ((sqDev (ts.take (cp + 1)) mu0 + sqDev (ts.drop (cp + 1)) mu1) /
    ((ts.length : ℝ) - 2))
  let muT := mean ts
  let sigT := npStd ts
  let scale' := if scale = 0 then sigT * 0.01 else scale
  (-2) * (logLlr (ts.take (cp + 1)) muT sigT mu0 scale' +
    logLlr (ts.drop (cp + 1)) muT sigT mu1 scale')

/-- Arguments of `detector` used in the decision; `quant` is `chi2.ppf(1 - threshold, 2)`. -/
structure CusumArgs where
  quant : ℝ
  deltaStdRatio : ℝ
  minAbsChange : ℝ
  returnAll : Bool

/-- `regression_detected` (635-656). `llrInt = none` is `np.inf` (no window). -/
noncomputable def regressionDetected (a : CusumArgs) (d : Dir) (ts : List ℝ) (v : CusumVal ℝ)
    (llrInt : Option ℝ) (magChange : Bool) : Prop :=
  a.quant < getLlr ts v.mu0 v.mu1 v.changepoint ∧
  (∀ l, llrInt = some l → a.quant < l) ∧
  (match d with
    | .increase => v.mu0 + a.minAbsChange < v.mu1
    | .decrease => v.mu1 + a.minAbsChange < v.mu0) ∧
  npStd (ts.take v.changepoint) * a.deltaStdRatio < |v.delta| ∧
  magChange = true

/-- `llr_int` (394-403): `none` for `np.inf`. -/
noncomputable def llrInt (w : Option (Nat × Nat)) (ts : List ℝ) (cpInt : Nat) : Option ℝ :=
  w.map fun _ => getLlr (windowOf w ts) (mean ((windowOf w ts).take (cpInt + 1)))
    (mean ((windowOf w ts).drop (cpInt + 1))) cpInt

open Classical in
/-- `CUSUMDetector.detector` (595-661): the changepoints returned, one candidate per direction. -/
noncomputable def cusumDetector (a : CusumArgs) (w : Option (Nat × Nat)) (maxIter : Nat)
    (start : Option Nat) (mag : Dir → Bool) (dirs : List Dir) (ts : List ℝ) :
    List (Dir × CusumVal ℝ) :=
  (dirs.map fun d => (d, getChangePoint d w maxIter start ts)).filter fun q =>
    decide (regressionDetected a q.1 ts q.2 (llrInt w ts (q.2.changepoint - windowStart w))
      (mag q.1)) || a.returnAll

/-! ## Multivariate detector (740-959) -/

section
variable {K : Type} [Field K] {d : Nat}

/-- `np.matmul(np.matmul(u, P), v.T)`. -/
def bilin (P : Fin d → Fin d → K) (u v : Fin d → K) : K :=
  ∑ i, ∑ j, u i * P i j * v j

/-- `np.mean(x, axis=0)`. -/
def meanVec (x : List (Fin d → K)) : Fin d → K := fun i => (x.map fun v => v i).sum / x.length

/-- `_log_llr_multi` (845-868). `P0`, `P1` are the inverse covariances, `ld0`, `ld1` the log
determinants. -/
def logLlrMulti (x : List (Fin d → K)) (mu0 : Fin d → K) (P0 : Fin d → Fin d → K) (ld0 : K)
    (mu1 : Fin d → K) (P1 : Fin d → Fin d → K) (ld1 : K) : K :=
  (x.length : K) / 2 * (ld0 - ld1) +
    (x.map fun v => -bilin P1 (fun i => v i - mu1 i) (fun i => v i - mu1 i) +
      bilin P0 (fun i => v i - mu0 i) (fun i => v i - mu0 i)).sum

/-- `MultiCUSUMDetector._get_llr` (813-843) as called from `detector` (792-799): `sigma0`, `sigma1`
and `sigma_pooled` are all `np.cov(ts)` (lines 941 and 823), with inverse `P` and log determinant
`ld`; `mu0`, `mu1` are the segment means (939-940). -/
def multiLlr (P : Fin d → Fin d → K) (ld : K) (ts : List (Fin d → K)) (cp : Nat) : K :=
  -2 * (logLlrMulti (ts.take (cp + 1)) (meanVec ts) P ld (meanVec (ts.take (cp + 1))) P ld -
    logLlrMulti (ts.drop (cp + 1)) (meanVec ts) P ld (meanVec (ts.drop (cp + 1))) P ld)

end

end Kats
