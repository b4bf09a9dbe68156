import Verif.Model.Py
import Mathlib.Analysis.Real.Sqrt
import Mathlib.Analysis.SpecialFunctions.Exp
import Mathlib.Analysis.SpecialFunctions.Trigonometric.Basic
import Mathlib.Algebra.Order.Floor.Semiring
import Mathlib.Data.List.Sort
import Mathlib.Data.List.Range

/-!
# `kats/detectors/residual_translation.py`: `KDEResidualTranslator`

Univariate series; values are reals, `none` is NaN.
-/

namespace Kats

noncomputable section

open Classical

/-- A univariate series. -/
abbrev USeries := List (Int × Option ℝ)

/-- `Series.quantile(q)`: linear interpolation between order statistics. -/
def quantileR (q : ℝ) (l : List ℝ) : ℝ :=
  let s := l.insertionSort (· ≤ ·)
  let h := ((s.length - 1 : Nat) : ℝ) * q
  s.getD ⌊h⌋₊ 0 + (h - ⌊h⌋₊) * (s.getD (min (⌊h⌋₊ + 1) (s.length - 1)) 0 - s.getD ⌊h⌋₊ 0)

/-- The attributes: the two fractions and the fitted density (training values and bandwidth). -/
structure Kde where
  below : ℝ := 0
  above : ℝ := 1
  kde : Option (List ℝ × ℝ) := none

/-- 32-74, `__init__`. -/
def Kde.init (below above : ℝ) : Except Err Kde :=
  if below < 0 ∨ above > 1 then .error .valueError
  else if below > above then .error .valueError
  else .ok { below, above }

/-- The arguments of `fit` and of the predictions (76-83, 126-133, 156-163). -/
structure KdeArgs where
  y : Option USeries := none
  yhat : Option USeries := none
  lower : Option USeries := none
  upper : Option USeries := none
  residual : Option USeries := none

/-- What is called: the difference and the quotient of two series, the sort of `TimeSeriesData`, and the
randomised search, which picks one of the bandwidths on offer for the training values. -/
structure KdeWorld where
  sub : USeries → USeries → Except Err USeries
  div : USeries → USeries → Except Err USeries
  srt : List (Int × ℝ) → List (Int × ℝ)
  pick : List ℝ → List ℝ → ℝ

/-- 201-222: the residual before missing values are removed. -/
def kdeRaw (W : KdeWorld) (a : KdeArgs) : Except Err USeries :=
  match a.yhat with
  | some yhat =>
    match a.y with
    | none => .error .valueError
    | some y =>
      if a.residual.isSome then .error .valueError
      else do
        let r ← W.sub y yhat
        match a.lower, a.upper with
        | some l, some u => do
          let band ← W.sub u l
          W.div r band
        | none, none => pure r
        | _, _ => .error .valueError
  | none =>
    match a.residual with
    | some r =>
      if a.y.isSome || a.lower.isSome || a.upper.isSome then .error .valueError
      else .ok r
    | none => .error .valueError

/-- 224-226: without the missing values. -/
def dropMissing (r : USeries) : List (Int × ℝ) := r.filterMap fun x => x.2.map fun v => (x.1, v)

/-- 193-227, `_get_residual`. -/
def kdeResidual (W : KdeWorld) (a : KdeArgs) : Except Err (List (Int × ℝ)) := do
  let r ← kdeRaw W a
  pure (dropMissing r)

/-- 224-226: the caller's `residual` afterwards; a given series is changed in place. -/
def kdeCallerResidual (W : KdeWorld) (a : KdeArgs) : Option USeries :=
  match kdeRaw W a with
  | .ok _ => a.residual.map fun r => (dropMissing r).map fun x => (x.1, some x.2)
  | .error _ => a.residual

/-- 98-101: the training values. -/
def kdeTrain (k : Kde) (v : List ℝ) : List ℝ :=
  v.filter fun x => decide (x > quantileR k.below v) && decide (x < quantileR k.above v)

/-- 104-107: `np.linspace(extent / 1000, extent / 10, 1000)`. -/
def kdeGrid (train : List ℝ) : List ℝ :=
  let extent := quantileR (95 / 100) train - quantileR (5 / 100) train
  (List.range 1000).map fun i : Nat => extent / 1000 + i * ((extent / 10 - extent / 1000) / 999)

/-- 76-116, `fit`.  Cross-validation needs five values, and no bandwidth may be zero. -/
def Kde.fit (W : KdeWorld) (k : Kde) (a : KdeArgs) : Except Err Kde := do
  let r ← kdeResidual W a
  let train := kdeTrain k (r.map (·.2))
  if train.length < 5 then .error .valueError
  else if quantileR (95 / 100) train - quantileR (5 / 100) train = 0 then .error .valueError
  else pure { k with kde := some (train, W.pick train (kdeGrid train)) }

/-- The Gaussian kernel density estimate. -/
def kdeDensity (train : List ℝ) (h x : ℝ) : ℝ :=
  (train.map fun t => Real.exp (-((x - t) / h) ^ 2 / 2) / (h * Real.sqrt (2 * Real.pi))).sum / train.length

/-- 126-191, `predict_proba`: the exponential of the logarithm of the density (`predict_log_proba`). -/
def Kde.predictProba (W : KdeWorld) (k : Kde) (a : KdeArgs) : Except Err (List (Int × ℝ)) := do
  let r ← kdeResidual W a
  match k.kde with
  | none => .error .attributeError
  | some (train, h) => pure (W.srt (r.map fun x => (x.1, kdeDensity train h x.2)))

end

end Kats
