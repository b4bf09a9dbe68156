import Verif.Model.PolyModel
import Verif.Model.TsStruct

/-!
# `kats/models/theta.py`

The parameters of the exponential smoothing, the decomposition and the normal quantile are parameters; exponential
smoothing with given parameters is computed.
-/

namespace Kats

open Classical

noncomputable section

/-- What the model takes from elsewhere: the smoothing level and the initial level that
`SimpleExpSmoothing(y).fit()` chooses, the `seasonal` component of
`TimeSeriesDecomposition(data, "multiplicative").decomposer()` (as long as the data), `scipy.stats.norm.ppf` and the
pseudoinverse of a singular problem. -/
structure ThetaWorld where
  sesParams : List ℝ → ℝ × ℝ
  seasonal : List ℝ → List ℝ
  ppf : ℝ → ℝ
  pinv : List (List ℝ) → List ℝ → List ℝ

/-- Simple exponential smoothing: the level after the data `y`, from level `l` and with smoothing level `a`;
`forecast` returns it for every step. -/
def sesLevel (a l : ℝ) (y : List ℝ) : ℝ := y.foldl (fun l v => a * v + (1 - a) * l) l

/-- Simple exponential smoothing: `fittedvalues`, the level before each point. -/
def sesFitted (a : ℝ) : ℝ → List ℝ → List ℝ
  | _, [] => []
  | l, v :: y => l :: sesFitted a (a * v + (1 - a) * l) y

/-- `ses_model.sse`. -/
def sesSse (a l : ℝ) (y : List ℝ) : ℝ := (List.zipWith (fun v f => (v - f) ^ 2) y (sesFitted a l y)).sum

/-- 100-110, `check_seasonality` (a series with a single value has no autocorrelation and is not seasonal). -/
def thetaSeasonal (m : Nat) (y : List ℝ) : Bool :=
  decide (1 < m ∧ (∃ u ∈ y, ∃ v ∈ y, u ≠ v) ∧ 2 * m < y.length
    ∧ let r := fun k : Nat => autoCov y k / autoCov y 0
      let stat := Real.sqrt ((1 + 2 * ((List.range (m - 1)).map fun i : Nat => r (i + 1) ^ 2).sum) / y.length)
      1644 / 1000 < |r m / stat|)

/-- 119-120: some seasonal value is (nearly) zero. -/
def zeroSeasonal (s : List ℝ) : Bool := s.any fun v => decide (|v| < 1 / 10 ^ 10)

/-- The state after `fit`. -/
structure ThetaFitted where
  n : Nat
  seasonal : Bool
  /-- the seasonal component, if the data were decomposed -/
  decomp : Option (List ℝ)
  /-- smoothing level, final level and sum of squared errors of the exponential smoothing -/
  level : ℝ
  last : ℝ
  sse : ℝ
  drift : ℝ
  fitted : List ℝ
  residuals : List ℝ

/-- 112-130, `deseasonalize`: the data to smooth and the decomposition. -/
def thetaDeseason (W : ThetaWorld) (m : Nat) (y : List ℝ) : List ℝ × Option (List ℝ) :=
  if thetaSeasonal m y then
    let s := W.seasonal y
    if zeroSeasonal s then (y, some s) else (List.zipWith (· / ·) y s, some s)
  else (y, none)

/-- 133-155, `fit`. -/
def thetaFit (W : ThetaWorld) (m : Nat) (y : List ℝ) : ThetaFitted :=
  let d := (thetaDeseason W m y).1
  let (a, l) := W.sesParams d
  let regr : List (List ℝ) := (List.range y.length).map fun i : Nat => [(i : ℝ), 1]
  let slope := (lstsq W.pinv regr d).getD 0 0
  let fitted := if thetaSeasonal m y then List.zipWith (· * ·) (sesFitted a l d) ((thetaDeseason W m y).2.getD [])
    else sesFitted a l d
  { n := y.length, seasonal := thetaSeasonal m y, decomp := (thetaDeseason W m y).2, level := a, last := sesLevel a l d,
    sse := sesSse a l d, drift := slope / 2, fitted := fitted, residuals := List.zipWith (· - ·) y fitted }

/-- 192-199: the forecast of the deseasonalised data, step counted from 0. -/
def thetaTrend (s : ThetaFitted) (i : Nat) : ℝ :=
  let a := max (1 / 10 ^ 10) s.level
  s.last + s.drift * ((i : ℝ) + (1 - (1 - a) ^ s.n) / a)

/-- 200-209: the forecast, with the last `m` seasonal values repeated. -/
def thetaForecast (m : Nat) (s : ThetaFitted) (steps : Nat) : List ℝ :=
  let f := (List.range steps).map (thetaTrend s)
  if s.seasonal then
    let d := s.decomp.getD []
    let seas := d.drop (d.length - m)
    List.zipWith (· * ·) f (((List.replicate (1 + steps / m) seas).flatten).take steps)
  else f

/-- 217-218: the standard error of a point of the history (not finite for two points or fewer). -/
def thetaSigma (s : ThetaFitted) : Option ℝ :=
  if s.n ≤ 2 then none else some (Real.sqrt (s.sse / ((s.n : ℝ) - 2)))

/-- 219-222: half the width of the interval, step counted from 0. -/
def thetaMargin (ppf : ℝ → ℝ) (alpha : ℝ) (s : ThetaFitted) (i : Nat) : Option ℝ :=
  (thetaSigma s).map fun sg => -ppf (alpha / 2) * (sg * Real.sqrt ((i : ℝ) * max (1 / 10 ^ 10) s.level ^ 2 + 1))

/-- 159-264, `predict`; `fitted` is `none` before `fit`. -/
def thetaPredict (W : ThetaWorld) (m : Nat) (f : DateFreq) (times : List Int) (fitted : Option ThetaFitted) (steps : Nat)
    (includeHistory : Bool) (alpha : ℝ) : Except Err (List FcstRow) :=
  match fitted with
  | none => .error .valueError
  | some s =>
    let row := fun (v : ℝ) (me : Option ℝ) => (v, me.map (v - ·), me.map (v + ·))
    let future := List.zipWith (fun v i => row v (thetaMargin W.ppf alpha s i)) (thetaForecast m s steps) (List.range steps)
    let hist := s.fitted.map fun v => row v ((thetaSigma s).map fun sg => -W.ppf (alpha / 2) * sg)
    let cols := if includeHistory then hist ++ future else future
    (mkFcst (polyDates f times steps includeHistory) cols).map fun rows =>
      rows.map fun r => ⟨r.1, r.2.1, r.2.2.1, r.2.2.2⟩

/-- `fit` followed by `predict`. -/
def thetaRun (W : ThetaWorld) (m : Nat) (f : DateFreq) (times : List Int) (y : List ℝ) (steps : Nat)
    (includeHistory : Bool) (alpha : ℝ) : Except Err (List FcstRow) :=
  thetaPredict W m f times (some (thetaFit W m y)) steps includeHistory alpha

end

end Kats
