import Verif.Model.Py
import Mathlib.Algebra.BigOperators.Group.Finset.Basic
import Mathlib.Algebra.Order.Field.Basic

/-!
# `kats/tsfeatures/tsfeatures.py`, the KPSS statistic, the lags of the ARCH test and the smoothing parameters

`statsmodels.tsa.stattools.kpss` with `regression="ct"` and its `_sigma_est_kpss` are written out for exact
numbers; a series is a function from positions with its length. The fit of the exponential smoothing is a
parameter.
-/

namespace Kats

variable {K : Type} [Field K] [LinearOrder K]

/-- The mean of the first `n` values. -/
def ruMean (n : ℕ) (x : ℕ → K) : K := (∑ i ∈ Finset.range n, x i) / n

/-- The regressor `np.arange(1, nobs + 1)`. -/
def ruTime (i : ℕ) : K := (i : K) + 1

/-- The slope of the regression on time with a constant (`OLS(x, add_constant(np.arange(1, nobs + 1)))`). -/
def ruSlope (n : ℕ) (x : ℕ → K) : K :=
  (∑ i ∈ Finset.range n, (ruTime i - ruMean n ruTime) * x i) /
    ∑ i ∈ Finset.range n, (ruTime i - ruMean n ruTime) * (ruTime i - ruMean n ruTime : K)

/-- The residuals of the regression. -/
def ruResid (n : ℕ) (x : ℕ → K) (i : ℕ) : K := x i - ruMean n x - ruSlope n x * (ruTime i - ruMean n ruTime)

/-- `_sigma_est_kpss` of statsmodels for a number of lags. -/
def ruSigma (n lags : ℕ) (e : ℕ → K) : K :=
  (∑ i ∈ Finset.range n, e i * e i +
    ∑ i ∈ Finset.range lags, 2 * (∑ j ∈ Finset.range (n - (i + 1)), e (j + (i + 1)) * e j) *
      (1 - ((i : K) + 1) / ((lags : K) + 1))) / n

/-- `eta` of `kpss`: the sum of the squares of the cumulative sums over the square of the length. -/
def ruEta (n : ℕ) (e : ℕ → K) : K :=
  (∑ i ∈ Finset.range n, (∑ j ∈ Finset.range (i + 1), e j) * (∑ j ∈ Finset.range (i + 1), e j)) / (n * n)

/-- `TsFeatures.get_unitroot_kpss` (tsfeatures.py:1238-1254): `kpss(x, regression="ct", nlags=1)[0]`. At most one
observation raises a ValueError; 0 / 0 is NaN (`none`). -/
def ruKpss (n : ℕ) (x : ℕ → K) : Except Err (Option K) :=
  if n ≤ 1 then .error .valueError
  else
    let e := ruResid n x
    if ruSigma n 1 e = 0 then .ok none else .ok (some (ruEta n e / ruSigma n 1 e))

/-- The number of lags of `TsFeatures.get_het_arch` (tsfeatures.py:1273). -/
def ruArchLags (n : ℕ) : ℕ := min 10 (n / 5)

/-- The parameters of a fitted model: the dictionary `m.params`, as far as it is used. -/
structure RuFit (V : Type) where
  level : V
  trend : V
  seasonal : V

/-- A switch: `extra_args is not None and extra_args.get(name, default_status)`. -/
def ruOn (extra : Option (List (String × Bool))) (default : Bool) (name : String) : Bool :=
  match extra with
  | none => false
  | some d => (d.lookup name).getD default

/-- `TsFeatures.get_holt_params` (tsfeatures.py:1365-1397); `fit` is the fitted model or an exception, `none` is
NaN. -/
def ruHolt {V : Type} (fit : Except Err (RuFit V)) (extra : Option (List (String × Bool))) (default : Bool) :
    List (String × Option V) :=
  match fit with
  | .error _ => [("holt_alpha", none), ("holt_beta", none)]
  | .ok m =>
    [("holt_alpha", if ruOn extra default "holt_alpha" then some m.level else none),
      ("holt_beta", if ruOn extra default "holt_beta" then some m.trend else none)]

/-- `TsFeatures.get_hw_params` (tsfeatures.py:1400-1441). -/
def ruHw {V : Type} (fit : Except Err (RuFit V)) (extra : Option (List (String × Bool))) (default : Bool) :
    List (String × Option V) :=
  match fit with
  | .error _ => [("hw_alpha", none), ("hw_beta", none), ("hw_gamma", none)]
  | .ok m =>
    [("hw_alpha", if ruOn extra default "hw_alpha" then some m.level else none),
      ("hw_beta", if ruOn extra default "hw_beta" then some m.trend else none),
      ("hw_gamma", if ruOn extra default "hw_gamma" then some m.seasonal else none)]

end Kats
