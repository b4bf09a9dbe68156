import Verif.Model.Cusum
import Verif.Model.TrendMk
import Verif.Model.Kde
import Mathlib.Algebra.Order.Round

/-!
# `kats/tsfeatures/tsfeatures.py`: features taken from detectors, and seasonalities

The detectors are those of `Verif.Model.Cusum` and `Verif.Model.TrendMk`; of the others only the attributes used are kept.
The switches are those of `tsEmit`, so all features are on here.  Exceptions (all features NaN) are not modelled.
-/

namespace Kats

noncomputable section

/-- What `get_cusum_detector` uses of a changepoint. -/
structure CusumPoint where
  index : Nat
  delta : ℝ
  llr : ℝ
  regression : Bool
  stable : Bool
  p : ℝ

/-- `CUSUMChangePoint.confidence` (`cusum_detection.py` 682). -/
def CusumPoint.confidence (c : CusumPoint) : ℝ := 1 - c.p

/-- The eight features. -/
structure CusumFeatures where
  num : Nat
  conf : ℝ
  cpIndex : ℝ
  delta : ℝ
  llr : ℝ
  regression : Bool
  stable : Bool
  p : ℝ

/-- 1479-1517: the features of the first changepoint; `n` is the length of the series. -/
def cusumFeatures (n : Nat) (cps : List CusumPoint) : CusumFeatures where
  num := cps.length
  conf := match cps.head? with | none => 0 | some c => c.confidence
  cpIndex := match cps.head? with | none => 0 | some c => (c.index : ℝ) / n
  delta := match cps.head? with | none => 0 | some c => c.delta
  llr := match cps.head? with | none => 0 | some c => c.llr
  regression := match cps.head? with | none => false | some c => c.regression
  stable := match cps.head? with | none => false | some c => c.stable
  p := match cps.head? with | none => 0 | some c => c.p

open Classical in
/-- `CUSUMDetector.detector()` with the default arguments (`cusum_detection.py` 64-76, 518-661): `pv` is
`1 - chi2.cdf(·, 2)` and `quant` is `chi2.ppf(0.99, 2)`; no window, both directions. -/
def cusumDefault (quant : ℝ) (pv : ℝ → ℝ) (ts : List ℝ) : List CusumPoint :=
  (cusumDetector ⟨quant, 1, 0, false⟩ none 10 none (fun _ => true) [.increase, .decrease] ts).map fun q =>
    ⟨q.2.changepoint, q.2.delta, getLlr ts q.2.mu0 q.2.mu1 q.2.changepoint,
      decide (regressionDetected ⟨quant, 1, 0, false⟩ q.1 ts q.2 none true), q.2.stable,
      pv (getLlr ts q.2.mu0 q.2.mu1 q.2.changepoint)⟩

/-- 1548-1562: number and mean metric of the changepoints of the robust detector; `none` is NaN. -/
def robustFeatures (metrics : List ℝ) : Nat × Option ℝ :=
  (metrics.length, if metrics.length = 0 then none else some (metrics.foldl (· + ·) 0 / metrics.length))

/-- 1597-1616: number, largest and mean confidence of the changepoints of BOCPD. -/
def bocpFeatures (confs : List ℝ) : Nat × ℝ × ℝ :=
  (confs.length, if confs.length = 0 then 0 else confs.foldl max (confs.headD 0),
    if confs.length = 0 then 0 else confs.sum / confs.length)

/-- 1651-1654: `outliers[0]` is the list of outliers of the first metric; `none` is NaN (the assertion fails). -/
def outlierNum (outliers : Option (List (List Int))) : Option Nat :=
  match outliers with
  | some (l :: _) => some l.length
  | _ => none

/-- 1691-1714: number of trends, of increasing ones, and the mean of the absolute values of Tau. -/
def trendFeatures (pts : List MkPoint) : Nat × Nat × ℝ :=
  (pts.length, pts.foldl (fun k p => if p.trend = .increasing then k + 1 else k) 0,
    if pts.length = 0 then 0 else pts.foldl (fun s p => s + |p.tau|) 0 / pts.length)

/-- `np.round`: halves go to the even neighbour. -/
def npRound (x : ℝ) : ℝ :=
  if x - ⌊x⌋ = 1 / 2 then (if ⌊x⌋ % 2 = 0 then (⌊x⌋ : ℝ) else (⌊x⌋ : ℝ) + 1) else (round x : ℝ)

/-- 1967-1973, `seasonality_mag`, of the seasonal component. -/
def seasonalityMag (seasonal : List ℝ) : ℝ :=
  npRound (quantileR (95 / 100) seasonal - quantileR (5 / 100) seasonal)

/-- 1977-1982, `trend_mag`, of the trend component: the regression through the origin of its rise over the positions
(0 here if all positions are zero). -/
def trendMag (trend : List ℝ) : ℝ :=
  ((List.range trend.length).map fun i : Nat => (i : ℝ) * (trend.getD i 0 - trend.getD 0 0)).sum /
    ((List.range trend.length).map fun i : Nat => (i : ℝ) ^ 2).sum

end

end Kats
