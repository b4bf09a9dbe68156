import Verif.Model.RollingStats
import Verif.Model.RobustStat
import Verif.Model.Backtest
import Mathlib.Analysis.SpecialFunctions.Log.Base
import Mathlib.Data.List.MinMax

/-!
# `kats/tsfeatures/tsfeatures.py`: the statistics of `TsFeatures`

The features of the group `statistics` for a series without missing values.  Values are reals, a result `none` is NaN.
The periodogram is a parameter.  The Hurst exponent is in `Hurst.lean`.  Not modelled: the KPSS and the ARCH statistics.
-/

namespace Kats

noncomputable section

open Classical

/-- `np.argmax`: the first position of the largest element. -/
def argmaxIdx {α : Type} [LinearOrder α] (l : List α) : Nat := l.findIdx fun v => decide (∀ w ∈ l, w ≤ v)

/-- Consecutive parts of the given sizes. -/
def splitSizes {α : Type} : List Nat → List α → List (List α)
  | [], _ => []
  | s :: ss, x => x.take s :: splitSizes ss (x.drop s)

/-- 675, 695: `np.array_split(x, len(x) // window_size + 1)`. -/
def tsChunks (x : List ℝ) (window : Nat) : List (List ℝ) :=
  splitSizes (arraySplitSizes x.length (x.length / window + 1)) x

/-- `np.var` and `np.mean` of a possibly empty array. -/
def chunkVar (l : List ℝ) : Option ℝ := if l = [] then none else some (varOf l)

def chunkMean (l : List ℝ) : Option ℝ := if l = [] then none else some (meanOf l)

/-- 661-676, `get_lumpiness` (`otherError` is `ZeroDivisionError`). -/
def getLumpiness (x : List ℝ) (window : Nat) : Except Err (Option ℝ) :=
  if window = 0 then .error .otherError
  else .ok (((tsChunks x window).mapM chunkVar).map varOf)

/-- 681-696, `get_stability`. -/
def getStability (x : List ℝ) (window : Nat) : Except Err (Option ℝ) :=
  if window = 0 then .error .otherError
  else .ok (((tsChunks x window).mapM chunkMean).map varOf)

/-- `[len(list(v)) for k, v in groupby(l)]` -/
def groupLens {α : Type} [DecidableEq α] : List α → List Nat
  | [] => []
  | a :: t =>
    (1 + (t.takeWhile fun b => decide (b = a)).length) :: groupLens (t.dropWhile fun b => decide (b = a))
termination_by l => l.length
decreasing_by
  simp only [List.length_cons]
  have := (List.dropWhile_sublist (l := t) fun b => decide (b = a)).length_le
  omega

/-- The largest of the run lengths of a segment. -/
def maxRun {α : Type} [DecidableEq α] (l : List α) : Nat := (groupLens l).foldl max 0

/-- 894: the segments `x[i : i + window_size] for i in range(0, len(x), window_size)`. -/
def tsSegments {α : Type} (x : List α) (w : Nat) : List (List α) :=
  (List.range ((x.length + w - 1) / w)).map fun i : Nat => (x.drop (i * w)).take w

/-- 872-901, `get_flat_spots` (`otherError` is `ZeroDivisionError`). -/
def getFlatSpots (x : List ℝ) (nbins : Nat) : Except Err (Option Nat) :=
  if x.length ≤ nbins then .ok none
  else if nbins = 0 then .error .otherError
  else .ok (some (((tsSegments x (x.length / nbins)).map maxRun).foldl (fun m r => if r > m then r else m) 0))

/-- `np.gradient` with unit spacing (`ValueError` below two points). -/
def npGradient (x : List ℝ) : Except Err (List ℝ) :=
  if x.length < 2 then .error .valueError
  else .ok ((List.range x.length).map fun i : Nat =>
    if i = 0 then x.getD 1 0 - x.getD 0 0
    else if i + 1 = x.length then x.getD i 0 - x.getD (i - 1) 0
    else (x.getD (i + 1) 0 - x.getD (i - 1) 0) / 2)

/-- 1176-1189, `get_std1st_der`. -/
def getStd1stDer (x : List ℝ) : Except Err ℝ := (npGradient x).map fun g => Real.sqrt (varOf g)

/-- 1194-1213, `get_crossing_points`. -/
def getCrossingPoints (x : List ℝ) : Nat :=
  let m := medianR x
  (List.range (x.length - 1)).countP fun i : Nat =>
    decide (x.getD i 0 ≤ m ∧ m < x.getD (i + 1) 0 ∨ x.getD i 0 ≥ m ∧ m > x.getD (i + 1) 0)

/-- 1218-1233, `get_binarize_mean`. -/
def getBinarizeMean (x : List ℝ) : ℝ := meanOf (x.map fun v => if v > meanOf x then (1 : ℝ) else 0)

/-- The least and the greatest value. -/
def minOf (x : List ℝ) : ℝ := x.foldr min (x.headD 0)

def maxOf (x : List ℝ) : ℝ := x.foldr max (x.headD 0)

/-- The range of `np.histogram`: a range of width zero is widened by a half on both sides. -/
def histRange (x : List ℝ) : ℝ × ℝ :=
  if minOf x = maxOf x then (minOf x - 1 / 2, maxOf x + 1 / 2) else (minOf x, maxOf x)

/-- Edge `i` of the `nbins + 1` bin edges. -/
def histEdge (x : List ℝ) (nbins i : Nat) : ℝ :=
  (histRange x).1 + i * (((histRange x).2 - (histRange x).1) / nbins)

/-- The count of bin `i`: the last bin is closed. -/
def histCount (x : List ℝ) (nbins i : Nat) : Nat :=
  x.countP fun v => decide (histEdge x nbins i ≤ v ∧ (v < histEdge x nbins (i + 1) ∨ i + 1 = nbins ∧ v = histEdge x nbins (i + 1)))

/-- 1278-1292, `get_histogram_mode` with numpy's histogram (numba's leaves a range of width zero as it is).  `nbins` is
positive and the series not empty. -/
def getHistogramMode (x : List ℝ) (nbins : Nat) : ℝ :=
  histEdge x nbins (argmaxIdx ((List.range nbins).map (histCount x nbins)))

/-- Sums of squares and products about the means, the building blocks of `scipy.stats.linregress`. -/
def sxy (x y : List ℝ) : ℝ := (List.zipWith (fun a b => (a - meanOf x) * (b - meanOf y)) x y).sum

/-- 1349-1361, `get_linearity`: the square of the correlation with `0, 1, ...`, zero for a constant series. -/
def getLinearity (x : List ℝ) : ℝ :=
  let t := (List.range x.length).map fun i : Nat => (i : ℝ)
  let den := Real.sqrt (sxy t t * sxy x x)
  let r := if den = 0 then 0 else sxy t x / den
  let r := if r > 1 then 1 else if r < -1 then -1 else r
  r ^ 2

/-- 636-656, `get_spectral_entropy`, of the periodogram: terms with `0 * log2(0)` are NaN and ignored, as are all terms
if the sum is zero; a single frequency gives `0 / 0`. -/
def getSpectralEntropy (psd : List ℝ) : Option ℝ :=
  if psd.length ≤ 1 then none
  else
    let p := psd.map fun v => v / psd.sum
    let e := if psd.sum = 0 then 0 else ((p.filter fun v => decide (v ≠ 0)).map fun v => v * Real.logb 2 v).sum
    some (-(e / Real.logb 2 p.length))

end

end Kats
