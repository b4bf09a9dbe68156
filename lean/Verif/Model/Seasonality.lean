import Verif.Model.RollingStats
import Mathlib.Analysis.SpecialFunctions.Log.Basic
import Mathlib.Data.List.Range

/-!
# `kats/detectors/seasonality.py`: `ACFDetector` and `FFTDetector`

The autocorrelation with its confidence interval and the power spectrum are parameters.
-/

namespace Kats

/-! ### `ACFDetector` -/

/-- 82-88, `_get_seasonality_length`; all entries are positive when it is called. -/
def seasonLengths : List Nat → List Nat
  | [] => []
  | k :: d => k :: seasonLengths (d.filter fun i => decide (i % k ≠ 0))
termination_by d => d.length
decreasing_by
  simp only [List.length_unattach, List.length_cons]
  exact Nat.lt_succ_of_le ((List.length_filter_le _ _).trans (by simp))

/-- `np.diff`. -/
def npDiff {K : Type} [Sub K] (l : List K) : List K := (l.drop 1).zipWith (· - ·) l

/-- What the detector stores and returns (119-136). -/
structure AcfOut (K : Type) where
  tsDiff : List K
  lags : Nat
  seasonality : List Nat
  detected : Bool

/-- 93-136, `detector`.  `acf x lags alpha` is the list of the lower ends of the confidence intervals (`none`
is NaN) for lags 0, 1, …; without `alpha` there is no confidence interval, so that the result cannot be
unpacked into four parts. -/
def acfDetector {K : Type} [Sub K] (acf : List K → Nat → Rat → Except Err (List (Option Rat))) (ts : List K)
    (lags : Option Nat := none) (diff : Nat := 1) (alpha : Option Rat := some (1 / 100)) : Except Err (AcfOut K) :=
  let d := npDiff^[diff] ts
  let lags := lags.getD (ts.length / 3)
  match alpha with
  | none => .error .valueError
  | some alpha => do
    let lower ← acf d lags alpha
    let raw := (List.range lower.length).filter fun i =>
      ((lower.getD i none).elim false fun x => decide (0 ≤ x)) && decide (i > 1)
    let s := seasonLengths raw
    pure ⟨d, lags, s, !s.isEmpty⟩

/-- 158-182, `remover`: whether the series is decomposed (`none`: nothing is returned). -/
def acfRemover {R : Type} (detected anyWay : Bool) (decompose : Except Err R) : Except Err (Option R) :=
  if anyWay || detected then decompose.map some else .ok none

noncomputable section

open Classical

/-! ### `FFTDetector` -/

/-- `scipy.fftpack.fftfreq(n, 1 / s)`. -/
def fftFreq (n : Nat) (s : ℝ) : List ℝ :=
  ((List.range ((n - 1) / 2 + 1)).map fun i : Nat => (i : ℝ) * s / n) ++
    ((List.range (n / 2)).map fun i : Nat => ((i : ℝ) - (n / 2 : Nat)) * s / n)

/-- A row: frequency and amplitude (`none` is minus infinity). -/
abbrev FftRow := ℝ × Option ℝ

/-- 281: `10 * log10(x)`. -/
def decibel (x : ℝ) : Option ℝ := if x = 0 then none else some (10 * (Real.log x / Real.log 10))

/-- 265-283, `get_fft`; `psd` is the power spectrum (275-276), `s` the sample spacing (0 raises). -/
def getFft (psd : List ℝ) (s : ℝ) : Except Err (List FftRow) :=
  if s = 0 then .error .otherError
  else .ok ((((fftFreq psd.length s).zip psd).filter fun r => decide (r.1 > 0)).map fun r => (r.1, decibel r.2))

/-- `find_peaks(x, threshold=0.1)`, one position: larger than both neighbours by at least 0.1 (this excludes
plateaus); the first and the last position have no two neighbours. -/
def exceeds (a b : Option ℝ) : Bool :=
  match a, b with
  | some x, some y => decide (y + 1 / 10 ≤ x)
  | some _, none => true
  | none, _ => false

/-- `find_peaks(fft["ampl"], threshold=0.1)[0]`. -/
def peakIdx (l : List FftRow) : List Nat :=
  (List.range l.length).filter fun i =>
    decide (0 < i) && decide (i + 1 < l.length) &&
      exceeds (l.getD i (0, none)).2 (l.getD (i - 1) (0, none)).2 &&
      exceeds (l.getD i (0, none)).2 (l.getD (i + 1) (0, none)).2

/-- 301-308: the threshold; NaN (`none`) if there is no positive amplitude or none above their median. -/
def fftThreshold (l : List FftRow) (madThreshold : ℝ) : Option ℝ :=
  let pos := l.filterMap fun r => r.2.bind fun x => if x > 0 then some x else none
  if pos = [] then none
  else
    let med := medianR pos
    let above := pos.filter fun x => decide (x > med)
    if above = [] then none
    else
      let m := above.sum / above.length
      some (med + (above.map fun x => |x - m|).sum / above.length * madThreshold)

/-- `x % 1`. -/
def mod1 (x : ℝ) : ℝ := x - ⌊x⌋

/-- 325-326: the second frequency is nearly a multiple of the first. -/
def isHarmonic (f g : ℝ) : Bool := decide (mod1 (g / f) < 1 / 100) || decide (mod1 (g / f) > 99 / 100)

/-- 320-327: the marks after the outer loop has run for the first `k` peaks; `is True` never holds for a
numpy boolean, so that no pair is skipped. -/
def markStep (fs : List ℝ) (marks : List Bool) (i : Nat) : List Bool :=
  (List.range marks.length).map fun j =>
    if i < j ∧ isHarmonic (fs.getD i 0) (fs.getD j 0) then true else marks.getD j false

/-- 285-330, `get_fft_peaks`: threshold, peaks, selected peaks. -/
def fftPeaks (l : List FftRow) (madThreshold : ℝ) : Option ℝ × List FftRow × List FftRow :=
  let thr := fftThreshold l madThreshold
  let orig := (peakIdx l).map fun i => l.getD i (0, none)
  let high := orig.filter fun r => thr.elim false fun t => r.2.elim false fun x => decide (x > t)
  let marks := (List.range high.length).foldl (markStep (high.map (·.1))) (high.map fun _ => false)
  (thr, orig, ((high.zip marks).filter fun p => !p.2).map (·.1))

/-- 204-231, `detector`: presence and cycle lengths. -/
def fftDetector (psd : List ℝ) (s : ℝ := 1) (madThreshold : ℝ := 6) : Except Err (Bool × List ℝ) := do
  let fft ← getFft psd s
  let peaks := (fftPeaks fft madThreshold).2.2
  pure (decide (peaks.length > 0), peaks.map fun r => 1 / r.1)

end

end Kats
