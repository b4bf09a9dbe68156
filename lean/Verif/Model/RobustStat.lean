import Verif.Model.Py
import Mathlib.Analysis.Real.Sqrt
import Mathlib.Data.List.Range

/-!
# `kats/detectors/robust_stat_detection.py`: `RobustStatDetector`

Values are elements of a field (rationals or reals), `none` is NaN.  The smoothing window is a natural number; a
window of 0 gives NaN everywhere.
-/

namespace Kats

section

variable {K : Type} [Field K]

/-- `Series.rolling(window=w).mean()`: NaN until there are `w` values, and if one of them is NaN. -/
def rollMean (w : Nat) (l : List (Option K)) : List (Option K) :=
  (List.range l.length).map fun i : Nat =>
    if w = 0 ∨ i + 1 < w then none
    else ((l.take (i + 1)).drop (i + 1 - w)).mapM id |>.map fun v => v.sum / w

/-- `Series.bfill()`: NaN becomes the next value. -/
def backFill : List (Option K) → List (Option K)
  | [] => []
  | some x :: l => some x :: backFill l
  | none :: l => (backFill l).headD none :: backFill l

/-- `Series.diff(p)`: the difference to the entry `p` places before (after, for negative `p`); NaN
outside. -/
def seriesDiff (p : Int) (l : List (Option K)) : List (Option K) :=
  (List.range l.length).map fun i : Nat =>
    if 0 ≤ (i : Int) - p ∧ (i : Int) - p < l.length then
      (l.getD i none).bind fun x => (l.getD ((i : Int) - p).toNat none).map fun y => x - y
    else none

/-- 69-77: smoothing, differences, `fillna(0)`. -/
def robustDiffs (w : Nat) (p : Int) (l : List (Option K)) : List K :=
  (seriesDiff p (backFill (rollMean w l))).map fun x => x.getD 0

end

noncomputable section

open Classical

/-- `np.mean`. -/
def meanOf (l : List ℝ) : ℝ := l.sum / l.length

/-- `np.var`. -/
def varOf (l : List ℝ) : ℝ := meanOf (l.map fun x => (x - meanOf l) ^ 2)

/-- `scipy.stats.zscore`: NaN for a constant list. -/
def zscores (l : List ℝ) : List (Option ℝ) :=
  l.map fun x => if varOf l = 0 then none else some ((x - meanOf l) / Real.sqrt (varOf l))

/-- `RobustStatChangePoint` (21-41). -/
structure RobustPoint where
  startTime : Int
  endTime : Int
  confidence : ℝ
  index : Nat
  metric : ℝ

/-- 89-96: one pass of the loop; the state is `prev_idx` (`none` for -1) and the points so far. -/
def robustStep (w : Nat) (mk : Nat → RobustPoint) (st : Option Nat × List RobustPoint) (idx : Nat) :
    Option Nat × List RobustPoint :=
  match st.1 with
  | some prev => if idx - prev < w then st else (some idx, st.2 ++ [mk idx])
  | none => (some idx, st.2 ++ [mk idx])

/-- 56-107, `detector`; `sf` is the survival function of the normal distribution, and a comparison with NaN
is false.  The result is also the final value of `zscore`. -/
def robustDetector (sf : ℝ → ℝ) (cutoff : ℝ) (w : Nat) (p : Int) (rows : List (Int × Option ℝ)) :
    List RobustPoint :=
  let d := robustDiffs w p (rows.map (·.2))
  let pv := (zscores d).map fun z => z.map fun z => sf |z|
  let ind := (List.range pv.length).filter fun i => (pv.getD i none).elim false fun q => decide (q < cutoff)
  let mk := fun i : Nat => (⟨(rows.getD i (0, none)).1, (rows.getD i (0, none)).1, 1 - (pv.getD i none).getD 0, i,
    d.getD i 0⟩ : RobustPoint)
  if ind.length = 0 then [] else (ind.foldl (robustStep w mk) (none, [])).2

end

end Kats
