import Verif.Model.Postprocess
import Mathlib.Data.Real.Sqrt
import Mathlib.Algebra.BigOperators.Group.Finset.Basic

/-!
# `kats/detectors/anomaly_postprocessing.py`: the types of anomalies

The classification at 345-480, which `Verif.Model.Postprocess` leaves out.  The p-value of `scipy.stats.ttest_ind` is a
parameter (`none` for `nan`); `np.polyfit` of degree one is the line of least squares, in closed form; the coefficients are
not zero.
-/

namespace Kats

/-- The values up to the time `t` without the last of them: `loc[: t, "val"]` and `[:-1]` (365, 387, 416, 431, 447). -/
def ptBefore (data : List (Int × Rat)) (t : Int) : List Rat :=
  ((data.filter fun r => decide (r.1 ≤ t)).map (·.2)).dropLast

/-- The values from the time `t` on: `loc[t :, "val"]` (366, 388, 422, 432, 448). -/
def ptFrom (data : List (Int × Rat)) (t : Int) : List Rat :=
  (data.filter fun r => decide (t ≤ r.1)).map (·.2)

/-- The mean of an array. -/
def ptMean (y : List Rat) : Rat := (∑ i ∈ Finset.range y.length, y.getD i 0) / y.length

/-- The middle of the positions `np.arange(0, len(y))`. -/
def ptMid (y : List Rat) : Rat := ((y.length : Rat) - 1) / 2

/-- `np.polyfit(np.arange(0, len(y)), y, 1)[0]` (420, 426). -/
def ptSlope (y : List Rat) : Rat :=
  (∑ i ∈ Finset.range y.length, ((i : Rat) - ptMid y) * y.getD i 0)
    / ∑ i ∈ Finset.range y.length, ((i : Rat) - ptMid y) ^ 2

/-- `np.polyfit(np.arange(0, len(y)), y, 1)[1]` (373, 377, 395, 399). -/
def ptIntercept (y : List Rat) : Rat := ptMean y - ptSlope y * ptMid y

/-- The square of `np.std(y)`. -/
def ptVar (y : List Rat) : Rat := (∑ i ∈ Finset.range y.length, (y.getD i 0 - ptMean y) ^ 2) / y.length

/-- `np.std(y)` (437-438, 453-454). -/
noncomputable def ptStd (y : List Rat) : ℝ := Real.sqrt (ptVar y : ℝ)

/-- Whether the level differs between two groups, 367-383 and 389-405; `c` is `level_shift_coefficient`. -/
def ptLevelAt (pval : List Rat → List Rat → Option Rat) (c : Rat) (a b : List Rat) : Bool :=
  if a.length ≤ 1 ∨ b.length ≤ 1 then false
  else match pval a b with
    | none => false
    | some p =>
      if p ≤ 5 / 100 then
        !(decide (ptIntercept a < c * ptIntercept (a ++ b)) && decide (ptIntercept (a ++ b) / c < ptIntercept a))
      else false

/-- `_if_level_shift`, 364-407. -/
def ptLevel (pval : List Rat → List Rat → Option Rat) (c : Rat) (data : List (Int × Rat)) (iv : Int × Int) : Bool :=
  if ptLevelAt pval c (ptBefore data iv.2) (ptFrom data iv.2) then true
  else ptLevelAt pval c (ptBefore data iv.1) (ptFrom data iv.1)

/-- `_if_trend_change`, 415-428. -/
def ptTrend (data : List (Int × Rat)) (iv : Int × Int) : Bool :=
  let a := ptBefore data iv.1
  let b := ptFrom data iv.2
  if a.length ≤ 1 then false else if b.length ≤ 1 then false else decide (ptSlope a * ptSlope b < 0)

open Classical in
/-- Whether the spread differs between two groups, 434-442 and 450-458; `c` is `volatility_change_coefficient`. -/
noncomputable def ptSpreadAt (c : Rat) (a b : List Rat) : Bool :=
  if a.length ≤ 1 ∨ b.length ≤ 1 then false
  else decide ((c : ℝ) * ptStd b ≤ ptStd a) || decide (ptStd a ≤ ptStd b / (c : ℝ))

/-- `_if_volatility_change`, 430-460. -/
noncomputable def ptSpread (c : Rat) (data : List (Int × Rat)) (iv : Int × Int) : Bool :=
  if ptSpreadAt c (ptBefore data iv.2) (ptFrom data iv.2) then true
  else ptSpreadAt c (ptBefore data iv.1) (ptFrom data iv.1)

/-- The type of an anomaly, 356-359 and 473-476. -/
structure PtType where
  level : Bool
  individual : Bool
  trend : Bool
  volatility : Bool

/-- `_get_anomaly_type` (345-361) and `get_each_anomaly_type` (462-493) for the intervals `ivs`: a row for each. -/
noncomputable def ptTypes (pval : List Rat → List Rat → Option Rat) (lc vc : Rat) (data : List (Int × Rat))
    (ivs : List (Int × Int)) : List ((Int × Int) × PtType) :=
  ivs.map fun iv => (iv, ⟨ptLevel pval lc data iv, isIndividual data iv, ptTrend data iv, ptSpread vc data iv⟩)

end Kats
