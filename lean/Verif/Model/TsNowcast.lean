import Verif.Model.TsStats

/-!
# `kats/tsfeatures/tsfeatures.py`: nowcasting features

For a series without missing values and with all features enabled; NaN is `none`.
-/

namespace Kats

noncomputable section

open Classical

/-- 1747-1750: the loop of `_ewma` from index `i` on, `q` is `1 - alpha`. -/
def ewmaLoop (q : ℝ) : Nat → ℝ → ℝ → List ℝ → List ℝ
  | _, _, _, [] => []
  | i, w, old, a :: t => ((old * q + a) / (w + q ^ i)) :: ewmaLoop q (i + 1) (w + q ^ i) (old * q + a) t

/-- 1740-1750: the averages, `arr` not empty. -/
def ewmaAll (q : ℝ) : List ℝ → List ℝ
  | [] => []
  | a :: t => a :: ewmaLoop q 1 1 a t

/-- 1743: `1 - alpha` with `alpha = 2 / (span + 1)`. -/
def ewmaQ (span : Nat) : ℝ := 1 - 2 / ((span : ℝ) + 1)

/-- 1719-1754, `_ewma`, for positive `min_periods`.  If there is no value the code reads outside the array (`indexError`
here); if no average is left, the slice `output_array[-0:]` is the whole array and the assignment fails. -/
def ewmaFn (arr : List (Option ℝ)) (span minPeriods : Nat) : Except Err (List (Option ℝ)) :=
  let v := arr.filterMap id
  if v = [] then .error .indexError
  else
    let sub := (ewmaAll (ewmaQ span) v).drop (minPeriods - 1)
    if sub = [] then .error .valueError
    else .ok (List.replicate (arr.length - sub.length) none ++ sub.map some)

/-- `x[:-k]` -/
def pyDropEnd (x : List ℝ) (k : Nat) : List ℝ := if k = 0 then [] else x.take (x.length - k)

/-- The mean of an array that can be empty. -/
def meanNan (l : List ℝ) : Option ℝ := if l = [] then none else some (meanOf l)

/-- `np.nanmean` -/
def nanMeanR (l : List (Option ℝ)) : Option ℝ := meanNan (l.filterMap id)

/-- Difference of floats that can be NaN. -/
def nanSub1 (u v : Option ℝ) : Option ℝ :=
  match u, v with
  | some p, some q => some (p - q)
  | _, _ => none

/-- Difference of arrays with NaN. -/
def nanSub (a b : List (Option ℝ)) : List (Option ℝ) := List.zipWith nanSub1 a b

/-- 1789-1794, the rate of change; the shapes do not match if `window` is one. -/
def nowRoc (x : List ℝ) (window : Nat) : Except Err (Option ℝ) :=
  if (x.drop (window - 1)).length ≠ (pyDropEnd x (window - 1)).length then .error .valueError
  else .ok (meanNan (List.zipWith (fun a b => if b = 0 then 0 else (a - b) / b) (x.drop (window - 1)) (pyDropEnd x (window - 1))))

/-- 1798-1801, the momentum. -/
def nowMom (x : List ℝ) (window : Nat) : Option ℝ :=
  meanNan (List.zipWith (fun a b => a - b) (x.drop window) (pyDropEnd x window))

/-- `np.cumsum` -/
def cumsumR (x : List ℝ) : List ℝ := (List.range x.length).map fun i : Nat => (x.take (i + 1)).sum

/-- 1805-1810, the moving average. -/
def nowMa (x : List ℝ) (window : Nat) : Option ℝ :=
  let c := cumsumR x
  let ret := c.take window ++ List.zipWith (fun a b => a - b) (c.drop window) (pyDropEnd c window)
  meanNan ((ret.drop (window - 1)).map (· / window))

/-- 1814-1817, the lag. -/
def nowLag (x : List ℝ) (window : Nat) : Option ℝ := meanNan (pyDropEnd x window)

/-- The seven features. -/
structure Nowcast where
  roc : Option ℝ
  mom : Option ℝ
  ma : Option ℝ
  lag : Option ℝ
  macd : Option ℝ
  macdsign : Option ℝ
  macddiff : Option ℝ

/-- 1820-1822: the series `MACD`. -/
def nowMacd (x : List ℝ) (nFast nSlow : Nat) : Except Err (List (Option ℝ)) := do
  let fast ← ewmaFn (x.map some) nFast (nSlow - 1)
  let slow ← ewmaFn (x.map some) nSlow (nSlow - 1)
  pure (nanSub fast slow)

/-- 1756-1845, `_get_nowcasting_np`. -/
def nowcastNp (x : List ℝ) (window nFast nSlow : Nat) : Except Err Nowcast := do
  let roc ← nowRoc x window
  let macd ← nowMacd x nFast nSlow
  if 27 ≤ x.length then do
    let sign ← ewmaFn macd 9 8
    pure ⟨roc, nowMom x window, nowMa x window, nowLag x window, nanMeanR macd, nanMeanR sign, nanMeanR (nanSub macd sign)⟩
  else pure ⟨roc, nowMom x window, nowMa x window, nowLag x window, nanMeanR macd, none, none⟩

/-- 1849-1907, `get_nowcasting`: any exception leaves NaN for all features. -/
def getNowcasting (x : List ℝ) (window nFast nSlow : Nat) : Nowcast :=
  match nowcastNp x window nFast nSlow with
  | .error _ => ⟨none, none, none, none, none, none, none⟩
  | .ok f => f

end

end Kats
