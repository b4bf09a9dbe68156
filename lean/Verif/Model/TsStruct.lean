import Verif.Model.TsStats

/-!
# `kats/tsfeatures/tsfeatures.py`: decomposition, level shift and autocorrelation features

For a series without missing values and with all features enabled.  The STL decomposition and the partial
autocorrelations are parameters.
-/

namespace Kats

noncomputable section

open Classical

/-- `np.argmin`: the first position of the smallest element. -/
def argminIdx {α : Type} [LinearOrder α] (l : List α) : Nat := l.findIdx fun v => decide (∀ w ∈ l, v ≤ w)

/-- 769-784, `trend_strength` and `seasonality_strength`; `none` is NaN or minus infinity, the result of a division by
zero. -/
def stlStrength (comp resid : List ℝ) : Option ℝ :=
  let v := varOf (List.zipWith (· + ·) comp resid)
  if v = 0 then none else some (1 - varOf resid / v)

/-- 786-792, `spikiness`: column `i` of the array is the remainder without entry `i`. -/
def stlSpikiness (resid : List ℝ) : Option ℝ :=
  if resid = [] then none
  else ((List.range resid.length).mapM fun i : Nat => chunkVar (resid.eraseIdx i)).map varOf

/-- 794-800, `peak` and `trough`. -/
def stlPeak (seasonal : List ℝ) (period : Nat) : Nat := argmaxIdx (seasonal.take period)

def stlTrough (seasonal : List ℝ) (period : Nat) : Nat := argminIdx (seasonal.take period)

/-- 855-858: the means of the sliding windows. -/
def slidingMeans (x : List ℝ) (w : Nat) : List ℝ :=
  (List.range (x.length - w + 1)).map fun i : Nat => meanOf ((x.drop i).take w)

/-- 859: the absolute differences of consecutive elements. -/
def absDiffs (l : List ℝ) : List ℝ := List.zipWith (fun a b => |a - b|) l l.tail

/-- 820-867, `get_level_shift_features`, for a positive window. -/
def levelShift (x : List ℝ) (w : Nat) : Option (Nat × ℝ) :=
  if x.length < w + 2 then none
  else
    let d := absDiffs (slidingMeans x w)
    some (argmaxIdx d, d.getD (argmaxIdx d) 0)

/-- The sum of the products of deviations `k` steps apart. -/
def autoCov (x : List ℝ) (k : Nat) : ℝ :=
  let d := x.map fun v => v - meanOf x
  (List.zipWith (· * ·) d (d.drop k)).sum

/-- The autocorrelation of statsmodels, NaN for a constant series. -/
def acfAt (x : List ℝ) (k : Nat) : Option ℝ := if autoCov x 0 = 0 then none else some (autoCov x k / autoCov x 0)

/-- `acf(x, nlags=nlags)[1:]`: there are at most `len(x) - 1` lags. -/
def acfList (x : List ℝ) (nlags : Nat) : List (Option ℝ) :=
  (List.range (min nlags (x.length - 1))).map fun i : Nat => acfAt x (i + 1)

/-- 1104-1105: the differences of consecutive values. -/
def diffsOf (x : List ℝ) : List ℝ := List.zipWith (fun a b => b - a) x x.tail

/-- 1158-1171, `_yule_walker_determinant`: `r` has two entries and `r[:-1]` one, so the matrix is the variance. -/
def yuleWalkerDet (x : List ℝ) : ℝ := varOf x

/-- `np.sum(l[:5] ** 2)` -/
def sumSq5 (l : List (Option ℝ)) : Option ℝ := ((l.take 5).mapM id).map fun v => (v.map (· ^ 2)).sum

/-- `np.nansum(l[:5] ** 2)` -/
def nansumSq5 (l : List (Option ℝ)) : Option ℝ := some (((l.take 5).filterMap id).map (· ^ 2)).sum

/-- `l[0]` and `l[-1]`. -/
def firstOf (l : List (Option ℝ)) : Except Err (Option ℝ) :=
  match l with
  | [] => .error .indexError
  | a :: _ => .ok a

def lastOf (l : List (Option ℝ)) : Except Err (Option ℝ) :=
  match l.getLast? with
  | none => .error .indexError
  | some a => .ok a

/-- The features of 1081-1093. -/
structure AcfFeatures where
  yAcf1 : Option ℝ
  yAcf5 : Option ℝ
  diff1yAcf1 : Option ℝ
  diff1yAcf5 : Option ℝ
  diff2yAcf1 : Option ℝ
  diff2yAcf5 : Option ℝ
  yPacf5 : Option ℝ
  diff1yPacf5 : Option ℝ
  diff2yPacf5 : Option ℝ
  seasAcf1 : Option ℝ
  seasPacf1 : Option ℝ

/-- 932-997 and 1000-1049, `get_acf_features` and `get_pacf_features`. -/
def acfFeatures (ya d1a d2a yp d1p d2p : List (Option ℝ)) : Except Err AcfFeatures := do
  let y1 ← firstOf ya
  let d1 ← firstOf d1a
  let d2 ← firstOf d2a
  let s ← lastOf ya
  let sp ← lastOf yp
  pure ⟨y1, sumSq5 ya, d1, sumSq5 d1a, d2, sumSq5 d2a, nansumSq5 yp, nansumSq5 d1p, nansumSq5 d2p, s, sp⟩

/-- 1051-1155, `get_acfpacf_features`; `pacf y n` is `pacf(y, nlags=n)[1:]`, a result `none` is NaN for all features. -/
def acfPacf (pacf : List ℝ → Nat → Except Err (List (Option ℝ))) (x : List ℝ) (lag period : Nat) :
    Except Err (Option AcfFeatures) :=
  if x.length < 10 ∨ x.length < period ∨ ∃ c, ∀ v ∈ x, v = c then .ok none
  else
    let nlag := min lag (x.length - 2)
    let d1 := diffsOf x
    let d2 := diffsOf d1
    do
      let yp ← pacf x period
      if yuleWalkerDet d1 = 0 ∨ yuleWalkerDet d2 = 0 then pure none
      else do
        let d1p ← pacf d1 nlag
        let d2p ← pacf d2 nlag
        let f ← acfFeatures (acfList x period) (acfList d1 nlag) (acfList d2 nlag) yp d1p d2p
        pure (some f)

/-- `a > b` for floats that can be NaN. -/
def nanGt (a b : Option ℝ) : Bool :=
  match a, b with
  | some u, some v => decide (u > v)
  | _, _ => false

/-- 1323-1330: the loop for the first minimum. -/
def firstMinIdx : List (Option ℝ) → Nat
  | a :: b :: t => if nanGt a b then 1 + firstMinIdx (b :: t) else 0
  | _ => 0

/-- 1336-1341: the loop for the first zero. -/
def firstZeroIdx : List (Option ℝ) → Nat
  | a :: b :: t => if nanGt a (some 0) && nanGt (some 0) b then 0 else 1 + firstZeroIdx (b :: t)
  | _ => 0

/-- 1296-1344, `get_special_ac`: `firstmin_ac` and `firstzero_ac`. -/
def specialAc (x : List ℝ) : Nat × Nat :=
  let ac := acfList x x.length
  (firstMinIdx ac + 1, firstZeroIdx ac + 2)

end

end Kats
