import Verif.Model.Py
import Mathlib.Algebra.Order.Field.Rat
import Mathlib.Data.List.Range

/-!
# `kats/detectors/distribution_distance_model.py`: `DistributionDistanceModel`

Values are exact rationals without NaN, times and the window are integers in one unit.  The scipy
distances are parameters.
-/

namespace Kats

/-! ### Percentiles to probabilities -/

/-- 67-72: one pass of the loop; the state is the previous element, `l1_merge` and `l1_perc`. -/
def mergeStep (n : Rat) (st : Rat × List Rat × List Rat) (x : Rat) : Rat × List Rat × List Rat :=
  if st.2.2 = [] ∨ x > st.1 then (x, st.2.1 ++ [x], st.2.2 ++ [n])
  else (x, st.2.1, st.2.2.dropLast ++ [st.2.2.getLastD 0 + n])

/-- 59-73, `_merge_percentile`. -/
def mergePercentile (l : List Rat) : List Rat × List Rat :=
  (l.foldl (mergeStep (1 / l.length)) (0, [], [])).2

/-- `np.cumsum`. -/
def cumsumQ (l : List Rat) : List Rat := (List.range l.length).map fun k => (l.take (k + 1)).sum

/-- 110-136: the value for `x` if the first larger value of `m2` is at position `k`; `cum` is the
cumulative sum of the probabilities of `m2`. -/
def cdfAt (n : Rat) (m2 cum : List Rat) (x : Rat) (k : Nat) : Rat :=
  if k = 0 then
    match (m2.drop 1).findIdx? fun y => decide (y ≠ m2.getD 0 0) with
    | none => 0
    | some j =>
      let v := 0 + n * (x - m2.getD 0 0) / (m2.getD (j + 1) 0 - m2.getD 0 0)
      if v < 0 then 0 else v
  else
    let v := cum.getD (k - 1) 0 + n * (x - m2.getD (k - 1) 0) / (m2.getD k 0 - m2.getD (k - 1) 0)
    if v < 0 then 0 else v

/-- 98-136: the cumulative result; `break` leaves ones in all remaining places. -/
def cdfLoop (n : Rat) (m2 cum : List Rat) : List Rat → List Rat
  | [] => []
  | x :: xs =>
    match m2.findIdx? fun y => decide (x < y) with
    | none => 1 :: xs.map fun _ => 1
    | some k => cdfAt n m2 cum x k :: cdfLoop n m2 cum xs

/-- 138-139: `[l[0]] + list(l[1:] - l[0:-1])`. -/
def diffHead (l : List Rat) : List Rat :=
  if l.length > 1 then [l.getD 0 0] ++ (l.drop 1).zipWith (· - ·) l.dropLast else l

/-- 76-144, `_percentile_to_prob`. -/
def percentileToProb (l1 l2 : List Rat) : Except Err (List Rat × List Rat) :=
  if l1.length = l2.length ∧ l1.length > 1 then
    let n : Rat := 1 / l1.length
    let a := mergePercentile l1
    let b := mergePercentile l2
    if a.1.length < b.1.length then
      .ok (diffHead (cdfLoop n a.1 (cumsumQ a.2) b.1), b.2)
    else
      .ok (a.2, diffHead (cdfLoop n b.1 (cumsumQ b.2) a.1))
  else .error .otherError

/-! ### The model object -/

/-- The attributes (190-213). -/
structure DDModel where
  window : Int
  metric : String
  base : Rat
  monotonic : Bool
deriving DecidableEq

/-- 32-55: the supported metrics. -/
def ddMetrics : List String :=
  ["braycurtis", "canberra", "chebyshev", "cityblock", "correlation", "cosine", "dice", "euclidean", "hamming",
   "jaccard", "jensenshannon", "kulsinski", "kulczynski1", "mahalanobis", "minkowski", "rogerstanimoto",
   "russellrao", "seuclidean", "sokalmichener", "sokalsneath", "sqeuclidean", "yule"]

/-- 182-213, `__init__`; a serialised model is the dictionary of the attributes (215-219). -/
def DDModel.init (window : Int) (serialized : Option DDModel) (metric : String := "jensenshannon")
    (base : Rat := 2) (monotonic : Option Bool := none) : Except Err DDModel :=
  match serialized with
  | some m => .ok m
  | none =>
    if metric ∉ ddMetrics then .error .otherError
    else .ok ⟨window, metric, max 2 base, if metric = "jensenshannon" then true else monotonic.getD false⟩

/-- 215-219, `serialize`: the dictionary `__dict__`. -/
def DDModel.serialize (m : DDModel) : DDModel := m

/-! ### `fit_predict` -/

/-- A row: time and the values of the columns. -/
abbrev DDRow := Int × List Rat

/-- 284-296, the window of row `(t, _)` that ends with it: of the rows up to and including it, those at
most `w` older (`closed="both"`); the first one, if it is more than 0.9 `w` older. -/
def ddRef (w : Int) (upTo : List DDRow) (t : Int) : Option (List Rat) :=
  match upTo.find? fun r => decide (t - w ≤ r.1) with
  | none => none
  | some r => if 10 * (t - r.1) > 9 * w then some r.2 else none

/-- 284-296, `total_data_df_group0`: each row with its reference (`none`: NaN). -/
def ddRefs (w : Int) (total : List DDRow) : List (DDRow × Option (List Rat)) :=
  (List.range total.length).map fun i =>
    (total.getD i (0, []), ddRef w (total.take (i + 1)) (total.getD i (0, [])).1)

/-- 242-244, `_validate_monotonic`: every row is non-decreasing. -/
def rowMonotone (l : List Rat) : Bool := ((l.drop 1).zipWith (· - ·) l).all fun d => decide (0 ≤ d)

/-- 257-346, `fit_predict`: the score of each time of `data`.  `dist` is the distance of the reference to
the row (Jensen-Shannon or one of scipy's).  `uni` tells that an input is univariate, `dim` is the number
of columns of each input.  The rolling window rejects an index that is not sorted (that it accepts a
decreasing one is not modelled). -/
def ddFitPredict {S : Type} [Zero S] (m : DDModel) (dist : List Rat → List Rat → S) (data : List DDRow)
    (hist : Option (List DDRow)) (uni : Bool) (dimOk : Bool) : Except Err (List (Int × S)) :=
  if uni then .error .otherError
  else if !dimOk then .error .otherError
  else
    let total := match hist with
      | some h => h ++ data
      | none => data
    match total.getLast?, total.head?, data.head? with
    | some l, some f, some d0 =>
      if l.1 - f.1 < m.window then .error .otherError
      else if m.monotonic && !(total.all fun r => rowMonotone r.2) then .error .otherError
      else if ¬ (total.map (·.1)).Pairwise (· ≤ ·) then .error .valueError
      else
        let refs := ddRefs m.window total
        match refs.find? fun r => r.2.isSome with
        | none => .error .otherError
        | some r0 =>
          let start := max r0.1.1 d0.1
          let used := refs.filter fun r => decide (start ≤ r.1.1)
          if used.any fun r => r.2.isNone then .error .otherError
          else
            let scores := used.map fun r => dist (r.2.getD []) r.1.2
            let values := List.replicate (data.length - scores.length) 0 ++ scores
            if values.length = data.length then .ok ((data.map (·.1)).zip values)
            else .error .valueError
    | _, _, _ => .error .indexError

end Kats
