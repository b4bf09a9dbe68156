import Verif.Model.Py
import Mathlib.Algebra.Order.Field.Basic

/-!
# `kats/models/globalmodel/utils.py`

`PinballLoss`, `AdjustedPinballLoss` and `GMFeature`.  Numbers are of an ordered field `K`; a missing target is
`none`; forecasts are not missing.  `torch.exp` and `torch.log` are the parameters `ex` and `lg`.
A tensor is its rows and the number of its columns.  Gradients, types and devices are left out.
`target[nans] = 1.0` changes the tensor of the caller: the new target is part of the result.
-/

namespace Kats

/-- A tensor of two dimensions. -/
structure GmMat (α : Type) where
  cols : Nat
  rows : List (List α)

section
variable {K : Type} [Field K] [LinearOrder K]

/-- `PinballLoss.__init__` (665-693) and `AdjustedPinballLoss.__init__` (769-800): the quantiles and
the weights. -/
def gmPinInit (quantile : List K) (weight : Option (List K)) : Except Err (List K × List K) :=
  if quantile.length < 1 then .error .valueError
  else
    match weight with
    | none => .ok (quantile, List.replicate quantile.length (1 / (quantile.length : K)))
    | some w => if w.length ≠ quantile.length then .error .valueError else .ok (quantile, w)

/-- `_check` (695-707, 802-814). -/
def gmPinCheck (m : Nat) (input : GmMat K) (target : GmMat (Option K)) : Except Err Unit :=
  if target.rows.length ≠ input.rows.length then .error .valueError
  else if input.cols ≠ target.cols * m then .error .valueError
  else .ok ()

/-- `torch.max(d * q, d * (q - 1.0))` (737, 845, 863). -/
def gmPin (d q : K) : K := max (d * q) (d * (q - 1))

/-- `l.repeat(h, 1).t().flatten()` (732, 734, 860, 869). -/
def gmRepeatEach (l : List K) (h : Nat) : List K := (l.map (List.replicate h)).flatten

/-- `num_not_nan` (726-727, 834-835). -/
def gmNotNan (t : List (Option K)) : Nat :=
  let n := (t.filter Option.isSome).length
  if n = 0 then n + 1 else n

/-- `res[nans] = 0.0` (738, 849, 864). -/
def gmMask (res : List K) (nans : List Bool) : List K :=
  List.zipWith (fun r b => if b then 0 else r) res nans

/-- `(res * weights).view(n, -1, horizon).sum(dim=2) / num_not_nan[:, None]` (739-742, 870-871), one
row. -/
def gmWeigh (res ws : List K) (m h num : Nat) : List K :=
  let r := List.zipWith (· * ·) res (gmRepeatEach ws h)
  (List.range m).map fun k => ((r.drop (k * h)).take h).sum / (num : K)

/-- One row of `PinballLoss.forward` (719-742). -/
def gmPinRow (qs ws : List K) (h : Nat) (fc : List K) (t : List (Option K)) : List K :=
  let m := qs.length
  let t1 := t.map (·.getD 1)
  let target := (List.replicate m t1).flatten
  let nans := (List.replicate m (t.map Option.isNone)).flatten
  let diff := List.zipWith (· - ·) target fc
  let res := List.zipWith gmPin diff (gmRepeatEach qs h)
  gmWeigh (gmMask res nans) ws m h (gmNotNan t)

/-- One row of `AdjustedPinballLoss.forward` (828-871). -/
def gmAdjRow (ex lg : K → K) (inputLog : Bool) (qs ws : List K) (h : Nat) (fc : List K)
    (t : List (Option K)) : List K :=
  let m := qs.length
  let t1 := t.map (·.getD 1)
  let nans := t.map Option.isNone
  let te := if inputLog then t1.map ex else t1
  let fe := if inputLog then (fc.take h).map ex else fc.take h
  let q0 := qs.headD 0
  let diff := List.zipWith (· - ·) te fe
  let r0 := gmMask (List.zipWith (· * ·) (List.zipWith (· / ·) (diff.map fun d => gmPin d q0)
    (List.zipWith (· + ·) te fe)) (List.replicate h 2)) nans
  let res :=
    if 1 < m then
      let f2 := if inputLog then fc.drop h else (fc.drop h).map lg
      let target := (List.replicate (m - 1) t1).flatten
      let nans2 := (List.replicate (m - 1) nans).flatten
      let diffq := List.zipWith (· - ·) target f2
      r0 ++ gmMask (List.zipWith gmPin diffq (gmRepeatEach (qs.drop 1) h)) nans2
    else r0
  gmWeigh res ws m h (gmNotNan t)

/-- The reduction (744-748, 873-878): one row for `mean` and `sum`, otherwise all. -/
def gmReduce (red : String) (m : Nat) (rows : List (List K)) : List (List K) :=
  let sums := (List.range m).map fun k => (rows.map fun r => r.getD k 0).sum
  if red = "mean" then [sums.map (· / (rows.length : K))]
  else if red = "sum" then [sums]
  else rows

/-- `target` after `target[nans] = 1.0` (725, 833). -/
def gmClean (target : GmMat (Option K)) : GmMat (Option K) :=
  ⟨target.cols, target.rows.map fun r => r.map fun v => some (v.getD 1)⟩

/-- `forward` of the two losses (709-748, 816-878), with the target of the caller afterwards.  A `view`
with `-1` needs some row and column. -/
def gmForward (row : List K → List (Option K) → List K) (m : Nat) (red : String) (input : GmMat K)
    (target : GmMat (Option K)) : GmMat (Option K) × Except Err (List (List K)) :=
  match gmPinCheck m input target with
  | .error e => (target, .error e)
  | .ok _ =>
    if input.rows.length = 0 ∨ target.cols = 0 then (gmClean target, .error .otherError)
    else (gmClean target, .ok (gmReduce red m (List.zipWith row input.rows target.rows)))

/-- `PinballLoss.forward`. -/
def gmPinball (qs ws : List K) (red : String) (input : GmMat K) (target : GmMat (Option K)) :
    GmMat (Option K) × Except Err (List (List K)) :=
  gmForward (gmPinRow qs ws target.cols) qs.length red input target

/-- `AdjustedPinballLoss.forward`. -/
def gmAdjusted (ex lg : K → K) (inputLog : Bool) (qs ws : List K) (red : String) (input : GmMat K)
    (target : GmMat (Option K)) : GmMat (Option K) × Except Err (List (List K)) :=
  gmForward (gmAdjRow ex lg inputLog qs ws target.cols) qs.length red input target

end

/-! ## `GMFeature` -/

/-- The fields of a time that are used: `day` 1-31, `month` 1-12, `isocalendar().day` 1-7,
`isocalendar().week` 1-53, `dayofweek` 0-6, `dayofyear` 1-366, `hour`, `minute`. -/
structure GmTime where
  day : Nat
  month : Nat
  isoDay : Nat
  isoWeek : Nat
  dow : Nat
  doy : Nat
  hour : Nat
  minute : Nat
  deriving DecidableEq

/-- `all_possible_gmfeatures` (40-48). -/
def gmAllFeatures : List String :=
  ["last_date", "simple_date", "tsfeatures", "ts2vec", "last_hour", "last_hour_minute", "last_month"]

/-- `GMFeature.__init__` (896-906). -/
def gmFeatureInit (types : List String) : Except Err (List String) :=
  if types.all fun t => decide (t ∈ gmAllFeatures) then .ok types else .error .valueError

/-- `get_feature_size` (908-930). -/
def gmFeatureSize (types : List String) (n : Nat) : Nat :=
  (types.map fun f =>
    (if f = "tsfeatures" then 40 else if f = "ts2vec" then 0 else if f = "last_date" then 7 + 27 + 31
      else if f = "last_hour" then 24 else if f = "last_hour_minute" then 2
      else if f = "last_month" then 12 else 0) +
    (if f = "simple_date" then 4 else 0) * n).sum

/-- `__eq__` (1149-1153). -/
def gmFeatureEq (a b : List String) : Bool :=
  (a.all fun t => decide (t ∈ b)) && (b.all fun t => decide (t ∈ a))

/-- `time[:, -1]`. -/
def gmLast (time : List (List GmTime)) : Except Err (List GmTime) :=
  time.mapM fun r => match r.getLast? with | some t => .ok t | none => .error .indexError

/-- `ans = np.zeros(n * m); ans[indices] = 1.0; ans.reshape(n, -1)`. -/
def gmHot (n m : Nat) (indices : List Nat) : Except Err (List (List Nat)) :=
  if indices.any fun i => decide (n * m ≤ i) then .error .indexError
  else if n = 0 then .error .valueError
  else
    let ans := indices.foldl (fun (a : List Nat) i => a.set i 1) (List.replicate (n * m) 0)
    .ok ((List.range n).map fun i => (ans.drop (i * m)).take m)

/-- The index of every row, with its offset. -/
def gmOffsets (m : Nat) (f : GmTime → Nat) (ts : List GmTime) : List Nat :=
  (List.range ts.length).map fun i => ((ts[i]?).map f).getD 0 + i * m

/-- `_get_last_date_feature` (1002-1026). -/
def gmLastDate (time : List (List GmTime)) : Except Err (List (List Nat)) := do
  let ts ← gmLast time
  let m := 7 + 27 + 31
  gmHot ts.length m (gmOffsets m (·.isoDay) ts ++ gmOffsets m (fun t => (t.isoWeek - 1) / 2 + 7) ts ++
    gmOffsets m (fun t => t.day + 6 + 27) ts)

/-- `_get_last_hour_feature` (1028-1042). -/
def gmLastHour (time : List (List GmTime)) : Except Err (List (List Nat)) := do
  let ts ← gmLast time
  gmHot ts.length 24 (gmOffsets 24 (·.hour) ts)

/-- `_get_last_month_feature` (1044-1057). -/
def gmLastMonth (time : List (List GmTime)) : Except Err (List (List Nat)) := do
  let ts ← gmLast time
  gmHot ts.length 12 (gmOffsets 12 (·.month) ts)

section
variable {K : Type} [Field K]

/-- `_get_date_feature` (969-1000). -/
def gmDate (lg : K → K) (time : List (List GmTime)) : List (List K) :=
  time.map fun r =>
    (r.map (·.day) ++ r.map (·.month) ++ r.map (·.dow) ++ r.map (·.doy)).map fun v : Nat => lg ((v : K) + 1)

/-- `_get_last_hour_minute_feature` (1068-1082). -/
def gmHourMinute (lg : K → K) (time : List (List GmTime)) : Except Err (List (List K)) := do
  let ts ← gmLast time
  return ts.map fun t => [lg ((t.hour + 1 : Nat) : K), lg ((t.minute + 1 : Nat) : K)]

/-- `_get_tsfeatures` (933-966); `tsf` is the logarithm of the absolute values, `none` if it is NaN or
infinite. -/
def gmTsfeatures (tsf : Nat → List (Option K)) (n : Nat) : List (List K) :=
  (List.range n).map fun i => (tsf i).map fun v => v.getD 0

/-- `torch.cat(features, 1)`: `none` is not a tensor. -/
def gmCat (features : List (Option (List (List K)))) : Except Err (List (List K)) :=
  match features.mapM id with
  | none => .error .typeError
  | some [] => .error .otherError
  | some (f :: fs) => .ok (fs.foldl (List.zipWith (· ++ ·)) f)

/-- `get_base_features` (1084-1111). -/
def gmBase (tsf : Nat → List (Option K)) (types : List String) (n : Nat) :
    Except Err (Option (List (List K))) :=
  let features := types.filterMap fun f =>
    if f = "tsfeatures" then some (some (gmTsfeatures tsf n))
    else if f = "ts2vec" then some none else none
  if 0 < features.length then (gmCat features).map some else .ok none

/-- One of the features of `get_on_the_fly_features` (1140-1141). -/
def gmFly1 (lg : K → K) (time : List (List GmTime)) (f : String) :
    Except Err (Option (List (List K))) :=
  let cast := fun r : Except Err (List (List Nat)) =>
    r.map fun a => some (a.map fun b => b.map fun v : Nat => (v : K))
  if f = "last_date" then cast (gmLastDate time)
  else if f = "simple_date" then .ok (some (gmDate lg time))
  else if f = "last_hour" then cast (gmLastHour time)
  else if f = "last_hour_minute" then (gmHourMinute lg time).map some
  else if f = "last_month" then cast (gmLastMonth time)
  else .ok none

/-- `get_on_the_fly_features` (1113-1147). -/
def gmFly (lg : K → K) (types : List String) (time : List (List GmTime)) :
    Except Err (Option (List (List K))) := do
  let fs ← types.mapM (gmFly1 lg time)
  let features := fs.filter Option.isSome
  if 0 < features.length then (gmCat features).map some else .ok none

/-- `GMBatch.get_features` (`data_processor.py` 634-651). -/
def gmGetFeatures (lg : K → K) (types : List String) (base : Option (List (List K)))
    (time : List (List GmTime)) : Except Err (Option (List (List K))) := do
  let features ← gmFly lg types time
  match base with
  | some b => (gmCat [some b, features]).map some
  | none => return features

end

end Kats
