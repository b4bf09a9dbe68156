import Verif.Model.CusumModel

/-!
# `kats/detectors/cusum_model.py`: `VectorizedCUSUMDetectorModel` and `vectorized=True`

The CUSUM model for several series at once, and the scalar model that cuts its series into windows and
runs the vectorised detector on them.  Times are nanoseconds (`Int`), values exact rationals, `none`
is NaN, as in `Model/CusumModel`.  A frame is a list of rows: a time and a function of the column
number; a `Series` over the columns is a function of the column number; `n` is the number of columns.
Parameters: `detectV`, the changepoints that `VectorizedCUSUMDetector.detector` finds in a column
(its arithmetic is in `Model/Cusum`), `sqrt`, the frequency, the score function.  The data are
complete except in `vecMean` and `vecStd`.  Not modelled: removal of seasonality, inference of the
frequency, time zones, the second score (absolute change), computed alongside in the same way.
-/

namespace Kats

/-- The rows of a frame. -/
abbrev VRows := List (Int × (Nat → Rat))

/-- One column with its times. -/
def vcol (c : Nat) (rows : VRows) : List (Int × Rat) := rows.map fun r => (r.1, r.2 c)

/-- The fields of `VectorizedCUSUMDetectorModel` that change (1528-1536). -/
structure VecState where
  cps : Nat → List Int
  alertFired : Nat → Bool
  preMean : Nat → Option Rat
  preStd : Nat → Option Rat
  normalScans : Nat → Nat
  direction : Nat → Option Dir

/-- Lines 1528-1536: every `fit_predict` begins with this state. -/
def VecState.init : VecState :=
  ⟨fun _ => [], fun _ => false, fun _ => some 0, fun _ => some 1, fun _ => 0, fun _ => none⟩

/-- `np.sum(np.multiply(value, mask), axis=0)` for one column; a NaN is skipped by `DataFrame.sum`. -/
def vecSum (v : List (Option Rat)) (mask : Nat → Bool) : Rat :=
  (v.zipIdx.map fun x => if mask x.2 then x.1.getD 0 else 0).sum

/-- `np.sum(mask, axis=0)` for one column. -/
def vecCount (len : Nat) (mask : Nat → Bool) : Nat := ((List.range len).filter mask).length

/-- The mean of a column under a mask (1338-1341, 1368-1371, 1375-1378); `0 / 0` is NaN. -/
def vecMean (v : List (Option Rat)) (mask : Nat → Bool) : Option Rat :=
  if vecCount v.length mask = 0 then none else some (vecSum v mask / vecCount v.length mask)

/-- The deviation of a column under a mask (1342-1350, 1380-1390). -/
def vecStd (sqrt : Rat → Rat) (v : List (Option Rat)) (mask : Nat → Bool) : Option Rat :=
  (vecMean v mask).map fun a =>
    sqrt (vecSum (v.map fun x => x.map fun y => (y - a) ^ 2) mask / vecCount v.length mask)

/-- The values of a column. -/
def vvals (c : Nat) (rows : VRows) : List (Option Rat) := rows.map fun r => some (r.2 c)

/-- `pre_mean - check_decrease * pre_std <= cur_mean` and the other comparison of
`_if_back_to_normal` (1225-1252) for one column; NaN compares false, and a direction that is not set
counts as the factor 0. -/
def vecNormal (cfg : CusumCfg) (d : Option Dir) (m s cur : Option Rat) : Bool :=
  let inc := watches cfg.changeDirections "increase"
  let dec := watches cfg.changeDirections "decrease"
  let ci := match d with
    | some .increase => if inc then some 0 else none
    | some .decrease => if inc then some cfg.deltaStdRatio else none
    | none => some 0
  let cd := match d with
    | some .increase => if dec then some cfg.deltaStdRatio else none
    | some .decrease => if dec then some 0 else none
    | none => some 0
  match m, s, cur with
  | some m, some s, some cur => aboveLower m s cur cd && belowUpper m s cur ci
  | _, _, _ => false

/-- `_set_alert_off_multi_ts` (1210-1212). -/
def VecState.alertOff (st : VecState) (mask : Nat → Bool) : VecState :=
  { st with alertFired := fun c => st.alertFired c && !mask c,
            normalScans := fun c => if mask c then 0 else st.normalScans c }

/-- `_set_alert_on_multi_ts` (1214-1223); a NaN in the new baseline is filled by `combine_first`. -/
def VecState.alertOn (st : VecState) (mask : Nat → Bool) (m s : Nat → Option Rat)
    (d : Nat → Option Dir) : VecState :=
  { st with direction := fun c => if mask c then d c else st.direction c,
            preMean := fun c => if mask c then (m c).or (st.preMean c) else st.preMean c,
            preStd := fun c => if mask c then (s c).or (st.preStd c) else st.preStd c }

/-- Case 1 of `_fit` (1300-1358): `on` is `alert_set_on_mask`, `i` the first row of the scan window. -/
def vecFitOn (sqrt : Rat → Rat) (detectV : VRows → Nat → Nat → List Cp) (h : VRows) (i : Nat)
    (on : Nat → Bool) (st : VecState) : VecState :=
  let cp := fun c => if on c then earliest (detectV h i c) else none
  let on' := fun c => on c && (cp c).isSome
  let mask1 := fun c r => on' c && (match cp c with
    | none => true
    | some k => decide (r < k.index + 1))
  let st1 := { st with cps := fun c => match cp c with
    | none => st.cps c
    | some k => pushCp (st.cps c) (k.time / nsPerSec) }
  let st2 := st1.alertOn on' (fun c => vecMean (vvals c h) (mask1 c))
    (fun c => vecStd sqrt (vvals c h) (mask1 c)) (fun c => (cp c).map Cp.dir)
  { st2 with alertFired := fun c => st2.alertFired c || (cp c).isSome }

/-- Case 2 of `_fit` (1360-1416): `off` is `alert_set_off_mask`, `now` the last time in seconds. -/
def vecFitOff (cfg : CusumCfg) (sqrt : Rat → Rat) (h : VRows) (i : Nat) (now : Int)
    (off : Nat → Bool) (st : VecState) : VecState :=
  let cur := fun c => vecMean (vvals c h) fun r => off c && decide (i ≤ r)
  let st1 := if cfg.adapted then
      { st with
        preMean := fun c => if off c then
            (vecMean (vvals c h) fun r => off c && decide (r < i)).or (st.preMean c) else st.preMean c,
        preStd := fun c => if off c then
            (vecStd sqrt (vvals c h) fun r => off c && decide (r < i)).or (st.preStd c) else st.preStd c }
    else st
  let normal := fun c => vecNormal cfg (st1.direction c) (st1.preMean c) (st1.preStd c) (cur c)
  let st2 := { st1 with normalScans := fun c => st1.normalScans c + (if normal c then 1 else 0) }
  let st3 := st2.alertOff fun c => off c && decide (normalTolerance ≤ st2.normalScans c) && normal c
  let st4 := { st3 with normalScans := fun c => if normal c then st3.normalScans c else 0 }
  st4.alertOff fun c => off c && (match (st4.cps c).getLast? with
    | none => false
    | some x => decide (now - x > retention))

/-- `_fit` (1254-1416). -/
def vecFit (cfg : CusumCfg) (sqrt : Rat → Rat) (n : Nat) (detectV : VRows → Nat → Nat → List Cp)
    (st : VecState) (inData inHist : VRows) : Except Err VecState :=
  let h := inHist ++ inData
  match h.getLast? with
  | none => .error .indexError
  | some last =>
    let i := scanStart cfg (vcol 0 h) last.1
    let on := fun c => !st.alertFired c && decide (1 < h.length - i)
    let off := st.alertFired
    let st1 := if (List.range n).any on then vecFitOn sqrt detectV h i on st else st
    .ok (if (List.range n).any off then vecFitOff cfg sqrt h i (last.1 / nsPerSec) off st1 else st1)

/-- The row of the last changepoint of a column (1426-1440): `None` without a changepoint, with one
at second 0, or with one before the data. -/
def vecCpIndex (times : List Int) (first : Int) (cps : List Int) : Except Err (Option Nat) :=
  match cps.getLast? with
  | none => .ok none
  | some x =>
    if x = 0 then .ok none
    else if first ≤ x * nsPerSec then
      match times.findIdx? fun t => decide (t = x * nsPerSec) with
      | none => .error .indexError
      | some k => .ok (some k)
    else .ok none

/-- `_predict` (1418-1459): the scores, row by row. -/
def vecPredict (cfg : CusumCfg) (n : Nat) (st : VecState) (data : VRows) :
    Except Err (List (Nat → Option Rat)) :=
  match data.head? with
  | none => .error .indexError
  | some p0 => do
    let idx ← (List.range n).mapM fun c => vecCpIndex (data.map (·.1)) p0.1 (st.cps c)
    return data.zipIdx.map fun r c =>
      if !st.alertFired c || (match idx.getD c none with
        | none => false
        | some k => decide (r.2 < k + 1)) then some 0
      else cfg.score (r.1.2 c) (st.preMean c) (st.preStd c)

/-- Lines 1585-1599: every column is smoothed. -/
def vecSmoothed (k : Nat) (all : VRows) : VRows :=
  if 1 < k then
    (List.range all.length).map fun i =>
      ((all.getD i (0, fun _ => 0)).1, fun c =>
        ((((all.map fun r => r.2 c).take (i + 1)).drop (i + 1 - k)).sum / (k : Rat)))
  else all

/-- `tsd[a:b]`. -/
def vseg (l : VRows) (a b : Nat) : VRows := (l.take b).drop a

/-- `_fit` then `_predict` (1676-1694, 1708-1726). -/
def vecFitAndScore (cfg : CusumCfg) (sqrt : Rat → Rat) (n : Nat)
    (detectV : VRows → Nat → Nat → List Cp) (all smooth : VRows) (hs he se : Nat)
    (acc : VecState × List (Nat → Option Rat)) : Except Err (VecState × List (Nat → Option Rat)) := do
  let st ← vecFit cfg sqrt n detectV acc.1 (vseg all he se) (vseg all hs he)
  let sc ← vecPredict cfg n st (vseg smooth he se)
  return (st, acc.2 ++ sc)

/-- One pass of the loop 1651-1694. -/
def vecWindow (cfg : CusumCfg) (sqrt : Rat → Rat) (n : Nat) (detectV : VRows → Nat → Nat → List Cp)
    (all smooth : VRows) (step : Int) (acc : VecState × List (Nat → Option Rat)) (start : Int) :
    Except Err (VecState × List (Nat → Option Rat)) := do
  let hs ← idxRight (vcol 0 all) (start - cfg.histWindow)
  let he ← idxRight (vcol 0 all) start
  let se ← idxLeft (vcol 0 all) (start + step)
  if (vseg all he (se + 1)).length = 0 then return acc
  else vecFitAndScore cfg sqrt n detectV all smooth hs he (se + 1) acc

/-- The remaining data (1696-1726). -/
def vecRemain (cfg : CusumCfg) (sqrt : Rat → Rat) (n : Nat) (detectV : VRows → Nat → Nat → List Cp)
    (all smooth : VRows) (nData : Nat) (acc : VecState × List (Nat → Option Rat)) :
    Except Err (VecState × List (Nat → Option Rat)) :=
  if nData - acc.2.length > 0 then do
    let he := all.length - (nData - acc.2.length)
    let hs ← idxLeft (vcol 0 all) ((all.getD he (0, fun _ => 0)).1 - cfg.histWindow)
    vecFitAndScore cfg sqrt n detectV all smooth hs he all.length acc
  else .ok acc

/-- Early exits (1604-1616, 1622-1637): score the data without fitting. -/
def vecPredictOnly (cfg : CusumCfg) (n : Nat) (smooth : VRows) (nData : Nat) (st : VecState) :
    Except Err (VecState × List (Nat → Option Rat)) := do
  let sc ← vecPredict cfg n st (smooth.drop (smooth.length - nData))
  return (st, sc)

/-- Lines 1617-1726, after the first early exit. -/
def vecScan (cfg : CusumCfg) (sqrt : Rat → Rat) (n : Nat) (detectV : VRows → Nat → Nat → List Cp)
    (freq : Int) (data all smooth : VRows) (first d0 last astart : Int) (st : VecState) :
    Except Err (VecState × List (Nat → Option Rat)) := do
  let aidx ← idxRight (vcol 0 data) astart
  let astart' := (data.getD aidx (0, fun _ => 0)).1
  if last - first + freq < cfg.scanWindow then vecPredictOnly cfg n smooth data.length st
  else
    let step := stepOf cfg freq d0 last
    let acc ← (dateRange astart' (min (last + freq - step) last) step).foldlM
      (vecWindow cfg sqrt n detectV all smooth step) (st, List.replicate aidx fun _ => some 0)
    vecRemain cfg sqrt n detectV all smooth data.length acc

/-- `fit_predict` (1490-1734) for two or more columns: the new state and the scores.  The state
before is replaced (1528-1536). -/
def vecFitPredict (cfg : CusumCfg) (sqrt : Rat → Rat) (n : Nat)
    (detectV : VRows → Nat → Nat → List Cp) (freq : Int) (_st : Option VecState) (data hist : VRows) :
    Except Err (VecState × List (Nat → Option Rat)) :=
  let st := VecState.init
  let all := hist ++ data
  match all.head?, data.head?, data.getLast? with
  | some a0, some d0, some l => do
    checkWindows cfg freq
    let smooth := vecSmoothed (cfg.scanWindow / freq).toNat all
    let astart := max (a0.1 + cfg.histWindow) d0.1
    if l.1 < astart then vecPredictOnly cfg n smooth data.length st
    else vecScan cfg sqrt n detectV freq data all smooth a0.1 d0.1 l.1 astart st
  | _, _, _ => .error .indexError

/-- The columns of the scores (1461-1470, 1619, `consts.py` 677-691): without rows before the first
window `_zeros_ts` is a `TimeSeriesData()`, whose values are named `value`, and the columns of the
scores are appended to that one. -/
def vecScoreColumns (names : List String) (aidx : Nat) : List String :=
  if aidx = 0 then (if "value" ∈ names then "value" :: names.filter (· ≠ "value") else "value" :: names)
  else names

/-- How the object was made: with windows, or from a serialized model. -/
inductive VecMade where
  | windows
  | loaded

/-- `fit_predict` for one column (1517-1526, 1472-1488): without history an `AssertionError`; a
loaded object has no `serialized_model`; otherwise a new scalar model without `adapted_pre_mean`. -/
def vecUnivariate (cfg : CusumCfg) (std : List Rat → Rat) (detect : List (Int × Rat) → Nat → List Cp)
    (freq : Int) (made : VecMade) (data : List (Int × Rat)) (hist : Option (List (Int × Rat))) :
    Except Err (CusumState × List (Option Rat)) :=
  match hist with
  | none => .error .otherError
  | some h =>
    match made with
    | .loaded => .error .attributeError
    | .windows => cusumFitPredict { cfg with adapted := false } std detect freq CusumState.init data h

/-! ### Serialization -/

/-- A value of an attribute of the object, as far as `json` is concerned. -/
inductive VecAttr where
  | plain
  | series
deriving DecidableEq

/-- The attributes after `__init__` with windows (1176-1202). -/
def vecAttrs : List (String × VecAttr) :=
  ["serialized_model", "scan_window", "historical_window", "step_window", "threshold",
    "delta_std_ratio", "magnitude_quantile", "magnitude_ratio", "change_directions",
    "remove_seasonality", "season_period_freq", "score_func", "adapted_pre_mean"].map (·, .plain)

/-- The attributes that `fit_predict` adds for two or more columns (1528-1536). -/
def vecFitted (attrs : List (String × VecAttr)) : List (String × VecAttr) :=
  attrs ++ (["alert_fired", "pre_mean", "pre_std", "alert_change_direction",
    "number_of_normal_scan"].map (·, .series)) ++ [("cps", .plain), ("cps_meta", .plain)]

/-- `serialize` (312-317): `json` refuses a `Series`. -/
def vecSerialize (attrs : List (String × VecAttr)) : Except Err (List String) :=
  if attrs.any fun a => decide (a.2 = .series) then .error .typeError else .ok (attrs.map (·.1))

/-- `__init__` with a serialized model (1124-1174): the keys that are looked up without a default. -/
def vecLoad (keys : List String) : Except Err Unit :=
  if ["cps", "cps_meta", "alert_fired", "pre_mean", "pre_std", "number_of_normal_scan",
      "alert_change_direction", "scan_window", "historical_window", "step_window", "threshold",
      "delta_std_ratio", "magnitude_quantile", "magnitude_ratio", "change_directions",
      "score_func"].all fun k => decide (k ∈ keys) then .ok () else .error .keyError

/-! ### `CUSUMDetectorModel` with `vectorized=True` -/

/-- `_reorganize_big_data` (973-996): column `k` has the rows `k * step .. k * step + len`, the times
are those of the first window. -/
def vecReorganize (org : List (Int × Rat)) (len step : Nat) : List (List (Int × Rat)) :=
  let starts := 0 :: (List.range ((org.length - len + step - 1) / step)).map fun k => (k + 1) * step
  starts.map fun s => ((org.take len).map (·.1)).zip (((org.drop s).take len).map (·.2))

/-- `_fit_vec_row` (360-413): `row` is a column with the times of the first window, `cps` the
changepoints found in it, `adjust` the distance of its own times. The second result is `res_cp`. -/
def vecFitRow (cfg : CusumCfg) (std : List Rat → Rat) (row : List (Int × Rat)) (cps : List Cp)
    (adjust : Int) (st : CusumState) : Except Err (CusumState × List Int) :=
  match row.getLast? with
  | none => .error .indexError
  | some last =>
    let i := scanStart cfg row last.1
    if st.alertFired then do
      let st ← fitAlertOff cfg std row i ((last.1 + adjust) / nsPerSec) st
      return (st, [])
    else
      match cps with
      | [] => .ok (st, [])
      | cp :: _ =>
        .ok (({ st with cps := pushCp st.cps ((cp.time + adjust) / nsPerSec) } : CusumState).alertOn
          (pdMean ((row.map (·.2)).take (cp.index + 1)))
          (pdStd std ((row.map (·.2)).take (cp.index + 1))) cp.dir, [cp.time / nsPerSec])

/-- `values[c] = x` on an `int64` array: the fraction is cut off, NaN is an error. -/
def vecTrunc : Option Rat → Except Err (Option Rat)
  | none => .error .valueError
  | some x => .ok (some (Int.tdiv x.num x.den : Int))

/-- The loop over the columns (842-860): the state of the scalar model goes through the columns, and
after each its baseline, alert and changepoints are written for the column.  `isInt`: the baselines
are still `pd.Series(0)`, `pd.Series(1)`, of type `int64`, as no column had a changepoint. -/
def vecColumns (cfg : CusumCfg) (std : List Rat → Rat) (isInt : Bool) (step : Int) :
    Nat → List (List (Int × Rat) × List Cp) → CusumState →
      Except Err (CusumState × List (Option Rat × Option Rat × Bool × List Int))
  | _, [], st => .ok (st, [])
  | c, q :: qs, st => do
    let r ← vecFitRow cfg std q.1 q.2 (c * step) st
    let m ← if isInt then vecTrunc r.1.preMean else .ok r.1.preMean
    let s ← if isInt then vecTrunc r.1.preStd else .ok r.1.preStd
    let rest ← vecColumns cfg std isInt step (c + 1) qs r.1
    return (rest.1, (m, s, r.1.alertFired, r.2) :: rest.2)

/-- `ss_detect._predict` on one column (1418-1459). -/
def vecPredictCol (cfg : CusumCfg) (row : List (Int × Rat)) (b : Option Rat × Option Rat × Bool × List Int) :
    Except Err (List (Option Rat)) :=
  match row.head? with
  | none => .error .indexError
  | some p0 => do
    let k ← vecCpIndex (row.map (·.1)) p0.1 b.2.2.2
    return row.zipIdx.map fun r =>
      if !b.2.2.1 || (match k with
        | none => false
        | some k => decide (r.2 < k + 1)) then some 0
      else cfg.score r.1.2 b.1 b.2.1

/-- The changepoints of a column in `cps_meta` after `ss_detect._fit` (831-840): none if the scan
window has less than two rows, otherwise the earliest. -/
def vecMeta (cfg : CusumCfg) (detect : List (Int × Rat) → Nat → List Cp) (row : List (Int × Rat)) :
    List Cp :=
  match row.getLast? with
  | none => []
  | some last =>
    let i := scanStart cfg row last.1
    if 1 < row.length - i then (earliest (detect row i)).toList else []

/-- Lines 777-877: windows as columns, the detector on all of them, the state column by column, the
scores of the last `step` rows of the smoothed columns, concatenated.  `a` is the row of the first
score, `nh` and `ns` the rows of the historical and the step window, `dim` the number of windows. -/
def vecLoopFlag (cfg : CusumCfg) (std : List Rat → Rat) (detect : List (Int × Rat) → Nat → List Cp)
    (all smooth : List (Int × Rat)) (a nh ns dim : Nat) (step : Int) (st : CusumState) :
    Except Err (CusumState × List (Option Rat)) := do
  let cols := vecReorganize (seg all (a - nh) (a + dim * ns)) (nh + ns) ns
  let smo := vecReorganize (seg smooth (a - nh) (a + dim * ns)) (nh + ns) ns
  let found := cols.map (vecMeta cfg detect)
  let r ← vecColumns cfg std (found.all fun l => l.isEmpty) step 0 (cols.zip found) st
  let sc ← (smo.zip r.2).mapM fun q => vecPredictCol cfg (q.1.drop (q.1.length - ns)) q.2
  return (r.1, sc.flatten)

/-- `vectorized_trans_flag` (738-775): windows that are multiples of the frequency, a regular series
(`regular` is `pd.infer_freq(...) is not None`) and at least two windows. -/
def vecFlag (cfg : CusumCfg) (freq : Int) (regular : Bool) (step : Int) (dim : Nat) : Bool :=
  decide (step % freq = 0) && decide (cfg.histWindow % freq = 0) && regular && decide (2 ≤ dim)

/-- Lines 704-960 with `vectorized=True`: as `cusumScan`, with the other loop if possible. `nh` is
`org_hist_len`. -/
def cusumScanVec (cfg : CusumCfg) (std : List Rat → Rat) (detect : List (Int × Rat) → Nat → List Cp)
    (freq : Int) (regular : Bool) (nhist : Nat) (data all smooth : List (Int × Rat))
    (first d0 last astart : Int) (st : CusumState) : Except Err (CusumState × List (Option Rat)) := do
  let aidx ← idxRight data astart
  let astart' := (data.getD aidx (0, 0)).1
  if last - first + freq < cfg.scanWindow then predictOnly cfg smooth data.length st
  else
    let step := stepOf cfg freq d0 last
    let nh := (-((-cfg.histWindow) / freq)).toNat
    let len := (-((-(cfg.histWindow + step)) / freq)).toNat
    let ns := len - nh
    let dim := (all.length - (aidx + nhist)) / ns
    let zeros : List (Option Rat) := List.replicate aidx (some 0)
    let acc ← if vecFlag cfg freq regular step dim then
        (vecLoopFlag cfg std detect all smooth (aidx + nhist) nh ns dim step st).map
          fun r => (r.1, zeros ++ r.2)
      else (List.foldlM (cusumWindow cfg std detect all smooth step) (st, zeros)
        (dateRange astart' (min (last + freq - step) last) step))
    cusumRemain cfg std detect all smooth data.length acc

/-- `fit_predict` (594-971) with `vectorized=True`, as `cusumFitPredict`. -/
def cusumFitPredictVec (cfg : CusumCfg) (std : List Rat → Rat)
    (detect : List (Int × Rat) → Nat → List Cp) (freq : Int) (regular : Bool) (st : CusumState)
    (data hist : List (Int × Rat)) : Except Err (CusumState × List (Option Rat)) :=
  let all := hist ++ data
  match all.head?, data.head?, data.getLast? with
  | some a0, some d0, some l => do
    checkWindows cfg freq
    let smooth := smoothed (cfg.scanWindow / freq).toNat all
    let astart := max (a0.1 + cfg.histWindow) d0.1
    if l.1 < astart then predictOnly cfg smooth data.length st
    else cusumScanVec cfg std detect freq regular hist.length data all smooth a0.1 d0.1 l.1 astart st
  | _, _, _ => .error .indexError

end Kats
