import Verif.Model.Cusum

/-!
# `kats/detectors/cusum_model.py`: `CUSUMDetectorModel`

Times are nanoseconds (`Int`), values exact rationals, `none : Option Rat` is NaN.  The changepoint
detector is a parameter `detect` (it gets the series and the first index of the scan window and
returns changepoints), the population standard deviation is a parameter `std`, the score function a
parameter `score`.  Not modelled: removal of seasonality (`remove_seasonality = False`), the
vectorised path (`vectorized = False`), inference of the frequency (a parameter `freq`), the second
score (absolute change), which is computed alongside in the same way.
-/

namespace Kats

/-- A changepoint returned by `CUSUMDetector.detector`: start time, index in the series, direction. -/
structure Cp where
  time : Int
  index : Nat
  dir : Dir
deriving DecidableEq, Repr

/-- The mutable fields of `CUSUMDetectorModel` (202-207, 247-253). -/
structure CusumState where
  /-- `cps`, unix seconds -/
  cps : List Int
  alertFired : Bool
  preMean : Option Rat
  preStd : Option Rat
  normalScans : Nat
  /-- `alert_change_direction` -/
  direction : Option Dir
deriving DecidableEq, Repr

/-- A new model (247-253). -/
def CusumState.init : CusumState := ⟨[], false, some 0, some 1, 0, none⟩

/-- The configuration (windows in nanoseconds). -/
structure CusumCfg where
  scanWindow : Int
  histWindow : Int
  stepWindow : Option Int
  deltaStdRatio : Rat
  changeDirections : Option (List String)
  adapted : Bool
  /-- `SCORE_FUNC_DICT[score_func]`: value, baseline mean, baseline deviation -/
  score : Rat → Option Rat → Option Rat → Option Rat

/-- `MAX_CHANGEPOINT` (60). -/
def maxChangepoint : Nat := 10
/-- `NORMAL_TOLERENCE` (58). -/
def normalTolerance : Nat := 1
/-- `CHANGEPOINT_RETENTION` (59), seconds. -/
def retention : Int := 7 * 24 * 60 * 60
/-- Nanoseconds per second. -/
def nsPerSec : Int := 1000000000

/-- `_set_alert_off` (319-321). -/
def CusumState.alertOff (st : CusumState) : CusumState :=
  { st with alertFired := false, normalScans := 0 }

/-- `_set_alert_on` (323-329). -/
def CusumState.alertOn (st : CusumState) (m s : Option Rat) (d : Dir) : CusumState :=
  { st with alertFired := true, direction := some d, preMean := m, preStd := s }

/-- `"increase" in change_directions` etc. (337-343). -/
def watches (dirs : Option (List String)) (s : String) : Bool :=
  match dirs with
  | none => true
  | some l => decide (s ∈ l)

/-- `pre_mean - check * pre_std <= cur` with `check = none` for `np.inf`; `inf * 0` is NaN. -/
def aboveLower (m s cur : Rat) : Option Rat → Bool
  | some r => decide (m - r * s ≤ cur)
  | none => decide (s ≠ 0)

/-- `cur <= pre_mean + check * pre_std`. -/
def belowUpper (m s cur : Rat) : Option Rat → Bool
  | some r => decide (cur ≤ m + r * s)
  | none => decide (s ≠ 0)

/-- `_if_normal` (331-358). With no direction set the local variables are unbound. -/
def ifNormal (cfg : CusumCfg) (st : CusumState) (cur : Rat) : Except Err Bool :=
  let inc := watches cfg.changeDirections "increase"
  let dec := watches cfg.changeDirections "decrease"
  match st.direction with
  | none => .error .otherError
  | some d =>
    match st.preMean, st.preStd with
    | some m, some s =>
      match d with
      | .increase => .ok (aboveLower m s cur (if dec then some cfg.deltaStdRatio else none) &&
          belowUpper m s cur (if inc then some 0 else none))
      | .decrease => .ok (aboveLower m s cur (if dec then some 0 else none) &&
          belowUpper m s cur (if inc then some cfg.deltaStdRatio else none))
    | _, _ => .ok false

/-- `sorted(changepoints, key=start_time)[0]` (469). -/
def earliest : List Cp → Option Cp
  | [] => none
  | c :: l =>
    match earliest l with
    | none => some c
    | some b => if b.time < c.time then some b else some c

/-- Mean of a pandas Series (NaN if empty). -/
def pdMean (l : List Rat) : Option Rat := if l.isEmpty then none else some (mean l)

/-- `Series.std(ddof=0)` (NaN if empty). -/
def pdStd (std : List Rat → Rat) (l : List Rat) : Option Rat := if l.isEmpty then none else some (std l)

/-- `self.cps.append(...)`, `pop(0)` beyond 10 (470-473). -/
def pushCp (cps : List Int) (c : Int) : List Int :=
  if (cps ++ [c]).length > maxChangepoint then (cps ++ [c]).drop 1 else cps ++ [c]

/-- First index with time `>= last - scan_window` (447-452). -/
def scanStart (cfg : CusumCfg) (h : List (Int × Rat)) (last : Int) : Nat :=
  h.findIdx fun p => decide (last - cfg.scanWindow ≤ p.1)

/-- Lines 468-480. -/
def fitAlertOn (std : List Rat → Rat) (h : List (Int × Rat)) (st : CusumState) :
    Option Cp → CusumState
  | none => st
  | some cp =>
    ({ st with cps := pushCp st.cps (cp.time / nsPerSec) } : CusumState).alertOn
      (pdMean ((h.map (·.2)).take (cp.index + 1))) (pdStd std ((h.map (·.2)).take (cp.index + 1)))
      cp.dir

/-- Lines 485-487. -/
def adaptBaseline (cfg : CusumCfg) (std : List Rat → Rat) (pre : List Rat) (st : CusumState) :
    CusumState :=
  if cfg.adapted then { st with preMean := pdMean pre, preStd := pdStd std pre } else st

/-- Lines 491-496. -/
def countNormal (st : CusumState) (normal : Bool) : CusumState :=
  if normal then
    if normalTolerance ≤ st.normalScans + 1 then st.alertOff
    else { st with normalScans := st.normalScans + 1 }
  else { st with normalScans := 0 }

/-- Lines 498-500: `now` is the last time of the data in seconds. -/
def expire (now : Int) (st : CusumState) : Except Err CusumState :=
  match st.cps.getLast? with
  | none => .error .indexError
  | some c => .ok (if now - c > retention then st.alertOff else st)

/-- Lines 483-500. -/
def fitAlertOff (cfg : CusumCfg) (std : List Rat → Rat) (h : List (Int × Rat)) (i : Nat) (now : Int)
    (st : CusumState) : Except Err CusumState := do
  let st1 := adaptBaseline cfg std ((h.map (·.2)).take i) st
  let normal ← ifNormal cfg st1 (mean ((h.map (·.2)).drop i))
  expire now (countNormal st1 normal)

/-- `_fit` (415-500). `data.time.max()` is the last time (the series is sorted, `data` is its last
part and not empty). -/
def cusumFit (cfg : CusumCfg) (std : List Rat → Rat) (detect : List (Int × Rat) → Nat → List Cp)
    (st : CusumState) (inData inHist : List (Int × Rat)) : Except Err CusumState :=
  let h := inHist ++ inData
  match h.getLast? with
  | none => .error .indexError
  | some last =>
    let i := scanStart cfg h last.1
    if st.alertFired then fitAlertOff cfg std h i (last.1 / nsPerSec) st
    else if h.length - i ≤ 1 then .ok st
    else .ok (fitAlertOn std h st (earliest (detect h i)))

/-- `_predict` (502-548): the scores. -/
def cusumPredict (cfg : CusumCfg) (st : CusumState) (data : List (Int × Rat)) :
    Except Err (List (Option Rat)) :=
  if st.alertFired then
    match st.cps.getLast?, data.head? with
    | some c, some p0 =>
      if p0.1 ≤ c * nsPerSec then
        match data.findIdx? fun p => decide (p.1 = c * nsPerSec) with
        | none => .error .indexError
        | some i => .ok (List.replicate (i + 1) (some 0) ++
            (data.drop (i + 1)).map fun p => cfg.score p.2 st.preMean st.preStd)
      else .ok (data.map fun p => cfg.score p.2 st.preMean st.preStd)
    | _, _ => .error .indexError
  else .ok (data.map fun _ => some 0)

/-- `_check_window_sizes` (560-592). -/
def checkWindows (cfg : CusumCfg) (freq : Int) : Except Err Unit :=
  if cfg.stepWindow.any (fun s => decide (cfg.scanWindow ≤ s) || decide (s < freq)) then
    .error .otherError
  else if cfg.scanWindow < 2 * freq ∨ cfg.histWindow < 2 * freq then .error .otherError
  else .ok ()

/-- `np.convolve(x, np.ones(k), "full")[: 1 - k] / k` (672-684). -/
def smoothed (k : Nat) (all : List (Int × Rat)) : List (Int × Rat) :=
  if 1 < k then
    (List.range all.length).map fun i =>
      ((all.getD i (0, 0)).1, ((((all.map (·.2)).take (i + 1)).drop (i + 1 - k)).sum / (k : Rat)))
  else all

/-- `_time2idx(tsd, t, "right")` (1048-1049); `min` of an empty array raises. -/
def idxRight (l : List (Int × Rat)) (t : Int) : Except Err Nat :=
  match l.findIdx? fun p => decide (t ≤ p.1) with
  | some i => .ok i
  | none => .error .valueError

/-- `_time2idx(tsd, t, "left")` (1050-1051): the last index with time `< t`. -/
def idxLeft (l : List (Int × Rat)) (t : Int) : Except Err Nat :=
  match ((List.range l.length).filter fun i => decide ((l.getD i (0, 0)).1 < t)).getLast? with
  | some i => .ok i
  | none => .error .valueError

/-- `tsd[a:b]` for `0 ≤ a`, `0 ≤ b`. -/
def seg (l : List (Int × Rat)) (a b : Nat) : List (Int × Rat) := (l.take b).drop a

/-- `_fit` then `_predict` on rows `[he, se)` (909-928, 942-960), scores appended. -/
def fitAndScore (cfg : CusumCfg) (std : List Rat → Rat) (detect : List (Int × Rat) → Nat → List Cp)
    (all smooth : List (Int × Rat)) (hs he se : Nat) (acc : CusumState × List (Option Rat)) :
    Except Err (CusumState × List (Option Rat)) := do
  let st ← cusumFit cfg std detect acc.1 (seg all he se) (seg all hs he)
  let sc ← cusumPredict cfg st (seg smooth he se)
  return (st, acc.2 ++ sc)

/-- One pass of the loop 880-928. -/
def cusumWindow (cfg : CusumCfg) (std : List Rat → Rat) (detect : List (Int × Rat) → Nat → List Cp)
    (all smooth : List (Int × Rat)) (step : Int) (acc : CusumState × List (Option Rat))
    (start : Int) : Except Err (CusumState × List (Option Rat)) := do
  let hs ← idxRight all (start - cfg.histWindow)
  let he ← idxRight all start
  let se ← idxLeft all (start + step)
  if seg all he (se + 1) = [] then return acc
  else fitAndScore cfg std detect all smooth hs he (se + 1) acc

/-- `pd.date_range(start, end, freq=step)` (880-891). -/
def dateRange (start stop step : Int) : List Int :=
  (List.range (if stop < start then 0 else ((stop - start) / step).toNat + 1)).map fun i : Nat =>
    start + i * step

/-- The remaining data (930-960). -/
def cusumRemain (cfg : CusumCfg) (std : List Rat → Rat) (detect : List (Int × Rat) → Nat → List Cp)
    (all smooth : List (Int × Rat)) (nData : Nat) (acc : CusumState × List (Option Rat)) :
    Except Err (CusumState × List (Option Rat)) :=
  if nData - acc.2.length > 0 then do
    let he := all.length - (nData - acc.2.length)
    let hs ← idxLeft all ((all.getD he (0, 0)).1 - cfg.histWindow)
    fitAndScore cfg std detect all smooth hs he all.length acc
  else .ok acc

/-- `step_window` (726-736). -/
def stepOf (cfg : CusumCfg) (freq first last : Int) : Int :=
  match cfg.stepWindow with
  | none => min (cfg.scanWindow / 2) (last - first + freq)
  | some s => s

/-- Early exits 697, 718: score the data without fitting. -/
def predictOnly (cfg : CusumCfg) (smooth : List (Int × Rat)) (nData : Nat) (st : CusumState) :
    Except Err (CusumState × List (Option Rat)) := do
  let sc ← cusumPredict cfg st (smooth.drop (smooth.length - nData))
  return (st, sc)

/-- Lines 704-960, after the first early exit. -/
def cusumScan (cfg : CusumCfg) (std : List Rat → Rat) (detect : List (Int × Rat) → Nat → List Cp)
    (freq : Int) (data all smooth : List (Int × Rat)) (first d0 last astart : Int)
    (st : CusumState) : Except Err (CusumState × List (Option Rat)) := do
  let aidx ← idxRight data astart
  let astart' := (data.getD aidx (0, 0)).1
  if last - first + freq < cfg.scanWindow then predictOnly cfg smooth data.length st
  else
    let step := stepOf cfg freq d0 last
    let acc ← (dateRange astart' (min (last + freq - step) last) step).foldlM
      (cusumWindow cfg std detect all smooth step) (st, List.replicate aidx (some 0))
    cusumRemain cfg std detect all smooth data.length acc

/-- `fit_predict` (594-971): new state and scores (their times are `data.time`, 962). `hist = []` is
`historical_data=None`. -/
def cusumFitPredict (cfg : CusumCfg) (std : List Rat → Rat)
    (detect : List (Int × Rat) → Nat → List Cp) (freq : Int) (st : CusumState)
    (data hist : List (Int × Rat)) : Except Err (CusumState × List (Option Rat)) :=
  let all := hist ++ data
  match all.head?, data.head?, data.getLast? with
  | some a0, some d0, some l => do
    checkWindows cfg freq
    let smooth := smoothed (cfg.scanWindow / freq).toNat all
    let astart := max (a0.1 + cfg.histWindow) d0.1
    if l.1 < astart then predictOnly cfg smooth data.length st
    else cusumScan cfg std detect freq data all smooth a0.1 d0.1 l.1 astart st
  | _, _, _ => .error .indexError

end Kats
