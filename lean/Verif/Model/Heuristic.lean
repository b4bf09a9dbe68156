import Verif.Model.Metrics
import Mathlib.Data.Rat.Floor

/-!
# `kats/models/simple_heuristic_model.py` and the future dates of forecasting models
-/

namespace Kats

/-- A pandas frequency: `roll` moves a date forward to the next date of the frequency (a date of the
frequency stays), `next` is the date after.  Calendar arithmetic itself is a parameter. -/
structure DateFreq where
  roll : Int → Int
  next : Int → Int

/-- `pd.date_range(start, periods=k, freq)`. -/
def pdDateRange (f : DateFreq) (start : Int) (k : Nat) : List Int :=
  (List.range k).map fun i => f.next^[i] (f.roll start)

/-- The idiom of all forecasting models, e.g. `simple_heuristic_model.py` 199-201:
`dates = date_range(last, steps + 1); dates[dates != last]`. -/
def futureDates (f : DateFreq) (last : Int) (steps : Nat) : List Int :=
  (pdDateRange f last (steps + 1)).filter fun d => decide (d ≠ last)

/-- `pd.DataFrame({"time": dates, "fcst": fcst})`: columns of unequal length are rejected. -/
def mkFcst {α : Type} (dates : List Int) (fcst : List α) : Except Err (List (Int × α)) :=
  if dates.length = fcst.length then .ok (dates.zip fcst) else .error .valueError

/-- `np.percentile(·, q)` with linear interpolation of the order statistics. -/
def percentileQ (q : Nat) (l : List Rat) : Rat :=
  let s := l.insertionSort (· ≤ ·)
  let h : Rat := ((s.length - 1 : Nat) : Rat) * q / 100
  let i := h.floor.toNat
  s.getD i 0 + (h - i) * (s.getD (min (i + 1) (s.length - 1)) 0 - s.getD i 0)

/-- `SimpleHeuristicModelParams` 38-44: the method, with the quantile for `percentile`. -/
inductive HMethod where
  | last | mean | median
  | percentile (q : Nat)
deriving DecidableEq

/-- 46-62, `validate_params` (the quantile is checked whatever the method; an unknown method is not
representable). -/
def HMethod.validate : HMethod → Except Err Unit
  | .percentile q => if q > 100 then .error .valueError else .ok ()
  | _ => .ok ()

/-- 107-140: what a method makes of one column of the reshaped history. -/
def HMethod.apply : HMethod → List Rat → Rat
  | .last, l => l.getLastD 0
  | .mean, l => l.sum / l.length
  | .median, l => medianQ l
  | .percentile q, l => percentileQ q l

/-- 188-190: the part of the history that is used; `value[-0:]` is the whole history. -/
def fittedPart (xs : List Rat) (steps : Nat) : List Rat :=
  pyFrom xs (-(((xs.length / steps) * steps : Nat) : Int))

/-- 191: column `c` of `reshape([-1, steps])`. -/
def phaseColumn (ys : List Rat) (steps c : Nat) : List Rat :=
  (List.range (ys.length / steps)).map fun r => ys.getD (r * steps + c) 0

/-- 188-193: the forecasts.  `steps = 0` divides by zero; a history that is no multiple of `steps`
long cannot be reshaped. -/
def heuristicFcst (m : HMethod) (xs : List Rat) (steps : Nat) : Except Err (List Rat) :=
  if steps = 0 then .error .otherError
  else
    let ys := fittedPart xs steps
    if ys.length % steps ≠ 0 then .error .valueError
    else .ok ((List.range steps).map fun c => m.apply (phaseColumn ys steps c))

/-- Largest time of the data, `self.data.time.max()`. -/
def maxTime : List (Int × Rat) → Int
  | [] => 0
  | r :: l => (l.map (·.1)).foldl max r.1

/-- 162-229, `predict`: rows of time and forecast (`fcst_lower` and `fcst_upper` equal `fcst`).
`freq` is the frequency passed in or inferred. -/
def heuristicPredict (m : HMethod) (freq : DateFreq) (data : List (Int × Rat)) (steps : Nat)
    (includeHistory : Bool) : Except Err (List (Int × Rat)) := do
  let fc ← heuristicFcst m (data.map (·.2)) steps
  let dates := futureDates freq (maxTime data) steps
  if includeHistory then mkFcst (data.map (·.1) ++ dates) (data.map (·.2) ++ fc)
  else mkFcst dates fc

end Kats
