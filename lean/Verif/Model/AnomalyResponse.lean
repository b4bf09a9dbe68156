import Verif.Model.TimeSeries

/-!
# `kats/detectors/detector_consts.py`: `AnomalyResponse`

Every component series has the columns of `scores`, so a row of any of them is a list of
`numSeries` values (`none` is NaN).
-/

namespace Kats

/-- Rows of one component series of a response. -/
abbrev RSeries := List (Row (List (Option Rat)))

/-- A value argument of `update`: a Python float or an array (`detector_consts.py` 588-597). -/
inductive ValArg where
  | scalar (x : Option Rat)
  | array (l : List (Option Rat))

/-- `detector_consts.py` 563-586, `AnomalyResponse`; `band` is `(lower, upper)`.  `numSeries` is the
number of columns of `scores`; simplified: the other components have the same columns. -/
structure AResponse where
  scores : RSeries
  band : Option (RSeries × RSeries)
  predicted : Option RSeries
  magnitude : RSeries
  statSig : Option RSeries
  numSeries : Nat

/-- The arguments of one call of `update` (588-597). -/
structure AUpdate where
  time : Int
  score : ValArg
  ciUpper : ValArg
  ciLower : ValArg
  pred : ValArg
  anomMag : ValArg
  statSig : ValArg

/-- `pd.Series(value)` (`detector_consts.py` 625): one row per entry. -/
def ValArg.pdSeries : ValArg → List (List (Option Rat))
  | .scalar x => [[x]]
  | .array l => l.map fun x => [x]

/-- `detector_consts.py` 619-652, `_update_ts_slice`.  624-629: in the univariate case the values are
concatenated with `pd.Series(value)`, which has one row per array entry, and time and value go to the
constructor.  630-652: in the multivariate case a float is rejected, and `value[i]` is read for each
column. -/
def updateSlice (srt : TimeSort (List (Option Rat))) (k : Nat) (ts : RSeries) (time : Int)
    (value : ValArg) : Except Err RSeries :=
  if k = 1 then
    construct srt
      { df := none
        time := some ((ts.drop 1).map (·.1) ++ [time])
        value := some ((ts.drop 1).map (·.2) ++ value.pdSeries, true) }
  else
    match value with
    | .scalar _ => .error .valueError
    | .array l =>
      if l.length < k then .error .indexError
      else construct srt
        { df := some ⟨true, true, ts.drop 1 ++ [(time, l.take k)]⟩, time := none, value := none }

/-- Run one statement of a method unless an earlier one raised; the assignments made before an
exception stay. -/
def arStage (f : AResponse → Except Err AResponse) (p : AResponse × Option Err) :
    AResponse × Option Err :=
  match p.2 with
  | some _ => p
  | none =>
    match f p.1 with
    | .ok a => (a, none)
    | .error e => (p.1, some e)

/-- 603-607: the confidence band is replaced once both halves are built. -/
def updateBand (srt : TimeSort (List (Option Rat))) (u : AUpdate) (a : AResponse) :
    Except Err AResponse :=
  match a.band with
  | none => .ok a
  | some (lo, up) => do
    let lo' ← updateSlice srt a.numSeries lo u.time u.ciLower
    let up' ← updateSlice srt a.numSeries up u.time u.ciUpper
    pure { a with band := some (lo', up') }

/-- 601 -/
def updateScores (srt : TimeSort (List (Option Rat))) (u : AUpdate) (a : AResponse) :
    Except Err AResponse := do
  let s ← updateSlice srt a.numSeries a.scores u.time u.score
  pure { a with scores := s }

/-- 609-611 -/
def updatePredicted (srt : TimeSort (List (Option Rat))) (u : AUpdate) (a : AResponse) :
    Except Err AResponse :=
  match a.predicted with
  | none => .ok a
  | some p => do
    let p' ← updateSlice srt a.numSeries p u.time u.pred
    pure { a with predicted := some p' }

/-- 612-614 -/
def updateMagnitude (srt : TimeSort (List (Option Rat))) (u : AUpdate) (a : AResponse) :
    Except Err AResponse := do
  let s ← updateSlice srt a.numSeries a.magnitude u.time u.anomMag
  pure { a with magnitude := s }

/-- 615-617 -/
def updateStatSig (srt : TimeSort (List (Option Rat))) (u : AUpdate) (a : AResponse) :
    Except Err AResponse :=
  match a.statSig with
  | none => .ok a
  | some p => do
    let p' ← updateSlice srt a.numSeries p u.time u.statSig
    pure { a with statSig := some p' }

/-- `detector_consts.py` 588-617, `update`: new state and the exception, if any. -/
def AResponse.update (srt : TimeSort (List (Option Rat))) (a : AResponse) (u : AUpdate) :
    AResponse × Option Err :=
  arStage (updateStatSig srt u) (arStage (updateMagnitude srt u) (arStage (updatePredicted srt u)
    (arStage (updateBand srt u) (arStage (updateScores srt u) (a, none)))))

/-- A series of `update` calls, up to the first exception. -/
def AResponse.updates (srt : TimeSort (List (Option Rat))) (a : AResponse) :
    List AUpdate → AResponse × Option Err
  | [] => (a, none)
  | u :: us =>
    match a.update srt u with
    | (b, none) => b.updates srt us
    | (b, some e) => (b, some e)

/-- `detector_consts.py` 679-690, `_inplace_update_ts`: overwrite the rows whose time is `time`.
Simplified: the value is already a row with one entry per column (no broadcasting). -/
def inplaceTs (time : Int) (row : List (Option Rat)) (ts : RSeries) : RSeries :=
  ts.map fun r => if r.1 = time then (r.1, row) else r

/-- `detector_consts.py` 654-677, `inplace_update`. -/
def AResponse.inplaceUpdate (a : AResponse) (time : Int)
    (score ciUpper ciLower pred anomMag statSig : List (Option Rat)) : AResponse :=
  { a with
    scores := inplaceTs time score a.scores
    band := a.band.map fun b => (inplaceTs time ciLower b.1, inplaceTs time ciUpper b.2)
    predicted := a.predicted.map (inplaceTs time pred)
    magnitude := inplaceTs time anomMag a.magnitude
    statSig := a.statSig.map (inplaceTs time statSig) }

/-- `ts[-N:]`: `kats/consts.py` 554-558 slices by position and rebuilds (sorting again). -/
def lastSlice (srt : TimeSort (List (Option Rat))) (n : Int) (ts : RSeries) : RSeries :=
  buildRows srt true false (pyFrom ts (-n))

/-- `detector_consts.py` 692-713, `get_last_n`. -/
def AResponse.getLastN (srt : TimeSort (List (Option Rat))) (a : AResponse) (n : Int) : AResponse :=
  { scores := lastSlice srt n a.scores
    band := a.band.map fun b => (lastSlice srt n b.1, lastSlice srt n b.2)
    predicted := a.predicted.map (lastSlice srt n)
    magnitude := lastSlice srt n a.magnitude
    statSig := a.statSig.map (lastSlice srt n)
    numSeries := a.numSeries }

/-- One `ts.extend(other, validate)` of 744-754 (`kats/consts.py` 655-692): rows after the call and
the exception, if any. -/
def extendTs (inferFreq : List Int → Bool) (validate : Bool) (ts other : RSeries) :
    RSeries × Option Err :=
  let r := TSD.extend inferFreq ⟨ts, true⟩ ⟨other, true⟩ validate
  (r.1.rows, r.2)

/-- Run one component's `extend` unless an earlier one raised. -/
def extendStage (inferFreq : List Int → Bool) (validate : Bool)
    (get : AResponse → Option RSeries) (set : AResponse → RSeries → AResponse) (other : AResponse)
    (p : AResponse × Option Err) : AResponse × Option Err :=
  match p.2, get p.1, get other with
  | none, some ts, some o =>
    let r := extendTs inferFreq validate ts o
    (set p.1 r.1, r.2)
  | _, _, _ => p

/-- `detector_consts.py` 715-754, `extend`: the three `None` checks come first, then the components
are extended in place one after the other (upper before lower). -/
def AResponse.extend (inferFreq : List Int → Bool) (a other : AResponse) (validate : Bool) :
    AResponse × Option Err :=
  if a.band.isNone != other.band.isNone then (a, some .valueError)
  else if a.predicted.isNone != other.predicted.isNone then (a, some .valueError)
  else if a.statSig.isNone != other.statSig.isNone then (a, some .valueError)
  else
    let st := extendStage inferFreq validate
    st (·.statSig) (fun a s => { a with statSig := some s }) other <|
    st (fun a => some a.magnitude) (fun a s => { a with magnitude := s }) other <|
    st (·.predicted) (fun a s => { a with predicted := some s }) other <|
    st (fun a => a.band.map (·.1)) (fun a s => { a with band := a.band.map fun b => (s, b.2) }) other <|
    st (fun a => a.band.map (·.2)) (fun a s => { a with band := a.band.map fun b => (b.1, s) }) other <|
    st (fun a => some a.scores) (fun a s => { a with scores := s }) other (a, none)

end Kats
