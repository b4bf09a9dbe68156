import Verif.Model.TimeSeries
import Verif.Model.Decomposition

/-!
# `kats/consts.py`: `TimeSeriesData.interpolate`

Rows hold one optional number per column (`none` is NaN), times are seconds.  The frequency is a
fixed length of time; calendar frequencies (months, years) are not modelled.  The path for pandas
before 1.1 (1061-1081) is not modelled; `resample` is that of pandas 1.1 to 1.3, the newest allowed
by `requirements.txt`.
-/

namespace Kats

noncomputable section
open Classical

/-- The argument `origin` (995). -/
inductive TiOrigin where
  | startDay
  | start
  | stamp (t : Int)

/-- The argument `method` (996). -/
inductive TiMethod where
  | linear
  | ffill
  | bfill
  | other (name : String)

/-- The arguments of `interpolate` (991-999). -/
structure TiArgs where
  freq : Option Int := none
  base : Int := 0
  origin : TiOrigin := .startDay
  method : TiMethod := .linear
  removeDup : Bool := false

/-- What is called: `inferred_freq` of an index when it is a fixed length of time, and the other
methods of `interpolate`, column by column. -/
structure TiWorld where
  infer : List Int → Option Int
  other : String → List (Option ℝ) → Except Err (List (Option ℝ))

/-- The instant the bins are counted from: midnight before the first time, the first time, or the
time stamp given. -/
def tiOriginAt (o : TiOrigin) (first : Int) : Int :=
  match o with
  | .startDay => first - first % 86400
  | .start => first
  | .stamp t => t

/-- The left edges of the bins of `resample(rule=f, origin=o)`: from the bin of the first time to the
bin of the last. -/
def tiGrid (o f first last : Int) : List Int :=
  let start := first - (first - o) % f
  (List.range (((last - start) / f).toNat + 1)).map fun k : Nat => start + f * (k : Int)

/-- How a row is looked up by `reindex`. -/
inductive TiFill where
  | exact
  | before
  | after

/-- `reindex` at one time of the grid: the row of that time, the last one up to it, or the first one
from it on. -/
def tiPick {C : Type} (m : TiFill) (rows : List (Row (C → Option ℝ))) (t : Int) : C → Option ℝ :=
  match m with
  | .exact => ((rows.find? fun r => decide (r.1 = t)).map (·.2)).getD fun _ => none
  | .before => (((rows.filter fun r => decide (r.1 ≤ t)).getLast?).map (·.2)).getD fun _ => none
  | .after => ((rows.find? fun r => decide (t ≤ r.1)).map (·.2)).getD fun _ => none

/-- Sorting by time, stable. -/
def tiSort {C : Type} (rows : List (Row (C → Option ℝ))) : List (Row (C → Option ℝ)) :=
  rows.mergeSort fun a b => decide (a.1 ≤ b.1)

/-- `resample(...)` followed by `asfreq`, `ffill` or `bfill`, on rows in order: if the rows already
have the frequency and there is one for each bin they are taken as they are, under the new times;
otherwise they are looked up by time, and repeated times raise. -/
def tiUpsample {C : Type} (W : TiWorld) (m : TiFill) (f : Int) (o : TiOrigin)
    (rows : List (Row (C → Option ℝ))) : Except Err (List (Row (C → Option ℝ))) :=
  match rows.head?, rows.getLast? with
  | some a, some b =>
    let g := tiGrid (tiOriginAt o a.1) f a.1 b.1
    if W.infer (rows.map (·.1)) = some f ∧ rows.length = g.length then .ok (g.zip (rows.map (·.2)))
    else if (rows.map (·.1)).Nodup then .ok (g.map fun t => (t, tiPick m rows t))
    else .error .valueError
  | _, _ => .ok []

/-- `interpolate(method="linear")` of every column. -/
def tiLinear {C : Type} (rows : List (Row (C → Option ℝ))) : List (Row (C → Option ℝ)) :=
  (List.range rows.length).map fun i : Nat =>
    ((rows.map (·.1)).getD i 0, fun c => (forwardInterp (rows.map fun r => r.2 c)).getD i none)

/-- `interpolate(method=name)` of every column in `cols`. -/
def tiOther {C : Type} (W : TiWorld) (name : String) (cols : List C) (rows : List (Row (C → Option ℝ))) :
    Except Err (List (Row (C → Option ℝ))) := do
  let vs ← cols.mapM fun c => W.other name (rows.map fun r => r.2 c)
  pure ((List.range rows.length).map fun i : Nat => ((rows.map (·.1)).getD i 0, fun c =>
    (((cols.zip vs).find? fun q => decide (q.1 = c)).map fun q => q.2.getD i none).getD none))

/-- `_interpolate_new` (1083-1111).  The result is in order already, so the constructor (1111)
changes nothing. -/
def tiNew {C : Type} (W : TiWorld) (cols : List C) (f : Int) (o : TiOrigin) (m : TiMethod)
    (rows : List (Row (C → Option ℝ))) : Except Err (List (Row (C → Option ℝ))) :=
  match m with
  | .linear => do
    let r ← tiUpsample W .exact f o rows
    pure (tiLinear r)
  | .ffill => tiUpsample W .before f o rows
  | .bfill => tiUpsample W .after f o rows
  | .other name => do
    let r ← tiUpsample W .exact f o rows
    tiOther W name cols r

/-- The frequency (1034-1035): `None` and zero mean the most frequent difference. -/
def tiFreq {C : Type} (freq : Option Int) (ts : TSD (C → Option ℝ)) : Except Err Int :=
  match freq with
  | none => ts.inferFreqRobust
  | some f => if f = 0 then ts.inferFreqRobust else .ok f

/-- `interpolate` (991-1059).  A frequency that is not positive raises. -/
def tiInterpolate {C : Type} (W : TiWorld) (cols : List C) (a : TiArgs) (ts : TSD (C → Option ℝ)) :
    Except Err (List (Row (C → Option ℝ))) := do
  let f ← tiFreq a.freq ts
  let rows := if a.removeDup then dropDupTime [] ts.rows else ts.rows
  if f ≤ 0 then .error .otherError
  else tiNew W cols f (if a.base = 0 then a.origin else .start) a.method (tiSort rows)

end

end Kats
