import Verif.Model.TimeSeries
import Mathlib.Data.Rat.Floor
import Mathlib.Algebra.Order.Field.Rat

/-!
# `kats/utils/datapartition.py`

Fractions are exact rationals: `int(size * frac)` is computed without float rounding.
-/

namespace Kats

/-- Python `int(x)` on a real number: truncation towards zero. -/
def pyInt (x : Rat) : Int := if 0 ≤ x then ⌊x⌋ else ⌈x⌉

/-- `datapartition.py` 43-44, `_get_absolute_size`. -/
def dpAbsSize (size : Nat) (frac : Rat) : Int := pyInt (size * frac)

/-- `ts[i:j]` where either bound may be `None`. -/
def TSD.sliceO {V : Type} (srt : TimeSort V) (ts : TSD V) (i j : Option Int) : TSD V :=
  ts.slice srt (i.getD 0) (j.getD ts.rows.length)

/-- A `TrainTestData` fold. -/
structure Fold (V : Type) where
  train : TSD V
  test : TSD V

/-! ### Number of worker processes -/

/-- `datapartition.py` 60-80, `DataPartitionBase.__init__`: the value of `self.max_core` after
construction (`none`: the attribute was never assigned), or the exception.  `total` is
`cpu_count()`. -/
def dpMaxCore (total : Nat) (multi : Bool) (max_core : Option Int) : Except Err (Option Int) :=
  if multi then
    match max_core with
    | none => .ok (some (max (((total : Int) - 1) / 2) 1))
    | some mc =>
      if mc > 0 ∧ mc < total then .ok (some mc)
      else if mc > total then .ok none
      else .error .valueError
  else .ok (some 1)

/-- `kats/utils/backtesters.py` 99-110, `_check_max_core`. -/
def btMaxCore (total : Nat) (max_core : Option Int) : Int :=
  match max_core with
  | some mc => if mc > 0 ∧ mc < total then mc else max (((total : Int) - 1) / 2) 1
  | none => max (((total : Int) - 1) / 2) 1

/-! ### `SimpleDataPartition` -/

/-- The stored parameters (`datapartition.py` 200-203). -/
structure SDP where
  train_frac : Option Rat
  test_frac : Option Rat
  train_size : Option Int
  test_size : Option Int

/-- `datapartition.py` 205-215, `_param_check`: only the "both given" case raises; the range
checks build a message and drop it. -/
def sdpParamCheck (frac : Option Rat) (size : Option Int) : Except Err Unit :=
  if frac.isSome && size.isSome then .error .valueError else .ok ()

/-- `datapartition.py` 182-203, `SimpleDataPartition.__init__` (after the base class). -/
def SDP.init (train_frac test_frac : Option Rat) (train_size test_size : Option Int) :
    Except Err SDP := do
  if train_frac.isNone && train_size.isNone then throw .valueError
  sdpParamCheck train_frac train_size
  sdpParamCheck test_frac test_size
  return ⟨train_frac, test_frac, train_size, test_size⟩

/-- Python truthiness of an optional number (`if self.train_frac`): `None` and `0` are false. -/
def truthyRat (x : Option Rat) : Bool := x.any (fun v => decide (v ≠ 0))

/-- As `truthyRat`, for integers. -/
def truthyInt (x : Option Int) : Bool := x.any (fun v => decide (v ≠ 0))

/-- `datapartition.py` 217-237, `_single_train_test_split`: `train_size` may stay `None`, then
adding to it raises `TypeError`, and slicing with it means "from the start" / "to the end". -/
def SDP.split {V : Type} (srt : TimeSort V) (p : SDP) (data : TSD V) : Except Err (Fold V) := do
  let size := data.rows.length
  let train_size : Option Int :=
    if truthyRat p.train_frac then p.train_frac.map (dpAbsSize size) else p.train_size
  let end_idx : Int ←
    if truthyRat p.test_frac then
      match p.test_frac, train_size with
      | some f, some k => pure (dpAbsSize size f + k)
      | _, _ => throw .typeError
    else if truthyInt p.test_size then
      match p.test_size, train_size with
      | some s, some k => pure (s + k)
      | _, _ => throw .typeError
    else pure (size : Int)
  return ⟨data.sliceO srt none train_size, data.sliceO srt train_size (some end_idx)⟩

/-! ### `SimpleTimestampDataPartition` -/

/-- The stored time stamps (`datapartition.py` 275-278). -/
structure STDP where
  train_start : Int
  train_end : Int
  test_start : Int
  test_end : Int

/-- `datapartition.py` 280-308, `_timestamp_check`; `tmin`, `tmax` are `pd.Timestamp.min/max`. -/
def STDP.init (tmin tmax : Int) (train_end test_start : Int) (train_start test_end : Option Int) :
    Except Err STDP :=
  let train_start := train_start.getD tmin
  let test_end := test_end.getD tmax
  if train_end ≤ train_start then .error .valueError
  else if test_end ≤ test_start then .error .valueError
  else .ok ⟨train_start, train_end, test_start, test_end⟩

/-- `np.searchsorted(times, t)` on sorted times (external): the number of entries below `t`. -/
def searchLeft (times : List Int) (t : Int) : Nat := times.countP (fun s => decide (s < t))

/-- `np.searchsorted(times, t, side="right")` on sorted times: the number of entries up to `t`. -/
def searchRight (times : List Int) (t : Int) : Nat := times.countP (fun s => decide (s ≤ t))

/-- `datapartition.py` 310-332, `_single_train_test_split`. -/
def STDP.split {V : Type} (srt : TimeSort V) (p : STDP) (data : TSD V) : Fold V :=
  let time := data.rows.map (·.1)
  ⟨data.slice srt (searchLeft time p.train_start) (searchRight time p.train_end),
   data.slice srt (searchLeft time p.test_start) (searchRight time p.test_end)⟩

/-! ### `RollingOriginDataParition` -/

/-- The stored parameters (`datapartition.py` 371-376). -/
structure RODP where
  start_train_frac : Rat
  test_frac : Rat
  window_frac : Rat
  expanding_steps : Int
  constant_train_size : Bool

/-- `datapartition.py` 356-406, constructor with `_param_check`; `expanding_steps < 1` only builds
a message. -/
def RODP.init (p : RODP) : Except Err RODP :=
  if p.start_train_frac < 0 ∨ p.start_train_frac > 1 then .error .valueError
  else if p.test_frac < 0 ∨ p.test_frac > 1 then .error .valueError
  else if p.window_frac < 0 ∨ p.window_frac > 1 then .error .valueError
  else if p.start_train_frac + p.test_frac + p.window_frac > 1 then .error .valueError
  else if p.start_train_frac + p.test_frac + p.window_frac = 1 ∧ p.expanding_steps > 1 then
    .error .valueError
  else .ok p

/-- `np.linspace(0, stop, num, dtype=int)`: `num` evenly spaced points from `0` to `stop`
inclusive, rounded down; a negative `num` raises `ValueError`. -/
def linspaceInt (stop : Int) (num : Int) : Except Err (List Int) :=
  if num < 0 then .error .valueError
  else if num = 1 then .ok [0]
  else .ok ((List.range num.toNat).map fun (i : Nat) => ((i : Int) * stop) / (num - 1))

/-- `datapartition.py` 408-445, `_single_train_test_split`. -/
def RODP.split {V : Type} (srt : TimeSort V) (p : RODP) (data : TSD V) :
    Except Err (List (Fold V)) := do
  let n := data.rows.length
  let tr := dpAbsSize n p.start_train_frac
  let te := dpAbsSize n p.test_frac
  let w := dpAbsSize n p.window_frac
  let offsets ← linspaceInt (n - tr - te - w) p.expanding_steps
  return offsets.map fun o =>
    ⟨if p.constant_train_size then data.slice srt o (o + tr) else data.slice srt 0 (o + tr),
     data.slice srt (o + tr + w) (o + tr + te + w)⟩

/-! ### `split` over several series -/

/-- `Pool.starmap` (external): the workers finish the tasks in the order `schedule` (a list of
task numbers) and write each result into the task's slot; the slots are returned in task order. -/
def starmap {A B : Type} (schedule : List Nat) (f : A → B) (params : List A) :
    List (Option B) :=
  schedule.foldl (fun slots i =>
    match params[i]? with
    | some a => slots.set i (some (f a))
    | none => slots) (List.replicate params.length none)

/-- Reading a result slot; a task that never ran would leave the pool waiting (no result). -/
def slotResult {B : Type} : Option B → Except Err B
  | some r => .ok r
  | none => .error .otherError

/-- Dictionary lookup. -/
def dictGet {K A : Type} [DecidableEq K] (d : List (K × A)) (k : K) : Option A :=
  (d.find? (fun e => decide (e.1 = k))).map (·.2)

/-- One entry of the regrouping comprehension (`datapartition.py` 156-157): key and the `i`-th
fold's part, `IndexError` when there is no such fold. -/
def pickFold {K A F : Type} (part : F → A) (i : Nat) (e : K × List F) : Except Err (K × A) :=
  match e.2[i]? with
  | some f => .ok (e.1, part f)
  | none => .error .indexError

/-- `datapartition.py` 153-163 for a dictionary: regroup the per-series results by fold.  A fold is
a pair (train, test) of an arbitrary data type. -/
def regroupDict {K A : Type} (split_num : Nat) (raw : List (K × List (A × A))) :
    Except Err (List (List (K × A) × List (K × A))) :=
  (List.range split_num).mapM fun i => do
    let tr ← raw.mapM (pickFold Prod.fst i)
    let te ← raw.mapM (pickFold Prod.snd i)
    return (tr, te)

/-- `datapartition.py` 158-160: back from the dictionary to a list in key order. -/
def dictToList {K A : Type} [DecidableEq K] (keys : List K) (d : List (K × A)) :
    Except Err (List A) :=
  keys.mapM fun k => (dictGet d k).elim (.error .keyError) .ok

/-- `datapartition.py` 122-163, `split` on a dictionary given as its items.  `single` is
`_single_train_test_split`; with `multi` the worker pool runs under `schedule`. -/
def splitDict {K S A : Type} (multi : Bool) (schedule : List Nat) (single : S → List (A × A))
    (split_num : Nat) (data : List (K × S)) :
    Except Err (List (List (K × A) × List (K × A))) := do
  let raw : List (K × List (A × A)) ←
    if multi then
      (starmap schedule (fun e : K × S => (e.1, single e.2)) data).mapM slotResult
    else pure (data.map fun e => (e.1, single e.2))
  regroupDict split_num raw

/-- `split` on a list: the keys are the positions (`datapartition.py` 105-106), the result is
converted back to lists (158-160). -/
def splitList {S A : Type} (multi : Bool) (schedule : List Nat) (single : S → List (A × A))
    (split_num : Nat) (data : List S) : Except Err (List (List A × List A)) := do
  let keys := List.range data.length
  let res ← splitDict multi schedule single split_num (keys.zip data)
  res.mapM fun f => do
    let tr ← dictToList keys f.1
    let te ← dictToList keys f.2
    return (tr, te)

end Kats
