import Verif.Model.Py
import Mathlib.Data.List.Sort
import Mathlib.Data.List.Dedup
import Mathlib.Algebra.Order.Group.Int
import Mathlib.Data.Rat.Defs

/-!
# `kats/consts.py`: `TimeSeriesData`

A univariate or multivariate series is a list of rows `(time, values)`.  Times are integers
(nanoseconds since the epoch); the type `V` of the values is a parameter (a number, or a row of
named columns).  Time zones, date parsing and dtypes are not modelled.
-/

namespace Kats

/-- One row of a `TimeSeriesData`: its time stamp and its value(s). -/
abbrev Row (V : Type) := Int × V

/-- Any routine that could stand for `DataFrame.sort_values(time_col)` in
`kats/consts.py` 948-960 (`_sort_by_time`).  pandas' default algorithm is quicksort, which is not
stable, so all that is known of it is that it permutes the rows into non-decreasing time order. -/
structure TimeSort (V : Type) where
  run : List (Row V) → List (Row V)
  perm : ∀ l, (run l).Perm l
  sorted : ∀ l, (run l).Pairwise (fun a b => a.1 ≤ b.1)

/-- `kats/consts.py` 948-960, `_sort_by_time`: sort only when asked to. -/
def sortByTime {V : Type} (srt : TimeSort V) (sort_by_time : Bool) (rows : List (Row V)) :
    List (Row V) :=
  if sort_by_time then srt.run rows else rows

/-- `df.drop_duplicates(subset=[time], keep="first")` (`kats/consts.py` 298, 377): scan from the
front and keep a row unless its time was already seen. -/
def dropDupTime {V : Type} : List Int → List (Row V) → List (Row V)
  | _, [] => []
  | seen, r :: rs => if r.1 ∈ seen then dropDupTime seen rs else r :: dropDupTime (r.1 :: seen) rs

/-- Rows produced by the constructor from a table (`kats/consts.py` 296-304 for a DataFrame and
374-382 for separate `time`, `value`): optional duplicate removal, then optional sort. -/
def buildRows {V : Type} (srt : TimeSort V) (sort_by_time drop_dup : Bool) (rows : List (Row V)) :
    List (Row V) :=
  sortByTime srt sort_by_time (if drop_dup then dropDupTime [] rows else rows)

/-- The `df` argument: the table has the requested time column or not; `rows` are its rows (all
non-time columns form the value); `numeric` says whether the value columns have numeric dtype or
are declared categorical (`kats/consts.py` 397-419). -/
structure DfArg (V : Type) where
  hasTimeCol : Bool
  numeric : Bool
  rows : List (Row V)

/-- The constructor arguments that decide between the branches of `kats/consts.py` 240-258. -/
structure CtorArgs (V : Type) where
  df : Option (DfArg V)
  time : Option (List Int)
  /-- values and whether they are numeric -/
  value : Option (List V × Bool)
  sort_by_time : Bool := true
  drop_duplicate_time : Bool := false

/-- `kats/consts.py` 240-422, `TimeSeriesData.__init__`.  Returns the rows held by the object.
Simplified: time parsing always succeeds, the argument types are right (pd.Series / DataFrame), a
value frame has at least one column, and a table without rows is what `df.empty` detects.
Branches: 265-304 DataFrame; 307-382 both `time` and `value`; 385-388 neither; 391-393 just one
(there `not time` on a pandas Series itself raises ValueError, which is the same outcome);
397-419 numeric check. -/
def construct {V : Type} (srt : TimeSort V) (a : CtorArgs V) : Except Err (List (Row V)) :=
  match a.df with
  | some d =>
    if d.rows.isEmpty then .ok []
    else if !d.hasTimeCol then .error .valueError
    else if !d.numeric then .error .valueError
    else .ok (buildRows srt a.sort_by_time a.drop_duplicate_time d.rows)
  | none =>
    match a.time, a.value with
    | some t, some (v, numeric) =>
      if t.isEmpty && v.isEmpty then .ok []
      else if t.isEmpty || v.isEmpty then .error .valueError
      else if t.length != v.length then .error .valueError
      else if !numeric then .error .valueError
      else .ok (buildRows srt a.sort_by_time a.drop_duplicate_time (t.zip v))
    | none, none => .ok []
    | _, _ => .error .valueError

/-- A `TimeSeriesData` object: its rows, the `sort_by_time` flag it was built with
(`kats/consts.py` 422). -/
structure TSD (V : Type) where
  rows : List (Row V)
  sort_by_time : Bool := true

/-- `kats/consts.py` 554-558, `__getitem__` with a slice `i:j`: slice time and value by position
and rebuild with default arguments, which sorts again. -/
def TSD.slice {V : Type} (srt : TimeSort V) (ts : TSD V) (i j : Int) : TSD V :=
  ⟨buildRows srt true false (pySlice ts.rows i j), true⟩

/-- `kats/consts.py` 694-722, `exclude`: mask `(time < start) | (time > end)`, rebuilt with the
object's own `sort_by_time`. -/
def TSD.exclude {V : Type} (srt : TimeSort V) (ts : TSD V) (start stop : Int) : TSD V :=
  ⟨buildRows srt ts.sort_by_time false
    (ts.rows.filter (fun r => decide (r.1 < start) || decide (r.1 > stop))), ts.sort_by_time⟩

/-- `kats/consts.py` 655-692, `extend`, as a state transformer: new object state and the
exception, if any.  `inferFreq` stands for `pd.infer_freq(...) is not None` in `validate_data`
(735-752); times and values are assigned (674-689) before the validation (691-692). -/
def TSD.extend {V : Type} (inferFreq : List Int → Bool) (ts other : TSD V) (validate : Bool) :
    TSD V × Option Err :=
  let ts' : TSD V := { ts with rows := ts.rows ++ other.rows }
  if validate && !inferFreq (ts'.rows.map (·.1)) then (ts', some .valueError) else (ts', none)

/-- `pd.Series.diff` without its leading NaT (`kats/consts.py` 985, 987). -/
def diffs : List Int → List Int
  | a :: b :: l => (b - a) :: diffs (b :: l)
  | _ => []

/-- `pd.Series.mode()[0]`: the smallest of the most frequent values (`mode` ignores NaT and
returns the modes sorted), by scanning all candidates. -/
def modeMin (l : List Int) : Option Int :=
  l.foldl (fun best x =>
    match best with
    | none => some x
    | some b =>
      if l.count b < l.count x || (l.count b == l.count x && x < b) then some x else some b) none

/-- `kats/consts.py` 968-989, `infer_freq_robust`: the times are sorted first only when the object
was built with `sort_by_time=False`. -/
def TSD.inferFreqRobust {V : Type} (ts : TSD V) : Except Err Int :=
  if ts.rows.length ≤ 1 then .error .valueError
  else
    let t := ts.rows.map (·.1)
    let t := if ts.sort_by_time then t else t.mergeSort (fun a b => decide (a ≤ b))
    match modeMin (diffs t) with
    | some f => .ok f
    | none => .error .keyError

/-! ### Cached minimum and maximum (univariate) -/

/-- A univariate object together with the cached `_min`, `_max` (`kats/consts.py` 466-483);
`none` is NaN both for a missing value and for an undefined extremum. -/
structure TSCache where
  value : List (Option Rat)
  min : Option Rat
  max : Option Rat

/-- `np.nanmin` / `np.nanmax` with `better new old` deciding replacement; NaN entries are skipped,
all-NaN and empty input give NaN (`kats/consts.py` 762-771). -/
def nanExt (better : Rat → Rat → Bool) : List (Option Rat) → Option Rat
  | [] => none
  | none :: l => nanExt better l
  | some x :: l =>
    match nanExt better l with
    | none => some x
    | some m => if better m x then some m else some x

/-- `kats/consts.py` 760-771, `_calc_min_max_values`. -/
def TSCache.calc (value : List (Option Rat)) : TSCache :=
  ⟨value, nanExt (fun a b => decide (a < b)) value, nanExt (fun a b => decide (b < a)) value⟩

/-- The operations that touch the values or the times of an object. -/
inductive TSOp where
  /-- `ts.value = v` (`kats/consts.py` 452-463) -/
  | setValue (v : List (Option Rat))
  /-- `ts.time = t` (433-440), which does not recompute the extrema -/
  | setTime (t : List Int)
  /-- `ts.extend(other)` (685-689), which assigns through the value setter -/
  | extend (other : List (Option Rat))

/-- One operation on the cache. -/
def TSCache.step (s : TSCache) : TSOp → TSCache
  | .setValue v => TSCache.calc v
  | .setTime _ => s
  | .extend o => TSCache.calc (s.value ++ o)

/-! ### Iterators -/

/-- `TimeSeriesIterator` (`kats/consts.py` 1210-1238): the columns and the position `start`. -/
structure ColIter (C : Type) where
  cols : List C
  start : Nat

/-- `TimeSeriesIterator.__init__` (1213-1216) -/
def ColIter.init {C : Type} (cols : List C) : ColIter C := ⟨cols, 0⟩

/-- `TimeSeriesIterator.__iter__` (1218-1225): sets the attribute `a` (unused by `__next__`) and
returns the object itself; `start` is not reset. -/
def ColIter.iter {C : Type} (it : ColIter C) : ColIter C := it

/-- `TimeSeriesIterator.__next__` (1227-1238) -/
def ColIter.next {C : Type} (it : ColIter C) : Option (C × ColIter C) :=
  match it.cols[it.start]? with
  | some c => some (c, { it with start := it.start + 1 })
  | none => none

/-- A `for` loop over the object: call `__iter__`, then `__next__` until `StopIteration`; `fuel`
bounds the number of calls.  Returns what was yielded and the object afterwards. -/
def ColIter.drain {C : Type} : Nat → ColIter C → List C × ColIter C
  | 0, it => ([], it)
  | n + 1, it =>
    match it.next with
    | none => ([], it)
    | some (c, it') => let r := ColIter.drain n it'; (c :: r.1, r.2)

/-- One complete `for` loop; `cols.length + 1` calls suffice since each yield advances `start`. -/
def ColIter.forLoop {C : Type} (it : ColIter C) : List C × ColIter C :=
  ColIter.drain (it.cols.length + 1) it.iter

/-! ### Arithmetic -/

/-- A series with named columns: `cols` are the (distinct) column names, each row maps a column
name to its value. -/
structure Frame (Val : Type) where
  cols : List String
  rows : List (Row (String → Val))

/-- The right operand of a binary operation (`kats/consts.py` 871-896). -/
inductive OpArg (Val : Type) where
  | scalar (c : Val)
  | series (b : Frame Val)
  | other

/-- `kats/consts.py` 871-896, `_get_binary_op_other_arg`: a scalar becomes a constant series with
the same times (built, hence sorted, by the constructor) if the left side is univariate. -/
def binaryOther {Val : Type} (srt : TimeSort (String → Val)) (a : Frame Val) :
    OpArg Val → Except Err (Frame Val)
  | .scalar c =>
    if a.cols.length = 1 then .ok ⟨a.cols, srt.run (a.rows.map (fun r => (r.1, fun _ => c)))⟩
    else .error .notImplemented
  | .series b => if a.rows.map (·.1) = b.rows.map (·.1) then .ok b else .error .valueError
  | .other => .error .typeError

/-- `pd.merge(..., on=time, how="outer")` (`kats/consts.py` 905-912): every left row is paired
with every right row of the same time; unmatched rows of either side are kept with the other side
missing. -/
def outerJoin {A B : Type} (l : List (Row A)) (r : List (Row B)) :
    List (Row (Option A × Option B)) :=
  (l.flatMap fun x => (r.filter fun y => y.1 == x.1).map fun y => (x.1, some x.2, some y.2))
  ++ ((l.filter fun x => !(r.any fun y => y.1 == x.1)).map fun x => (x.1, some x.2, none))
  ++ ((r.filter fun y => !(l.any fun x => x.1 == y.1)).map fun y => (y.1, none, some y.2))

/-- The combined row (`kats/consts.py` 914-941): a column present on both sides gets `op`, any
other column gets NaN. -/
def combine {Val : Type} (nan : Val) (op : Val → Val → Val) (ca cb : List String)
    (p : Option (String → Val) × Option (String → Val)) : String → Val := fun c =>
  if c ∈ ca ∧ c ∈ cb then
    op (p.1.elim nan (fun f => f c)) (p.2.elim nan (fun f => f c))
  else nan

/-- `kats/consts.py` 898-946, `_perform_op`.  Column names are assumed distinct, different from
the time column and free of the internal markers `_kats.1`, `_kats.2`; `op` is the float operation
(one of + - / *), `nan` the missing value. -/
def performOp {Val : Type} (srt : TimeSort (String → Val)) (nan : Val) (op : Val → Val → Val)
    (a : Frame Val) (o : OpArg Val) : Except Err (Frame Val) := do
  let b ← binaryOther srt a o
  let rows := (outerJoin a.rows b.rows).map (fun p => (p.1, combine nan op a.cols b.cols p.2))
  let cols := (a.cols.filter fun c => !(b.cols.contains c))
    ++ (b.cols.filter fun c => !(a.cols.contains c)) ++ (a.cols.filter fun c => b.cols.contains c)
  return ⟨cols, srt.run rows⟩

end Kats
