import Verif.Model.Py
import Mathlib.Algebra.Order.Ring.Rat

/-!
# `kats/models/globalmodel/utils.py`: the preparation of series for global models

`get_filters`, `fill_missing_value_na`, `split`, `gmpreprocess`, `calc_min_input_length`,
`calc_max_fcst_horizon` and `pad_ts`.  A series is a list of rows, a time (`Int`, nanoseconds) and a
value, `none` for NaN; it is sorted by time, as `TimeSeriesData` does.  The frequency is a number of
nanoseconds (its inference and parsing are left out).  A data set is a list of keys with series, a
list of series having the keys `0, 1, ...`; keys are integers or strings.  Only the first value column
counts.  Errors outside the classes of `Err` (`ZeroDivisionError`) are `otherError`.
-/

namespace Kats

/-- The rows of a univariate series. -/
abbrev GmTs := List (Int × Option Rat)

/-- The keys of a data set. -/
inductive GmKey where
  | int (k : Int)
  | str (s : String)
deriving DecidableEq, Repr

/-- The parameters of `GMParam` (`utils.py` 1193-1340) that the preparation uses. -/
structure GmParams where
  inputWindow : Nat
  fcstWindow : Nat
  seasonality : Nat
  minTrainNum : Nat
  minTrainLen : Nat
  validSteps : Nat
  warmUp : Nat
  fcstSteps : Nat
  freq : Int
  rnn : Bool
  uplift : Rat
  seasonLow : Rat
  seasonHigh : Rat

/-- The inner loop of `get_filters` (70-72): where the run of NaNs that begins at `i` ends. -/
def gmRunEnd (isna : List Bool) (i : Nat) : Nat := i + ((isna.drop i).takeWhile id).length

/-- The outer loop of `get_filters` (66-78), with as many turns as there are elements: the slices to
be left out. -/
def gmFlips (s : Nat) (isna : List Bool) : Nat → Nat → List (Nat × Nat)
  | 0, _ => []
  | fuel + 1, i =>
    if i < isna.length then
      if isna.getD i false then
        (if s ≤ gmRunEnd isna i - i then [(i + (gmRunEnd isna i - i) % s, gmRunEnd isna i)] else []) ++
          gmFlips s isna fuel (gmRunEnd isna i)
      else gmFlips s isna fuel (i + 1)
    else []

/-- `filters[i:j] = False` (81). -/
def gmClear (f : List Bool) (p : Nat × Nat) : List Bool :=
  f.mapIdx fun k b => if p.1 ≤ k ∧ k < p.2 then false else b

/-- `get_filters` (53-82): which elements are kept. -/
def gmFilters (s : Nat) (isna : List Bool) : List Bool :=
  (gmFlips s isna isna.length 0).foldl gmClear (List.replicate isna.length true)

/-- `pd.date_range(first, last, freq=freq)` (126). -/
def gmGrid (first last freq : Int) : List Int :=
  (List.range ((last - first) / freq + 1).toNat).map fun (k : Nat) => first + (k : Int) * freq

/-- `all_ds.merge(df, on=time_name, how="left")` (130): the rows with the time, or one with NaN. -/
def gmMerge (grid : List Int) (ts : GmTs) : GmTs :=
  grid.flatMap fun t =>
    if (ts.filter fun r => r.1 = t).isEmpty then [(t, none)] else ts.filter fun r => r.1 = t

/-- `all_ds.loc[filters]` (134). -/
def gmKeep {α : Type} (l : List α) (filters : List Bool) : List α :=
  ((l.zip filters).filter (·.2)).map (·.1)

/-- `fill_missing_value_na` (85-134) for a frequency that is given; `timeCol` is
`ts.time_col_name`.  `df.time` (126) needs a column of that name. -/
def gmFill (timeCol : String) (ts : GmTs) (s : Nat) (freq : Int) : Except Err GmTs :=
  match ts.head?, ts.getLast? with
  | some a, some b =>
    if ((ts.length : Int) - 1) * freq = b.1 - a.1 ∨ s = 1 then .ok ts
    else if timeCol ≠ "time" then .error .attributeError
    else
      let all := gmMerge (gmGrid a.1 b.1 freq) ts
      .ok (gmKeep all (gmFilters s (all.map fun r => r.2.isNone)))
  | _, _ =>
    if s = 1 then .ok ts else if timeCol ≠ "time" then .error .attributeError else .error .indexError

/-- `np.array(list(data.keys()))` (161, 1625): with a string among them all keys become strings. -/
def gmNpKeys (keys : List GmKey) : List GmKey :=
  if keys.any fun k => match k with | .str _ => true | .int _ => false then
    keys.map fun k => match k with | .str s => .str s | .int i => .str (toString i)
  else keys

/-- `data[k]`. -/
def gmLookup {α : Type} (d : List (GmKey × α)) (k : GmKey) : Except Err α :=
  match d.lookup k with
  | some x => .ok x
  | none => .error .keyError

/-- `{t: data[t] for t in keys}` (169-170, 194-211). -/
def gmPick {α : Type} (d : List (GmKey × α)) (keys : List GmKey) : Except Err (List (GmKey × α)) :=
  keys.mapM fun k => (gmLookup d k).map fun x => (k, x)

/-- The same for a validation set that may be `None`. -/
def gmPickValid {α : Type} (d : Option (List (GmKey × α))) (keys : List GmKey) :
    Except Err (Option (List (GmKey × α))) :=
  match d with
  | none => .ok none
  | some v => (gmPick v keys).map some

/-- The places of the cuts (180-184). -/
def gmSeps (n m splits : Nat) : List Nat :=
  let seps := (List.range ((n + m - 1) / m)).map (· * m)
  if seps.length = splits + 1 then seps.dropLast ++ [n] else seps ++ [n]

/-- The keys of one part (185-189, 194, 206). -/
def gmPart (overlap : Bool) (keys : List GmKey) (seps : List Nat) (i : Nat) : List GmKey :=
  (keys.zipIdx.filter fun x =>
    (decide (seps.getD i 0 ≤ x.2) && decide (x.2 < seps.getD (i + 1) 0)) != overlap).map (·.1)

/-- `split` (138-215). -/
def gmSplit {α : Type} (splits : Nat) (overlap : Bool) (train : List (GmKey × α))
    (valid : Option (List (GmKey × α))) :
    Except Err (List (List (GmKey × α) × Option (List (GmKey × α)))) :=
  let keys := gmNpKeys (train.map (·.1))
  if splits = 1 then do
    let a ← gmPick train keys
    let b ← gmPickValid valid keys
    return [(a, b)]
  else if splits = 0 then .error .otherError
  else if train.length / splits = 0 then .error .valueError
  else
    (List.range splits).mapM fun i => do
      let ks := gmPart overlap keys (gmSeps train.length (train.length / splits) splits) i
      let a ← gmPick train ks
      let b ← gmPickValid valid ks
      return (a, b)

/-- The length that `gmpreprocess` asks for (1603-1617). -/
def gmLength (p : GmParams) (mode : String) (validSet : Bool) : Except Err (Nat × Nat) :=
  if mode = "train" then
    let v := if validSet then p.fcstWindow * p.validSteps else 0
    .ok (p.inputWindow + p.fcstWindow * p.fcstSteps + p.minTrainNum * p.minTrainLen + v, v)
  else if mode = "test" then
    .ok (p.fcstSteps * p.fcstWindow + p.seasonality, p.fcstSteps * p.fcstWindow)
  else .error .valueError

/-- `gmpreprocess` (1584-1643): the training and the validation series. -/
def gmPreprocess (p : GmParams) (timeCol : GmKey → String) (data : List (GmKey × GmTs)) (mode : String)
    (validSet : Bool) : Except Err (List (GmKey × GmTs) × Option (List (GmKey × GmTs))) := do
  let len ← gmLength p mode validSet
  let filled ← (gmNpKeys (data.map (·.1))).mapM fun k => do
    let ts ← gmLookup data k
    let f ← gmFill (timeCol k) ts p.seasonality p.freq
    return (k, f)
  let long := filled.filter fun x => decide (len.1 ≤ x.2.length)
  if validSet then
    return (long.map fun x => (x.1, pyTo x.2 (-(len.2 : Int))),
      some (long.map fun x => (x.1, pyFrom x.2 (-(len.2 : Int)))))
  else return (long, none)

/-- `calc_min_input_length` (1646-1659). -/
def gmMinInput (p : GmParams) : Nat := p.inputWindow + p.warmUp * p.minTrainLen

/-- `calc_max_fcst_horizon` (1662-1672). -/
def gmMaxHorizon (p : GmParams) : Nat := p.fcstWindow * p.fcstSteps

/-- `pad_ts` (1675-1705): one row is added, `n` steps before the first, with the first value that is
not missing, and `TimeSeriesData` sorts the rows.  A series of NaNs (`values[None]`) is left out. -/
def gmPad (ts : GmTs) (n : Int) (freq : Int) : Except Err GmTs :=
  if n < 1 then .error .valueError
  else
    match ts.head?, ts.find? fun r => r.2.isSome with
    | some a, some v =>
      .ok ((ts ++ [(a.1 - n * freq, v.2)]).mergeSort fun x y => decide (x.1 ≤ y.1))
    | _, _ => .error .otherError

end Kats
