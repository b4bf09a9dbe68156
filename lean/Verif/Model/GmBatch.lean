import Verif.Model.GmData

/-!
# `kats/models/globalmodel/data_processor.py`

`GMDataLoader` and `GMBatch`.  A draw of random numbers is a parameter: a list of rationals for
`np.random.uniform(0, 1, n)`, a function on lists for `np.random.shuffle`, a natural number for
`np.random.randint`.  Sorting is stable here (numpy's need not be).  The batch size is an integer.  A
series is as in `GmData`; `ints` says that its values have an integer type, with which `+=` a float is
a TypeError.  An offset that is not finite (`uplifting_ratio` 1) is `otherError`.  Tensors, features
and types of arguments are left out.
-/

namespace Kats

/-! ## `GMDataLoader` -/

/-- The random numbers of the `k`-th shuffling. -/
structure GmRand where
  uniform : Nat → Nat → Rat
  shuffle : Nat → List (List GmKey) → List (List GmKey)

/-- The attributes of `GMDataLoader` (59-78); `magnitude` is only set if positive, `draws` counts the
shufflings. -/
structure GmLoader where
  keys : List GmKey
  lengths : List Nat
  testLengths : Option (List Nat)
  magnitude : Option Rat
  batches : List (List GmKey)
  batchSize : Int
  batchNum : Int
  lastBatch : Option (List GmKey)
  idx : Int
  draws : Nat

/-- `_valid_dataset` (80-106): the keys and the lengths.  The data set is given by the length of
every series. -/
def gmValid (data : List (GmKey × Nat)) : Except Err (List GmKey × List Nat) :=
  if data.length < 1 then .error .valueError
  else do
    let keys := gmNpKeys (data.map (·.1))
    let lengths ← keys.mapM (gmLookup data)
    return (keys, lengths)

/-- The lengths of the test series, in their own order, if the keys are the same (51-62). -/
def gmTestLengths (keys : List GmKey) (test : Option (List (GmKey × Nat))) :
    Except Err (Option (List Nat)) :=
  match test with
  | none => .ok none
  | some t => do
    let b ← gmValid t
    if keys.length ≠ b.1.length ∨ (keys.filter fun k => decide (k ∈ b.1)).length ≠ keys.length then
      Except.error .valueError
    else Except.ok (some b.2)

/-- `GMDataLoader.__init__` (40-78). -/
def gmLoaderInit (data : List (GmKey × Nat)) (test : Option (List (GmKey × Nat))) (magnitude : Rat) :
    Except Err GmLoader := do
  let a ← gmValid data
  let tl ← gmTestLengths a.1 test
  return { keys := a.1, lengths := a.2, testLengths := tl,
           magnitude := if 0 < magnitude then some magnitude else none,
           batches := [], batchSize := -1, batchNum := -1, lastBatch := none, idx := -1, draws := 0 }

/-- `_get_new_order` (108-122): positions by length plus a random number below 1, or by length and
then by test length plus a random number times the magnitude. -/
def gmNewOrder (l : GmLoader) (u : Nat → Rat) : Except Err (List Nat) :=
  match l.testLengths with
  | none =>
    .ok ((List.range l.keys.length).mergeSort fun i j =>
      decide ((l.lengths.getD i 0 : Rat) + u i ≤ (l.lengths.getD j 0 : Rat) + u j))
  | some t =>
    match l.magnitude with
    | none => .error .attributeError
    | some m =>
      .ok ((List.range l.keys.length).mergeSort fun i j =>
        decide (l.lengths.getD i 0 < l.lengths.getD j 0 ∨ (l.lengths.getD i 0 = l.lengths.getD j 0 ∧
          (t.getD i 0 : Rat) + u i * m ≤ (t.getD j 0 : Rat) + u j * m)))

/-- `_shuffle_batch_ids` (124-156). -/
def gmShuffle (R : GmRand) (l : GmLoader) (size : Int) : Except Err GmLoader :=
  if size < 1 then .error .valueError
  else do
    let orders ← gmNewOrder l (R.uniform l.draws)
    let ks := orders.map fun i => l.keys.getD i (.int 0)
    let b := size.toNat
    let m := l.keys.length / b
    let rows := (List.range m).map fun i => (ks.drop (i * b)).take b
    return { l with
      batches := R.shuffle l.draws rows
      batchSize := size
      batchNum := m
      lastBatch := if m * b < l.keys.length then some (ks.drop (m * b)) else none
      idx := -1
      draws := l.draws + 1 }

/-- The batch at the present place (170-175). -/
def gmAt (l : GmLoader) (size : Int) : Option (List GmKey) :=
  if size = l.batchSize then
    if l.idx < l.batchNum then some (l.batches.getD l.idx.toNat [])
    else if l.idx = l.batchNum then l.lastBatch
    else none
  else none

/-- `get_batch` (159-178): the new state and the result.  The second call of itself always finds a
batch; that it might not is `otherError` here. -/
def gmGet (R : GmRand) (l : GmLoader) (size : Int) : GmLoader × Except Err (List GmKey) :=
  let l1 := { l with idx := l.idx + 1 }
  match gmAt l1 size with
  | some b => (l1, .ok b)
  | none =>
    match gmShuffle R l1 size with
    | .error e => (l1, .error e)
    | .ok l2 =>
      let l3 := { l2 with idx := l2.idx + 1 }
      match gmAt l3 size with
      | some b => (l3, .ok b)
      | none => (l3, .error .otherError)

/-! ## `GMBatch._get_indices` -/

/-- `np.random.randint(lo, hi)` from the draw `r`. -/
def gmRandint (lo hi r : Nat) : Nat := lo + r % (hi - lo)

/-- `list(np.arange(lo, hi, step))`. -/
def gmArange (lo hi step : Nat) : List Nat :=
  (List.range ((hi - lo + step - 1) / step)).map fun k => lo + k * step

/-- The results of `_get_indices`, with the numbers of encoder steps. -/
structure GmIndices where
  reduced : Nat
  reducedValid : Nat
  train : List Nat
  valid : List Nat
  trainEnc : Nat
  testEnc : Nat

/-- `_get_indices` (310-441).  `lens` and `valid` are the lengths of the series; `r1` and `r2` the draws
for the number of encoder steps and for the length. -/
def gmIndices (p : GmParams) (training : Bool) (lens : List Nat) (valid : Option (List Nat))
    (r1 r2 : Nat) : Except Err GmIndices :=
  match lens.min?, lens.max? with
  | some mn, some mx =>
    if mn < p.seasonality then .error .valueError
    else if training then
      let tb := p.inputWindow + p.minTrainNum * p.minTrainLen
      let enc := if p.rnn then 1
        else min (p.fcstSteps * 2) (gmRandint 1 (max 2 ((mx - tb) / p.fcstWindow)) r1)
      let basic := tb + p.fcstWindow * enc
      let reduced := basic + gmRandint 0 ((mx - basic) / p.minTrainLen + 1) r2 * p.minTrainLen
      let train := gmArange p.inputWindow (reduced - p.fcstWindow * enc + 1) p.minTrainLen
      match valid with
      | none => .ok ⟨reduced, 0, train, [], enc, p.fcstSteps⟩
      | some v =>
        let last := if p.rnn then reduced + min (v.max?.getD 0) (p.fcstWindow * p.validSteps)
          else reduced + enc * p.fcstWindow
        let vi := gmArange reduced last p.fcstWindow
        .ok ⟨reduced, vi.length * p.fcstWindow, train, vi, enc, if p.rnn then p.fcstSteps else enc⟩
    else
      let basic := p.inputWindow + p.warmUp * p.minTrainLen
      let reduced := max basic
        (((mx : Int) - ((mx : Int) - (p.inputWindow : Int)) % (p.minTrainLen : Int)).toNat)
      let rv := p.fcstWindow * p.fcstSteps
      .ok ⟨reduced, rv, gmArange p.inputWindow reduced p.minTrainLen,
        gmArange reduced (reduced + rv) p.fcstWindow, 1, p.fcstSteps⟩
  | _, _ => .error .valueError

/-! ## `GMBatch._get_array` -/

/-- `TimeSeriesData.min`: NaNs are skipped, `none` if there are no others. -/
def gmMin (ts : GmTs) : Option Rat := (ts.filterMap (·.2)).min?

/-- `TimeSeriesData.max`. -/
def gmMax (ts : GmTs) : Option Rat := (ts.filterMap (·.2)).max?

/-- `np.min([a, b])`: NaN if one is. -/
def gmMin2 (a b : Option Rat) : Option Rat :=
  match a, b with
  | some x, some y => some (min x y)
  | _, _ => none

/-- `np.max([a, b])`. -/
def gmMax2 (a b : Option Rat) : Option Rat :=
  match a, b with
  | some x, some y => some (max x y)
  | _, _ => none

/-- The offset (507-527); a comparison with NaN is false. -/
def gmOffset (u : Rat) (train : GmTs) (valid : Option GmTs) : Except Err Rat :=
  let mn := match valid with
    | none => gmMin train
    | some v => gmMin2 (gmMin train) (gmMin v)
  let mx := match valid with
    | none => gmMax train
    | some v => gmMax2 (gmMax train) (gmMax v)
  match mn, mx with
  | some a, some b =>
    if a ≤ 0 then
      if a = b then .ok (1 - a)
      else if u = 1 then .error .otherError
      else .ok ((b - u * a) / (u - 1))
    else .ok 0
  | _, _ => .ok 0

/-- `np.tile(l[:s], n // s + 1)[-n:]` (539-541). -/
def gmTile {α : Type} (l : List α) (s n : Nat) : List α :=
  pyFrom ((List.replicate (n / s + 1) (l.take s)).flatten) (-(n : Int))

/-- Truncating or padding at the front (534-544). -/
def gmResize {α : Type} (l : List α) (s reduced : Nat) : List α :=
  if reduced ≤ l.length then pyFrom l (-(reduced : Int)) else gmTile l s (reduced - l.length) ++ l

/-- `_fillin_nan_values` (626-632). -/
def gmFillNan (x : List (Option Rat)) (s : Nat) : Except Err (List (Option Rat)) :=
  if s = 1 then .ok x
  else (List.range (s - 1)).foldlM (fun (x : List (Option Rat)) i =>
    match x[i + 1]? with
    | none => Except.error .indexError
    | some none => .ok (x.set (i + 1) (x.getD i none))
    | some (some _) => .ok x) x

/-- The first element (547-548). -/
def gmFirst (x : List (Option Rat)) : Except Err (List (Option Rat)) :=
  match x.head? with
  | none => .error .indexError
  | some (some _) => .ok x
  | some none =>
    match x.find? Option.isSome with
    | none => .error .indexError
    | some v => .ok (x.set 0 v)

/-- One row of the arrays. -/
structure GmRow where
  x : List (Option Rat)
  time : List Int
  offset : Rat
  validX : Option (List (Option Rat))
  validTime : Option (List Int)

/-- `pd.date_range(t + freq, freq=freq, periods=n)` (567-571, 589-593). -/
def gmAfter (t freq : Int) (n : Nat) : List Int :=
  (List.range n).map fun k : Nat => t + ((k : Int) + 1) * freq

/-- The turn of the loop of `_get_array` (502-594) for one series. -/
def gmRow (p : GmParams) (training : Bool) (reduced rv : Nat) (ints : Bool) (train : GmTs)
    (valid : Option GmTs) : Except Err GmRow := do
  let off ← gmOffset p.uplift train valid
  if ints then Except.error .typeError
  else do
    let val := train.map fun r => r.2.map (· + off)
    let time := gmResize (train.map (·.1)) p.seasonality reduced
    let x1 ← gmFirst (gmResize val p.seasonality reduced)
    let x ← gmFillNan x1 p.seasonality
    match valid with
    | some v =>
      let vx := v.map fun r => r.2.map (· + off)
      if v.length < rv then
        match v.getLast? with
        | none => Except.error .indexError
        | some b => return ⟨x, time, off, some (vx ++ List.replicate (rv - v.length) none),
            some (v.map (·.1) ++ gmAfter b.1 p.freq (rv - v.length))⟩
      else return ⟨x, time, off, some (vx.take rv), some ((v.map (·.1)).take rv)⟩
    | none =>
      if training then return ⟨x, time, off, none, none⟩
      else
        match train.getLast? with
        | none => Except.error .indexError
        | some b => return ⟨x, time, off, some (List.replicate rv none),
            some (gmAfter b.1 p.freq rv)⟩

/-- `_get_seasonality` (611-624) and the bounds (266-273) for one row; NaN if a value is. -/
def gmSeason (p : GmParams) (x : List (Option Rat)) : List (Option Rat) :=
  let first := x.take p.seasonality
  if first.all Option.isSome then
    let mean := (first.filterMap id).sum / (first.length : Rat)
    first.map fun v => v.map fun a =>
      let c := if a / mean < p.seasonLow then p.seasonLow else a / mean
      if p.seasonHigh < c then p.seasonHigh else c
  else first.map fun _ => none

/-- The arrays of a batch (241-249): `train` has a mark for integer types and a series, `valid` one
series for each. -/
def gmBatch (p : GmParams) (training : Bool) (train : List (Bool × GmTs)) (valid : Option (List GmTs))
    (r1 r2 : Nat) : Except Err (GmIndices × List GmRow) := do
  let ix ← gmIndices p training (train.map fun t => t.2.length) (valid.map fun v => v.map List.length)
    r1 r2
  let rows ← (List.range train.length).mapM fun i =>
    gmRow p training ix.reduced ix.reducedValid (train.getD i (false, [])).1
      (train.getD i (false, [])).2 (valid.map fun v => v.getD i [])
  return (ix, rows)

end Kats
