import Verif.Model.Partition

/-!
# `kats/utils/backtesters.py`

Percentages are exact rationals (no float rounding).  Models, metrics and multiprocessing results
are parameters.
-/

namespace Kats

/-- `backtesters.py` 1335-1341, `_get_absolute_size`. -/
def btAbsSize (size : Nat) (percent : Rat) : Int := ⌊size * percent / 100⌋

/-- A split: half-open index ranges of train and test. -/
structure Split where
  trainStart : Int
  trainEnd : Int
  testStart : Int
  testEnd : Int
deriving DecidableEq, Repr

/-- `backtesters.py` 723-736 (and 856-869, 1109-1122): a percentage must be in (0, 100]. -/
def checkPct (p : Rat) : Except Err Unit :=
  if p ≤ 0 then .error .valueError else if p > 100 then .error .valueError else .ok ()

/-- `backtesters.py` 750-758 (and 904-916, 1148-1156): a block size must be in (0, size). -/
def checkSize (s : Int) (size : Nat) : Except Err Unit :=
  if s ≤ 0 ∨ s ≥ size then .error .valueError else .ok ()

/-- `BackTesterSimple`: constructor checks (722-739, empty data 420-424) followed by
`_create_train_test_splits` (741-768). -/
def btSimpleSplits (size : Nat) (trainPct testPct : Rat) : Except Err (List Split) := do
  checkPct trainPct
  checkPct testPct
  if size = 0 then throw .valueError
  let tr := btAbsSize size trainPct
  let te := btAbsSize size testPct
  checkSize tr size
  checkSize te size
  if tr + te > size then throw .valueError
  return [⟨0, tr, tr, tr + te⟩]

/-- Sizes of the parts of `np.array_split(range(n), k)`: the first `n % k` parts have one element
more. -/
def arraySplitSizes (n k : Nat) : List Nat :=
  (List.range k).map fun i => n / k + if i < n % k then 1 else 0

/-- The loop of `backtesters.py` 1349-1354 accumulating offsets. -/
def accOffsets (prev : Int) : List Nat → List Int
  | [] => []
  | s :: ss => (s + prev) :: accOffsets (s + prev) ss

/-- `backtesters.py` 1344-1354, `_return_fold_offsets`; `np.array_split` with fewer than one
section raises `ValueError`; `range` of a negative number is empty. -/
def foldOffsets (start stop : Int) (num_folds : Int) : Except Err (List Int) :=
  if num_folds - 1 ≤ 0 then .error .valueError
  else .ok (0 :: accOffsets 0 (arraySplitSizes (stop - start).toNat (num_folds - 1).toNat))

/-- `BackTesterRollingOrigin`: constructor checks (855-890, empty data 420-424) followed by
`_create_train_test_splits` (895-965).  `BackTesterExpandingWindow` (968-1005) is this with
`constant = false`, `BackTesterRollingWindow` (1008-1044) with `constant = true`. -/
def btRollingSplits (size : Nat) (trainPct testPct : Rat) (steps : Int) (constant : Bool) :
    Except Err (List Split) := do
  checkPct trainPct
  checkPct testPct
  if trainPct + testPct > 100 then throw .valueError
  else if trainPct + testPct = 100 ∧ steps > 1 then throw .valueError
  if steps < 0 then throw .valueError
  if size = 0 then throw .valueError
  let tr := btAbsSize size trainPct
  let te := btAbsSize size testPct
  checkSize tr size
  checkSize te size
  if tr + te > size then throw .valueError
  else if tr + te = size ∧ steps > 1 then throw .valueError
  if steps = 1 then return [⟨0, tr, tr, tr + te⟩]
  let offsets ← foldOffsets 0 (size - tr - te) steps
  return offsets.map fun o => ⟨if constant then o else 0, tr + o, tr + o, tr + o + te⟩

/-- `BackTesterFixedWindow`: constructor checks (1108-1136) followed by
`_create_train_test_splits` (1138-1172). -/
def btFixedSplits (size : Nat) (trainPct testPct windowPct : Rat) : Except Err (List Split) := do
  checkPct trainPct
  checkPct testPct
  if windowPct < 0 then throw .valueError
  else if windowPct > 100 then throw .valueError
  if size = 0 then throw .valueError
  let tr := btAbsSize size trainPct
  let te := btAbsSize size testPct
  let w := btAbsSize size windowPct
  checkSize tr size
  checkSize te size
  if tr + te + w > size then throw .valueError
  return [⟨0, tr, tr + w, tr + w + te⟩]

/-! ### Errors -/

/-- One entry of `self.results` (`backtesters.py` 602-605), without the trained model. -/
structure FoldResult where
  training : List Rat
  truth : List Rat
  predictions : List Rat

/-- The mutable part of a backtester: `results`, `raw_errors`, and the value of `errors[name]` for
each requested metric. -/
structure BTState where
  results : List FoldResult
  rawErrors : List (List Rat)
  errors : List Rat

/-- Fresh state for `m` requested metrics (`backtesters.py` 433-455). -/
def BTState.fresh (m : Nat) : BTState := ⟨[], [], List.replicate m 0⟩

/-- `backtesters.py` 517-605, `_create_model`: index checks, train/test extraction, forecast of
`len(test) + offset` steps, cut off the first `offset`.  `forecast train steps` is the model's
forecast (fit + predict). -/
def createModel (data : List Rat) (offset : Nat) (forecast : List Rat → Nat → List Rat)
    (s : Split) : Except Err FoldResult :=
  let size : Int := data.length
  if s.trainStart < 0 ∨ s.trainStart > size ∨ s.trainEnd < 0 ∨ s.trainEnd > size then
    .error .valueError
  else if s.testStart < 0 ∨ s.testStart > size ∨ s.testEnd < 0 ∨ s.testEnd > size then
    .error .valueError
  else
    let train := pySlice data s.trainStart s.trainEnd
    let test := pySlice data s.testStart s.testEnd
    if train.isEmpty then .error .valueError
    else if test.isEmpty then .error .valueError
    else .ok ⟨train, test, (forecast train (test.length + offset)).drop offset⟩

/-- One fold of the loop in `calc_error` (`backtesters.py` 486-515). -/
def calcFold (metrics : List (List Rat → List Rat → Rat)) (total : Nat) (st : BTState)
    (r : FoldResult) : Except Err BTState :=
  if r.training.isEmpty then .error .valueError
  else if r.predictions.isEmpty then .error .valueError
  else if r.truth.isEmpty then .error .valueError
  else if r.predictions.length ≠ r.truth.length then .error .valueError
  else
    let weight : Rat := r.truth.length / total
    .ok { st with
      rawErrors := st.rawErrors ++ [List.zipWith (· - ·) r.truth r.predictions]
      errors := List.zipWith (fun e m => e + weight * m r.truth r.predictions) st.errors metrics }

/-- `backtesters.py` 469-515, `calc_error`.  On an exception the object keeps what the loop has
done so far; that partial state is not modelled (the error is returned instead). -/
def calcError (metrics : List (List Rat → List Rat → Rat)) (st : BTState) : Except Err BTState :=
  if st.results.isEmpty then .error .valueError
  else
    st.results.foldlM (calcFold metrics (st.results.map (·.truth.length)).sum) st

/-- `backtesters.py` 607-640: `run_backtest`.  Without `multi` the new results are appended to
`self.results`; with `multi` the list is replaced (618), in the order of the splits whatever the
worker schedule, since the futures are awaited in order (624-627). -/
def runBacktest (multi : Bool) (data : List Rat) (offset : Nat)
    (forecast : List Rat → Nat → List Rat) (metrics : List (List Rat → List Rat → Rat))
    (splits : List Split) (st : BTState) : Except Err BTState := do
  let new ← splits.mapM (createModel data offset forecast)
  let st' := { st with results := if multi then new else st.results ++ new }
  calcError metrics st'

/-! ### Metric names -/

/-- `backtesters.py` 444-455: each requested error name must be known to `core_metric`. -/
def btInitErrors (known : String → Bool) (names : List String) : Except Err (List String) :=
  if names.all known then .ok names else .error .valueError

/-- `backtesters.py` 113-137, `_get_scorer` on a list of names: `_log_error` merely creates the
exception object (`kats/consts.py` 94-96), so unknown names are skipped. -/
def getScorerNames (known : String → Bool) (names : List String) : Except Err (List String) :=
  .ok (names.filter known)

/-! ### `GenericBacktester` -/

/-- Result of one fold: the forecast table (only its length matters) and the scores by metric
position; a failed fold is `none` (`backtesters.py` 241-252).  A score may be NaN (`none`). -/
abbrev GenFold := Option (Nat × List (Option Rat))

/-- Product of NaN-able numbers with a finite weight. -/
def scaleO (w : Rat) (x : Option Rat) : Option Rat := x.map (· * w)

/-- `backtesters.py` 254-271, `_get_fold_errors`: failed folds get `error_score` for every metric;
when every fold failed, indexing the empty list raises `IndexError` (the `_log_error` in line 261
does not raise). -/
def genFoldErrors (error_score : Option Rat) (res : List GenFold) :
    Except Err (Nat × List (List (Option Rat))) :=
  match res.filterMap id with
  | [] => .error .indexError
  | f :: _ =>
    .ok (f.2.length, res.map fun r =>
      match r with
      | some (_, s) => s
      | none => List.replicate f.2.length error_score)

/-- `t[em]` in `backtesters.py` 294: a missing metric is a `KeyError`. -/
def rowGet (j : Nat) (t : List (Option Rat)) : Except Err (Option Rat) :=
  match t[j]? with
  | some x => .ok x
  | none => .error .keyError

/-- `len(t)` in `backtesters.py` 290: `len(None)` is a `TypeError`. -/
def foldLen : GenFold → Except Err Rat
  | some f => .ok ((f.1 : Nat) : Rat)
  | none => .error .typeError

/-- `backtesters.py` 273-304, `_summarize`: the summary value of each metric.  `weighted` selects
the test-size weights of 289-291, where `len(None)` of a failed fold raises `TypeError`.  A fold
with fewer scores than the first would be a `KeyError`. -/
def genSummarize (weighted : Bool) (error_score : Option Rat) (res : List GenFold) :
    Except Err (List (Option Rat)) := do
  let (m, foldErrors) ← genFoldErrors error_score res
  let k := foldErrors.length
  let weight : List Rat ←
    if weighted then do
      let lens ← res.mapM foldLen
      pure (lens.map fun l => l / lens.sum * k)
    else pure (List.replicate k 1)
  (List.range m).mapM fun j => do
    let col ← foldErrors.mapM (rowGet j)
    return nanmean (List.zipWith scaleO weight col)

end Kats
