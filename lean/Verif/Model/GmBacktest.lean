import Verif.Model.GmEnsemble
import Verif.Model.Backtest

/-!
# `kats/models/globalmodel/backtester.py`

`GMBackTester` (32-457) and `GMBackTesterExpandingWindow` (460-638).  Series are lists of times (integers) and values
that may be missing; series of integers are left out (they fail in `GMBatch`).  A trained model is what `fit` makes of
the sets that it was trained with, oldest first: `GMModel.train` goes on with the networks that are there
(`model.py` 86-95).  The types of the arguments are those of the signature; timestamps that pandas cannot read are left
out.  `shuffle` is `np.random.shuffle`.  Floating point numbers are exact.
-/

namespace Kats

/-! ## `GMBackTester.__init__` -/

/-- The arguments (57-71) without the data, the parameters and the timestamps. -/
structure GmBtArgs where
  splits : GmNum
  overlap : Bool
  replicate : GmNum
  multi : Bool
  testSize : GmNum
  earliest : Option Int
  maxCore : Option GmNum

/-- The attributes (76-168). -/
structure GmBt where
  p : GmParams
  times : List Int
  splits : Nat
  overlap : Bool
  replicate : Nat
  multi : Bool
  testSize : Nat
  maxCore : Nat
  data : List (GmKey × GmTs)

/-- `_preprocess` (171-210) for one series. -/
def gmBtPrepare (p : GmParams) (timeCol : GmKey → String) (earliest : Option Int) (e : GmKey × GmTs) :
    Except Err (GmKey × GmTs) :=
  let ts := match earliest with
    | none => e.2
    | some t => e.2.filter fun r => decide (t ≤ r.1)
  (gmFill (timeCol e.1) ts p.seasonality p.freq).map fun f => (e.1, f)

/-- The number of test series (133-143). -/
def gmBtTestSize (n : Nat) (t : GmNum) : Except Err Nat :=
  if t.isInt && gmLt (.fin 0) t.val && gmLt t.val (.fin n) then .ok t.toInt.toNat
  else
    match t with
    | .flt (.fin q) => if 0 < q ∧ q < 1 then .ok ((n : Rat) * q).floor.toNat else .error .valueError
    | _ => .error .valueError

/-- The number of cores (145-154). -/
def gmBtCores (cores : Nat) (c : Option GmNum) : Except Err Nat :=
  match c with
  | none => .ok (max ((cores - 1) / 2) 1)
  | some c =>
    if c.isInt && gmLt (.fin 0) c.val && gmLt c.val (.fin cores) then .ok c.toInt.toNat else .error .valueError

/-- `__init__` (57-168). -/
def gmBtInit (cores : Nat) (p : GmParams) (timeCol : GmKey → String) (data : List (GmKey × GmTs)) (times : List Int)
    (a : GmBtArgs) : Except Err GmBt :=
  if times.isEmpty then .error .valueError
  else if gmNotPositive a.splits then .error .valueError
  else if gmNotPositive a.replicate then .error .valueError
  else do
    let d ← data.mapM (gmBtPrepare p timeCol a.earliest)
    let t ← gmBtTestSize data.length a.testSize
    let c ← gmBtCores cores a.maxCore
    return ⟨p, times, a.splits.toInt.toNat, a.overlap, a.replicate.toInt.toNat, a.multi, t, c, d⟩

/-- `gm_collects` (157-160) before the first run: for every timestamp the models, none trained. -/
def gmBtFresh (B : GmBt) : List (Int × List (List GmSet)) :=
  gmUpdate [] (B.times.map fun t => (t, List.replicate (B.replicate * B.splits) []))

/-! ## `_filter` -/

/-- The turn of the loop (268-278): the values before and after the timestamp. -/
def gmBtCut (trainLen validLen : Nat) (bt last : Int) (ts : GmTs) : Option (GmTs × GmTs) :=
  if 0 < ts.length then
    let ts := ts.filter fun r => decide (r.1 ≤ last)
    if trainLen + validLen ≤ ts.length then
      let train := ts.filter fun r => decide (r.1 < bt)
      let valid := ts.filter fun r => decide (bt ≤ r.1)
      if trainLen ≤ train.length ∧ validLen ≤ valid.length then some (train, valid) else none
    else none
  else none

/-- `_filter` (213-286). -/
def gmBtFilter (p : GmParams) (training : Bool) (bt : Int) (data : List (GmKey × GmTs)) :
    Except Err (List (GmKey × GmTs) × List (GmKey × GmTs)) :=
  let last := bt + p.freq * p.validSteps * p.fcstWindow * 3
  let trainLen := if training then p.inputWindow + p.fcstWindow + p.minTrainNum * p.minTrainLen
    else p.warmUp * p.minTrainLen + p.inputWindow
  let validLen := if training then p.fcstWindow else 0
  let l := data.filterMap fun e => (gmBtCut trainLen validLen bt last e.2).map fun r => (e.1, r)
  if l.isEmpty then .error .valueError
  else .ok (l.map fun e => (e.1, e.2.1), l.map fun e => (e.1, e.2.2))

/-! ## `_evaluate` -/

/-- A row of the result: `model` is `model_num`, none for `type` "ensemble". -/
structure GmBtRow (V : Type) where
  res : V
  model : Option Nat
  step : Nat
  key : GmKey
  time : Int
deriving DecidableEq

section
variable {K V : Type} [Field K] [LinearOrder K]

/-- `fcst_all[i][k][j]` (442, 449). -/
def gmBtAt (w : List (List K)) (j : Nat) : Except Err (List K) :=
  match w[j]? with
  | some r => .ok r
  | none => .error .indexError

/-- The rows of one window of one series (441-456). -/
def gmBtWindow (fw : Nat) (judge : List K → List (Option Rat) → V) (bt : Int) (k : GmKey) (valid : GmTs)
    (fcsts : List (List (List K))) (j : Nat) : Except Err (List (GmBtRow V)) := do
  let single ← fcsts.mapM fun w => gmBtAt w j
  let median ← gmCombineAt gmEnsMedian fcsts j
  return (single.mapIdx fun i f => ⟨judge f (gmWindow fw valid j), some i, j, k, bt⟩) ++
    [⟨judge median (gmWindow fw valid j), none, j, k, bt⟩]

/-- The rows of one series (434-456). -/
def gmBtSeries (fw : Nat) (judge : List K → List (Option Rat) → V) (bt : Int)
    (all : List (List (GmKey × List (List K)))) (e : GmKey × GmTs) : Except Err (List (GmBtRow V)) := do
  let fc ← all.mapM fun d => gmLookup d e.1
  let rows ← (List.range (gmStepNum e.2.length fw)).mapM (gmBtWindow fw judge bt e.1 e.2 fc)
  return rows.flatten

/-- `_evaluate` (401-457), with the column of the timestamp (394). -/
def gmBtEvaluate (fw : Nat) (judge : List K → List (Option Rat) → V) (bt : Int)
    (models : List (GmRand × GmPredictor K)) (train valid : List (GmKey × GmTs)) :
    Except Err (List (GmBtRow V)) := do
  let steps := (valid.map fun e => e.2.length).max?.getD 0
  let all ← models.mapM fun m => gmPredictRaw m.1 m.2 (train.map fun e => (e.1, false, e.2)) steps 500
  let rows ← valid.mapM (gmBtSeries fw judge bt all)
  return rows.flatten

/-! ## `run_backtest` -/

/-- The training of the model `i` (357-387): the sets that it has been trained with. -/
def gmBtTrained (jobs : List (Nat × GmSet)) (i : Nat) (h : List GmSet) : List GmSet :=
  match jobs.lookup i with
  | some d => h ++ [d]
  | none => h

/-- The turn of the loop (341-396) for one timestamp: the models and the rows. -/
def gmBtStep (B : GmBt) (fit : Nat → List GmSet → Except Err (GmRand × GmPredictor K))
    (judge : List K → List (Option Rat) → V) (train test : List (GmKey × GmTs))
    (st : List (Int × List (List GmSet)) × List (GmBtRow V)) (bt : Int) :
    Except Err (List (Int × List (List GmSet)) × List (GmBtRow V)) := do
  let a ← gmBtFilter B.p true bt train
  let b ← gmBtFilter B.p false bt test
  let parts ← gmSplit B.splits B.overlap a.1 (some a.2)
  let jobs ← gmEnsJobs B.multi B.splits B.replicate (B.replicate * B.splits) parts
  let hist := ((st.1.lookup bt).getD []).mapIdx (gmBtTrained jobs)
  let models ← (List.range hist.length).mapM fun i => fit i (hist.getD i [])
  let rows ← gmBtEvaluate B.p.fcstWindow judge bt models b.1 b.2
  return (gmPut st.1 (bt, hist), st.2 ++ rows)

/-- What a run leaves: the models, `test_ids` and the rows. -/
structure GmBtRun (V : Type) where
  models : List (Int × List (List GmSet))
  testIds : List GmKey
  rows : List (GmBtRow V)

/-- `run_backtest` (321-399) with the models `st`. -/
def gmBtRun (B : GmBt) (shuffle : List GmKey → List GmKey)
    (fit : Nat → List GmSet → Except Err (GmRand × GmPredictor K)) (judge : List K → List (Option Rat) → V)
    (st : List (Int × List (List GmSet))) : Except Err (GmBtRun V) := do
  let n := B.data.length
  let keys := shuffle (gmNpKeys (B.data.map (·.1)))
  let test ← (List.range B.testSize).mapM (gmEnsTake keys B.data)
  let train ← (List.range' B.testSize (n - B.testSize)).mapM (gmEnsTake keys B.data)
  let r ← B.times.foldlM (gmBtStep B fit judge (gmUpdate [] train) (gmUpdate [] test)) (st, [])
  return ⟨r.1, keys.take B.testSize, r.2⟩

end

/-! ## `GMBackTesterExpandingWindow` -/

/-- The arguments of `__init__` (481-494) without the data and the model. -/
structure GmEwArgs where
  names : List String
  startPct : Rat
  endPct : Rat
  testPct : Rat
  steps : Int
  multi : Bool

/-- `__init__` (481-520) up to the checks of the percentages, which `btRollingSplits` makes: the data.  `inferred` is
`infer_freq_robust`; `pd.infer_freq` of `BackTesterParent.__init__` (`backtesters.py` 439) needs three times. -/
def gmEwInit (known : String → Bool) (inferred : Int) (timeCol : String) (p : GmParams) (data : GmTs) (a : GmEwArgs) :
    Except Err GmTs :=
  if inferred ≠ p.freq then .error .valueError
  else do
    let d ← gmFill timeCol data p.seasonality p.freq
    let _ ← btRollingSplits d.length a.startPct a.testPct a.steps false
    if d.length < 3 then .error .valueError
    else do
      let _ ← btInitErrors known a.names
      return d

/-- `_create_ts` (522-585). -/
def gmEwCut (data : GmTs) (s : Split) : Except Err (GmTs × GmTs) :=
  let size : Int := data.length
  if s.trainStart < 0 ∨ s.trainStart > size ∨ s.trainEnd < 0 ∨ s.trainEnd > size ∨ s.trainStart ≥ s.trainEnd then
    .error .valueError
  else if s.testStart < 0 ∨ s.testStart > size ∨ s.testEnd < 0 ∨ s.testEnd > size ∨ s.testEnd ≤ s.testStart then
    .error .valueError
  else .ok (pySlice data s.trainStart s.trainEnd, pySlice data s.testStart s.testEnd)

/-- `fcsts[i]["fcst_quantile_0.5"].values` (624). -/
def gmEwColumn (t : GmTable Rat) : Except Err (List Rat) :=
  if "fcst_quantile_0.5" ∈ t.names then .ok (t.rows.map fun r => r.getD (t.names.idxOf "fcst_quantile_0.5") 0)
  else .error .keyError

/-- One result (618-627): missing values are left out of the training data and of the truth, and the forecasts at
their places. -/
def gmEwResult (fcsts : List (GmKey × GmTable Rat)) (i : Nat) (c : GmTs × GmTs) : Except Err FoldResult := do
  let t ← gmLookup fcsts (.int i)
  let col ← gmEwColumn t
  let f := col.take c.2.length
  if f.length ≠ c.2.length then .error .indexError
  else return ⟨c.1.filterMap (·.2), c.2.filterMap (·.2), ((c.2.zip f).filter fun x => x.1.2.isSome).map (·.2)⟩

/-- `_build_ts_and_get_prediction` (587-632); in parallel the same series are made. -/
def gmEwResults (predict : List (GmKey × Bool × GmTs) → Nat → Except Err (List (GmKey × GmTable Rat))) (data : GmTs)
    (splits : List Split) : Except Err (List FoldResult) := do
  let cuts ← splits.mapM (gmEwCut data)
  let fcsts ← predict (cuts.mapIdx fun i c => (.int i, false, c.1)) ((cuts.map fun c => c.2.length).max?.getD 0)
  (cuts.mapIdx fun i c => (i, c)).mapM fun x => gmEwResult fcsts x.1 x.2

/-- `run_backtest` (634-638). -/
def gmEwRun (predict : List (GmKey × Bool × GmTs) → Nat → Except Err (List (GmKey × GmTable Rat))) (data : GmTs)
    (a : GmEwArgs) (metrics : List (List Rat → List Rat → Rat)) (st : BTState) : Except Err BTState := do
  let splits ← btRollingSplits data.length a.startPct a.testPct a.steps false
  let res ← gmEwResults predict data splits
  calcError metrics { st with results := res }

end Kats
