import Verif.Model.GmBatch
import Verif.Model.GmPass
import Verif.Model.GmS2s

/-!
# `kats/models/globalmodel/model.py`

What is around the passes: `_adjust_pi`, `_format_fcst`, `predict`, `evaluate`, the validation function, the
schedule of the batch sizes and learning rates in `train`, and which networks there are in which mode.  Numbers
are exact, a time is an integer and a frequency a number of its units.  The pass over a batch is a parameter of
`predict` (the models of the passes give it, `gmSingleRnn` and `gmSingleS2s`), and so are the metrics of the
validation function.  A window is a list of rows, one for each series, and in a row the steps of the first
quantile come first, then those of the next.  That all rows of a batch have one length is numpy's; rows that can
not be divided into the quantiles are a ValueError.  The number of steps is a natural number.  Optimizers,
gradients, logging, and the monitors of the training are left out.
-/

namespace Kats

section
variable {K : Type} [Field K]

/-! ## `_adjust_pi` -/

/-- One turn of the inner loop (973-975) for one row: the values of the quantile `j` are moved. -/
def gmAdjustBlock (fw : Nat) (prev : List K) (cur : List K) (j : Nat) : List K :=
  let diff := prev.getD ((j + 1) * fw - 1) 0 - cur.getD (j * fw) 0
  cur.mapIdx fun k v => if j * fw ≤ k ∧ k < (j + 1) * fw then v + diff else v

/-- The inner loop (973-975) for one row of one window. -/
def gmAdjustRow (fw q : Nat) (prev cur : List K) : List K :=
  (List.range' 1 (q - 1)).foldl (gmAdjustBlock fw prev) cur

/-- The outer loop (972-975) after the window `prev`. -/
def gmAdjustFrom (fw q : Nat) : List (List K) → List (List (List K)) → List (List (List K))
  | _, [] => []
  | prev, w :: r =>
    let w' := w.mapIdx fun i cur => gmAdjustRow fw q (prev.getD i []) cur
    w' :: gmAdjustFrom fw q w' r

/-- `_adjust_pi` (966-976). -/
def gmAdjust (fw q : Nat) (fcsts : List (List (List K))) : List (List (List K)) :=
  match fcsts with
  | [] => []
  | w :: r => w :: gmAdjustFrom fw q w r

/-! ## `_format_fcst` -/

/-- One of the frames of `_format_fcst`. -/
structure GmTable (K : Type) where
  names : List String
  rows : List (List K)
  time : List Int
deriving DecidableEq

/-- The values of one series and one quantile over the windows (551-553): the reshaped rows, one after
another. -/
def gmColumn (q : Nat) (rows : List (List K)) (j : Nat) : List K :=
  rows.flatMap fun r => (r.drop (j * (r.length / q))).take (r.length / q)

/-- `pd.date_range(first, freq=freq, periods=n)`. -/
def gmDates (first freq : Int) (n : Nat) : List Int := (List.range n).map fun k : Nat => first + (k : Int) * freq

/-- The frame of one series (547-565) from its row in every window. -/
def gmFrame (quantile : List String) (freq : Int) (steps : Nat) (rows : List (List K)) (first : Int) :
    Except Err (GmTable K) :=
  let q := quantile.length
  if rows.isEmpty ∨ q = 0 ∨ ∃ r ∈ rows, r.length % q ≠ 0 then .error .valueError
  else
    let n := min steps (gmColumn q rows 0).length
    if n = steps then
      .ok ⟨quantile.map ("fcst_quantile_" ++ ·),
        (List.range n).map fun t => (List.range q).map fun j => (gmColumn q rows j).getD t 0,
        gmDates first freq steps⟩
    else .error .valueError

/-- The rows of the `i`-th series. -/
def gmSeries (fcsts : List (List (List K))) (i : Nat) : List (List K) := fcsts.map fun w => w.getD i []

/-! ## `predict` -/

/-- `steps // fcst_window + int(steps % fcst_window != 0)` (602-604). -/
def gmStepNum (steps fw : Nat) : Nat := steps / fw + if steps % fw ≠ 0 then 1 else 0

/-- `dict.update` with one entry. -/
def gmPut {α β : Type} [DecidableEq α] (d : List (α × β)) (e : α × β) : List (α × β) :=
  if e.1 ∈ d.map (·.1) then d.map fun x => if x.1 = e.1 then e else x else d ++ [e]

/-- `dict.update`. -/
def gmUpdate {α β : Type} [DecidableEq α] (d l : List (α × β)) : List (α × β) := l.foldl gmPut d

/-- `batch.time[:, batch.train_length]` for one row (644). -/
def gmFirstTime (ix : GmIndices) (row : GmRow) : Except Err Int :=
  match (row.time ++ row.validTime.getD [])[ix.reduced]? with
  | some t => .ok t
  | none => .error .indexError

/-- What `predict` uses of the model: the parameters, the texts of the quantiles and the pass. -/
structure GmPredictor (K : Type) where
  p : GmParams
  quantile : List String
  single : GmParams → GmIndices → List GmRow → Except Err (List (List (List K)))

/-- `predict` for one batch (620-638): the batch and the windows, adjusted for the recurrent network. -/
def gmPredictBatch (P : GmPredictor K) (p : GmParams) (data : List (GmKey × Bool × GmTs)) (ids : List GmKey) :
    Except Err (GmIndices × List GmRow × List (List (List K))) := do
  let series ← ids.mapM (gmLookup data)
  let b ← gmBatch p false series none 0 0
  let f ← P.single p b.1 b.2
  return (b.1, b.2, if p.rnn then gmAdjust p.fcstWindow P.quantile.length f else f)

/-- The frame of the `i`-th series of a batch (640-643, 557-565). -/
def gmFormatOne (quantile : List String) (freq : Int) (steps : Nat) (ids : List GmKey) (ix : GmIndices)
    (rows : List GmRow) (f : List (List (List K))) (i : Nat) : Except Err (GmKey × GmTable K) :=
  match ids[i]?, rows[i]? with
  | some k, some row => do
    let first ← gmFirstTime ix row
    let t ← gmFrame quantile freq steps (gmSeries f i) first
    return (k, t)
  | _, _ => .error .indexError

/-- `_format_fcst` (520-569) with its arguments (640-643). -/
def gmFormat (quantile : List String) (freq : Int) (steps : Nat) (ids : List GmKey) (ix : GmIndices)
    (rows : List GmRow) (f : List (List (List K))) : Except Err (List (GmKey × GmTable K)) :=
  (List.range ids.length).mapM (gmFormatOne quantile freq steps ids ix rows f)

/-- The raw forecasts of a batch (646-648). -/
def gmRaw (ids : List GmKey) (f : List (List (List K))) : List (GmKey × List (List K)) :=
  ids.mapIdx fun i k => (k, gmSeries f i)

/-- The loop over the batches (619-649). -/
def gmPredictLoop {β : Type} (R : GmRand) (size : Nat) (one : List GmKey → Except Err (List (GmKey × β))) :
    Nat → GmLoader → List (GmKey × β) → Except Err (List (GmKey × β))
  | 0, _, acc => .ok acc
  | m + 1, l, acc => do
    let g := gmGet R l size
    let ids ← g.2
    let r ← one ids
    gmPredictLoop R size one m g.1 (gmUpdate acc r)

/-- What `predict` does for both kinds of results (602-618); the batch size is only checked. -/
def gmPredictWith {β : Type} (R : GmRand) (P : GmPredictor K) (data : List (GmKey × Bool × GmTs)) (steps : Nat)
    (testSize : Int)
    (one : List GmKey → GmIndices → List GmRow → List (List (List K)) → Except Err (List (GmKey × β))) :
    Except Err (List (GmKey × β)) :=
  if testSize ≤ 0 then .error .valueError
  else do
    let n := data.length
    let m := n / 500 + if n % 500 ≠ 0 then 1 else 0
    let l ← gmLoaderInit (data.map fun d => (d.1, d.2.2.length)) none 5
    let p := { P.p with fcstSteps := gmStepNum steps P.p.fcstWindow }
    gmPredictLoop R 500 (fun ids => do
      let b ← gmPredictBatch P p data ids
      one ids b.1 b.2.1 b.2.2) m l []

/-- `predict` (572-652) with `raw=False`. -/
def gmPredict (R : GmRand) (P : GmPredictor K) (data : List (GmKey × Bool × GmTs)) (steps : Nat)
    (testSize : Int) : Except Err (List (GmKey × GmTable K)) :=
  gmPredictWith R P data steps testSize (gmFormat P.quantile P.p.freq steps)

/-- `predict` (572-652) with `raw=True`. -/
def gmPredictRaw (R : GmRand) (P : GmPredictor K) (data : List (GmKey × Bool × GmTs)) (steps : Nat)
    (testSize : Int) : Except Err (List (GmKey × List (List K))) :=
  gmPredictWith R P data steps testSize fun ids _ _ f => .ok (gmRaw ids f)

/-- `_single_pass` (840-877) with the recurrent network, as `predict` calls it: `start` is the reset network.
The numbers of the batch are taken into the field by `cast`. -/
def gmSingleRnn {σ V : Type} (E : GmEnv K σ) (J : GmJudge K V) (cast : Rat → K) (start : σ) (smooth : List K)
    (maxDelta softMax : Int) (p : GmParams) (ix : GmIndices) (rows : List GmRow) :
    Except Err (List (List (List K))) := do
  let r ← gmPassRnn E J
    ⟨rows.map fun r => (r.x ++ r.validX.getD []).map fun v => v.map cast, rows.map fun r => cast r.offset,
      rows.map fun r => (gmSeason p r.x).map fun v => cast (v.getD 0), ix.train, ix.valid⟩
    start smooth maxDelta p.validSteps softMax false false
  return r.fcst

/-- `_single_pass` (840-877) with the encoder and the decoder, as `predict` calls it. -/
def gmSingleS2s {σ τ V : Type} [LinearOrder K] (E : GmS2sEnv K σ τ) (J : GmJudge K V) (cast : Rat → K) (start : σ)
    (maxDelta softMax : Int) (_p : GmParams) (ix : GmIndices) (rows : List GmRow) :
    Except Err (List (List (List K))) := do
  let r ← gmPassS2s E J
    ⟨rows.map fun r => (r.x ++ r.validX.getD []).map fun v => v.map cast, rows.map fun r => cast r.offset,
      [], ix.train, ix.valid⟩
    ix.trainEnc ix.testEnc start maxDelta softMax false false
  return r.fcst

/-! ## `evaluate` -/

/-- A collection of series. -/
inductive GmColl where
  | one (t : Bool × GmTs)
  | list (l : List (Bool × GmTs))
  | dict (l : List (GmKey × Bool × GmTs))

/-- Its entries (594-595, 914-917, 923-927): a single series and a list have the places as keys. -/
def GmColl.entries : GmColl → List (GmKey × Bool × GmTs)
  | .one t => [(.int 0, t)]
  | .list l => l.mapIdx fun i t => (.int i, t)
  | .dict l => l

/-- The kinds are the same (900-907). -/
def gmSameKind : GmColl → GmColl → Bool
  | .one _, .one _ => true
  | .list _, .list _ => true
  | .dict _, .dict _ => true
  | _, _ => false

/-- The actual values of one window (951-957): missing ones are NaN. -/
def gmWindow (fw : Nat) (valid : GmTs) (j : Nat) : List (Option Rat) :=
  let n := gmStepNum valid.length fw * fw
  let actuals := valid.map (·.2) ++ List.replicate (n - valid.length) none
  (actuals.drop (j * fw)).take fw

/-- One row of the result (957-961). -/
def gmEvalOne {V : Type} (fw : Nat) (judge : List K → List (Option Rat) → V) (k : GmKey) (valid : GmTs)
    (fcst : List (List K)) (j : Nat) : Except Err (V × Nat × GmKey) :=
  match fcst[j]? with
  | some f => .ok (judge f (gmWindow fw valid j), j, k)
  | none => .error .indexError

/-- The rows of one series (948-961). -/
def gmEvalKey {V : Type} (fw : Nat) (judge : List K → List (Option Rat) → V) (valid : List (GmKey × Bool × GmTs))
    (fcst : List (GmKey × List (List K))) (k : GmKey) : Except Err (List (V × Nat × GmKey)) := do
  let v ← gmLookup valid k
  let f ← gmLookup fcst k
  (List.range (gmStepNum v.2.length fw)).mapM (gmEvalOne fw judge k v.2 f)

/-- `evaluate` (879-962). -/
def gmEvaluate {V : Type} (R : GmRand) (P : GmPredictor K) (judge : List K → List (Option Rat) → V)
    (train valid : GmColl) : Except Err (List (V × Nat × GmKey)) :=
  if gmSameKind train valid = false then .error .valueError
  else if train.entries.length ≠ valid.entries.length then .error .valueError
  else if train.entries.length = 0 then .error .valueError
  else do
    let keys := train.entries.map (·.1)
    let lens ← keys.mapM fun k => (gmLookup valid.entries k).map fun v => v.2.length
    let fcst ← gmPredictRaw R P train.entries (lens.max?.getD 0) 500
    let rows ← keys.mapM (gmEvalKey P.p.fcstWindow judge valid.entries fcst)
    return rows.flatten

/-! ## The validation function -/

/-- The metrics that the validation function calls. -/
structure GmMetrics (K : Type) where
  smape : List (List (Option K)) → List (List K) → Option K
  sbias : List (List (Option K)) → List (List K) → Option K
  exceed : List (List (Option K)) → List (List K) → List String → List (Option K)

/-- `valid_func` (214-239) with the metrics `names` and the quantiles after the first; the target and the
forecasts have rows of one length. -/
def gmValidFn (M : GmMetrics K) (names quantile : List String) (fcst : List (List K))
    (target : List (List (Option K))) : List (String × Option K) :=
  let d := (target.headD []).length
  let q := quantile.tail
  names.foldl (fun ans name =>
    if name = "smape" then gmPut ans ("smape", M.smape target (fcst.map (·.take d)))
    else if name = "sbias" then gmPut ans ("sbias", M.sbias target (fcst.map (·.take d)))
    else if name = "exceed" ∧ 1 < q.length then
      gmUpdate ans (gmUpdate [] (q.mapIdx fun i s =>
        ("exceed_" ++ s, (M.exceed target (fcst.map (·.drop d)) q).getD i none)))
    else ans) []

end

/-! ## The schedule of `train` -/

/-- The value used in every epoch (428-429, 436-439): the first is that of the key 0. -/
def gmSchedule {α : Type} (d : List (Nat × α)) (epochs : Nat) : Except Err (List α) :=
  match d.lookup 0 with
  | none => .error .keyError
  | some v => .ok ((List.range epochs).foldl (fun s e =>
      let v := (d.lookup e).getD s.2
      (s.1 ++ [v], v)) (([] : List α), v)).1

/-- The loop over the epochs (413, 431-500) for the mode of the networks: a list with the mode in which every epoch is
trained; `true` is the training mode.  `evaluate` sets the other one (498, 593). -/
def gmEpochModes (test : Bool) : Nat → Bool → List Bool
  | 0, _ => []
  | n + 1, mode => mode :: gmEpochModes test n (if test then false else mode)

/-! ## The networks -/

/-- A network: its weights, whether it is in training mode, and its hidden state. -/
structure GmNet (W H : Type) where
  weights : W
  training : Bool
  hidden : Option H

/-- The networks of a model (66-71) and the type of the model. -/
structure GmNets (W H : Type) where
  kind : String
  rnn : Option (GmNet W H)
  decoder : Option (GmNet W H)
  encoder : Option (GmNet W H)

section
variable {W H : Type}

/-- Calling a method of what may be `None`. -/
def gmOn {α β : Type} (f : α → β) (x : Option α) : Except Err (Option β) :=
  match x with
  | some a => .ok (some (f a))
  | none => .error .attributeError

/-- `_reset_nn_states` (73-84). -/
def gmReset (m : GmNets W H) : Except Err (GmNets W H) :=
  if m.kind = "rnn" then do
    let r ← gmOn (fun n => { n with hidden := none }) m.rnn
    return { m with rnn := r }
  else if m.kind = "s2s" then do
    let e ← gmOn (fun n => { n with hidden := none }) m.encoder
    let d ← gmOn (fun n => { n with hidden := none }) m.decoder
    return { m with encoder := e, decoder := d }
  else .error .valueError

/-- `_initiate_nn` (86-95); `build` makes the weights of a new network, by name. -/
def gmInitiate (build : String → W) (m : GmNets W H) : Except Err (GmNets W H) :=
  if m.kind = "rnn" then
    .ok (if m.rnn.isNone then { m with rnn := some ⟨build "rnn", true, none⟩ } else m)
  else if m.kind = "s2s" then
    .ok (if m.decoder.isNone ∨ m.encoder.isNone then
      { m with encoder := some ⟨build "encoder", true, none⟩, decoder := some ⟨build "decoder", true, none⟩ }
      else m)
  else .error .valueError

/-- `_set_nn_status` (111-132), with the mode given by `training`. -/
def gmSetMode (training : Bool) (m : GmNets W H) : Except Err (GmNets W H) :=
  if m.kind = "rnn" then do
    let r ← gmOn (fun n => { n with training := training }) m.rnn
    return { m with rnn := r }
  else if m.kind = "s2s" then do
    let e ← gmOn (fun n => { n with training := training }) m.encoder
    let d ← gmOn (fun n => { n with training := training }) m.decoder
    return { m with encoder := e, decoder := d }
  else .error .valueError

/-- What `save_model` writes (661-670), apart from the parameters. -/
structure GmSaved (W : Type) where
  kind : String
  state : Option W
  encoder : Option W
  decoder : Option W

/-- `save_model` (654-673). -/
def gmSave (m : GmNets W H) : Except Err (GmSaved W) := do
  let r ← gmReset m
  return ⟨r.kind, r.rnn.map (·.weights), r.encoder.map (·.weights), r.decoder.map (·.weights)⟩

/-- `load_state_dict` into a new network; `fits` says that the weights have the right names and shapes. -/
def gmLoadWeights (fits : String → W → Bool) (name : String) (w : Option W) : Except Err (Option (GmNet W H)) :=
  match w with
  | none => .error .valueError
  | some w => if fits name w then .ok (some ⟨w, true, none⟩) else .error .valueError

/-- `load_gmmodel_from_file` (1262-1293): every exception becomes a ValueError. -/
def gmLoad (fits : String → W → Bool) (s : GmSaved W) : Except Err (GmNets W H) :=
  if s.kind = "rnn" then do
    let r ← gmLoadWeights fits "rnn" s.state
    return ⟨s.kind, r, none, none⟩
  else if s.kind = "s2s" then do
    let e ← gmLoadWeights fits "encoder" s.encoder
    let d ← gmLoadWeights fits "decoder" s.decoder
    return ⟨s.kind, none, d, e⟩
  else .ok ⟨s.kind, none, none, none⟩

end

end Kats
