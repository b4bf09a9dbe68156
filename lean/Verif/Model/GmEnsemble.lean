import Verif.Model.GmPredict
import Verif.Model.GmParam
import Mathlib.Data.List.Sort

/-!
# `kats/models/globalmodel/ensemble.py`

`GMEnsemble`: its arguments, which series each of its models is trained with, how it combines the forecasts of its
models, how it is evaluated, and how it is saved and loaded, also as JSON by `kats/models/globalmodel/serialize.py`
(its lines are cited as S).  The training of one model is not modelled here: a model is what `predict` uses of it, or
its networks, and what training gives back is a value of which only is known whether JSON can hold it.  The text of
the parameters is left out (C138).  Random numbers for the models that are trained in parallel are left out.
-/

namespace Kats

/-! ## `__init__` -/

/-- The arguments of `__init__` (54-63), without the parameters of the models. -/
structure GmEnsArgs where
  kind : String
  splits : GmNum
  overlap : Bool
  replicate : GmNum
  multi : Bool
  maxCore : Option GmNum

/-- The attributes (66-107). -/
structure GmEns where
  kind : String
  splits : Nat
  overlap : Bool
  replicate : Nat
  modelNum : Nat
  multi : Bool
  maxCore : Nat
deriving DecidableEq

/-- `not isinstance(x, int) or x < 1` (79, 87). -/
def gmNotPositive (x : GmNum) : Bool := !x.isInt || gmLt x.val (.fin 1)

/-- `__init__` (54-113), with the number of cores. -/
def gmEnsInit (cores : Nat) (a : GmEnsArgs) : Except Err GmEns :=
  if a.kind ≠ "median" ∧ a.kind ≠ "mean" then .error .valueError
  else if gmNotPositive a.splits then .error .valueError
  else if gmNotPositive a.replicate then .error .valueError
  else
    let e : GmEns := ⟨a.kind, a.splits.toInt.toNat, a.overlap, a.replicate.toInt.toNat,
      a.replicate.toInt.toNat * a.splits.toInt.toNat, a.multi, max ((cores - 1) / 2) 1⟩
    match a.maxCore with
    | none => .ok e
    | some c =>
      if c.isInt && gmLt (.fin 0) c.val && gmLe c.val (.fin cores) then .ok { e with maxCore := c.toInt.toNat }
      else .error .valueError

/-! ## `train` -/

/-- `keys[i]: data[keys[i]]` (194, 198). -/
def gmEnsTake (keys : List GmKey) (data : List (GmKey × GmTs)) (i : Nat) : Except Err (GmKey × GmTs) :=
  match keys[i]? with
  | some k => (gmLookup data k).map fun x => (k, x)
  | none => .error .indexError

/-- A set of series and its validation set. -/
abbrev GmSet : Type := List (GmKey × GmTs) × Option (List (GmKey × GmTs))

/-- The series for the training and for the test (184-208); `shuffle` is `np.random.shuffle`. -/
def gmEnsData (p : GmParams) (timeCol : GmKey → String) (shuffle : List GmKey → List GmKey)
    (data : List (GmKey × GmTs)) (testSize : Rat) (validSet : Bool) : Except Err (GmSet × Option GmSet) :=
  let n := data.length
  if testSize < 0 ∨ 1 < testSize then .error .valueError
  else if 0 < testSize then do
    let m := max 1 ((n : Rat) * testSize).floor.toNat
    let keys := shuffle (gmNpKeys (data.map (·.1)))
    let t ← (List.range m).mapM (gmEnsTake keys data)
    let test ← gmPreprocess p timeCol (gmUpdate [] t) "test" true
    let r ← (List.range' m (n - m)).mapM (gmEnsTake keys data)
    let train ← gmPreprocess p timeCol (gmUpdate [] r) "train" validSet
    return (train, some test)
  else do
    let train ← gmPreprocess p timeCol data "train" validSet
    return (train, none)

/-- `test_ids` (202, 208). -/
def gmEnsTestIds (test : Option GmSet) : List GmKey := (test.map fun t => t.1.map (·.1)).getD []

/-- Which data each of the models is trained with (212-248), in parallel or not. -/
def gmEnsJobs {α : Type} (multi : Bool) (splits replicate modelNum : Nat) (parts : List α) :
    Except Err (List (Nat × α)) :=
  if multi then (List.range modelNum).mapM fun i =>
    match parts[i % splits]? with
    | some d => .ok (i, d)
    | none => .error .indexError
  else
    let l := ((List.range replicate).flatMap fun _ => parts).mapIdx fun i d => (i, d)
    if l.length ≤ modelNum then .ok l else .error .indexError

/-- `train` (169-253) up to the training of the models: the data of every model and the test set. -/
def gmEnsTrain (e : GmEns) (p : GmParams) (timeCol : GmKey → String) (shuffle : List GmKey → List GmKey)
    (data : List (GmKey × GmTs)) (testSize : Rat) (validSet : Bool) :
    Except Err (List (Nat × GmSet) × Option GmSet) := do
  let d ← gmEnsData p timeCol shuffle data testSize validSet
  let parts ← gmSplit e.splits e.overlap d.1.1 d.1.2
  let jobs ← gmEnsJobs e.multi e.splits e.replicate e.modelNum parts
  return (jobs, d.2)

/-! ## `predict` -/

section
variable {K : Type} [Field K]

/-- `np.mean`. -/
def gmEnsMean (l : List K) : K := l.sum / (l.length : K)

/-- `np.median`. -/
def gmEnsMedian [LinearOrder K] (l : List K) : K :=
  let s := l.insertionSort (· ≤ ·)
  (s.getD ((s.length - 1) / 2) 0 + s.getD (s.length / 2) 0) / 2

/-- `_ensemble_func` (68-76). -/
def gmEnsFunc [LinearOrder K] (kind : String) : List K → K := if kind = "median" then gmEnsMedian else gmEnsMean

/-- The combination of the windows `j` of the models (269). -/
def gmCombineAt (f : List K → K) (fcsts : List (List (List K))) (j : Nat) : Except Err (List K) := do
  let rows ← fcsts.mapM fun w =>
    match w[j]? with
    | some r => .ok r
    | none => .error .indexError
  let r := rows.headD []
  if rows.all fun x => decide (x.length = r.length) then
    return (List.range r.length).map fun i => f (rows.map fun x => x.getD i 0)
  else .error .valueError

/-- The combined windows of one series (268-271). -/
def gmCombine (f : List K → K) (fcsts : List (List (List K))) : Except Err (List (List K)) :=
  match fcsts with
  | [] => .error .indexError
  | w :: _ => (List.range w.length).mapM (gmCombineAt f fcsts)

/-- `_combine_fcst` with `raw` for one series (256-274, 376-384). -/
def gmEnsRaw (f : List K → K) (all : List (List (GmKey × List (List K)))) (k : GmKey) :
    Except Err (GmKey × List (List K)) := do
  let fc ← all.mapM fun d => gmLookup d k
  let w ← gmCombine f fc
  return (k, w)

/-- `_combine_fcst` for one series (256-289, 376-384). -/
def gmEnsFrame (f : List K → K) (quantile : List String) (freq : Int) (data : List (GmKey × Bool × GmTs))
    (steps : Nat) (all : List (List (GmKey × List (List K)))) (k : GmKey) : Except Err (GmKey × GmTable K) := do
  let s ← gmLookup data k
  match s.2.getLast? with
  | none => .error .indexError
  | some b => do
    let w ← gmEnsRaw f all k
    let t ← gmFrame quantile freq steps w.2 (b.1 + freq)
    return (k, t)

/-- Without parallel work an exception becomes a ValueError (374-388). -/
def gmEnsWrap {α : Type} (multi : Bool) (x : Except Err α) : Except Err α :=
  match x with
  | .ok a => .ok a
  | .error e => .error (if multi then e else .valueError)

/-- `predict` (292-389) for both kinds of results. -/
def gmEnsPredictWith {β : Type} (multi : Bool) (models : List (GmRand × GmPredictor K))
    (data : List (GmKey × Bool × GmTs)) (steps testSize : Int)
    (one : List (List (GmKey × List (List K))) → GmKey → Except Err (GmKey × β)) :
    Except Err (List (GmKey × β)) :=
  if steps ≤ 0 then .error .valueError
  else if testSize ≤ 0 then .error .valueError
  else do
    let all ← models.mapM fun m => gmPredictRaw m.1 m.2 data steps.toNat testSize
    (data.map (·.1)).mapM fun k => gmEnsWrap multi (one all k)

/-- `predict` (292-389) with `raw=False`; `p` and `quantile` are those of the ensemble. -/
def gmEnsPredict (f : List K → K) (multi : Bool) (p : GmParams) (quantile : List String)
    (models : List (GmRand × GmPredictor K)) (data : List (GmKey × Bool × GmTs)) (steps testSize : Int) :
    Except Err (List (GmKey × GmTable K)) :=
  gmEnsPredictWith multi models data steps testSize (gmEnsFrame f quantile p.freq data steps.toNat)

/-- `predict` (292-389) with `raw=True`. -/
def gmEnsPredictRaw (f : List K → K) (multi : Bool) (models : List (GmRand × GmPredictor K))
    (data : List (GmKey × Bool × GmTs)) (steps testSize : Int) : Except Err (List (GmKey × List (List K))) :=
  gmEnsPredictWith multi models data steps testSize (gmEnsRaw f)

/-! ## `evaluate` -/

/-- `evaluate` (450-527). -/
def gmEnsEvaluate {V : Type} (f : List K → K) (multi : Bool) (p : GmParams)
    (models : List (GmRand × GmPredictor K)) (judge : List K → List (Option Rat) → V) (train valid : GmColl) :
    Except Err (List (V × Nat × GmKey)) :=
  if gmSameKind train valid = false then .error .valueError
  else if train.entries.length ≠ valid.entries.length then .error .valueError
  else if train.entries.length = 0 then .error .valueError
  else do
    let keys := train.entries.map (·.1)
    let lens ← keys.mapM fun k => (gmLookup valid.entries k).map fun v => v.2.length
    let fcst ← gmEnsPredictRaw f multi models train.entries (lens.max?.getD 0 : Nat) 500
    let rows ← keys.mapM (gmEvalKey p.fcstWindow judge valid.entries fcst)
    return rows.flatten

end

/-! ## Saving and loading -/

section
variable {W H I : Type}

/-- An ensemble with its networks; `kind` is the type of its models. -/
structure GmEnsModel (W H I : Type) where
  kind : String
  ens : GmEns
  nets : List (GmNets W H)
  info : List I
  testIds : List GmKey

/-- What is written (404-443), apart from the text of the parameters. -/
structure GmEnsSaved (W I : Type) where
  kind : String
  state : Option (List W)
  encoder : Option (List W)
  decoder : Option (List W)
  info : List I
  testIds : List GmKey
  ens : GmEns

/-- `x.state_dict()`. -/
def gmStateDict (x : Option (GmNet W H)) : Except Err W :=
  match x with
  | some n => .ok n.weights
  | none => .error .attributeError

/-- The weights of one network of all models, for one type of model (405-422). -/
def gmEnsDict (b : Bool) (f : GmNets W H → Option (GmNet W H)) (nets : List (GmNets W H)) :
    Except Err (Option (List W)) :=
  if b then (nets.mapM fun m => gmStateDict (f m)).map some else .ok none

/-- `save_model` (391-448): an exception becomes a ValueError. -/
def gmEnsSave (m : GmEnsModel W H I) : Except Err (GmEnsSaved W I) :=
  if m.nets.length = 0 then .error .valueError
  else gmEnsWrap false (do
    let nets ← m.nets.mapM gmReset
    let s ← gmEnsDict (m.kind == "rnn") (·.rnn) nets
    let e ← gmEnsDict (m.kind == "s2s") (·.encoder) nets
    let d ← gmEnsDict (m.kind == "s2s") (·.decoder) nets
    return ⟨m.kind, s, e, d, m.info, m.testIds, m.ens⟩)

/-- `xs[i]` for a list that may be `None`. -/
def gmEntry {α : Type} (xs : Option (List α)) (i : Nat) : Option α := xs.bind (·[i]?)

/-- The arguments with which a saved ensemble is made again (562-567, S 99-107). -/
def gmEnsArgs (cores : Nat) (e : GmEns) : GmEnsArgs :=
  ⟨e.kind, .int e.splits, e.overlap, .int e.replicate, e.multi, some (.int (min e.maxCore cores : Nat))⟩

/-- The number of saved models (543-547). -/
def gmEnsCount (state encoder : Option (List W)) : Except Err Nat :=
  match state, encoder with
  | some l, _ => .ok l.length
  | none, some l => .ok l.length
  | none, none => .error .typeError

/-- `load_gmensemble_from_file` (530-574): an exception becomes a ValueError; the type of a model is checked when
it is made (`model.py` 57-61). -/
def gmEnsLoad (cores : Nat) (fits : String → W → Bool) (s : GmEnsSaved W I) : Except Err (GmEnsModel W H I) :=
  gmEnsWrap false (do
    let n ← gmEnsCount s.state s.encoder
    let nets ← (List.range n).mapM fun i =>
      gmLoad fits ⟨if s.kind = "rnn" then "rnn" else "s2s", gmEntry s.state i, gmEntry s.encoder i, gmEntry s.decoder i⟩
    let e ← gmEnsInit cores (gmEnsArgs cores s.ens)
    return ⟨s.kind, e, nets, s.info, []⟩)

/-- What JSON holds of an ensemble (S 51-68), apart from the text of the parameters. -/
structure GmEnsJson (W I : Type) where
  kind : String
  ens : GmEns
  info : List I
  nets : List (GmSaved W)

/-- `_gmmodel_nn_to_dict` (S 19-32). -/
def gmNnDict (kind : String) (m : GmNets W H) : Except Err (GmSaved W) :=
  if kind = "rnn" then do
    let r ← gmStateDict m.rnn
    return ⟨kind, some r, none, none⟩
  else do
    let d ← gmStateDict m.decoder
    let e ← gmStateDict m.encoder
    return ⟨kind, none, some e, some d⟩

/-- `global_model_to_json` for an ensemble (S 50-78); `json` says whether JSON can hold what a training gave. -/
def gmEnsToJson (json : I → Bool) (m : GmEnsModel W H I) : Except Err (GmEnsJson W I) := do
  let nets ← m.nets.mapM (gmNnDict m.kind)
  if m.info.all json then return ⟨m.kind, m.ens, m.info, nets⟩ else .error .typeError

/-- `load_global_model_from_json` for an ensemble (S 81-111), with `_dict_to_gmmodel_nn`
(S 35-47); which exception weights give that do not fit is not modelled. -/
def gmEnsFromJson (cores : Nat) (fits : String → W → Bool) (s : GmEnsJson W I) : Except Err (GmEnsModel W H I) := do
  let e ← gmEnsInit cores (gmEnsArgs cores s.ens)
  let nets ← s.nets.mapM fun x => gmLoad fits ⟨s.kind, x.state, x.encoder, x.decoder⟩
  return ⟨s.kind, e, nets, s.info, []⟩

end

/-- What the training of a model gives (`model.py` 506-515): with a test set it holds frames. -/
structure GmInfo where
  losses : List Rat
  testInfo : Option (List (List (Nat × GmKey)))

/-- `json.dumps` holds lists and numbers and no frames. -/
def GmInfo.json (i : GmInfo) : Bool := (i.testInfo.getD []).isEmpty

/-- The information of a training of `epochs` epochs, with the losses and the frames of the evaluations
(`model.py` 431, 494-515). -/
def gmTrainInfo (losses : List Rat) (test : Option (Nat → List (Nat × GmKey))) (epochs : Nat) : GmInfo :=
  ⟨losses, test.map fun f => (List.range epochs).map f⟩

end Kats
