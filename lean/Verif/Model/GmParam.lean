import Verif.Model.GmLoss
import Mathlib.Data.Rat.Defs
import Mathlib.Algebra.Order.Ring.Rat

/-!
# `kats/models/globalmodel/utils.py`

`GMParam`: the checks of `__init__`, `copy`, `__eq__`, `to_string` and `gmparam_from_string`.  Numbers are
integers, booleans or floats with exact values; a dictionary is the list of its items.  The arguments
have the types they are documented with, except where the code looks at the type.  A JSON text is the
values it holds; `pd.to_timedelta` is a parameter.
-/

namespace Kats

/-- A float. -/
inductive GmFlt where
  | fin (q : Rat)
  | nan
  | pinf
  | ninf
  deriving DecidableEq

/-- A Python number. -/
inductive GmNum where
  | int (z : Int)
  | bool (b : Bool)
  | flt (x : GmFlt)
  deriving DecidableEq

/-- The value of a number. -/
def GmNum.val : GmNum → GmFlt
  | .int z => .fin z
  | .bool b => .fin (if b then 1 else 0)
  | .flt x => x

/-- `a <= b`. -/
def gmLe : GmFlt → GmFlt → Bool
  | .fin a, .fin b => decide (a ≤ b)
  | .nan, _ => false
  | _, .nan => false
  | .ninf, _ => true
  | _, .pinf => true
  | _, _ => false

/-- `a < b`. -/
def gmLt (a b : GmFlt) : Bool := gmLe a b && !gmLe b a

/-- `a == b`. -/
def gmNumEq (a b : GmNum) : Bool := gmLe a.val b.val && gmLe b.val a.val

/-- `isinstance(a, int)`. -/
def GmNum.isInt : GmNum → Bool
  | .int _ => true
  | .bool _ => true
  | .flt _ => false

/-- `isinstance(a, float)`. -/
def GmNum.isFlt : GmNum → Bool
  | .flt _ => true
  | _ => false

/-- A parameter of the optimizer. -/
inductive GmPy where
  | num (x : GmNum)
  | str (s : String)
  | list (l : List GmNum)
  | tuple (l : List GmNum)
  | obj (id : Nat)
  deriving DecidableEq

/-- A dictionary for the optimizer: `name` and `params`, if they are there. -/
structure GmOpt where
  name : Option GmPy
  params : Option (List (String × GmPy))
  deriving DecidableEq

/-- The argument `optimizer`. -/
inductive GmOptArg where
  | none
  | str (s : String)
  | dict (d : GmOpt)
  | other

/-- The argument `batch_size` or `learning_rate`; a key that is no number is `none`. -/
inductive GmUnion where
  | num (x : GmNum)
  | dict (d : List (Option GmNum × GmNum))
  | other

/-- The argument `freq`. -/
inductive GmFreq where
  | delta (ns : Int)
  | str (s : String)
  | other

/-- The argument `gmfeature`; a string is a list of one. -/
inductive GmFeatArg where
  | none
  | types (l : List String)
  | other

/-- The argument `validation_metric`. -/
inductive GmMetricArg where
  | none
  | list (l : List String)
  | other

/-- The arguments of `__init__` (1198-1234). -/
structure GmArgs where
  freq : GmFreq
  inputWindow : GmNum
  fcstWindow : GmNum
  seasonality : GmNum := .int 1
  modelType : String := "rnn"
  uplift : GmNum := .flt (.fin 3)
  gmfeature : GmFeatArg := .none
  nn : Option (List (List Int)) := none
  decoder : Option (List (List Int)) := none
  cellName : String := "LSTM"
  stateSize : GmNum := .int 50
  hSize : Option GmNum := none
  optimizer : GmOptArg := .none
  loss : String := "Pinball"
  quantile : Option (List GmNum) := none
  trainQuantile : Option (List GmNum) := none
  weight : Option (List GmNum) := none
  metric : GmMetricArg := .none
  batchSize : Option GmUnion := none
  learningRate : Option GmUnion := none
  epochNum : GmNum := .int 8
  epochSize : GmNum := .int 3000
  initSeason : Option (List GmNum) := none
  initSmooth : Option (List GmNum) := none
  minTrainNum : GmNum := .int 4
  minTrainLen : GmNum := .int (-1)
  softMax : GmNum := .int 10
  validSteps : GmNum := .int 3
  warmUp : GmNum := .int 2
  fcstSteps : GmNum := .int 1
  jit : Bool := false
  gmname : Option String := none

/-- The attributes of a `GMParam`; the keys of the dictionaries are of the type `κ`. -/
structure GmObj (κ : Type) where
  freq : Int
  modelType : String
  uplift : GmNum
  nn : List (List Int)
  decoder : List (List Int)
  cellName : String
  stateSize : GmNum
  hSize : Option GmNum
  batchSize : List (κ × GmNum)
  learningRate : List (κ × GmNum)
  loss : String
  optimizer : GmOpt
  quantile : List GmNum
  trainQuantile : List GmNum
  weight : List GmNum
  metric : List String
  initSeason : List GmNum
  initSmooth : List GmNum
  gmfeature : Option (List String)
  inputWindow : GmNum
  fcstWindow : GmNum
  validSteps : GmNum
  minTrainNum : GmNum
  minTrainLen : GmNum
  seasonality : GmNum
  epochNum : GmNum
  epochSize : GmNum
  softMax : GmNum
  warmUp : GmNum
  fcstSteps : GmNum
  maxStepDelta : Int
  jit : Bool
  gmname : Option String
  deriving DecidableEq

/-- `_valid_freq` (1488-1508); `td` is `pd.to_timedelta`, `none` where it fails. -/
def gmFreq (td : String → Option Int) : GmFreq → Except Err Int
  | .delta ns => .ok ns
  | .str s =>
    if 0 < s.toList.length then
      match td (if (s.toList.headD ' ').isDigit then s else "1" ++ s) with
      | some ns => .ok ns
      | none => .error .valueError
    else .error .valueError
  | .other => .error .valueError

/-- `_valid_list` (1429-1443). -/
def gmList (l : List GmNum) (lower upper : GmFlt) : Except Err Unit :=
  if l.any fun q => gmLe upper q.val || gmLe q.val lower then .error .valueError else .ok ()

/-- `_valid_union_dict` (1445-1478); `ty` tells whether a value has the right type. -/
def gmUnion (ty : GmNum → Bool) : GmUnion → Except Err (List (Option GmNum × GmNum))
  | .num x => if ty x && gmLt (.fin 0) x.val then .ok [(some (.int 0), x)] else .error .valueError
  | .dict d =>
    if !(d.any fun e => e.1.any fun k => gmNumEq k (.int 0)) then .error .valueError
    else if d.any fun e => !(e.1.any GmNum.isInt) || !ty e.2 || gmLe e.2.val (.fin 0) then
      .error .valueError
    else .ok d
  | .other => .error .valueError

/-- `_valid_optimizer` (1404-1417). -/
def gmOpt : GmOptArg → Except Err GmOpt
  | .none => .ok ⟨some (.str "Adam"), some [("eps", .num (.flt (.fin (1 / 10000000))))]⟩
  | .str s => if s.toLower = "adam" then .ok ⟨some (.str "Adam"), none⟩ else .error .valueError
  | .dict d =>
    match d.name with
    | some (.str s) => if s.toLower = "adam" then .ok d else .error .valueError
    | some _ => .error .attributeError
    | none => .error .valueError
  | .other => .error .valueError

/-- `_valid_loss_function` (1419-1427). -/
def gmLossName (s : String) : Except Err String :=
  if s.toLower = "pinball" ∨ s.toLower = "adjustedpinball" then .ok s.toLower else .error .valueError

/-- The check of the metrics (1305-1320). -/
def gmMetric : GmMetricArg → Except Err (List String)
  | .none => .ok ["smape", "sbias", "exceed"]
  | .list l =>
    if l.all fun s => decide (s ∈ ["smape", "sbias", "exceed"]) then .ok l else .error .valueError
  | .other => .error .valueError

/-- `_valid_gmfeature` (1529-1543). -/
def gmFeat : GmFeatArg → Except Err (Option (List String))
  | .none => .ok none
  | .types l => (gmFeatureInit l).map some
  | .other => .error .valueError

/-- The check of the training quantiles (1287-1291). -/
def gmTrainQuantile (q : List GmNum) : Option (List GmNum) → Except Err (List GmNum)
  | none => .ok q
  | some t => (gmList t (.fin 0) (.fin 1)).map fun _ => t

/-- The check of the weights (1293-1303). -/
def gmWeights (q : List GmNum) : Option (List GmNum) → Except Err (List GmNum)
  | none => .ok (List.replicate q.length (.flt (.fin (1 / (q.length : Rat)))))
  | some w =>
    if w.length ≠ q.length then .error .valueError
    else (gmList w (.fin 0) .pinf).map fun _ => w

/-- An integer of `__init__` as a number. -/
def GmNum.toInt : GmNum → Int
  | .int z => z
  | .bool b => if b then 1 else 0
  | .flt (.fin q) => q.floor
  | .flt _ => 0

/-- `max(1, seasonality - 1)` (1333). -/
def gmMaxLen (s : GmNum) : GmNum :=
  match s with
  | .flt (.fin q) => if 1 < q - 1 then .flt (.fin (q - 1)) else .int 1
  | .flt .pinf => .flt .pinf
  | .flt _ => .int 1
  | s => .int (max 1 (s.toInt - 1))

/-- `_valid_positive_integer_params` (1480-1486). -/
def gmPositive (l : List GmNum) : Except Err Unit :=
  if l.any fun x => !x.isInt || gmLt x.val (.fin 1) then .error .valueError else .ok ()

/-- `_valid_model_type` (1379-1386). -/
def gmModelType (s : String) : Except Err Unit :=
  if s = "rnn" ∨ s = "s2s" then .ok () else .error .valueError

/-- The check of `uplifting_ratio` (1240-1243). -/
def gmUplift (u : GmNum) : Except Err Unit := if gmLt u.val (.fin 0) then .error .valueError else .ok ()

/-- The check of the first quantile (1282-1285). -/
def gmFirstQuantile (l : List GmNum) : Except Err Unit :=
  match l with
  | [] => .error .indexError
  | q :: _ => if gmNumEq q (.flt (.fin (1 / 2))) then .ok () else .error .valueError

/-- The default of `batch_size` (1258). -/
def gmBatchDefault : GmUnion :=
  .dict [(some (.int 0), .int 2), (some (.int 3), .int 5), (some (.int 4), .int 15), (some (.int 5), .int 50),
    (some (.int 6), .int 150), (some (.int 7), .int 500)]

/-- The default of `learning_rate` (1266). -/
def gmRateDefault : GmUnion :=
  .dict [(some (.int 0), .flt (.fin (1 / 1000))), (some (.int 2), .flt (.fin (1 / 3000)))]

/-- The default of `quantile` (1277). -/
def gmQuantileDefault : List GmNum :=
  [.flt (.fin (1 / 2)), .flt (.fin (5 / 100)), .flt (.fin (95 / 100)), .flt (.fin (99 / 100))]

/-- `__init__` (1235-1377). -/
def gmInit (td : String → Option Int) (a : GmArgs) : Except Err (GmObj (Option GmNum)) := do
  let freq ← gmFreq td a.freq
  gmModelType a.modelType
  gmUplift a.uplift
  let nn := a.nn.getD [[1, 3]]
  let decoder := if a.modelType = "s2s" then a.decoder.getD nn else []
  let batch ← gmUnion GmNum.isInt (a.batchSize.getD gmBatchDefault)
  let lr ← gmUnion GmNum.isFlt (a.learningRate.getD gmRateDefault)
  let loss ← gmLossName a.loss
  let opt ← gmOpt a.optimizer
  let quantile := a.quantile.getD gmQuantileDefault
  gmList quantile (.fin 0) (.fin 1)
  gmFirstQuantile quantile
  let trainQuantile ← gmTrainQuantile quantile a.trainQuantile
  let weight ← gmWeights quantile a.weight
  let metric ← gmMetric a.metric
  let initSeason := a.initSeason.getD [.flt (.fin (1 / 10)), .flt (.fin 10)]
  gmList initSeason (.fin 0) .pinf
  let initSmooth := a.initSmooth.getD [.flt (.fin (4 / 10)), .flt (.fin (6 / 10))]
  gmList initSmooth (.fin 0) .pinf
  let minTrainLen := if gmLe a.minTrainLen.val (.fin 0) then gmMaxLen a.seasonality else a.minTrainLen
  let feature ← gmFeat a.gmfeature
  gmPositive [a.inputWindow, a.fcstWindow, a.validSteps, a.minTrainNum, minTrainLen, a.seasonality,
    a.stateSize, a.epochNum, a.epochSize, a.softMax, a.warmUp, a.fcstSteps]
  return { freq, modelType := a.modelType, uplift := a.uplift, nn, decoder, cellName := a.cellName,
           stateSize := a.stateSize, hSize := a.hSize, batchSize := batch, learningRate := lr, loss,
           optimizer := opt, quantile, trainQuantile, weight, metric, initSeason, initSmooth,
           gmfeature := feature, inputWindow := a.inputWindow, fcstWindow := a.fcstWindow,
           validSteps := a.validSteps, minTrainNum := a.minTrainNum, minTrainLen,
           seasonality := a.seasonality, epochNum := a.epochNum, epochSize := a.epochSize,
           softMax := a.softMax, warmUp := a.warmUp, fcstSteps := a.fcstSteps,
           maxStepDelta := min a.inputWindow.toInt a.fcstWindow.toInt / minTrainLen.toInt,
           jit := a.jit, gmname := a.gmname }

/-- `GMParam(**d)` for the attributes without `max_step_delta`. -/
def gmArgsOf (o : GmObj (Option GmNum)) : GmArgs where
  freq := .delta o.freq
  inputWindow := o.inputWindow
  fcstWindow := o.fcstWindow
  seasonality := o.seasonality
  modelType := o.modelType
  uplift := o.uplift
  gmfeature := match o.gmfeature with | none => .none | some l => .types l
  nn := some o.nn
  decoder := some o.decoder
  cellName := o.cellName
  stateSize := o.stateSize
  hSize := o.hSize
  optimizer := .dict o.optimizer
  loss := o.loss
  quantile := some o.quantile
  trainQuantile := some o.trainQuantile
  weight := some o.weight
  metric := .list o.metric
  batchSize := some (.dict o.batchSize)
  learningRate := some (.dict o.learningRate)
  epochNum := o.epochNum
  epochSize := o.epochSize
  initSeason := some o.initSeason
  initSmooth := some o.initSmooth
  minTrainNum := o.minTrainNum
  minTrainLen := o.minTrainLen
  softMax := o.softMax
  validSteps := o.validSteps
  warmUp := o.warmUp
  fcstSteps := o.fcstSteps
  jit := o.jit
  gmname := o.gmname

/-- `copy` (1545-1553). -/
def gmCopy (td : String → Option Int) (o : GmObj (Option GmNum)) : Except Err (GmObj (Option GmNum)) :=
  gmInit td (gmArgsOf o)

/-- A key of a JSON object: the digits of an integer, or `true` or `false`. -/
inductive GmTextKey where
  | int (z : Int)
  | bool (b : Bool)
  deriving DecidableEq

/-- A key as `json.dumps` writes it; floats and others do not occur (`gmUnion`). -/
def gmTextKey : Option GmNum → Except Err GmTextKey
  | some (.int z) => .ok (.int z)
  | some (.bool b) => .ok (.bool b)
  | _ => .error .typeError

/-- `int(t)` of such a key. -/
def gmReadKey : GmTextKey → Except Err (Option GmNum)
  | .int z => .ok (some (.int z))
  | .bool _ => .error .valueError

/-- A value as `json.dumps` writes it: tuples become lists, other objects cannot be written. -/
def gmTextPy : GmPy → Except Err GmPy
  | .tuple l => .ok (.list l)
  | .obj _ => .error .typeError
  | v => .ok v

/-- The optimizer as `json.dumps` writes it. -/
def gmTextOpt (d : GmOpt) : Except Err GmOpt := do
  let name ← d.name.mapM gmTextPy
  let params ← d.params.mapM fun l => l.mapM fun e => (gmTextPy e.2).map fun v => (e.1, v)
  return ⟨name, params⟩

/-- Other keys. -/
def gmKeys {κ μ : Type} (f : κ → Except Err μ) (d : List (κ × GmNum)) : Except Err (List (μ × GmNum)) :=
  d.mapM fun e => (f e.1).map fun k => (k, e.2)

/-- Other dictionaries. -/
def GmObj.withDicts {κ μ : Type} (o : GmObj κ) (batch lr : List (μ × GmNum)) (opt : GmOpt) : GmObj μ where
  freq := o.freq
  modelType := o.modelType
  uplift := o.uplift
  nn := o.nn
  decoder := o.decoder
  cellName := o.cellName
  stateSize := o.stateSize
  hSize := o.hSize
  batchSize := batch
  learningRate := lr
  loss := o.loss
  optimizer := opt
  quantile := o.quantile
  trainQuantile := o.trainQuantile
  weight := o.weight
  metric := o.metric
  initSeason := o.initSeason
  initSmooth := o.initSmooth
  gmfeature := o.gmfeature
  inputWindow := o.inputWindow
  fcstWindow := o.fcstWindow
  validSteps := o.validSteps
  minTrainNum := o.minTrainNum
  minTrainLen := o.minTrainLen
  seasonality := o.seasonality
  epochNum := o.epochNum
  epochSize := o.epochSize
  softMax := o.softMax
  warmUp := o.warmUp
  fcstSteps := o.fcstSteps
  maxStepDelta := o.maxStepDelta
  jit := o.jit
  gmname := o.gmname

/-- `to_string` (1510-1517). -/
def gmToString (o : GmObj (Option GmNum)) : Except Err (GmObj GmTextKey) := do
  let batch ← gmKeys gmTextKey o.batchSize
  let lr ← gmKeys gmTextKey o.learningRate
  let opt ← gmTextOpt o.optimizer
  return o.withDicts batch lr opt

/-- `gmparam_from_string` (1556-1580). -/
def gmFromString (td : String → Option Int) (t : GmObj GmTextKey) : Except Err (GmObj (Option GmNum)) := do
  let batch ← gmKeys gmReadKey t.batchSize
  let lr ← gmKeys gmReadKey t.learningRate
  gmInit td (gmArgsOf (t.withDicts batch lr t.optimizer))

/-- `==` of lists of numbers. -/
def gmListEq (a b : List GmNum) : Bool := decide (a.length = b.length) && (List.zipWith gmNumEq a b).all id

/-- `==` of parameters of the optimizer. -/
def gmPyEq : GmPy → GmPy → Bool
  | .num x, .num y => gmNumEq x y
  | .str x, .str y => decide (x = y)
  | .list x, .list y => gmListEq x y
  | .tuple x, .tuple y => gmListEq x y
  | .obj x, .obj y => decide (x = y)
  | _, _ => false

/-- `==` of dictionaries. -/
def gmDictEq {κ ν : Type} (keyEq : κ → κ → Bool) (valEq : ν → ν → Bool) (a b : List (κ × ν)) : Bool :=
  decide (a.length = b.length) && a.all fun e => b.any fun f => keyEq e.1 f.1 && valEq e.2 f.2

/-- `==` of two values that may be missing. -/
def gmOptionEq {α : Type} (eq : α → α → Bool) : Option α → Option α → Bool
  | none, none => true
  | some a, some b => eq a b
  | _, _ => false

/-- `__eq__` (1520-1526) of two objects; that a NaN in a list equals itself if it is the same object is
left out. -/
def gmEq (a b : GmObj (Option GmNum)) : Bool :=
  decide (a.freq = b.freq) && decide (a.modelType = b.modelType) && gmNumEq a.uplift b.uplift &&
  decide (a.nn = b.nn) && decide (a.decoder = b.decoder) && decide (a.cellName = b.cellName) &&
  gmNumEq a.stateSize b.stateSize && gmOptionEq gmNumEq a.hSize b.hSize &&
  gmDictEq (gmOptionEq gmNumEq) gmNumEq a.batchSize b.batchSize &&
  gmDictEq (gmOptionEq gmNumEq) gmNumEq a.learningRate b.learningRate && decide (a.loss = b.loss) &&
  gmOptionEq gmPyEq a.optimizer.name b.optimizer.name &&
  gmOptionEq (gmDictEq (fun s t => decide (s = t)) gmPyEq) a.optimizer.params b.optimizer.params &&
  gmListEq a.quantile b.quantile && gmListEq a.trainQuantile b.trainQuantile && gmListEq a.weight b.weight &&
  decide (a.metric = b.metric) && gmListEq a.initSeason b.initSeason && gmListEq a.initSmooth b.initSmooth &&
  gmOptionEq gmFeatureEq a.gmfeature b.gmfeature && gmNumEq a.inputWindow b.inputWindow &&
  gmNumEq a.fcstWindow b.fcstWindow && gmNumEq a.validSteps b.validSteps &&
  gmNumEq a.minTrainNum b.minTrainNum && gmNumEq a.minTrainLen b.minTrainLen &&
  gmNumEq a.seasonality b.seasonality && gmNumEq a.epochNum b.epochNum && gmNumEq a.epochSize b.epochSize &&
  gmNumEq a.softMax b.softMax && gmNumEq a.warmUp b.warmUp && gmNumEq a.fcstSteps b.fcstSteps &&
  decide (a.maxStepDelta = b.maxStepDelta) && decide (a.jit = b.jit) && decide (a.gmname = b.gmname)

/-- The sizes of the network of `build_rnn` (`model.py` 135-160): input and output. -/
def gmSizes (o : GmObj (Option GmNum)) : Int × Int :=
  let feature := match o.gmfeature with | none => 0 | some l => gmFeatureSize l o.inputWindow.toInt.toNat
  let i := o.inputWindow.toInt + feature + 2
  let w := o.fcstWindow.toInt * o.quantile.length + 1
  if 1 < o.seasonality.toInt then (i + 2 * o.seasonality.toInt, w + 1) else (i, w)

end Kats
