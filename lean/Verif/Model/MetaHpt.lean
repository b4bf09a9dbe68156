import Verif.Model.MetaSelect
import Verif.Model.GmNet
import Verif.Model.TsStats

/-!
# `kats/models/metalearner/metalearner_hpt.py`

`MetaLearnHPT` and `MultitaskNet`, without plots and files.  Features, weights and losses are exact; `np.std`, the random
orders and weights, the steps of the optimizer, the cross entropy of one row, the order of the categories and the
features of a series are parameters.  The names of the categorical parameters are different.  Rows of one feature are
refused where numpy would repeat them for the scaling; that the frame of the caller is filled with zeros is left out.
-/

namespace Kats

section
variable {V K : Type} [DecidableEq V] [Field K] [LinearOrder K]

/-! ## The settings -/

/-- `DefaultModelParams` (65-98): the categorical and the numerical parameters. -/
def hpDefaults : List (String × List String × List String) :=
  [("holtwinters", ["trend", "damped", "seasonal", "seasonal_periods"], []),
   ("arima", ["p", "d", "q"], []),
   ("sarima", ["seasonal_order", "trend", "p", "d", "q"], []),
   ("theta", ["m"], []),
   ("stlf", ["method", "m"], []),
   ("prophet", ["yearly_seasonality", "weekly_seasonality", "daily_seasonality", "seasonality_mode",
      "seasonality_prior_scale", "changepoint_prior_scale", "changepoint_range"], []),
   ("cusum", ["score_func"], ["delta_std_ratio", "scan_window", "historical_window"]),
   ("statsig", [], ["n_control", "n_test"])]

/-- `DefaultModelNetworks` (128-152): the sizes of the hidden layers. -/
def hpNetworks : List (String × List Nat × List (List Nat) × List Nat) :=
  [("holtwinters", [20], [[2], [3], [5], [3]], []),
   ("arima", [40], [[5], [5], [5]], []),
   ("sarima", [40], [[5], [5], [5], [5], [5]], []),
   ("theta", [40], [[5]], []),
   ("stlf", [20], [[5], [5]], []),
   ("prophet", [40], [[5], [5], [2], [3], [5], [5], [5]], []),
   ("cusum", [20], [[3]], [5, 5, 5]),
   ("statsig", [20], [], [5, 5])]

/-! ## `__init__` -/

/-- The attributes of the data: the features, the names, for each categorical parameter the classes and the codes
(`none` is −1), the columns of the numerical parameters. -/
structure Hp (V K : Type) where
  x : List (List K)
  dim : Nat
  cat : List String
  num : Option (List String)
  classes : List (List V)
  codes : List (List (Option Nat))
  nCat : List Nat
  target : List (List (Option V))
  default : Option String
  scale : Option (List K × List K)

/-- The arguments of `__init__` (190-201): the names of the features and their rows, the columns of the parameters. -/
structure HpArgs (V K : Type) where
  dataX : Option (List String × List (List (Option K)))
  dataY : Option (List (String × List (Option V)))
  cat : Option (List String)
  num : Option (List String)
  default : Option String
  scale : Bool
  load : Bool

/-- The names of the parameters (229-245). -/
def hpNames (cat num : Option (List String)) (default : Option String) : Except Err (Option (List String) × Option (List String)) :=
  match default with
  | none => .ok (cat, num)
  | some d =>
    if cat.isSome ∨ num.isSome then .error .valueError
    else match hpDefaults.lookup d with
      | some p => .ok (some p.1, some p.2)
      | none => .error .valueError

/-- The different values of a column. -/
def hpDistinct (l : List (Option V)) : List V := (l.filterMap id).dedup

/-- `_validate_data` (313-331). -/
def hpValidate (cat num : Option (List String)) (nCat : List Nat) (dim rows : Nat) : Except Err (List String) :=
  if (cat.getD []).length + (num.getD []).length ≠ dim then .error .valueError
  else match cat with
    | none => .error .typeError
    | some c =>
      if nCat.any fun k => decide (k = 1) then .error .valueError
      else if rows ≤ 30 then .error .valueError
      else .ok c

/-- `__init__` (190-280) with `_get_target_cat` (282-302); `sort` puts the categories in order; `none` is an object
without attributes. -/
def hpInit (sort : List V → List V) (std : List K → K) (a : HpArgs V K) : Except Err (Option (Hp V K)) :=
  if a.load then .ok none
  else match a.dataX, a.dataY with
    | some fx, some fy => do
      let x := fx.2.map fun r => r.map fun v => v.getD 0
      let default := a.default.map String.toLower
      let names ← hpNames a.cat a.num default
      if (names.2.getD []).isEmpty ∧ (names.1.getD []).isEmpty then .error .valueError
      else do
        let target ← (names.2.getD []).mapM fun c => needKey (fy.lookup c)
        let cols ← (names.1.getD []).mapM fun c => needKey (fy.lookup c)
        let classes := cols.map fun l => sort (hpDistinct l)
        let nCat := cols.map fun l => (hpDistinct l).length
        let cat ← hpValidate names.1 names.2 nCat fy.length x.length
        let mean := msMean fx.1.length x
        let dev := msStd std fx.1.length x
        return some
          { x := if a.scale then x.map fun r => List.zipWith (fun a b => a / b) (List.zipWith (fun a b => a - b) r mean) dev else x
            dim := fx.1.length
            cat := cat
            num := names.2
            classes := classes
            codes := List.zipWith (fun l c => l.map fun v => v.bind fun v => c.idxOf? v) cols classes
            nCat := nCat
            target := target
            default := default
            scale := if a.scale then some (mean, dev) else none }
    | _, _ => .error .valueError

/-! ## The network -/

/-- A linear layer: a row of weights and a bias for each output. -/
abbrev HpLayer (K : Type) := List (List K × K)

/-- The layers of `MultitaskNet`. -/
structure HpNet (K : Type) where
  shared : List (HpLayer K)
  cats : List (List (HpLayer K))
  nums : List (HpLayer K)

/-- `nn.functional.relu`. -/
def hpRelu (x : List K) : List K := x.map fun v => max v 0

/-- Layers with the sizes given, the input first (865-870, 876-879, 883-886); `init` has the random weights for a
place, the number of inputs and the number of outputs. -/
def hpLayers (init : List Nat → Nat → Nat → HpLayer K) (place : List Nat) (input : Nat) (sizes : List Nat) : List (HpLayer K) :=
  (((input :: sizes).zip sizes).zipIdx).map fun e => init (place ++ [e.2]) e.1.1 e.1.2

/-- `MultitaskNet.__init__` (857-886): the input with the shared layers, the layers of each categorical parameter and
those of the numerical ones. -/
def hpNet (init : List Nat → Nat → Nat → HpLayer K) (input : Nat) (shared : List Nat) (cats : List (List Nat)) (nums : List Nat) : HpNet K :=
  let last := shared.getLast?.getD input
  { shared := hpLayers init [0] input shared
    cats := cats.mapIdx fun j l => hpLayers init [1, j] last l
    nums := hpLayers init [2] last nums }

/-- The layers of one task (905-912, 918-922): no activation after the last. -/
def hpHead (layers : List (HpLayer K)) (x : List K) : Except Err (List K) :=
  match layers with
  | [] => .error .indexError
  | l :: ls => do
    let y ← gmLinear l x
    ls.foldlM (fun y l => gmLinear l (hpRelu y)) y

/-- `forward` (890-924) for one row. -/
def hpForward (net : HpNet K) (x : List K) : Except Err (Option (List (List K)) × Option (List K)) := do
  let x ← net.shared.foldlM (fun x l => do let y ← gmLinear l x; return hpRelu y) x
  let cats ← net.cats.mapM fun l => hpHead l x
  if net.nums.isEmpty then return (if net.cats.isEmpty then none else some cats, none)
  else do
    let nums ← hpHead net.nums x
    return (if net.cats.isEmpty then none else some cats, some nums)

/-- The sizes of the hidden layers (384-419). -/
def hpSizes (default : Option String) (shared : Option (List Nat)) (cats : Option (List (List Nat))) (nums : Option (List Nat)) :
    Except Err (List Nat × List (List Nat) × List Nat) :=
  match default with
  | some d =>
    if shared.isSome ∨ cats.isSome ∨ nums.isSome then .error .valueError
    else match hpNetworks.lookup d with
      | some p => .ok p
      | none => .error .valueError
  | none => match shared, cats, nums with
    | some s, some c, some n => .ok (s, c, n)
    | _, _, _ => .error .valueError

/-- `build_network` (355-442) with `_get_hidden_and_output_cat_combo` (334-344) and `_get_hidden_and_output_num`
(347-353). -/
def hpBuild (init : List Nat → Nat → Nat → HpLayer K) (s : Hp V K) (shared : Option (List Nat)) (cats : Option (List (List Nat)))
    (nums : Option (List Nat)) : Except Err (HpNet K) := do
  let z ← hpSizes s.default shared cats nums
  if z.2.1.length ≠ s.nCat.length then .error .valueError
  else
    return hpNet init s.dim z.1 (List.zipWith (fun l o => l ++ [o]) z.2.1 s.nCat)
      (if s.target.length = 0 then [] else z.2.2 ++ [s.target.length])

/-! ## `train` -/

/-- A row of the tensors of `_prepare_data` (444-492). -/
structure HpRow (K : Type) where
  x : List K
  cat : List (Option Nat)
  num : List K

/-- The row with a number; `num` is `astype("float")`. -/
def hpRow (num : Option V → Except Err K) (s : Hp V K) (i : Nat) : Except Err (HpRow K) := do
  let x ← match s.x[i]? with | some r => Except.ok r | none => .error .indexError
  let cat ← s.codes.mapM fun c => match c[i]? with | some v => Except.ok v | none => .error .indexError
  let nums ← s.target.mapM fun c => match c[i]? with | some v => num v | none => .error .indexError
  return ⟨x, cat, nums⟩

/-- The cross entropies of the categorical parameters for one row; a code that is no class is refused. -/
def hpCatRow (ce : List K → Nat → K) (o : List (List K)) (t : List (Option Nat)) : Except Err (List K) :=
  (o.zip t).mapM fun e => match e.2 with
    | some k => if k < e.1.length then .ok (ce e.1 k) else .error .indexError
    | none => .error .indexError

/-- `_loss_function` (494-519) of the outputs for some rows: the mean cross entropy of each parameter, added, and the
mean squared error. -/
def hpLoss (ce : List K → Nat → K) (net : HpNet K) (rows : List (HpRow K)) : Except Err (K × K) := do
  let out ← rows.mapM fun r => hpForward net r.x
  let c ← (out.zip rows).mapM fun e => hpCatRow ce (e.1.1.getD []) e.2.cat
  let q := (out.zip rows).flatMap fun e => List.zipWith (fun a b => (a - b) * (a - b)) (e.1.2.getD []) e.2.num
  return (((List.range net.cats.length).map fun j => gmEnsMean (c.map fun r => r.getD j 0)).sum,
    if net.nums.isEmpty then 0 else gmEnsMean q)

/-- The arguments of `train` (521-531); `stop` is none for infinity. -/
structure HpTrain (K : Type) where
  lossScale : K
  epochs : Nat
  batch : Int
  method : String
  valSize : Rat
  stop : Option Rat

/-- `range(0, n, batch_size)` and the rows of each batch (585-586). -/
def hpBatches (n : Nat) (batch : Int) (perm : List Nat) : Except Err (List (List Nat)) :=
  if batch = 0 then .error .valueError
  else if batch < 0 then .ok []
  else .ok ((List.range ((n + batch.toNat - 1) / batch.toNat)).map fun i => (perm.drop (i * batch.toNat)).take batch.toNat)

/-- One epoch (583-607): the last losses are recorded.  `step` is a step of the optimizer with its state. -/
def hpEpoch {S : Type} (ce : List K → Nat → K) (step : S → HpNet K → List (HpRow K) → S × HpNet K) (train : List (HpRow K)) (batch : Int)
    (perm : List Nat) (st : S × HpNet K) : Except Err ((S × HpNet K) × K × K) := do
  let bs ← hpBatches train.length batch perm
  let r ← bs.foldlM (fun (acc : (S × HpNet K) × Option (K × K)) b => do
    let rows := b.filterMap fun i => train[i]?
    let l ← hpLoss ce acc.1.2 rows
    return (step acc.1.1 acc.1.2 rows, some l)) (st, none)
  match r.2 with
  | some l => return (r.1, l)
  | none => .error .otherError

/-- What the loop over the epochs keeps: the optimizer, the network, the losses recorded, the least loss of the
validation and the epochs since. -/
structure HpState (S K : Type) where
  opt : S
  net : HpNet K
  path : List ((K × K) × (K × K))
  best : Option K
  bad : Nat

/-- The early stopping (619-628): the state and whether to stop. -/
def hpStop (stop : Option Rat) (epoch : Nat) (v : K) (best : Option K) (bad : Nat) : (Option K × Nat) × Bool :=
  let n := if best.all fun m => decide (v < m) then (some v, 0) else (best, bad + 1)
  (n, decide (20 < epoch) && stop.any fun k => decide (k ≤ (n.2 : Rat)))

/-- The loop over the epochs (582-628). -/
def hpLoop {S : Type} (ce : List K → Nat → K) (step : S → HpNet K → List (HpRow K) → S × HpNet K) (perms : Nat → List Nat)
    (train val : List (HpRow K)) (a : HpTrain K) : Nat → Nat → HpState S K → Except Err (HpState S K)
  | 0, _, st => .ok st
  | k + 1, epoch, st => do
    let r ← hpEpoch ce step train a.batch (perms epoch) (st.opt, st.net)
    let v ← hpLoss ce r.1.2 val
    let d := hpStop a.stop epoch (v.1 + v.2 / a.lossScale) st.best st.bad
    let st := ⟨r.1.1, r.1.2, st.path ++ [(r.2, v)], d.1.1, d.1.2⟩
    if d.2 then return st else hpLoop ce step perms train val a k (epoch + 1) st

/-- An object: without attributes, or with the data, the network and the losses recorded. -/
abbrev HpObj (V K : Type) := Option (Hp V K × Option (HpNet K) × List ((K × K) × (K × K)))

/-- `self.model`. -/
def hpModel (obj : HpObj V K) : Except Err (Hp V K × HpNet K) :=
  match obj with
  | none => .error .attributeError
  | some (_, none, _) => .error .valueError
  | some (s, some n, _) => .ok (s, n)

/-- `train` (521-628); `opt` makes the optimizer for a method. -/
def hpTrain {S : Type} (num : Option V → Except Err K) (ce : List K → Nat → K) (opt : String → S)
    (step : S → HpNet K → List (HpRow K) → S × HpNet K) (perm : List Nat) (perms : Nat → List Nat) (obj : HpObj V K) (a : HpTrain K) :
    Except Err (HpObj V K) := do
  let m ← hpModel obj
  if a.method ≠ "SGD" ∧ a.method ≠ "Adam" then .error .valueError
  else if a.valSize ≤ 0 ∨ 1 ≤ a.valSize then .error .valueError
  else do
    let ix ← msSplit m.1.x.length a.valSize perm
    let train ← ix.1.mapM (hpRow num m.1)
    let val ← ix.2.mapM (hpRow num m.1)
    if (train.length : Int) ≤ a.batch then .error .valueError
    else do
      let st ← hpLoop ce step perms train val a a.epochs 0 ⟨opt a.method, m.2, (obj.map (·.2.2)).getD [], none, 0⟩
      return some (m.1, some st.net, st.path)

/-! ## `pred` and `pred_by_feature` -/

/-- `source_x`: a list of arrays, a frame with its columns, an array of some rows or something else. -/
inductive HpInput (K : Type) where
  | list (l : List (List (Option K)))
  | frame (cols : List String) (l : List (List (Option K)))
  | array (l : List (List (Option K)))
  | other

/-- The rows (703-710); arrays of different lengths cannot be stacked. -/
def HpInput.rows : HpInput K → Except Err (List (List (Option K)))
  | .list l => if l = [] ∨ ¬ (∀ r ∈ l, r.length = (l.headD []).length) then .error .valueError else .ok l
  | .frame _ l => .ok l
  | .array l => .ok l
  | .other => .error .valueError

/-- Zeros for NaN and the scaling (711-713) for one row. -/
def hpScaleRow (s : Hp V K) (r : List (Option K)) : Except Err (List K) :=
  let r := r.map fun v => v.getD 0
  match s.scale with
  | none => .ok r
  | some m =>
    if r.length = m.1.length then .ok (List.zipWith (fun a b => a / b) (List.zipWith (fun a b => a - b) r m.1) m.2)
    else .error .valueError

/-- The recommendation for one row (718-738). -/
def hpAnswer (s : Hp V K) (net : HpNet K) (x : List K) : Except Err (List (String × (V ⊕ K))) := do
  let o ← hpForward net x
  let cats ← s.cat.zipIdx.mapM fun e => do
    let y ← match (o.1.getD [])[e.2]? with | some y => Except.ok y | none => .error .indexError
    if y = [] then .error .indexError
    else do
      let c ← needKey ((s.cat.zip s.classes).lookup e.1)
      let v ← needKey c[argmaxIdx y]?
      return (e.1, (Sum.inl v : V ⊕ K))
  match s.num with
  | none => .error .typeError
  | some names => do
    let nums ← names.zipIdx.mapM fun e => match (o.2.getD [])[e.2]? with
      | some v => Except.ok (e.1, (Sum.inr v : V ⊕ K))
      | none => .error .indexError
    return gmUpdate [] (cats ++ nums)

/-- `pred_by_feature` (687-739). -/
def hpPredBy (obj : HpObj V K) (x : HpInput K) : Except Err (List (List (String × (V ⊕ K)))) := do
  let m ← hpModel obj
  let l ← x.rows
  let l ← l.mapM (hpScaleRow m.1)
  let r ← l.mapM (hpAnswer m.1 m.2)
  if m.1.num.isNone then .error .typeError else return r

/-- `pred` (630-685), the parameters; the copy of the series (647) needs the time column "time". -/
def hpPred (features : List GmFlt → List (String × Option K)) (obj : HpObj V K) (timeCol : String) (values : List GmFlt)
    (tsScale : Bool) : Except Err (List (String × (V ⊕ K))) :=
  if timeCol ≠ "time" then .error .valueError
  else do
    let _ ← hpModel obj
    let f := features (if tsScale then mdScale values else values)
    let r ← hpPredBy obj (.list [f.map (·.2)])
    match r.head? with
    | some d => return d
    | none => .error .indexError

end

end Kats
