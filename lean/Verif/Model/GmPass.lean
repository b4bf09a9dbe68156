import Verif.Model.Py
import Mathlib.Algebra.Field.Defs

/-!
# `kats/models/globalmodel/model.py`

A pass of `GMModel` over a batch: `_process`, `_single_pass_rnn`, `_calculate` and the order of the steps of
`_single_pass_s2s`.  A tensor of one row for each series is a list of rows, and what is done to every row is a
function of one row.  Numbers are exact; `log`, `exp` and the sigmoid, the networks, the features and the
losses are parameters.  A network has a state and gives one row for each row.  The first value of a row
is not missing (`GMBatch` fills it); that it is, and a mismatch of sizes, is `otherError` here.
Gradients, types of numbers and the checks of `_valid_tensor` are left out, and so is `fcst_fill`, which
is always false.
-/

namespace Kats

/-! ## The order of the steps -/

/-- `step_delta` (718-727): `less` is what is taken from the number of steps, `validation_step_num` for the
RNN and 0 for the encoder and decoder (1087-1095). -/
def gmDelta (maxDelta : Int) (total : Nat) (less softMax : Int) : Nat :=
  (max 1 (min maxDelta (((total : Int) - less) / softMax))).toNat

/-- The values of `cur_step` in `_single_pass_rnn` (735-743, 828-834), from one on, with at most `fuel` turns. -/
def gmRnnSteps (total : Nat) (last : Int) : Nat → Nat → Nat → List Nat
  | 0, _, _ => []
  | fuel + 1, cur, delta =>
    if cur < total then
      cur :: (if last ≤ (cur : Int) + delta ∧ (cur : Int) < last then gmRnnSteps total last fuel last.toNat 1
        else gmRnnSteps total last fuel (cur + delta) delta)
    else []

/-- `first_valid_idx` (730-734, 1097-1101). -/
def gmFirstValid (train valid : List Nat) : Except Err Nat :=
  match valid with
  | v :: _ => .ok v
  | [] =>
    match train.getLast? with
    | some t => .ok (t + 1)
    | none => .error .indexError

/-- The values of `cur_step` in `_single_pass_s2s` (1103-1110, 1201-1208). -/
def gmS2sSteps (train valid : List Nat) (first : Nat) : Nat → Nat → Nat → List Nat
  | 0, _, _ => []
  | fuel + 1, cur, delta =>
    if cur < (train ++ valid).length then
      cur :: (if first ≤ (train ++ valid).getD cur 0 then []
        else if train.length < cur + delta then gmS2sSteps train valid first fuel train.length delta
        else gmS2sSteps train valid first fuel (cur + delta) delta)
    else []

/-! ## One row -/

/-- The lists `x_lt`, `levels` and `seasonality` of one row. -/
structure GmTrack (K : Type) where
  xs : List K
  levels : List K
  seasons : List K
deriving DecidableEq

section
variable {K : Type} [Field K]

/-- The seasonality before the first step (708-716). -/
def gmSeasons (period : Nat) (init : List K) : List K :=
  if 1 < period then (List.range period).map (init.getD · 0) ++ [init.getD 0 0] else [1]

/-- The first value (288-294). -/
def gmStart (period : Nat) (x : List (Option K)) (t : GmTrack K) : Except Err (GmTrack K) :=
  match x.head?, t.seasons.head? with
  | some (some v), some s =>
    .ok { t with levels := t.levels ++ [if period ≤ 1 then v else v / s], xs := t.xs ++ [v] }
  | _, _ => .error .otherError

/-- The turn of the loop (296-326) for the value at `idx`. -/
def gmAdvance (period : Nat) (x : List (Option K)) (ls ss : K) (t : GmTrack K) (idx : Nat) :
    Except Err (GmTrack K) :=
  match x[idx]?, t.levels[idx - 1]? with
  | some v, some l =>
    if period = 1 then
      let new := v.getD l
      .ok { t with xs := t.xs ++ [new], levels := t.levels ++ [ls * new + (1 - ls) * l] }
    else
      match t.seasons[idx]? with
      | some s =>
        let new := v.getD (l * s)
        let level := ls * new / s + (1 - ls) * l
        .ok ⟨t.xs ++ [new], t.levels ++ [level], t.seasons ++ [ss * new / level + (1 - ss) * s]⟩
      | none => .error .otherError
  | _, _ => .error .otherError

/-- The first part of `_process` (287-326). -/
def gmTrack (period : Nat) (x : List (Option K)) (ls ss : K) (t : GmTrack K) (prev cur : Nat) :
    Except Err (GmTrack K) :=
  if prev = 0 then do
    let t1 ← gmStart period x t
    (List.range' 1 (cur - 1)).foldlM (gmAdvance period x ls ss) t1
  else (List.range' prev (cur - prev)).foldlM (gmAdvance period x ls ss) t

/-- What `_process` gives besides the lists. -/
structure GmView (K : Type) where
  x : List K
  anchor : K
  next : List K
  diff : List K
  fcst : List K
deriving DecidableEq

/-- `torch.cat(l)`: an error for an empty list. -/
def gmJoin (l : List K) : Except Err (List K) := if l.isEmpty then .error .otherError else .ok l

/-- The level at the last value (328). -/
def gmAnchor (t : GmTrack K) (cur : Nat) : Except Err K :=
  match t.levels[cur - 1]? with
  | some l => .ok l
  | none => .error .otherError

/-- The second part of `_process` (327-351). -/
def gmView (period iw fw : Nat) (t : GmTrack K) (cur : Nat) : Except Err (GmView K) := do
  let anchor ← gmAnchor t cur
  let xi ← gmJoin (pySlice t.xs ((cur : Int) - iw) cur)
  if 1 < period then do
    let season ← gmJoin (pySlice t.seasons ((cur : Int) - iw) cur)
    let next ← gmJoin (pySlice t.seasons cur ((cur : Int) + period))
    let prev ← gmJoin (pySlice t.seasons ((cur : Int) - period) cur)
    return ⟨List.zipWith (fun x s => x / anchor / s) xi season, anchor, next, List.zipWith (· - ·) next prev,
      ((List.replicate (fw / period + 1) next).flatten).take fw⟩
  else return ⟨xi.map (· / anchor), anchor, [1], [1], [1]⟩

/-- `_process` (264-361). -/
def gmProcess (period iw fw : Nat) (x : List (Option K)) (ls ss : K) (t : GmTrack K) (prev cur : Nat) :
    Except Err (GmTrack K × GmView K) := do
  let t1 ← gmTrack period x ls ss t prev cur
  let v ← gmView period iw fw t1 cur
  return (t1, v)

/-! ## The RNN -/

/-- What a pass needs besides the batch. -/
structure GmEnv (K σ : Type) where
  log : K → K
  exp : K → K
  sigmoid : K → K
  net : σ → List (List K) → σ × List (List K)
  features : Option (Nat → Nat → List (List K))
  period : Nat
  iw : Nat
  fw : Nat
  quantiles : Nat

/-- The state of the loop of `_single_pass_rnn`. -/
structure GmLoop (K σ : Type) where
  tracks : List (GmTrack K)
  ls : List K
  ss : List K
  net : σ
  prev : Nat

variable {σ : Type}

/-- The input of the network for one row (746-753, 782-793). -/
def gmInput (E : GmEnv K σ) (step prev cur row : Nat) (v : GmView K) : List K :=
  v.x.map E.log ++ (match E.features with | some f => (f (cur - E.iw) cur).getD row [] | none => []) ++
    [E.log ((cur : K) - (prev : K)) / 2, E.log ((step : K) + 1)] ++
    (if 1 < E.period then v.next.map (· - 1) ++ v.diff else [])

/-- `fcst_col_idx` (740). -/
def gmCol (E : GmEnv K σ) : Nat := if 1 < E.period then 2 else 1

/-- The forecast of one row on the scale of logarithms (803-807). -/
def gmLogFcst (E : GmEnv K σ) (out : List K) (v : GmView K) : Except Err (List K) :=
  let f := (out.drop (gmCol E)).map (· + E.log v.anchor)
  if 1 < E.period then
    let s := (List.replicate E.quantiles (v.fcst.map E.log)).flatten
    if f.length = s.length then .ok (List.zipWith (· + ·) f s) else .error .otherError
  else .ok f

/-- `_process` for one row of the batch (757-780). -/
def gmRowProc (E : GmEnv K σ) (x : List (List (Option K))) (st : GmLoop K σ) (cur i : Nat) :
    Except Err (GmTrack K × GmView K) :=
  match st.tracks[i]? with
  | some t => gmProcess E.period E.iw E.fw (x.getD i []) (st.ls.getD i 0) (st.ss.getD i 0) t st.prev cur
  | none => .error .otherError

/-- The forecast of one row from the output of the network (797-807). -/
def gmRowFcst (E : GmEnv K σ) (out : List (List K)) (ps : List (GmTrack K × GmView K)) (i : Nat) :
    Except Err (List K) :=
  match out[i]?, ps[i]? with
  | some o, some p => gmLogFcst E o p.2
  | _, _ => .error .otherError

/-- The turn of the loop (744-807): the new state and the forecasts on the scale of logarithms. -/
def gmTurn (E : GmEnv K σ) (x : List (List (Option K))) (st : GmLoop K σ) (step cur : Nat) :
    Except Err (GmLoop K σ × List (List K)) := do
  let ps ← (List.range x.length).mapM (gmRowProc E x st cur)
  let input := ps.mapIdx fun i p => gmInput E step st.prev cur i p.2
  let out := E.net st.net input
  let fcst ← (List.range x.length).mapM (gmRowFcst E out.2 ps)
  return ({ tracks := ps.map (·.1)
            ls := out.2.map fun o => E.sigmoid (o.getD 0 0)
            ss := if 1 < E.period then out.2.map fun o => E.sigmoid (o.getD 1 0) else st.ss
            net := out.1
            prev := cur }, fcst)

/-- The loop over given steps, each with its index. -/
def gmTurns (E : GmEnv K σ) (x : List (List (Option K))) :
    List (Nat × Nat) → GmLoop K σ → Except Err (List (Nat × List (List K)))
  | [], _ => .ok []
  | s :: r, st => do
    let a ← gmTurn E x st s.1 s.2
    let b ← gmTurns E x r a.1
    return (s.2, a.2) :: b

/-- The batch: rows with missing values, offsets, first seasonality, indices. -/
structure GmBatchIn (K : Type) where
  x : List (List (Option K))
  offset : List K
  season : List (List K)
  train : List Nat
  valid : List Nat

/-- The state before the loop (700-716, 738). -/
def gmLoopInit (E : GmEnv K σ) (b : GmBatchIn K) (net : σ) (smooth : List K) : Except Err (GmLoop K σ) :=
  match smooth with
  | l :: s :: _ =>
    .ok ⟨(List.range b.x.length).map fun i => ⟨[], [], gmSeasons E.period (b.season.getD i [])⟩,
      b.x.map fun _ => l, b.x.map fun _ => s, net, 0⟩
  | _ => .error .indexError

/-! ## Losses and forecasts -/

/-- What a pass collects. -/
structure GmPassRes (K V : Type) where
  trainLoss : List K
  validRes : List V
  fcst : List (List (List K))
  actual : List (List (List (Option K)))

/-- The losses. -/
structure GmJudge (K V : Type) where
  loss : List (List K) → List (List (Option K)) → K
  valid : List (List K) → List (List (Option K)) → V

variable {V : Type}

/-- `batch.x[:, i:i + fw]`. -/
def gmActual (x : List (List (Option K))) (i fw : Nat) : List (List (Option K)) :=
  x.map fun r => (r.drop i).take fw

/-- The forecasts on their own scale (1243-1245). -/
def gmRestore (E : GmEnv K σ) (b : GmBatchIn K) (f : List (List K)) : List (List K) :=
  f.mapIdx fun i r => r.map fun v => E.exp v - b.offset.getD i 0

/-- `_calculate` (1211-1259) with the condition before it in `_single_pass_rnn` (809). -/
def gmCalc (E : GmEnv K σ) (J : GmJudge K V) (b : GmBatchIn K) (training monitor : Bool) (first : Nat)
    (acc : GmPassRes K V) (s : Nat × List (List K)) : GmPassRes K V :=
  if first ≤ s.1 then
    let f := gmRestore E b s.2
    if training then
      let a := (gmActual b.x s.1 E.fw).mapIdx fun i r => r.map fun v => v.map (· - b.offset.getD i 0)
      { acc with
        validRes := acc.validRes ++ [J.valid f a]
        fcst := if monitor then acc.fcst ++ [f] else acc.fcst
        actual := if monitor then acc.actual ++ [a] else acc.actual }
    else { acc with fcst := acc.fcst ++ [f] }
  else if training then
    { acc with trainLoss := acc.trainLoss ++
        [J.loss s.2 ((gmActual b.x s.1 E.fw).map fun r => r.map fun v => v.map E.log)] }
  else acc

/-- `_single_pass_rnn` (676-837). -/
def gmPassRnn (E : GmEnv K σ) (J : GmJudge K V) (b : GmBatchIn K) (net : σ) (smooth : List K)
    (maxDelta validSteps softMax : Int) (training monitor : Bool) : Except Err (GmPassRes K V) := do
  let st ← gmLoopInit E b net smooth
  let ix := b.train ++ b.valid
  let first ← gmFirstValid b.train b.valid
  let steps := gmRnnSteps ix.length ((b.train.length : Int) - 1) ix.length 0
    (gmDelta maxDelta ix.length validSteps softMax)
  let res ← gmTurns E b.x (steps.map fun s => (s, ix.getD s 0)) st
  return res.foldl (gmCalc E J b training monitor first) ⟨[], [], [], []⟩

end

end Kats
