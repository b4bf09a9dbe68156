import Verif.Model.GmPass
import Mathlib.Order.Defs.LinearOrder
import Mathlib.Data.List.Sort

/-!
# `kats/models/globalmodel/model.py`

A pass of the encoder and decoder over a batch: `_process_s2s`, `_single_pass_s2s`, and `_calculate` as it is
called from there.  As in the model of the recurrent network, a tensor of one row for each series is a list of
rows, numbers are exact, and `log`, `exp`, the networks, the features and the losses are parameters.  The
decoder takes its state from the encoder (`prepare_decoder`).  That a value before the first is needed, and
an empty `torch.cat`, is `otherError` here.  Gradients, types of numbers and the checks of `_valid_tensor`
are left out.
-/

namespace Kats

section
variable {K : Type} [Field K] [LinearOrder K]

/-- The turn of the loop (1036-1044) for the value at `idx` of one row. -/
def gmS2sAdvance (period : Nat) (x : List (Option K)) (xs : List K) (idx : Nat) : Except Err (List K) :=
  match x[idx]? with
  | some (some v) => .ok (xs ++ [v])
  | some none =>
    match xs[idx - period]? with
    | some v => .ok (xs ++ [v])
    | none => .error .otherError
  | none => .error .otherError

/-- `torch.median`: the lower of the middle values. -/
def gmMedian (l : List K) : Except Err K :=
  match (l.insertionSort (· ≤ ·))[(l.length - 1) / 2]? with
  | some v => .ok v
  | none => .error .otherError

/-- The list of values of one row (1036-1044). -/
def gmS2sTrack (period : Nat) (x : List (Option K)) (xs : List K) (prev cur : Nat) : Except Err (List K) :=
  (List.range' prev (cur - prev)).foldlM (gmS2sAdvance period x) xs

/-- `_process_s2s` (1023-1055) for one row: the values, the input and the anchor. -/
def gmS2sProcess (period iw : Nat) (x : List (Option K)) (xs : List K) (prev cur : Nat) :
    Except Err (List K × List K × K) := do
  let xs1 ← gmS2sTrack period x xs prev cur
  let xi ← gmJoin (pySlice xs1 ((cur : Int) - iw) cur)
  let anchor ← gmMedian (xi.drop (xi.length - period))
  return (xs1, xi.map (· / anchor), anchor)

/-- What a pass needs besides the batch. -/
structure GmS2sEnv (K σ τ : Type) where
  log : K → K
  exp : K → K
  enc : σ → List (List K) → σ × List (List K)
  prep : σ → τ
  dec : τ → List (List K) → τ × List (List K)
  features : Option (Nat → Nat → List (List K))
  period : Nat
  iw : Nat
  fw : Nat

variable {σ τ V : Type}

/-- The input of the encoder for one row (1115-1122, 1132-1140). -/
def gmEncIn (E : GmS2sEnv K σ τ) (step prev cur row : Nat) (x : List K) : List K :=
  x.map E.log ++ (match E.features with | some f => (f (cur - E.iw) cur).getD row [] | none => []) ++
    [E.log ((cur : K) - (prev : K)) / 2, E.log ((step : K) + 1)]

/-- The input of the decoder for one row (1158-1172). -/
def gmDecIn (E : GmS2sEnv K σ τ) (k idx row : Nat) (code : List K) : List K :=
  code ++ (match E.features with | some f => (f idx (idx + E.fw)).getD row [] | none => []) ++
    [E.log ((k : K) + 1)]

/-- The loop of the decoder (1157-1174) from the step `k` on: the index and the forecasts on the scale of
logarithms for each window. -/
def gmDecode (E : GmS2sEnv K σ τ) (code : List (List K)) (anchors : List K) (cur : Nat) :
    Nat → Nat → τ → List (Nat × List (List K))
  | 0, _, _ => []
  | n + 1, k, s =>
    let idx := cur + k * E.fw
    let out := E.dec s (code.mapIdx fun i c => gmDecIn E k idx i c)
    (idx, List.zipWith (fun o a => o.map (· + E.log a)) out.2 anchors) ::
      gmDecode E code anchors cur n (k + 1) out.1

/-- The state of the loop. -/
structure GmS2sLoop (K σ : Type) where
  rows : List (List K)
  enc : σ
  prev : Nat

/-- `_process_s2s` for one row of the batch (1124-1130). -/
def gmS2sRow (E : GmS2sEnv K σ τ) (x : List (List (Option K))) (st : GmS2sLoop K σ) (cur i : Nat) :
    Except Err (List K × List K × K) :=
  match st.rows[i]? with
  | some xs => gmS2sProcess E.period E.iw (x.getD i []) xs st.prev cur
  | none => .error .otherError

/-- The turn of the loop (1109-1174): the new state and the forecasts of `n` windows. -/
def gmS2sTurn (E : GmS2sEnv K σ τ) (x : List (List (Option K))) (st : GmS2sLoop K σ) (step cur n : Nat) :
    Except Err (GmS2sLoop K σ × List (Nat × List (List K))) := do
  let ps ← (List.range x.length).mapM (gmS2sRow E x st cur)
  let out := E.enc st.enc (ps.mapIdx fun i p => gmEncIn E step st.prev cur i p.2.1)
  return (⟨ps.map (·.1), out.1, cur⟩, gmDecode E out.2 (ps.map (·.2.2)) cur n 0 (E.prep out.1))

/-- The loop over given steps, each with its index and the number of its windows. -/
def gmS2sTurns (E : GmS2sEnv K σ τ) (x : List (List (Option K))) :
    List (Nat × Nat × Nat) → GmS2sLoop K σ → Except Err (List (Nat × List (Nat × List (List K))))
  | [], _ => .ok []
  | s :: r, st => do
    let a ← gmS2sTurn E x st s.1 s.2.1 s.2.2
    let b ← gmS2sTurns E x r a.1
    return (s.2.1, a.2) :: b

/-- The forecasts on their own scale (1243-1245). -/
def gmS2sRestore (E : GmS2sEnv K σ τ) (b : GmBatchIn K) (f : List (List K)) : List (List K) :=
  f.mapIdx fun i r => r.map fun v => E.exp v - b.offset.getD i 0

/-- What one step adds (1176-1199, `_calculate` 1237-1259): in training the mean loss of its windows, in
validation a result or a forecast for each of them. -/
def gmS2sCalc (E : GmS2sEnv K σ τ) (J : GmJudge K V) (b : GmBatchIn K) (training monitor : Bool) (first : Nat)
    (acc : GmPassRes K V) (s : Nat × List (Nat × List (List K))) : GmPassRes K V :=
  if first ≤ s.1 then
    let fs := s.2.map fun w => gmS2sRestore E b w.2
    if training then
      let as := s.2.map fun w =>
        (gmActual b.x w.1 E.fw).mapIdx fun i r => r.map fun v => v.map (· - b.offset.getD i 0)
      { acc with
        validRes := acc.validRes ++ List.zipWith J.valid fs as
        fcst := if monitor then acc.fcst ++ fs else acc.fcst
        actual := if monitor then acc.actual ++ as else acc.actual }
    else { acc with fcst := acc.fcst ++ fs }
  else if training then
    { acc with trainLoss := acc.trainLoss ++
        [(s.2.map fun w => J.loss w.2 ((gmActual b.x w.1 E.fw).map fun r => r.map fun v => v.map E.log)).sum
          / (s.2.length : K)] }
  else acc

/-- The number of windows of a step (1149-1156). -/
def gmS2sWindows (training : Bool) (first trainEnc testEnc cur : Nat) : Nat :=
  if first ≤ cur then testEnc else if training then trainEnc else 0

/-- `_single_pass_s2s` (1058-1209). -/
def gmPassS2s (E : GmS2sEnv K σ τ) (J : GmJudge K V) (b : GmBatchIn K) (trainEnc testEnc : Nat) (enc : σ)
    (maxDelta softMax : Int) (training monitor : Bool) : Except Err (GmPassRes K V) := do
  let ix := b.train ++ b.valid
  let first ← gmFirstValid b.train b.valid
  let steps := gmS2sSteps b.train b.valid first (b.train.length + 1) 0 (gmDelta maxDelta ix.length 0 softMax)
  let res ← gmS2sTurns E b.x (steps.map fun s =>
    (s, ix.getD s 0, gmS2sWindows training first trainEnc testEnc (ix.getD s 0))) ⟨b.x.map fun _ => [], enc, 0⟩
  return res.foldl (gmS2sCalc E J b training monitor first) ⟨[], [], [], []⟩

end

end Kats
