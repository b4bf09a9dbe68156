import Verif.Model.Ensemble

/-!
# `kats/models/lstm.py`

The model of a series by a recurrent network.  The network (`LSTMForecast`, 63-105), its gradients and the optimizer
Adam are parameters; that the network keeps its hidden state from one call to the next (101) is modelled.  Numbers are
exact rationals: the rounding of `torch.FloatTensor` to 32 bits and missing values are not modelled.
-/

namespace Kats

/-- The network: `Θ` are its weights together with the state of the optimizer, `H` its hidden state.  `make` is lines
194-195 (`nn.LSTM` and `nn.Linear` reject some sizes), `adam` line 202 (Adam rejects some rates), `zero` lines 211-212
and 259-260, `forward` lines 89-105, which gives the forecast and the next hidden state; `step` is lines 217-219, the
change of the weights for the sequence, the hidden state it began with and the label. -/
structure LstmNet (Θ H : Type) where
  make : Int → Except Err Θ
  adam : Rat → Except Err Unit
  zero : Int → H
  forward : Θ → H → List Rat → Except Err (Rat × H)
  step : Θ → H → List Rat → List Rat → Θ

/-- `LSTMParams`, lines 46-50. -/
structure LstmParams where
  hidden : Int
  window : Int
  epochs : Nat

/-- `MinMaxScaler(feature_range=(-1, 1))` after `fit`: `scale_` and `min_`.  A range of zero is replaced by one. -/
structure LstmScaler where
  scale : Rat
  low : Rat
deriving DecidableEq

/-- `MinMaxScaler.fit`: no values are rejected. -/
def lstmScaler (v : List Rat) : Except Err LstmScaler :=
  match v with
  | [] => .error .valueError
  | x :: l =>
    let lo := l.foldl min x
    let hi := l.foldl max x
    let s := 2 / (if hi - lo = 0 then 1 else hi - lo)
    .ok ⟨s, -1 - lo * s⟩

/-- `MinMaxScaler.transform`. -/
def LstmScaler.transform (S : LstmScaler) (x : Rat) : Rat := x * S.scale + S.low

/-- `MinMaxScaler.inverse_transform`. -/
def LstmScaler.inverse (S : LstmScaler) (z : Rat) : Rat := (z - S.low) / S.scale

/-- The sequences and their labels, lines 166-175. -/
def lstmWindows (z : List Rat) (w : Int) : List (List Rat × List Rat) :=
  (List.range ((z.length : Int) - w).toNat).map fun i : Nat =>
    (pySlice z (i : Int) (i + w), pySlice z (i + w) (i + w + 1))

/-- An `LSTMModel`: the series and its attributes; `model` has the hidden state of its last call. -/
structure LstmModel (Θ H : Type) where
  times : List Int
  values : List Rat
  params : LstmParams
  model : Option (Θ × Option H)
  norm : Option (List Rat)
  scaler : Option LstmScaler

/-- `LSTMModel.__init__`, lines 129-137; `columns` are the columns of values. -/
def lstmInit {Θ H : Type} (times : List Int) (columns : List (List Rat)) (p : LstmParams) :
    Except Err (LstmModel Θ H) :=
  match columns with
  | [v] => .ok ⟨times, v, p, none, none, none⟩
  | _ => .error .valueError

variable {Θ H : Type}

/-- One pass over the sequences, lines 208-219: the weights after it, the hidden state, and the first error. -/
def lstmPass (N : LstmNet Θ H) (hidden : Int) : List (List Rat × List Rat) → Θ → Option H →
    (Θ × Option H) × Except Err Unit
  | [], θ, h => ((θ, h), .ok ())
  | (seq, label) :: l, θ, _ =>
    match N.forward θ (N.zero hidden) seq with
    | .error e => ((θ, some (N.zero hidden)), .error e)
    | .ok (_, h') => lstmPass N hidden l (N.step θ (N.zero hidden) seq label) (some h')

/-- The epochs from number `i` on, lines 207-222.  In every epoch `i` with `i % 25 = 1` the last loss is written to the
log: without sequences there is none (an `UnboundLocalError`). -/
def lstmEpochs (N : LstmNet Θ H) (hidden : Int) (ws : List (List Rat × List Rat)) : Nat → Nat → Θ → Option H →
    (Θ × Option H) × Except Err Unit
  | 0, _, θ, h => ((θ, h), .ok ())
  | k + 1, i, θ, h =>
    match lstmPass N hidden ws θ h with
    | (s, .error e) => (s, .error e)
    | (s, .ok ()) =>
      if i % 25 = 1 ∧ ws.isEmpty = true then (s, .error .otherError)
      else lstmEpochs N hidden ws k (i + 1) s.1 s.2

/-- `LSTMModel.fit`, lines 178-224: the object afterwards, also if an exception is raised. -/
def lstmFit (N : LstmNet Θ H) (M : LstmModel Θ H) (lr : Option Rat) : LstmModel Θ H × Except Err Unit :=
  match N.make M.params.hidden with
  | .error e => (M, .error e)
  | .ok θ =>
    let M := { M with model := some (θ, none) }
    match N.adam (lr.getD (1 / 1000)) with
    | .error e => (M, .error e)
    | .ok () =>
      match lstmScaler M.values with
      | .error e => (M, .error e)
      | .ok S =>
        let z := M.values.map S.transform
        let M := { M with norm := some z, scaler := some S }
        let r := lstmEpochs N M.params.hidden (lstmWindows z M.params.window) M.params.epochs 0 θ none
        ({ M with model := some r.1 }, r.2)

/-- The loop of lines 255-262: `test_inputs` and the hidden state after `k` steps. -/
def lstmLoop (N : LstmNet Θ H) (θ : Θ) (p : LstmParams) : Nat → List Rat → Option H →
    Except Err (List Rat × Option H)
  | 0, inputs, h => .ok (inputs, h)
  | k + 1, inputs, _ => do
    let r ← N.forward θ (N.zero p.hidden) (pyFrom inputs (-p.window))
    lstmLoop N θ p k (inputs ++ [r.1]) (some r.2)

/-- A row of the forecast: `time`, `fcst`, `fcst_lower`, `fcst_upper`. -/
structure LstmRow where
  time : Int
  fcst : Rat
  lower : Rat
  upper : Rat
deriving DecidableEq

/-- `LSTMModel.predict`, lines 228-291: the frame, and the object with the hidden state of the network.  `infer` is
`pd.infer_freq`, called also if the frequency is given (248); `date_range` without frequency is daily;
`inverse_transform` rejects an empty array (265). -/
def lstmPredict (N : LstmNet Θ H) (infer : List Int → Except Err (Option DateFreq)) (M : LstmModel Θ H) (steps : Nat)
    (freq : Option (Option DateFreq)) : Except Err (List LstmRow × LstmModel Θ H) :=
  match M.model with
  | none => .error .valueError
  | some (θ, h) =>
    match M.norm, M.scaler with
    | some z, some S => do
      let inferred ← infer M.times
      let f := freq.getD inferred
      let r ← lstmLoop N θ M.params steps (pyFrom z (-M.params.window)) h
      let out := pyFrom r.1 M.params.window
      if out.isEmpty then .error .valueError
      else do
        let y := out.map S.inverse
        let dates := futureDates (f.getD daily) (maxTime (M.times.map fun t => (t, 0))) steps
        let rows ← mkFcst dates y
        .ok (rows.map fun r => ⟨r.1, r.2, r.2 * (95 / 100), r.2 * (105 / 100)⟩, { M with model := some (θ, r.2) })
    | _, _ => .error .otherError

end Kats
