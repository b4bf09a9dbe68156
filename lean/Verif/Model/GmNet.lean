import Verif.Model.GmParam
import Verif.Model.GmPass
import Verif.Model.GmS2s

/-!
# `kats/models/globalmodel/utils.py`

The networks of global models: `LSTM2Cell`, `S2Cell` and `DilatedRNNStack`, and from `model.py` the functions
`build_rnn` and `build_s2s`.  A tensor with one row for each series is a list of rows; numbers are exact; the sigmoid
and `tanh` are parameters.  `torch.nn.Linear` is its matrix and its bias, `torch.nn.LSTMCell` is what its
documentation says.  The states of a layer at one time are one pair for each row.  A mismatch of sizes, for which
torch raises a `RuntimeError`, is `otherError`.  Gradients, `jit`, the random weights and what an error leaves in the
lists of states are left out.
-/

namespace Kats

section
variable {K : Type} [Field K]

/-- The product of a row of the matrix and the input. -/
def gmDot (r x : List K) : K := (List.zipWith (· * ·) r x).sum

/-- `torch.nn.Linear`: one row of the matrix and one bias for each output. -/
def gmLinear (w : List (List K × K)) (x : List K) : Except Err (List K) :=
  if w.all fun r => decide (r.1.length = x.length) then .ok (w.map fun r => gmDot r.1 x + r.2) else .error .otherError

/-- What the cells need: the sigmoid and `tanh`. -/
structure GmAct (K : Type) where
  sigmoid : K → K
  tanh : K → K

/-- The three cells. -/
inductive GmCellKind where
  | lstm2
  | s2
  | lstm
deriving DecidableEq

/-- The layers of a cell: `lxh` (231, 308); for `torch.nn.LSTMCell` the two maps of input and state, of which the
second is `hh`. -/
structure GmCell (K : Type) where
  lxh : List (List K × K)
  hh : List (List K × K)

/-- The input of `lxh` (262-270, 341-349). -/
def gmCellIn (h : Nat) (x : List K) (prev delayed : Option (List K × List K)) : List K :=
  match prev, delayed with
  | some p, some d => x ++ p.1 ++ d.1
  | some p, none => x ++ p.1 ++ p.1
  | none, _ => x ++ List.replicate (2 * h) 0

/-- `torch.chunk(gates, 4)`: the gate `i` of `size` values. -/
def gmGate (size i : Nat) (gates : List K) : List K := (gates.drop (i * size)).take size

/-- `torch.split(whole, [out, h])` (285-287, 369-371): the output and the state. -/
def gmSplitOut (out h : Nat) (whole : List K) : Except Err (List K × List K) :=
  if whole.length = out + h then .ok (whole.take out, whole.drop out) else .error .otherError

/-- The two states that are multiplied with gates have the size of the gates. -/
def gmSameLen (c : List K) (size : Nat) : Except Err (List K) := if c.length = size then .ok c else .error .otherError

/-- The state `c` that a cell of `LSTM2Cell` is given: the delayed one if there is one (554-566). -/
def gmLstm2Carry (p : List K × List K) : Option (List K × List K) → List K
  | some d => d.2
  | none => p.2

/-- The next state of `LSTM2Cell` (276-282). -/
def gmLstm2State (A : GmAct K) (size : Nat) (gates : List K) (prev delayed : Option (List K × List K)) :
    Except Err (List K) :=
  let forget := (gmGate size 0 gates).map fun v => A.sigmoid (v + 1)
  let inGate := (gmGate size 1 gates).map A.sigmoid
  let new := (gmGate size 3 gates).map A.tanh
  match prev with
  | none => .ok new
  | some p => (gmSameLen (gmLstm2Carry p delayed) size).map fun c =>
      List.zipWith (· + ·) (List.zipWith (· * ·) forget c) (List.zipWith (· * ·) inGate new)

/-- `LSTM2Cell.forward` (237-288) for one row: the output, and the next states. -/
def gmLstm2 (A : GmAct K) (size h : Nat) (cell : GmCell K) (x : List K) (prev delayed : Option (List K × List K)) :
    Except Err (List K × List K × List K) := do
  let gates ← gmLinear cell.lxh (gmCellIn h x prev delayed)
  let state ← gmLstm2State A size gates prev delayed
  let r ← gmSplitOut (size - h) h (List.zipWith (· * ·) ((gmGate size 2 gates).map A.sigmoid) (state.map A.tanh))
  return (r.1, r.2, state)

/-- The state `c` that `S2Cell` goes on with (359-363). -/
def gmS2Carry (A : GmAct K) (size : Nat) (gates : List K) (p : List K × List K) :
    Option (List K × List K) → Except Err (List K)
  | none => gmSameLen p.2 size
  | some d => do
    let c ← gmSameLen p.2 size
    let e ← gmSameLen d.2 size
    let alpha := (gmGate size 2 gates).map A.sigmoid
    return List.zipWith (· + ·) (List.zipWith (· * ·) alpha c) (List.zipWith (fun a v => (1 - a) * v) alpha e)

/-- The next state of `S2Cell` (354-365). -/
def gmS2State (A : GmAct K) (size : Nat) (gates : List K) (prev delayed : Option (List K × List K)) :
    Except Err (List K) :=
  let forget := (gmGate size 0 gates).map fun v => A.sigmoid (v + 1)
  let new := (gmGate size 1 gates).map A.tanh
  match prev with
  | none => .ok new
  | some p => (gmS2Carry A size gates p delayed).map fun c =>
      List.zipWith (· + ·) (List.zipWith (· * ·) forget c) (List.zipWith (fun f v => (1 - f) * v) forget new)

/-- `S2Cell.forward` (315-372) for one row. -/
def gmS2 (A : GmAct K) (size h : Nat) (cell : GmCell K) (x : List K) (prev delayed : Option (List K × List K)) :
    Except Err (List K × List K × List K) := do
  let gates ← gmLinear cell.lxh (gmCellIn h x prev delayed)
  let state ← gmS2State A size gates prev delayed
  let r ← gmSplitOut (size - h) h (List.zipWith (· * ·) ((gmGate size 3 gates).map A.sigmoid) state)
  return (r.1, r.2, state)

/-- The states that `torch.nn.LSTMCell` is given (612-630): the delayed ones if there are any, otherwise the previous
ones or zeros. -/
def gmLstmCarry (size : Nat) (prev delayed : Option (List K × List K)) : List K × List K :=
  match delayed, prev with
  | some d, _ => d
  | none, some p => p
  | none, none => (List.replicate size 0, List.replicate size 0)

/-- The next state of `torch.nn.LSTMCell`. -/
def gmLstmState (A : GmAct K) (size : Nat) (gates c : List K) : List K :=
  List.zipWith (· + ·) (List.zipWith (· * ·) ((gmGate size 1 gates).map A.sigmoid) c)
    (List.zipWith (· * ·) ((gmGate size 0 gates).map A.sigmoid) ((gmGate size 2 gates).map A.tanh))

/-- `torch.nn.LSTMCell` for one row; its output is its state `h`. -/
def gmLstm (A : GmAct K) (size : Nat) (cell : GmCell K) (x : List K) (prev delayed : Option (List K × List K)) :
    Except Err (List K × List K × List K) := do
  let a ← gmLinear cell.lxh x
  let b ← gmLinear cell.hh (gmLstmCarry size prev delayed).1
  let c ← gmSameLen (gmLstmCarry size prev delayed).2 size
  let gates := List.zipWith (· + ·) a b
  let state := gmLstmState A size gates c
  let hs := List.zipWith (· * ·) ((gmGate size 3 gates).map A.sigmoid) (state.map A.tanh)
  return (hs, hs, state)

/-- A cell of the given kind; a negative `h` fails in `torch.zeros` or `torch.split`. -/
def gmCellRow (kind : GmCellKind) (A : GmAct K) (size : Nat) (h : Int) (cell : GmCell K) (x : List K)
    (prev delayed : Option (List K × List K)) : Except Err (List K × List K × List K) :=
  match kind with
  | .lstm2 => if h < 0 then .error .otherError else gmLstm2 A size h.toNat cell x prev delayed
  | .s2 => if h < 0 then .error .otherError else gmS2 A size h.toNat cell x prev delayed
  | .lstm => gmLstm A size cell x prev delayed

/-- A row of the states of a layer. -/
def gmStateRow (s : Option (List (List K × List K))) (i : Nat) : Option (List K × List K) := s.map (·.getD i ([], []))

/-- A cell for all rows; the states must have as many rows as the input. -/
def gmCellAll (f : List K → Option (List K × List K) → Option (List K × List K) → Except Err (List K × List K × List K))
    (inp : List (List K)) (prev delayed : Option (List (List K × List K))) :
    Except Err (List (List K × List K × List K)) :=
  if prev.all (fun s => decide (s.length = inp.length)) && delayed.all (fun s => decide (s.length = inp.length)) then
    (List.range inp.length).mapM fun i => f (inp.getD i []) (gmStateRow prev i) (gmStateRow delayed i)
  else .error .otherError

/-- `h_state_store` and `c_state_store`: for every time and layer the states of the rows. -/
abbrev GmStore (K : Type) := List (List (List (List K × List K)))

/-- A network: `kind`, `size` (the size of `c`), `h`, the dilations, the cells and the adaptor if there is one. -/
structure GmStack (K : Type) where
  kind : GmCellKind
  act : GmAct K
  size : Nat
  h : Int
  blocks : List (List Int)
  cells : List (GmCell K)
  adaptor : Option (List (List K × K))

/-- The states at a time before, for a layer. -/
def gmStoreAt (store : GmStore K) (t layer : Nat) : Except Err (List (List K × List K)) :=
  match store[t]? with
  | some l => match l[layer]? with | some s => .ok s | none => .error .indexError
  | none => .error .indexError

/-- The previous and the delayed states of a layer with the dilation `d` (505-568, 600-629); with a dilation that is not
positive the states looked for are not there.  `torch.nn.LSTMCell` is not given the previous state if there is a
delayed one. -/
def gmDelayed (kind : GmCellKind) (store : GmStore K) (layer : Nat) (d : Int) :
    Except Err (Option (List (List K × List K)) × Option (List (List K × List K))) :=
  let t := store.length
  if 0 ≤ (t : Int) - d then
    if d ≤ 0 then .error .indexError
    else if kind = .lstm then do
      let e ← gmStoreAt store ((t : Int) - d).toNat layer
      return (none, some e)
    else do
      let p ← gmStoreAt store (t - 1) layer
      let e ← gmStoreAt store ((t : Int) - d).toNat layer
      return (some p, some e)
  else if 0 < t then do
    let p ← gmStoreAt store (t - 1) layer
    return (some p, none)
  else .ok (none, none)

/-- `self.cells[layer]`. -/
def gmCellAt (N : GmStack K) (layer : Nat) : Except Err (GmCell K) :=
  match N.cells[layer]? with
  | some cell => .ok cell
  | none => .error .indexError

/-- A layer (591-635): the states of the layers before it, and its input. -/
def gmLayer (N : GmStack K) (store : GmStore K) (st : List (List (List K × List K)) × List (List K)) (d : Int) :
    Except Err (List (List (List K × List K)) × List (List K)) := do
  let s ← gmDelayed N.kind store st.1.length d
  let cell ← gmCellAt N st.1.length
  let r ← gmCellAll (gmCellRow N.kind N.act N.size N.h cell) st.2 s.1 s.2
  return (st.1 ++ [r.map (·.2)], r.map (·.1))

/-- The sum of two tensors. -/
def gmAddRows (a b : List (List K)) : List (List K) := List.zipWith (List.zipWith (· + ·)) a b

/-- A block (590-636): the sum of its output and that of the blocks before; the first block is given the input. -/
def gmBlock (N : GmStack K) (store : GmStore K) (st : List (List (List K × List K)) × List (List K) × List (List K))
    (ds : List Int) : Except Err (List (List (List K × List K)) × List (List K) × List (List K)) := do
  let r ← ds.foldlM (gmLayer N store) (st.1, st.2.1)
  let sum := gmAddRows r.2 st.2.2
  return (r.1, sum, sum)

/-- The number of outputs of a layer (471-490). -/
def GmStack.out (N : GmStack K) : Nat := match N.kind with | .lstm => N.size | _ => (N.size - N.h).toNat

/-- The adaptor (638-641). -/
def gmAdapt (adaptor : Option (List (List K × K))) (x : List (List K)) : Except Err (List (List K)) :=
  match adaptor with
  | some w => x.mapM (gmLinear w)
  | none => .ok x

/-- `forward` (570-642): the store with the states of this time, and the output. -/
def gmNetForward (N : GmStack K) (store : GmStore K) (inp : List (List K)) : Except Err (GmStore K × List (List K)) := do
  let zeros := inp.map fun _ => List.replicate N.out 0
  let r ← N.blocks.foldlM (gmBlock N store) ([], inp, zeros)
  let o ← gmAdapt N.adaptor r.2.2
  return (store ++ [r.1], o)

/-- `prepare_decoder` (493-503): the states of the last `max_dilation` times. -/
def gmPrepare (maxDilation : Int) (store : GmStore K) : GmStore K := pyFrom store (-maxDilation)

end

/-! ## Building -/

/-- The arguments of `DilatedRNNStack` (389-399). -/
structure GmStackArgs where
  nn : List (List Int)
  cell : String
  input : Int
  state : Int
  output : Option Int
  h : Option Int

/-- The sizes of a network: the inputs of its cells, the state and `h`, the output of a cell and of the adaptor. -/
structure GmStackShape where
  kind : GmCellKind
  inputs : List Int
  state : Int
  h : Int
  out : Int
  output : Option Int
  maxDilation : Int
deriving DecidableEq

/-- `np.max`: an error for an empty list. -/
def gmMaxOf : List Int → Except Err Int
  | [] => .error .valueError
  | x :: l => .ok (l.foldl max x)

/-- `_validate` (471-490): the kind of the cells, `h` and the output of a cell. -/
def gmValidate (cell : String) (state : Int) (h : Option Int) : Except Err (GmCellKind × Int × Int) :=
  if cell = "LSTM" then .ok (.lstm, 0, state)
  else if cell = "LSTM2Cell" ∨ cell = "S2Cell" then
    match h with
    | none => .error .valueError
    | some h =>
      if state ≤ h then .error .valueError
      else .ok (if cell = "S2Cell" then .s2 else .lstm2, h, state - h)
  else .error .valueError

/-- The layers of a cell can be made if no size is negative. -/
def gmCellSize (kind : GmCellKind) (state h input : Int) : Except Err Int :=
  let n := match kind with | .lstm => input | _ => input + 2 * h
  if n < 0 ∨ state < 0 then .error .otherError else .ok input

/-- `DilatedRNNStack.__init__` (389-469). -/
def gmStackInit (a : GmStackArgs) : Except Err GmStackShape := do
  let maxes ← a.nn.mapM gmMaxOf
  let m ← gmMaxOf maxes
  let v ← gmValidate a.cell a.state a.h
  let inputs ← (a.input :: List.replicate (a.nn.flatten.length - 1) v.2.2).mapM (gmCellSize v.1 a.state v.2.1)
  match a.output with
  | none => return ⟨v.1, inputs, a.state, v.2.1, v.2.2, none, m⟩
  | some o => if 0 < o then return ⟨v.1, inputs, a.state, v.2.1, v.2.2, some o, m⟩ else .error .valueError

/-- `build_rnn` (`model.py` 134-170). -/
def gmBuildRnn (o : GmObj (Option GmNum)) : Except Err GmStackShape :=
  gmStackInit ⟨o.nn, o.cellName, (gmSizes o).1, o.stateSize.toInt, some (gmSizes o).2, o.hSize.map GmNum.toInt⟩

/-- `get_feature_size` for a window, 0 without features (`model.py` 982-986, 1000-1004). -/
def gmFeatCols (o : GmObj (Option GmNum)) (w : GmNum) : Int :=
  match o.gmfeature with | none => 0 | some l => gmFeatureSize l w.toInt.toNat

/-- `build_s2s` (`model.py` 978-1021): the encoder and the decoder. -/
def gmBuildS2s (o : GmObj (Option GmNum)) : Except Err (GmStackShape × GmStackShape) := do
  let enc ← gmStackInit ⟨o.nn, o.cellName, o.inputWindow.toInt + gmFeatCols o o.inputWindow + 2, o.stateSize.toInt, none,
    o.hSize.map GmNum.toInt⟩
  let dec ← gmStackInit ⟨o.decoder, o.cellName, gmFeatCols o o.fcstWindow + 1 + enc.out, o.stateSize.toInt,
    some (o.quantile.length * o.fcstWindow.toInt), o.hSize.map GmNum.toInt⟩
  return (enc, dec)

end Kats
