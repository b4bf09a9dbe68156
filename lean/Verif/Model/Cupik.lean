import Verif.Model.Py

/-!
# `kats/utils/cupik.py`

A step is an object that is changed by what is done with it: its state is kept in a heap, indexed by the position of the
step (no object occurs twice among the steps).  What the steps do is a parameter.  Data of no use after an exception (the
states of the steps and the metadata at that point) are not modelled.
-/

namespace Kats

/-- What a list in the pipeline holds: series, the features of a transformer, or a fitted model (the step itself). -/
inductive PipeItem (D O : Type) where
  | ts (d : D)
  | feat (o : O)
  | model (k : Nat)

/-- What is passed from step to step: a list, or a fitted scikit-learn model. -/
inductive PipeData (D O : Type) where
  | list (l : List (PipeItem D O))
  | est (k : Nat)

/-- The extra parameters of a step: those given and whether `pipe` was set. -/
abbrev PipeExtra (P : Type) := P × Bool

/-- A step: whether its class is from scikit-learn, its attributes `__type__` and `__subtype__` if it has them, and its
methods on states. -/
structure PipeStep (S D P O Y : Type) where
  sklearn : Bool := false
  type : Option String
  subtype : Option String
  setData : D → S → S
  detect : PipeExtra P → S → Except Err (O × S)
  remover : S → Except Err D
  transform : D → S → Except Err (O × S)
  fit : PipeExtra P → S → Except Err S
  fitSk : List O → Y → S → Except Err S

/-- The options of `fit` (lines 306-310). -/
structure PipeOpts (Y : Type) where
  remove : Bool := false
  useFeatures : Bool := false
  y : Option Y := none

/-- The state: the steps, `metadata`, the dictionary `params` of the caller, the list of the caller, the data being passed
on and whether they are the list of the caller. -/
structure PipeState (S D P O : Type) where
  heap : Nat → S
  metadata : String → Option (List O)
  params : String → Option (PipeExtra P)
  caller : List (PipeItem D O)
  cur : PipeData D O
  shared : Bool

section
variable {S D P O Y : Type}

/-- `__detect__`, lines 89-131, the loop: outputs, the list with the entries replaced, the state and the parameters
afterwards.  (The conversion of the times is left out.) -/
def detectLoop (uni : D → Bool) (st : PipeStep S D P O Y) (remove : Bool) :
    List (PipeItem D O) → S → PipeExtra P → Except Err (List O × List (PipeItem D O) × S × PipeExtra P)
  | [], s, e => .ok ([], [], s, e)
  | .ts d :: r, s, e =>
    if uni d = false then .error .valueError
    else match st.subtype with
      | none => .error .attributeError
      | some sub => do
        let e := if sub = "outlier" then (e.1, true) else e
        let (o, s) ← st.detect e (st.setData d s)
        let d' ← if remove = true ∧ sub = "outlier" then st.remover s else .ok d
        let (outs, items, s, e) ← detectLoop uni st remove r s e
        pure (o :: outs, .ts d' :: items, s, e)
  | _ :: _, _, _ => .error .attributeError

/-- `__transform__`, lines 133-164, the loop.  (Only series can be transformed.) -/
def transformLoop (st : PipeStep S D P O Y) : List (PipeItem D O) → S → Except Err (List O × S)
  | [], s => .ok ([], s)
  | .ts d :: r, s => do
    let (o, s) ← st.transform d s
    let (outs, s) ← transformLoop st r s
    pure (o :: outs, s)
  | _ :: _, _ => .error .otherError

/-- `__model__`, lines 166-199, the loop: every entry of the result is the step itself. -/
def modelLoop (uni : D → Bool) (st : PipeStep S D P O Y) (k : Nat) (e : PipeExtra P) :
    List (PipeItem D O) → S → Except Err (List (PipeItem D O) × S)
  | [], s => .ok ([], s)
  | .ts d :: r, s =>
    if uni d = false then .error .valueError
    else do
      let s ← st.fit e (st.setData d s)
      let (items, s) ← modelLoop uni st k e r s
      pure (.model k :: items, s)
  | _ :: _, _ => .error .attributeError

/-- The features of a list. -/
def featsOf (l : List (PipeItem D O)) : List O := l.filterMap fun i => match i with
  | .feat o => some o
  | _ => none

/-- `_fit_sklearn_`, lines 201-227.  (Only the first entry is looked at; a list of features has nothing else.) -/
def fitSklearn (st : PipeStep S D P O Y) (y : Option Y) (l : List (PipeItem D O)) (s : S) : Except Err S :=
  match l with
  | [] => .error .indexError
  | .feat _ :: _ => match y with
    | none => .error .otherError
    | some y => st.fitSk (featsOf l) y s
  | _ :: _ => .error .otherError

/-- A function changed at one place. -/
def setAt {α β : Type} [DecidableEq α] (f : α → β) (a : α) (b : β) : α → β := fun x => if x = a then b else f x

/-- `__fit__`, lines 229-267, for step number `k` with name `n`.  A fitted scikit-learn model has no length. -/
def pipeStep (uni : D → Bool) (noParams : P) (opts : PipeOpts Y) (k : Nat) (n : String) (st : PipeStep S D P O Y)
    (w : PipeState S D P O) : Except Err (PipeState S D P O) :=
  match w.cur with
  | .est _ => if st.sklearn then .error .otherError else .error .typeError
  | .list l =>
    if st.sklearn then do
      let s ← fitSklearn st opts.y l (w.heap k)
      pure { w with heap := setAt w.heap k s, cur := .est k, shared := false }
    else match st.type with
      | none => .error .attributeError
      | some t =>
        let e := (w.params n).getD (noParams, false)
        if t = "detector" then do
          let (outs, items, s, e') ← detectLoop uni st opts.remove l (w.heap k) e
          pure { w with
            heap := setAt w.heap k s, metadata := setAt w.metadata n (some outs)
            params := if (w.params n).isSome then setAt w.params n (some e') else w.params
            caller := if w.shared then items else w.caller, cur := .list items }
        else if t = "transformer" then do
          let (outs, s) ← transformLoop st l (w.heap k)
          let w' := { w with heap := setAt w.heap k s, metadata := setAt w.metadata n (some outs) }
          pure (if opts.useFeatures then { w' with cur := .list (outs.map .feat), shared := false } else w')
        else if t = "model" then do
          let (items, s) ← modelLoop uni st k e l (w.heap k)
          pure { w with heap := setAt w.heap k s, cur := .list items, shared := false }
        else .error .keyError

/-- The steps one after the other, counted from `k`. -/
def pipeSteps (uni : D → Bool) (noParams : P) (opts : PipeOpts Y) : Nat → List (String × PipeStep S D P O Y) →
    PipeState S D P O → Except Err (PipeState S D P O)
  | _, [], w => .ok w
  | k, (n, st) :: r, w => do
    let w ← pipeStep uni noParams opts k n st w
    pipeSteps uni noParams opts (k + 1) r w

/-- The pipeline: the steps, their states, `metadata` and `univariate`. -/
structure Pipeline (S D P O Y : Type) where
  steps : List (String × PipeStep S D P O Y)
  heap : Nat → S
  metadata : String → Option (List O) := fun _ => none
  univariate : Bool := false

/-- What `fit` is given: one series or a list. -/
inductive PipeInput (D : Type) where
  | one (d : D)
  | many (l : List D)

/-- What `fit` returns: an entry of the last list, or all. -/
inductive PipeOut (D O : Type) where
  | item (i : PipeItem D O)
  | all (a : PipeData D O)

/-- `fit`, lines 269-329: the result, the pipeline afterwards, and the list and the parameters of the caller afterwards. -/
def Pipeline.fit (uni : D → Bool) (noParams : P) (p : Pipeline S D P O Y) (opts : PipeOpts Y) (params : String → Option (PipeExtra P))
    (input : PipeInput D) : Except Err (PipeOut D O × Pipeline S D P O Y × List (PipeItem D O) × (String → Option (PipeExtra P))) := do
  let single := match input with
    | .one _ => true
    | .many _ => false
  let items := match input with
    | .one d => [PipeItem.ts d]
    | .many l => l.map .ts
  let w ← pipeSteps uni noParams opts 0 p.steps ⟨p.heap, p.metadata, params, items, .list items, true⟩
  let p' := { p with heap := w.heap, metadata := w.metadata, univariate := p.univariate || single }
  if single then
    match w.cur with
    | .est _ => .error .typeError
    | .list [] => .error .indexError
    | .list (i :: _) => pure (.item i, p', w.caller, w.params)
  else pure (.all w.cur, p', w.caller, w.params)

end

end Kats
