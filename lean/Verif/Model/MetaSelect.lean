import Verif.Model.MetaData
import Verif.Model.GmEnsemble

/-!
# `kats/models/metalearner/metalearner_modelselect.py`

`MetaLearnModelSelect` and `RandomDownSampler`, without plotting, the correlation matrix and the files.  Of a result of a
search only the error is kept.  A text is what `ast.literal_eval` makes of it.  Features are exact numbers or missing;
`np.std`, the random choices, the features of a series and the classifiers are parameters; a classifier looks at each
row by itself.  Rows of one feature for several means, which numpy would repeat, are refused.
-/

namespace Kats

/-- A dictionary or its text with what `ast.literal_eval` gives. -/
inductive MsRaw (α : Type) where
  | dict (d : α)
  | text (r : Except Err α)

/-- The dictionary (113-123). -/
def MsRaw.value {α : Type} : MsRaw α → Except Err α
  | .dict d => .ok d
  | .text r => r

section
variable {K : Type} [Field K] [LinearOrder K]

/-- An entry of the meta data: `hpt_res` (the errors), `features` and `best_model`, where they are there. -/
structure MsEntry (K : Type) where
  hpt : Option (MsRaw (List (String × K)))
  features : Option (MsRaw (List (String × Option K)))
  best : Option String

/-- The attributes (93-101, 127-136). -/
structure Ms (K : Type) where
  cols : List String
  hpt : List (List (String × K))
  x : List (List K)
  y : List String
  mean : List K
  std : List K
  scale : Bool

/-- A column of the features. -/
def msCol (x : List (List K)) (j : Nat) : List K := x.map fun r => r.getD j 0

/-- `np.average(..., axis=0)` (134). -/
def msMean (n : Nat) (x : List (List K)) : List K := (List.range n).map fun j => gmEnsMean (msCol x j)

/-- `np.std(..., axis=0)` with one for zero (135-136). -/
def msStd (std : List K → K) (n : Nat) (x : List (List K)) : List K :=
  (List.range n).map fun j => if std (msCol x j) = 0 then 1 else std (msCol x j)

/-- The turn of the loop (112-125). -/
def msEntry (e : MsEntry K) : Except Err (List (String × K) × List (Option K) × String) := do
  let h ← needKey e.hpt
  let h ← h.value
  let f ← needKey e.features
  let f ← f.value
  let b ← needKey e.best
  return (h, f.map (·.2), b)

/-- `list(self.metadata[0]["features"].keys())` (127). -/
def msNames (m : List (MsEntry K)) : Except Err (List String) :=
  match m.head? with
  | none => .error .indexError
  | some e => match e.features with
    | none => .error .keyError
    | some (.text _) => .error .attributeError
    | some (.dict d) => .ok (d.map (·.1))

/-- A row of the frame with zeros for what is missing (129-132). -/
def msFeatRow (n : Nat) (r : List (Option K)) : List K := (List.range n).map fun j => (r[j]?.join).getD 0

/-- `_reorganize_data` (108-136).  A frame is refused if the longest row has not as many values as there are names; shorter
rows are filled with missing values. -/
def msReorganize (std : List K → K) (m : List (MsEntry K)) : Except Err (Ms K) := do
  let l ← m.mapM msEntry
  let cols ← msNames m
  if (l.map fun t => t.2.1.length).max?.getD 0 ≠ cols.length then .error .valueError
  else
    let x := l.map fun t => msFeatRow cols.length t.2.1
    return ⟨cols, l.map (·.1), x, l.map (·.2.2), msMean cols.length x, msStd std cols.length x, false⟩

/-- `__init__` (62-106) with `_validate_data` (139-155); `none` is an object without attributes. -/
def msInit (std : List K → K) (metadata : Option (List (MsEntry K))) (load : Bool) : Except Err (Option (Ms K)) :=
  if load then .ok none
  else
    match metadata with
    | none => .error .typeError
    | some m =>
      if m.length ≤ 30 then .error .valueError
      else if m.head?.any fun e => e.hpt.isNone || e.features.isNone || e.best.isNone then .error .valueError
      else do
        let s ← msReorganize std m
        if s.y.dedup.length = 1 then .error .valueError else return some s

/-! ## `preprocess` -/

/-- The keys of a `Counter` or of `idx_dict`: the classes in the order of their first rows. -/
def msClasses (y : List String) : List String := y.foldl (fun l c => if c ∈ l then l else l ++ [c]) []

/-- `idx_dict[c]` (564-566). -/
def msIndices (y : List String) (c : String) : List Nat := (List.range y.length).filter fun i => decide (y[i]? = some c)

/-- `min(Counter(self.dataY).values())` (562). -/
def msMinCount (y : List String) : Nat := ((msClasses y).map fun c => y.count c).min?.getD 0

/-- `fit_resample` (552-581): the rows that are kept.  `pick c l n` is `np.random.choice` for the class `c`. -/
def msPicked (pick : String → List Nat → Nat → List Nat) (y : List String) : List Nat :=
  (msClasses y).flatMap fun c => pick c (msIndices y c) (msMinCount y)

/-- `preprocess` (166-195). -/
def msPreprocess (std : List K → K) (pick : String → List Nat → Nat → List Nat) (downsample scale : Bool) (s : Ms K) : Ms K :=
  let s := if downsample then
      let ix := msPicked pick s.y
      let x := ix.map fun i => s.x.getD i []
      { s with hpt := ix.map fun i => s.hpt.getD i [], x := x, y := ix.map fun i => s.y.getD i "",
               mean := msMean s.cols.length x, std := msStd std s.cols.length x }
    else s
  if scale then
    { s with scale := true, x := s.x.map fun r => List.zipWith (fun a b => a / b) (List.zipWith (fun a b => a - b) r s.mean) s.std }
  else s

/-! ## `train` -/

/-- A classifier: `predict` and `predict_proba` for one row, `classes_` and, for a forest, `predict_proba` of
`estimators_`. -/
structure MsClf (K : Type) where
  predict : List K → Except Err String
  proba : List K → Except Err (List K)
  classes : List String
  trees : Option (List (List K → List K))

/-- `train_test_split` of scikit-learn: the rows for training and for the test; `perm` is the random order. -/
def msSplit (n : Nat) (q : Rat) (perm : List Nat) : Except Err (List Nat × List Nat) :=
  let t := (Rat.ceil (n * q)).toNat
  if n - t = 0 then .error .valueError else .ok (perm.drop t, perm.take t)

/-- `hpt.iloc[i][c][-1]`. -/
def msErr (e : List (String × K) × String) : Except Err K :=
  match e.1.lookup e.2 with
  | some v => .ok v
  | none => .error .keyError

/-- `em([...])` (327-341). -/
def msError (em : List K → K) (hpt : List (List (String × K))) (labels : List String) : Except Err K := do
  let l ← (hpt.zip labels).mapM msErr
  return em l

/-- The dictionary of what `train` gives. -/
structure MsReport (K : Type) where
  fit : List (String × K)
  pred : List (String × K)
  accuracy : K

/-- The names of the classifiers (286). -/
def msMethods : List String := ["RandomForest", "GBDT", "SVM", "KNN", "NaiveBayes"]

/-- The errors of one fixed model (335-341). -/
def msLabel (em : List K → K) (hTrain hTest : List (List (String × K))) (c : String) : Except Err ((String × K) × (String × K)) := do
  let a ← msError em hTrain (hTrain.map fun _ => c)
  let b ← msError em hTest (hTest.map fun _ => c)
  return ((c, a), (c, b))

/-- `train` (265-348); `fit` makes and trains the classifier of a name. -/
def msTrain (fit : String → List (List K) → List String → Except Err (MsClf K)) (perm : List Nat) (s : Ms K)
    (method evalMethod : String) (testSize : Rat) : Except Err (MsClf K × MsReport K) :=
  if method ∉ msMethods then .error .valueError
  else if evalMethod ≠ "mean" ∧ evalMethod ≠ "median" then .error .valueError
  else if testSize ≤ 0 ∨ 1 ≤ testSize then .error .valueError
  else do
    let p ← msSplit s.x.length testSize perm
    let xTrain := p.1.map fun i => s.x.getD i []
    let xTest := p.2.map fun i => s.x.getD i []
    let yTest := p.2.map fun i => s.y.getD i ""
    let hTrain := p.1.map fun i => s.hpt.getD i []
    let hTest := p.2.map fun i => s.hpt.getD i []
    let clf ← fit method xTrain (p.1.map fun i => s.y.getD i "")
    let yFit ← xTrain.mapM clf.predict
    let yPred ← xTest.mapM clf.predict
    let em := if evalMethod = "mean" then gmEnsMean else gmEnsMedian
    let a ← msError em hTrain yFit
    let b ← msError em hTest yPred
    let l ← (msClasses s.y).mapM (msLabel em hTrain hTest)
    return (clf, ⟨gmUpdate [("meta-learn", a)] (l.map (·.1)), gmUpdate [("meta-learn", b)] (l.map (·.2)),
      gmEnsMean ((yTest.zip yPred).map fun e => if e.1 = e.2 then 1 else 0)⟩)

/-! ## `pred`, `pred_by_feature` and `pred_fuzzy` -/

/-- `source_x`: a frame, or the rows of a list of arrays or of an array. -/
inductive MsInput (K : Type) where
  | frame
  | rows (l : List (List (Option K)))

/-- `(x - self.x_mean) / self.x_std` (454-455) for one row. -/
def msScaleRow (s : Ms K) (r : List (Option K)) : Except Err (List (Option K)) :=
  if s.scale then
    if r.length = s.mean.length then
      .ok (List.zipWith (fun a b => a.map fun v => v / b) (List.zipWith (fun a b => a.map fun v => v - b) r s.mean) s.std)
    else .error .valueError
  else .ok r

/-- `np.argsort(-prob)`; equal probabilities keep their order. -/
def msOrder (p : List K) : List Nat := (List.range p.length).insertionSort fun i j => p.getD j 0 ≤ p.getD i 0

/-- The first `nTop` classes for one row (459-462). -/
def msTop (clf : MsClf K) (nTop : Int) (r : List K) : Except Err (List String) := do
  let p ← clf.proba r
  return pyTo ((msOrder p).map fun i => clf.classes.getD i "") nTop

/-- An object: without attributes, or with the data and what was trained. -/
abbrev MsObj (K : Type) := Option (Ms K × Option (MsClf K))

/-- `self.clf`. -/
def msClf (obj : MsObj K) : Except Err (Ms K × MsClf K) :=
  match obj with
  | none => .error .attributeError
  | some (_, none) => .error .valueError
  | some (s, some c) => .ok (s, c)

/-- `pred_by_feature` (428-462): names, or rows of names. -/
def msPredBy (obj : MsObj K) (x : MsInput K) (nTop : Int) : Except Err (List String ⊕ List (List String)) := do
  let m ← msClf obj
  match x with
  | .frame => .error .valueError
  | .rows l =>
    if l = [] ∨ ¬ (∀ r ∈ l, r.length = (l.headD []).length) then .error .valueError
    else do
      let l ← l.mapM (msScaleRow m.1)
      let l := l.map fun r => r.map fun v => v.getD 0
      if nTop = 1 then do
        let p ← l.mapM m.2.predict
        return .inl p
      else do
        let p ← l.mapM (msTop m.2 nTop)
        return .inr p

/-- `...[0]` (426). -/
def msHead (r : List String ⊕ List (List String)) : Except Err (String ⊕ List String) :=
  match r with
  | .inl (a :: _) => .ok (.inl a)
  | .inr (a :: _) => .ok (.inr a)
  | _ => .error .indexError

/-- `pred` (386-426); the copy of the series (405) needs the time column "time". -/
def msPred (features : List GmFlt → List (String × Option K)) (obj : MsObj K) (timeCol : String) (values : List GmFlt)
    (tsScale : Bool) (nTop : Int) : Except Err (String ⊕ List String) :=
  if timeCol ≠ "time" then .error .valueError
  else do
    let _ ← msClf obj
    let f := features (if tsScale then mdScale values else values)
    let r ← msPredBy obj (.rows [f.map (·.2)]) nTop
    msHead r

/-- `_bootstrap` (464-473): the part of the samples whose mean is negative; a sample is the list of its rows. -/
def msBootstrap (samples : List (List Nat)) (data : List (K × K)) : K :=
  let diff := data.map fun e => e.1 - e.2
  gmEnsMean (samples.map fun s => if gmEnsMean (s.map fun i => diff.getD i 0) < 0 then 1 else 0)

/-- The result of `pred_fuzzy`. -/
structure MsFuzzy (K : Type) where
  label : List String
  probability : List K
  pvalue : K

/-- `pred_fuzzy` (475-527); `self.clf.estimators_` of no classifier is an attribute error as well. -/
def msFuzzy (features : List GmFlt → List (String × Option K)) (samples : List (List Nat)) (obj : MsObj K) (timeCol : String)
    (values : List GmFlt) (tsScale : Bool) (sig : K) : Except Err (MsFuzzy K) :=
  if timeCol ≠ "time" then .error .valueError
  else
    let f := features (if tsScale then mdScale values else values)
    let x := f.map fun e => e.2.getD 0
    match obj with
    | none => .error .attributeError
    | some (s, clf) => do
      let r ← msScaleRow s (x.map some)
      let r := r.map fun v => v.getD 0
      match clf with
      | none => .error .attributeError
      | some clf => match clf.trees with
        | none => .error .attributeError
        | some trees => do
          let prob ← clf.proba r
          match msOrder prob with
          | i :: j :: _ =>
            let p := msBootstrap samples (trees.map fun t => ((t r).getD i 0, (t r).getD j 0))
            if sig ≤ p then return ⟨[clf.classes.getD i "", clf.classes.getD j ""], [prob.getD i 0, prob.getD j 0], p⟩
            else return ⟨[clf.classes.getD i ""], [prob.getD i 0], p⟩
          | _ => .error .indexError

end

end Kats
