import Verif.Model.MetaSelect

/-!
# `kats/models/metalearner/metalearner_predictability.py`

`MetaLearnPredictability`, without the files.  A text is what `ast.literal_eval` makes of it; of a result of a search only
the error is kept.  Features and probabilities are exact; `np.std`, the random orders, the features of a series and the
classifiers are parameters; a classifier looks at each row by itself and gives the probability of the label 1.
`precision_recall_curve` has a point for each different probability (older versions leave those below the first with
full recall out; they have less precision), and the recall one if no label is 1.  Rows of one feature are refused where
numpy would repeat them for the scaling.
-/

namespace Kats

section
variable {K : Type} [Field K] [LinearOrder K]

/-- An entry of the meta data: `hpt_res` (the errors), `features` and `best_model`, where they are there. -/
structure MpEntry (K : Type) where
  hpt : Option (MsRaw (List (String × GmFlt)))
  features : Option (MsRaw (List (String × Option K)))
  best : Option String

/-- The attributes of the data (88-96, 129-140). -/
structure Mp (K : Type) where
  cols : List String
  x : List (List K)
  labels : List Bool
  mean : List K
  std : List K
  rescale : Bool

/-- What is read before the features are appended (115-123). -/
def mpRead (e : MpEntry K) : Except Err (List (String × GmFlt) × List (String × Option K)) := do
  let h ← needKey e.hpt
  let h ← h.value
  let f ← needKey e.features
  let f ← f.value
  return (h, f)

/-- `hpt[metadata[i]["best_model"]][1]` (126). -/
def mpError (e : MpEntry K) (h : List (String × GmFlt)) : Except Err GmFlt := do
  let b ← needKey e.best
  needKey (h.lookup b)

/-- The features that are appended (125). -/
def mpFeatures (m : List (MpEntry K)) : List (List (String × Option K)) :=
  m.filterMap fun e => (mpRead e).toOption.map (·.2)

/-- The errors that are appended (126), none if anything before or here fails (127-128). -/
def mpErrors (m : List (MpEntry K)) : List GmFlt :=
  m.filterMap fun e => (do let r ← mpRead e; mpError e r.1 : Except Err GmFlt).toOption

/-- The columns of a frame made of dictionaries: the names in the order in which they are found. -/
def mpCols (fs : List (List (String × Option K))) : List String := msClasses (fs.flatMap fun f => f.map (·.1))

/-- A row of the frame (131-133), with zeros for what is missing. -/
def mpRow (cols : List String) (f : List (String × Option K)) : List K := cols.map fun c => ((f.lookup c).join).getD 0

/-- `_reorganize_data` (105-142). -/
def mpReorganize (std : List K → K) (threshold : Rat) (m : List (MpEntry K)) : Mp K :=
  let fs := mpFeatures m
  let cols := mpCols fs
  let x := fs.map (mpRow cols)
  ⟨cols, x, (mpErrors m).map fun e => gmLt (.fin threshold) e, msMean cols.length x, msStd std cols.length x, false⟩

/-- `__init__` (56-103) with `_validate_data` (144-159); `none` is an object without attributes. -/
def mpInit (std : List K → K) (metadata : Option (List (MpEntry K))) (threshold : Rat) (load : Bool) : Except Err (Option (Mp K)) :=
  if load then .ok none
  else
    match metadata with
    | none => .error .valueError
    | some m =>
      if m.length ≤ 30 then .error .valueError
      else if m.head?.any fun e => e.hpt.isNone || e.features.isNone || e.best.isNone then .error .valueError
      else
        let s := mpReorganize std threshold m
        if s.labels.dedup.length = 1 then .error .valueError
        else if s.x.length ≤ 30 then .error .valueError
        else .ok (some s)

/-- `preprocess` (161-178). -/
def mpPreprocess (s : Mp K) : Mp K :=
  { s with rescale := true, x := s.x.map fun r => List.zipWith (fun a b => a / b) (List.zipWith (fun a b => a - b) r s.mean) s.std }

/-! ## The threshold -/

/-- The rows with a probability of at least `t`, for a label. -/
def mpCount (l : List (K × Bool)) (b : Bool) (t : K) : Nat := l.countP fun e => decide (t ≤ e.1) && (e.2 == b)

/-- The precision for a threshold. -/
def mpPrecision (l : List (K × Bool)) (t : K) : K := (mpCount l true t : K) / ((mpCount l true t + mpCount l false t : Nat) : K)

/-- The recall for a threshold. -/
def mpRecall (l : List (K × Bool)) (t : K) : K :=
  let n := l.countP fun e => e.2
  if n = 0 then 1 else (mpCount l true t : K) / (n : K)

/-- The thresholds of `precision_recall_curve`: the different probabilities, the least first. -/
def mpThresholds (l : List (K × Bool)) : List K := ((l.map (·.1)).dedup).insertionSort (· ≤ ·)

/-- `threshold[np.where(p == np.max(p[r >= recall_threshold]))][-1]` (250-258), a half if this fails: if no point
has the recall, or the last point, which has no threshold, has the greatest precision as well. -/
def mpThreshold (l : List (K × Bool)) (recall : K) : K :=
  let ts := mpThresholds l
  let p := ts.map (mpPrecision l) ++ [1]
  let r := ts.map (mpRecall l) ++ [0]
  match (((p.zip r).filter fun e => decide (recall ≤ e.2)).map (·.1)).max? with
  | none => 1 / 2
  | some m =>
    let ix := (List.range p.length).filter fun i => decide (p[i]? = some m)
    if ix.any fun i => decide (ts.length ≤ i) then 1 / 2 else (ix.getLast?.bind fun i => ts[i]?).getD (1 / 2)

/-! ## `train` -/

/-- `train_test_split` of scikit-learn for a number of rows: the rows for training and for the test. -/
def mpSplit (n t : Nat) (perm : List Nat) : Except Err (List Nat × List Nat) :=
  if t = 0 ∨ n ≤ t then .error .valueError else .ok (perm.drop t, perm.take t)

/-- The measures for the test set (260-270). -/
structure MpReport (K : Type) where
  accuracy : K
  precision : K
  recall : K
  f1 : K

/-- `precision_recall_fscore_support(..., average="binary")` and the accuracy; what would be divided by zero is zero. -/
def mpReport (labels pred : List Bool) : MpReport K :=
  let z := labels.zip pred
  let tp := z.countP fun e => e.1 && e.2
  let fp := z.countP fun e => !e.1 && e.2
  let fn := z.countP fun e => e.1 && !e.2
  let p : K := if tp + fp = 0 then 0 else (tp : K) / ((tp + fp : Nat) : K)
  let r : K := if tp + fn = 0 then 0 else (tp : K) / ((tp + fn : Nat) : K)
  ⟨(z.countP fun e => e.1 == e.2 : K) / (z.length : K), p, r, if p + r = 0 then 0 else 2 * p * r / (p + r)⟩

/-- What the classifier is made with: the name, the neighbors and the trees. -/
structure MpMake where
  method : String
  neighbors : Option Int
  trees : Option Int
deriving DecidableEq

/-- The choice of the classifier (237-247); `n_neighbors` is never one of `kwargs`, as it is an argument. -/
def mpMake (method : String) (nEstimators _nNeighbors : Int) : MpMake :=
  if method = "NaiveBayes" ∨ method = "GBDT" then ⟨method, none, none⟩
  else if method = "KNN" then ⟨method, some 5, none⟩
  else ⟨method, none, some nEstimators⟩

/-- What `train` keeps: the classifier (`predict_proba(...)[:, 1]` for a row) and the threshold. -/
structure MpClf (K : Type) where
  proba : List K → Except Err K
  threshold : K

/-- The arguments of `train` (180-189). -/
structure MpArgs (K : Type) where
  method : String
  validSize : Rat
  testSize : Rat
  recall : K
  nEstimators : Int
  nNeighbors : Int

/-- The rows for training, validation and test (210-236). -/
def mpSets (perm perm' : List Nat) (n k : Nat) (a : MpArgs K) : Except Err (List Nat × List Nat × Option (List Nat)) :=
  if a.validSize ≤ 0 ∨ 1 ≤ a.validSize then .error .valueError
  else if n ≠ k then .error .valueError
  else do
    let testSize := if a.testSize ≤ 0 ∨ 1 ≤ a.testSize then 0 else a.testSize
    let v ← mpSplit n (Rat.floor (n * a.validSize)).toNat perm
    if 0 < testSize ∧ testSize < 1 - a.validSize then do
      let t ← mpSplit v.1.length (Rat.floor (n * testSize)).toNat perm'
      return (t.1.map fun i => v.1.getD i 0, v.2, some (t.2.map fun i => v.1.getD i 0))
    else return (List.range n, v.2, none)

/-- `train` (180-275); `fit` makes and trains a classifier. -/
def mpTrain (fit : MpMake → List (List K) → List Bool → Except Err (List K → Except Err K)) (perm perm' : List Nat) (s : Mp K)
    (a : MpArgs K) : Except Err (MpClf K × Option (MpReport K)) :=
  if a.method ∉ ["RandomForest", "GBDT", "KNN", "NaiveBayes"] then .error .valueError
  else do
    let sets ← mpSets perm perm' s.x.length s.labels.length a
    let xs := fun ix : List Nat => ix.map fun i => s.x.getD i []
    let ys := fun ix : List Nat => ix.map fun i => s.labels.getD i false
    let clf ← fit (mpMake a.method a.nEstimators a.nNeighbors) (xs sets.1) (ys sets.1)
    let valid ← (xs sets.2.1).mapM clf
    let t := mpThreshold (valid.zip (ys sets.2.1)) a.recall
    match sets.2.2 with
    | none => return (⟨clf, t⟩, none)
    | some test => do
      let p ← (xs test).mapM clf
      return (⟨clf, t⟩, some (mpReport (ys test) (p.map fun v => decide (t < v))))

/-! ## `pred` and `pred_by_feature` -/

/-- An object: without attributes, or with the data and what was trained. -/
abbrev MpObj (K : Type) := Option (Mp K × Option (MpClf K))

/-- `self.clf`. -/
def mpClf (obj : MpObj K) : Except Err (Mp K × MpClf K) :=
  match obj with
  | none => .error .attributeError
  | some (_, none) => .error .valueError
  | some (s, some c) => .ok (s, c)

/-- `x[np.isnan(x)] = 0.0` and the scaling (338-340) for one row. -/
def mpScaleRow (s : Mp K) (r : List (Option K)) : Except Err (List K) :=
  let r := r.map fun v => v.getD 0
  if s.rescale then
    if r.length = s.mean.length then
      .ok (List.zipWith (fun a b => a / b) (List.zipWith (fun a b => a - b) r s.mean) s.std)
    else .error .valueError
  else .ok r

/-- `pred_by_feature` (315-342): whether the rows are predictable. -/
def mpPredBy (obj : MpObj K) (x : MsInput K) : Except Err (List Bool) := do
  let m ← mpClf obj
  match x with
  | .frame => .error .valueError
  | .rows l =>
    if l = [] ∨ ¬ (∀ r ∈ l, r.length = (l.headD []).length) then .error .valueError
    else do
      let l ← l.mapM (mpScaleRow m.1)
      let p ← l.mapM m.2.proba
      return p.map fun v => decide (v < m.2.threshold)

/-- `pred` (277-313); the copy of the series (294) needs the time column "time". -/
def mpPred (features : List GmFlt → List (String × Option K)) (obj : MpObj K) (timeCol : String) (values : List GmFlt)
    (tsRescale : Bool) : Except Err Bool :=
  if timeCol ≠ "time" then .error .valueError
  else do
    let _ ← mpClf obj
    let f := features (if tsRescale then mdScale values else values)
    let r ← mpPredBy obj (.rows [f.map (·.2)])
    match r.head? with
    | some b => return b
    | none => .error .indexError

end

end Kats
