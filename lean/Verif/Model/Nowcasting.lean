import Verif.Model.NowcastFeatures

/-!
# `kats/models/nowcasting/nowcasting.py`, `nowcastingplus.py`, `dynamic_nowcasting.py`, `model_io.py`

The frames are those of `NowcastFeatures`.  The scikit-learn models, scalers and pickle are parameters.  The value column is
not called `hour`, `minute`, `x`, `label` or like a feature; times are nanoseconds without time zone.  What an object looks
like after an exception is not modelled, nor is the validation of the series in the base class.
-/

namespace Kats

noncomputable section
open Classical

/-! ### Frames -/

/-- Neither NaN nor infinite. -/
def Fl.isFin : Fl → Bool
  | .fin _ => true
  | _ => false

/-- The rows with these positions. -/
def NFrame.keepRows (f : NFrame) (rows : List Nat) : NFrame :=
  ⟨rows.map fun i => f.index.getD i 0, f.cols.map fun p => (p.1, rows.map fun i => p.2.getD i .nan)⟩

/-- `~df.isin([np.nan, np.inf, -np.inf]).any(1)` for one row. -/
def NFrame.rowOk (f : NFrame) (i : Nat) : Bool := f.cols.all fun p => (p.2.getD i .nan).isFin

/-- `df[~df.isin([np.nan, np.inf, -np.inf]).any(1)]` -/
def NFrame.clean (f : NFrame) : NFrame := f.keepRows ((List.range f.index.length).filter fun i => f.rowOk i)

/-- `df[-step:]` -/
def NFrame.lastRows (f : NFrame) (step : Int) : NFrame := f.keepRows (pyFrom (List.range f.index.length) (-step))

/-- `df[names]` row by row. -/
def NFrame.matrix (f : NFrame) (names : List String) : Except Err (List (List Fl)) := do
  let cols ← names.mapM f.col
  .ok ((List.range f.index.length).map fun i : Nat => cols.map fun v => v.getD i .nan)

/-- `df[name] = s`, aligned on the labels. -/
def NFrame.setCol (f : NFrame) (name : String) (s : List (Int × Fl)) : NFrame :=
  let v := f.index.map fun l => (s.lookup l).getD .nan
  if name ∈ f.cols.map Prod.fst then { f with cols := f.cols.map fun p => if p.1 = name then (name, v) else p }
  else { f with cols := f.cols ++ [(name, v)] }

/-- `for n in ns: df = F(df, n)` -/
def addAll (F : NFrame → Int → String → Except Err NFrame) (ns : List Int) (f : NFrame) : Except Err NFrame :=
  ns.foldlM (fun f n => F f n "y") f

/-! ### The data -/

/-- The series: the names of its columns, whether there is one value column, times and values. -/
structure NcData where
  tname : String
  vname : String
  univariate : Bool
  times : List Int
  y : List Fl

/-- `data.to_dataframe()`, without the column of times. -/
def NcData.frame (d : NcData) : NFrame := ⟨(List.range d.y.length).map fun i : Nat => (i : Int), [(d.vname, d.y)]⟩

/-- Models, scalers and serialization. -/
structure NcWorld (M S T : Type) where
  train : List (List Fl) → List Fl → Except Err M
  predict : M → List (List Fl) → Except Err (List Fl)
  linear : List (List ℝ) → List Fl → Except Err (List ℝ × ℝ)
  scale : List (List Fl) → Except Err (S × List (List Fl))
  transform : S → List (List Fl) → Except Err (List (List Fl))
  power : List Fl → Except Err (T × List Fl)
  unpower : T → List Fl → Except Err (List Fl)
  dumps : M → List UInt8
  loads : List UInt8 → Except Err M

/-! ### `nowcasting.py` -/

/-- 58-92, the attributes of `NowcastingModel`. -/
structure Nowcaster (M : Type) where
  data : NcData
  df : NFrame
  step : Int
  model : Option M
  features : List String

variable {M S T : Type}

/-- `NowcastingModel.__init__`, lines 71-92. -/
def Nowcaster.init (d : NcData) (step : Int) (model : Option M) (features : List String) : Except Err (Nowcaster M) :=
  if d.univariate then .ok ⟨d, d.frame, step, model, features⟩ else .error .valueError

/-- The names of a group of features. -/
def featNames (kind : String) (ns : List Int) : List String := ns.map fun n => kind ++ toString n

/-- The windows of 121 and 124. -/
def ncWindows : List Int := [10, 15, 20, 25, 30]

/-- `NowcastingModel.feature_extraction`, lines 94-131. -/
def Nowcaster.featureExtraction (s : Nowcaster M) : Except Err (Nowcaster M) := do
  let df ← addAll nfROC ncWindows s.df
  let df ← addAll nfLAG ncWindows df
  .ok { s with df := df.clean, features := featNames "ROC_" ncWindows ++ featNames "LAG_" ncWindows }

/-- `NowcastingModel.label_extraction`, lines 133-139. -/
def Nowcaster.labelExtraction (s : Nowcaster M) : Except Err (Nowcaster M) := do
  let g ← nfLAG s.data.frame (-s.step) "y"
  let v ← g.col ("LAG_-" ++ toString s.step)
  .ok { s with df := s.df.setCol "label" (g.own v) }

/-- `NowcastingModel.fit`, lines 143-156. -/
def Nowcaster.fit (W : NcWorld M S T) (s : Nowcaster M) : Except Err (Nowcaster M) := do
  let x ← s.df.clean.matrix s.features
  let y ← s.df.clean.col "label"
  let m ← W.train x y
  .ok { s with model := some m }

/-- `self.model.predict(·)`: without a model this is an `AttributeError`, before the argument is looked at. -/
def ncPredict (W : NcWorld M S T) (model : Option M) (x : Except Err (List (List Fl))) : Except Err (List Fl) :=
  match model with
  | none => .error .attributeError
  | some m => x >>= W.predict m

/-- `NowcastingModel.predict`, lines 167-195; a given model is taken to be true. -/
def Nowcaster.predict (W : NcWorld M S T) (s : Nowcaster M) (model : Option M) (df : Option NFrame) : Nowcaster M × Except Err (List Fl) :=
  let s' := { s with model := model <|> s.model }
  match df with
  | some g => (s', if "y" ∈ s.df.cols.map Prod.fst then ncPredict W s'.model (g.matrix s.features) else .error .otherError)
  | none => (s', ncPredict W s'.model ((s.df.lastRows s.step).matrix s.features))

/-! ### `model_io.py` -/

/-- `serialize`, lines 27-39. -/
def ncSerialize (W : NcWorld M S T) : Option M → List UInt8
  | none => []
  | some m => W.dumps m

/-- `deserialize`, lines 42-57. -/
def ncDeserialize (W : NcWorld M S T) (b : List UInt8) : Except Err (Option M) :=
  if b = [] then .ok none else (W.loads b).map some

/-! ### `nowcastingplus.py` and `dynamic_nowcasting.py` -/

/-- The minute of the day (`hour * 60 + minute`) of a time in nanoseconds; 130-132 of `nowcastingplus.py`, 132-134 of
`dynamic_nowcasting.py`. -/
def ncMinute (t : Int) : Int := t / 60000000000 % 1440

/-- The powers `x ** 0` to `x ** 5` (138-140 and 140-142). -/
def polyRow (x : ℝ) : List ℝ := (List.range 6).map fun k => x ^ k

/-- The rows that are left in `df_poly` (142-146 and 144-148). -/
def ncPolyRows (d : NcData) : List Nat := (List.range d.y.length).filter fun i => (d.y.getD i .nan).isFin

/-- The seasonal polynomial at the rows of `df_poly` (130-166 and 132-168). -/
def ncSeason (W : NcWorld M S T) (d : NcData) : Except Err (List ℝ) :=
  if d.tname ≠ "time" then .error .keyError
  else if d.vname ≠ "y" then .error .keyError
  else do
    let xs := (ncPolyRows d).map fun i => ((ncMinute (d.times.getD i 0) : Int) : ℝ)
    let c ← W.linear (xs.map polyRow) ((ncPolyRows d).map fun i => d.y.getD i .nan)
    .ok (xs.map fun x => c.2 + (List.zipWith (· * ·) c.1 (polyRow x)).sum)

/-- The attributes of `NowcastingPlusModel` and of the dynamic `NowcastingModel` that are used. -/
structure NcPlus (M S T : Type) where
  data : NcData
  df : NFrame
  step : Int
  model : Option M
  features : List String
  scaler : Option S
  labelScaler : Option T
  season : Option (List ℝ)

/-- The constructors, lines 84-123 and 86-125, without optional arguments. -/
def NcPlus.init (d : NcData) (step : Int) : Except Err (NcPlus M S T) :=
  if d.univariate then .ok ⟨d, d.frame, step, none, [], none, none, none⟩ else .error .valueError

/-- `NowcastingPlusModel.feature_extraction`, lines 125-186. -/
def NcPlus.featureExtraction (W : NcWorld M S T) (s : NcPlus M S T) : Except Err (NcPlus M S T) := do
  let season ← ncSeason W s.data
  let df ← addAll nfMOM ncWindows s.df
  let df ← addAll nfROC ncWindows df
  let df ← addAll nfLAG [1, 2, 3, 4, 5] df
  let df ← addAll nfMA [10, 20, 30] df
  .ok { s with
    season := some season
    df := df.clean
    features := featNames "MOM_" ncWindows ++ featNames "ROC_" ncWindows ++ featNames "LAG_" [1, 2, 3, 4, 5] ++ featNames "MA_" [10, 20, 30] }

/-- `np.sum(self.df["y"].isin([0.0])) > 0` -/
def hasZero (y : List Fl) : Bool := y.any fun v => decide (v = .fin 0)

/-- `NowcastingModel.feature_extraction` of `dynamic_nowcasting.py`, lines 127-205. -/
def NcPlus.dynFeatures (W : NcWorld M S T) (s : NcPlus M S T) : Except Err (NcPlus M S T) := do
  let season ← ncSeason W s.data
  let y ← s.df.col "y"
  if hasZero y then
    let df ← addAll nfMOM ncWindows s.df
    let df ← addAll nfLAG ncWindows df
    .ok { s with season := some season, df := df.clean, features := featNames "MOM_" ncWindows ++ featNames "LAG_" ncWindows }
  else
    let df ← addAll nfROC ncWindows s.df
    let df ← addAll nfMOM ncWindows df
    let df ← addAll nfLAG [1, 2, 3, 4, 5, 20] df
    let df ← addAll nfMA [10, 20, 30, 40] df
    .ok { s with
      season := some season
      df := df.clean
      features := featNames "ROC_" ncWindows ++ featNames "MOM_" ncWindows ++ featNames "LAG_" [1, 2, 3, 4, 5, 20] ++ featNames "MA_" [10, 20, 30, 40] }

/-- `label_extraction`, lines 188-190 and 207-213. -/
def NcPlus.labelExtraction (s : NcPlus M S T) : Except Err (NcPlus M S T) := do
  let y ← s.df.col "y"
  .ok { s with df := s.df.setCol "label" (s.df.own y) }

/-- `self.y_train_season_obj[train_index]`: the labels are used as positions. -/
def ncSeasonAt (season : Option (List ℝ)) (labels : List Int) : Except Err (List ℝ) :=
  match season with
  | none => .error .typeError
  | some l => labels.mapM fun i =>
      let j : Int := if i < 0 then i + (l.length : Int) else i
      if 0 ≤ j ∧ j < (l.length : Int) then .ok (l.getD j.toNat 0) else .error .indexError

/-- The labels of the training, `(label - season).diff(-n)[:-n]` (209-211, 233-235 and 259-261). -/
def ncTargets (s : NcPlus M S T) (n : Int) : Except Err (List Fl) := do
  let y ← s.df.clean.col "label"
  let r ← ncSeasonAt s.season s.df.clean.index
  .ok (pyTo (diffFl (List.zipWith (fun v p => v - .fin p) y r) (-n)) (-n))

/-- `NowcastingPlusModel.fit`, lines 194-216. -/
def NcPlus.fit (W : NcWorld M S T) (s : NcPlus M S T) : Except Err (NcPlus M S T) := do
  let x ← s.df.clean.matrix s.features
  let sx ← W.scale x
  let y ← ncTargets s s.step
  let m ← W.train (pyTo sx.2 (-s.step)) y
  .ok { s with model := some m, scaler := some sx.1 }

/-- `NowcastingModel.fit` of `dynamic_nowcasting.py`, lines 217-266: always one step. -/
def NcPlus.dynFit (W : NcWorld M S T) (s : NcPlus M S T) : Except Err (NcPlus M S T) := do
  let v ← s.df.col "y"
  if hasZero v then
    let x ← s.df.clean.matrix s.features
    let y ← ncTargets s 1
    let m ← W.train (pyTo x (-1)) y
    .ok { s with model := some m }
  else
    let x ← s.df.clean.matrix s.features
    let sx ← W.scale x
    let y ← ncTargets s 1
    let ty ← W.power y
    let m ← W.train (pyTo sx.2 (-1)) ty.2
    .ok { s with model := some m, scaler := some sx.1, labelScaler := some ty.1 }

/-- The seasonal values now and next (244-246, 301-303 and 309-311): the position of the first value equal to the last one, and
`step` after it. -/
def seasonNext (season : Option (List ℝ)) (step : Int) : Except Err (ℝ × ℝ) :=
  match season with
  | none => .error .typeError
  | some l =>
    match l.getLast? with
    | none => .error .indexError
    | some now => do
      let next ← ncSeasonAt (some l) [(l.idxOf now : Int) + step]
      .ok (now, next.getD 0 0)

/-- `(now - poly_now) - y_predict + polynext` (248, 305 and 314); the lengths agree as both come from the last `step` rows. -/
def ncForecast (now : List Fl) (p : ℝ × ℝ) (pred : List Fl) : List Fl :=
  List.zipWith (fun v d => v - .fin p.1 - d + .fin p.2) now pred

/-- `NowcastingPlusModel.predict`, lines 227-248. -/
def NcPlus.predict (W : NcWorld M S T) (s : NcPlus M S T) : Except Err (List Fl) := do
  let x ← (s.df.lastRows s.step).matrix s.features
  match s.scaler with
  | none => .error .attributeError
  | some sc => do
    let x ← W.transform sc x
    let d ← ncPredict W s.model (.ok x)
    let p ← seasonNext s.season s.step
    let now ← (s.df.lastRows s.step).col "y"
    .ok (ncForecast now p d)

/-- `NowcastingModel.predict` of `dynamic_nowcasting.py`, lines 277-314. -/
def NcPlus.dynPredict (W : NcWorld M S T) (s : NcPlus M S T) : Except Err (List Fl) := do
  let v ← s.df.col "y"
  if hasZero v then
    let x ← (s.df.lastRows s.step).matrix s.features
    let d ← ncPredict W s.model (.ok x)
    let p ← seasonNext s.season s.step
    let now ← (s.df.lastRows s.step).col "y"
    .ok (ncForecast now p d)
  else
    let x ← (s.df.lastRows s.step).matrix s.features
    match s.scaler, s.labelScaler with
    | some sc, some lsc => do
      let x ← W.transform sc x
      let d ← ncPredict W s.model (.ok x)
      let d ← W.unpower lsc d
      let p ← seasonNext s.season s.step
      let now ← (s.df.lastRows s.step).col "y"
      .ok (ncForecast now p d)
    | _, _ => .error .attributeError

end

end Kats
