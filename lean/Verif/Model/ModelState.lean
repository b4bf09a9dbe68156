import Verif.Model.CusumModel
import Verif.Model.TimeSeries
import Mathlib.Data.Real.Basic

/-!
# State of the CUSUM and BOCPD detector models

`kats/detectors/cusum_model.py` (construction, serialisation, equality, object traffic of
`fit_predict`) and `kats/detectors/bocpd_model.py`.
-/

namespace Kats

/-! ### `CUSUMDetectorModel` -/

/-- All attributes of a `CUSUMDetectorModel` (200-289), that is, its `__dict__`.  The state part is
`CusumState` of `CusumModel`.  Simplified: floats are rationals. -/
structure CusumAttrs where
  st : CusumState
  scanWindow : Int
  histWindow : Int
  stepWindow : Option Int
  threshold : Rat
  deltaStdRatio : Rat
  magQuantile : Option Rat
  magRatio : Rat
  changeDirections : Option (List String)
  scoreFunc : String
  remSeason : Bool
  seasonFreq : String
  vectorized : Bool
  adapted : Bool
  transFlag : Bool
deriving DecidableEq

/-- The json dictionary: the four newest keys may be missing in old files (225-245). -/
structure CusumJson where
  st : CusumState
  scanWindow : Int
  histWindow : Int
  stepWindow : Option Int
  threshold : Rat
  deltaStdRatio : Rat
  magQuantile : Option Rat
  magRatio : Rat
  changeDirections : Option (List String)
  scoreFunc : String
  remSeason : Option Bool
  seasonFreq : Option String
  vectorized : Option Bool
  adapted : Option Bool

/-- 312-317, `serialize`: `json.dumps(self.__dict__)`.  `vectorized_trans_flag` is written too, but
never read. -/
def CusumAttrs.serialize (c : CusumAttrs) : CusumJson :=
  { st := c.st, scanWindow := c.scanWindow, histWindow := c.histWindow, stepWindow := c.stepWindow
    threshold := c.threshold, deltaStdRatio := c.deltaStdRatio, magQuantile := c.magQuantile
    magRatio := c.magRatio, changeDirections := c.changeDirections, scoreFunc := c.scoreFunc
    remSeason := some c.remSeason, seasonFreq := some c.seasonFreq, vectorized := some c.vectorized
    adapted := some c.adapted }

/-- The constructor arguments (183-199).  `changeDirections` is a list (a single string is put into a
list first, 266-267). -/
structure CModelArgs where
  scanWindow : Option Int := none
  histWindow : Option Int := none
  stepWindow : Option Int := none
  threshold : Rat := 1 / 100
  deltaStdRatio : Rat := 1
  magQuantile : Option Rat := none
  magRatio : Rat := 13 / 10
  changeDirections : Option (List String) := none
  scoreFunc : String := "change"
  remSeason : Bool := false
  seasonFreq : String := "daily"
  vectorized : Option Bool := none
  adapted : Option Bool := none

/-- 130-135 and 275-281: an unknown name becomes the default. -/
def scoreFuncName (s : String) : String :=
  if s ∈ ["change", "percentage_change", "z_score"] then s else "change"

/-- 181-289, `__init__`. -/
def CusumAttrs.init (a : CModelArgs) : Option CusumJson → Except Err CusumAttrs
  | some j => .ok
    { st := j.st, scanWindow := j.scanWindow, histWindow := j.histWindow, stepWindow := j.stepWindow
      threshold := j.threshold, deltaStdRatio := j.deltaStdRatio, magQuantile := j.magQuantile
      magRatio := j.magRatio, changeDirections := j.changeDirections, scoreFunc := j.scoreFunc
      remSeason := j.remSeason.getD a.remSeason, seasonFreq := j.seasonFreq.getD "daily"
      vectorized := a.vectorized.getD (j.vectorized.getD false)
      adapted := a.adapted.getD (j.adapted.getD false), transFlag := false }
  | none =>
    match a.scanWindow, a.histWindow with
    | some s, some h => .ok
      { st := CusumState.init, scanWindow := s, histWindow := h, stepWindow := a.stepWindow
        threshold := a.threshold, deltaStdRatio := a.deltaStdRatio, magQuantile := a.magQuantile
        magRatio := a.magRatio, changeDirections := a.changeDirections
        scoreFunc := scoreFuncName a.scoreFunc, remSeason := a.remSeason, seasonFreq := a.seasonFreq
        vectorized := a.vectorized.getD false, adapted := a.adapted.getD false, transFlag := false }
    | _, _ => .error .otherError

/-- 291-310, `__eq__` of two models. -/
def CusumAttrs.eq (a b : CusumAttrs) : Bool :=
  a.st == b.st && a.scanWindow == b.scanWindow && a.histWindow == b.histWindow
    && a.stepWindow == b.stepWindow && a.threshold == b.threshold
    && a.deltaStdRatio == b.deltaStdRatio && a.magQuantile == b.magQuantile
    && a.magRatio == b.magRatio && a.changeDirections == b.changeDirections
    && a.scoreFunc == b.scoreFunc

/-- The configuration that the model of `fit_predict` (`cusumFitPredict`) reads; windows in seconds
become nanoseconds (624-625), and the score function is looked up by name. -/
def CusumAttrs.cfg (c : CusumAttrs) (scores : String → Rat → Option Rat → Option Rat → Option Rat) :
    CusumCfg :=
  { scanWindow := c.scanWindow * nsPerSec, histWindow := c.histWindow * nsPerSec
    stepWindow := c.stepWindow.map (· * nsPerSec), deltaStdRatio := c.deltaStdRatio
    changeDirections := c.changeDirections, adapted := c.adapted, score := scores c.scoreFunc }

/-! ### Series objects

`TimeSeriesData` objects are mutable; which object is changed matters.  The store is a list of the
contents of the objects made so far, a reference is a position. -/

/-- The contents of all series objects. -/
abbrev Store (V : Type) := List (List (Row V))

/-- Contents of an object. -/
def Store.get {V : Type} (s : Store V) (r : Nat) : List (Row V) := s.getD r []

/-- A new object. -/
def Store.new {V : Type} (s : Store V) (rows : List (Row V)) : Nat × Store V := (s.length, s ++ [rows])

/-- `obj.extend(other, validate=False)` (`kats/consts.py` 655-692), in place. -/
def Store.extend {V : Type} (s : Store V) (r other : Nat) : Store V :=
  s.set r (s.get r ++ s.get other)

/-- `obj[i:j]`: a new object (`kats/consts.py` 554-558); the rows stay in order. -/
def Store.slice {V : Type} (s : Store V) (r i j : Nat) : Nat × Store V :=
  s.new (((s.get r).take j).drop i)

/-- `kats/detectors/cusum_model.py` 904-927 and 932-955, one scan: slices of the working copy for
`_fit`, which extends the history slice (445), and the extension of the two score objects by new
ones. -/
def cusumScanObjs {V : Type} (all score change : Nat) (w : Nat × Nat × Nat) (sc ch : List (Row V))
    (s : Store V) : Store V :=
  let (inData, s) := s.slice all w.2.1 w.2.2
  let (inHist, s) := s.slice all w.1 w.2.1
  let s := s.extend inHist inData
  let (p, s) := s.new sc
  let s := s.extend score p
  let (q, s) := s.new ch
  s.extend change q

/-- `fit_predict` (594-971) as far as objects are concerned: the copy or slice of 633-644, the score
objects (705-706) and the scans, with their windows and the rows they add to the scores. -/
def cusumObjs {V : Type} (data : Nat) (hist : Option Nat)
    (scans : List ((Nat × Nat × Nat) × List (Row V) × List (Row V))) (zeros : List (Row V))
    (s : Store V) : Store V :=
  let (all, s) :=
    match hist with
    | some h =>
      let (all, s) := s.slice h 0 (s.get h).length
      (all, s.extend all data)
    | none => s.slice data 0 (s.get data).length
  let (score, s) := s.new zeros
  let (change, s) := s.new zeros
  scans.foldl (fun s x => cusumScanObjs all score change x.1 x.2.1 x.2.2 s) s

/-! ### `BocpdDetectorModel` and `BocpdTrendDetectorModel` -/

/-- `BOCPDModelType`, as used here. -/
inductive BocpdKind where
  | normalKnown | trendChange
deriving DecidableEq

/-- The attributes that are set from arguments (43-64). -/
structure BMCfg where
  slowDrift : Bool := false
  threshold : Option ℝ := none

/-- The json dictionary (66-76): only `slow_drift` is written; both keys may be missing. -/
structure BMJson where
  slowDrift : Option Bool
  threshold : Option (Option ℝ)

/-- 66-76, `serialize`. -/
def BMCfg.serialize (c : BMCfg) : BMJson := ⟨some c.slowDrift, none⟩

/-- 43-64, `__init__`. -/
def BMCfg.init (slowDrift : Bool) (threshold : Option ℝ) : Option BMJson → BMCfg
  | none => ⟨slowDrift, threshold⟩
  | some j => ⟨j.slowDrift.getD slowDrift, j.threshold.getD threshold⟩

/-- What the model calls: `BOCPDetector(data).detector(model, choose_priors, agg_cp=True, threshold)`
followed by `get_change_prob()` of the single column, and the sort of `TimeSeriesData`. -/
structure BMWorld where
  srt : TimeSort ℝ
  changeProb : BocpdKind → (choosePriors : Bool) → (threshold : Option ℝ) → List (Row ℝ) →
    Except Err (List ℝ)

/-- 118-146: the call of the detector. -/
def BMCfg.call (W : BMWorld) (c : BMCfg) (rows : List (Row ℝ)) : Except Err (List ℝ) :=
  if c.slowDrift then
    match c.threshold with
    | some t => W.changeProb .normalKnown true (some t) rows
    | none => W.changeProb .trendChange false none rows
  else
    match c.threshold with
    | some t => W.changeProb .normalKnown true (some t) rows
    | none => W.changeProb .normalKnown true none rows

/-- A row of the response: score, band and prediction (the data itself), magnitude and significance
(zero). -/
structure BMRow where
  time : Int
  score : ℝ
  value : ℝ

/-- What a call leaves behind. -/
structure BMOut where
  result : Except Err (List BMRow)
  callerHist : Option (List (Row ℝ))

/-- 106-116: the series that is scored. -/
def bmAll (W : BMWorld) (data : List (Row ℝ)) : Option (List (Row ℝ)) → List (Row ℝ)
  | some h => buildRows W.srt true false (h ++ data)
  | none => data

/-- 78-168, `fit_predict`. -/
noncomputable def bmFitPredict (W : BMWorld) (c : BMCfg) (data : List (Row ℝ))
    (hist : Option (List (Row ℝ))) : BMOut :=
  -- 106-116: the caller's history is extended in place, then copied
  let all := bmAll W data hist
  { callerHist := hist.map fun h => h ++ data
    result := do
      let p ← c.call W all
      -- 155-160: as many probabilities as rows, or an exception
      let scores ← construct W.srt
        { df := none, time := some (all.map (·.1)), value := some (p, true) }
      pure (pyFrom ((scores.zip all).map fun x => ⟨x.1.1, x.1.2, x.2.2⟩) (-(data.length : Int))) }

/-- 193-243: `BocpdTrendDetectorModel.fit_predict`; `holt` is `_holt_winter_fit` as a function of
`alpha`, `beta` and `gamma`, called with its defaults, and history is ignored. -/
noncomputable def bmTrendFitPredict (W : BMWorld) (holt : ℝ → ℝ → ℝ → List (Row ℝ) → List (Row ℝ))
    (_alpha _beta : ℝ) (data : List (Row ℝ)) (hist : Option (List (Row ℝ))) : BMOut :=
  { callerHist := hist
    result := (bmFitPredict W {} (holt (1 / 10) (1 / 10) (1 / 10) data) none).result }

end Kats
