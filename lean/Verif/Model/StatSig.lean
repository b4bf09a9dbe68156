import Verif.Model.PercentageChange
import Verif.Model.TimeSeries

/-!
# `kats/detectors/stat_sig_detector.py`: `StatSigDetectorModel`

The six component series of a response share their time stamps, so a response is one table.
Time stamps and `Timedelta`s are integers.  The seasonal decomposition and `scipy.stats.ttest_ind` are
parameters.
-/

namespace Kats

noncomputable section
open Classical

/-- A univariate series. -/
abbrev SSeries := List (Int × ℝ)

/-- One row of the response (`detector_consts.py` 563-586). -/
structure SSRow where
  score : Fl
  upper : Fl
  lower : Fl
  pred : Fl
  mag : Fl
  sig : Fl

/-- A response: scores, band, prediction, magnitude and significance by time. -/
abbrev SSResp := List (Int × SSRow)

/-- The attributes set by `__init__` that decide what `fit_predict` does
(`stat_sig_detector.py` 92-180).  `unit` is `pd.Timedelta(time_unit)`.  Simplified: the counts are
non-negative. -/
structure SSCfg where
  nControl : Nat
  nTest : Nat
  unit : Option Int := none
  remSeason : Bool := false
  seasonalPeriod : String := "weekly"
  corrected : Bool := true
  maxSplit : Nat := 500
  scoresOnly : Bool := false
  minPerc : ℝ := 0

/-- What the detector calls: the sort of `TimeSeriesData`, `scipy` quantiles, the statistic of
`scipy.stats.ttest_ind(a, b, equal_var=True)`, and the decomposition of `SeasonalityHandler`
(seasonal part, rest; `kats/utils/decomposition.py` 442-482). -/
structure SSWorld where
  srt : TimeSort ℝ
  S : ScipyT
  ttestInd : List ℝ → List ℝ → Fl
  season : String → SSeries → Except Err (List ℝ × List ℝ)

/-! ### Serialisation -/

/-- The json dictionary written by `serialize` (182-197); `get` with a default (111-127) makes the
other keys optional. -/
structure SSJson where
  nControl : Nat
  nTest : Nat
  unit : Option Int
  remSeason : Option Bool
  seasonalPeriod : Option String
  corrected : Option Bool
  maxSplit : Option Nat
  minPerc : Option ℝ

/-- 182-197, `serialize`. -/
def SSCfg.serialize (c : SSCfg) : SSJson :=
  { nControl := c.nControl, nTest := c.nTest, unit := c.unit, remSeason := some c.remSeason
    seasonalPeriod := some c.seasonalPeriod, corrected := some c.corrected
    maxSplit := some c.maxSplit, minPerc := some c.minPerc }

/-- The arguments of the constructor (92-104). -/
structure SSArgs where
  nControl : Option Nat := none
  nTest : Option Nat := none
  unit : Option Int := none
  remSeason : Bool := false
  seasonalPeriod : String := "weekly"
  corrected : Bool := true
  maxSplit : Nat := 500
  scoresOnly : Bool := false
  minPerc : ℝ := 0

/-- 105-180, `__init__`.  Simplified: the time unit is valid (166-178). -/
def SSCfg.init (a : SSArgs) : Option SSJson → Except Err SSCfg
  | some j =>
    .ok { nControl := j.nControl, nTest := j.nTest, unit := j.unit
          remSeason := j.remSeason.getD a.remSeason
          seasonalPeriod := j.seasonalPeriod.getD a.seasonalPeriod
          corrected := j.corrected.getD a.corrected
          maxSplit := j.maxSplit.getD a.maxSplit
          minPerc := j.minPerc.getD a.minPerc
          scoresOnly := a.scoresOnly }
  | none =>
    match a.nControl, a.nTest with
    | some c, some t =>
      .ok { nControl := c, nTest := t, unit := a.unit, remSeason := a.remSeason
            seasonalPeriod := a.seasonalPeriod, corrected := a.corrected, maxSplit := a.maxSplit
            minPerc := a.minPerc, scoresOnly := a.scoresOnly }
    | _, _ => .error .otherError

/-- The attributes of `MultiStatSigDetectorModel` (999-1024). -/
structure MSCfg where
  base : SSCfg
  method : String := "fdr_bh"
  skipRescaling : Bool := false

/-- 1012-1024, `MultiStatSigDetectorModel.__init__`: the base constructor gets its own defaults for
`use_corrected_scores`, `max_split_ts_length` and `anomaly_scores_only`; afterwards
`use_corrected_scores` is overwritten by the argument. -/
def MSCfg.init (a : SSArgs) (method : String) (skip corrected : Bool) (j : Option SSJson) :
    Except Err MSCfg := do
  let b ← SSCfg.init { a with corrected := true, maxSplit := 500, scoresOnly := false } j
  pure { base := { b with corrected := corrected }, method := method, skipRescaling := skip }

/-! ### One call of `fit_predict` -/

/-- 671-690, `_set_time_unit`: keep the unit, or infer it. -/
def ssUnit (c : SSCfg) (data : SSeries) (hist : Option SSeries) : Except Err Int :=
  match c.unit with
  | some u => .ok u
  | none =>
    if 3 ≤ data.length then TSD.inferFreqRobust ⟨data, true⟩
    else if 3 ≤ (hist.getD []).length then TSD.inferFreqRobust ⟨hist.getD [], true⟩
    else .error .otherError

/-- 791-816, `_init_response`. -/
def ssInitResp (data : SSeries) : SSResp :=
  data.map fun r => (r.1, ⟨.fin 0, .fin r.2, .fin r.2, .fin r.2, .fin 0, .fin 0⟩)

/-- `n_control + n_test - 1` (725-727, 741) as a Python integer. -/
def SSCfg.numHist (c : SSCfg) : Int := (c.nControl : Int) + c.nTest - 1

/-- 705-728, `_should_update`; an empty history is falsy. -/
def ssShouldUpdate (c : SSCfg) (u : Int) (data : SSeries) (hist : Option SSeries) : Except Err Bool :=
  match data.head?, data.getLast? with
  | some f, some l =>
    let start := ((hist.getD []).head?.getD f).1
    .ok (decide (start + c.numHist * u ≤ l.1))
  | _, _ => .error .indexError

/-- 744-753: is the history long enough? -/
def ssEnough (c : SSCfg) (u : Int) (hist : Option SSeries) : Bool :=
  match (hist.getD []).head?, (hist.getD []).getLast? with
  | some f, some l => decide (f.1 + c.numHist * u ≤ l.1)
  | _, _ => false

/-- 730-777, `_handle_not_enough_history`: the data, the history and the caller's history object
after the call (759 extends it in place). -/
def ssSplit (W : SSWorld) (c : SSCfg) (u : Int) (data : SSeries) (hist : Option SSeries) :
    SSeries × Option SSeries × Option SSeries :=
  if ssEnough c u hist then (data, hist, hist)
  else
    let total := hist.getD [] ++ data
    let first := (total.head?.getD (0, 0)).1
    let last := first + c.numHist * u
    (buildRows W.srt true false (total.filter fun r => !decide (r.1 < last)),
      some (buildRows W.srt true false (total.filter fun r => decide (r.1 < last))),
      hist.map fun _ => total)

/-- 842-866, `_get_start_end_dates` for a series whose last time is `t`, and the two intervals of
887-903 filled with the rows seen so far. -/
def ssPct (c : SSCfg) (u : Int) (seen : SSeries) (t : Int) : PctChange :=
  let testEnd := t + u
  let testStart := testEnd - c.nTest * u
  { current := CPInterval.setData { start := testStart, stop := testEnd } seen
    previous := CPInterval.setData
      { start := testEnd - ((c.nTest : Int) + c.nControl) * u, stop := testStart } seen
    corrected := c.corrected
    minPerc := c.minPerc }

/-- 825-840: the values written by `_update_response`. -/
def ssRow (W : SSWorld) (p : PctChange) : SSRow :=
  { score := p.score W.S, upper := p.ciUpper W.S, lower := p.ciLower W.S
    pred := p.previous.meanVal, mag := p.current.meanVal - p.previous.meanVal
    sig := if p.statSig W.S then .fin 1 else .fin 0 }

/-- `inplace_update` (`detector_consts.py` 654-690) on the table. -/
def ssWrite (t : Int) (row : SSRow) (resp : SSResp) : SSResp :=
  resp.map fun r => if r.1 = t then (r.1, row) else r

/-- 309-319: add each point to the history, move the intervals, overwrite the response. -/
def ssLoop (W : SSWorld) (rowOf : PctChange → SSRow) (c : SSCfg) (u : Int) :
    SSeries → SSeries → SSResp → SSResp
  | _, [], resp => resp
  | seen, p :: ps, resp =>
    let seen' := buildRows W.srt true false (seen ++ [p])
    ssLoop W rowOf c u seen' ps (ssWrite p.1 (rowOf (ssPct c u seen' p.1)) resp)

/-- 397-458, `_get_anomaly_scores_only`: label slices of the concatenated series, which include both
ends; the last row of the control slice is dropped when the test start is a time stamp. -/
def ssScoresOnly (W : SSWorld) (c : SSCfg) (u : Int) (data : SSeries) (hist : Option SSeries) :
    SSResp :=
  let total := hist.getD [] ++ data
  let slice (a b : Int) : List ℝ :=
    (total.filter fun r => decide (a ≤ r.1) && decide (r.1 ≤ b)).map (·.2)
  data.map fun r =>
    let testStart := r.1 - ((c.nTest : Int) - 1) * u
    let controlStart := testStart - c.nControl * u
    let g1 :=
      if total.any (fun q => decide (q.1 = testStart)) then
        pyTo (slice controlStart testStart) (-1)
      else slice controlStart testStart
    let score :=
      if (total.head?.getD r).1 ≤ controlStart then W.ttestInd (slice testStart r.1) g1 else .fin 0
    -- the remaining components are absent (no band, no prediction, no significance)
    (r.1, ⟨score, .nan, .nan, .nan, .fin 0, .nan⟩)

/-! ### Long series -/

/-- 485-489, one more sequence: the last `h` values of the previous one and the next chunk. -/
def bigStep (h : Nat) (acc : List (List ℝ)) (chunk : List ℝ) : List (List ℝ) :=
  acc ++ [pyFrom (acc.getLastD []) (-(h : Int)) ++ chunk]

/-- 467-470: number of sequences. -/
def bigCount (n m : Nat) : Nat := n / m + if 0 < n % m then 1 else 0

/-- 470: number of padding values. -/
def bigRemaining (n m : Nat) : Nat := (m * bigCount n m - n) % m

/-- 460-490, the sequences of `_reorganize_big_data`, before the padding. -/
def bigSeqs (h data : List ℝ) (m : Nat) : List (List ℝ) :=
  ((List.range (bigCount data.length m - 1)).map fun k => (data.drop ((k + 1) * m)).take m).foldl
    (bigStep h.length) [h ++ data.take m]

/-- 490, `new_ts[-1] += [1] * remaining`. -/
def bigPad (seqs : List (List ℝ)) (r : Nat) : List (List ℝ) :=
  seqs.dropLast ++ [seqs.getLastD [] ++ List.replicate r 1]

/-- 452-475 of `detector_consts.py` and 1225-1242: what the multivariate detector writes for one
column, with `skip_rescaling=True`. -/
def msRow (W : SSWorld) (p : PctChange) : SSRow :=
  let t :=
    if p.previous.len = 1 ∧ p.current.len = 1 then Fl.pinf
    else if p.previous.len = 1 ∨ p.current.len = 1 then (p.ttestManual W.S).1
    else W.ttestInd (p.current.data.getD []) (p.previous.data.getD [])
  { ssRow W p with score := if Fl.lt (Fl.abs p.percChange) (.fin p.minPerc) then .fin 0 else t }

/-- 1026-1189, `MultiStatSigDetectorModel.fit_predict` for one column, without history and without
seasonality.  Simplified: the columns share their times and are treated one by one. -/
def msColumn (W : SSWorld) (c : SSCfg) (u : Int) (col : SSeries) : Except Err SSResp := do
  if ← ssShouldUpdate c u col none then
    let (data, hist, _) := ssSplit W c u col none
    if (hist.getD []).isEmpty then .error .indexError
    else pure (ssLoop W (msRow W) c u (hist.getD []) data (ssInitResp col))
  else pure (ssInitResp col)

/-- 520-526 and its copies: rows from `len(history)` on, columns one after the other, without the
last `remaining`. -/
def bigFlatten (h r : Nat) (cols : List SSResp) : List SSRow :=
  pyTo (cols.flatMap fun col => (col.drop h).map (·.2)) (-(r : Int))

/-- 504-599, `_reorganize_back`: missing rows at the start keep the initial response. -/
def bigBack (h r : Nat) (cols : List SSResp) (resp : SSResp) : Except Err SSResp :=
  let res := bigFlatten h r cols
  if resp.length < res.length then .error .valueError
  else .ok ((resp.map (·.1)).zip ((resp.take (resp.length - res.length)).map (·.2) ++ res))

/-- 287-299, the long-series path.  Columns of unequal length cannot be put into one table
(`pd.DataFrame` raises). -/
def ssBig (W : SSWorld) (c : SSCfg) (u : Int) (hist data : SSeries) (resp : SSResp) :
    Except Err SSResp := do
  let times := hist.map (·.1) ++ (data.take c.maxSplit).map (·.1)
  let r := bigRemaining data.length c.maxSplit
  let seqs := bigPad (bigSeqs (hist.map (·.2)) (data.map (·.2)) c.maxSplit) r
  if seqs.any fun s => decide (s.length ≠ times.length) then .error .valueError
  else
    -- 289-297: `min_perc_change` is not passed on
    let cols ← seqs.mapM fun s => msColumn W { c with minPerc := 0 } u (buildRows W.srt true false (times.zip s))
    bigBack hist.length r cols resp

/-- 276-278: the test for the long-series path. -/
def ssIsBig (c : SSCfg) (hist data : SSeries) : Except Err Bool :=
  if c.corrected then
    if c.maxSplit < data.length then do
      let a ← TSD.inferFreqRobust ⟨hist, true⟩
      let b ← TSD.inferFreqRobust ⟨data, true⟩
      pure (decide (a = b))
    else pure false
  else pure false

/-- 322-393: add the seasonal part back to the last rows of the band and the prediction. -/
def ssAddSeason (sea : List ℝ) (resp : SSResp) : SSResp :=
  let k := resp.length - sea.length
  resp.take k ++ List.zipWith (fun r s =>
    (r.1, { r.2 with
      upper := r.2.upper + .fin s, lower := r.2.lower + .fin s, pred := r.2.pred + .fin s }))
    (resp.drop k) sea

/-- Replace the values of a series (`kats/utils/decomposition.py` 450-456). -/
def withValues (s : SSeries) (v : List ℝ) : SSeries := (s.map (·.1)).zip v

/-- What a call of `fit_predict` leaves behind: the result, the caller's history object and the time
unit kept by the model. -/
structure SSOut where
  result : Except Err SSResp
  callerHist : Option SSeries
  unit : Option Int

/-- 250-319: the part of `fit_predict` after the split.  The second component of the result is the
local variable `response`, which 322-393 read: in the long-series path it is still the initial
response. -/
def ssScore (W : SSWorld) (c : SSCfg) (u : Int) (data hist : SSeries) (resp : SSResp) :
    Except Err (SSResp × SSResp) := do
  if ← ssIsBig c hist data then
    let r ← ssBig W c u hist data resp
    pure (r, resp)
  else if hist.isEmpty then .error .indexError
  else
    let r := ssLoop W (ssRow W) c u hist data resp
    pure (r, r)

/-- 250-395: seasonality, scoring, seasonality back, last rows. -/
def ssAfterSplit (W : SSWorld) (c : SSCfg) (u : Int) (data hist : SSeries) (resp : SSResp) (n : Nat) :
    Except Err SSResp :=
  if c.remSeason then do
    let sd ← W.season c.seasonalPeriod data
    let hv ← if hist.isEmpty then pure [] else (W.season c.seasonalPeriod hist).map (·.2)
    let r ← ssScore W c u (withValues data sd.2) (withValues hist hv) resp
    pure (pyFrom (ssAddSeason sd.1 r.2) (-(n : Int)))
  else do
    let r ← ssScore W c u data hist resp
    pure (pyFrom r.1 (-(n : Int)))

/-- 199-395, `fit_predict`.  Simplified: the input is univariate, and `get_last_n` cuts rows without
sorting them again. -/
def ssFitPredict (W : SSWorld) (c : SSCfg) (data : SSeries) (hist : Option SSeries) : SSOut :=
  match ssUnit c data hist with
  | .error e => ⟨.error e, hist, c.unit⟩
  | .ok u =>
    let resp := ssInitResp data
    match ssShouldUpdate c u data hist with
    | .error e => ⟨.error e, hist, some u⟩
    | .ok false => ⟨.ok resp, hist, some u⟩
    | .ok true =>
      if c.scoresOnly then
        -- 405: the caller's history is extended in place
        ⟨.ok (ssScoresOnly W c u data hist), hist.map (· ++ data), some u⟩
      else
        let s := ssSplit W c u data hist
        ⟨ssAfterSplit W c u s.1 (s.2.1.getD []) resp data.length, s.2.2, some u⟩

end

end Kats
