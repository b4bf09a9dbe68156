import Verif.Model.Float
import Verif.Model.Cusum

/-!
# `kats/detectors/detector_consts.py`: `ChangePointInterval` and `PercentageChange`

Values are floats with exact finite part (`Fl`).  The data of an interval are finite numbers.
-/

namespace Kats

noncomputable section
open Classical

/-- `detector_consts.py` 29-38, `SingleSpike`. -/
structure Spike where
  time : Int
  value : ℝ
  nSigma : Fl

/-- `detector_consts.py` 42-53, univariate `ChangePointInterval`; `df` is `data_df`, `cache` is
`_all_spikes`. -/
structure CPInterval where
  start : Int
  stop : Int
  df : Option (List (Int × ℝ)) := none
  cache : Option (List Spike) := none
  threshold : ℝ := 2

/-- 73-75 and 129-131: keep the rows with `start_time <= time < end_time`. -/
def CPInterval.clip (c : CPInterval) (rows : List (Int × ℝ)) : List (Int × ℝ) :=
  rows.filter fun r => decide (c.start ≤ r.1) && decide (r.1 < c.stop)

/-- 65-76, the `data` setter. -/
def CPInterval.setData (c : CPInterval) (rows : List (Int × ℝ)) : CPInterval :=
  { c with df := some (c.clip rows) }

/-- 120-131, `extend_data`. -/
def CPInterval.extendData (c : CPInterval) (rows : List (Int × ℝ)) : CPInterval :=
  match c.df with
  | none => { c with df := some (c.clip rows) }
  | some d => { c with df := some (c.clip (d ++ rows)) }

/-- 55-61, the `data` getter: the values. -/
def CPInterval.data (c : CPInterval) : Option (List ℝ) := c.df.map fun d => d.map (·.2)

/-- 165-167, `__len__`. -/
def CPInterval.len (c : CPInterval) : Nat :=
  match c.df with
  | none => 0
  | some d => d.length

/-- `np.mean`; the mean of an empty array is NaN. -/
def npMean (l : List ℝ) : Fl := if l = [] then .nan else .fin (mean l)

/-- `np.var(_, ddof=1)`: NaN for fewer than two values. -/
def npVar1 (l : List ℝ) : Fl :=
  if l.length ≤ 1 then .nan else .fin (sqDev l (mean l) / ((l.length : ℝ) - 1))

/-- 141-145, `mean_val`. -/
def CPInterval.meanVal (c : CPInterval) : Fl :=
  match c.data with
  | none => .fin 0
  | some v => npMean v

/-- 152-157, `variance_val`. -/
def CPInterval.varianceVal (c : CPInterval) : Fl :=
  match c.data with
  | none => .fin 0
  | some v => if v.length = 1 then .fin 0 else npVar1 v

/-- 83-92, `_detect_spikes`, univariate. -/
def CPInterval.detectSpikes (c : CPInterval) : Except Err (List Spike) :=
  match c.df with
  | none => .error .valueError
  | some d =>
    let z : ℝ → Fl := fun x => (Fl.fin x - c.meanVal) / Fl.sqrt c.varianceVal
    -- `z >= threshold` is false for NaN
    .ok ((d.filter fun r =>
        match z r.2 with
        | .nan => false
        | s => !Fl.lt s (.fin c.threshold)).map fun r => ⟨r.1, r.2, z r.2⟩)

/-- 169-175, `spikes`: computed once, then remembered. -/
def CPInterval.spikes (c : CPInterval) : Except Err (List Spike × CPInterval) :=
  match c.cache with
  | some s => .ok (s, c)
  | none => do
    let s ← c.detectSpikes
    pure (s, { c with cache := some s })

/-- `detector_consts.py` 203-232, `PercentageChange.__init__`, univariate; `alpha` is fixed to 0.05. -/
structure PctChange where
  current : CPInterval
  previous : CPInterval
  corrected : Bool := false
  minPerc : ℝ := 0

/-- The quantile and tail functions the class calls (`scipy.stats`): `norm.ppf`, `t.ppf` and `t.sf`
with the degrees of freedom as second argument. -/
structure ScipyT where
  normPpf : ℝ → ℝ
  tPpf : ℝ → Int → Fl
  tSf : Fl → Int → Fl

namespace PctChange

variable (p : PctChange) (S : ScipyT)

/-- 234-237 -/
def ratio : Fl := p.current.meanVal / p.previous.meanVal

/-- 239-243 -/
def percChange : Fl := (p.ratio - .fin 1) * .fin 100

/-- 263-270, univariate branch: `"up"` or `"down"`. -/
def direction : String := if Fl.lt (.fin 0) p.percChange then "up" else "down"

/-- 363-371 -/
def df : Int := p.previous.len + p.current.len - 2

/-- 373-397, `_pooled_stddev`. -/
def pooledStd : Fl :=
  let n1 := p.previous.len
  let n2 := p.current.len
  if n1 = 0 ∨ n2 = 0 ∨ (n1 = 1 ∧ n2 = 1) then .fin 0
  else
    let sp := Fl.sqrt ((.fin (n1 - 1) * p.previous.varianceVal + .fin (n2 - 1) * p.current.varianceVal)
      / .fin (n1 + n2 - 2))
    if p.corrected then sp * Fl.sqrt (.fin (1 / n1 + 1 / n2)) else sp

/-- 399-414, `_ttest_manual`. -/
def ttestManual : Fl × Fl :=
  let t := (p.current.meanVal - p.previous.meanVal) / p.pooledStd
  (t, S.tSf (Fl.abs t) p.df * .fin 2)

/-- 416-442, `_ttest`, univariate: t-score and p-value. -/
def ttest : Fl × Fl :=
  if p.previous.len = 1 ∧ p.current.len = 1 then (.nan, .fin 0) else p.ttestManual S

/-- 300-309 and 319, `score`, univariate branch. -/
def score : Fl :=
  if Fl.lt (Fl.abs p.percChange) (.fin p.minPerc) then .fin 0 else (p.ttest S).1

/-- 321-325 -/
def pValue : Fl := (p.ttest S).2

/-- 338-349 -/
def ciUpper : Fl := p.previous.meanVal - S.tPpf (0.05 / 2) p.df * p.pooledStd

/-- 351-361 -/
def ciLower : Fl := p.previous.meanVal + S.tPpf (0.05 / 2) p.df * p.pooledStd

/-- `np.cov(x, y)[0, 1]` for arrays of equal length: NaN below two points. -/
def npCov (x y : List ℝ) : Fl :=
  if x.length ≤ 1 then .nan
  else .fin ((List.zipWith (fun a b => (a - mean x) * (b - mean y)) x y).sum / ((x.length : ℝ) - 1))

/-- 495-520, `_calc_cov`, univariate. -/
def calcCov : Fl :=
  match p.current.data, p.previous.data with
  | some c, some q =>
    let n := min c.length q.length
    if n = 0 then .nan else npCov (c.drop (c.length - n)) (q.drop (q.length - n)) / .fin n
  | _, _ => .nan

/-- 533-547, `sigma_sq_ratio`. -/
def sigmaSqRatio : Fl :=
  let tm := p.current.meanVal
  let cm := p.previous.meanVal
  p.current.varianceVal / (.fin p.current.len * (cm * cm))
    - .fin 2 * (tm * p.calcCov) / (cm * cm * cm)
    + (p.previous.varianceVal * (tm * tm)) / (.fin p.previous.len * (cm * cm * cm * cm))

/-- 549-551, `lower` as set by `_delta_method`. -/
def lower : Fl := p.ratio + .fin (S.normPpf (0.05 / 2)) * Fl.sqrt (Fl.abs p.sigmaSqRatio)

/-- 552-554, `upper`. -/
def upper : Fl := p.ratio - .fin (S.normPpf (0.05 / 2)) * Fl.sqrt (Fl.abs p.sigmaSqRatio)

/-- 245-252 -/
def percChangeUpper : Fl := (p.upper S - .fin 1) * .fin 100

/-- 254-261 -/
def percChangeLower : Fl := (p.lower S - .fin 1) * .fin 100

/-- 272-298, `stat_sig`, univariate branch. -/
def statSig : Bool := !(Fl.lt (.fin 1) (p.upper S) && Fl.lt (p.lower S) (.fin 1))

end PctChange

end

end Kats
