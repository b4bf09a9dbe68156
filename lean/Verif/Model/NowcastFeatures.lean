import Verif.Model.Py
import Verif.Model.Float
import Mathlib.Algebra.BigOperators.Group.List.Basic

/-!
# `kats/models/nowcasting/feature_extraction.py`

A data frame has an index of distinct integers and float columns (the column `time` is left out: no function here reads it).
Floats are exact apart from NaN and infinities.  Window lengths are integers as in the code, where a negative one is accepted
the model follows pandas.  The functions after the `return` of `MACD` (180-304) are never reached and are left out.
-/

namespace Kats

noncomputable section
open Classical

/-! ### The parts of pandas that are used -/

/-- A data frame: the labels of the rows and the columns in order. -/
structure NFrame where
  index : List Int
  cols : List (String × List Fl)

/-- `df[column]` -/
def NFrame.col (f : NFrame) (c : String) : Except Err (List Fl) :=
  match f.cols.lookup c with
  | some v => .ok v
  | none => .error .keyError

/-- `df.join(s)` for a named series: a left join on the labels; a name that is there already is refused. -/
def NFrame.join (f : NFrame) (name : String) (s : List (Int × Fl)) : Except Err NFrame :=
  if name ∈ f.cols.map Prod.fst then .error .valueError
  else .ok { f with cols := f.cols ++ [(name, f.index.map fun l => (s.lookup l).getD .nan)] }

/-- A series with the labels of the frame. -/
def NFrame.own (f : NFrame) (v : List Fl) : List (Int × Fl) := f.index.zip v

/-- A series with the default labels `0, 1, …`. -/
def rangeSeries (v : List Fl) : List (Int × Fl) := v.zipIdx.map fun p => ((p.2 : Int), p.1)

/-- `Series.shift(n)` -/
def shiftFl (x : List Fl) (n : Int) : List Fl :=
  (List.range x.length).map fun i : Nat => if 0 ≤ (i : Int) - n then x.getD ((i : Int) - n).toNat .nan else .nan

/-- `Series.diff(n)` -/
def diffFl (x : List Fl) (n : Int) : List Fl := List.zipWith (· - ·) x (shiftFl x n)

/-- Windows and exponential averages take infinities as missing. -/
def Fl.toOpt : Fl → Option ℝ
  | .fin x => some x
  | _ => none

/-- A missing value is NaN. -/
def Fl.ofOpt : Option ℝ → Fl
  | some x => .fin x
  | none => .nan

/-- The values of the window of `n` rows that ends at row `i`; none if there are fewer rows or one is missing. -/
def windowAt (x : List Fl) (n i : Nat) : Option (List ℝ) :=
  if n = 0 ∨ i + 1 < n then none else (((x.map Fl.toOpt).take (i + 1)).drop (i + 1 - n)).mapM id

/-- `Series.rolling(n).f()`; a negative window is refused. -/
def rollWith (g : List ℝ → Option ℝ) (x : List Fl) (n : Int) : Except Err (List Fl) :=
  if n < 0 then .error .valueError
  else .ok ((List.range x.length).map fun i : Nat => Fl.ofOpt ((windowAt x n.toNat i).bind g))

/-- The mean of a window. -/
def winMean (w : List ℝ) : ℝ := w.sum / (w.length : ℝ)

/-- The standard deviation of a window, with `ddof = 1`. -/
def winStd (w : List ℝ) : Option ℝ :=
  if w.length ≤ 1 then none
  else some (Real.sqrt ((w.map fun v => (v - winMean w) ^ 2).sum / ((w.length : ℝ) - 1)))

/-- The loop of `ewm(…).mean()`: the average so far, its weight and the number of values seen. -/
def ewmGo (q new : ℝ) (adjust : Bool) (minp : Nat) : Option ℝ → ℝ → Nat → List (Option ℝ) → List (Option ℝ)
  | _, _, _, [] => []
  | none, wt, k, none :: cs => none :: ewmGo q new adjust minp none wt k cs
  | none, wt, k, some c :: cs => (if minp ≤ k + 1 then some c else none) :: ewmGo q new adjust minp (some c) wt (k + 1) cs
  | some w, wt, k, none :: cs => (if minp ≤ k then some w else none) :: ewmGo q new adjust minp (some w) (wt * q) k cs
  | some w, wt, k, some c :: cs =>
    let w' := (wt * q * w + new * c) / (wt * q + new)
    (if minp ≤ k + 1 then some w' else none)
      :: ewmGo q new adjust minp (some w') (if adjust then wt * q + new else 1) (k + 1) cs

/-- `ewm(alpha=…, min_periods=…, adjust=…).mean()`; at least one value is needed. -/
def ewmAlpha (x : List Fl) (alpha : ℝ) (minPeriods : Int) (adjust : Bool) : Except Err (List Fl) :=
  if alpha ≤ 0 ∨ 1 < alpha then .error .valueError
  else .ok ((ewmGo (1 - alpha) (if adjust then 1 else alpha) adjust (max minPeriods.toNat 1) none 1 0 (x.map Fl.toOpt)).map Fl.ofOpt)

/-- `ewm(span=…, min_periods=…).mean()`; a span below one is refused. -/
def ewmSpan (x : List Fl) (span minPeriods : Int) : Except Err (List Fl) :=
  if span < 1 then .error .valueError else ewmAlpha x (2 / ((span : ℝ) + 1)) minPeriods true

/-! ### The functions -/

/-- The prefix of the new names: `""` for the column `y`, the column and `_` for any other. -/
def nfPrefix (column : String) : String := if column = "y" then "" else column ++ "_"

/-- 25-45, `ROC`. -/
def nfROC (df : NFrame) (n : Int) (column : String) : Except Err NFrame := do
  let y ← df.col column
  df.join (nfPrefix column ++ "ROC_" ++ toString n) (df.own (List.zipWith (· / ·) (diffFl y (n - 1)) (shiftFl y (n - 1))))

/-- 48-66, `MOM`. -/
def nfMOM (df : NFrame) (n : Int) (column : String) : Except Err NFrame := do
  let y ← df.col column
  df.join (nfPrefix column ++ "MOM_" ++ toString n) (df.own (diffFl y n))

/-- 69-92, `MA`: with `n = 0` a column of NaN with the default labels. -/
def nfMA (df : NFrame) (n : Int) (column : String) : Except Err NFrame := do
  if n = 0 then
    df.join (nfPrefix column ++ "MA_" ++ toString n) (rangeSeries (List.replicate df.index.length .nan))
  else
    let y ← df.col column
    let m ← rollWith (fun w => some (winMean w)) y n
    df.join (nfPrefix column ++ "MA_" ++ toString n) (df.own m)

/-- 95-114, `LAG`. -/
def nfLAG (df : NFrame) (n : Int) (column : String) : Except Err NFrame := do
  let y ← df.col column
  df.join (nfPrefix column ++ "LAG_" ++ toString n) (df.own (shiftFl y n))

/-- 117-178, `MACD`. -/
def nfMACD (df : NFrame) (nFast nSlow : Int) (column : String) : Except Err NFrame := do
  let y ← df.col column
  let fast ← ewmSpan y nFast (nSlow - 1)
  let slow ← ewmSpan y nSlow (nSlow - 1)
  let macd := List.zipWith (· - ·) fast slow
  let sign ← ewmSpan macd 9 8
  let diff := List.zipWith (· - ·) macd sign
  let suffix := toString nFast ++ "_" ++ toString nSlow
  let df ← df.join (nfPrefix column ++ "MACD_" ++ suffix) (df.own macd)
  let df ← df.join (nfPrefix column ++ "MACDsign_" ++ suffix) (df.own sign)
  df.join (nfPrefix column ++ "MACDdiff_" ++ suffix) (df.own diff)

/-- `4 * MSD / MA` of one row (330). -/
def bband1 (ma msd : Fl) : Fl := .fin 4 * msd / ma

/-- `(close - MA + 2 * MSD) / (4 * MSD)` of one row (334). -/
def bband2 (close ma msd : Fl) : Fl := (close - ma + .fin 2 * msd) / (.fin 4 * msd)

/-- 308-337, `BBANDS`; the names do not have the column. -/
def nfBBANDS (df : NFrame) (n : Int) (column : String) : Except Err NFrame := do
  let close ← df.col column
  let ma ← rollWith (fun w => some (winMean w)) close n
  let msd ← rollWith winStd close n
  let df ← df.join ("BollingerBand1_" ++ toString n) (df.own (List.zipWith bband1 ma msd))
  df.join ("BollingerBand2_" ++ toString n) (df.own (List.zipWith (fun c p => bband2 c p.1 p.2) close (ma.zip msd)))

/-- One entry of the list in the loop of `TRIX` (366): both values are looked up by label. -/
def trixAt (ex3 : List (Int × Fl)) (i : Nat) : Except Err Fl :=
  match ex3.lookup ((i : Int) + 1), ex3.lookup (i : Int) with
  | some b, some a => .ok ((b - a) / a)
  | _, _ => .error .keyError

/-- 341-371, `TRIX`. -/
def nfTRIX (df : NFrame) (n : Int) (column : String) : Except Err NFrame := do
  let close ← df.col column
  let ex1 ← ewmSpan close n (n - 1)
  let ex2 ← ewmSpan ex1 n (n - 1)
  let ex3 ← ewmSpan ex2 n (n - 1)
  match df.index.getLast? with
  | none => .error .indexError
  | some last => do
    let roc ← (List.range last.toNat).mapM (trixAt (df.own ex3))
    df.join ("TRIX_" ++ toString n) (rangeSeries (.fin 0 :: roc))

/-- 375-398, `EMA`. -/
def nfEMA (df : NFrame) (n : Int) (column : String) : Except Err NFrame := do
  let close ← df.col column
  let ema ← ewmSpan close n (n - 1)
  df.join ("EMA_" ++ toString n) (df.own ema)

/-- 402-428, `TSI`. -/
def nfTSI (df : NFrame) (r s : Int) (column : String) : Except Err NFrame := do
  let close ← df.col column
  let m := diffFl close 1
  let am := m.map Fl.abs
  let ema1 ← ewmSpan m r (r - 1)
  let aema1 ← ewmSpan am r (r - 1)
  let ema2 ← ewmSpan ema1 s (s - 1)
  let aema2 ← ewmSpan aema1 s (s - 1)
  df.join ("TSI_" ++ toString r ++ "_" ++ toString s) (df.own (List.zipWith (· / ·) ema2 aema2))

/-- `diff.where(diff > 0, 0.0)` of one row (453). -/
def rsiUp (d : Fl) : Fl := if Fl.lt (.fin 0) d then d else .fin 0

/-- `-diff.where(diff < 0, 0.0)` of one row (454). -/
def rsiDown (d : Fl) : Fl := -(if Fl.lt d (.fin 0) then d else .fin 0)

/-- `np.where(emadn == 0, 100, 100 - (100 / (1 + relative_strength)))` of one row (462). -/
def rsiAt (up dn : Fl) : Fl := if dn = .fin 0 then .fin 100 else .fin 100 - .fin 100 / (.fin 1 + up / dn)

/-- 432-467, `RSI`: the new column has the default labels. -/
def nfRSI (df : NFrame) (n : Int) (column : String) : Except Err NFrame := do
  let close ← df.col column
  let diff := diffFl close 1
  if n = 0 then .error .otherError
  else
    let up ← ewmAlpha (diff.map rsiUp) (1 / (n : ℝ)) n false
    let dn ← ewmAlpha (diff.map rsiDown) (1 / (n : ℝ)) n false
    df.join ("RSI_" ++ toString n) (rangeSeries (List.zipWith rsiAt up dn))

end

end Kats
