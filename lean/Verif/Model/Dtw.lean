import Verif.Model.Py
import Verif.Model.RollingStats
import Mathlib.Algebra.Order.Monoid.Unbundled.WithTop
import Mathlib.Analysis.Real.Sqrt
import Mathlib.Data.List.Range

/-!
# `kats/detectors/dtwcpd.py`: `DTWCPDDetector`

Values are reals (no NaN), distances are reals or infinity.  Logging is not modelled.  Window and skip
sizes are natural numbers.
-/

namespace Kats

noncomputable section

open Classical

/-- A distance: a real or `float("inf")`. -/
abbrev Dist := WithTop ℝ

/-- Python `max` of a non-empty list. -/
def pyMax : List ℝ → ℝ
  | [] => 0
  | x :: xs => xs.foldl max x

/-- Python `min` of a non-empty list. -/
def pyMin : List ℝ → ℝ
  | [] => 0
  | x :: xs => xs.foldl min x

/-- 186-194, `_get_nonzero_subsequences`: start positions with their windows.  A skip of 0 is rejected by
`range`, `max` of an empty window raises. -/
def subseqs (win skip : Nat) (minValue : ℝ) (ts : List ℝ) : Except Err (List (Nat × List ℝ)) :=
  if skip = 0 then .error .valueError
  else
    let starts := (List.range ((ts.length + 1 - win + (skip - 1)) / skip)).map (· * skip)
    let wins := starts.map fun ind => (ind, (ts.take (ind + win)).drop ind)
    if win = 0 ∧ wins ≠ [] then .error .valueError
    else .ok (wins.filter fun p => decide (pyMax p.2 > minValue))

/-- 196-216, `_get_all_nonzero_subsequences`: the columns that have such windows. -/
def allSubseqs (win skip : Nat) (minValue : ℝ) (cols : List (String × List ℝ)) :
    Except Err (List (String × List (Nat × List ℝ))) := do
  let subs ← cols.mapM fun c => do
    let s ← subseqs win skip minValue c.2
    pure (c.1, s)
  pure (subs.filter fun p => decide (p.2.length > 0))

/-- 230-236: the table before the loops.  The keys are shifted by one, so `(0, 0)` stands for
`(-1, -1)`. -/
def dtwInit : Nat → Nat → Dist := fun i j => if i = 0 ∧ j = 0 then 0 else ⊤

/-- 240-243: the body of the inner loop. -/
def dtwCell (s1 s2 : List ℝ) (i : Nat) (T : Nat → Nat → Dist) (j : Nat) : Nat → Nat → Dist :=
  fun a b =>
    if a = i + 1 ∧ b = j + 1 then
      (((s1.getD i 0 - s2.getD j 0) ^ 2 : ℝ) : Dist) + min (min (T i (j + 1)) (T (i + 1) j)) (T i j)
    else T a b

/-- 239-243: the inner loop, `j` from `max(0, i - w)` to `min(len(s2), i + w) - 1`. -/
def dtwRow (s1 s2 : List ℝ) (w : Nat) (T : Nat → Nat → Dist) (i : Nat) : Nat → Nat → Dist :=
  (List.range' (i - w) (min s2.length (i + w) - (i - w))).foldl (dtwCell s1 s2 i) T

/-- 238-243: both loops. -/
def dtwTable (s1 s2 : List ℝ) (w : Nat) (n : Nat) : Nat → Nat → Dist :=
  (List.range n).foldl (dtwRow s1 s2 w) dtwInit

/-- 218-244, `DTWDistance`. -/
def dtwDistance (s1 s2 : List ℝ) (w : Nat) : Dist :=
  let w' := max w (max (s1.length - s2.length) (s2.length - s1.length))
  WithTop.map Real.sqrt (dtwTable s1 s2 w' s1.length s1.length s2.length)

/-- 266-267: `s2[(ind - w if ind - w >= 0 else 0) : (ind + w)]`. -/
def keoghSlice (s2 : List ℝ) (w ind : Nat) : List ℝ := (s2.take (ind + w)).drop (ind - w)

/-- 266-272: what one value adds; `min` and `max` of an empty slice raise. -/
def keoghTerm (x : ℝ) (sl : List ℝ) : Except Err ℝ :=
  if sl = [] then .error .valueError
  else if x > pyMax sl then .ok ((x - pyMax sl) ^ 2)
  else if x < pyMin sl then .ok ((x - pyMin sl) ^ 2)
  else .ok 0

/-- 246-274, `LB_Keogh`. -/
def lbKeogh (s1 s2 : List ℝ) (w : Nat) : Except Err ℝ := do
  let ts ← (List.range s1.length).mapM fun ind => keoghTerm (s1.getD ind 0) (keoghSlice s2 w ind)
  pure (Real.sqrt ts.sum)

/-- A candidate: series, start and window (`ts_name_b`, `indb`, `subsequence_b`). -/
abbrev Cand := String × Nat × List ℝ

/-- 297-305: the two windows overlap. -/
def dtwOverlap (win inda indb : Nat) : Bool :=
  (decide (indb ≤ inda) && decide (inda ≤ indb + win - 1)) ||
    (decide (indb ≤ inda + win - 1) && decide (inda + win - 1 ≤ indb + win - 1))

/-- 287-306: the windows that a window is compared with, in order. -/
def dtwCands (win : Nat) (same : Bool) (all : List (String × List (Nat × List ℝ))) (a : String) (inda : Nat) :
    List Cand :=
  all.flatMap fun b =>
    if (a != b.1) || same then
      (b.2.filter fun s => !((a == b.1) && dtwOverlap win inda s.1)).map fun s => (b.1, s.1, s.2)
    else []

/-- 307-333: one candidate; the state is `bsf` and `distances`. -/
def searchStep (sub : List ℝ) (st : Dist × List (Cand × Dist)) (c : Cand) :
    Except Err (Dist × List (Cand × Dist)) := do
  let lb ← lbKeogh sub c.2.2 (c.2.2.length / 3)
  if (lb : Dist) < st.1 then
    let d := dtwDistance sub c.2.2 (c.2.2.length / 3)
    pure (if d < st.1 then d else st.1, st.2 ++ [(c, d)])
  else
    pure (st.1, st.2 ++ [(c, ⊤)])

/-- 285-333: the list `distances` for one window. -/
def search (sub : List ℝ) (cs : List Cand) : Except Err (List (Cand × Dist)) := do
  let st ← cs.foldlM (searchStep sub) (⊤, [])
  pure st.2

/-- Python `min(xs, key=f)`: the first minimal element. -/
def firstMinBy {α : Type} (f : α → Dist) : List α → Option α
  | [] => none
  | x :: xs => some (xs.foldl (fun m y => if f y < f m then y else m) x)

/-- Python `max(xs, key=f)`: the first maximal element. -/
def firstMaxBy {α : Type} (f : α → Dist) : List α → Option α
  | [] => none
  | x :: xs => some (xs.foldl (fun m y => if f m < f y then y else m) x)

/-- `DTWSubsequenceMatch` (75-81) without the name of the matching series. -/
structure DtwMatch where
  idx : Nat
  matchedName : String
  matchedIdx : Nat
  dist : Dist

/-- 283-338: the window of a series that is farthest from its closest candidate; `max` of an empty list
raises. -/
def dtwBest (win : Nat) (same : Bool) (all : List (String × List (Nat × List ℝ))) (a : String)
    (subs : List (Nat × List ℝ)) : Except Err DtwMatch := do
  let m ← subs.mapM fun s => do
    let ds ← search s.2 (dtwCands win same all a s.1)
    pure ((firstMinBy (·.2) ds).map fun p => (⟨s.1, p.1.1, p.1.2.1, p.2⟩ : DtwMatch))
  match firstMaxBy (·.dist) (m.filterMap id) with
  | none => .error .valueError
  | some r => .ok r

/-- 276-347, `_calculate_distances_for_all_subsequences`. -/
def dtwAll (win : Nat) (same : Bool) (all : List (String × List (Nat × List ℝ))) :
    Except Err (List (String × DtwMatch)) :=
  all.mapM fun a => do
    let r ← dtwBest win same all a.1 a.2
    pure (a.1, r)

/-- `DTWCPDChangePoint`. -/
structure DtwCP where
  startTime : Int
  endTime : Int
  confidence : ℝ
  name : String

/-- A float as a real; only finite distances reach this point (`C96_finite`). -/
def Dist.toReal (d : Dist) : ℝ := d.untopD 0

/-- 349-376, `_find_subsequences_anomalies`; `0 / 0` is NaN, which exceeds nothing. -/
def dtwAnomalies (win : Nat) (cutoff : ℝ) (time : List Int) (ms : List (String × DtwMatch)) : List DtwCP :=
  let ds := ms.map fun p => p.2.dist.toReal
  let med := percentileR 50 ds
  let mad := (ds.map fun v => |med - v|).sum / ds.length
  ms.filterMap fun p =>
    let score := |med - p.2.dist.toReal| / mad
    if mad ≠ 0 ∧ score > cutoff then
      some ⟨time.getD p.2.idx 0, time.getD (p.2.idx + win - 1) 0, score, p.1⟩
    else none

/-- The attributes of a detector (105-121); `outliers` changes. -/
structure DtwDet where
  time : List Int
  cols : List (String × List ℝ)
  win : Nat
  skipSize : Nat
  cutoff : ℝ := 1
  minValue : ℝ := 1 / 1000000000
  same : Bool := false
  outliers : List DtwCP := []

/-- 105-143, `__init__`: a window longer than the series or a univariate series is rejected. -/
def DtwDet.init (d : DtwDet) (univariate : Bool) : Except Err DtwDet :=
  if d.win > d.time.length then .error .otherError
  else if univariate then .error .otherError
  else .ok { d with outliers := [] }

/-- 146-184, `detector`: the object afterwards, whose `outliers` is the result. -/
def DtwDet.detector (d : DtwDet) : Except Err DtwDet := do
  let all ← allSubseqs d.win d.skipSize d.minValue d.cols
  match all with
  | [] => pure d
  | [(name, subs)] =>
    let k := (subs.map (·.1)).foldl min ((subs.map (·.1)).headD 0)
    pure { d with outliers := d.outliers ++
            [⟨d.time.getD k 0, d.time.getD (k + d.win - 1) 0, 1000000000, name⟩] }
  | all =>
    let ms ← dtwAll d.win d.same all
    pure { d with outliers := dtwAnomalies d.win d.cutoff d.time ms }

end

end Kats
