import Verif.Model.Py
import Mathlib.Data.List.Range

/-!
# `kats/models/ml_ar.py`: categorical columns

The encoding of categorical columns for training and forecasts. Times are positions on the grid of the frequency, as in
`MlAr`; a category that is missing is `none`. The targets are present at the time `last` up to which a series is used.
-/

namespace Kats

/-- The categorical columns of a series: `cat j t` is the value of column `j` at time `t`, which counts for
`start ≤ t < start + len` only. -/
structure McSeries (L : Type) where
  start : ℤ
  len : ℕ
  cat : ℕ → ℤ → Option L

/-- A number or a label in the matrix of features. -/
inductive McCell (L : Type) where
  | num (n : ℕ)
  | label (v : Option L)
deriving DecidableEq

variable {L : Type} [DecidableEq L]

/-- `unique()`: in the order of the first occurrences. -/
def mcUnique {A : Type} [DecidableEq A] : List A → List A
  | [] => []
  | x :: l => x :: (mcUnique l).filter fun y => decide (y ≠ x)

/-- The labels of column `j` in `_get_all_cat_labels` (ml_ar.py:948-968): from the first row of each series;
`pd.CategoricalDtype` refuses missing values. -/
def mcLabels (all : List (McSeries L)) (j : ℕ) : Except Err (List L) :=
  let u := mcUnique (all.flatMap fun s => if s.len = 0 then [] else [s.cat j s.start])
  if none ∈ u then .error .valueError else .ok (u.filterMap id)

/-- All `k` columns. -/
def mcAll (all : List (McSeries L)) (k : ℕ) : Except Err (List (List L)) := (List.range k).mapM (mcLabels all)

/-- A row of `_embed_categorical` (ml_ar.py:593-608) with `categorical_encode` (102-120): indicators of the labels, or
the values themselves, which are missing if they are no labels. -/
def mcRow (oneHot : Bool) (labels : List (List L)) (s : McSeries L) (t : ℤ) : List (McCell L) :=
  labels.zipIdx.flatMap fun p =>
    if oneHot then p.1.map fun c => .num (if s.cat p.2 t = some c then 1 else 0)
    else [.label ((s.cat p.2 t).filter fun c => decide (c ∈ p.1))]

/-- `_embed_categorical` for a series (610-613) up to the time `last`: the rows from `max_lags - 1` on. -/
def mcEmbed (oneHot : Bool) (maxLags k : ℕ) (all : List (McSeries L)) (s : McSeries L) (last : ℤ) :
    Except Err (List (List (McCell L))) := do
  let labels ← mcAll all k
  return (List.range (last + 1 - (s.start + (maxLags - 1))).toNat).map fun (i : ℕ) =>
    mcRow oneHot labels s (s.start + (maxLags - 1) + i)

/-- The window of a forecast with origin `origin` (1157-1209): the data joined to the times of the window. Forecasts
that are filled in have no categories. -/
def mcWindow (maxLags : ℕ) (origin : ℤ) (s : McSeries L) : McSeries L where
  start := origin - (maxLags - 1)
  len := (max origin (s.start + s.len - 1) + 1 - (origin - (maxLags - 1))).toNat
  cat := fun j t => if s.start ≤ t ∧ t < s.start + s.len then s.cat j t else none

/-- The categorical features of a forecast of series `s` (1150-1248): each series with its origin, labels from the
windows, the row at the origin. -/
def mcForecast (oneHot : Bool) (maxLags k : ℕ) (all : List (McSeries L × ℤ)) (s : McSeries L) (origin : ℤ) :
    Except Err (List (List (McCell L))) :=
  mcEmbed oneHot maxLags k (all.map fun p => mcWindow maxLags p.2 p.1) (mcWindow maxLags origin s) origin

end Kats
