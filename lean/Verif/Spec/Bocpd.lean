import Mathlib.Algebra.BigOperators.Group.List.Basic
import Mathlib.Algebra.Order.Field.Basic

/-!
# Specification of the run-length posterior: enumeration of all changepoint histories

Independent of the code.  A history at time `i` says for each of the times `i, i-1, ..., 1` (newest
first) whether the run was reset there.
-/

namespace Kats

/-- All `2 ^ i` histories at time `i`, newest decision first. -/
def histories : Nat → List (List Bool)
  | 0 => [[]]
  | i + 1 => (histories i).map (true :: ·) ++ (histories i).map (false :: ·)

/-- The current run length: the number of steps since the last reset (or since time 0). -/
def runLen : List Bool → Nat
  | [] => 0
  | true :: _ => 0
  | false :: h => runLen h + 1

/-- Prior probability of a history times the likelihood of the data: at each time `i ≥ 1` the point
is scored by `p i r`, `r` the run length at time `i - 1`, and a reset has probability `c`. -/
def histWeight {K : Type} [Field K] (p : Nat → Nat → K) (c : K) : List Bool → K
  | [] => 1
  | b :: h => p (h.length + 1) (runLen h) * (if b then c else 1 - c) * histWeight p c h

/-- Total weight of the histories at time `i` whose current run length is `r`. -/
def jointMass {K : Type} [Field K] (p : Nat → Nat → K) (c : K) (i r : Nat) : K :=
  (((histories i).filter fun h => runLen h = r).map (histWeight p c)).sum

/-- Total weight of all histories at time `i`. -/
def evidence {K : Type} [Field K] (p : Nat → Nat → K) (c : K) (i : Nat) : K :=
  ((histories i).map (histWeight p c)).sum

/-- The points `x i, x (i-1), ..., x (i-r)`: the run of length `r` ending at time `i`. -/
def runPoints {α : Type} (x : Nat → α) (i r : Nat) : List α :=
  (List.range (r + 1)).map fun j => x (i - j)

/-- The textbook weight of a segmentation: every point is scored by the density `dens`, given the
earlier points of *its own* segment (newest first); a point that starts a segment is scored by the
prior predictive `dens []`. The point `x 0` starts the first segment and its score is common to all
histories, so it is left out. -/
def segWeight {K : Type} [Field K] {α : Type} (dens : List α → α → K) (x : Nat → α) (c : K) :
    List Bool → K
  | [] => 1
  | b :: h =>
    (if b then c * dens [] (x (h.length + 1))
     else (1 - c) * dens (runPoints x h.length (runLen h)) (x (h.length + 1))) *
      segWeight dens x c h

/-- Textbook weight of the segmentations whose last segment started at `i - r`. -/
def segMass {K : Type} [Field K] {α : Type} (dens : List α → α → K) (x : Nat → α) (c : K)
    (i r : Nat) : K :=
  (((histories i).filter fun h => runLen h = r).map (segWeight dens x c)).sum

/-- Textbook weight of all segmentations. -/
def segEvidence {K : Type} [Field K] {α : Type} (dens : List α → α → K) (x : Nat → α) (c : K)
    (i : Nat) : K :=
  ((histories i).map (segWeight dens x c)).sum

end Kats
