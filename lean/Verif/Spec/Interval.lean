import Mathlib.Data.List.Basic

/-!
# Specification: maximal runs
-/

namespace Kats

/-- Positions `s .. e` of `x` (inclusive) form a maximal block of entries equal to `b`. -/
def MaximalRun (x : List Bool) (b : Bool) (s e : Nat) : Prop :=
  s ≤ e ∧ e < x.length ∧ (∀ i, s ≤ i → i ≤ e → x[i]? = some b) ∧
    (∀ i, i + 1 = s → x[i]? ≠ some b) ∧ x[e + 1]? ≠ some b

end Kats
