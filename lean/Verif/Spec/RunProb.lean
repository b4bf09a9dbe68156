import Mathlib.Algebra.BigOperators.Fin
import Mathlib.Algebra.Field.Basic
import Mathlib.Data.Fintype.Pi
import Mathlib.Data.List.OfFn
import Mathlib.Data.List.Infix

/-!
# Specification: exact probability of a run of rejections

Independent of the model: an outcome of `n` independent tests is a function `Fin n → Bool`
(`true` = rejected), its probability is the product of the single probabilities, and the event is
that `m` consecutive `true`s occur.
-/

namespace Kats

/-- Probability that `n` independent tests, each rejecting with probability `p`, contain `m`
consecutive rejections. -/
def exactRunProb {K : Type} [Field K] (p : K) (n m : Nat) : K :=
  ∑ x : Fin n → Bool,
    if List.replicate m true <:+: List.ofFn x then ∏ i, (if x i = true then p else 1 - p) else 0

end Kats
