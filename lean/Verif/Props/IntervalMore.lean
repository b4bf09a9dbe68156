import Verif.Props.Interval
import Verif.Props.Cusum

/-!
# The statistics of the two-sample interval detectors (C70)
-/

namespace Kats

/-- The same comparison with the groups exchanged and null effect `e`. -/
def ABRow.swap (r : ABRow) (e : ℝ) : ABRow :=
  { time := r.time, valueA := r.valueB, valueB := r.valueA, varianceA := r.varianceB,
    varianceB := r.varianceA, countA := r.countB, countB := r.countA, effect := e }

/-- C70: exchanging the two groups, with the null effect turned around (negated, or inverted as a
ratio), negates the test statistic, for every statistic and every variable type. -/
theorem C70_swap (k : VarKind) (r : ABRow) :
    testStatistic .absolute k (r.swap (-r.effect)) = - testStatistic .absolute k r
    ∧ (∀ e, 0 < 1 + r.effect → (1 + e) * (1 + r.effect) = 1 →
        testStatistic .relative k (r.swap e) = - testStatistic .relative k r) := by
  have hv : ∀ e, getVariance k (r.swap e) = ((getVariance k r).2, (getVariance k r).1) := by
    intro e; cases k <;> rfl
  constructor
  · unfold testStatistic statDifference statNull statStdError
    dsimp only
    rw [hv, add_comm (getVariance k r).2]
    simp only [ABRow.swap]
    rw [← neg_div]
    congr 1
    ring
  · intro e h0 he
    have he1 : 1 + e = (1 + r.effect)⁻¹ := by
      field_simp
      linarith
    unfold testStatistic statDifference statNull statStdError
    dsimp only
    rw [hv]
    simp only [ABRow.swap]
    rw [add_comm ((getVariance k r).2 / _), he1, Real.log_inv, ← neg_div]
    congr 1
    ring

example : ∃ r : ABRow, r.effect = 1 ∧ testStatistic .absolute .realValued r = 1 := by
  refine ⟨⟨0, 0, 3, 2, 2, 1, 1, 1⟩, rfl, ?_⟩
  have : Real.sqrt 4 = 2 := by
    rw [show (4 : ℝ) = 2 ^ 2 by norm_num]; exact Real.sqrt_sq (by norm_num)
  norm_num [testStatistic, statDifference, statNull, statStdError, getVariance, this]

/-- C70: on a row that summarises two samples (means, sample variances, sizes) the absolute statistic
is Welch's: its square times the summed squared standard errors is the squared deviation of the
difference of the means from the null effect, and it has the sign of that deviation. -/
theorem C70_welch (xs ys : List ℝ) (hx : 2 ≤ xs.length) (hy : 2 ≤ ys.length) (e : ℝ) (t : Int)
    (hpos : 0 < sqDev xs (mean xs) + sqDev ys (mean ys)) :
    let r : ABRow := ⟨t, mean xs, mean ys, sqDev xs (mean xs) / (xs.length - 1),
      sqDev ys (mean ys) / (ys.length - 1), xs.length, ys.length, e⟩
    testStatistic .absolute .realValued r ^ 2 *
      (sqDev xs (mean xs) / ((xs.length - 1) * xs.length) +
        sqDev ys (mean ys) / ((ys.length - 1) * ys.length)) = (mean ys - mean xs - e) ^ 2
    ∧ (0 < testStatistic .absolute .realValued r ↔ mean xs + e < mean ys) := by
  intro r
  have hx' : (2 : ℝ) ≤ xs.length := by exact_mod_cast hx
  have hy' : (2 : ℝ) ≤ ys.length := by exact_mod_cast hy
  have sq0 : ∀ (l : List ℝ) (m : ℝ), 0 ≤ sqDev l m := by
    intro l m
    unfold sqDev
    apply List.sum_nonneg
    intro x hx
    obtain ⟨y, _, rfl⟩ := List.mem_map.1 hx
    positivity
  have h1 := sq0 xs (mean xs)
  have h2 := sq0 ys (mean ys)
  have e1 : 0 ≤ sqDev xs (mean xs) / ((xs.length - 1) * xs.length) := by
    apply div_nonneg h1; nlinarith
  have e2 : 0 ≤ sqDev ys (mean ys) / ((ys.length - 1) * ys.length) := by
    apply div_nonneg h2; nlinarith
  have hV : 0 < sqDev xs (mean xs) / ((xs.length - 1) * xs.length) +
        sqDev ys (mean ys) / ((ys.length - 1) * ys.length) := by
    rcases lt_or_eq_of_le h1 with g | g
    · have : 0 < sqDev xs (mean xs) / ((xs.length - 1) * xs.length) := by
        apply div_pos g; nlinarith
      linarith
    · have : 0 < sqDev ys (mean ys) / ((ys.length - 1) * ys.length) := by
        apply div_pos (by linarith); nlinarith
      linarith
  have hT : testStatistic .absolute .realValued r = (mean ys - mean xs - e) /
      Real.sqrt (sqDev xs (mean xs) / ((xs.length - 1) * xs.length) +
        sqDev ys (mean ys) / ((ys.length - 1) * ys.length)) := by
    simp only [testStatistic, statDifference, statNull, statStdError, getVariance, r]
    rw [div_div, div_div]
    push_cast
    rfl
  rw [hT]
  constructor
  · rw [div_pow, Real.sq_sqrt hV.le, div_mul_cancel₀ _ (ne_of_gt hV)]
  · rw [div_pos_iff_of_pos_right (Real.sqrt_pos.2 hV)]
    constructor <;> intro h <;> linarith

example : 0 < sqDev ([1, 3] : List ℝ) (mean [1, 3]) + sqDev ([5, 5] : List ℝ) (mean [5, 5]) := by
  norm_num [sqDev, mean]

/-- C70: the distribution-specific variances agree with the real-valued ones on data of that
distribution: for a proportion computed from 0/1 outcomes, a Poisson mean (variance = mean), an
exponential waiting time (variance = mean squared). -/
theorem C70_variance (r : ABRow) :
    (∀ xs ys : List ℝ, xs ≠ [] → ys ≠ [] → (∀ x ∈ xs, x = 0 ∨ x = 1) → (∀ y ∈ ys, y = 0 ∨ y = 1) →
      r.valueA = mean xs → r.valueB = mean ys →
      r.varianceA = sqDev xs (mean xs) / xs.length → r.varianceB = sqDev ys (mean ys) / ys.length →
      getVariance .proportion r = getVariance .realValued r)
    ∧ (r.varianceA = r.valueA → r.varianceB = r.valueB →
      getVariance .count r = getVariance .realValued r)
    ∧ (r.varianceA = r.valueA ^ 2 → r.varianceB = r.valueB ^ 2 →
      getVariance .arrivalTime r = getVariance .realValued r) := by
  have key : ∀ (xs : List ℝ), (∀ x ∈ xs, x = 0 ∨ x = 1) → ∀ m : ℝ,
      sqDev xs m = xs.sum - 2 * m * xs.sum + xs.length * m ^ 2 := by
    intro xs h m
    induction xs with
    | nil => simp [sqDev]
    | cons a l ih =>
      have := ih (fun x hx => h x (by simp [hx]))
      simp only [sqDev, List.map_cons, List.sum_cons, List.length_cons] at this ⊢
      rw [this]
      push_cast
      rcases h a (by simp) with rfl | rfl <;> ring
  have bern : ∀ (xs : List ℝ), xs ≠ [] → (∀ x ∈ xs, x = 0 ∨ x = 1) →
      sqDev xs (mean xs) / xs.length = mean xs * (1 - mean xs) := by
    intro xs hne h
    have hl : (xs.length : ℝ) ≠ 0 := by
      have := List.length_pos_iff.2 hne
      positivity
    rw [key xs h]
    unfold mean
    field_simp
    ring
  refine ⟨?_, ?_, ?_⟩
  · intro xs ys hx hy h1 h2 a b c d
    simp only [getVariance]
    rw [c, d, bern xs hx h1, bern ys hy h2, a, b]
  · intro a b
    simp only [getVariance]
    rw [a, b]
  · intro a b
    simp only [getVariance]
    rw [a, b]

example : mean ([1, 0, 0, 1] : List ℝ) = 1 / 2 ∧
    sqDev ([1, 0, 0, 1] : List ℝ) (1 / 2) / 4 = 1 / 2 * (1 - 1 / 2) := by
  constructor <;> norm_num [mean, sqDev]

end Kats
