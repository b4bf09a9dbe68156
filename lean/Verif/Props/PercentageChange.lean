import Verif.Model.PercentageChange
import Verif.Props.Cusum

/-!
# Theorems about `PercentageChange` and `ChangePointInterval` (C42, C73-C76)
-/

namespace Kats

noncomputable section
open Classical

/-! ## Specification -/

/-- Sample variance; 0 for a single value. -/
def sampleVar (x : List ℝ) : ℝ := if x.length = 1 then 0 else sqDev x (mean x) / ((x.length : ℝ) - 1)

/-- The pooled variance of two samples. -/
def pooledVar (x y : List ℝ) : ℝ :=
  (sqDev x (mean x) + sqDev y (mean y)) / ((x.length : ℝ) + y.length - 2)

/-- Sum of products of deviations of the two samples from their means. -/
def crossDev (x y : List ℝ) : ℝ :=
  (List.zipWith (fun a b => (a - mean x) * (b - mean y)) x y).sum

/-- The last `min (length x) (length y)` values of `x`. -/
def tailOf (x y : List ℝ) : List ℝ := x.drop (x.length - min x.length y.length)

/-- Delta-method variance of `mean x / mean y`, with the covariance of the means estimated from the
paired last values. -/
def deltaVar (x y : List ℝ) : ℝ :=
  sampleVar x / (x.length * mean y ^ 2)
    - 2 * (mean x * (crossDev (tailOf x y) (tailOf y x) / ((min x.length y.length : ℕ) - 1)
        / (min x.length y.length : ℕ))) / mean y ^ 3
    + sampleVar y * mean x ^ 2 / (y.length * mean y ^ 4)

/-! ## Helpers -/

theorem len_of (c : CPInterval) (x : List ℝ) (h : c.data = some x) : c.len = x.length := by
  unfold CPInterval.data at h
  unfold CPInterval.len
  cases hd : c.df with
  | none => simp [hd] at h
  | some d =>
    rw [hd] at h
    simp only [Option.map_some, Option.some.injEq] at h
    rw [← h]; simp

theorem meanVal_of (c : CPInterval) (x : List ℝ) (h : c.data = some x) (hx : x ≠ []) :
    c.meanVal = .fin (mean x) := by
  unfold CPInterval.meanVal npMean
  rw [h]
  simp [hx]

theorem varianceVal_of (c : CPInterval) (x : List ℝ) (h : c.data = some x) (hx : x ≠ []) :
    c.varianceVal = .fin (sampleVar x) := by
  unfold CPInterval.varianceVal npVar1 sampleVar
  rw [h]
  have := List.length_pos_of_ne_nil hx
  dsimp only
  by_cases h1 : x.length = 1
  · rw [if_pos h1, if_pos h1]
  · rw [if_neg h1, if_neg h1, if_neg (by omega)]

theorem sampleVar_mul (x : List ℝ) (hx : x ≠ []) :
    ((x.length : ℝ) - 1) * sampleVar x = sqDev x (mean x) := by
  unfold sampleVar
  have := List.length_pos_of_ne_nil hx
  by_cases h1 : x.length = 1
  · rw [if_pos h1]
    obtain ⟨a, rfl⟩ := List.length_eq_one_iff.1 h1
    simp [sqDev, mean]
  · rw [if_neg h1]
    have h2 : (2 : ℝ) ≤ x.length := by exact_mod_cast (by omega : 2 ≤ x.length)
    rw [mul_div_cancel₀]
    intro h0
    linarith

theorem sampleVar_nonneg (x : List ℝ) (hx : x ≠ []) : 0 ≤ sampleVar x := by
  unfold sampleVar
  have := List.length_pos_of_ne_nil hx
  split
  · exact le_refl _
  · have h2 : (2 : ℝ) ≤ x.length := by exact_mod_cast (by omega : 2 ≤ x.length)
    exact div_nonneg (sqDev_nonneg _ _) (by linarith)

theorem pooledVar_nonneg (x y : List ℝ) (hx : x ≠ []) (hy : y ≠ []) : 0 ≤ pooledVar x y := by
  unfold pooledVar
  have h1 : (1 : ℝ) ≤ x.length := by exact_mod_cast List.length_pos_of_ne_nil hx
  have h2 : (1 : ℝ) ≤ y.length := by exact_mod_cast List.length_pos_of_ne_nil hy
  exact div_nonneg (add_nonneg (sqDev_nonneg _ _) (sqDev_nonneg _ _)) (by linarith)

/-- The denominator of the score. -/
def scoreScale (corrected : Bool) (x y : List ℝ) : ℝ :=
  if corrected then Real.sqrt (pooledVar x y) * Real.sqrt (1 / y.length + 1 / x.length)
  else Real.sqrt (pooledVar x y)

theorem pooledStd_of (p : PctChange) (x y : List ℝ) (hx : p.current.data = some x)
    (hy : p.previous.data = some y) (hx0 : x ≠ []) (hy0 : y ≠ [])
    (h1 : ¬ (x.length = 1 ∧ y.length = 1)) : p.pooledStd = .fin (scoreScale p.corrected x y) := by
  have lx := List.length_pos_of_ne_nil hx0
  have ly := List.length_pos_of_ne_nil hy0
  unfold PctChange.pooledStd
  dsimp only
  rw [len_of _ x hx, len_of _ y hy, varianceVal_of _ x hx hx0, varianceVal_of _ y hy hy0, if_neg]
  · have hpv : (Fl.fin ((y.length : ℝ) - 1) * Fl.fin (sampleVar y)
        + Fl.fin ((x.length : ℝ) - 1) * Fl.fin (sampleVar x)) / Fl.fin ((y.length : ℝ) + x.length - 2)
        = .fin (pooledVar x y) := by
      have h3 : (3 : ℝ) ≤ y.length + x.length := by exact_mod_cast (by omega : 3 ≤ y.length + x.length)
      rw [Fl.fin_mul, Fl.fin_mul, Fl.fin_add, sampleVar_mul x hx0, sampleVar_mul y hy0, Fl.fin_div]
      · congr 1
        unfold pooledVar
        rw [add_comm (sqDev y _), add_comm (y.length : ℝ)]
      · intro h0; linarith
    rw [hpv, Fl.sqrt_fin _ (pooledVar_nonneg x y hx0 hy0), Fl.sqrt_fin _ (by positivity)]
    unfold scoreScale
    split <;> rfl
  · push Not
    refine ⟨by omega, by omega, fun a b => h1 ⟨b, a⟩⟩

theorem percChange_of (p : PctChange) (x y : List ℝ) (hx : p.current.data = some x)
    (hy : p.previous.data = some y) (hx0 : x ≠ []) (hy0 : y ≠ []) (hm : mean y ≠ 0) :
    p.ratio = .fin (mean x / mean y) ∧ p.percChange = .fin ((mean x / mean y - 1) * 100) := by
  have h1 : p.ratio = .fin (mean x / mean y) := by
    unfold PctChange.ratio
    rw [meanVal_of _ x hx hx0, meanVal_of _ y hy hy0, Fl.fin_div _ _ hm]
  refine ⟨h1, ?_⟩
  unfold PctChange.percChange
  rw [h1, Fl.fin_sub, Fl.fin_mul]

theorem tailOf_length (x y : List ℝ) : (tailOf x y).length = min x.length y.length := by
  unfold tailOf
  rw [List.length_drop]
  omega

theorem calcCov_of (p : PctChange) (x y : List ℝ) (hx : p.current.data = some x)
    (hy : p.previous.data = some y) (hx0 : 2 ≤ x.length) (hy0 : 2 ≤ y.length) :
    p.calcCov = .fin (crossDev (tailOf x y) (tailOf y x) / ((min x.length y.length : ℕ) - 1)
        / (min x.length y.length : ℕ)) := by
  unfold PctChange.calcCov
  rw [hx, hy]
  dsimp only
  rw [if_neg (by omega)]
  have h1 : y.drop (y.length - min x.length y.length) = tailOf y x := by
    unfold tailOf; rw [min_comm]
  rw [h1]
  change PctChange.npCov (tailOf x y) (tailOf y x) / _ = _
  unfold PctChange.npCov
  rw [tailOf_length, if_neg (by omega), Fl.fin_div]
  · rfl
  · rw [Nat.cast_ne_zero]; omega

theorem sigma_of (p : PctChange) (x y : List ℝ) (hx : p.current.data = some x)
    (hy : p.previous.data = some y) (hx0 : 2 ≤ x.length) (hy0 : 2 ≤ y.length) (hm : mean y ≠ 0) :
    p.sigmaSqRatio = .fin (deltaVar x y) := by
  have nx : x ≠ [] := by rintro rfl; simp at hx0
  have ny : y ≠ [] := by rintro rfl; simp at hy0
  have cx : (x.length : ℝ) ≠ 0 := by rw [Nat.cast_ne_zero]; omega
  have cy : (y.length : ℝ) ≠ 0 := by rw [Nat.cast_ne_zero]; omega
  unfold PctChange.sigmaSqRatio
  dsimp only
  rw [len_of _ x hx, len_of _ y hy, varianceVal_of _ x hx nx, varianceVal_of _ y hy ny,
    meanVal_of _ x hx nx, meanVal_of _ y hy ny, calcCov_of p x y hx hy hx0 hy0]
  simp only [Fl.fin_mul]
  rw [Fl.fin_div _ _ (by positivity), Fl.fin_div _ _ (by positivity), Fl.fin_div _ _ (by positivity),
    Fl.fin_sub, Fl.fin_add]
  congr 1
  unfold deltaVar
  rw [show mean y * mean y * mean y * mean y = mean y ^ 4 by ring,
    show mean y * mean y * mean y = mean y ^ 3 by ring, show mean y * mean y = mean y ^ 2 by ring,
    show mean x * mean x = mean x ^ 2 by ring]

/-! ## C42 -/

/-- C42 (change and direction): with a non-zero previous mean, the percentage change is the relative
change of the means in percent and the direction is `"up"` exactly for a positive change.  Missing:
`"flat"` for no change (see `C42_flat_violated`). -/
theorem C42_direction_partial (p : PctChange) (x y : List ℝ) (hx : p.current.data = some x)
    (hy : p.previous.data = some y) (hx0 : x ≠ []) (hy0 : y ≠ []) (hm : mean y ≠ 0) :
    (∃ q, p.percChange = .fin q ∧ mean x = mean y * (1 + q / 100)
      ∧ (p.direction = "up" ↔ 0 < q) ∧ (q < 0 → p.direction = "down"))
    ∧ (0 < mean y → (p.direction = "up" ↔ mean y < mean x)) := by
  obtain ⟨h1, h2⟩ := percChange_of p x y hx hy hx0 hy0 hm
  have hd : ∀ q, p.percChange = .fin q → (p.direction = "up" ↔ 0 < q) := by
    intro q hq
    unfold PctChange.direction
    rw [hq]
    by_cases h : 0 < q
    · rw [if_pos ((Fl.lt_fin _ _).2 h)]; simp [h]
    · rw [if_neg (fun h' => h ((Fl.lt_fin _ _).1 h'))]; simp [h]
  refine ⟨⟨_, h2, ?_, hd _ h2, ?_⟩, ?_⟩
  · field_simp; ring
  · intro hq
    unfold PctChange.direction
    rw [h2, if_neg]
    rw [Fl.lt_fin]
    exact not_lt.2 hq.le
  · intro hpos
    rw [hd _ h2]
    constructor
    · intro h
      have : 1 < mean x / mean y := by linarith
      rwa [lt_div_iff₀ hpos, one_mul] at this
    · intro h
      have : 1 < mean x / mean y := by rwa [lt_div_iff₀ hpos, one_mul]
      linarith

/-- C42 is violated for no change: the direction of a zero change is `"down"`. -/
theorem C42_flat_violated (p : PctChange) (x y : List ℝ) (hx : p.current.data = some x)
    (hy : p.previous.data = some y) (hx0 : x ≠ []) (hy0 : y ≠ []) (hm : mean y ≠ 0)
    (he : mean x = mean y) : p.percChange = .fin 0 ∧ p.direction = "down" := by
  obtain ⟨-, h2⟩ := percChange_of p x y hx hy hx0 hy0 hm
  have h0 : p.percChange = .fin 0 := by
    rw [h2, he, div_self hm]; norm_num
  refine ⟨h0, ?_⟩
  unfold PctChange.direction
  rw [h0, if_neg]
  rw [Fl.lt_fin]
  exact lt_irrefl _

/-- C42 (interval): with at least two points on each side and a non-zero previous mean, the bounds
are symmetric around the ratio of the means, ordered, as far apart as the delta method says, and the
change is significant exactly if 1 is not strictly between them. -/
theorem C42_interval (p : PctChange) (S : ScipyT) (x y : List ℝ) (hx : p.current.data = some x)
    (hy : p.previous.data = some y) (hx0 : 2 ≤ x.length) (hy0 : 2 ≤ y.length) (hm : mean y ≠ 0)
    (hz : S.normPpf (0.05 / 2) < 0) :
    ∃ lo up : ℝ, p.lower S = .fin lo ∧ p.upper S = .fin up
      ∧ lo ≤ up ∧ lo + up = 2 * (mean x / mean y)
      ∧ (up - lo) ^ 2 = 4 * S.normPpf (0.05 / 2) ^ 2 * |deltaVar x y|
      ∧ p.percChangeLower S = .fin ((lo - 1) * 100) ∧ p.percChangeUpper S = .fin ((up - 1) * 100)
      ∧ (p.statSig S = true ↔ ¬ (lo < 1 ∧ 1 < up)) := by
  have nx : x ≠ [] := by rintro rfl; simp at hx0
  have ny : y ≠ [] := by rintro rfl; simp at hy0
  obtain ⟨hr, -⟩ := percChange_of p x y hx hy nx ny hm
  have hs : Fl.sqrt (Fl.abs p.sigmaSqRatio) = .fin (Real.sqrt |deltaVar x y|) := by
    rw [sigma_of p x y hx hy hx0 hy0 hm, Fl.abs_fin, Fl.sqrt_fin _ (abs_nonneg _)]
  have hl : p.lower S = .fin (mean x / mean y + S.normPpf (0.05 / 2) * Real.sqrt |deltaVar x y|) := by
    unfold PctChange.lower; rw [hr, hs, Fl.fin_mul, Fl.fin_add]
  have hu : p.upper S = .fin (mean x / mean y - S.normPpf (0.05 / 2) * Real.sqrt |deltaVar x y|) := by
    unfold PctChange.upper; rw [hr, hs, Fl.fin_mul, Fl.fin_sub]
  refine ⟨_, _, hl, hu, ?_, by ring, ?_, ?_, ?_, ?_⟩
  · nlinarith [Real.sqrt_nonneg |deltaVar x y|]
  · have h2 := Real.sq_sqrt (abs_nonneg (deltaVar x y))
    calc _ = 4 * S.normPpf (0.05 / 2) ^ 2 * Real.sqrt |deltaVar x y| ^ 2 := by ring
      _ = _ := by rw [h2]
  · unfold PctChange.percChangeLower; rw [hl, Fl.fin_sub, Fl.fin_mul]
  · unfold PctChange.percChangeUpper; rw [hu, Fl.fin_sub, Fl.fin_mul]
  · unfold PctChange.statSig
    rw [hl, hu, Bool.not_eq_true', Bool.and_eq_false_iff, ← Bool.not_eq_true, ← Bool.not_eq_true,
      Fl.lt_fin, Fl.lt_fin]
    tauto

/-- C42 (score): a change below the minimum percentage scores 0; two single points score NaN
otherwise. -/
theorem C42_score (p : PctChange) (S : ScipyT) (x y : List ℝ) (hx : p.current.data = some x)
    (hy : p.previous.data = some y) (hx0 : x ≠ []) (hy0 : y ≠ []) (hm : mean y ≠ 0) :
    (|mean x / mean y - 1| * 100 < p.minPerc → p.score S = .fin 0)
    ∧ (p.minPerc ≤ |mean x / mean y - 1| * 100 → x.length = 1 → y.length = 1 → p.score S = .nan) := by
  obtain ⟨-, h2⟩ := percChange_of p x y hx hy hx0 hy0 hm
  have ha : |(mean x / mean y - 1) * 100| = |mean x / mean y - 1| * 100 := by
    rw [abs_mul]; norm_num
  unfold PctChange.score
  rw [h2, Fl.abs_fin, ha]
  constructor
  · intro h
    rw [if_pos ((Fl.lt_fin _ _).2 h)]
  · intro h h1 h3
    rw [if_neg (by rw [Fl.lt_fin]; exact not_lt.2 h)]
    unfold PctChange.ttest
    rw [len_of _ x hx, len_of _ y hy, if_pos ⟨h3, h1⟩]

/-- An interval over `[0, 100)` holding the given values. -/
def demoInterval (v : List ℝ) : CPInterval :=
  { start := 0, stop := 100, df := some (v.map fun x => (1, x)) }

theorem demoInterval_data (v : List ℝ) : (demoInterval v).data = some v := by
  unfold demoInterval CPInterval.data
  simp

/-- The hypotheses of the theorems above are met by `[3, 5]` against `[1, 2]`. -/
example : ∃ (p : PctChange) (x y : List ℝ), p.current.data = some x ∧ p.previous.data = some y
    ∧ 2 ≤ x.length ∧ 2 ≤ y.length ∧ mean y ≠ 0 ∧ mean y < mean x :=
  ⟨{ current := demoInterval [3, 5], previous := demoInterval [1, 2] }, [3, 5], [1, 2],
    demoInterval_data _, demoInterval_data _, by simp, by simp, by norm_num [mean], by norm_num [mean]⟩

example : ∃ (p : PctChange) (x y : List ℝ), p.current.data = some x ∧ p.previous.data = some y
    ∧ x ≠ [] ∧ y ≠ [] ∧ mean y ≠ 0 ∧ mean x = mean y :=
  ⟨{ current := demoInterval [3, 5], previous := demoInterval [4] }, [3, 5], [4],
    demoInterval_data _, demoInterval_data _, by simp, by simp, by norm_num [mean], by norm_num [mean]⟩

/-! ## C73: comparing data with itself -/

theorem crossDev_self (x : List ℝ) : crossDev x x = sqDev x (mean x) := by
  unfold crossDev sqDev
  rw [List.zipWith_self]
  congr 1
  apply List.map_congr_left
  intro a _
  ring

theorem tailOf_self (x : List ℝ) : tailOf x x = x := by
  unfold tailOf; simp

/-- C73 (true part): data compared with themselves show no change and score 0 (unless constant). -/
theorem C73_no_change_partial (p : PctChange) (S : ScipyT) (x : List ℝ)
    (hx : p.current.data = some x) (hy : p.previous.data = some x) (hx0 : 2 ≤ x.length)
    (hm : mean x ≠ 0) (hc : 0 < sqDev x (mean x)) :
    p.percChange = .fin 0 ∧ p.score S = .fin 0 := by
  have nx : x ≠ [] := by rintro rfl; simp at hx0
  obtain ⟨-, h2⟩ := percChange_of p x x hx hy nx nx hm
  have h0 : p.percChange = .fin 0 := by rw [h2, div_self hm]; norm_num
  refine ⟨h0, ?_⟩
  unfold PctChange.score PctChange.ttest PctChange.ttestManual
  split
  · rfl
  · rw [len_of _ x hx, len_of _ x hy, if_neg (by omega), meanVal_of _ x hx nx, meanVal_of _ x hy nx,
      pooledStd_of p x x hx hy nx nx (by omega), Fl.fin_sub, Fl.fin_div, sub_self, zero_div]
    have h2 : (2 : ℝ) ≤ x.length := by exact_mod_cast hx0
    have hp : 0 < pooledVar x x := by
      unfold pooledVar
      apply div_pos <;> linarith
    unfold scoreScale
    split
    · have : 0 < Real.sqrt (1 / (x.length : ℝ) + 1 / x.length) := Real.sqrt_pos.2 (by positivity)
      have := Real.sqrt_pos.2 hp
      positivity
    · exact (Real.sqrt_pos.2 hp).ne'

/-- C73 is violated: data compared with themselves are always reported as a statistically
significant change, because the confidence interval collapses to `[1, 1]`. -/
theorem C73_significant_violated (p : PctChange) (S : ScipyT) (x : List ℝ)
    (hx : p.current.data = some x) (hy : p.previous.data = some x) (hx0 : 2 ≤ x.length)
    (hm : mean x ≠ 0) :
    p.percChange = .fin 0 ∧ p.lower S = .fin 1 ∧ p.upper S = .fin 1 ∧ p.statSig S = true := by
  have nx : x ≠ [] := by rintro rfl; simp at hx0
  obtain ⟨h1, h2⟩ := percChange_of p x x hx hy nx nx hm
  have h0 : p.percChange = .fin 0 := by rw [h2, div_self hm]; norm_num
  have n2 : (2 : ℝ) ≤ x.length := by exact_mod_cast hx0
  have hv : deltaVar x x = 0 := by
    unfold deltaVar sampleVar
    rw [if_neg (by omega), tailOf_self, crossDev_self, min_self]
    have : (x.length : ℝ) - 1 ≠ 0 := by intro h; linarith
    have : (x.length : ℝ) ≠ 0 := by intro h; linarith
    field_simp
    ring
  have hs : Fl.sqrt (Fl.abs p.sigmaSqRatio) = .fin 0 := by
    rw [sigma_of p x x hx hy hx0 hx0 hm, hv, Fl.abs_fin, Fl.sqrt_fin _ (abs_nonneg _)]
    simp
  have hl : p.lower S = .fin 1 := by
    unfold PctChange.lower
    rw [h1, hs, div_self hm, Fl.fin_mul, Fl.fin_add]; simp
  have hu : p.upper S = .fin 1 := by
    unfold PctChange.upper
    rw [h1, hs, div_self hm, Fl.fin_mul, Fl.fin_sub]; simp
  refine ⟨h0, hl, hu, ?_⟩
  unfold PctChange.statSig
  rw [hl, hu, Bool.not_eq_true', Bool.and_eq_false_iff, ← Bool.not_eq_true, Fl.lt_fin]
  left
  exact lt_irrefl _

/-- C73 is violated without any change in data that are all zero, and generally whenever the
previous mean is zero and so is the current: the interval is undefined and counts as significant. -/
theorem C73_undefined_violated (p : PctChange) (S : ScipyT) (x y : List ℝ)
    (hx : p.current.data = some x) (hy : p.previous.data = some y) (hx0 : x ≠ []) (hy0 : y ≠ [])
    (h1 : mean x = 0) (h2 : mean y = 0) :
    p.ratio = .nan ∧ p.statSig S = true := by
  have hr : p.ratio = .nan := by
    unfold PctChange.ratio
    rw [meanVal_of _ x hx hx0, meanVal_of _ y hy hy0, h1, h2, Fl.fin_div_zero]
    simp [Fl.infOf]
  refine ⟨hr, ?_⟩
  unfold PctChange.statSig PctChange.upper
  rw [hr]
  simp

example : ∃ (p : PctChange) (x : List ℝ), p.current.data = some x ∧ p.previous.data = some x
    ∧ 2 ≤ x.length ∧ mean x ≠ 0 ∧ 0 < sqDev x (mean x) :=
  ⟨{ current := demoInterval [3, 5], previous := demoInterval [3, 5] }, [3, 5],
    demoInterval_data _, demoInterval_data _, by simp, by norm_num [mean], by norm_num [mean, sqDev]⟩

/-! ## C74: the variance of the ratio -/

theorem sum_sq_lin (x y : List ℝ) (mx my r : ℝ) (h : x.length = y.length) :
    (List.zipWith (fun a b => ((a - mx) - r * (b - my)) ^ 2) x y).sum
      = sqDev x mx - 2 * r * (List.zipWith (fun a b => (a - mx) * (b - my)) x y).sum
        + r ^ 2 * sqDev y my := by
  unfold sqDev
  induction x generalizing y with
  | nil =>
    have : y = [] := List.length_eq_zero_iff.1 (by simpa using h.symm)
    subst this; simp
  | cons a x ih =>
    cases y with
    | nil => simp at h
    | cons b y =>
      have := ih y (by simpa using h)
      simp only [List.zipWith_cons_cons, List.sum_cons, List.map_cons, this]
      ring

/-- C74 (true part): with equally many points on both sides, the variance used for the interval is
the squared standard error of the mean of `x - ratio * y`, scaled by the previous mean; in particular
it is never negative. Missing: samples of different lengths. -/
theorem C74_variance_partial (x y : List ℝ) (h : x.length = y.length) (h2 : 2 ≤ x.length)
    (hm : mean y ≠ 0) :
    deltaVar x y = (List.zipWith (fun a b => ((a - mean x) - mean x / mean y * (b - mean y)) ^ 2) x y).sum
        / ((x.length - 1) * x.length * mean y ^ 2)
    ∧ 0 ≤ deltaVar x y := by
  have n2 : (2 : ℝ) ≤ x.length := by exact_mod_cast h2
  have e : deltaVar x y
      = (List.zipWith (fun a b => ((a - mean x) - mean x / mean y * (b - mean y)) ^ 2) x y).sum
        / ((x.length - 1) * x.length * mean y ^ 2) := by
    rw [sum_sq_lin x y _ _ _ h]
    unfold deltaVar sampleVar
    have t1 : tailOf x y = x := by unfold tailOf; simp [h]
    have t2 : tailOf y x = y := by unfold tailOf; simp [h]
    rw [if_neg (by omega), if_neg (by omega), t1, t2, ← h, min_self]
    have : (x.length : ℝ) - 1 ≠ 0 := by intro h; linarith
    have : (x.length : ℝ) ≠ 0 := by intro h; linarith
    unfold crossDev
    field_simp
  refine ⟨e, ?_⟩
  rw [e]
  apply div_nonneg
  · apply List.sum_nonneg
    intro v hv
    rw [List.mem_iff_getElem] at hv
    obtain ⟨i, hi, rfl⟩ := hv
    rw [List.getElem_zipWith]
    positivity
  · have : (0 : ℝ) ≤ x.length - 1 := by linarith
    positivity

/-- C74 is violated: with samples of different lengths the variance can be negative; its absolute
value is then used as if it were a variance. -/
theorem C74_negative_violated : ∃ x y : List ℝ, 2 ≤ x.length ∧ 2 ≤ y.length ∧ 0 < mean x ∧
    0 < mean y ∧ deltaVar x y < 0 := by
  refine ⟨[5, 6], [1, 1, 1, 1, 1, 1, 1, 11], by simp, by simp, by norm_num [mean], by norm_num [mean], ?_⟩
  norm_num [deltaVar, sampleVar, sqDev, mean, crossDev, tailOf]

example : ([3, 5] : List ℝ).length = ([1, 2] : List ℝ).length ∧ mean ([1, 2] : List ℝ) ≠ 0 := by
  norm_num [mean]

/-! ## C75: the score is a t statistic -/

theorem scoreScale_pos (c : Bool) (x y : List ℝ) (hx0 : x ≠ []) (hy0 : y ≠ [])
    (hp : 0 < pooledVar x y) : 0 < scoreScale c x y := by
  have h1 : (0 : ℝ) < x.length := by exact_mod_cast List.length_pos_of_ne_nil hx0
  have h2 : (0 : ℝ) < y.length := by exact_mod_cast List.length_pos_of_ne_nil hy0
  unfold scoreScale
  split
  · exact mul_pos (Real.sqrt_pos.2 hp) (Real.sqrt_pos.2 (by positivity))
  · exact Real.sqrt_pos.2 hp

theorem ttest_of (p : PctChange) (S : ScipyT) (x y : List ℝ) (hx : p.current.data = some x)
    (hy : p.previous.data = some y) (hx0 : x ≠ []) (hy0 : y ≠ []) (hp : 0 < pooledVar x y) :
    (p.ttest S).1 = .fin ((mean x - mean y) / scoreScale p.corrected x y) ∧
    (p.ttest S).2 = S.tSf (.fin |(mean x - mean y) / scoreScale p.corrected x y|)
        ((y.length : Int) + x.length - 2) * .fin 2 := by
  have h1 : ¬ (x.length = 1 ∧ y.length = 1) := by
    rintro ⟨h, h'⟩
    unfold pooledVar at hp
    rw [h, h'] at hp
    norm_num at hp
  unfold PctChange.ttest PctChange.ttestManual
  have e : (p.current.meanVal - p.previous.meanVal) / p.pooledStd
      = .fin ((mean x - mean y) / scoreScale p.corrected x y) := by
    rw [meanVal_of _ x hx hx0, meanVal_of _ y hy hy0, pooledStd_of p x y hx hy hx0 hy0 h1, Fl.fin_sub,
      Fl.fin_div _ _ (scoreScale_pos _ _ _ hx0 hy0 hp).ne']
  rw [if_neg (by rw [len_of _ x hx, len_of _ y hy]; tauto)]
  dsimp only
  rw [e]
  refine ⟨rfl, ?_⟩
  unfold PctChange.df
  rw [len_of _ x hx, len_of _ y hy, Fl.abs_fin]

/-- The square of the two-sample t statistic with pooled variance (Student), times the squared
standard error, is the squared difference of the means; the sign is that of the difference. -/
def IsStudentT (x y : List ℝ) (t : ℝ) : Prop :=
  t ^ 2 * (pooledVar x y * (1 / x.length + 1 / y.length)) = (mean x - mean y) ^ 2
    ∧ (0 < t ↔ mean y < mean x)

/-- C75 (true part): with `use_corrected_scores` the score (no minimum change set) is Student's
two-sample t statistic, and the p-value is its two-sided tail. Without the correction it is the
difference of the means in units of the pooled standard deviation. -/
theorem C75_student_partial (p : PctChange) (S : ScipyT) (x y : List ℝ)
    (hx : p.current.data = some x) (hy : p.previous.data = some y) (hx0 : x ≠ []) (hy0 : y ≠ [])
    (hm : mean y ≠ 0) (hmin : p.minPerc ≤ 0) (hp : 0 < pooledVar x y) :
    ∃ t : ℝ, p.score S = .fin t
      ∧ p.pValue S = S.tSf (.fin |t|) ((y.length : Int) + x.length - 2) * .fin 2
      ∧ (p.corrected = true → IsStudentT x y t)
      ∧ (p.corrected = false → t ^ 2 * pooledVar x y = (mean x - mean y) ^ 2
          ∧ (0 < t ↔ mean y < mean x)) := by
  obtain ⟨h1, h2⟩ := ttest_of p S x y hx hy hx0 hy0 hp
  have hsc := scoreScale_pos p.corrected x y hx0 hy0 hp
  have l1 : (0 : ℝ) < x.length := by exact_mod_cast List.length_pos_of_ne_nil hx0
  have l2 : (0 : ℝ) < y.length := by exact_mod_cast List.length_pos_of_ne_nil hy0
  refine ⟨_, ?_, h2, ?_, ?_⟩
  · unfold PctChange.score
    rw [(percChange_of p x y hx hy hx0 hy0 hm).2, Fl.abs_fin, if_neg, h1]
    rw [Fl.lt_fin]
    exact not_lt.2 (le_trans hmin (abs_nonneg _))
  · intro hc
    constructor
    · have e : scoreScale p.corrected x y ^ 2 = pooledVar x y * (1 / x.length + 1 / y.length) := by
        unfold scoreScale
        rw [if_pos hc, mul_pow, Real.sq_sqrt hp.le, Real.sq_sqrt (by positivity), add_comm (1 / (y.length : ℝ))]
      rw [← e, div_pow, div_mul_cancel₀]
      positivity
    · rw [div_pos_iff_of_pos_right hsc, sub_pos]
  · intro hc
    constructor
    · have e : scoreScale p.corrected x y ^ 2 = pooledVar x y := by
        unfold scoreScale
        rw [if_neg (by simp [hc]), Real.sq_sqrt hp.le]
      conv_lhs => rw [← e]
      rw [div_pow, div_mul_cancel₀]
      positivity
    · rw [div_pos_iff_of_pos_right hsc, sub_pos]

/-- C75 is violated by the default `use_corrected_scores=False`: whenever the means differ, the
score is not Student's t statistic (unless `1/n + 1/m = 1`), although the p-value is computed from it
with the t distribution. -/
theorem C75_default_violated (p : PctChange) (S : ScipyT) (x y : List ℝ)
    (hx : p.current.data = some x) (hy : p.previous.data = some y) (hx0 : x ≠ []) (hy0 : y ≠ [])
    (hm : mean y ≠ 0) (hmin : p.minPerc ≤ 0) (hp : 0 < pooledVar x y) (hc : p.corrected = false)
    (hd : mean x ≠ mean y) (hn : (1 : ℝ) / x.length + 1 / y.length ≠ 1) :
    ∀ t : ℝ, p.score S = .fin t → ¬ IsStudentT x y t := by
  obtain ⟨t', h1, -, -, h3⟩ := C75_student_partial p S x y hx hy hx0 hy0 hm hmin hp
  intro t ht hs
  rw [h1] at ht
  injection ht with ht
  subst ht
  obtain ⟨h4, -⟩ := h3 hc
  have h5 := hs.1
  rw [← h4] at h5
  have h6 : t' ^ 2 * pooledVar x y ≠ 0 := by
    rw [h4]
    exact pow_ne_zero _ (sub_ne_zero.2 hd)
  apply hn
  have : t' ^ 2 * pooledVar x y * (1 / x.length + 1 / y.length) = t' ^ 2 * pooledVar x y * 1 := by
    rw [mul_one]; linarith
  exact mul_left_cancel₀ h6 this

/-- C75: exchanging current and previous negates the score; shifting or scaling all data by a
positive factor does not change it. -/
theorem C75_invariance (p q r : PctChange) (S : ScipyT) (x y : List ℝ) (a b : ℝ)
    (hx : p.current.data = some x) (hy : p.previous.data = some y)
    (qx : q.current.data = some y) (qy : q.previous.data = some x)
    (rx : r.current.data = some (x.map fun v => a * v + b))
    (ry : r.previous.data = some (y.map fun v => a * v + b)) (ha : 0 < a)
    (hx0 : x ≠ []) (hy0 : y ≠ []) (hp : 0 < pooledVar x y)
    (hq : q.corrected = p.corrected) (hr : r.corrected = p.corrected) :
    (∃ t : ℝ, (p.ttest S).1 = .fin t ∧ (q.ttest S).1 = .fin (-t)) ∧ (r.ttest S).1 = (p.ttest S).1 := by
  have hsym : pooledVar y x = pooledVar x y := by
    unfold pooledVar
    rw [add_comm (sqDev y _), add_comm (y.length : ℝ)]
  have hscale : ∀ c, scoreScale c y x = scoreScale c x y := by
    intro c
    unfold scoreScale
    rw [hsym, add_comm (1 / (x.length : ℝ))]
  have hpv : pooledVar (x.map fun v => a * v + b) (y.map fun v => a * v + b) = a ^ 2 * pooledVar x y := by
    unfold pooledVar
    rw [mean_affine x hx0, mean_affine y hy0, sqDev_affine, sqDev_affine, List.length_map,
      List.length_map]
    ring
  refine ⟨⟨_, (ttest_of p S x y hx hy hx0 hy0 hp).1, ?_⟩, ?_⟩
  · rw [(ttest_of q S y x qx qy hy0 hx0 (hsym ▸ hp)).1, hq, hscale]
    congr 1
    ring
  · rw [(ttest_of r S _ _ rx ry (by simpa using hx0) (by simpa using hy0)
      (by rw [hpv]; positivity)).1, (ttest_of p S x y hx hy hx0 hy0 hp).1, hr]
    congr 1
    have e : scoreScale p.corrected (x.map fun v => a * v + b) (y.map fun v => a * v + b)
        = a * scoreScale p.corrected x y := by
      unfold scoreScale
      rw [hpv, List.length_map, List.length_map, Real.sqrt_mul (by positivity), Real.sqrt_sq ha.le]
      split <;> ring
    rw [e, mean_affine x hx0, mean_affine y hy0,
      show a * mean x + b - (a * mean y + b) = a * (mean x - mean y) by ring,
      mul_div_mul_left _ _ ha.ne']

/-- C75: the confidence band reported around the previous mean contains the current mean exactly
when the score is at most the critical value in size. -/
theorem C75_band (p : PctChange) (S : ScipyT) (x y : List ℝ)
    (hx : p.current.data = some x) (hy : p.previous.data = some y) (hx0 : x ≠ []) (hy0 : y ≠ [])
    (hp : 0 < pooledVar x y) (c : ℝ)
    (hc : S.tPpf (0.05 / 2) ((y.length : Int) + x.length - 2) = .fin (-c)) (hpos : 0 < c) :
    ∃ lo up t : ℝ, p.ciLower S = .fin lo ∧ p.ciUpper S = .fin up ∧ (p.ttest S).1 = .fin t
      ∧ lo + up = 2 * mean y ∧ lo < up ∧ ((lo ≤ mean x ∧ mean x ≤ up) ↔ |t| ≤ c) := by
  have h1 : ¬ (x.length = 1 ∧ y.length = 1) := by
    rintro ⟨h, h'⟩
    unfold pooledVar at hp
    rw [h, h'] at hp
    norm_num at hp
  have hsc := scoreScale_pos p.corrected x y hx0 hy0 hp
  have hl : p.ciLower S = .fin (mean y + -c * scoreScale p.corrected x y) := by
    unfold PctChange.ciLower PctChange.df
    rw [len_of _ x hx, len_of _ y hy, hc, meanVal_of _ y hy hy0, pooledStd_of p x y hx hy hx0 hy0 h1,
      Fl.fin_mul, Fl.fin_add]
  have hu : p.ciUpper S = .fin (mean y - -c * scoreScale p.corrected x y) := by
    unfold PctChange.ciUpper PctChange.df
    rw [len_of _ x hx, len_of _ y hy, hc, meanVal_of _ y hy hy0, pooledStd_of p x y hx hy hx0 hy0 h1,
      Fl.fin_mul, Fl.fin_sub]
  refine ⟨_, _, _, hl, hu, (ttest_of p S x y hx hy hx0 hy0 hp).1, by ring, by nlinarith, ?_⟩
  rw [abs_div, abs_of_pos hsc, div_le_iff₀ hsc, abs_le]
  constructor
  · rintro ⟨h2, h3⟩; constructor <;> linarith
  · rintro ⟨h2, h3⟩; constructor <;> linarith

example : ∃ (p : PctChange) (x y : List ℝ), p.current.data = some x ∧ p.previous.data = some y
    ∧ x ≠ [] ∧ y ≠ [] ∧ mean y ≠ 0 ∧ p.minPerc ≤ 0 ∧ 0 < pooledVar x y ∧ p.corrected = false
    ∧ mean x ≠ mean y ∧ (1 : ℝ) / x.length + 1 / y.length ≠ 1 :=
  ⟨{ current := demoInterval [3, 5, 7], previous := demoInterval [1, 2] }, [3, 5, 7], [1, 2],
    demoInterval_data _, demoInterval_data _, by simp, by simp, by norm_num [mean], le_refl _,
    by norm_num [pooledVar, mean, sqDev], rfl, by norm_num [mean], by norm_num⟩

end

end Kats
