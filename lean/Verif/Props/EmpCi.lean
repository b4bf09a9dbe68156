import Verif.Model.EmpCi
import Verif.Lemmas.LeastSquares
import Verif.Props.PolyModel

/-!
# C114: empirical confidence intervals
-/

namespace Kats

open Classical Matrix

/-- C114, the constructor takes exactly percentages in (0, 100] and a number of sliding steps that is not
negative. -/
theorem C114_init_partial (p : EciParams) :
    (eciInit p = .ok p ↔ (0 < p.train ∧ p.train ≤ 100) ∧ (0 < p.test ∧ p.test ≤ 100) ∧ 0 ≤ p.sliding)
    ∧ (eciInit p = .ok p ∨ eciInit p = .error .valueError) := by
  unfold eciInit
  by_cases h1 : p.train ≤ 0
  · rw [if_pos h1]
    exact ⟨⟨fun h => (by cases h), fun h => absurd h1 (not_le.2 h.1.1)⟩, .inr rfl⟩
  rw [if_neg h1]
  by_cases h2 : 100 < p.train
  · rw [if_pos h2]
    exact ⟨⟨fun h => (by cases h), fun h => absurd h2 (not_lt.2 h.1.2)⟩, .inr rfl⟩
  rw [if_neg h2]
  by_cases h3 : p.test ≤ 0
  · rw [if_pos h3]
    exact ⟨⟨fun h => (by cases h), fun h => absurd h3 (not_le.2 h.2.1.1)⟩, .inr rfl⟩
  rw [if_neg h3]
  by_cases h4 : 100 < p.test
  · rw [if_pos h4]
    exact ⟨⟨fun h => (by cases h), fun h => absurd h4 (not_lt.2 h.2.1.2)⟩, .inr rfl⟩
  rw [if_neg h4]
  by_cases h5 : p.sliding < 0
  · rw [if_pos h5]
    exact ⟨⟨fun h => (by cases h), fun h => absurd h5 (not_lt.2 h.2.2)⟩, .inr rfl⟩
  rw [if_neg h5]
  exact ⟨⟨fun _ => ⟨⟨not_le.1 h1, not_lt.1 h2⟩, ⟨not_le.1 h3, not_lt.1 h4⟩, not_lt.1 h5⟩, fun _ => rfl⟩, .inl rfl⟩

example : eciInit ⟨50, 25, 3, 4 / 5⟩ = .ok ⟨50, 25, 3, 4 / 5⟩ :=
  (C114_init_partial _).1.2 ⟨⟨by norm_num, by norm_num⟩, ⟨by norm_num, by norm_num⟩, by norm_num⟩

/-- C114 is violated by the check of the sliding steps, which logs "Non positive sliding steps" but lets 0 pass. -/
theorem C114_init_violated : eciInit ⟨50, 25, 0, 4 / 5⟩ = .ok ⟨50, 25, 0, 4 / 5⟩ :=
  (C114_init_partial _).1.2 ⟨⟨by norm_num, by norm_num⟩, ⟨by norm_num, by norm_num⟩, by norm_num⟩

theorem filterMap_getElem?_rect (E : List (List ℝ)) (j : Nat) (h : ∀ e ∈ E, j < e.length) :
    E.filterMap (·[j]?) = E.map (·.getD j 0) := by
  induction E with
  | nil => rfl
  | cons e l ih =>
    have he := h e (List.mem_cons_self)
    rw [List.filterMap_cons_some (b := e[j]) (by simp [he]), List.map_cons, ih fun x hx => h x (List.mem_cons_of_mem _ hx),
      List.getD_eq_getElem _ _ he]

theorem foldr_max_rect (E : List (List ℝ)) (hE : E ≠ []) (h : Nat) (hl : ∀ e ∈ E, e.length = h) :
    (E.map List.length).foldr max 0 = h := by
  induction E with
  | nil => exact absurd rfl hE
  | cons e l ih =>
    rw [List.map_cons, List.foldr_cons, hl e List.mem_cons_self]
    by_cases hn : l = []
    · rw [hn]; simp
    · rw [ih hn fun x hx => hl x (List.mem_cons_of_mem _ hx), max_self]

theorem runCv_eq (E : List (List ℝ)) (hE : E ≠ []) (h : Nat) (hl : ∀ e ∈ E, e.length = h) :
    runCv E = (List.range h).map fun j : Nat => sampleStd (E.map (·.getD j 0)) := by
  unfold runCv
  rw [foldr_max_rect E hE h hl]
  apply List.map_congr_left
  intro j hj
  rw [horizonErrors, filterMap_getElem?_rect E j fun e he => by rw [hl e he]; exact List.mem_range.1 hj]

/-- C114, the standard errors: with two folds or more there is one per horizon, the root of the squared
deviations of the errors of all folds at that horizon from their mean over the number of folds less one; it is
zero only if all folds have the same error there.  With a single fold they are all NaN. -/
theorem C114_standard_errors (E : List (List ℝ)) (hE : E ≠ []) (h : Nat) (hl : ∀ e ∈ E, e.length = h) :
    (runCv E).length = h
    ∧ (2 ≤ E.length → ∀ j, (hj : j < h) → ∃ m s, m * E.length = (E.map (·.getD j 0)).sum ∧ 0 ≤ s
        ∧ s ^ 2 * (E.length - 1 : ℝ) = (E.map fun e => (e.getD j 0 - m) ^ 2).sum
        ∧ (runCv E)[j]? = some (some s) ∧ (s = 0 ↔ ∀ e ∈ E, e.getD j 0 = m))
    ∧ (E.length = 1 → ∀ x ∈ runCv E, x = none) := by
  rw [runCv_eq E hE h hl]
  refine ⟨by simp, ?_, ?_⟩
  · intro h2 j hj
    have hn : (0 : ℝ) < E.length := by exact_mod_cast (by omega : 0 < E.length)
    have hn1 : (0 : ℝ) < (E.length : ℝ) - 1 := by
      have : (2 : ℝ) ≤ E.length := by exact_mod_cast h2
      linarith
    obtain ⟨m, hm⟩ : ∃ m, m = (E.map (·.getD j 0)).sum / E.length := ⟨_, rfl⟩
    obtain ⟨S, hS⟩ : ∃ S, S = (E.map fun e => (e.getD j 0 - m) ^ 2).sum := ⟨_, rfl⟩
    have hS0 : 0 ≤ S := by
      rw [hS]
      apply List.sum_nonneg
      intro x hx
      obtain ⟨e, -, rfl⟩ := List.mem_map.1 hx
      exact sq_nonneg _
    have hsq : Real.sqrt (S / ((E.length : ℝ) - 1)) ^ 2 * ((E.length : ℝ) - 1) = S := by
      rw [Real.sq_sqrt (div_nonneg hS0 hn1.le)]
      field_simp
    refine ⟨m, Real.sqrt (S / ((E.length : ℝ) - 1)), by rw [hm]; field_simp, Real.sqrt_nonneg _, ?_, ?_, ?_⟩
    · rw [hsq, hS]
    · rw [List.getElem?_map, List.getElem?_range hj, Option.map_some]
      unfold sampleStd
      rw [if_neg (by simp; omega), List.length_map, ← hm, List.map_map]
      congr 4
      rw [hS]
      rfl
    · constructor
      · intro hs
        have hz : S = 0 := by rw [← hsq, hs]; ring
        intro e he
        have hle : (e.getD j 0 - m) ^ 2 ≤ S := by
          rw [hS]
          exact List.single_le_sum (by
            intro x hx
            obtain ⟨e', -, rfl⟩ := List.mem_map.1 hx
            exact sq_nonneg _) _ (List.mem_map.2 ⟨e, he, rfl⟩)
        have : (e.getD j 0 - m) ^ 2 = 0 := le_antisymm (hle.trans hz.le) (sq_nonneg _)
        exact sub_eq_zero.1 (pow_eq_zero_iff two_ne_zero |>.1 this)
      · intro hall
        have : S = 0 := by
          rw [hS]
          apply List.sum_eq_zero
          intro x hx
          obtain ⟨e, he, rfl⟩ := List.mem_map.1 hx
          rw [hall e he, sub_self]
          norm_num
        rw [this]
        simp
  · intro h1 x hx
    obtain ⟨j, -, rfl⟩ := List.mem_map.1 hx
    unfold sampleStd
    rw [if_pos (by simp [h1])]

example : ∃ s, (runCv [[1, 2], [3, 6], [5, 4]])[1]? = some (some s) ∧ s ^ 2 * 2 = 8 := by
  obtain ⟨-, h, -⟩ := C114_standard_errors [[1, 2], [3, 6], [5, 4]] (by simp) 2 (by simp)
  obtain ⟨m, s, h1, -, h3, h4, -⟩ := h (by simp) 1 (by omega)
  refine ⟨s, h4, ?_⟩
  simp at h1 h3
  have hm : m = 4 := by linarith
  rw [hm] at h3
  linarith

/-- Residual sum of squares of the line `a h + b` on the standard errors. -/
noncomputable def lineRss (a b : ℝ) (y : List ℝ) : ℝ :=
  ∑ i ∈ Finset.range y.length, (y.getD i 0 - (a * ((i : ℝ) + 1) + b)) ^ 2

theorem mapM_id_some (y : List ℝ) : (y.map some).mapM id = some y := by
  induction y with
  | nil => rfl
  | cons a l ih => rw [List.map_cons, List.mapM_cons, ih]; rfl

/-- C114, the line of the standard errors: for two horizons or more `get_lr` finds the line with the least sum
of squared residuals, and no other line has that sum.  Without standard errors it raises a `ValueError`. -/
theorem C114_line (pinv : List (List ℝ) → List ℝ → List ℝ) (y : List ℝ) (hn : 2 ≤ y.length) :
    (∃ a b, getLr pinv (some (y.map some)) = .ok (some [a, b])
      ∧ ∀ a' b', lineRss a b y ≤ lineRss a' b' y ∧ (lineRss a' b' y = lineRss a b y → a' = a ∧ b' = b))
    ∧ getLr pinv none = .error .valueError := by
  refine ⟨?_, rfl⟩
  obtain ⟨a, b, h1, h2⟩ := lstsq_line pinv 1 y hn
  refine ⟨a, b, ?_, h2⟩
  unfold getLr
  simp only [mapM_id_some, List.length_map, Option.map_some]
  exact congrArg (fun t => Except.ok (some t)) h1

theorem lineRss_exact (y : List ℝ) (a b : ℝ) (h : ∀ i < y.length, y.getD i 0 = a * ((i : ℝ) + 1) + b) : lineRss a b y = 0 := by
  apply Finset.sum_eq_zero
  intro i hi
  rw [h i (Finset.mem_range.1 hi), sub_self]
  norm_num

/-- Standard errors that lie on a line give that line. -/
theorem getLr_exact (pinv : List (List ℝ) → List ℝ → List ℝ) (y : List ℝ) (hn : 2 ≤ y.length) (a b : ℝ)
    (h : ∀ i < y.length, y.getD i 0 = a * ((i : ℝ) + 1) + b) :
    getLr pinv (some (y.map some)) = .ok (some [a, b]) := by
  obtain ⟨⟨a', b', h1, h2⟩, -⟩ := C114_line pinv y hn
  have hz := lineRss_exact y a b h
  have hle := (h2 a b).1
  have hz' : lineRss a' b' y = 0 :=
    le_antisymm (hle.trans hz.le) (Finset.sum_nonneg fun i _ => sq_nonneg _)
  obtain ⟨e1, e2⟩ := (h2 a b).2 (by rw [hz, hz'])
  rw [h1, e1, e2]

example (pinv : List (List ℝ) → List ℝ → List ℝ) : getLr pinv (some [some 3, some 5, some 7]) = .ok (some [2, 1]) :=
  getLr_exact pinv [3, 5, 7] (by simp) 2 1 (by
    intro i hi
    have : i = 0 ∨ i = 1 ∨ i = 2 := by simp at hi; omega
    rcases this with rfl | rfl | rfl <;> simp <;> norm_num)

/-- C114, the interval: the times and forecasts are those of the model fitted to all data, and at horizon `h` (from 1)
the bounds lie `ppf(confidence) * (a h + b)` to both sides, where `a h + b` is the line of the standard errors. -/
theorem C114_interval (ppf : ℝ → ℝ) (pinv : List (List ℝ) → List ℝ → List ℝ) (p : EciParams) (E : List (List ℝ))
    (predicted : List (Int × ℝ)) (a b : ℝ) (hl : getLr pinv (some (runCv E)) = .ok (some [a, b])) :
    (∃ out, getEci ppf pinv p E predicted predicted.length = .ok out
      ∧ out.map (fun r => (r.time, r.fcst)) = predicted
      ∧ ∀ i (hi : i < out.length), out[i].lower = some (out[i].fcst - ppf p.confidence * (a * (i + 1) + b))
          ∧ out[i].upper = some (out[i].fcst + ppf p.confidence * (a * (i + 1) + b)))
    ∧ ∀ steps, steps ≠ predicted.length → getEci ppf pinv p E predicted steps = .error .valueError := by
  unfold getEci
  rw [hl]
  simp only [bind, Except.bind, pure, Except.pure, Option.map_some]
  refine ⟨?_, fun steps hs => by rw [if_neg (Ne.symm hs)]⟩
  rw [if_true]
  refine ⟨_, rfl, ?_, ?_⟩
  · apply List.ext_getElem
    · simp
    · intro i h1 h2
      simp
  · intro i hi
    rw [List.getElem_zipWith]
    simp only [List.getElem_map, List.getElem_range, Option.map_some, eciMargin, List.getD_cons_zero, List.getD_cons_succ]
    push_cast
    constructor <;> (congr 1; ring)

/-- C114 is violated as to the level: `ppf(confidence)` is a one-sided quantile.  For any symmetric distribution
function the interval from `-ppf(c)` to `ppf(c)` has probability `2 c - 1`, which is less than the confidence
level `c` unless `c` is 1: the default level of 0.8 gives intervals with probability 0.6. -/
theorem C114_level_violated (cdf ppf : ℝ → ℝ) (hsym : ∀ x, cdf (-x) = 1 - cdf x) (c : ℝ) (hc : cdf (ppf c) = c)
    (se : ℝ) (hse : 0 < se) (h1 : c < 1) (coefs : List ℝ) (h : Nat) (he : (h : ℝ) * coefs.getD 0 0 + coefs.getD 1 0 = se) :
    cdf (eciMargin (ppf c) coefs h / se) - cdf (-eciMargin (ppf c) coefs h / se) = 2 * c - 1
    ∧ cdf (eciMargin (ppf c) coefs h / se) - cdf (-eciMargin (ppf c) coefs h / se) < c := by
  have e1 : eciMargin (ppf c) coefs h / se = ppf c := by
    unfold eciMargin
    rw [he]
    field_simp
  have : cdf (eciMargin (ppf c) coefs h / se) - cdf (-eciMargin (ppf c) coefs h / se) = 2 * c - 1 := by
    rw [neg_div, e1, hsym, hc]
    ring
  exact ⟨this, by rw [this]; linarith⟩

/-- The uniform distribution on [-1, 1] has a symmetric distribution function. -/
example : ∃ cdf ppf : ℝ → ℝ, (∀ x, cdf (-x) = 1 - cdf x) ∧ cdf (ppf (4 / 5)) = 4 / 5
    ∧ cdf (eciMargin (ppf (4 / 5)) [1, 2] 3 / 5) - cdf (-eciMargin (ppf (4 / 5)) [1, 2] 3 / 5) = 3 / 5 := by
  refine ⟨fun x => (1 + x) / 2, fun c => 2 * c - 1, fun x => by ring, by norm_num, ?_⟩
  have := (C114_level_violated (fun x => (1 + x) / 2) (fun c => 2 * c - 1) (fun x => by ring) (4 / 5) (by norm_num) 5
    (by norm_num) (by norm_num) [1, 2] 3 (by norm_num)).1
  rw [this]
  norm_num

/-- C114, ordered bounds as far as they hold: with a nonnegative quantile, a line that does not fall and a
nonnegative value at the first horizon, every interval contains its forecast and none is narrower than the one before. -/
theorem C114_order_partial (ppf : ℝ → ℝ) (pinv : List (List ℝ) → List ℝ → List ℝ) (p : EciParams) (E : List (List ℝ))
    (predicted : List (Int × ℝ)) (a b : ℝ) (hl : getLr pinv (some (runCv E)) = .ok (some [a, b]))
    (hq : 0 ≤ ppf p.confidence) (ha : 0 ≤ a) (hb : 0 ≤ a + b) :
    ∃ out, getEci ppf pinv p E predicted predicted.length = .ok out
      ∧ ∃ w : Nat → ℝ, (∀ i, 0 ≤ w i) ∧ (∀ i j, i ≤ j → w i ≤ w j)
        ∧ ∀ i (hi : i < out.length), out[i].lower = some (out[i].fcst - w i) ∧ out[i].upper = some (out[i].fcst + w i) := by
  obtain ⟨⟨out, h1, -, h3⟩, -⟩ := C114_interval ppf pinv p E predicted a b hl
  refine ⟨out, h1, fun i => ppf p.confidence * (a * (i + 1) + b), ?_, ?_, h3⟩
  · intro i
    have : (0 : ℝ) ≤ i := Nat.cast_nonneg i
    apply mul_nonneg hq
    nlinarith
  · intro i j hij
    have : (i : ℝ) ≤ j := by exact_mod_cast hij
    apply mul_le_mul_of_nonneg_left _ hq
    nlinarith

theorem sampleStd_pair (x : ℝ) (hx : 0 ≤ x) : sampleStd [x, -x] = some (x * Real.sqrt 2) := by
  unfold sampleStd
  rw [if_neg (by simp)]
  congr 1
  have : (([x, -x].map fun y => (y - [x, -x].sum / (([x, -x].length : Nat) : ℝ)) ^ 2).sum / ((([x, -x].length : Nat) : ℝ) - 1))
      = x ^ 2 * 2 := by
    simp
    ring
  rw [this, Real.sqrt_mul (sq_nonneg x), Real.sqrt_sq hx]

theorem eci_falling_se : runCv [[3, 2, 1], [-3, -2, -1]] = [3 * Real.sqrt 2, 2 * Real.sqrt 2, Real.sqrt 2].map some := by
  rw [runCv_eq _ (by simp) 3 (by simp)]
  simp only [List.range_succ, List.range_zero, List.nil_append, List.cons_append, List.map_cons, List.map_nil,
    List.getD_cons_zero, List.getD_cons_succ]
  rw [sampleStd_pair 3 (by norm_num), sampleStd_pair 2 (by norm_num), sampleStd_pair 1 (by norm_num), one_mul]

/-- C114 is violated as to the order of the bounds: standard errors that fall with the horizon are extrapolated
below zero, and then the lower bound lies above the upper one.  Two folds of three horizons with errors ±3, ±2, ±1
do this at the fifth step, whatever the forecast. -/
theorem C114_order_violated (ppf : ℝ → ℝ) (pinv : List (List ℝ) → List ℝ → List ℝ) (p : EciParams)
    (hq : 0 < ppf p.confidence) (predicted : List (Int × ℝ)) (hp : predicted.length = 5) :
    ∃ out, getEci ppf pinv p [[3, 2, 1], [-3, -2, -1]] predicted 5 = .ok out
      ∧ ∃ r ∈ out, ∃ l u, r.lower = some l ∧ r.upper = some u ∧ u < l := by
  have hl : getLr pinv (some (runCv [[3, 2, 1], [-3, -2, -1]])) = .ok (some [-Real.sqrt 2, 4 * Real.sqrt 2]) := by
    rw [eci_falling_se]
    apply getLr_exact pinv _ (by simp)
    intro i hi
    have : i = 0 ∨ i = 1 ∨ i = 2 := by simp at hi; omega
    rcases this with rfl | rfl | rfl <;> simp <;> ring
  obtain ⟨⟨out, h1, h2, h3⟩, -⟩ := C114_interval ppf pinv p _ predicted _ _ hl
  rw [hp] at h1
  have hlen : out.length = 5 := by rw [← hp, ← h2, List.length_map]
  have h4 := h3 4 (by omega)
  refine ⟨out, h1, out[4]'(by omega), List.getElem_mem _, _, _, h4.1, h4.2, ?_⟩
  have : 0 < ppf p.confidence * Real.sqrt 2 := mul_pos hq (Real.sqrt_pos.2 (by norm_num))
  push_cast
  linarith

/-- The hypotheses of `C114_interval` and `C114_order_partial` hold for errors that spread with the horizon. -/
example (ppf : ℝ → ℝ) (pinv : List (List ℝ) → List ℝ → List ℝ) (hq : 0 ≤ ppf (4 / 5)) :
    ∃ out, getEci ppf pinv ⟨50, 25, 2, 4 / 5⟩ [[1, 2, 3], [-1, -2, -3]] [(7, 10), (8, 11)] 2 = .ok out
      ∧ ∃ w : Nat → ℝ, ∀ i (hi : i < out.length), out[i].lower = some (out[i].fcst - w i) := by
  have hr : runCv [[1, 2, 3], [-1, -2, -3]] = [1 * Real.sqrt 2, 2 * Real.sqrt 2, 3 * Real.sqrt 2].map some := by
    rw [runCv_eq _ (by simp) 3 (by simp)]
    simp only [List.range_succ, List.range_zero, List.nil_append, List.cons_append, List.map_cons, List.map_nil,
      List.getD_cons_zero, List.getD_cons_succ]
    rw [sampleStd_pair 3 (by norm_num), sampleStd_pair 2 (by norm_num), sampleStd_pair 1 (by norm_num)]
  have hl : getLr pinv (some (runCv [[1, 2, 3], [-1, -2, -3]])) = .ok (some [Real.sqrt 2, 0]) := by
    rw [hr]
    apply getLr_exact pinv _ (by simp)
    intro i hi
    have : i = 0 ∨ i = 1 ∨ i = 2 := by simp at hi; omega
    rcases this with rfl | rfl | rfl <;> simp <;> ring
  obtain ⟨out, h1, w, -, -, h3⟩ := C114_order_partial ppf pinv ⟨50, 25, 2, 4 / 5⟩ _ [(7, 10), (8, 11)] _ _ hl hq
    (Real.sqrt_nonneg _) (by rw [add_zero]; exact Real.sqrt_nonneg _)
  exact ⟨out, h1, w, fun i hi => (h3 i hi).1⟩

end Kats
