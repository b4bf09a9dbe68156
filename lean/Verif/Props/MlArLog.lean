import Verif.Model.MlArLog
import Mathlib.Tactic.Ring
import Mathlib.Tactic.Linarith
import Mathlib.Tactic.FieldSimp
import Mathlib.Tactic.NormNum

/-!
# Properties of the logarithm of the targets of ML-AR
-/

namespace Kats

/-- C174: with the logarithm every forecast is positive. -/
theorem C174_positive (M : MtModel) (h : M.log = true) (series rest : List ℝ) : 0 < mtForecast M series rest := by
  unfold mtForecast mtBack
  rw [if_pos h]
  exact Real.exp_pos _

/-- C174: a regressor that is right about the output of training is right about the value, without the smallest value
and with divisors that are not zero. -/
theorem C174_roundtrip_partial (M : MtModel) (hm : M.useMin = false) (series rest : List ℝ) (y : ℝ)
    (hy : M.log = true → 0 < y) (h1 : M.op = .div → (mtStats M (series.map (mtTransform M))).1 ≠ 0)
    (h2 : M.op = .subDiv → (mtStats M (series.map (mtTransform M))).2 ≠ 0)
    (hp : M.predict (mtRow M series rest) = mtOutput M series y) : mtForecast M series rest = y := by
  have hd : mtDenormalize M (mtStats M (series.map (mtTransform M))) (mtOutput M series y) = mtTransform M y := by
    unfold mtOutput mtDenormalize mtNormalize
    rw [hm]
    cases hop : M.op with
    | sub => simp
    | div =>
      have := h1 hop
      simp only [Bool.false_eq_true, if_false, add_zero, sub_zero]
      field_simp
    | subDiv =>
      have := h2 hop
      simp only [Bool.false_eq_true, if_false, add_zero, sub_zero]
      field_simp
      ring
  unfold mtForecast
  rw [hp, hd]
  unfold mtBack mtTransform
  by_cases hl : M.log = true
  · rw [if_pos hl, if_pos hl, Real.exp_log (hy hl)]
  · rw [if_neg hl, if_neg hl]

/-- With the smallest value the way back is off: the forecast of a right regressor is too small by a factor. -/
theorem C174_roundtrip_violated (M : MtModel) (hl : M.log = true) (hop : M.op = .sub) (hm : M.useMin = true)
    (hd : 0 < M.dmin) (series rest : List ℝ) (y : ℝ) (hy : 0 < y)
    (hp : M.predict (mtRow M series rest) = mtOutput M series y) :
    mtForecast M series rest = y * Real.exp (-(2 * M.dmin)) ∧ mtForecast M series rest < y := by
  have h : mtForecast M series rest = y * Real.exp (-(2 * M.dmin)) := by
    unfold mtForecast mtBack
    rw [if_pos hl, hp]
    unfold mtOutput mtDenormalize mtNormalize
    rw [hop, hm]
    simp only [if_true]
    unfold mtTransform
    simp only [hl, if_true]
    rw [show ∀ n : ℝ, Real.log y + M.dmin - (n + M.dmin) - M.dmin + (n - M.dmin) = Real.log y + -(2 * M.dmin) by
      intro n; ring, Real.exp_add, Real.exp_log hy]
  refine ⟨h, ?_⟩
  rw [h]
  have : Real.exp (-(2 * M.dmin)) < 1 := by rw [← Real.exp_zero]; exact Real.exp_lt_exp.2 (by linarith)
  nlinarith

/-- The transformed lags of a scaled series. -/
theorem mtScaled (M : MtModel) (hl : M.log = true) {c : ℝ} (hc : 0 < c) (series : List ℝ) (hs : ∀ x ∈ series, 0 < x) :
    (series.map (c * ·)).map (mtTransform M) = (series.map (mtTransform M)).map (· + Real.log c) := by
  rw [List.map_map, List.map_map]
  refine List.map_congr_left fun x hx => ?_
  simp only [Function.comp, mtTransform, hl, if_true]
  rw [Real.log_mul hc.ne' (hs x hx).ne', add_comm]

theorem mtStats_shift (M : MtModel) (a : ℝ) (h1 : ∀ l, l ≠ [] → M.stat (l.map (· + a)) = M.stat l + a)
    (h2 : ∀ l, M.stat2 (l.map (· + a)) = M.stat2 l) (hw : 1 ≤ M.window) (l : List ℝ) (hl : l ≠ []) :
    mtStats M (l.map (· + a)) = ((mtStats M l).1 + a, (mtStats M l).2) := by
  unfold mtStats
  simp only [List.length_map, ← List.map_drop]
  have : l.drop (l.length - M.window) ≠ [] := by
    have := List.length_pos_of_ne_nil hl
    intro h
    have := congrArg List.length h
    simp only [List.length_drop, List.length_nil] at this
    omega
  rw [h1 _ this, h2]

theorem mtNormalize_shift (M : MtModel) (hop : M.op ≠ .div) (a : ℝ) (n : ℝ × ℝ) (x : ℝ) :
    mtNormalize M (n.1 + a, n.2) (x + a) = mtNormalize M n x := by
  unfold mtNormalize
  cases h : M.op with
  | sub => simp only; ring
  | div => exact absurd h hop
  | subDiv => simp only; congr 1; ring

/-- C174: with the logarithm and subtraction or the z-score, a change of the unit of the series leaves the rows and the
outputs of training as they are, and changes every forecast by the same factor. -/
theorem C174_scale_partial (M : MtModel) (hl : M.log = true) (hop : M.op ≠ .div) (hw : 1 ≤ M.window)
    (h1 : ∀ l a, l ≠ [] → M.stat (l.map (· + a)) = M.stat l + a) (h2 : ∀ l a, M.stat2 (l.map (· + a)) = M.stat2 l)
    {c : ℝ} (hc : 0 < c) (series rest : List ℝ) (hne : series ≠ []) (hs : ∀ x ∈ series, 0 < x) :
    mtRow M (series.map (c * ·)) rest = mtRow M series rest ∧
    (∀ y, 0 < y → mtOutput M (series.map (c * ·)) (c * y) = mtOutput M series y) ∧
    mtForecast M (series.map (c * ·)) rest = c * mtForecast M series rest := by
  have hn : series.map (mtTransform M) ≠ [] := by simpa using hne
  have hst := mtStats_shift M (Real.log c) (fun l h => h1 l _ h) (fun l => h2 l _) hw _ hn
  have hrow : mtRow M (series.map (c * ·)) rest = mtRow M series rest := by
    unfold mtRow
    simp only
    rw [mtScaled M hl hc series hs, hst, List.map_map,
      show mtNormalize M ((mtStats M (series.map (mtTransform M))).1 + Real.log c,
        (mtStats M (series.map (mtTransform M))).2) ∘ (· + Real.log c) =
        mtNormalize M (mtStats M (series.map (mtTransform M))) from
        funext fun x => mtNormalize_shift M hop _ _ x]
  refine ⟨hrow, fun y hy => ?_, ?_⟩
  · unfold mtOutput
    rw [mtScaled M hl hc series hs, hst,
      show mtTransform M (c * y) = mtTransform M y + Real.log c by
        simp only [mtTransform, hl, if_true]
        rw [Real.log_mul hc.ne' hy.ne', add_comm], mtNormalize_shift M hop]
  · unfold mtForecast
    rw [hrow, mtScaled M hl hc series hs, hst]
    unfold mtBack
    rw [if_pos hl, if_pos hl]
    have : ∀ (n : ℝ × ℝ) x, mtDenormalize M (n.1 + Real.log c, n.2) x = mtDenormalize M n x + Real.log c := by
      intro n x
      unfold mtDenormalize
      cases h : M.op with
      | sub => simp only; ring
      | div => exact absurd h hop
      | subDiv => simp only; ring
    rw [this, Real.exp_add, Real.exp_log hc, mul_comm]

/-- The last value of the window as its maximum meets the hypotheses for windows of one value. -/
noncomputable def mtExample (op : MlOp) (log : Bool) : MtModel where
  log := log
  op := op
  useMin := false
  dmin := 0
  window := 1
  stat := fun l => l.getLastD 0
  stat2 := fun _ => 1
  sums := fun _ => []
  predict := fun _ => 2

example : mtForecast (mtExample .sub true) ([1, 3].map (5 * ·)) [] = 5 * mtForecast (mtExample .sub true) [1, 3] [] :=
  (C174_scale_partial (mtExample .sub true) rfl (by simp [mtExample]) le_rfl
    (by
      intro l a hl
      obtain ⟨l', b, rfl⟩ := List.eq_nil_or_concat l |>.resolve_left hl
      simp [mtExample])
    (fun _ _ => rfl) (by norm_num) [1, 3] [] (by simp) (by
      intro x hx
      simp only [List.mem_cons, List.not_mem_nil, or_false] at hx
      rcases hx with rfl | rfl <;> norm_num)).2.2

/-- C174: without the logarithm, with division, no smallest value and a normalizer that has the unit of the series, the
rows do not depend on the unit either and forecasts change with it. -/
theorem C174_scale_plain_partial (M : MtModel) (hl : M.log = false) (hop : M.op = .div) (hm : M.useMin = false)
    {c : ℝ} (hc : 0 < c) (h1 : ∀ l, M.stat (l.map (c * ·)) = c * M.stat l) (series rest : List ℝ) :
    mtRow M (series.map (c * ·)) rest = mtRow M series rest ∧
    mtForecast M (series.map (c * ·)) rest = c * mtForecast M series rest := by
  have ht : mtTransform M = id := by
    funext x
    simp [mtTransform, hl]
  have hst : (mtStats M (series.map (c * ·))).1 = c * (mtStats M series).1 := by
    unfold mtStats
    simp only [List.length_map, ← List.map_drop, h1]
  have hrow : mtRow M (series.map (c * ·)) rest = mtRow M series rest := by
    unfold mtRow
    simp only [ht, List.map_id]
    rw [List.map_map]
    have : mtNormalize M (mtStats M (series.map (c * ·))) ∘ (c * ·) = mtNormalize M (mtStats M series) := by
      funext x
      unfold mtNormalize
      rw [Function.comp, hop, hm]
      simp only [Bool.false_eq_true, if_false, add_zero, hst]
      exact mul_div_mul_left _ _ hc.ne'
    rw [this]
  refine ⟨hrow, ?_⟩
  unfold mtForecast mtBack
  rw [hrow, if_neg (by simp [hl]), if_neg (by simp [hl])]
  unfold mtDenormalize
  simp only [hop, hm, Bool.false_eq_true, if_false, sub_zero, ht, List.map_id, hst]
  ring

example : mtForecast (mtExample .div false) ([1, 3].map (5 * ·)) [] = 5 * mtForecast (mtExample .div false) [1, 3] [] :=
  (C174_scale_plain_partial (mtExample .div false) rfl rfl rfl (by norm_num) (by
    intro l
    rcases List.eq_nil_or_concat l with rfl | ⟨l', b, rfl⟩ <;> simp [mtExample]) [1, 3] []).2

/-- C174: with the logarithm and division, which is the default, the unit matters. -/
theorem C174_scale_violated : ∃ (M : MtModel) (c : ℝ) (series : List ℝ), M.log = true ∧ M.op = .div ∧ 0 < c ∧
    (∀ x ∈ series, 0 < x) ∧ mtForecast M (series.map (c * ·)) [] ≠ c * mtForecast M series [] := by
  refine ⟨mtExample .div true, Real.exp 1, [Real.exp 1], rfl, rfl, Real.exp_pos _, ?_, ?_⟩
  · intro x hx
    rw [List.mem_singleton.1 hx]
    exact Real.exp_pos _
  · simp only [mtForecast, mtBack, mtDenormalize, mtStats, mtTransform, mtExample, List.map_cons, List.map_nil,
      if_true, Bool.false_eq_true, if_false, sub_zero, List.length_singleton, Nat.sub_self, List.drop_zero,
      List.getLastD_cons, List.getLastD_nil]
    rw [← Real.exp_add, ← Real.exp_add, Real.log_exp, Real.log_exp]
    intro h
    have := Real.exp_injective h
    norm_num at this

/-- C174: the error that training logs compares the logarithm of the value with the forecast of the value: even for
right forecasts the two numbers are never equal. -/
theorem C174_report_violated (M : MtModel) (hl : M.log = true) (hm : M.useMin = false) (series rest : List ℝ) (y : ℝ)
    (hy : 0 < y) (h1 : M.op = .div → (mtStats M (series.map (mtTransform M))).1 ≠ 0)
    (h2 : M.op = .subDiv → (mtStats M (series.map (mtTransform M))).2 ≠ 0)
    (hp : M.predict (mtRow M series rest) = mtOutput M series y) :
    mtReport M series rest y = (Real.log y, y) ∧ (mtReport M series rest y).1 ≠ (mtReport M series rest y).2 := by
  have hf := C174_roundtrip_partial M hm series rest y (fun _ => hy) h1 h2 hp
  have hr : mtReport M series rest y = (Real.log y, y) := by
    have hb : mtForecast M series rest =
        Real.exp (mtDenormalize M (mtStats M (series.map (mtTransform M))) (mtOutput M series y)) := by
      rw [← hp]
      unfold mtForecast mtBack
      rw [if_pos hl]
    unfold mtReport
    rw [hf]
    rw [hf] at hb
    refine Prod.ext ?_ rfl
    show mtDenormalize M _ _ = Real.log y
    rw [hb, Real.log_exp]
    rw [← hb]
  refine ⟨hr, ?_⟩
  rw [hr]
  have := Real.log_le_sub_one_of_pos hy
  exact fun h => by simp only at h; linarith

/-- A forecast that is right: the regressor says 2, which is the output of `3 * exp 2` after 3. -/
example : mtForecast (mtExample .sub true) [1, 3] [] = 3 * Real.exp 2 ∧
    (mtReport (mtExample .sub true) [1, 3] [] (3 * Real.exp 2)).1 ≠ 3 * Real.exp 2 := by
  have hp : (mtExample .sub true).predict (mtRow (mtExample .sub true) [1, 3] []) =
      mtOutput (mtExample .sub true) [1, 3] (3 * Real.exp 2) := by
    simp only [mtOutput, mtNormalize, mtStats, mtTransform, mtExample]
    rw [Real.log_mul (by norm_num) (Real.exp_pos _).ne', Real.log_exp]
    simp [mtTransform]
  have hy : (0 : ℝ) < 3 * Real.exp 2 := by positivity
  have := C174_report_violated (mtExample .sub true) rfl rfl [1, 3] [] _ hy (by simp [mtExample])
    (by simp [mtExample]) hp
  refine ⟨C174_roundtrip_partial _ rfl _ _ _ (fun _ => hy) (by simp [mtExample]) (by simp [mtExample]) hp, ?_⟩
  have h2 := this.2
  rwa [show (mtReport (mtExample .sub true) [1, 3] [] (3 * Real.exp 2)).2 = 3 * Real.exp 2 by rw [this.1]] at h2

end Kats
