import Verif.Props.TsStruct

/-!
# Autocorrelation features: C110
-/

namespace Kats

noncomputable section

open Classical

theorem autoCov_zero (x : List ℝ) : autoCov x 0 = sxy x x := by
  rw [sxy_devs]
  rfl

theorem autoCov_zero_iff (x : List ℝ) : autoCov x 0 = 0 ↔ ∃ c, ∀ v ∈ x, v = c := by
  rw [autoCov_zero, sxx_zero_iff]

theorem zipWith_take_left (u v : List ℝ) (h : v.length ≤ u.length) :
    List.zipWith (· * ·) u v = List.zipWith (· * ·) (u.take v.length) v := by
  induction v generalizing u with
  | nil => simp
  | cons b v ih =>
    cases u with
    | nil => simp at h
    | cons a u =>
      simp only [List.zipWith_cons_cons, List.length_cons, List.take_succ_cons]
      rw [ih u (by simpa using h)]

theorem sum_sq_take_le (u : List ℝ) (k : Nat) : ((u.take k).map (· ^ 2)).sum ≤ (u.map (· ^ 2)).sum := by
  have h : (u.map (· ^ 2)).sum = ((u.take k).map (· ^ 2)).sum + ((u.drop k).map (· ^ 2)).sum := by
    rw [← List.sum_append, ← List.map_append, List.take_append_drop]
  rw [h, le_add_iff_nonneg_right]
  apply List.sum_nonneg
  intro y hy
  obtain ⟨v, _, rfl⟩ := List.mem_map.1 hy
  exact sq_nonneg v

theorem sum_sq_drop_le (u : List ℝ) (k : Nat) : ((u.drop k).map (· ^ 2)).sum ≤ (u.map (· ^ 2)).sum := by
  have h : (u.map (· ^ 2)).sum = ((u.take k).map (· ^ 2)).sum + ((u.drop k).map (· ^ 2)).sum := by
    rw [← List.sum_append, ← List.map_append, List.take_append_drop]
  rw [h, le_add_iff_nonneg_left]
  apply List.sum_nonneg
  intro y hy
  obtain ⟨v, _, rfl⟩ := List.mem_map.1 hy
  exact sq_nonneg v

theorem autoCov_le (x : List ℝ) (k : Nat) : |autoCov x k| ≤ autoCov x 0 := by
  have h0 : autoCov x 0 = ((devs x).map (· ^ 2)).sum := by rw [autoCov_zero, sxx_devs]
  have hk : autoCov x k = (List.zipWith (· * ·) ((devs x).take ((devs x).drop k).length) ((devs x).drop k)).sum := by
    rw [← zipWith_take_left _ _ (by rw [List.length_drop]; omega)]
    rfl
  have hl : ((devs x).take ((devs x).drop k).length).length = ((devs x).drop k).length := by
    rw [List.length_take, List.length_drop]
    omega
  have h1 := sum_sq_take_le (devs x) ((devs x).drop k).length
  have h2 := sum_sq_drop_le (devs x) k
  have h3 := zip_sq_nonneg ((devs x).take ((devs x).drop k).length) ((devs x).drop k) 1 1
  have h4 := zip_sq_nonneg ((devs x).take ((devs x).drop k).length) ((devs x).drop k) 1 (-1)
  rw [zip_expand _ _ _ _ hl, ← hk] at h3 h4
  rw [abs_le, h0]
  constructor <;> linarith

theorem autoCov_affine (x : List ℝ) (a b : ℝ) (k : Nat) :
    autoCov (x.map fun v => a * v + b) k = a ^ 2 * autoCov x k := by
  have h : ∀ y : List ℝ, autoCov y k = (List.zipWith (· * ·) (devs y) ((devs y).drop k)).sum := fun _ => rfl
  rw [h, h, devs_affine, ← List.map_drop]
  generalize (devs x).drop k = v
  generalize devs x = u
  induction u generalizing v with
  | nil => simp
  | cons c u ih =>
    cases v with
    | nil => simp
    | cons d v =>
      simp only [List.map_cons, List.zipWith_cons_cons, List.sum_cons, ih]
      ring

/-- **C110 (autocorrelation).**  The autocorrelation is defined exactly for series that are not constant; it lies between
minus one and one, is one at lag zero, and is not changed by shifting the values or by a factor other than zero. -/
theorem C110_acf (x : List ℝ) : ((∃ c, ∀ v ∈ x, v = c) → ∀ k, acfAt x k = none) ∧
    ((¬ ∃ c, ∀ v ∈ x, v = c) → acfAt x 0 = some 1 ∧
      ∀ k, ∃ r, acfAt x k = some r ∧ -1 ≤ r ∧ r ≤ 1 ∧
        ∀ a b : ℝ, a ≠ 0 → acfAt (x.map fun v => a * v + b) k = some r) := by
  constructor
  · intro h k
    unfold acfAt
    rw [if_pos ((autoCov_zero_iff x).2 h)]
  · intro h
    have h0 : autoCov x 0 ≠ 0 := fun h1 => h ((autoCov_zero_iff x).1 h1)
    have hpos : 0 < autoCov x 0 := by
      refine lt_of_le_of_ne ?_ (Ne.symm h0)
      rw [autoCov_zero]
      exact sxx_nonneg x
    constructor
    · unfold acfAt
      rw [if_neg h0, div_self h0]
    · intro k
      have hb := abs_le.1 (autoCov_le x k)
      refine ⟨autoCov x k / autoCov x 0, ?_, ?_, ?_, ?_⟩
      · unfold acfAt
        rw [if_neg h0]
      · rw [le_div_iff₀ hpos]
        linarith [hb.1]
      · rw [div_le_one hpos]
        exact hb.2
      · intro a b ha
        unfold acfAt
        rw [autoCov_affine, autoCov_affine, if_neg (mul_ne_zero (pow_ne_zero _ ha) h0),
          mul_div_mul_left _ _ (pow_ne_zero _ ha)]

example : acfAt [1, -1, 1, -1] 1 = some (-3 / 4) := by
  norm_num [acfAt, autoCov, meanOf]

/-! ### The features -/

theorem acfList_head (x : List ℝ) (n : Nat) (hn : 0 < n) (hx : 2 ≤ x.length) : firstOf (acfList x n) = .ok (acfAt x 1) := by
  unfold acfList
  obtain ⟨m, hm⟩ : ∃ m, min n (x.length - 1) = m + 1 := ⟨min n (x.length - 1) - 1, by omega⟩
  rw [hm, List.range_succ_eq_map, List.map_cons]
  rfl

theorem acfList_last (x : List ℝ) (n : Nat) (hn : 0 < n) (hx : 2 ≤ x.length) :
    lastOf (acfList x n) = .ok (acfAt x (min n (x.length - 1))) := by
  unfold acfList lastOf
  obtain ⟨m, hm⟩ : ∃ m, min n (x.length - 1) = m + 1 := ⟨min n (x.length - 1) - 1, by omega⟩
  rw [hm, List.range_succ, List.map_append]
  simp

theorem acfList_sum (x : List ℝ) (n : Nat) (h : ¬ ∃ c, ∀ v ∈ x, v = c) :
    sumSq5 (acfList x n) = some ((List.range (min 5 (min n (x.length - 1)))).map fun i : Nat =>
      (autoCov x (i + 1) / autoCov x 0) ^ 2).sum := by
  have h0 : autoCov x 0 ≠ 0 := fun h1 => h ((autoCov_zero_iff x).1 h1)
  unfold sumSq5 acfList
  rw [← List.map_take, List.take_range]
  have : ∀ l : List Nat, ((l.map fun i : Nat => acfAt x (i + 1)).mapM id) =
      some (l.map fun i : Nat => autoCov x (i + 1) / autoCov x 0) := by
    intro l
    induction l with
    | nil => rfl
    | cons i l ih =>
      have ha : acfAt x (i + 1) = some (autoCov x (i + 1) / autoCov x 0) := by
        unfold acfAt
        rw [if_neg h0]
      rw [List.map_cons, List.mapM_cons, ih]
      simp only [id, ha]
      rfl
  rw [this, Option.map_some, List.map_map]
  rfl

theorem diffsOf_length (x : List ℝ) : (diffsOf x).length = x.length - 1 := by
  unfold diffsOf
  rw [List.length_zipWith, List.length_tail]
  omega

theorem acfPacf_cases (pacf : List ℝ → Nat → Except Err (List (Option ℝ))) (x : List ℝ) (lag period : Nat) (F : AcfFeatures)
    (h : acfPacf pacf x lag period = .ok (some F)) :
    10 ≤ x.length ∧ period ≤ x.length ∧ (¬ ∃ c, ∀ v ∈ x, v = c) ∧ varOf (diffsOf x) ≠ 0 ∧ varOf (diffsOf (diffsOf x)) ≠ 0 ∧
      ∃ yp d1p d2p, pacf x period = .ok yp ∧ pacf (diffsOf x) (min lag (x.length - 2)) = .ok d1p ∧
        pacf (diffsOf (diffsOf x)) (min lag (x.length - 2)) = .ok d2p ∧
        acfFeatures (acfList x period) (acfList (diffsOf x) (min lag (x.length - 2)))
          (acfList (diffsOf (diffsOf x)) (min lag (x.length - 2))) yp d1p d2p = .ok F := by
  unfold acfPacf at h
  split at h
  · simp at h
  rename_i h0
  push Not at h0
  dsimp only at h
  cases hy : pacf x period with
  | error e => simp [hy, bind, Except.bind] at h
  | ok yp =>
    simp only [hy, bind, Except.bind] at h
    split at h
    · simp [pure, Except.pure] at h
    rename_i hdet
    push Not at hdet
    cases h1 : pacf (diffsOf x) (min lag (x.length - 2)) with
    | error e => simp [h1] at h
    | ok d1p =>
      cases h2 : pacf (diffsOf (diffsOf x)) (min lag (x.length - 2)) with
      | error e => simp [h1, h2] at h
      | ok d2p =>
        simp only [h1, h2] at h
        cases hf : acfFeatures (acfList x period) (acfList (diffsOf x) (min lag (x.length - 2)))
          (acfList (diffsOf (diffsOf x)) (min lag (x.length - 2))) yp d1p d2p with
        | error e => simp [hf] at h
        | ok F' =>
          simp only [hf, pure, Except.pure] at h
          injection h with h
          injection h with h
          subst h
          refine ⟨h0.1, h0.2.1, ?_, hdet.1, hdet.2, yp, d1p, d2p, rfl, rfl, rfl, hf⟩
          rintro ⟨c, hc⟩
          obtain ⟨v, hv, hne⟩ := h0.2.2 c
          exact hne (hc v hv)

theorem not_const_of_var (x : List ℝ) (h : varOf x ≠ 0) : ¬ ∃ c, ∀ v ∈ x, v = c :=
  fun h1 => h ((varOf_eq_zero_iff x).2 h1)

/-- **C110 (autocorrelation features).**  If the features are calculated, the first one is the autocorrelation at lag one
of the series, of its differences and of its second differences, the second one the sum of the squares at the first five
lags (fewer if the period, or the lag for the differences, is less than five), and the seasonal one the autocorrelation
at lag `period` if there are more points than that. -/
theorem C110_acf_features_partial (pacf : List ℝ → Nat → Except Err (List (Option ℝ))) (x : List ℝ) (lag period : Nat)
    (F : AcfFeatures) (hl : 0 < lag) (hp : 0 < period) (h : acfPacf pacf x lag period = .ok (some F)) :
    F.yAcf1 = acfAt x 1 ∧ F.diff1yAcf1 = acfAt (diffsOf x) 1 ∧ F.diff2yAcf1 = acfAt (diffsOf (diffsOf x)) 1 ∧
      F.yAcf5 = some ((List.range (min 5 (min period (x.length - 1)))).map fun i : Nat =>
        (autoCov x (i + 1) / autoCov x 0) ^ 2).sum ∧
      F.diff1yAcf5 = some ((List.range (min 5 (min lag (x.length - 2)))).map fun i : Nat =>
        (autoCov (diffsOf x) (i + 1) / autoCov (diffsOf x) 0) ^ 2).sum ∧
      F.diff2yAcf5 = some ((List.range (min 5 (min lag (x.length - 3)))).map fun i : Nat =>
        (autoCov (diffsOf (diffsOf x)) (i + 1) / autoCov (diffsOf (diffsOf x)) 0) ^ 2).sum ∧
      (period < x.length → F.seasAcf1 = acfAt x period) ∧
      ∃ yp d1p d2p, pacf x period = .ok yp ∧ pacf (diffsOf x) (min lag (x.length - 2)) = .ok d1p ∧
        pacf (diffsOf (diffsOf x)) (min lag (x.length - 2)) = .ok d2p ∧ some F.seasPacf1 = yp.getLast? ∧
        F.yPacf5 = some (((yp.take 5).filterMap id).map (· ^ 2)).sum ∧
        F.diff1yPacf5 = some (((d1p.take 5).filterMap id).map (· ^ 2)).sum ∧
        F.diff2yPacf5 = some (((d2p.take 5).filterMap id).map (· ^ 2)).sum := by
  obtain ⟨h10, hper, hc, hv1, hv2, yp, d1p, d2p, e1, e2, e3, hf⟩ := acfPacf_cases pacf x lag period F h
  have hd1 := diffsOf_length x
  have hd2 := diffsOf_length (diffsOf x)
  have hnl : 0 < min lag (x.length - 2) := by omega
  unfold acfFeatures at hf
  rw [acfList_head x period hp (by omega), acfList_head (diffsOf x) _ hnl (by omega),
    acfList_head (diffsOf (diffsOf x)) _ hnl (by omega), acfList_last x period hp (by omega)] at hf
  simp only [bind, Except.bind] at hf
  cases hlp : lastOf yp with
  | error e => simp [hlp] at hf
  | ok sp =>
    simp only [hlp, pure, Except.pure] at hf
    injection hf with hf
    subst hf
    refine ⟨rfl, rfl, rfl, acfList_sum x _ hc, ?_, ?_, ?_, yp, d1p, d2p, e1, e2, e3, ?_, rfl, rfl, rfl⟩
    · have := acfList_sum (diffsOf x) (min lag (x.length - 2)) (not_const_of_var _ hv1)
      rw [hd1, show min (min lag (x.length - 2)) (x.length - 1 - 1) = min lag (x.length - 2) by omega] at this
      exact this
    · have := acfList_sum (diffsOf (diffsOf x)) (min lag (x.length - 2)) (not_const_of_var _ hv2)
      rw [hd2, hd1, show min (min lag (x.length - 2)) (x.length - 1 - 1 - 1) = min lag (x.length - 3) by omega] at this
      exact this
    · intro hlt
      dsimp only
      rw [show min period (x.length - 1) = period by omega]
    · unfold lastOf at hlp
      split at hlp
      · simp at hlp
      · rename_i a ha
        injection hlp with hlp
        dsimp only
        rw [ha, hlp]

/-- Twelve points for which everything is defined. -/
example : ∃ F, acfPacf (fun _ n => .ok (List.replicate n (some 0))) [0, 0, 0, 0, 0, 0, 0, 0, 0, 0, 0, 1] 6 7 = .ok (some F) := by
  have hd : diffsOf [0, 0, 0, 0, 0, 0, 0, 0, 0, 0, 0, 1] = [0, 0, 0, 0, 0, 0, 0, 0, 0, 0, 1] := by
    norm_num [diffsOf]
  have hd2 : diffsOf [0, 0, 0, 0, 0, 0, 0, 0, 0, 0, 1] = [0, 0, 0, 0, 0, 0, 0, 0, 0, 1] := by
    norm_num [diffsOf]
  unfold acfPacf
  rw [if_neg]
  · dsimp only
    rw [hd, hd2]
    simp only [bind, Except.bind]
    rw [if_neg]
    · simp [acfFeatures, acfList, firstOf, lastOf, List.range_succ, List.replicate_succ, bind, Except.bind, pure, Except.pure]
    · norm_num [yuleWalkerDet, varOf, meanOf]
  · push Not
    refine ⟨by simp, by simp, ?_⟩
    intro c
    by_cases hc : c = 0
    · exact ⟨1, by simp, by rw [hc]; norm_num⟩
    · exact ⟨0, by simp, fun h => hc h.symm⟩

/-- **C110 (seasonal lag) is violated.**  With as many points as the period, `seas_acf1` is the autocorrelation one lag
before the seasonal one. -/
theorem C110_seasonal_lag_violated (pacf : List ℝ → Nat → Except Err (List (Option ℝ))) (x : List ℝ) (lag period : Nat)
    (F : AcfFeatures) (hl : 0 < lag) (hp : period = x.length) (h : acfPacf pacf x lag period = .ok (some F)) :
    F.seasAcf1 = acfAt x (period - 1) := by
  obtain ⟨h10, hper, hc, hv1, hv2, yp, d1p, d2p, e1, e2, e3, hf⟩ := acfPacf_cases pacf x lag period F h
  have hd1 := diffsOf_length x
  have hd2 := diffsOf_length (diffsOf x)
  have hnl : 0 < min lag (x.length - 2) := by omega
  unfold acfFeatures at hf
  rw [acfList_head x period (by omega) (by omega), acfList_head (diffsOf x) _ hnl (by omega),
    acfList_head (diffsOf (diffsOf x)) _ hnl (by omega), acfList_last x period (by omega) (by omega)] at hf
  simp only [bind, Except.bind] at hf
  cases hlp : lastOf yp with
  | error e => simp [hlp] at hf
  | ok sp =>
    simp only [hlp, pure, Except.pure] at hf
    injection hf with hf
    subst hf
    dsimp only
    rw [hp, Nat.min_eq_right (by omega)]

/-- **C110 (lines and parabolas) is violated.**  A series whose first or second differences are constant, so every line
and every parabola, has an autocorrelation, but all features are NaN. -/
theorem C110_line_violated (pacf : List ℝ → Nat → Except Err (List (Option ℝ))) (x : List ℝ) (lag period : Nat)
    (yp : List (Option ℝ)) (hy : pacf x period = .ok yp) (hne : ¬ ∃ c, ∀ v ∈ x, v = c)
    (hd : (∃ c, ∀ v ∈ diffsOf x, v = c) ∨ ∃ c, ∀ v ∈ diffsOf (diffsOf x), v = c) :
    acfPacf pacf x lag period = .ok none ∧ ∃ r, acfAt x 1 = some r := by
  constructor
  · unfold acfPacf
    split
    · rfl
    · dsimp only
      rw [hy]
      simp only [bind, Except.bind]
      rw [if_pos]
      · rfl
      · unfold yuleWalkerDet
        rw [varOf_eq_zero_iff, varOf_eq_zero_iff]
        exact hd
  · obtain ⟨r, hr, -⟩ := ((C110_acf x).2 hne).2 1
    exact ⟨r, hr⟩

/-- The line of ten points. -/
example : (¬ ∃ c, ∀ v ∈ ([0, 1, 2, 3, 4, 5, 6, 7, 8, 9] : List ℝ), v = c) ∧
    ∀ v ∈ diffsOf [0, 1, 2, 3, 4, 5, 6, 7, 8, 9], v = 1 := by
  constructor
  · rintro ⟨c, hc⟩
    have h0 := hc 0 (by simp)
    have h1 := hc 1 (by simp)
    rw [← h0] at h1
    norm_num at h1
  · norm_num [diffsOf]

/-- **C110 (undefined features).**  All features are NaN exactly for fewer than ten points, fewer points than the period,
and series that are constant or have constant first or second differences. -/
theorem C110_acf_nan (pacf : List ℝ → Nat → Except Err (List (Option ℝ))) (x : List ℝ) (lag period : Nat)
    (yp : List (Option ℝ)) (hy : pacf x period = .ok yp) :
    acfPacf pacf x lag period = .ok none ↔ x.length < 10 ∨ x.length < period ∨ (∃ c, ∀ v ∈ x, v = c) ∨
      (∃ c, ∀ v ∈ diffsOf x, v = c) ∨ ∃ c, ∀ v ∈ diffsOf (diffsOf x), v = c := by
  unfold acfPacf
  by_cases h0 : x.length < 10 ∨ x.length < period ∨ ∃ c, ∀ v ∈ x, v = c
  · rw [if_pos h0]
    refine iff_of_true rfl ?_
    rcases h0 with h | h | h
    · exact Or.inl h
    · exact Or.inr (Or.inl h)
    · exact Or.inr (Or.inr (Or.inl h))
  · rw [if_neg h0]
    push Not at h0
    dsimp only
    rw [hy]
    simp only [bind, Except.bind]
    have hdet : (yuleWalkerDet (diffsOf x) = 0 ∨ yuleWalkerDet (diffsOf (diffsOf x)) = 0) ↔
        (∃ c, ∀ v ∈ diffsOf x, v = c) ∨ ∃ c, ∀ v ∈ diffsOf (diffsOf x), v = c := by
      unfold yuleWalkerDet
      rw [varOf_eq_zero_iff, varOf_eq_zero_iff]
    have hnc : ¬ ∃ c, ∀ v ∈ x, v = c := by
      rintro ⟨c, hc⟩
      obtain ⟨v, hv, hne⟩ := h0.2.2 c
      exact hne (hc v hv)
    by_cases hd : (∃ c, ∀ v ∈ diffsOf x, v = c) ∨ ∃ c, ∀ v ∈ diffsOf (diffsOf x), v = c
    · rw [if_pos (hdet.2 hd)]
      exact iff_of_true rfl (Or.inr (Or.inr (Or.inr hd)))
    · rw [if_neg fun h => hd (hdet.1 h)]
      refine iff_of_false ?_ ?_
      · intro h
        split at h
        · simp at h
        split at h
        · simp at h
        split at h
        · simp at h
        · simp [pure, Except.pure] at h
      · rintro (h | h | h | h)
        · exact absurd h0.1 (by omega)
        · exact absurd h0.2.1 (by omega)
        · exact hnc h
        · exact hd h

example : (fun (_ : List ℝ) (_ : Nat) => (Except.ok [some 0] : Except Err (List (Option ℝ)))) [1, 2] 7 = .ok [some 0] := rfl

/-! ### First minimum and first zero -/

theorem firstMinIdx_spec (l : List (Option ℝ)) (hl : l ≠ []) :
    firstMinIdx l < l.length ∧ (∀ j : Nat, j < firstMinIdx l → nanGt (l.getD j none) (l.getD (j + 1) none) = true) ∧
      (firstMinIdx l + 1 = l.length ∨ nanGt (l.getD (firstMinIdx l) none) (l.getD (firstMinIdx l + 1) none) = false) := by
  induction l with
  | nil => exact absurd rfl hl
  | cons a l ih =>
    cases l with
    | nil => simp [firstMinIdx]
    | cons b t =>
      obtain ⟨i1, i2, i3⟩ := ih (by simp)
      unfold firstMinIdx
      by_cases h : nanGt a b
      · rw [if_pos h]
        refine ⟨by simp only [List.length_cons] at i1 ⊢; omega, ?_, ?_⟩
        · intro j hj
          cases j with
          | zero => simpa using h
          | succ j =>
            have := i2 j (by omega)
            simpa using this
        · rw [Nat.add_comm 1]
          rcases i3 with h3 | h3
          · left
            simp only [List.length_cons] at h3 ⊢
            omega
          · right
            simpa using h3
      · rw [if_neg h]
        refine ⟨by simp, by simp, Or.inr ?_⟩
        simpa using h

theorem firstZeroIdx_spec (l : List (Option ℝ)) (hl : l ≠ []) :
    firstZeroIdx l < l.length ∧
      (∀ j : Nat, j < firstZeroIdx l → (nanGt (l.getD j none) (some 0) && nanGt (some 0) (l.getD (j + 1) none)) = false) ∧
      (firstZeroIdx l + 1 < l.length → (nanGt (l.getD (firstZeroIdx l) none) (some 0) &&
        nanGt (some 0) (l.getD (firstZeroIdx l + 1) none)) = true) := by
  induction l with
  | nil => exact absurd rfl hl
  | cons a l ih =>
    cases l with
    | nil => simp [firstZeroIdx]
    | cons b t =>
      obtain ⟨i1, i2, i3⟩ := ih (by simp)
      unfold firstZeroIdx
      by_cases h : nanGt a (some 0) && nanGt (some 0) b
      · rw [if_pos h]
        refine ⟨by simp, by simp, ?_⟩
        intro _
        simpa using h
      · rw [if_neg h]
        refine ⟨by simp only [List.length_cons] at i1 ⊢; omega, ?_, ?_⟩
        · intro j hj
          cases j with
          | zero =>
            rw [Bool.not_eq_true] at h
            simpa using h
          | succ j =>
            have := i2 j (by omega)
            simpa using this
        · intro hlt
          rw [Nat.add_comm 1] at hlt ⊢
          have := i3 (by simp only [List.length_cons] at hlt ⊢; omega)
          simpa using this

theorem acfList_full_length (x : List ℝ) : (acfList x x.length).length = x.length - 1 := by
  simp [acfList]

theorem acfList_getD (x : List ℝ) (i : Nat) (h : i + 1 < x.length) :
    (acfList x x.length).getD i none = acfAt x (i + 1) := by
  rw [List.getD_eq_getElem _ _ (by rw [acfList_full_length]; omega)]
  simp [acfList]

/-- The autocorrelation as a number. -/
def acfR (x : List ℝ) (k : Nat) : ℝ := autoCov x k / autoCov x 0

theorem acfAt_some (x : List ℝ) (h : ¬ ∃ c, ∀ v ∈ x, v = c) (k : Nat) : acfAt x k = some (acfR x k) := by
  have h0 : autoCov x 0 ≠ 0 := fun h1 => h ((autoCov_zero_iff x).1 h1)
  unfold acfAt acfR
  rw [if_neg h0]

theorem two_le_of_not_const (x : List ℝ) (h : ¬ ∃ c, ∀ v ∈ x, v = c) : 2 ≤ x.length := by
  by_contra hlt
  apply h
  match x, hlt with
  | [], _ => exact ⟨0, by simp⟩
  | [a], _ => exact ⟨a, by simp⟩
  | _ :: _ :: _, hlt => exact absurd (by simp) hlt

/-- **C110 (first minimum).**  For a series that is not constant the first minimum is a lag up to which the
autocorrelation decreases strictly and after which it does not decrease, or the last lag. -/
theorem C110_first_minimum (x : List ℝ) (h : ¬ ∃ c, ∀ v ∈ x, v = c) :
    1 ≤ (specialAc x).1 ∧ (specialAc x).1 < x.length ∧
      (∀ j : Nat, 1 ≤ j → j < (specialAc x).1 → acfR x (j + 1) < acfR x j) ∧
      ((specialAc x).1 + 1 = x.length ∨ acfR x (specialAc x).1 ≤ acfR x ((specialAc x).1 + 1)) := by
  have hx := two_le_of_not_const x h
  have hne : acfList x x.length ≠ [] := by
    intro h0
    have := acfList_full_length x
    rw [h0] at this
    simp at this
    omega
  obtain ⟨s1, s2, s3⟩ := firstMinIdx_spec _ hne
  rw [acfList_full_length] at s1 s3
  have hs : (specialAc x).1 = firstMinIdx (acfList x x.length) + 1 := rfl
  rw [hs]
  refine ⟨by omega, by omega, ?_, ?_⟩
  · intro j h1 h2
    obtain ⟨k, rfl⟩ : ∃ k, j = k + 1 := ⟨j - 1, by omega⟩
    have := s2 k (by omega)
    rw [acfList_getD x k (by omega), acfList_getD x (k + 1) (by omega), acfAt_some x h, acfAt_some x h] at this
    simpa [nanGt] using this
  · rcases s3 with h3 | h3
    · left; omega
    · by_cases hlast : firstMinIdx (acfList x x.length) + 1 + 1 = x.length
      · left; exact hlast
      · right
        rw [acfList_getD x _ (by omega), acfList_getD x _ (by omega), acfAt_some x h, acfAt_some x h] at h3
        simpa [nanGt] using h3

/-- **C110 (first zero).**  For a series that is not constant the first zero is the first lag with a negative
autocorrelation just after a positive one, or the length of the series if there is none.  If the autocorrelation starts
positive and is never zero, this is the first lag with a negative autocorrelation. -/
theorem C110_first_zero_partial (x : List ℝ) (h : ¬ ∃ c, ∀ v ∈ x, v = c) :
    2 ≤ (specialAc x).2 ∧ (specialAc x).2 ≤ x.length ∧
      ((specialAc x).2 < x.length → 0 < acfR x ((specialAc x).2 - 1) ∧ acfR x (specialAc x).2 < 0) ∧
      (∀ j : Nat, 1 ≤ j → j + 1 < (specialAc x).2 → ¬ (0 < acfR x j ∧ acfR x (j + 1) < 0)) ∧
      (0 < acfR x 1 → (∀ j : Nat, 1 ≤ j → j < x.length → acfR x j ≠ 0) →
        ∀ j : Nat, 1 ≤ j → j < (specialAc x).2 → 0 < acfR x j) := by
  have hx := two_le_of_not_const x h
  have hne : acfList x x.length ≠ [] := by
    intro h0
    have := acfList_full_length x
    rw [h0] at this
    simp at this
    omega
  obtain ⟨s1, s2, s3⟩ := firstZeroIdx_spec _ hne
  rw [acfList_full_length] at s1 s3
  have hs : (specialAc x).2 = firstZeroIdx (acfList x x.length) + 2 := rfl
  rw [hs]
  have hno : ∀ j : Nat, 1 ≤ j → j + 1 < firstZeroIdx (acfList x x.length) + 2 → ¬ (0 < acfR x j ∧ acfR x (j + 1) < 0) := by
    intro j h1 h2
    obtain ⟨k, rfl⟩ : ∃ k, j = k + 1 := ⟨j - 1, by omega⟩
    have := s2 k (by omega)
    rw [acfList_getD x k (by omega), acfList_getD x (k + 1) (by omega), acfAt_some x h, acfAt_some x h] at this
    rintro ⟨h3, h4⟩
    simp [nanGt, h3, h4] at this
  refine ⟨by omega, by omega, ?_, hno, ?_⟩
  · intro hlt
    have := s3 (by omega)
    rw [acfList_getD x _ (by omega), acfList_getD x _ (by omega), acfAt_some x h, acfAt_some x h] at this
    simpa [nanGt] using this
  · intro hpos hnz j
    induction j with
    | zero => intro h1; omega
    | succ j ih =>
      intro h1 h2
      rcases Nat.eq_zero_or_pos j with h0 | h0
      · subst h0; exact hpos
      · have h3 := ih h0 (by omega)
        have h4 := hno j h0 h2
        by_contra h5
        apply h4
        refine ⟨h3, lt_of_le_of_ne (not_lt.1 h5) (hnz (j + 1) (by omega) (by omega))⟩

/-- A series that is not constant. -/
example : (¬ ∃ c, ∀ v ∈ ([0, 1, 2, 3] : List ℝ), v = c) ∧ 0 < acfR [0, 1, 2, 3] 1 := by
  constructor
  · rintro ⟨c, hc⟩
    have h0 := hc 0 (by simp)
    have h1 := hc 1 (by simp)
    rw [← h0] at h1
    norm_num at h1
  · norm_num [acfR, autoCov, meanOf]

/-- **C110 (first zero) is violated.**  The autocorrelation of this series passes from one at lag zero to below zero at lag
one; the first zero crossing is given as three. -/
theorem C110_first_zero_violated : acfAt [1, -1, 1, -1] 0 = some 1 ∧ acfAt [1, -1, 1, -1] 1 = some (-3 / 4) ∧
    (specialAc [1, -1, 1, -1]).2 = 3 := by
  refine ⟨?_, ?_, ?_⟩
  · norm_num [acfAt, autoCov, meanOf]
  · norm_num [acfAt, autoCov, meanOf]
  · norm_num [specialAc, acfList, acfAt, autoCov, meanOf, List.range_succ, firstZeroIdx, nanGt]

/-- **C110 (constant series) is violated.**  A constant series has no autocorrelation, and the first minimum is given as
lag one, the first zero as the length of the series. -/
theorem C110_constant_violated (x : List ℝ) (hx : 2 ≤ x.length) (h : ∃ c, ∀ v ∈ x, v = c) :
    (∀ k, acfAt x k = none) ∧ specialAc x = (1, x.length) := by
  have hnone := (C110_acf x).1 h
  refine ⟨hnone, ?_⟩
  have hl : acfList x x.length = List.replicate (x.length - 1) none := by
    rw [List.eq_replicate_iff]
    refine ⟨acfList_full_length x, ?_⟩
    intro b hb
    obtain ⟨i, _, rfl⟩ := List.mem_map.1 hb
    exact hnone _
  have h1 : ∀ n, firstMinIdx (List.replicate n none) = 0 := by
    intro n
    match n with
    | 0 => rfl
    | 1 => rfl
    | n + 2 => simp [List.replicate_succ, firstMinIdx, nanGt]
  have h2 : ∀ n, firstZeroIdx (List.replicate (n + 1) none) = n := by
    intro n
    induction n with
    | zero => rfl
    | succ n ih =>
      rw [List.replicate_succ, List.replicate_succ, firstZeroIdx, ← List.replicate_succ, ih]
      simp [nanGt]
      omega
  unfold specialAc
  dsimp only
  rw [hl, h1]
  obtain ⟨m, hm⟩ : ∃ m, x.length - 1 = m + 1 := ⟨x.length - 2, by omega⟩
  rw [hm, h2]
  congr 1
  omega

example : 2 ≤ ([4, 4, 4] : List ℝ).length ∧ ∃ c, ∀ v ∈ ([4, 4, 4] : List ℝ), v = c := ⟨by simp, 4, by simp⟩

end

end Kats
