import Verif.Model.TsStruct
import Verif.Props.TsStats4

/-!
# Decomposition, level shift and autocorrelation features: C110
-/

namespace Kats

noncomputable section

open Classical

/-! ### Decomposition -/

/-- **C110 (strength).**  The strength of trend and of seasonality is at most one, it is one exactly for a constant
remainder, and it is not negative if the component and the remainder are not negatively correlated. -/
theorem C110_strength_partial (comp resid : List ℝ) (hl : comp.length = resid.length) (s : ℝ)
    (h : stlStrength comp resid = some s) :
    s ≤ 1 ∧ (s = 1 ↔ ∃ c, ∀ v ∈ resid, v = c) ∧ (0 ≤ sxy comp resid → 0 ≤ s) ∧
      ∀ a b c : ℝ, a ≠ 0 → stlStrength (comp.map fun v => a * v + b) (resid.map fun v => a * v + c) = some s := by
  have hz : ∀ a b c : ℝ, List.zipWith (· + ·) (comp.map fun v => a * v + b) (resid.map fun v => a * v + c) =
      (List.zipWith (· + ·) comp resid).map fun v => a * v + (b + c) := by
    intro a b c
    rw [List.zipWith_map, List.map_zipWith]
    congr 1
    funext u v
    ring
  have hexp : varOf (List.zipWith (· + ·) comp resid) * resid.length =
      sxy comp comp + 2 * sxy comp resid + sxy resid resid := by
    have hvar : ∀ x : List ℝ, sxy x x = varOf x * x.length := by
      intro x
      rw [sxx_devs]
      unfold varOf devs
      rw [List.map_map]
      by_cases hx : x = []
      · subst hx; simp
      · have hpos : (x.length : ℝ) ≠ 0 := by
          have := List.length_pos_of_ne_nil hx
          positivity
        have hmul : ∀ l : List ℝ, l.length = x.length → l.sum = meanOf l * x.length := by
          intro l hl
          rw [meanOf, hl]
          field_simp
        exact hmul _ (by simp)
    have h1 := hvar (List.zipWith (· + ·) comp resid)
    rw [List.length_zipWith, hl, Nat.min_self] at h1
    rw [← h1, sxx_devs]
    have hm : meanOf (List.zipWith (· + ·) comp resid) = meanOf comp + meanOf resid := by
      unfold meanOf
      rw [List.length_zipWith, hl, Nat.min_self, ← add_div]
      congr 1
      have : ∀ a b : List ℝ, a.length = b.length → (List.zipWith (· + ·) a b).sum = a.sum + b.sum := by
        intro a
        induction a with
        | nil => intro b hb; cases b with
          | nil => simp
          | cons _ _ => simp at hb
        | cons u a ih => intro b hb; cases b with
          | nil => simp at hb
          | cons v b =>
            simp only [List.zipWith_cons_cons, List.sum_cons]
            rw [ih b (by simpa using hb)]
            ring
      exact this _ _ hl
    have hd : devs (List.zipWith (· + ·) comp resid) = List.zipWith (fun a b => 1 * a - (-1) * b) (devs comp) (devs resid) := by
      unfold devs
      rw [List.map_zipWith, List.zipWith_map, hm]
      congr 1
      funext u v
      ring
    rw [hd, List.map_zipWith, zip_expand _ _ _ _ (by simp [devs, hl]), ← sxx_devs, ← sxx_devs, ← sxy_devs]
    ring
  unfold stlStrength at h
  dsimp only at h
  split at h
  · simp at h
  rename_i h0
  injection h with h
  have hpos : 0 < varOf (List.zipWith (· + ·) comp resid) := lt_of_le_of_ne (varOf_nonneg' _) (Ne.symm h0)
  have hv := varOf_nonneg' resid
  refine ⟨?_, ?_, ?_, ?_⟩
  · rw [← h]
    have := div_nonneg hv hpos.le
    linarith
  · rw [← varOf_eq_zero_iff, ← h]
    constructor
    · intro h1
      have h2 : varOf resid / varOf (List.zipWith (· + ·) comp resid) = 0 := by linarith
      rcases div_eq_zero_iff.1 h2 with h3 | h3
      · exact h3
      · exact absurd h3 h0
    · intro h1
      rw [h1]
      simp
  · intro hc
    rw [← h]
    have hlen : (0 : ℝ) < resid.length := by
      rcases Nat.eq_zero_or_pos resid.length with h1 | h1
      · exfalso
        have h2 := List.length_eq_zero_iff.1 h1
        subst h2
        apply h0
        simp [varOf, meanOf]
      · exact_mod_cast h1
    have hvr : varOf resid * resid.length = sxy resid resid := by
      rw [sxx_devs]
      unfold varOf devs
      rw [List.map_map, meanOf, List.length_map]
      field_simp
      rfl
    have h1 := sxx_nonneg comp
    have h2 : varOf resid * resid.length ≤ varOf (List.zipWith (· + ·) comp resid) * resid.length := by
      rw [hexp, hvr]
      linarith
    have h3 := le_of_mul_le_mul_right h2 hlen
    have := (div_le_one hpos).2 h3
    linarith
  · intro a b c ha
    unfold stlStrength
    dsimp only
    rw [hz, varOf_affine, varOf_affine, if_neg (mul_ne_zero (pow_ne_zero _ ha) h0), mul_div_mul_left _ _ (pow_ne_zero _ ha), h]

example : stlStrength [0, 2] [0, 2] = some (3 / 4) := by
  norm_num [stlStrength, varOf, meanOf]

/-- **C110 (strength) is violated.**  The strength can be negative: the maximum with zero of its definition is left
out. -/
theorem C110_strength_violated : stlStrength [0, -1] [0, 2] = some (-3) := by
  norm_num [stlStrength, varOf, meanOf]

theorem sum_eraseIdx (x : List ℝ) (i : Nat) (h : i < x.length) (f : ℝ → ℝ) :
    ((x.eraseIdx i).map f).sum = (x.map f).sum - f (x.getD i 0) := by
  induction x generalizing i with
  | nil => simp at h
  | cons a x ih =>
    cases i with
    | zero => simp
    | succ i =>
      have h2 := ih i (by simpa using h)
      rw [List.eraseIdx_cons_succ, List.map_cons, List.sum_cons, h2, List.map_cons, List.sum_cons, List.getD_cons_succ]
      ring

theorem varOf_moments (x : List ℝ) : varOf x = (x.map (· ^ 2)).sum / x.length - (x.sum / x.length) ^ 2 := by
  by_cases hx : x = []
  · subst hx; simp [varOf, meanOf]
  have hpos : (x.length : ℝ) ≠ 0 := by
    have := List.length_pos_of_ne_nil hx
    positivity
  have he : ∀ (l : List ℝ) (m : ℝ), (l.map fun v => (v - m) ^ 2).sum = (l.map (· ^ 2)).sum - 2 * m * l.sum + l.length * m ^ 2 := by
    intro l m
    induction l with
    | nil => simp
    | cons a l ih =>
      rw [List.map_cons, List.sum_cons, ih, List.map_cons, List.sum_cons, List.sum_cons, List.length_cons]
      push_cast
      ring
  unfold varOf
  rw [show meanOf (x.map fun v => (v - meanOf x) ^ 2) = (x.map fun v => (v - meanOf x) ^ 2).sum / x.length by
    rw [meanOf, List.length_map], he]
  unfold meanOf
  generalize (x.map (· ^ 2)).sum = Q
  generalize x.sum = S
  generalize (x.length : ℝ) = n at *
  field_simp
  ring

theorem loo_var (x : List ℝ) (i : Nat) (h : i < x.length) (h2 : 2 ≤ x.length) :
    varOf (x.eraseIdx i) = -(x.length / (x.length - 1) ^ 2) * (x.getD i 0 - meanOf x) ^ 2 +
      x.length / (x.length - 1) * varOf x := by
  have hl : ((x.eraseIdx i).length : ℝ) = x.length - 1 := by
    rw [List.length_eraseIdx_of_lt h, Nat.cast_sub (by omega), Nat.cast_one]
  have hn : (x.length : ℝ) ≠ 0 := by positivity
  have hn1 : (x.length : ℝ) - 1 ≠ 0 := by
    have : (2 : ℝ) ≤ x.length := by exact_mod_cast h2
    intro h3
    linarith
  have hs : (x.eraseIdx i).sum = x.sum - x.getD i 0 := by
    have := sum_eraseIdx x i h id
    simpa using this
  rw [varOf_moments, varOf_moments, hl, hs, sum_eraseIdx x i h (· ^ 2)]
  unfold meanOf
  generalize (x.map (· ^ 2)).sum = Q
  generalize x.sum = S
  generalize x.getD i 0 = v
  generalize (x.length : ℝ) = n at *
  field_simp
  ring

theorem map_getD_range (x : List ℝ) (f : ℝ → ℝ) : ((List.range x.length).map fun i : Nat => f (x.getD i 0)) = x.map f := by
  apply List.ext_getElem
  · simp
  · intro i h1 h2
    simp only [List.getElem_map, List.getElem_range]
    rw [List.getD_eq_getElem _ _ (by simpa using h1)]

/-- **C110 (spikiness).**  The variance of the leave-one-out variances of the remainder is a positive multiple of the
variance of its squared deviations from the mean; so it is not negative, and zero exactly if all entries are equally far
from the mean.  It is not defined for fewer than two entries. -/
theorem C110_spikiness (resid : List ℝ) : (resid.length < 2 → stlSpikiness resid = none) ∧
    (2 ≤ resid.length → ∃ s, stlSpikiness resid = some s ∧
      s = (resid.length / (resid.length - 1) ^ 2 : ℝ) ^ 2 * varOf (resid.map fun v => (v - meanOf resid) ^ 2) ∧
      0 ≤ s ∧ (s = 0 ↔ ∃ c, ∀ v ∈ resid, |v - meanOf resid| = c) ∧
      (∀ resid', resid.Perm resid' → stlSpikiness resid' = some s) ∧
      ∀ a b : ℝ, stlSpikiness (resid.map fun v => a * v + b) = some (a ^ 4 * s)) := by
  have key : ∀ x : List ℝ, 2 ≤ x.length → stlSpikiness x =
      some ((x.length / (x.length - 1) ^ 2 : ℝ) ^ 2 * varOf (x.map fun v => (v - meanOf x) ^ 2)) := by
    intro x h2
    have hne : x ≠ [] := by
      intro h
      rw [h] at h2
      simp at h2
    unfold stlSpikiness
    rw [if_neg hne]
    have hm : ((List.range x.length).mapM fun i : Nat => chunkVar (x.eraseIdx i)) =
        some (x.map fun v => -(x.length / (x.length - 1) ^ 2) * (v - meanOf x) ^ 2 + x.length / (x.length - 1) * varOf x) := by
      rw [← map_getD_range x]
      have : ∀ l : List Nat, (∀ i ∈ l, i < x.length) → (l.mapM fun i : Nat => chunkVar (x.eraseIdx i)) =
          some (l.map fun i : Nat => -((x.length : ℝ) / (x.length - 1) ^ 2) * (x.getD i 0 - meanOf x) ^ 2 +
            x.length / (x.length - 1) * varOf x) := by
        intro l hl
        induction l with
        | nil => rfl
        | cons i l ih =>
          have hi := hl i List.mem_cons_self
          have hc : chunkVar (x.eraseIdx i) = some (-((x.length : ℝ) / (x.length - 1) ^ 2) * (x.getD i 0 - meanOf x) ^ 2 +
            x.length / (x.length - 1) * varOf x) := by
            unfold chunkVar
            rw [if_neg, loo_var x i hi h2]
            intro h
            have := congrArg List.length h
            rw [List.length_eraseIdx_of_lt hi] at this
            simp at this
            omega
          rw [List.mapM_cons, hc, ih fun j hj => hl j (List.mem_cons_of_mem _ hj)]
          rfl
      exact this _ fun i hi => List.mem_range.1 hi
    rw [hm, Option.map_some]
    have : (x.map fun v => -((x.length : ℝ) / (x.length - 1) ^ 2) * (v - meanOf x) ^ 2 + x.length / (x.length - 1) * varOf x) =
        (x.map fun v => (v - meanOf x) ^ 2).map fun u => -((x.length : ℝ) / (x.length - 1) ^ 2) * u +
          x.length / (x.length - 1) * varOf x := by
      rw [List.map_map]
      rfl
    rw [this, varOf_affine, neg_sq]
  constructor
  · intro h
    unfold stlSpikiness
    match resid, h with
    | [], _ => simp
    | [a], _ =>
      rw [if_neg (by simp)]
      simp [chunkVar, List.mapM_cons]
    | _ :: _ :: _, h => simp at h
  · intro h2
    have hk : (0 : ℝ) < (resid.length / (resid.length - 1) ^ 2 : ℝ) ^ 2 := by
      have h3 : (2 : ℝ) ≤ resid.length := by exact_mod_cast h2
      have h4 : (0 : ℝ) < (resid.length : ℝ) - 1 := by linarith
      positivity
    refine ⟨_, key resid h2, rfl, mul_nonneg hk.le (varOf_nonneg' _), ?_, ?_, ?_⟩
    · rw [mul_eq_zero, or_iff_right hk.ne', varOf_eq_zero_iff]
      constructor
      · rintro ⟨c, hc⟩
        refine ⟨Real.sqrt c, ?_⟩
        intro v hv
        rw [← hc _ (List.mem_map.2 ⟨v, hv, rfl⟩), Real.sqrt_sq_eq_abs]
      · rintro ⟨c, hc⟩
        refine ⟨c ^ 2, ?_⟩
        intro y hy
        obtain ⟨v, hv, rfl⟩ := List.mem_map.1 hy
        rw [← hc v hv, sq_abs]
    · intro r' hp
      have hm : meanOf r' = meanOf resid := by
        unfold meanOf
        rw [hp.sum_eq, hp.length_eq]
      have hv : ∀ a b : List ℝ, a.Perm b → varOf b = varOf a := by
        intro a b hab
        rw [varOf_moments, varOf_moments, hab.length_eq, hab.sum_eq, (hab.map _).sum_eq]
      rw [key r' (by rw [← hp.length_eq]; exact h2), hm, ← hp.length_eq, hv _ _ (hp.map fun v => (v - meanOf resid) ^ 2)]
    · intro a b
      have hne : resid ≠ [] := by
        intro h
        rw [h] at h2
        simp at h2
      rw [key _ (by rw [List.length_map]; exact h2), List.length_map, meanOf_affine_ne resid hne, List.map_map]
      have : ((fun v => (v - (a * meanOf resid + b)) ^ 2) ∘ fun v => a * v + b) =
          fun v => a ^ 2 * (v - meanOf resid) ^ 2 + 0 := by
        funext v
        simp only [Function.comp]
        ring
      rw [this]
      have h5 : (resid.map fun v => a ^ 2 * (v - meanOf resid) ^ 2 + 0) =
          (resid.map fun v => (v - meanOf resid) ^ 2).map fun u => a ^ 2 * u + 0 := by
        rw [List.map_map]
        rfl
      rw [h5, varOf_affine]
      congr 1
      ring

example : stlSpikiness [0, 0, 3] = some (9 / 8) := by
  obtain ⟨s, hs, he, -⟩ := (C110_spikiness [0, 0, 3]).2 (by simp)
  rw [hs, he]
  norm_num [varOf, meanOf]

theorem argminIdx_spec {α : Type} [LinearOrder α] (l : List α) (hl : l ≠ []) :
    ∃ h : argminIdx l < l.length, (∀ w ∈ l, l[argminIdx l] ≤ w) ∧
      ∀ j (hj : j < argminIdx l), l[argminIdx l] < l[j]'(hj.trans h) :=
  argmaxIdx_spec (α := αᵒᵈ) l hl

/-- **C110 (peak and trough).**  Peak and trough are the first positions of the largest and the smallest value of the
seasonal component within its first period. -/
theorem C110_peak (seasonal : List ℝ) (period : Nat) (hs : seasonal ≠ []) (hp : 0 < period) :
    (stlPeak seasonal period < period ∧ stlPeak seasonal period < seasonal.length ∧
      ∀ j : Nat, j < period → j < seasonal.length →
        seasonal.getD j 0 ≤ seasonal.getD (stlPeak seasonal period) 0 ∧
        (j < stlPeak seasonal period → seasonal.getD j 0 < seasonal.getD (stlPeak seasonal period) 0)) ∧
    (stlTrough seasonal period < period ∧ stlTrough seasonal period < seasonal.length ∧
      ∀ j : Nat, j < period → j < seasonal.length →
        seasonal.getD (stlTrough seasonal period) 0 ≤ seasonal.getD j 0 ∧
        (j < stlTrough seasonal period → seasonal.getD (stlTrough seasonal period) 0 < seasonal.getD j 0)) := by
  have hne : seasonal.take period ≠ [] := by
    intro h
    have := congrArg List.length h
    have h2 := List.length_pos_of_ne_nil hs
    rw [List.length_take] at this
    simp only [List.length_nil] at this
    omega
  have hg : ∀ i (h : i < (seasonal.take period).length), (seasonal.take period)[i] = seasonal.getD i 0 := by
    intro i h
    rw [List.getElem_take, List.getD_eq_getElem]
  have hlt : ∀ i, i < (seasonal.take period).length ↔ i < period ∧ i < seasonal.length := by
    intro i
    rw [List.length_take]
    omega
  obtain ⟨a1, a2, a3⟩ := argmaxIdx_spec _ hne
  obtain ⟨b1, b2, b3⟩ := argminIdx_spec _ hne
  refine ⟨⟨((hlt _).1 a1).1, ((hlt _).1 a1).2, ?_⟩, ((hlt _).1 b1).1, ((hlt _).1 b1).2, ?_⟩
  · intro j h1 h2
    have hj := (hlt j).2 ⟨h1, h2⟩
    have h3 := a2 _ (List.getElem_mem hj)
    rw [hg, hg] at h3
    refine ⟨h3, ?_⟩
    intro h4
    have h5 := a3 j h4
    rw [hg, hg] at h5
    exact h5
  · intro j h1 h2
    have hj := (hlt j).2 ⟨h1, h2⟩
    have h3 := b2 _ (List.getElem_mem hj)
    rw [hg, hg] at h3
    refine ⟨h3, ?_⟩
    intro h4
    have h5 := b3 j h4
    rw [hg, hg] at h5
    exact h5

example : ([0, 2, 2, -1] : List ℝ) ≠ [] ∧ 0 < 3 := by simp

/-! ### Level shift -/

theorem window_sum (x : List ℝ) (i w : Nat) (h : i + w < x.length) :
    ((x.drop i).take w).sum + x.getD (i + w) 0 = x.getD i 0 + ((x.drop (i + 1)).take w).sum := by
  have h1 : (x.drop i).take (w + 1) = (x.drop i).take w ++ [x.getD (i + w) 0] := by
    rw [List.take_add_one, List.getElem?_drop, List.getElem?_eq_getElem (by omega)]
    simp only [Option.toList_some, List.append_cancel_left_eq, List.cons.injEq, and_true]
    rw [List.getD_eq_getElem _ _ (by omega)]
  have h2 : (x.drop i).take (w + 1) = x.getD i 0 :: (x.drop (i + 1)).take w := by
    rw [List.drop_eq_getElem_cons (by omega), List.take_succ_cons, List.getD_eq_getElem _ _ (by omega)]
  have h3 := congrArg List.sum (h1.symm.trans h2)
  rw [List.sum_append, List.sum_singleton, List.sum_cons] at h3
  exact h3

/-- **C110 (level shift).**  With at least two points more than the window, the index is the first at which the means
of consecutive windows differ most, and the size is that difference, which is the change of the value across the window
divided by the window; otherwise both are NaN. -/
theorem C110_level_shift_partial (x : List ℝ) (w : Nat) (hw : 0 < w) :
    (x.length < w + 2 → levelShift x w = none) ∧
    (w + 2 ≤ x.length → ∃ i : Nat, i + w < x.length ∧ ∃ s, levelShift x w = some (i, s) ∧
      s = |meanOf ((x.drop (i + 1)).take w) - meanOf ((x.drop i).take w)| ∧
      s = |x.getD (i + w) 0 - x.getD i 0| / w ∧
      ∀ j : Nat, j + w < x.length → |x.getD (j + w) 0 - x.getD j 0| / w ≤ s ∧
        (j < i → |x.getD (j + w) 0 - x.getD j 0| / w < s)) := by
  constructor
  · intro h
    unfold levelShift
    rw [if_pos h]
  · intro h
    have hwr : (0 : ℝ) < w := by exact_mod_cast hw
    have hlen : (slidingMeans x w).length = x.length - w + 1 := by simp [slidingMeans]
    have hdl : (absDiffs (slidingMeans x w)).length = x.length - w := by
      unfold absDiffs
      rw [List.length_zipWith, List.length_tail, hlen]
      omega
    have hmean : ∀ i : Nat, i + w < x.length → |meanOf ((x.drop i).take w) - meanOf ((x.drop (i + 1)).take w)| =
        |x.getD (i + w) 0 - x.getD i 0| / w := by
      intro i hi
      have hs := window_sum x i w hi
      unfold meanOf
      rw [List.length_take, List.length_drop, List.length_take, List.length_drop, Nat.min_eq_left (by omega),
        Nat.min_eq_left (by omega), ← sub_div, abs_div, abs_of_pos hwr]
      congr 1
      rw [abs_sub_comm]
      congr 1
      linarith
    have hget : ∀ j (hj : j < (absDiffs (slidingMeans x w)).length), (absDiffs (slidingMeans x w))[j] =
        |x.getD (j + w) 0 - x.getD j 0| / w := by
      intro j hj
      rw [← hmean j (by omega)]
      simp only [absDiffs, List.getElem_zipWith, List.getElem_tail, slidingMeans, List.getElem_map, List.getElem_range]
    have hne : absDiffs (slidingMeans x w) ≠ [] := by
      intro h0
      rw [h0] at hdl
      simp at hdl
      omega
    obtain ⟨a1, a2, a3⟩ := argmaxIdx_spec _ hne
    have hi : argmaxIdx (absDiffs (slidingMeans x w)) + w < x.length := by omega
    refine ⟨argmaxIdx (absDiffs (slidingMeans x w)), hi,
      |x.getD (argmaxIdx (absDiffs (slidingMeans x w)) + w) 0 - x.getD (argmaxIdx (absDiffs (slidingMeans x w))) 0| / w,
      ?_, ?_, rfl, ?_⟩
    · unfold levelShift
      rw [if_neg (by omega)]
      dsimp only
      rw [List.getD_eq_getElem _ _ a1, hget _ a1]
    · rw [← hmean _ hi, abs_sub_comm]
    · intro j hj
      have hjl : j < (absDiffs (slidingMeans x w)).length := by omega
      have h1 := a2 _ (List.getElem_mem hjl)
      rw [hget, hget] at h1
      refine ⟨h1, ?_⟩
      intro h2
      have h3 := a3 j h2
      rw [hget, hget] at h3
      exact h3

example : 0 < 2 ∧ 2 + 2 ≤ ([1, 1, 5, 5, 5] : List ℝ).length := by simp

/-- **C110 (level shift) is violated.**  One point more than the window gives two consecutive windows, whose means can
be compared, and the features are NaN. -/
theorem C110_level_shift_violated : levelShift [0, 0, 4] 2 = none ∧ (slidingMeans [0, 0, 4] 2).length = 2 ∧
    absDiffs (slidingMeans [0, 0, 4] 2) = [2] := by
  refine ⟨?_, ?_, ?_⟩
  · unfold levelShift
    rw [if_pos (by simp)]
  · simp [slidingMeans]
  · norm_num [absDiffs, slidingMeans, meanOf, List.range_succ]

end

end Kats
