import Verif.Props.TsStats3
import Mathlib.Algebra.Order.Floor.Ring
import Mathlib.Analysis.SpecialFunctions.Log.Basic
import Mathlib.Algebra.Order.Archimedean.Real.Basic

/-!
# Statistics of a series, continued: C109
-/

namespace Kats

noncomputable section

open Classical

/-! ### Histogram mode -/

theorem argmaxIdx_spec {α : Type} [LinearOrder α] (l : List α) (hl : l ≠ []) :
    ∃ h : argmaxIdx l < l.length, (∀ w ∈ l, w ≤ l[argmaxIdx l]) ∧
      ∀ j (hj : j < argmaxIdx l), l[j]'(hj.trans h) < l[argmaxIdx l] := by
  have hex : ∃ m ∈ l, ∀ w ∈ l, w ≤ m := by
    induction l with
    | nil => exact absurd rfl hl
    | cons a l ih =>
      by_cases h : l = []
      · subst h
        exact ⟨a, by simp, by simp⟩
      · obtain ⟨m, hm, hw⟩ := ih h
        rcases le_total a m with h1 | h1
        · refine ⟨m, List.mem_cons_of_mem _ hm, ?_⟩
          intro w hw'
          rcases List.mem_cons.1 hw' with rfl | h2
          · exact h1
          · exact hw w h2
        · refine ⟨a, List.mem_cons_self, ?_⟩
          intro w hw'
          rcases List.mem_cons.1 hw' with rfl | h2
          · exact le_rfl
          · exact (hw w h2).trans h1
  obtain ⟨m, hm, hw⟩ := hex
  have hlt : argmaxIdx l < l.length := by
    unfold argmaxIdx
    rw [List.findIdx_lt_length]
    exact ⟨m, hm, by simpa using hw⟩
  have hmax : ∀ w ∈ l, w ≤ l[argmaxIdx l] := by
    have := List.findIdx_getElem (p := fun v => decide (∀ w ∈ l, w ≤ v)) (xs := l) (w := hlt)
    rw [decide_eq_true_eq] at this
    exact this
  refine ⟨hlt, hmax, ?_⟩
  intro j hj
  have hn := List.not_of_lt_findIdx (p := fun v => decide (∀ w ∈ l, w ≤ v)) (xs := l) hj
  refine lt_of_le_of_ne (hmax _ (List.getElem_mem _)) ?_
  intro he
  rw [decide_eq_false_iff_not, he] at hn
  exact hn hmax

theorem foldr_min_le (x : List ℝ) (d : ℝ) : x.foldr min d ≤ d ∧ ∀ y ∈ x, x.foldr min d ≤ y := by
  induction x with
  | nil => simp
  | cons a x ih =>
    refine ⟨?_, ?_⟩
    · exact (min_le_right _ _).trans ih.1
    · intro y hy
      rcases List.mem_cons.1 hy with rfl | h
      · exact min_le_left _ _
      · exact (min_le_right _ _).trans (ih.2 y h)

theorem le_foldr_max (x : List ℝ) (d : ℝ) : d ≤ x.foldr max d ∧ ∀ y ∈ x, y ≤ x.foldr max d := by
  induction x with
  | nil => simp
  | cons a x ih =>
    refine ⟨?_, ?_⟩
    · exact ih.1.trans (le_max_right _ _)
    · intro y hy
      rcases List.mem_cons.1 hy with rfl | h
      · exact le_max_left _ _
      · exact (ih.2 y h).trans (le_max_right _ _)

theorem foldr_min_mem (x : List ℝ) (d : ℝ) : x.foldr min d = d ∨ x.foldr min d ∈ x := by
  induction x with
  | nil => simp
  | cons a x ih =>
    rw [List.foldr_cons]
    rcases min_choice a (x.foldr min d) with h | h
    · right; rw [h]; exact List.mem_cons_self
    · rw [h]
      rcases ih with h1 | h1
      · left; exact h1
      · right; exact List.mem_cons_of_mem _ h1

theorem foldr_max_mem (x : List ℝ) (d : ℝ) : x.foldr max d = d ∨ x.foldr max d ∈ x := by
  induction x with
  | nil => simp
  | cons a x ih =>
    rw [List.foldr_cons]
    rcases max_choice a (x.foldr max d) with h | h
    · right; rw [h]; exact List.mem_cons_self
    · rw [h]
      rcases ih with h1 | h1
      · left; exact h1
      · right; exact List.mem_cons_of_mem _ h1

theorem minOf_spec (x : List ℝ) (hx : x ≠ []) : minOf x ∈ x ∧ ∀ y ∈ x, minOf x ≤ y := by
  refine ⟨?_, (foldr_min_le x _).2⟩
  rcases foldr_min_mem x (x.headD 0) with h | h
  · unfold minOf
    rw [h]
    cases x with
    | nil => exact absurd rfl hx
    | cons a x => simp
  · exact h

theorem maxOf_spec (x : List ℝ) (hx : x ≠ []) : maxOf x ∈ x ∧ ∀ y ∈ x, y ≤ maxOf x := by
  refine ⟨?_, (le_foldr_max x _).2⟩
  rcases foldr_max_mem x (x.headD 0) with h | h
  · unfold maxOf
    rw [h]
    cases x with
    | nil => exact absurd rfl hx
    | cons a x => simp
  · exact h

theorem histRange_spec (x : List ℝ) (hx : x ≠ []) :
    (histRange x).1 < (histRange x).2 ∧ ∀ y ∈ x, (histRange x).1 ≤ y ∧ y ≤ (histRange x).2 := by
  have h1 := minOf_spec x hx
  have h2 := maxOf_spec x hx
  unfold histRange
  split
  · rename_i h
    refine ⟨by dsimp only; linarith, fun y hy => ⟨?_, ?_⟩⟩
    · have := h1.2 y hy; dsimp only; linarith
    · have := h2.2 y hy; dsimp only; linarith
  · rename_i h
    exact ⟨lt_of_le_of_ne (h1.2 _ h2.1) h, fun y hy => ⟨h1.2 y hy, h2.2 y hy⟩⟩

/-- Whether a value is counted in bin `i` of equal bins from `lo` to `hi`, the last closed. -/
def inBin (lo w : ℝ) (nbins i : Nat) (v : ℝ) : Prop :=
  lo + i * w ≤ v ∧ (v < lo + (i + 1) * w ∨ i + 1 = nbins ∧ v = lo + (i + 1) * w)

theorem inBin_exists (lo w v : ℝ) (nbins : Nat) (hn : 0 < nbins) (hw : 0 < w) (h1 : lo ≤ v)
    (h2 : v ≤ lo + nbins * w) : ∃ i : Nat, i < nbins ∧ inBin lo w nbins i v := by
  rcases lt_or_eq_of_le h2 with h | h
  · refine ⟨⌊(v - lo) / w⌋₊, ?_, ?_, Or.inl ?_⟩
    · have : (v - lo) / w < nbins := by rw [div_lt_iff₀ hw]; linarith
      exact (Nat.floor_lt (div_nonneg (by linarith) hw.le)).2 this
    · have := Nat.floor_le (div_nonneg (by linarith : 0 ≤ v - lo) hw.le)
      rw [le_div_iff₀ hw] at this
      linarith
    · have := Nat.lt_floor_add_one ((v - lo) / w)
      rw [div_lt_iff₀ hw] at this
      linarith
  · have hc : ((nbins - 1 : Nat) : ℝ) + 1 = nbins := by
      have : nbins - 1 + 1 = nbins := Nat.succ_pred_eq_of_pos hn
      exact_mod_cast this
    refine ⟨nbins - 1, by omega, ?_, Or.inr ⟨by omega, ?_⟩⟩
    · rw [h, ← hc]
      nlinarith
    · rw [hc, h]

theorem inBin_le (lo w v : ℝ) (nbins i j : Nat) (hw : 0 < w) (hj : j < nbins) (h1 : inBin lo w nbins i v)
    (h2 : inBin lo w nbins j v) : j ≤ i := by
  by_contra hlt
  push Not at hlt
  have hc : ((i : ℝ) + 1) ≤ j := by exact_mod_cast hlt
  rcases h1.2 with h | ⟨h, _⟩
  · have := h2.1
    nlinarith
  · omega

/-- **C109 (histogram mode).**  The range of the data is cut into equal bins, every value lies in exactly one, and the
mode is the left edge of the first bin with the most values: no other bin has more, earlier ones have fewer. -/
theorem C109_mode (x : List ℝ) (nbins : Nat) (hx : x ≠ []) (hn : 0 < nbins) :
    ∃ lo w : ℝ, 0 < w ∧ (minOf x < maxOf x → lo = minOf x ∧ lo + nbins * w = maxOf x) ∧
      (minOf x = maxOf x → lo = minOf x - 1 / 2 ∧ lo + nbins * w = maxOf x + 1 / 2) ∧
      (∀ v ∈ x, ∃! i : Nat, i < nbins ∧ inBin lo w nbins i v) ∧
      ∃ i : Nat, i < nbins ∧ getHistogramMode x nbins = lo + i * w ∧
        (∃ v ∈ x, inBin lo w nbins i v) ∧
        (∀ j : Nat, j < nbins → x.countP (fun v => decide (inBin lo w nbins j v)) ≤
          x.countP fun v => decide (inBin lo w nbins i v)) ∧
        ∀ j : Nat, j < i → x.countP (fun v => decide (inBin lo w nbins j v)) <
          x.countP fun v => decide (inBin lo w nbins i v) := by
  have hr := histRange_spec x hx
  have hnr : (0 : ℝ) < nbins := by exact_mod_cast hn
  set lo := (histRange x).1 with hlo
  set w := ((histRange x).2 - lo) / nbins with hw
  have hwpos : 0 < w := div_pos (by linarith [hr.1]) hnr
  have hend : lo + nbins * w = (histRange x).2 := by
    rw [hw]
    field_simp
    ring
  have hcount : ∀ i : Nat, histCount x nbins i = x.countP fun v => decide (inBin lo w nbins i v) := by
    intro i
    unfold histCount
    apply List.countP_congr
    intro v _
    have he : histEdge x nbins (i + 1) = lo + (i + 1) * w := by
      unfold histEdge
      push_cast
      rfl
    rw [he, decide_eq_true_eq, decide_eq_true_eq]
    rfl
  have hbins : ∀ v ∈ x, ∃! i : Nat, i < nbins ∧ inBin lo w nbins i v := by
    intro v hv
    have hb := hr.2 v hv
    obtain ⟨i, hi, hin⟩ := inBin_exists lo w v nbins hn hwpos hb.1 (by rw [hend]; exact hb.2)
    refine ⟨i, ⟨hi, hin⟩, ?_⟩
    rintro j ⟨hj, hjn⟩
    exact le_antisymm (inBin_le lo w v nbins i j hwpos hj hin hjn) (inBin_le lo w v nbins j i hwpos hi hjn hin)
  refine ⟨lo, w, hwpos, ?_, ?_, hbins, ?_⟩
  · intro h
    rw [hend, hlo]
    unfold histRange
    rw [if_neg h.ne]
    exact ⟨rfl, rfl⟩
  · intro h
    rw [hend, hlo]
    unfold histRange
    rw [if_pos h]
    exact ⟨rfl, rfl⟩
  · have hne : (List.range nbins).map (histCount x nbins) ≠ [] := by
      simp; omega
    obtain ⟨hlt, hmax, hfirst⟩ := argmaxIdx_spec _ hne
    set i := argmaxIdx ((List.range nbins).map (histCount x nbins)) with hi
    have hin : i < nbins := by simpa using hlt
    have hget : ∀ j (hj : j < ((List.range nbins).map (histCount x nbins)).length),
        ((List.range nbins).map (histCount x nbins))[j] = x.countP fun v => decide (inBin lo w nbins j v) := by
      intro j hj
      rw [List.getElem_map, List.getElem_range, hcount]
    rw [hget i hlt] at hmax
    refine ⟨i, hin, rfl, ?_, ?_, ?_⟩
    · obtain ⟨v, hv⟩ := List.exists_mem_of_ne_nil x hx
      obtain ⟨j, ⟨hj, hjv⟩, _⟩ := hbins v hv
      have h1 := hmax (histCount x nbins j) (List.mem_map.2 ⟨j, List.mem_range.2 hj, rfl⟩)
      rw [hcount] at h1
      have h2 : 0 < x.countP fun v => decide (inBin lo w nbins j v) := by
        rw [List.countP_pos_iff]
        exact ⟨v, hv, by simpa using hjv⟩
      have h3 := lt_of_lt_of_le h2 h1
      rw [List.countP_pos_iff] at h3
      obtain ⟨u, hu, hu'⟩ := h3
      exact ⟨u, hu, by simpa using hu'⟩
    · intro j hj
      have h1 := hmax (histCount x nbins j) (List.mem_map.2 ⟨j, List.mem_range.2 hj, rfl⟩)
      rw [hcount] at h1
      exact h1
    · intro j hj
      have := hfirst j hj
      rw [hget i hlt, hget j (hj.trans hlt)] at this
      exact this

/-- Two bins: three of the four values lie in the second. -/
example : minOf [0, 9, 8, 10] = 0 ∧ maxOf [0, 9, 8, 10] = 10 ∧ ([0, 9, 8, 10] : List ℝ) ≠ [] ∧
    inBin 0 5 2 1 10 ∧ ¬ inBin 0 5 2 0 5 := by
  refine ⟨?_, ?_, by simp, ?_, ?_⟩
  · norm_num [minOf]
  · norm_num [maxOf]
  · unfold inBin; norm_num
  · unfold inBin; norm_num

/-! ### Linearity -/

theorem zip_expand (u v : List ℝ) (p q : ℝ) (h : u.length = v.length) :
    (List.zipWith (fun a b => (p * a - q * b) ^ 2) u v).sum =
      p ^ 2 * (u.map (· ^ 2)).sum - 2 * p * q * (List.zipWith (· * ·) u v).sum + q ^ 2 * (v.map (· ^ 2)).sum := by
  induction u generalizing v with
  | nil =>
    cases v with
    | nil => simp
    | cons b v => simp at h
  | cons a u ih =>
    cases v with
    | nil => simp at h
    | cons b v =>
      simp only [List.zipWith_cons_cons, List.sum_cons, List.map_cons]
      rw [ih v (by simpa using h)]
      ring

theorem zip_sq_nonneg (u v : List ℝ) (p q : ℝ) :
    0 ≤ (List.zipWith (fun a b => (p * a - q * b) ^ 2) u v).sum := by
  induction u generalizing v with
  | nil => simp
  | cons a u ih =>
    cases v with
    | nil => simp
    | cons b v =>
      simp only [List.zipWith_cons_cons, List.sum_cons]
      exact add_nonneg (sq_nonneg _) (ih v)

theorem zip_sq_zero (u v : List ℝ) (p q : ℝ) (h : (List.zipWith (fun a b => (p * a - q * b) ^ 2) u v).sum = 0) :
    ∀ i (hu : i < u.length) (hv : i < v.length), p * u[i] = q * v[i] := by
  induction u generalizing v with
  | nil => intro i hu; simp at hu
  | cons a u ih =>
    cases v with
    | nil => intro i hu hv; simp at hv
    | cons b v =>
      simp only [List.zipWith_cons_cons, List.sum_cons] at h
      have h1 := zip_sq_nonneg u v p q
      have h2 := sq_nonneg (p * a - q * b)
      have h3 : (p * a - q * b) ^ 2 = 0 := by linarith
      have h4 := ih v (by linarith)
      intro i hu hv
      cases i with
      | zero =>
        have := pow_eq_zero_iff (two_ne_zero) |>.1 h3
        simp only [List.getElem_cons_zero]
        linarith
      | succ i =>
        simp only [List.getElem_cons_succ]
        exact h4 i (by simpa using hu) (by simpa using hv)

/-- Deviations from the mean. -/
def devs (x : List ℝ) : List ℝ := x.map fun v => v - meanOf x

theorem sxy_devs (x y : List ℝ) : sxy x y = (List.zipWith (· * ·) (devs x) (devs y)).sum := by
  unfold sxy devs
  rw [List.zipWith_map]

theorem sxx_devs (x : List ℝ) : sxy x x = ((devs x).map (· ^ 2)).sum := by
  rw [sxy_devs]
  generalize devs x = u
  induction u with
  | nil => simp
  | cons a u ih =>
    simp only [List.zipWith_cons_cons, List.sum_cons, List.map_cons, ih]
    ring

theorem sxx_nonneg (x : List ℝ) : 0 ≤ sxy x x := by
  rw [sxx_devs]
  apply List.sum_nonneg
  intro y hy
  obtain ⟨v, _, rfl⟩ := List.mem_map.1 hy
  exact sq_nonneg v

theorem sxy_cauchy (x y : List ℝ) (h : x.length = y.length) : sxy x y ^ 2 ≤ sxy x x * sxy y y := by
  have hl : (devs x).length = (devs y).length := by simp [devs, h]
  have key : ∀ p q : ℝ, 0 ≤ p ^ 2 * sxy x x - 2 * p * q * sxy x y + q ^ 2 * sxy y y := by
    intro p q
    rw [sxx_devs x, sxx_devs y, sxy_devs, ← zip_expand _ _ p q hl]
    exact zip_sq_nonneg _ _ _ _
  have hA := sxx_nonneg x
  rcases eq_or_lt_of_le hA with h0 | h0
  · have hz : sxy x y = 0 := by
      have hB := sxx_nonneg y
      by_contra hne
      have h2 := key ((sxy y y + 1) / sxy x y) 1
      rw [← h0] at h2
      have : 2 * ((sxy y y + 1) / sxy x y) * 1 * sxy x y = 2 * (sxy y y + 1) := by
        field_simp
      rw [this] at h2
      linarith
    rw [hz, ← h0]
    simp
  · have := key (sxy x y) (sxy x x)
    have h3 : sxy x y ^ 2 * sxy x x - 2 * sxy x y * sxy x x * sxy x y + sxy x x ^ 2 * sxy y y =
        sxy x x * (sxy x x * sxy y y - sxy x y ^ 2) := by ring
    rw [h3] at this
    have := (mul_nonneg_iff_of_pos_left h0).1 this
    linarith

/-- The times `0, 1, ...` of a regression. -/
def timesR (n : Nat) : List ℝ := (List.range n).map fun i : Nat => (i : ℝ)

theorem timesR_length (n : Nat) : (timesR n).length = n := by simp [timesR]

theorem getLinearity_eq (x : List ℝ) : getLinearity x =
    if sxy (timesR x.length) (timesR x.length) * sxy x x = 0 then 0
    else sxy (timesR x.length) x ^ 2 / (sxy (timesR x.length) (timesR x.length) * sxy x x) := by
  have hcs := sxy_cauchy (timesR x.length) x (timesR_length _)
  have hA := sxx_nonneg (timesR x.length)
  have hB := sxx_nonneg x
  unfold getLinearity
  change (let den := Real.sqrt (sxy (timesR x.length) (timesR x.length) * sxy x x)
    let r := if den = 0 then 0 else sxy (timesR x.length) x / den
    let r := if r > 1 then 1 else if r < -1 then -1 else r
    r ^ 2) = _
  dsimp only
  generalize sxy (timesR x.length) (timesR x.length) = A at *
  generalize sxy (timesR x.length) x = S at *
  generalize sxy x x = B at *
  have hAB : 0 ≤ A * B := mul_nonneg hA hB
  by_cases h0 : A * B = 0
  · rw [if_pos h0, h0]
    norm_num
  · have hpos : 0 < A * B := lt_of_le_of_ne hAB (Ne.symm h0)
    have hs : 0 < Real.sqrt (A * B) := Real.sqrt_pos.2 hpos
    rw [if_neg h0, if_neg hs.ne']
    have habs : |S| ≤ Real.sqrt (A * B) := Real.abs_le_sqrt hcs
    have h1 : ¬ S / Real.sqrt (A * B) > 1 := by
      rw [gt_iff_lt, lt_div_iff₀ hs, not_lt, one_mul]
      exact (le_abs_self S).trans habs
    have h2 : ¬ S / Real.sqrt (A * B) < -1 := by
      rw [div_lt_iff₀ hs, not_lt]
      have := neg_abs_le S
      linarith
    rw [if_neg h1, if_neg h2, div_pow, Real.sq_sqrt hAB]

theorem sxx_zero_iff (x : List ℝ) : sxy x x = 0 ↔ ∃ c, ∀ v ∈ x, v = c := by
  have : sxy x x = x.length * varOf x := by
    rw [sxx_devs]
    unfold varOf devs
    rw [List.map_map]
    by_cases hx : x = []
    · subst hx; simp
    · have hpos : (x.length : ℝ) ≠ 0 := by
        have := List.length_pos_of_ne_nil hx
        positivity
      have hmul : ∀ l : List ℝ, l.length = x.length → l.sum = x.length * meanOf l := by
        intro l hl
        rw [meanOf, hl]
        field_simp
      exact hmul _ (by simp)
  rw [this, mul_eq_zero, varOf_eq_zero_iff]
  constructor
  · rintro (h | h)
    · have h0 : x.length = 0 := by exact_mod_cast h
      have := List.length_eq_zero_iff.1 h0
      subst this
      exact ⟨0, by simp⟩
    · exact h
  · intro h
    exact Or.inr h

theorem timesR_pos (n : Nat) (hn : 2 ≤ n) : 0 < sxy (timesR n) (timesR n) := by
  refine lt_of_le_of_ne (sxx_nonneg _) ?_
  intro h
  obtain ⟨c, hc⟩ := (sxx_zero_iff _).1 h.symm
  have h0 := hc 0 (List.mem_map.2 ⟨0, List.mem_range.2 (by omega), by simp⟩)
  have h1 := hc 1 (List.mem_map.2 ⟨1, List.mem_range.2 (by omega), by simp⟩)
  rw [← h0] at h1
  norm_num at h1

theorem meanOf_affine_ne (x : List ℝ) (hx : x ≠ []) (a b : ℝ) :
    meanOf (x.map fun v => a * v + b) = a * meanOf x + b := by
  have hpos : (x.length : ℝ) ≠ 0 := by
    have := List.length_pos_of_ne_nil hx
    positivity
  have hs : ∀ l : List ℝ, (l.map fun v => a * v + b).sum = a * l.sum + l.length * b := by
    intro l
    induction l with
    | nil => simp
    | cons c l ih =>
      rw [List.map_cons, List.sum_cons, ih, List.sum_cons, List.length_cons]
      push_cast
      ring
  unfold meanOf
  rw [List.length_map, hs]
  field_simp

theorem devs_affine (x : List ℝ) (a b : ℝ) : devs (x.map fun v => a * v + b) = (devs x).map (a * ·) := by
  by_cases hx : x = []
  · subst hx; rfl
  unfold devs
  rw [List.map_map, List.map_map, meanOf_affine_ne x hx]
  apply List.map_congr_left
  intro v _
  simp only [Function.comp]
  ring

theorem zip_smul (u v : List ℝ) (a : ℝ) :
    (List.zipWith (· * ·) u (v.map (a * ·))).sum = a * (List.zipWith (· * ·) u v).sum := by
  induction u generalizing v with
  | nil => simp
  | cons c u ih =>
    cases v with
    | nil => simp
    | cons b v =>
      simp only [List.map_cons, List.zipWith_cons_cons, List.sum_cons, ih]
      ring

theorem sxy_affine (t x : List ℝ) (a b : ℝ) : sxy t (x.map fun v => a * v + b) = a * sxy t x := by
  rw [sxy_devs, sxy_devs, devs_affine, zip_smul]

theorem sxx_affine (x : List ℝ) (a b : ℝ) :
    sxy (x.map fun v => a * v + b) (x.map fun v => a * v + b) = a ^ 2 * sxy x x := by
  rw [sxx_devs, sxx_devs, devs_affine]
  generalize devs x = u
  induction u with
  | nil => simp
  | cons c u ih =>
    simp only [List.map_cons, List.sum_cons, ih]
    ring

/-- **C109 (linearity).**  The squared correlation with time lies between zero and one, it is one exactly for series on
a line that is not flat, zero for constant series, and not changed by shifting the values or by a factor other than
zero. -/
theorem C109_linearity (x : List ℝ) : 0 ≤ getLinearity x ∧ getLinearity x ≤ 1 ∧
    ((∃ c, ∀ v ∈ x, v = c) → getLinearity x = 0) ∧
    (2 ≤ x.length → (getLinearity x = 1 ↔
      ∃ c : ℝ, c ≠ 0 ∧ ∀ i : Nat, i < x.length → x.getD i 0 = x.getD 0 0 + i * c)) ∧
    ∀ a b : ℝ, a ≠ 0 → getLinearity (x.map fun v => a * v + b) = getLinearity x := by
  have hcs := sxy_cauchy (timesR x.length) x (timesR_length _)
  have hA := sxx_nonneg (timesR x.length)
  have hB := sxx_nonneg x
  have hAB := mul_nonneg hA hB
  refine ⟨?_, ?_, ?_, ?_, ?_⟩
  · rw [getLinearity_eq]
    split
    · exact le_rfl
    · exact div_nonneg (sq_nonneg _) hAB
  · rw [getLinearity_eq]
    split
    · norm_num
    · exact div_le_one_of_le₀ hcs hAB
  · intro h
    rw [getLinearity_eq, (sxx_zero_iff x).2 h, mul_zero, if_pos rfl]
  · intro hn
    have hApos := timesR_pos x.length hn
    rw [getLinearity_eq]
    constructor
    · intro h
      split at h
      · norm_num at h
      rename_i h0
      have hBpos : 0 < sxy x x := lt_of_le_of_ne hB fun h1 => h0 (by rw [← h1, mul_zero])
      have hS : sxy (timesR x.length) x ^ 2 = sxy (timesR x.length) (timesR x.length) * sxy x x := by
        rw [div_eq_one_iff_eq h0] at h
        exact h
      have hz : (List.zipWith (fun a b => (sxy (timesR x.length) x * a - sxy (timesR x.length) (timesR x.length) * b) ^ 2)
          (devs (timesR x.length)) (devs x)).sum = 0 := by
        rw [zip_expand _ _ _ _ (by simp [devs, timesR]), ← sxx_devs, ← sxx_devs, ← sxy_devs, hS]
        rw [show ∀ A B S : ℝ, A * B * A - 2 * S * A * S + A ^ 2 * B = 2 * A * (A * B - S ^ 2) from fun A B S => by ring,
          hS]
        ring
      have hp := zip_sq_zero _ _ _ _ hz
      generalize hAe : sxy (timesR x.length) (timesR x.length) = A at *
      generalize hSe : sxy (timesR x.length) x = S at *
      have hSne : S ≠ 0 := by
        intro h1
        rw [h1] at hS
        have := mul_pos hApos hBpos
        rw [← hS] at this
        norm_num at this
      refine ⟨S / A, div_ne_zero hSne hApos.ne', ?_⟩
      have hd : ∀ i : Nat, i < x.length → S * ((i : ℝ) - meanOf (timesR x.length)) = A * (x.getD i 0 - meanOf x) := by
        intro i hi
        have := hp i (by simpa [devs, timesR] using hi) (by simpa [devs] using hi)
        simp only [devs, timesR, List.getElem_map, List.getElem_range] at this
        rw [List.getD_eq_getElem _ _ hi]
        exact this
      intro i hi
      have h1 := hd i hi
      have h2 := hd 0 (by omega)
      push_cast at h2
      have h3 : A * (x.getD i 0 - x.getD 0 0) = S * i := by linarith
      have h4 : x.getD i 0 - x.getD 0 0 = S / A * i := by
        field_simp
        linarith
      linarith
    · rintro ⟨c, hc, hx⟩
      have hxe : x = (timesR x.length).map fun v => c * v + x.getD 0 0 := by
        apply List.ext_getElem
        · simp [timesR]
        · intro i h1 h2
          have := hx i h1
          rw [List.getD_eq_getElem _ _ h1] at this
          rw [this]
          simp only [timesR, List.getElem_map, List.getElem_range]
          ring
      have h1 : sxy (timesR x.length) x = c * sxy (timesR x.length) (timesR x.length) := by
        conv_lhs => rw [hxe]
        rw [List.length_map, timesR_length]
        exact sxy_affine _ _ _ _
      have h2 : sxy x x = c ^ 2 * sxy (timesR x.length) (timesR x.length) := by
        conv_lhs => rw [hxe]
        exact sxx_affine _ _ _
      rw [h1, h2]
      generalize sxy (timesR x.length) (timesR x.length) = A at *
      have hA' := hApos.ne'
      rw [if_neg (by positivity)]
      field_simp
  · intro a b ha
    rw [getLinearity_eq, getLinearity_eq, List.length_map, sxx_affine, sxy_affine]
    generalize sxy (timesR x.length) (timesR x.length) = A at *
    generalize sxy (timesR x.length) x = S at *
    generalize sxy x x = B at *
    by_cases h0 : A * B = 0
    · rw [if_pos h0, if_pos]
      rw [show A * (a ^ 2 * B) = a ^ 2 * (A * B) by ring, h0, mul_zero]
    · have h1 : A * (a ^ 2 * B) ≠ 0 := by
        rw [show A * (a ^ 2 * B) = a ^ 2 * (A * B) by ring]
        exact mul_ne_zero (pow_ne_zero _ ha) h0
      rw [if_neg h0, if_neg h1]
      have hA0 : A ≠ 0 := fun h => h0 (by rw [h, zero_mul])
      have hB0 : B ≠ 0 := fun h => h0 (by rw [h, mul_zero])
      field_simp

example : 2 ≤ ([5, 3, 1] : List ℝ).length ∧
    ∃ c : ℝ, c ≠ 0 ∧ ∀ i : Nat, i < 3 → ([5, 3, 1] : List ℝ).getD i 0 = 5 + i * c := by
  refine ⟨by simp, -2, by norm_num, ?_⟩
  intro i hi
  interval_cases i <;> norm_num

/-! ### Spectral entropy -/

theorem logb_two_pos (n : Nat) (hn : 2 ≤ n) : 0 < Real.logb 2 n :=
  Real.logb_pos (by norm_num) (by exact_mod_cast hn)

theorem sum_div_list (l : List ℝ) (s : ℝ) : (l.map (· / s)).sum = l.sum / s := by
  induction l with
  | nil => simp
  | cons a l ih => rw [List.map_cons, List.sum_cons, ih, List.sum_cons, add_div]

theorem filter_nz_sum (l : List ℝ) :
    ((l.filter fun v => decide (v ≠ 0)).map fun v => v * Real.logb 2 v).sum = (l.map fun v => v * Real.logb 2 v).sum := by
  induction l with
  | nil => simp
  | cons a l ih =>
    by_cases h : a = 0
    · rw [List.filter_cons_of_neg (by simpa using h), ih, List.map_cons, List.sum_cons, h]
      simp
    · rw [List.filter_cons_of_pos (by simpa using h), List.map_cons, List.sum_cons, ih, List.map_cons, List.sum_cons]

theorem gibbs_term (p n : ℝ) (hp : 0 ≤ p) (hn : 0 < n) : -(p * Real.log p) ≤ p * Real.log n + (1 / n - p) := by
  rcases eq_or_lt_of_le hp with h | h
  · rw [← h]
    simp
    positivity
  · have h1 := Real.log_le_sub_one_of_pos (show 0 < 1 / (n * p) by positivity)
    rw [Real.log_div one_ne_zero (by positivity), Real.log_one, Real.log_mul hn.ne' h.ne'] at h1
    have h2 := mul_le_mul_of_nonneg_left h1 h.le
    have h3 : p * (1 / (n * p) - 1) = 1 / n - p := by
      field_simp
    rw [h3] at h2
    linarith

theorem gibbs_sum (l : List ℝ) (n : ℝ) (hn : 0 < n) (h : ∀ v ∈ l, 0 ≤ v) :
    -(l.map fun v => v * Real.log v).sum ≤ l.sum * Real.log n + (l.length / n - l.sum) := by
  induction l with
  | nil => simp
  | cons a l ih =>
    have h1 := ih fun v hv => h v (List.mem_cons_of_mem _ hv)
    have h2 := gibbs_term a n (h a List.mem_cons_self) hn
    rw [List.map_cons, List.sum_cons, List.sum_cons, List.length_cons]
    have h3 : ((l.length + 1 : Nat) : ℝ) / n = l.length / n + 1 / n := by
      push_cast
      rw [add_div]
    rw [h3]
    linarith

theorem logb_sum (l : List ℝ) : (l.map fun v => v * Real.logb 2 v).sum = (l.map fun v => v * Real.log v).sum / Real.log 2 := by
  induction l with
  | nil => simp
  | cons a l ih =>
    rw [List.map_cons, List.sum_cons, ih, List.map_cons, List.sum_cons, Real.logb]
    ring

/-- **C109 (spectral entropy).**  For at least two frequencies with powers that are not negative, the entropy lies
between zero and one; multiplying all powers by a positive factor changes nothing; equal powers give one; a single power
that is not zero gives zero. -/
theorem C109_entropy (psd : List ℝ) (hl : 2 ≤ psd.length) (hp : ∀ v ∈ psd, 0 ≤ v) :
    ∃ e, getSpectralEntropy psd = some e ∧ 0 ≤ e ∧ e ≤ 1 ∧
      (∀ c : ℝ, 0 < c → getSpectralEntropy (psd.map (c * ·)) = some e) ∧
      ((∃ c : ℝ, 0 < c ∧ ∀ v ∈ psd, v = c) → e = 1) ∧
      ((psd.filter fun v => decide (v ≠ 0)).length ≤ 1 → e = 0) := by
  have hlog := logb_two_pos psd.length hl
  have hl2 : 0 < Real.log 2 := Real.log_pos (by norm_num)
  have hsum : 0 ≤ psd.sum := List.sum_nonneg hp
  have heq : ∀ q : List ℝ, 2 ≤ q.length → getSpectralEntropy q = some (if q.sum = 0 then 0 else
      -((q.map fun v => v / q.sum * Real.logb 2 (v / q.sum)).sum / Real.logb 2 q.length)) := by
    intro q hq
    unfold getSpectralEntropy
    rw [if_neg (by omega)]
    simp only [List.length_map]
    split
    · simp
    · rw [filter_nz_sum, List.map_map]
      rfl
  have hfrac : psd.sum ≠ 0 → ∀ v ∈ psd, 0 ≤ v / psd.sum ∧ v / psd.sum ≤ 1 := by
    intro h0 v hv
    have hs : 0 < psd.sum := lt_of_le_of_ne hsum (Ne.symm h0)
    refine ⟨div_nonneg (hp v hv) hs.le, ?_⟩
    rw [div_le_one hs]
    exact List.single_le_sum hp v hv
  refine ⟨_, heq psd hl, ?_, ?_, ?_, ?_, ?_⟩
  · split
    · exact le_rfl
    rename_i h0
    rw [← neg_div]
    apply div_nonneg _ hlog.le
    rw [neg_nonneg]
    have hnp : ∀ l : List ℝ, (∀ y ∈ l, y ≤ 0) → l.sum ≤ 0 := by
      intro l hy
      induction l with
      | nil => simp
      | cons a l ih =>
        rw [List.sum_cons]
        have h1 := hy a List.mem_cons_self
        have h2 := ih fun y hy' => hy y (List.mem_cons_of_mem _ hy')
        linarith
    apply hnp
    intro y hy
    obtain ⟨v, hv, rfl⟩ := List.mem_map.1 hy
    have := hfrac h0 v hv
    exact mul_nonpos_of_nonneg_of_nonpos this.1 (Real.logb_nonpos (by norm_num) this.1 this.2)
  · split
    · norm_num
    rename_i h0
    rw [← neg_div, div_le_one hlog]
    have hg := gibbs_sum (psd.map (· / psd.sum)) psd.length (by positivity) (by
      intro y hy
      obtain ⟨v, hv, rfl⟩ := List.mem_map.1 hy
      exact (hfrac h0 v hv).1)
    rw [sum_div_list, div_self h0, List.length_map, div_self (by positivity), List.map_map] at hg
    have h2 := logb_sum (psd.map (· / psd.sum))
    rw [List.map_map, List.map_map] at h2
    have h3 : (psd.map fun v => v / psd.sum * Real.logb 2 (v / psd.sum)).sum =
      (psd.map ((fun v => v * Real.log v) ∘ (· / psd.sum))).sum / Real.log 2 := h2
    rw [h3, Real.logb, ← neg_div]
    apply div_le_div_of_nonneg_right _ hl2.le
    linarith
  · intro c hc
    rw [heq _ (by rw [List.length_map]; exact hl)]
    have hs : (psd.map (c * ·)).sum = c * psd.sum := by
      rw [List.sum_map_mul_left, List.map_id']
    rw [hs, List.length_map, List.map_map]
    congr 1
    by_cases h0 : psd.sum = 0
    · rw [if_pos h0, if_pos (by rw [h0, mul_zero])]
    · rw [if_neg h0, if_neg (mul_ne_zero hc.ne' h0)]
      congr 3
      apply List.map_congr_left
      intro v _
      simp only [Function.comp]
      rw [mul_div_mul_left _ _ hc.ne']
  · rintro ⟨c, hc, hall⟩
    have hs : psd.sum = psd.length * c := by
      have := List.eq_replicate_of_mem hall
      rw [this]
      simp
    have hn : (0 : ℝ) < psd.length := by positivity
    rw [if_neg (by rw [hs]; positivity)]
    have hm : (psd.map fun v => v / psd.sum * Real.logb 2 (v / psd.sum)) =
        List.replicate psd.length (-(1 / psd.length * Real.logb 2 psd.length)) := by
      rw [List.eq_replicate_iff]
      refine ⟨by simp, ?_⟩
      intro y hy
      obtain ⟨v, hv, rfl⟩ := List.mem_map.1 hy
      rw [hall v hv, hs]
      have : c / (psd.length * c) = (psd.length : ℝ)⁻¹ := by field_simp
      rw [this, Real.logb_inv]
      ring
    rw [hm, List.sum_replicate, nsmul_eq_mul]
    field_simp
  · intro hone
    split
    · rfl
    rename_i h0
    have hz : (psd.map fun v => v / psd.sum * Real.logb 2 (v / psd.sum)).sum = 0 := by
      apply List.sum_eq_zero
      intro y hy
      obtain ⟨v, hv, rfl⟩ := List.mem_map.1 hy
      by_cases hv0 : v = 0
      · rw [hv0]; simp
      · have hsum' : ∀ l : List ℝ, (l.filter fun v => decide (v ≠ 0)).sum = l.sum := by
          intro l
          induction l with
          | nil => simp
          | cons a l ih =>
            by_cases h : a = 0
            · rw [List.filter_cons_of_neg (by simpa using h), ih, List.sum_cons, h, zero_add]
            · rw [List.filter_cons_of_pos (by simpa using h), List.sum_cons, ih, List.sum_cons]
        have hmem : v ∈ psd.filter fun v => decide (v ≠ 0) := List.mem_filter.2 ⟨hv, by simpa using hv0⟩
        have hlist : psd.filter (fun v => decide (v ≠ 0)) = [v] := by
          generalize psd.filter (fun v => decide (v ≠ 0)) = f at hone hmem
          match f, hone, hmem with
          | [u], _, hm => rw [List.mem_singleton.1 hm]
          | [], _, hm => simp at hm
          | _ :: _ :: _, ho, _ => simp at ho
        have := hsum' psd
        rw [hlist, List.sum_singleton] at this
        rw [← this, div_self hv0]
        simp
    rw [hz]
    simp

example : 2 ≤ ([1, 0, 3] : List ℝ).length ∧ ∀ v ∈ ([1, 0, 3] : List ℝ), 0 ≤ v := by
  refine ⟨by simp, ?_⟩
  intro v hv
  simp only [List.mem_cons, List.not_mem_nil, or_false] at hv
  rcases hv with rfl | rfl | rfl <;> norm_num

end

end Kats
