import Verif.Model.Hurst
import Mathlib.Algebra.BigOperators.Intervals
import Mathlib.Data.List.GetD
import Mathlib.Algebra.Order.BigOperators.Group.Finset
import Mathlib.Analysis.SpecialFunctions.Pow.Real
import Mathlib.Tactic.Linarith
import Mathlib.Tactic.NormNum
import Mathlib.Tactic.FieldSimp
import Mathlib.Tactic.Ring
import Mathlib.Tactic.LinearCombination

/-!
# Properties of the Hurst exponent (C163)
-/

namespace Kats

noncomputable section
open Classical

/-! ## Regression lines -/

/-- The sum of the squared errors of a line. -/
def huErr (l : List (ℝ × ℝ)) (c h : ℝ) : ℝ := (l.map fun p => (p.2 - c - h * p.1) ^ 2).sum

theorem huErr_expand (l : List (ℝ × ℝ)) (c h : ℝ) :
    huErr l c h = (l.map fun p => p.2 ^ 2).sum - 2 * c * (l.map (·.2)).sum
      - 2 * h * (l.map fun p => p.1 * p.2).sum + l.length * c ^ 2 + 2 * c * h * (l.map (·.1)).sum
      + h ^ 2 * (l.map fun p => p.1 ^ 2).sum := by
  unfold huErr
  induction l with
  | nil => simp
  | cons p l ih =>
    simp only [List.map_cons, List.sum_cons, List.length_cons, ih]
    push_cast
    ring

theorem huErr_nonneg (l : List (ℝ × ℝ)) (c h : ℝ) : 0 ≤ huErr l c h := by
  unfold huErr
  apply List.sum_nonneg
  intro v hv
  obtain ⟨p, _, rfl⟩ := List.mem_map.1 hv
  positivity

theorem huErr_zero {l : List (ℝ × ℝ)} {c h : ℝ} (e : huErr l c h = 0) : ∀ p ∈ l, p.2 = c + h * p.1 := by
  induction l with
  | nil => intro p hp; cases hp
  | cons q l ih =>
    have h1 : huErr (q :: l) c h = (q.2 - c - h * q.1) ^ 2 + huErr l c h := rfl
    rw [h1] at e
    have h2 := huErr_nonneg l c h
    have h3 := sq_nonneg (q.2 - c - h * q.1)
    intro p hp
    rcases List.mem_cons.1 hp with rfl | hp
    · have : (p.2 - c - h * p.1) ^ 2 = 0 := by linarith
      have := pow_eq_zero_iff (two_ne_zero) |>.1 this
      linarith
    · exact ih (by linarith) p hp

/-- The spread of the first coordinates is positive if two of them differ. -/
theorem hu_det_pos {l : List (ℝ × ℝ)} {p q : ℝ × ℝ} (hp : p ∈ l) (hq : q ∈ l) (hne : p.1 ≠ q.1) :
    0 < l.length * (l.map fun p => p.1 ^ 2).sum - (l.map (·.1)).sum ^ 2 := by
  have hn : (0 : ℝ) < l.length := by
    have := List.length_pos_of_mem hp
    exact_mod_cast this
  set m := (l.map (·.1)).sum / l.length with hm
  have h := huErr_expand (l.map fun p => (0, p.1)) m 0
  have hpos : 0 < huErr (l.map fun p => ((0 : ℝ), p.1)) m 0 := by
    refine lt_of_le_of_ne (huErr_nonneg _ _ _) fun e => hne ?_
    have h1 := huErr_zero e.symm (0, p.1) (List.mem_map.2 ⟨p, hp, rfl⟩)
    have h2 := huErr_zero e.symm (0, q.1) (List.mem_map.2 ⟨q, hq, rfl⟩)
    simp only [mul_zero, add_zero] at h1 h2
    rw [h1, h2]
  rw [h] at hpos
  simp only [List.map_map, List.length_map, Function.comp_def, zero_mul] at hpos
  have e : (l.map (·.1)).sum = m * l.length := by rw [hm]; field_simp
  rw [e] at hpos ⊢
  have h2 : 0 < (l.map fun p => p.1 ^ 2).sum - l.length * m ^ 2 := by nlinarith
  have h3 := mul_pos hn h2
  nlinarith

theorem huSlope_long {l : List (ℝ × ℝ)} {p q : ℝ × ℝ} (hp : p ∈ l) (hq : q ∈ l) (hne : p.1 ≠ q.1) :
    huSlope l = .ok ((l.length * (l.map fun p => p.1 * p.2).sum - (l.map (·.1)).sum * (l.map (·.2)).sum)
      / (l.length * (l.map fun p => p.1 ^ 2).sum - (l.map (·.1)).sum ^ 2)) := by
  match l, hp, hq with
  | [_], hp, hq =>
    rw [List.mem_singleton] at hp hq
    exact absurd (by rw [hp, hq]) hne
  | _ :: _ :: _, _, _ => rfl

/-- The slope is that of the line with the least squared error, which is the only one. -/
theorem huSlope_best {l : List (ℝ × ℝ)} {p q : ℝ × ℝ} (hp : p ∈ l) (hq : q ∈ l) (hne : p.1 ≠ q.1) :
    ∃ c h, huSlope l = .ok h ∧ ∀ c' h', huErr l c h ≤ huErr l c' h' ∧
      (huErr l c' h' = huErr l c h → c' = c ∧ h' = h) := by
  have hD := hu_det_pos hp hq hne
  set D := l.length * (l.map fun p => p.1 ^ 2).sum - (l.map (·.1)).sum ^ 2 with hDd
  have hn : (0 : ℝ) < l.length := by
    have := List.length_pos_of_mem hp
    exact_mod_cast this
  set h := (l.length * (l.map fun p => p.1 * p.2).sum - (l.map (·.1)).sum * (l.map (·.2)).sum) / D with hh
  set c := ((l.map (·.2)).sum - h * (l.map (·.1)).sum) / l.length with hc
  have hs : huSlope l = .ok h := huSlope_long hp hq hne
  have n1 : h * D = l.length * (l.map fun p => p.1 * p.2).sum - (l.map (·.1)).sum * (l.map (·.2)).sum :=
    div_mul_cancel₀ _ hD.ne'
  have n2 : c * l.length = (l.map (·.2)).sum - h * (l.map (·.1)).sum := div_mul_cancel₀ _ hn.ne'
  have key : ∀ c' h', l.length * (huErr l c' h' - huErr l c h)
      = (l.length * (c' - c) + (h' - h) * (l.map (·.1)).sum) ^ 2 + (h' - h) ^ 2 * D := by
    intro c' h'
    rw [huErr_expand, huErr_expand]
    rw [hDd] at n1 ⊢
    generalize (l.map (·.1)).sum = X at *
    generalize (l.map (·.2)).sum = Y at *
    generalize (l.map fun p => p.1 * p.2).sum = Z at *
    generalize (l.map fun p => p.1 ^ 2).sum = U at *
    generalize (l.map fun p => p.2 ^ 2).sum = V at *
    generalize (l.length : ℝ) = n at *
    have e1 : Y = c * n + h * X := by linarith
    subst e1
    have e2 : n * Z = h * (n * U - X ^ 2) + X * (c * n + h * X) := by linarith
    linear_combination (-2 * (h' - h)) * e2
  refine ⟨c, h, hs, fun c' h' => ⟨?_, ?_⟩⟩
  · have k := key c' h'
    have : 0 ≤ l.length * (huErr l c' h' - huErr l c h) := by
      rw [k]; positivity
    have := nonneg_of_mul_nonneg_right this hn
    linarith
  · intro e
    have k := key c' h'
    rw [e, sub_self, mul_zero] at k
    have t1 := sq_nonneg (l.length * (c' - c) + (h' - h) * (l.map (·.1)).sum)
    have t2 : 0 ≤ (h' - h) ^ 2 * D := by positivity
    have t3 : (h' - h) ^ 2 * D = 0 := by linarith
    have t4 : h' - h = 0 := by
      rcases mul_eq_zero.1 t3 with t | t
      · exact pow_eq_zero_iff two_ne_zero |>.1 t
      · exact absurd t hD.ne'
    rw [t4, zero_mul, add_zero] at t1 k
    have t5 : (l.length * (c' - c)) ^ 2 = 0 := by
      rw [show (0 : ℝ) ^ 2 * D = 0 by ring, add_zero] at k
      exact k.symm
    have t6 := pow_eq_zero_iff two_ne_zero |>.1 t5
    rcases mul_eq_zero.1 t6 with t | t
    · exact absurd t hn.ne'
    · exact ⟨by linarith, by linarith⟩

/-! ## Lags and spreads -/

theorem hu_sum_range (n : Nat) (f : Nat → ℝ) : ((List.range n).map f).sum = ∑ i ∈ Finset.range n, f i := by
  induction n with
  | zero => simp
  | succ n ih => simp [List.range_succ, Finset.sum_range_succ, ih]

theorem huDiff_eq (x : List ℝ) (k : Nat) :
    huDiff x k = (List.range (x.length - k)).map fun i => x.getD (i + k) 0 - x.getD i 0 := by
  unfold huDiff
  apply List.ext_getElem
  · simp
  · intro i h1 h2
    have hi : i < x.length - k := by simpa using h2
    simp only [List.getElem_zipWith, List.getElem_drop, List.getElem_take, List.getElem_map,
      List.getElem_range]
    rw [List.getD_eq_getElem _ _ (by omega : i + k < x.length), List.getD_eq_getElem _ _ (by omega : i < x.length)]
    congr 2
    omega

/-- The mean of the differences at a lag. -/
def huMean (x : Nat → ℝ) (n k : Nat) : ℝ := (∑ i ∈ Finset.range (n - k), (x (i + k) - x i)) / ((n - k : Nat) : ℝ)

/-- The standard deviation of the differences at a lag. -/
def huSpread (x : Nat → ℝ) (n k : Nat) : ℝ :=
  √((∑ i ∈ Finset.range (n - k), (x (i + k) - x i - huMean x n k) ^ 2) / ((n - k : Nat) : ℝ))

theorem huStd_spread (x : List ℝ) (k : Nat) :
    huStd (huDiff x k) = huSpread (fun i => x.getD i 0) x.length k := by
  rw [huDiff_eq]
  unfold huStd huSpread huMean
  simp only [List.map_map, List.length_map, List.length_range, Function.comp_def, hu_sum_range]

theorem huLags_mem (lag : Int) (n k : Nat) : k ∈ huLags lag n ↔ 2 ≤ k ∧ (k : Int) < lag ∧ k + 1 < n := by
  unfold huLags
  rw [List.mem_iff_getElem]
  constructor
  · rintro ⟨i, hi, rfl⟩
    rw [List.length_drop, List.length_range] at hi
    rw [List.getElem_drop, List.getElem_range]
    push_cast
    omega
  · rintro ⟨h1, h2, h3⟩
    refine ⟨k - 2, ?_, ?_⟩
    · rw [List.length_drop, List.length_range]
      omega
    · rw [List.getElem_drop, List.getElem_range]
      omega

theorem huLags_sum (lag : Int) (n : Nat) (f : Nat → ℝ) :
    ((huLags lag n).map f).sum = ∑ k ∈ (Finset.range n).filter (fun k : ℕ => 2 ≤ k ∧ (k : Int) < lag ∧ k + 1 < n), f k := by
  have hnd : (huLags lag n).Nodup := (List.nodup_range).sublist (List.drop_sublist _ _)
  rw [← List.sum_toFinset f hnd]
  apply Finset.sum_congr _ fun _ _ => rfl
  ext k
  rw [List.mem_toFinset, huLags_mem, Finset.mem_filter, Finset.mem_range]
  constructor
  · intro h; exact ⟨by omega, h⟩
  · exact fun h => h.2

/-- The points the line is fitted to. -/
theorem huHurst_eq (lag : Int) (x : List ℝ) :
    huHurst lag x = if ∃ k ∈ huLags lag x.length, huSpread (fun i => x.getD i 0) x.length k = 0 then .ok 0
      else huSlope ((huLags lag x.length).map fun k : ℕ =>
        (Real.log k, Real.log (huSpread (fun i => x.getD i 0) x.length k))) := by
  unfold huHurst
  dsimp only
  have hz : ∀ (l : List Nat) (f : Nat → ℝ), (l.zip (l.map f)).map (fun p => (Real.log p.1, Real.log p.2))
      = l.map fun k : ℕ => (Real.log k, Real.log (f k)) := by
    intro l f
    induction l with
    | nil => rfl
    | cons a l ih => simp [ih]
  rw [hz]
  simp only [huStd_spread, List.mem_map]

theorem huSpread_nonneg (x : Nat → ℝ) (n k : Nat) : 0 ≤ huSpread x n k := Real.sqrt_nonneg _

theorem huSpread_zero {x : Nat → ℝ} {n k : Nat} (d : ℝ) (h : ∀ i, i + k < n → x (i + k) - x i = d) :
    huSpread x n k = 0 := by
  have hs : ∀ i ∈ Finset.range (n - k), x (i + k) - x i = d := fun i hi =>
    h i (by have := Finset.mem_range.1 hi; omega)
  unfold huSpread
  by_cases hn : n - k = 0
  · simp [hn]
  have hn' : ((n - k : Nat) : ℝ) ≠ 0 := by exact_mod_cast hn
  have hm : huMean x n k = d := by
    unfold huMean
    rw [Finset.sum_congr rfl hs, Finset.sum_const, Finset.card_range, nsmul_eq_mul]
    field_simp
  rw [hm, Finset.sum_congr rfl fun i hi => by rw [hs i hi, sub_self]]
  simp

theorem huSpread_affine (x : Nat → ℝ) (n k : Nat) (a b c : ℝ) :
    huSpread (fun i => a * x i + b + c * i) n k = |a| * huSpread x n k := by
  unfold huSpread
  by_cases hn : n - k = 0
  · simp [hn]
  have hn' : ((n - k : Nat) : ℝ) ≠ 0 := by exact_mod_cast hn
  have hm : huMean (fun i => a * x i + b + c * i) n k = a * huMean x n k + c * k := by
    unfold huMean
    have : ∀ i ∈ Finset.range (n - k), a * x (i + k) + b + c * ((i + k : Nat) : ℝ) - (a * x i + b + c * i)
        = a * (x (i + k) - x i) + c * k := fun i _ => by push_cast; ring
    rw [Finset.sum_congr rfl this, Finset.sum_add_distrib, ← Finset.mul_sum, Finset.sum_const,
      Finset.card_range, nsmul_eq_mul]
    field_simp
  rw [hm]
  have : ∀ i ∈ Finset.range (n - k),
      (a * x (i + k) + b + c * ((i + k : Nat) : ℝ) - (a * x i + b + c * i) - (a * huMean x n k + c * k)) ^ 2
        = a ^ 2 * (x (i + k) - x i - huMean x n k) ^ 2 := fun i _ => by push_cast; ring
  rw [Finset.sum_congr rfl this, ← Finset.mul_sum, mul_div_assoc, Real.sqrt_mul (sq_nonneg a), Real.sqrt_sq_eq_abs]

theorem huSpread_congr {x y : Nat → ℝ} {n k : Nat} (h : ∀ i < n, x i = y i) :
    huSpread x n k = huSpread y n k := by
  have hd : ∀ i ∈ Finset.range (n - k), x (i + k) - x i = y (i + k) - y i := fun i hi => by
    have := Finset.mem_range.1 hi
    rw [h i (by omega), h (i + k) (by omega)]
  have hm : huMean x n k = huMean y n k := by
    unfold huMean
    rw [Finset.sum_congr rfl hd]
  unfold huSpread
  rw [Finset.sum_congr rfl fun i hi => by rw [hd i hi, hm]]

/-! ## C163 -/

/-- C163: with two lags or more and no constant differences the exponent is the slope of the line that
fits the logarithms of the standard deviations of the lagged differences best, against the logarithms of
the lags, over all lags from 2 that are less than the limit and leave two differences. -/
theorem C163_fit (lag : Int) (x : List ℝ) (hl : 4 ≤ lag) (hn : 5 ≤ x.length)
    (hs : ∀ k : ℕ, 2 ≤ k → (k : Int) < lag → k + 1 < x.length → huSpread (fun i => x.getD i 0) x.length k ≠ 0) :
    ∃ c h, huHurst lag x = .ok h ∧ ∀ c' h',
      let err := fun c h : ℝ => ∑ k ∈ (Finset.range x.length).filter (fun k : ℕ => 2 ≤ k ∧ (k : Int) < lag ∧ k + 1 < x.length),
        (Real.log (huSpread (fun i => x.getD i 0) x.length k) - c - h * Real.log k) ^ 2
      err c h ≤ err c' h' ∧ (err c' h' = err c h → c' = c ∧ h' = h) := by
  have he : ∀ c h, huErr ((huLags lag x.length).map fun k : ℕ =>
      (Real.log k, Real.log (huSpread (fun i => x.getD i 0) x.length k))) c h
        = ∑ k ∈ (Finset.range x.length).filter (fun k : ℕ => 2 ≤ k ∧ (k : Int) < lag ∧ k + 1 < x.length),
          (Real.log (huSpread (fun i => x.getD i 0) x.length k) - c - h * Real.log k) ^ 2 := by
    intro c h
    unfold huErr
    rw [List.map_map, ← huLags_sum]
    rfl
  have h2 : 2 ∈ huLags lag x.length := (huLags_mem _ _ _).2 ⟨le_rfl, by omega, by omega⟩
  have h3 : 3 ∈ huLags lag x.length := (huLags_mem _ _ _).2 ⟨by omega, by omega, by omega⟩
  have hne : Real.log (2 : ℕ) ≠ Real.log (3 : ℕ) := by
    have : Real.log (2 : ℕ) < Real.log (3 : ℕ) := Real.log_lt_log (by norm_num) (by norm_num)
    exact this.ne
  obtain ⟨c, h, hok, hb⟩ := huSlope_best
    (List.mem_map.2 ⟨2, h2, rfl⟩ : (Real.log (2 : ℕ), Real.log (huSpread (fun i => x.getD i 0) x.length 2)) ∈
      (huLags lag x.length).map fun k : ℕ => (Real.log k, Real.log (huSpread (fun i => x.getD i 0) x.length k)))
    (List.mem_map.2 ⟨3, h3, rfl⟩) hne
  refine ⟨c, h, ?_, fun c' h' => ?_⟩
  · rw [huHurst_eq, if_neg]
    · exact hok
    · rintro ⟨k, hk, e⟩
      obtain ⟨k1, k2, k3⟩ := (huLags_mem _ _ _).1 hk
      exact hs k k1 k2 k3 e
  · dsimp only
    rw [← he, ← he]
    exact hb c' h'

/-- C163: if the standard deviations follow a power of the lag, the exponent is that power. -/
theorem C163_power (lag : Int) (x : List ℝ) (hl : 4 ≤ lag) (hn : 5 ≤ x.length) (A H : ℝ) (hA : 0 < A)
    (hs : ∀ k : ℕ, 2 ≤ k → (k : Int) < lag → k + 1 < x.length →
      huSpread (fun i => x.getD i 0) x.length k = A * (k : ℝ) ^ H) : huHurst lag x = .ok H := by
  have hpos : ∀ k : ℕ, 2 ≤ k → 0 < A * (k : ℝ) ^ H := fun k hk =>
    mul_pos hA (Real.rpow_pos_of_pos (by exact_mod_cast (by omega : 0 < k)) _)
  obtain ⟨c, h, hok, hb⟩ := C163_fit lag x hl hn fun k h1 h2 h3 => by
    rw [hs k h1 h2 h3]
    exact (hpos k h1).ne'
  obtain ⟨hle, heq⟩ := hb (Real.log A) H
  dsimp only at hle heq
  have h0 : ∑ k ∈ (Finset.range x.length).filter (fun k : ℕ => 2 ≤ k ∧ (k : Int) < lag ∧ k + 1 < x.length),
      (Real.log (huSpread (fun i => x.getD i 0) x.length k) - Real.log A - H * Real.log k) ^ 2 = 0 := by
    apply Finset.sum_eq_zero
    intro k hk
    obtain ⟨_, h1, h2, h3⟩ := Finset.mem_filter.1 hk
    have hk0 : (0 : ℝ) < k := by exact_mod_cast (by omega : 0 < k)
    rw [hs k h1 h2 h3, Real.log_mul hA.ne' (Real.rpow_pos_of_pos hk0 _).ne', Real.log_rpow hk0]
    ring
  have hge : 0 ≤ ∑ k ∈ (Finset.range x.length).filter (fun k : ℕ => 2 ≤ k ∧ (k : Int) < lag ∧ k + 1 < x.length),
      (Real.log (huSpread (fun i => x.getD i 0) x.length k) - c - h * Real.log k) ^ 2 :=
    Finset.sum_nonneg fun _ _ => sq_nonneg _
  rw [h0] at hle heq
  obtain ⟨_, e⟩ := heq (le_antisymm hge hle)
  rw [hok, e]

theorem huSlope_shift (l : List (ℝ × ℝ)) (h : 2 ≤ l.length) (d : ℝ) :
    huSlope (l.map fun p => (p.1, d + p.2)) = huSlope l := by
  match l, h with
  | a :: b :: l, _ =>
    have e1 : ∀ l : List (ℝ × ℝ), ((l.map fun p => (p.1, d + p.2)).map fun p => p.1 * p.2).sum
        = d * (l.map (·.1)).sum + (l.map fun p => p.1 * p.2).sum := by
      intro l
      induction l with
      | nil => simp
      | cons p l ih => simp only [List.map_cons, List.sum_cons, ih]; ring
    have e2 : ∀ l : List (ℝ × ℝ), ((l.map fun p => (p.1, d + p.2)).map (·.2)).sum
        = l.length * d + (l.map (·.2)).sum := by
      intro l
      induction l with
      | nil => simp
      | cons p l ih => simp only [List.map_cons, List.sum_cons, ih, List.length_cons]; push_cast; ring
    have e3 : ∀ l : List (ℝ × ℝ), (l.map fun p => (p.1, d + p.2)).map (·.1) = l.map (·.1) := by
      intro l; simp
    have e4 : ∀ l : List (ℝ × ℝ), (l.map fun p => (p.1, d + p.2)).map (fun p => p.1 ^ 2) = l.map fun p => p.1 ^ 2 := by
      intro l; simp
    have u : ∀ q r : ℝ × ℝ, ∀ t : List (ℝ × ℝ), huSlope (q :: r :: t)
        = .ok (((q :: r :: t).length * ((q :: r :: t).map fun p => p.1 * p.2).sum
            - ((q :: r :: t).map (·.1)).sum * ((q :: r :: t).map (·.2)).sum)
          / ((q :: r :: t).length * ((q :: r :: t).map fun p => p.1 ^ 2).sum - ((q :: r :: t).map (·.1)).sum ^ 2)) :=
      fun _ _ _ => rfl
    rw [u a b l, List.map_cons, List.map_cons, u, ← List.map_cons (f := fun p : ℝ × ℝ => (p.1, d + p.2)),
      ← List.map_cons (f := fun p : ℝ × ℝ => (p.1, d + p.2)), e1, e2, e3, e4, List.length_map]
    congr 2
    ring

/-- The series with another scale, level and trend. -/
def huAffine (a b c : ℝ) (x : List ℝ) : List ℝ := (List.range x.length).map fun i : ℕ => a * x.getD i 0 + b + c * i

theorem huAffine_spread (a b c : ℝ) (x : List ℝ) (k : Nat) :
    huSpread (fun i => (huAffine a b c x).getD i 0) x.length k = |a| * huSpread (fun i => x.getD i 0) x.length k := by
  rw [← huSpread_affine _ _ _ a b c]
  apply huSpread_congr
  intro i hi
  unfold huAffine
  rw [List.getD_eq_getElem _ _ (by simpa using hi)]
  simp

theorem huAffine_eq (lag : Int) (x : List ℝ) (a b c : ℝ) (ha : a ≠ 0) :
    huHurst lag (huAffine a b c x)
      = if ∃ k ∈ huLags lag x.length, huSpread (fun i => x.getD i 0) x.length k = 0 then .ok 0
        else huSlope (((huLags lag x.length).map fun k : ℕ =>
          (Real.log k, Real.log (huSpread (fun i => x.getD i 0) x.length k))).map
            fun p => (p.1, Real.log |a| + p.2)) := by
  have hlen : (huAffine a b c x).length = x.length := by simp [huAffine]
  rw [huHurst_eq, hlen]
  simp only [huAffine_spread, mul_eq_zero, abs_eq_zero, ha, false_or]
  split
  · rfl
  · rename_i hc
    congr 1
    rw [List.map_map]
    refine List.map_congr_left fun k hk => ?_
    have hne : huSpread (fun i => x.getD i 0) x.length k ≠ 0 := fun e => hc ⟨k, hk, e⟩
    simp only [Function.comp_def]
    rw [Real.log_mul (abs_pos.2 ha).ne' hne]

theorem huLags_length (lag : Int) (n : Nat) : (huLags lag n).length = (min lag ((n : Int) - 1)).toNat - 2 := by
  simp [huLags]

/-- C163: the unit, the level and a linear trend make no difference. -/
theorem C163_invariant (lag : Int) (x : List ℝ) (hl : 4 ≤ lag) (hn : 5 ≤ x.length) (a b c : ℝ) (ha : a ≠ 0) :
    huHurst lag (huAffine a b c x) = huHurst lag x := by
  rw [huAffine_eq lag x a b c ha, huHurst_eq]
  split
  · rfl
  · apply huSlope_shift
    rw [List.length_map, huLags_length]
    omega

/-- C163 is violated with a limit of 3: there is one lag only, no line is determined, and the result moves with
the unit. -/
theorem C163_unit_violated (x : List ℝ) (hn : 4 ≤ x.length) (a b c : ℝ) (ha : a ≠ 0)
    (hs : huSpread (fun i => x.getD i 0) x.length 2 ≠ 0) :
    ∃ h, huHurst 3 x = .ok h ∧ huHurst 3 (huAffine a b c x) = .ok (h + Real.log |a| / (2 * Real.log 2)) := by
  have hlags : huLags 3 x.length = [2] := by
    unfold huLags
    rw [show (min (3 : Int) ((x.length : Int) - 1)).toNat = 3 by omega]
    rfl
  refine ⟨Real.log (huSpread (fun i => x.getD i 0) x.length 2) / (2 * Real.log 2), ?_, ?_⟩
  · rw [huHurst_eq, hlags, if_neg (by simpa using hs)]
    simp [huSlope]
  · rw [huAffine_eq 3 x a b c ha, hlags, if_neg (by simpa using hs)]
    simp only [List.map_cons, List.map_nil, huSlope, Nat.cast_ofNat]
    congr 1
    ring

/-- C163: the length and the limit: less than four points, or a limit of 2, raise; the limit makes no difference
when it is beyond the series. -/
theorem C163_short (lag : Int) (x : List ℝ) :
    (huHurst lag x = .error .typeError ↔ lag ≤ 2 ∨ x.length ≤ 3) ∧
    (∀ lag', (x.length : Int) - 1 ≤ lag → (x.length : Int) - 1 ≤ lag' → huHurst lag x = huHurst lag' x) := by
  constructor
  · rw [huHurst_eq]
    constructor
    · intro h
      by_contra hc
      push Not at hc
      have hm : 2 ∈ huLags lag x.length := (huLags_mem _ _ _).2 ⟨le_rfl, by omega, by omega⟩
      split at h
      · cases h
      · match hl : huLags lag x.length with
        | [] => rw [hl] at hm; cases hm
        | [k] => rw [hl] at h; cases h
        | k :: k' :: l => rw [hl] at h; cases h
    · intro h
      have hl : huLags lag x.length = [] := by
        rw [List.eq_nil_iff_length_eq_zero, huLags_length]
        omega
      rw [hl]
      simp [huSlope]
  · intro lag' h1 h2
    unfold huHurst huLags
    rw [min_eq_right h1, min_eq_right h2]

/-- C163 is violated: if at one of the lags all differences are equal the result is zero, whatever happens at the
other lags; so for a line and for every series with a short season, with a trend or without. -/
theorem C163_constant_violated (lag : Int) (x : List ℝ) (k : Nat) (hk : 2 ≤ k) (hl : (k : Int) < lag)
    (hn : k + 1 < x.length) (d : ℝ) (hd : ∀ i, i + k < x.length → x.getD (i + k) 0 - x.getD i 0 = d) :
    huHurst lag x = .ok 0 := by
  rw [huHurst_eq, if_pos]
  exact ⟨k, (huLags_mem _ _ _).2 ⟨hk, hl, hn⟩, huSpread_zero d hd⟩

/-- C163 is violated: the exponent is not between 0 and 1; every number is the exponent of a series of five
points. -/
theorem C163_range_violated (lag : Int) (hl : 4 ≤ lag) (H : ℝ) : ∃ x : List ℝ, x.length = 5 ∧ huHurst lag x = .ok H := by
  -- the standard deviations are `√2 / 3` and `s / 2`
  set s : ℝ := 2 * (√2 / 3 * (3 / 2 : ℝ) ^ H) with hs
  have hs0 : 0 < s := by positivity
  set t : ℝ := (s + 1) / 2 with ht
  refine ⟨[0, t, 0, t, 1], rfl, ?_⟩
  have h2 : huSpread (fun i => ([0, t, 0, t, 1] : List ℝ).getD i 0) 5 2 = √2 / 3 := by
    unfold huSpread huMean
    simp only [show 5 - 2 = 3 by rfl, Finset.sum_range_succ, Finset.sum_range_zero, Nat.cast_ofNat]
    simp only [List.getD_cons_zero, List.getD_cons_succ, zero_add, Nat.reduceAdd]
    rw [show ((0 - 0 - (0 - 0 + (t - t) + (1 - 0)) / 3) ^ 2 + (t - t - (0 - 0 + (t - t) + (1 - 0)) / 3) ^ 2
      + (1 - 0 - (0 - 0 + (t - t) + (1 - 0)) / 3) ^ 2) / (3 : ℝ) = 2 / 3 ^ 2 by ring]
    rw [Real.sqrt_div (by norm_num), Real.sqrt_sq (by norm_num)]
  have h3 : huSpread (fun i => ([0, t, 0, t, 1] : List ℝ).getD i 0) 5 3 = s / 2 := by
    unfold huSpread huMean
    simp only [show 5 - 3 = 2 by rfl, Finset.sum_range_succ, Finset.sum_range_zero, Nat.cast_ofNat]
    simp only [List.getD_cons_zero, List.getD_cons_succ, zero_add, Nat.reduceAdd]
    rw [show ((t - 0 - (t - 0 + (1 - t)) / 2) ^ 2 + (1 - t - (t - 0 + (1 - t)) / 2) ^ 2) / (2 : ℝ) = (s / 2) ^ 2 by
      rw [ht]; ring]
    exact Real.sqrt_sq (by positivity)
  apply C163_power lag _ hl (by simp) (√2 / 3 / 2 ^ H) H (by positivity)
  intro k k1 _ k3
  simp only [List.length_cons, List.length_nil] at k3
  have hk : k = 2 ∨ k = 3 := by omega
  rcases hk with rfl | rfl
  · show huSpread _ 5 2 = _
    rw [h2]
    push_cast
    field_simp
  · show huSpread _ 5 3 = _
    rw [h3, hs]
    push_cast
    rw [Real.div_rpow (by norm_num) (by norm_num)]
    field_simp

/-! ### Cases that meet the hypotheses -/

example : ∃ x : List ℝ, x.length = 5 ∧ huHurst 30 x = .ok (1 / 2) := C163_range_violated 30 (by norm_num) _

/-- A series with season 3 and a trend. -/
example : ∀ i, i + 3 < ([0, 5, 1, 3, 8, 4, 6] : List ℝ).length →
    ([0, 5, 1, 3, 8, 4, 6] : List ℝ).getD (i + 3) 0 - ([0, 5, 1, 3, 8, 4, 6] : List ℝ).getD i 0 = 3 := by
  intro i hi
  simp only [List.length_cons, List.length_nil] at hi
  have : i = 0 ∨ i = 1 ∨ i = 2 ∨ i = 3 := by omega
  rcases this with rfl | rfl | rfl | rfl <;> norm_num

end

end Kats
