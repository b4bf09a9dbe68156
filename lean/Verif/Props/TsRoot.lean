import Verif.Model.TsRoot
import Mathlib.Algebra.BigOperators.Ring.Finset
import Mathlib.Algebra.Order.BigOperators.Ring.Finset
import Mathlib.Algebra.BigOperators.Intervals
import Mathlib.Tactic.Ring
import Mathlib.Tactic.FieldSimp
import Mathlib.Tactic.Linarith
import Mathlib.Tactic.LinearCombination
import Mathlib.Tactic.NormNum

/-!
# Properties of the KPSS statistic, the lags of the ARCH test and the smoothing parameters (C168)
-/

namespace Kats

variable {K : Type} [Field K] [LinearOrder K] [IsStrictOrderedRing K]

/-- A series that is a line. -/
def RuLine (n : ℕ) (x : ℕ → K) : Prop := ∃ a b : K, ∀ i < n, x i = a + b * ((i : K) + 1)

/-- The time minus its mean. -/
def ruCent (n : ℕ) (i : ℕ) : K := ruTime i - ruMean n ruTime

theorem ruMean_sum (n : ℕ) (x : ℕ → K) (hn : 0 < n) : ∑ i ∈ Finset.range n, (x i - ruMean n x) = 0 := by
  have : (n : K) ≠ 0 := by exact_mod_cast hn.ne'
  rw [Finset.sum_sub_distrib]
  simp only [ruMean, Finset.sum_const, Finset.card_range, nsmul_eq_mul]
  field_simp
  ring

theorem ruCent_sum (n : ℕ) (hn : 0 < n) : ∑ i ∈ Finset.range n, (ruCent n i : K) = 0 := ruMean_sum n ruTime hn

theorem ruCent_pos (n : ℕ) (hn : 2 ≤ n) : 0 < ∑ i ∈ Finset.range n, (ruCent n i * ruCent n i : K) := by
  have hnn : ∀ i ∈ Finset.range n, 0 ≤ (ruCent n i * ruCent n i : K) := fun i _ => mul_self_nonneg _
  rcases (Finset.sum_nonneg hnn).lt_or_eq with h | h
  · exact h
  · exfalso
    have h0 := (Finset.sum_eq_zero_iff_of_nonneg hnn).1 h.symm
    have a0 := mul_self_eq_zero.1 (h0 0 (Finset.mem_range.2 (by omega)))
    have a1 := mul_self_eq_zero.1 (h0 1 (Finset.mem_range.2 (by omega)))
    simp only [ruCent, ruTime, Nat.cast_zero, Nat.cast_one] at a0 a1
    linarith

theorem ruSlope_eq (n : ℕ) (hn : 2 ≤ n) (x : ℕ → K) :
    ruSlope n x * ∑ i ∈ Finset.range n, (ruCent n i * ruCent n i : K) = ∑ i ∈ Finset.range n, ruCent n i * x i := by
  unfold ruSlope
  exact div_mul_cancel₀ _ (ruCent_pos n hn).ne'

theorem ruResid_sum (n : ℕ) (hn : 2 ≤ n) (x : ℕ → K) : ∑ i ∈ Finset.range n, ruResid n x i = 0 := by
  unfold ruResid
  rw [Finset.sum_sub_distrib, ruMean_sum n x (by omega), ← Finset.mul_sum]
  have := ruCent_sum (K := K) n (by omega)
  unfold ruCent at this
  rw [this]; ring

theorem ruResid_orth (n : ℕ) (hn : 2 ≤ n) (x : ℕ → K) :
    ∑ i ∈ Finset.range n, ruCent n i * ruResid n x i = 0 := by
  have h : ∀ i, ruCent n i * ruResid n x i
      = ruCent n i * x i - ruMean n x * ruCent n i - ruSlope n x * (ruCent n i * ruCent n i) := fun i => by
    simp only [ruResid, ruCent]; ring
  rw [Finset.sum_congr rfl fun i _ => h i, Finset.sum_sub_distrib, Finset.sum_sub_distrib, ← Finset.mul_sum,
    ← Finset.mul_sum, ruCent_sum n (by omega), ruSlope_eq n hn]
  ring

/-- C168: the residuals are those of the line with the least sum of squares. -/
theorem C168_residuals (n : ℕ) (hn : 2 ≤ n) (x : ℕ → K) :
    (∃ a b : K, ∀ i, ruResid n x i = x i - (a + b * ((i : K) + 1))) ∧
    ∀ a b : K, ∑ i ∈ Finset.range n, ruResid n x i * ruResid n x i ≤
      ∑ i ∈ Finset.range n, (x i - (a + b * ((i : K) + 1))) * (x i - (a + b * ((i : K) + 1))) := by
  refine ⟨⟨ruMean n x - ruSlope n x * ruMean n ruTime, ruSlope n x, fun i => by
    simp only [ruResid, ruTime]; ring⟩, fun a b => ?_⟩
  set c := ruMean n x - a - b * ruMean n ruTime with hc
  set d := ruSlope n x - b with hd
  have h : ∀ i, (x i - (a + b * ((i : K) + 1))) * (x i - (a + b * ((i : K) + 1)))
      = ruResid n x i * ruResid n x i + 2 * c * ruResid n x i + 2 * d * (ruCent n i * ruResid n x i)
        + (c + d * ruCent n i) * (c + d * ruCent n i) := fun i => by
    simp only [hc, hd, ruResid, ruCent, ruTime]; ring
  rw [Finset.sum_congr rfl fun i _ => h i, Finset.sum_add_distrib, Finset.sum_add_distrib,
    Finset.sum_add_distrib, ← Finset.mul_sum, ← Finset.mul_sum, ruResid_sum n hn, ruResid_orth n hn]
  have := Finset.sum_nonneg fun i (_ : i ∈ Finset.range n) => mul_self_nonneg (c + d * (ruCent n i : K))
  linarith

example : ruResid 3 (fun i => if i = 1 then (1 : ℚ) else 0) 1 = 2 / 3 := by
  simp [ruResid, ruMean, ruSlope, ruTime, Finset.sum_range_succ]
  norm_num

theorem ruResid_zero_iff (n : ℕ) (hn : 2 ≤ n) (x : ℕ → K) : (∀ i < n, ruResid n x i = 0) ↔ RuLine n x := by
  constructor
  · intro h
    refine ⟨ruMean n x - ruSlope n x * ruMean n ruTime, ruSlope n x, fun i hi => ?_⟩
    have := h i hi
    simp only [ruResid, ruTime] at this
    linear_combination this
  · rintro ⟨a, b, h⟩ i hi
    have h1 := (C168_residuals n hn x).2 a b
    have h2 : ∑ i ∈ Finset.range n, (x i - (a + b * ((i : K) + 1))) * (x i - (a + b * ((i : K) + 1))) = 0 :=
      Finset.sum_eq_zero fun j hj => by rw [h j (Finset.mem_range.1 hj)]; ring
    rw [h2] at h1
    have hnn : ∀ i ∈ Finset.range n, 0 ≤ ruResid n x i * ruResid n x i := fun i _ => mul_self_nonneg _
    have h3 := le_antisymm h1 (Finset.sum_nonneg hnn)
    exact mul_self_eq_zero.1 ((Finset.sum_eq_zero_iff_of_nonneg hnn).1 h3 i (Finset.mem_range.2 hi))

theorem ruSigma_one (n : ℕ) (e : ℕ → K) :
    ruSigma n 1 e = (∑ i ∈ Finset.range n, e i * e i + ∑ j ∈ Finset.range (n - 1), e (j + 1) * e j) / n := by
  unfold ruSigma
  simp only [Finset.range_one, Finset.sum_singleton, Nat.cast_zero, Nat.cast_one, zero_add]
  congr 2
  ring

/-- Twice the long-run variance as a sum of squares. -/
theorem ru_squares (m : ℕ) (e : ℕ → K) :
    2 * (∑ i ∈ Finset.range (m + 1), e i * e i + ∑ j ∈ Finset.range m, e (j + 1) * e j)
      = e 0 * e 0 + e m * e m + ∑ j ∈ Finset.range m, (e (j + 1) + e j) * (e (j + 1) + e j) := by
  induction m with
  | zero => simp; ring
  | succ m ih =>
    rw [Finset.sum_range_succ, Finset.sum_range_succ (fun j => e (j + 1) * e j),
      Finset.sum_range_succ (fun j => (e (j + 1) + e j) * (e (j + 1) + e j))]
    linear_combination ih

theorem ruSigma_nonneg (n : ℕ) (hn : 2 ≤ n) (e : ℕ → K) :
    0 ≤ ruSigma n 1 e ∧ (ruSigma n 1 e = 0 ↔ ∀ i < n, e i = 0) := by
  obtain ⟨m, rfl⟩ : ∃ m, n = m + 1 := ⟨n - 1, by omega⟩
  have hpos : (0 : K) < ((m + 1 : ℕ) : K) := by exact_mod_cast Nat.succ_pos m
  rw [ruSigma_one]
  simp only [Nat.add_sub_cancel]
  have hsq := ru_squares m e
  have hs := Finset.sum_nonneg fun j (_ : j ∈ Finset.range m) => mul_self_nonneg (e (j + 1) + e j)
  have h0 := mul_self_nonneg (e 0)
  have hm := mul_self_nonneg (e m)
  refine ⟨div_nonneg (by linarith) hpos.le, ?_⟩
  rw [div_eq_zero_iff, or_iff_left hpos.ne']
  constructor
  · intro h
    rw [h, mul_zero] at hsq
    have hs0 : ∑ j ∈ Finset.range m, (e (j + 1) + e j) * (e (j + 1) + e j) = 0 := by linarith
    have he0 : e 0 = 0 := mul_self_eq_zero.1 (by linarith)
    have hstep := (Finset.sum_eq_zero_iff_of_nonneg fun j _ => mul_self_nonneg (e (j + 1) + e j)).1 hs0
    intro i hi
    induction i with
    | zero => exact he0
    | succ i ih =>
      have := mul_self_eq_zero.1 (hstep i (Finset.mem_range.2 (by omega)))
      rw [ih (by omega), add_zero] at this
      exact this
  · intro h
    rw [Finset.sum_eq_zero fun i hi => by rw [h i (Finset.mem_range.1 hi)]; ring,
      Finset.sum_eq_zero fun j hj => by rw [h j (by have := Finset.mem_range.1 hj; omega)]; ring, add_zero]

theorem ruEta_pos (n : ℕ) (hn : 2 ≤ n) (e : ℕ → K) (h : ¬ ∀ i < n, e i = 0) : 0 < ruEta n e := by
  have hpos : (0 : K) < (n : K) := by exact_mod_cast (by omega : 0 < n)
  unfold ruEta
  apply div_pos _ (mul_pos hpos hpos)
  have hnn : ∀ i ∈ Finset.range n, 0 ≤ (∑ j ∈ Finset.range (i + 1), e j) * (∑ j ∈ Finset.range (i + 1), e j) :=
    fun i _ => mul_self_nonneg _
  rcases (Finset.sum_nonneg hnn).lt_or_eq with h' | h'
  · exact h'
  · exfalso
    have hz := (Finset.sum_eq_zero_iff_of_nonneg hnn).1 h'.symm
    apply h
    intro i hi
    have a1 := mul_self_eq_zero.1 (hz i (Finset.mem_range.2 hi))
    rw [Finset.sum_range_succ] at a1
    cases i with
    | zero => simpa using a1
    | succ i =>
      have a2 := mul_self_eq_zero.1 (hz i (Finset.mem_range.2 (by omega)))
      rw [a2, zero_add] at a1
      exact a1

/-- C168: the KPSS statistic of at least two observations that are not on a line is a positive number; that of a
line is NaN; fewer observations raise. -/
theorem C168_kpss (n : ℕ) (x : ℕ → K) :
    (n ≤ 1 → ruKpss n x = .error .valueError) ∧
    (2 ≤ n → RuLine n x → ruKpss n x = .ok none) ∧
    (2 ≤ n → ¬ RuLine n x → ∃ s, ruKpss n x = .ok (some s) ∧ 0 < s ∧
      ∃ e : ℕ → K, (∃ a b : K, ∀ i, e i = x i - (a + b * ((i : K) + 1))) ∧
        ∑ i ∈ Finset.range n, e i = 0 ∧ ∑ i ∈ Finset.range n, (i : K) * e i = 0 ∧
        s * (n * (∑ i ∈ Finset.range n, e i * e i + ∑ i ∈ Finset.range (n - 1), e (i + 1) * e i))
          = ∑ i ∈ Finset.range n, (∑ j ∈ Finset.range (i + 1), e j) ^ 2) := by
  refine ⟨fun h => by simp [ruKpss, h], fun hn hl => ?_, fun hn hl => ?_⟩
  · rw [← ruResid_zero_iff n hn] at hl
    unfold ruKpss
    rw [if_neg (by omega)]
    simp only [(ruSigma_nonneg n hn (ruResid n x)).2.2 hl, if_true]
  · rw [← ruResid_zero_iff n hn] at hl
    have hsig := ruSigma_nonneg n hn (ruResid n x)
    have hne : ruSigma n 1 (ruResid n x) ≠ 0 := fun h => hl (hsig.2.1 h)
    refine ⟨ruEta n (ruResid n x) / ruSigma n 1 (ruResid n x), ?_,
      div_pos (ruEta_pos n hn _ hl) (lt_of_le_of_ne hsig.1 (Ne.symm hne)),
      ruResid n x, (C168_residuals n hn x).1, ruResid_sum n hn x, ?_, ?_⟩
    · unfold ruKpss
      rw [if_neg (by omega)]
      simp only [hne, if_false]
    · have h1 := ruResid_orth n hn x
      have h2 := ruResid_sum n hn x
      have : ∀ i : ℕ, (i : K) * ruResid n x i
          = ruCent n i * ruResid n x i + (ruMean n ruTime - 1) * ruResid n x i := fun i => by
        simp only [ruCent, ruTime]; ring
      rw [Finset.sum_congr rfl fun i _ => this i, Finset.sum_add_distrib, h1, ← Finset.mul_sum, h2]
      ring
    · have hpos : (n : K) ≠ 0 := by exact_mod_cast (by omega : n ≠ 0)
      have hs : n * (∑ i ∈ Finset.range n, ruResid n x i * ruResid n x i +
          ∑ i ∈ Finset.range (n - 1), ruResid n x (i + 1) * ruResid n x i)
          = n * n * ruSigma n 1 (ruResid n x) := by
        rw [ruSigma_one]; field_simp
      rw [hs]
      unfold ruEta
      simp only [pow_two]
      field_simp

example : ¬ RuLine 3 (fun i => if i = 1 then (1 : ℚ) else 0) := by
  rintro ⟨a, b, h⟩
  have h0 := h 0 (by omega)
  have h1 := h 1 (by omega)
  have h2 := h 2 (by omega)
  norm_num at h0 h1 h2
  linarith

/-- C168: the statistic does not change if the series is scaled and a line is added. -/
theorem C168_invariant (n : ℕ) (x : ℕ → K) (a b c : K) (ha : a ≠ 0) :
    ruKpss n (fun i => a * x i + b + c * ((i : K) + 1)) = ruKpss n x := by
  by_cases hn : n ≤ 1
  · simp [ruKpss, hn]
  have hn2 : 2 ≤ n := by omega
  have hpos : (n : K) ≠ 0 := by exact_mod_cast (by omega : n ≠ 0)
  set y : ℕ → K := fun i => a * x i + b + c * ((i : K) + 1) with hy
  have hmean : ruMean n y = a * ruMean n x + b + c * ruMean n ruTime := by
    simp only [ruMean, hy, Finset.sum_add_distrib, ← Finset.mul_sum, Finset.sum_const, Finset.card_range,
      nsmul_eq_mul, ruTime]
    field_simp
  have hcp := (ruCent_pos (K := K) n hn2).ne'
  have hslope : ruSlope n y = a * ruSlope n x + c := by
    apply mul_right_cancel₀ hcp
    rw [ruSlope_eq n hn2, add_mul, mul_assoc, ruSlope_eq n hn2]
    have : ∀ i, ruCent n i * y i = a * (ruCent n i * x i) + (b + c * ruMean n ruTime) * ruCent n i
        + c * (ruCent n i * ruCent n i) := fun i => by
      simp only [hy, ruCent, ruTime]; ring
    rw [Finset.sum_congr rfl fun i _ => this i, Finset.sum_add_distrib, Finset.sum_add_distrib,
      ← Finset.mul_sum, ← Finset.mul_sum, ← Finset.mul_sum, ruCent_sum n (by omega)]
    ring
  have hres : ruResid n y = fun i => a * ruResid n x i := by
    funext i
    simp only [ruResid, hmean, hslope]
    simp only [hy, ruTime]
    ring
  have hsig : ruSigma n 1 (ruResid n y) = a * a * ruSigma n 1 (ruResid n x) := by
    rw [ruSigma_one, ruSigma_one, hres]
    have h1 : ∀ i, a * ruResid n x i * (a * ruResid n x i) = a * a * (ruResid n x i * ruResid n x i) :=
      fun i => by ring
    have h2 : ∀ i, a * ruResid n x (i + 1) * (a * ruResid n x i)
        = a * a * (ruResid n x (i + 1) * ruResid n x i) := fun i => by ring
    rw [Finset.sum_congr rfl fun i _ => h1 i, Finset.sum_congr rfl fun i _ => h2 i, ← Finset.mul_sum,
      ← Finset.mul_sum]
    ring
  have heta : ruEta n (ruResid n y) = a * a * ruEta n (ruResid n x) := by
    unfold ruEta
    rw [hres]
    have h1 : ∀ i, (∑ j ∈ Finset.range (i + 1), a * ruResid n x j) * (∑ j ∈ Finset.range (i + 1), a * ruResid n x j)
        = a * a * ((∑ j ∈ Finset.range (i + 1), ruResid n x j) * (∑ j ∈ Finset.range (i + 1), ruResid n x j)) :=
      fun i => by rw [← Finset.mul_sum]; ring
    rw [Finset.sum_congr rfl fun i _ => h1 i, ← Finset.mul_sum]
    ring
  unfold ruKpss
  rw [if_neg hn, if_neg hn]
  simp only
  rw [hsig, heta]
  have haa : a * a ≠ 0 := mul_ne_zero ha ha
  by_cases h0 : ruSigma n 1 (ruResid n x) = 0
  · simp [h0]
  · rw [if_neg (mul_ne_zero haa h0), if_neg h0, mul_div_mul_left _ _ haa]

example : (-2 : ℚ) ≠ 0 := by norm_num

omit [LinearOrder K] [IsStrictOrderedRing K] [Field K] in
/-- C168: with five observations or more the ARCH test has at least one and at most ten lags, as many as fifths of
the length up to that, and at least three more rows than lags remain; with fewer there is no lag. -/
theorem C168_lags (n : ℕ) :
    ruArchLags n ≤ 10 ∧ (n < 5 → ruArchLags n = 0) ∧
    (5 ≤ n → 1 ≤ ruArchLags n ∧ ruArchLags n + 3 ≤ n - ruArchLags n ∧
      (ruArchLags n < 10 → 5 * ruArchLags n ≤ n ∧ n < 5 * ruArchLags n + 5) ∧ (50 ≤ n → ruArchLags n = 10)) := by
  unfold ruArchLags
  omega

example : ruArchLags 23 = 4 := rfl

/-- C168: with a dictionary of switches, a smoothing parameter is that of the fitted model if its switch is on (by
the dictionary, or by default), and NaN if it is off or the fit failed. -/
theorem C168_parameters_partial {V : Type} (fit : Except Err (RuFit V)) (d : List (String × Bool)) (default : Bool) :
    (∀ m, fit = .ok m → ∀ (k : String) (v : V),
      (k, v) ∈ [("holt_alpha", m.level), ("holt_beta", m.trend)] →
        (ruHolt fit (some d) default).lookup k = some (if (d.lookup k).getD default then some v else none)) ∧
    (∀ m, fit = .ok m → ∀ (k : String) (v : V),
      (k, v) ∈ [("hw_alpha", m.level), ("hw_beta", m.trend), ("hw_gamma", m.seasonal)] →
        (ruHw fit (some d) default).lookup k = some (if (d.lookup k).getD default then some v else none)) ∧
    (∀ e, fit = .error e → ∀ extra, (∀ kv ∈ ruHolt fit extra default, kv.2 = none) ∧
      ∀ kv ∈ ruHw fit extra default, kv.2 = none) ∧
    ∀ extra, (ruHolt fit extra default).map (fun kv => kv.1) = ["holt_alpha", "holt_beta"] ∧
      (ruHw fit extra default).map (fun kv => kv.1) = ["hw_alpha", "hw_beta", "hw_gamma"] := by
  refine ⟨?_, ?_, ?_, ?_⟩
  · rintro m rfl k v h
    simp only [List.mem_cons, Prod.mk.injEq, List.not_mem_nil, or_false] at h
    rcases h with ⟨rfl, rfl⟩ | ⟨rfl, rfl⟩ <;> rfl
  · rintro m rfl k v h
    simp only [List.mem_cons, Prod.mk.injEq, List.not_mem_nil, or_false] at h
    rcases h with ⟨rfl, rfl⟩ | ⟨rfl, rfl⟩ | ⟨rfl, rfl⟩ <;> rfl
  · rintro e rfl extra
    simp [ruHolt, ruHw]
  · intro extra
    cases fit <;> simp [ruHolt, ruHw]

example : ("hw_beta", (2 : ℕ)) ∈ [("hw_alpha", 1), ("hw_beta", 2), ("hw_gamma", 3)] := by simp

/-- C168: without a dictionary ("no feature is disabled") all smoothing parameters are NaN, also by default and
after a successful fit. -/
theorem C168_parameters_violated {V : Type} (m : RuFit V) (default : Bool) :
    (∀ kv ∈ ruHolt (.ok m) none default, kv.2 = none) ∧ ∀ kv ∈ ruHw (.ok m) none default, kv.2 = none := by
  simp [ruHolt, ruHw, ruOn]

example : ruHolt (.ok ⟨(1 : ℕ), 2, 3⟩) none true = [("holt_alpha", none), ("holt_beta", none)] := rfl

end Kats
