import Verif.Model.OneSample
import Verif.Props.Interval
import Mathlib.Data.Nat.Choose.Sum
import Mathlib.Algebra.Order.BigOperators.Group.Finset
import Mathlib.Topology.Order.IntermediateValue
import Mathlib.Topology.Algebra.Order.Field
import Mathlib.Topology.Instances.Real.Lemmas
import Mathlib.Tactic.Linarith
import Mathlib.Tactic.NormNum
import Mathlib.Tactic.Ring

/-!
# Properties of the one-sample detector (C160)
-/

namespace Kats

noncomputable section
open Classical

/-! ## The binomial distribution -/

theorem osPmf_nonneg {n : Nat} {p : ℝ} (h0 : 0 ≤ p) (h1 : p ≤ 1) (i : Nat) : 0 ≤ osPmf n p i := by
  unfold osPmf
  have := sub_nonneg.2 h1
  positivity

theorem osPmf_pos {n : Nat} {p : ℝ} (h0 : 0 < p) (h1 : p < 1) {i : Nat} (hi : i ≤ n) :
    0 < osPmf n p i := by
  unfold osPmf
  have := sub_pos.2 h1
  have : (0 : ℝ) < (n.choose i : ℝ) := by exact_mod_cast Nat.choose_pos hi
  positivity

theorem osPmf_sum (n : Nat) (p : ℝ) : ∑ i ∈ Finset.range (n + 1), osPmf n p i = 1 := by
  have := add_pow p (1 - p) n
  rw [add_sub_cancel, one_pow] at this
  rw [this]
  refine Finset.sum_congr rfl fun i _ => ?_
  unfold osPmf
  ring

theorem osCdf_nat (n : Nat) (p : ℝ) {k : Nat} (hk : k ≤ n) :
    osCdf n p k = ∑ i ∈ Finset.range (k + 1), osPmf n p i := by
  unfold osCdf
  congr 1
  ext i
  simp only [Finset.mem_filter, Finset.mem_range, Nat.cast_le]
  omega

theorem osCdf_top (n : Nat) (p : ℝ) : osCdf n p n = 1 := by
  rw [osCdf_nat n p le_rfl, osPmf_sum]

theorem osCdf_mono {n : Nat} {p : ℝ} (h0 : 0 ≤ p) (h1 : p ≤ 1) {x y : ℝ} (h : x ≤ y) :
    osCdf n p x ≤ osCdf n p y := by
  refine Finset.sum_le_sum_of_subset_of_nonneg ?_ fun i _ _ => osPmf_nonneg h0 h1 i
  intro i hi
  rw [Finset.mem_filter] at hi ⊢
  exact ⟨hi.1, hi.2.trans h⟩

theorem osCdf_strict {n : Nat} {p : ℝ} (h0 : 0 < p) (h1 : p < 1) {j k : Nat} (h : j < k)
    (hk : k ≤ n) : osCdf n p j < osCdf n p k := by
  rw [osCdf_nat n p (h.le.trans hk), osCdf_nat n p hk]
  refine Finset.sum_lt_sum_of_subset (i := k) ?_ ?_ ?_ (osPmf_pos h0 h1 hk) ?_
  · exact Finset.range_subset_range.2 (by omega)
  · simp
  · simp; omega
  · exact fun i _ _ => osPmf_nonneg h0.le h1.le i

/-- The quantile is the least number whose distribution function reaches the level. -/
theorem osPpf_spec {q : ℝ} (h0 : 0 < q) (h1 : q < 1) (n : Nat) (p : ℝ) :
    ∃ k : Nat, k ≤ n ∧ osPpf q n p = k ∧ q ≤ osCdf n p k ∧ ∀ j : Nat, j < k → osCdf n p j < q := by
  unfold osPpf
  rw [if_neg h0.ne', if_neg h1.ne]
  cases hf : (List.range (n + 1)).find? (fun k : ℕ => decide (q ≤ osCdf n p (k : ℝ))) with
  | none =>
    exfalso
    rw [List.find?_eq_none] at hf
    have := hf n (by simp)
    rw [decide_eq_true_iff, osCdf_top] at this
    exact this h1.le
  | some k =>
    rw [List.find?_range_eq_some] at hf
    obtain ⟨ha, hb, hc⟩ := hf
    refine ⟨k, by simpa [Nat.lt_succ_iff] using hb, rfl, by simpa using ha, fun j hj => ?_⟩
    have := hc j hj
    simpa using this

/-! ## C160: the decision -/

/-- A row with `k` successes out of `n`. -/
def osRow (k n : Nat) (p : ℝ) : OSRow := ⟨0, (k : ℝ) / n, 0, n, p⟩

theorem osRow_k {k n : Nat} (hn : 0 < n) (p : ℝ) : (osRow k n p).k = k := by
  have : (n : ℝ) ≠ 0 := by exact_mod_cast hn.ne'
  simp [osRow, OSRow.k, this]

theorem osRow_le {k n K : Nat} (hn : 0 < n) : ((k : ℝ) / n ≤ ((K : Int) : ℝ) / ((n : Int) : ℝ)) ↔ k ≤ K := by
  have : (0 : ℝ) < n := by exact_mod_cast hn
  simp only [Int.cast_natCast]
  rw [div_le_div_iff_of_pos_right this, Nat.cast_le]

theorem osRow_ge {k n K : Nat} (hn : 0 < n) : (((K : Int) : ℝ) / ((n : Int) : ℝ) ≤ (k : ℝ) / n) ↔ K ≤ k := by
  have : (0 : ℝ) < n := by exact_mod_cast hn
  simp only [Int.cast_natCast]
  rw [div_le_div_iff_of_pos_right this, Nat.cast_le]

theorem osCritAt_row {q : ℝ} {k n K : Nat} {p : ℝ} (h : osPpf q n p = K) :
    osCritAt q (osRow k n p) = ((K : Int) : ℝ) / ((n : Int) : ℝ) := by
  simp [osCritAt, osRow, h]

theorem os_lower_iff {q : ℝ} (h0 : 0 < q) (h1 : q < 1) {k n : Nat} (hn : 0 < n) (p : ℝ) :
    (osRow k n p).value ≤ osCritAt q (osRow k n p) ↔ ∀ j : Nat, j < k → osCdf n p j < q := by
  obtain ⟨K, _, hK, ha, hb⟩ := osPpf_spec h0 h1 n p
  rw [osCritAt_row hK]
  show (k : ℝ) / n ≤ _ ↔ _
  rw [osRow_le hn]
  constructor
  · exact fun h j hj => hb j (by omega)
  · intro h
    by_contra hc
    exact absurd (h K (by omega)) (not_lt.2 ha)

theorem os_upper_iff {q : ℝ} (h0 : 0 < q) (h1 : q < 1) {k n : Nat} (hn : 0 < n) {p : ℝ}
    (hp0 : 0 ≤ p) (hp1 : p ≤ 1) :
    osCritAt q (osRow k n p) ≤ (osRow k n p).value ↔ q ≤ osCdf n p k := by
  obtain ⟨K, _, hK, ha, hb⟩ := osPpf_spec h0 h1 n p
  rw [osCritAt_row hK]
  show _ ≤ (k : ℝ) / n ↔ _
  rw [osRow_ge hn]
  constructor
  · exact fun h => ha.trans (osCdf_mono hp0 hp1 (by exact_mod_cast h))
  · intro h
    by_contra hc
    exact absurd (hb k (by omega)) (not_lt.2 h)

theorem osRej_lower (c : ℝ) (r : OSRow) :
    osRejected .oneSidedLower c r = true ↔ r.value ≤ osCritAt c r := by
  unfold osRejected rejected
  exact decide_eq_true_iff

theorem osRej_upper (c : ℝ) (r : OSRow) :
    osRejected .oneSidedUpper c r = true ↔ osCritAt (1 - c) r ≤ r.value := by
  unfold osRejected rejected
  exact decide_eq_true_iff

theorem osRej_two (c : ℝ) (r : OSRow) :
    osRejected .twoSided c r = true ↔
      r.value ≤ osCritAt (c / 2) r ∨ osCritAt (1 - c / 2) r ≤ r.value := by
  unfold osRejected rejected
  exact (Bool.or_eq_true _ _).to_iff.trans (or_congr decide_eq_true_iff decide_eq_true_iff)

/-- C160: the decision in terms of the binomial distribution with the effect size as probability:
the lower test rejects `k` successes exactly when fewer than `k` successes have probability below
alpha, the upper test exactly when at most `k` successes have probability at least `1 - alpha`, the
two-sided test when one of the two does so with half of alpha. -/
theorem C160_decision {c : ℝ} (h0 : 0 < c) (h1 : c < 1) {k n : Nat} (hn : 0 < n) {p : ℝ}
    (hp0 : 0 ≤ p) (hp1 : p ≤ 1) :
    (osRejected .oneSidedLower c (osRow k n p) = true ↔ ∀ j : Nat, j < k → osCdf n p j < c) ∧
    (osRejected .oneSidedUpper c (osRow k n p) = true ↔ 1 - c ≤ osCdf n p k) ∧
    (osRejected .twoSided c (osRow k n p) = true ↔
      (∀ j : Nat, j < k → osCdf n p j < c / 2) ∨ 1 - c / 2 ≤ osCdf n p k) := by
  refine ⟨?_, ?_, ?_⟩
  · rw [osRej_lower]
    exact os_lower_iff h0 h1 hn p
  · rw [osRej_upper]
    exact os_upper_iff (by linarith) (by linarith) hn hp0 hp1
  · rw [osRej_two, os_lower_iff (by linarith) (by linarith) hn p,
      os_upper_iff (by linarith) (by linarith) hn hp0 hp1]

theorem osCdf_two : osCdf 2 (1 / 2) (0 : Nat) = 1 / 4 ∧ osCdf 2 (1 / 2) (1 : Nat) = 3 / 4 := by
  constructor
  · rw [osCdf_nat 2 _ (by norm_num)]
    norm_num [Finset.sum_range_succ, osPmf]
  · rw [osCdf_nat 2 _ (by norm_num)]
    norm_num [Finset.sum_range_succ, osPmf, Nat.choose]

example : osRejected .oneSidedLower (1 / 5) (osRow 1 2 (1 / 2)) = false ∧
    osRejected .oneSidedLower (1 / 3) (osRow 1 2 (1 / 2)) = true := by
  constructor
  · rw [Bool.eq_false_iff]
    intro h
    have := ((C160_decision (by norm_num) (by norm_num) (by norm_num) (by norm_num)
      (by norm_num)).1.1 h) 0 (by norm_num)
    rw [osCdf_two.1] at this
    norm_num at this
  · refine (C160_decision (by norm_num) (by norm_num) (by norm_num) (by norm_num)
      (by norm_num)).1.2 fun j hj => ?_
    obtain rfl : j = 0 := by omega
    rw [osCdf_two.1]
    norm_num

/-- The probability that a row is rejected when the number of successes is binomial with the
hypothesised probability. -/
def osLevel (t : TestType) (c : ℝ) (n : Nat) (p : ℝ) : ℝ :=
  ∑ k ∈ (Finset.range (n + 1)).filter (fun k => osRejected t c (osRow k n p) = true), osPmf n p k

theorem osLower_mass {q : ℝ} (h0 : 0 < q) (h1 : q < 1) {n : Nat} {p : ℝ} {K : Nat}
    (hK : osPpf q n p = K) : q ≤ ∑ k ∈ Finset.range (K + 1), osPmf n p k := by
  obtain ⟨K', hle, hK', ha, _⟩ := osPpf_spec h0 h1 n p
  have : K' = K := by exact_mod_cast hK'.symm.trans hK
  subst this
  rwa [osCdf_nat n p hle] at ha

theorem osUpper_mass {q : ℝ} (h0 : 0 < q) (h1 : q < 1) {n : Nat} {p : ℝ} {K : Nat}
    (hK : osPpf q n p = K) : ∑ k ∈ Finset.range K, osPmf n p k < q := by
  obtain ⟨K', hle, hK', _, hb⟩ := osPpf_spec h0 h1 n p
  have : K' = K := by exact_mod_cast hK'.symm.trans hK
  subst this
  cases K' with
  | zero => simpa using h0
  | succ m =>
    have := hb m (by omega)
    rwa [osCdf_nat n p (by omega)] at this

/-- C160 is violated: under the hypothesis itself a row is rejected with probability at least alpha,
and strictly more than alpha for the upper and the two-sided test, whatever the sample size and the
effect size: alpha does not bound the false alarms. -/
theorem C160_level_violated {c : ℝ} (h0 : 0 < c) (h1 : c < 1) {n : Nat} (hn : 0 < n) {p : ℝ}
    (hp0 : 0 ≤ p) (hp1 : p ≤ 1) :
    c ≤ osLevel .oneSidedLower c n p ∧ c < osLevel .oneSidedUpper c n p ∧
      c < osLevel .twoSided c n p := by
  have key : ∀ (t : TestType) (S : Finset Nat),
      (∀ k ∈ Finset.range (n + 1), osRejected t c (osRow k n p) = false → k ∈ S) →
      1 - ∑ k ∈ S, osPmf n p k ≤ osLevel t c n p := by
    intro t S hS
    have hsplit := Finset.sum_filter_add_sum_filter_not (Finset.range (n + 1))
      (fun k => osRejected t c (osRow k n p) = true) (osPmf n p)
    rw [osPmf_sum] at hsplit
    have hle : ∑ k ∈ (Finset.range (n + 1)).filter
        (fun k => ¬ osRejected t c (osRow k n p) = true), osPmf n p k ≤ ∑ k ∈ S, osPmf n p k := by
      refine Finset.sum_le_sum_of_subset_of_nonneg ?_ fun i _ _ => osPmf_nonneg hp0 hp1 i
      intro k hk
      rw [Finset.mem_filter] at hk
      exact hS k hk.1 (by simpa using hk.2)
    unfold osLevel
    linarith
  have low : ∀ q : ℝ, 0 < q → q < 1 → ∃ K : Nat, K ≤ n ∧ osPpf q n p = K := fun q a b => by
    obtain ⟨K, hK, h, _⟩ := osPpf_spec a b n p
    exact ⟨K, hK, h⟩
  refine ⟨?_, ?_, ?_⟩
  · obtain ⟨K, hKn, hK⟩ := low c h0 h1
    refine (osLower_mass h0 h1 hK).trans ?_
    unfold osLevel
    refine Finset.sum_le_sum_of_subset_of_nonneg ?_ fun i _ _ => osPmf_nonneg hp0 hp1 i
    intro k hk
    rw [Finset.mem_range] at hk
    rw [Finset.mem_filter, Finset.mem_range]
    refine ⟨by omega, ?_⟩
    rw [osRej_lower, osCritAt_row hK]
    exact (osRow_le hn).2 (by omega)
  · obtain ⟨K, hKn, hK⟩ := low (1 - c) (by linarith) (by linarith)
    have hm := osUpper_mass (by linarith) (by linarith) hK
    have := key .oneSidedUpper (Finset.range K) (by
      intro k _ hk
      rw [Bool.eq_false_iff, Ne, osRej_upper, osCritAt_row hK] at hk
      rw [Finset.mem_range]
      by_contra hc
      exact hk ((osRow_ge hn).2 (by omega)))
    linarith
  · obtain ⟨K1, _, hK1⟩ := low (c / 2) (by linarith) (by linarith)
    obtain ⟨K2, _, hK2⟩ := low (1 - c / 2) (by linarith) (by linarith)
    have m1 := osLower_mass (by linarith) (by linarith) hK1
    have m2 := osUpper_mass (by linarith) (by linarith) hK2
    have hk := key .twoSided (Finset.Ico (K1 + 1) K2) (by
      intro k _ hk
      rw [Bool.eq_false_iff, Ne, osRej_two, osCritAt_row hK1, osCritAt_row hK2, not_or] at hk
      rw [Finset.mem_Ico]
      constructor
      · by_contra hc
        exact hk.1 ((osRow_le hn).2 (by omega))
      · by_contra hc
        exact hk.2 ((osRow_ge hn).2 (by omega)))
    by_cases hc : K1 + 1 ≤ K2
    · have := Finset.sum_range_add_sum_Ico (osPmf n p) hc
      linarith
    · rw [Finset.Ico_eq_empty (by omega), Finset.sum_empty] at hk
      linarith

example : (0 : ℝ) < 1 / 20 ∧ (1 / 20 : ℝ) < 1 ∧ 0 < 1000 ∧ (0 : ℝ) ≤ 1 / 2 ∧ (1 / 2 : ℝ) ≤ 1 := by
  norm_num

/-- C160 is violated: no successes at all are always rejected by the lower test, and successes only by
the upper test, even when the effect size says that nothing else can happen: with effect size 0 and
value 0 all three tests reject. -/
theorem C160_extreme_violated {c : ℝ} (h0 : 0 < c) (h1 : c < 1) {n : Nat} (hn : 0 < n) :
    (∀ p : ℝ, 0 ≤ p → p ≤ 1 → osRejected .oneSidedLower c (osRow 0 n p) = true ∧
      osRejected .oneSidedUpper c (osRow n n p) = true) ∧
    (∀ t, osRejected t c (osRow 0 n 0) = true) ∧ (∀ t, osRejected t c (osRow n n 1) = true) := by
  have hz : osCdf n 0 (0 : Nat) = 1 := by
    rw [osCdf_nat n _ (Nat.zero_le _)]
    simp [osPmf]
  have hone : ∀ j : Nat, j < n → osCdf n 1 j = 0 := by
    intro j hj
    rw [osCdf_nat n _ hj.le]
    refine Finset.sum_eq_zero fun i hi => ?_
    rw [Finset.mem_range] at hi
    unfold osPmf
    rw [sub_self, zero_pow (by omega), mul_zero]
  refine ⟨fun p a b => ?_, fun t => ?_, fun t => ?_⟩
  · obtain ⟨d1, _, _⟩ := C160_decision h0 h1 (k := 0) hn a b
    obtain ⟨_, d2, _⟩ := C160_decision h0 h1 (k := n) hn a b
    refine ⟨d1.2 fun j hj => absurd hj (Nat.not_lt_zero _), d2.2 ?_⟩
    rw [osCdf_top]
    linarith
  · obtain ⟨d1, d2, d3⟩ := C160_decision h0 h1 (k := 0) hn le_rfl zero_le_one
    cases t
    · exact d1.2 fun j hj => absurd hj (Nat.not_lt_zero _)
    · exact d2.2 (by rw [hz]; linarith)
    · exact d3.2 (Or.inl fun j hj => absurd hj (Nat.not_lt_zero _))
  · obtain ⟨d1, d2, d3⟩ := C160_decision h0 h1 (k := n) hn zero_le_one le_rfl
    cases t
    · exact d1.2 fun j hj => by rw [hone j hj]; exact h0
    · exact d2.2 (by rw [osCdf_top]; linarith)
    · exact d3.2 (Or.inr (by rw [osCdf_top]; linarith))

example : (0 : ℝ) < 1 / 20 ∧ (1 / 20 : ℝ) < 1 ∧ 0 < 1000 := by norm_num

/-- C160: the reported significance agrees with the decision of the upper test; for the lower test a
significance of at most alpha means rejection. -/
theorem C160_stat_sig_partial {c : ℝ} (h0 : 0 < c) (h1 : c < 1) {k n : Nat} (hn : 0 < n)
    (hk : k ≤ n) {p : ℝ} (hp0 : 0 < p) (hp1 : p < 1) :
    (osRejected .oneSidedUpper c (osRow k n p) = true ↔
      osStatSig .oneSidedUpper (osRow k n p) ≤ c) ∧
    (osStatSig .oneSidedLower (osRow k n p) ≤ c →
      osRejected .oneSidedLower c (osRow k n p) = true) ∧
    (osStatSig .twoSided (osRow k n p) ≤ c / 2 → osRejected .twoSided c (osRow k n p) = true) := by
  obtain ⟨d1, d2, d3⟩ := C160_decision h0 h1 (k := k) hn hp0.le hp1.le
  have hc : osStatSig .oneSidedLower (osRow k n p) = osCdf n p k := by
    simp only [osStatSig, osRow_k hn]
    simp [osRow]
  have hs : osStatSig .oneSidedUpper (osRow k n p) = 1 - osCdf n p k := by
    simp only [osStatSig, osRow_k hn, osSf]
    simp [osRow]
  have ht : osStatSig .twoSided (osRow k n p) = min (osCdf n p k) (1 - osCdf n p k) := by
    simp only [osStatSig, osRow_k hn, osSf]
    simp [osRow]
  rw [hc, hs, ht]
  refine ⟨?_, ?_, ?_⟩
  · rw [d2]
    constructor <;> intro h <;> linarith
  · exact fun h => d1.2 fun j hj => (osCdf_strict hp0 hp1 hj hk).trans_le h
  · intro h
    rcases min_le_iff.1 h with h | h
    · exact d3.2 (Or.inl fun j hj => (osCdf_strict hp0 hp1 hj hk).trans_le h)
    · exact d3.2 (Or.inr (by linarith))

example : (0 : ℝ) < 1 / 2 ∧ (1 / 2 : ℝ) < 1 ∧ 0 < 1000 ∧ 500 ≤ 1000 := by norm_num

/-- C160 is violated: the lower test rejects rows whose reported significance exceeds alpha, and the
upper test reports significance 0 for successes only, although this has a positive probability. -/
theorem C160_stat_sig_violated {c : ℝ} (h0 : 0 < c) (h1 : c < 1) :
    (∃ p : ℝ, 0 < p ∧ p < 1 ∧ osRejected .oneSidedLower c (osRow 0 1 p) = true ∧
      c < osStatSig .oneSidedLower (osRow 0 1 p)) ∧
    (∀ n : Nat, 0 < n → ∀ p : ℝ, 0 < p → p < 1 → osStatSig .oneSidedUpper (osRow n n p) = 0 ∧
      0 < osPmf n p n) := by
  constructor
  · refine ⟨(1 - c) / 2, by linarith, by linarith,
      ((C160_extreme_violated h0 h1 (n := 1) one_pos).1 _ (by linarith) (by linarith)).1, ?_⟩
    have : osStatSig .oneSidedLower (osRow 0 1 ((1 - c) / 2)) = osCdf 1 ((1 - c) / 2) (0 : Nat) := by
      simp only [osStatSig, osRow_k one_pos]
      simp [osRow]
    rw [this, osCdf_nat 1 _ (Nat.zero_le _)]
    simp only [zero_add, Finset.sum_range_one, osPmf, Nat.choose_zero_right, Nat.cast_one, pow_zero,
      Nat.sub_zero, pow_one, one_mul]
    linarith
  · intro n hn p a b
    refine ⟨?_, osPmf_pos a b le_rfl⟩
    simp only [osStatSig, osRow_k hn, osSf]
    have : (osRow n n p).count.toNat = n := by simp [osRow]
    rw [this]
    show 1 - osCdf n p n = 0
    rw [osCdf_top, sub_self]

example : (0 : ℝ) < 1 / 20 ∧ (1 / 20 : ℝ) < 1 := by norm_num

/-! ## C160: the confidence limits -/

/-- The probability of at least `k` successes. -/
def osTail (n k : Nat) (x : ℝ) : ℝ := 1 - ∑ i ∈ Finset.range k, osPmf n x i

/-- What `beta.ppf` does at whole numbers: `beta.cdf(x, k, n - k + 1)` is the probability of at least
`k` successes out of `n`. -/
def OSBetaOk (B : ℝ → ℝ → ℝ → ℝ) : Prop :=
  ∀ (q : ℝ) (n k : Nat), 0 < q → q < 1 → 1 ≤ k → k ≤ n →
    0 ≤ B q k ((n : ℝ) - k + 1) ∧ B q k ((n : ℝ) - k + 1) ≤ 1 ∧
      osTail n k (B q k ((n : ℝ) - k + 1)) = q

theorem osTail_solve {q : ℝ} (h0 : 0 < q) (h1 : q < 1) {n k : Nat} (hk : 1 ≤ k) (hkn : k ≤ n) :
    ∃ x, 0 ≤ x ∧ x ≤ 1 ∧ osTail n k x = q := by
  have hz : osTail n k 0 = 0 := by
    unfold osTail
    rw [Finset.sum_eq_single 0]
    · simp [osPmf]
    · intro i _ hi
      unfold osPmf
      rw [zero_pow hi]
      ring
    · intro h
      exact absurd (Finset.mem_range.2 hk) h
  have ho : osTail n k 1 = 1 := by
    unfold osTail
    rw [Finset.sum_eq_zero, sub_zero]
    intro i hi
    rw [Finset.mem_range] at hi
    unfold osPmf
    rw [sub_self, zero_pow (by omega), mul_zero]
  have hcont : ContinuousOn (osTail n k) (Set.Icc 0 1) := by
    apply Continuous.continuousOn
    unfold osTail osPmf
    fun_prop
  have := intermediate_value_Icc (zero_le_one' ℝ) hcont
  rw [hz, ho] at this
  obtain ⟨x, hx, hq⟩ := this ⟨h0.le, h1.le⟩
  exact ⟨x, hx.1, hx.2, hq⟩

/-- There is such a function. -/
theorem osBetaOk_exists : ∃ B, OSBetaOk B := by
  refine ⟨fun q a b => if h : ∃ x : ℝ, 0 ≤ x ∧ x ≤ 1 ∧ osTail ⌊a + b - 1⌋₊ ⌊a⌋₊ x = q then h.choose else 0,
    fun q n k h0 h1 hk hkn => ?_⟩
  have e1 : ⌊(k : ℝ) + ((n : ℝ) - k + 1) - 1⌋₊ = n := by
    rw [show (k : ℝ) + ((n : ℝ) - k + 1) - 1 = n by ring]
    exact Nat.floor_natCast n
  have h : ∃ x : ℝ, 0 ≤ x ∧ x ≤ 1 ∧
      osTail ⌊(k : ℝ) + ((n : ℝ) - k + 1) - 1⌋₊ ⌊(k : ℝ)⌋₊ x = q := by
    rw [e1, Nat.floor_natCast]
    exact osTail_solve h0 h1 hk hkn
  have hs := h.choose_spec
  show 0 ≤ dite _ _ _ ∧ dite _ _ _ ≤ 1 ∧ osTail n k (dite _ _ _) = q
  rw [dif_pos h]
  refine ⟨hs.1, hs.2.1, ?_⟩
  have := hs.2.2
  generalize h.choose = x at this ⊢
  rw [e1, Nat.floor_natCast] at this
  exact this

/-- C160: the limits are those of Clopper and Pearson at corrected alpha: the lower limit is the
probability at which at least `k` successes have probability alpha, the upper limit the one at which
at most `k` successes do. -/
theorem C160_band {B : ℝ → ℝ → ℝ → ℝ} (hB : OSBetaOk B) {c : ℝ} (h0 : 0 < c) (h1 : c < 1) {k n : Nat}
    (hn : 0 < n) (p : ℝ) (t : TestType) :
    (t ≠ .oneSidedLower → 1 ≤ k → k ≤ n → ∃ x, osLower B t c (osRow k n p) = some x ∧ 0 ≤ x ∧ x ≤ 1 ∧
      osTail n k x = c) ∧
    (t ≠ .oneSidedUpper → k < n → ∃ x, osUpper B t c (osRow k n p) = some x ∧ 0 ≤ x ∧ x ≤ 1 ∧
      osCdf n x k = c) ∧
    osLower B .oneSidedLower c (osRow k n p) = some 0 ∧
    osUpper B .oneSidedUpper c (osRow k n p) = some 1 := by
  have hcount : ((osRow k n p).count : ℝ) = n := by simp [osRow]
  refine ⟨fun ht hk hkn => ?_, fun ht hkn => ?_, rfl, rfl⟩
  · obtain ⟨a, b, d⟩ := hB c n k h0 h1 hk hkn
    refine ⟨B c k ((n : ℝ) - k + 1), ?_, a, b, d⟩
    have hk' : (0 : ℝ) < k := by exact_mod_cast hk
    have hkn' : (k : ℝ) ≤ n := by exact_mod_cast hkn
    have : osLower B t c (osRow k n p)
        = osBeta B c (osRow k n p).k (((osRow k n p).count : ℝ) - (osRow k n p).k + 1) := by
      cases t <;> first | rfl | exact absurd rfl ht
    rw [this, osRow_k hn, hcount, osBeta, if_pos ⟨hk', by linarith⟩]
  · obtain ⟨a, b, d⟩ := hB (1 - c) n (k + 1) (by linarith) (by linarith) (by omega) hkn
    have hkn' : (k : ℝ) < n := by exact_mod_cast hkn
    have e : (n : ℝ) - ((k + 1 : Nat) : ℝ) + 1 = n - k := by push_cast; ring
    rw [e] at a b d
    rw [Nat.cast_add, Nat.cast_one] at a b d
    refine ⟨B (1 - c) (k + 1) ((n : ℝ) - k), ?_, a, b, ?_⟩
    · have : osUpper B t c (osRow k n p)
          = osBeta B (1 - c) ((osRow k n p).k + 1) (((osRow k n p).count : ℝ) - (osRow k n p).k) := by
        cases t <;> first | rfl | exact absurd rfl ht
      have hk0 : (0 : ℝ) ≤ k := Nat.cast_nonneg k
      rw [this, osRow_k hn, hcount, osBeta, if_pos ⟨by linarith, by linarith⟩]
    · rw [osCdf_nat n _ hkn.le]
      unfold osTail at d
      linarith

example : (∃ B, OSBetaOk B) ∧ (0 : ℝ) < 1 / 20 ∧ (1 / 20 : ℝ) < 1 ∧ 1 ≤ 3 ∧ 3 < 10 :=
  ⟨osBetaOk_exists, by norm_num, by norm_num, by norm_num, by norm_num⟩

/-- C160 is violated: the two-sided band uses all of alpha on either side, while the two-sided
decision uses half of it; and the band has no number at the ends: no lower limit for no successes, no
upper limit for successes only. -/
theorem C160_band_violated {B : ℝ → ℝ → ℝ → ℝ} (hB : OSBetaOk B) {c : ℝ} (h0 : 0 < c) (h1 : c < 1)
    {n : Nat} (hn : 0 < n) (p : ℝ) :
    (∀ k : Nat, 1 ≤ k → k ≤ n → ∃ x, osLower B .twoSided c (osRow k n p) = some x ∧
      osTail n k x ≠ c / 2) ∧
    (∀ k : Nat, k < n → ∃ x, osUpper B .twoSided c (osRow k n p) = some x ∧ osCdf n x k ≠ c / 2) ∧
    osLower B .twoSided c (osRow 0 n p) = none ∧ osUpper B .twoSided c (osRow n n p) = none ∧
    osLower B .oneSidedUpper c (osRow 0 n p) = none ∧
    osUpper B .oneSidedLower c (osRow n n p) = none := by
  have hcount : ∀ k, ((osRow k n p).count : ℝ) = n := fun k => by simp [osRow]
  have lo : osBeta B c (osRow 0 n p).k (((osRow 0 n p).count : ℝ) - (osRow 0 n p).k + 1) = none := by
    rw [osRow_k hn, osBeta, if_neg]
    rintro ⟨h, _⟩
    simp at h
  have up : osBeta B (1 - c) ((osRow n n p).k + 1) (((osRow n n p).count : ℝ) - (osRow n n p).k)
      = none := by
    rw [osRow_k hn, hcount, osBeta, if_neg]
    rintro ⟨_, h⟩
    simp at h
  refine ⟨fun k hk hkn => ?_, fun k hkn => ?_, lo, up, lo, up⟩
  · obtain ⟨x, hx, _, _, hq⟩ := (C160_band hB h0 h1 hn p .twoSided).1 (by simp) hk hkn
    exact ⟨x, hx, by rw [hq]; linarith⟩
  · obtain ⟨x, hx, _, _, hq⟩ := (C160_band hB h0 h1 hn p .twoSided).2.1 (by simp) hkn
    exact ⟨x, hx, by rw [hq]; linarith⟩

example : (∃ B, OSBetaOk B) ∧ (0 : ℝ) < 1 / 20 ∧ (1 / 20 : ℝ) < 1 ∧ 0 < 10 :=
  ⟨osBetaOk_exists, by norm_num, by norm_num, by norm_num⟩

/-! ## C160: the whole call -/

theorem osFit_ok {B : ℝ → ℝ → ℝ → ℝ} {t : TestType} {s s' : IDState} {c : OSCall} {r : OSResult}
    (h : osFit B t s c = .ok (s', r)) :
    osValid c.data ∧ osHook c.rows ∧ ∃ d q ivs, correctAlpha s c.rows.length c.rTol = .ok (d, q) ∧
      osIntervals s t c q = .ok ivs ∧ idPredicted c.rows.length ivs.1 d = .ok r.predicted ∧
      s' = { s with duration := some d, corrected := some q, rejectIntervals := ivs.1,
                    failIntervals := ivs.2 } ∧
      r = osResult B t c q r.predicted := by
  unfold osFit at h
  split at h
  · cases h
  · rename_i hv
    cases hc : correctAlpha s c.rows.length c.rTol with
    | error e => rw [hc] at h; cases h
    | ok dc =>
      rw [hc] at h
      simp only [bind, Except.bind] at h
      split at h
      · cases h
      · rename_i hh
        cases hi : osIntervals s t c dc.2 with
        | error e => rw [hi] at h; cases h
        | ok ivs =>
          rw [hi] at h
          simp only [] at h
          cases hp : idPredicted c.rows.length ivs.1 dc.1 with
          | error e => rw [hp] at h; cases h
          | ok p =>
            rw [hp] at h
            simp only [pure, Except.pure] at h
            injection h with h
            injection h with h1 h2
            subst h1 h2
            exact ⟨not_not.1 hv, not_not.1 hh, dc.1, dc.2, ivs, rfl, hi, hp, rfl, rfl⟩

/-- C160: a successful call: a row is predicted anomalous exactly when it lies in a maximal run of
rejected rows at least as long as the duration; the scores are the values themselves, or the decisions
if masked; limits and significances are those of the single rows, the history before the data. -/
theorem C160_predictions {B : ℝ → ℝ → ℝ → ℝ} {t : TestType} {s s' : IDState} {c : OSCall} {r : OSResult}
    (h : osFit B t s c = .ok (s', r)) (hc : c.consolidate = true) :
    ∃ d q, s'.duration = some d ∧ s'.corrected = some q ∧ r.predicted.length = c.rows.length ∧
      (∀ i, r.predicted[i]? = some true ↔ ∃ a b,
        MaximalRun (c.rows.map (osRejected t q)) true a b ∧ a ≤ i ∧ i ≤ b ∧ d ≤ b - a + 1) ∧
      (c.maskScores = false → r.scores = c.rows.map fun x => x.value) ∧
      (c.maskScores = true → r.scores = c.rows.map fun x => if osRejected t q x then 1 else 0) ∧
      r.statSig = c.rows.map (osStatSig t) ∧ r.upper = c.rows.map (osUpper B t q) ∧
      r.lower = c.rows.map (osLower B t q) ∧ c.rows = c.history.getD [] ++ c.data := by
  obtain ⟨_, _, d, q, ivs, _, hi, hp, hs, hr⟩ := osFit_ok h
  unfold osIntervals at hi
  rw [if_pos hc] at hi
  dsimp only at hi
  cases ha : getIntervals .reject (c.rows.map fun r => r.time) c.padding
      (c.rows.map (osRejected t q)) with
  | error e => rw [ha] at hi; cases hi
  | ok A =>
    rw [ha] at hi
    cases hb : getIntervals .failToReject (c.rows.map fun r => r.time) c.padding
        (c.rows.map (osRejected t q)) with
    | error e => rw [hb] at hi; cases hi
    | ok A' =>
      rw [hb] at hi
      cases hi
      obtain ⟨pr, h1, h2, h3⟩ := C27_predictions ha d
      have hpr : pr = r.predicted := by
        rw [List.length_map] at h1
        have := h1.symm.trans hp
        injection this
      subst hpr
      refine ⟨d, q, by rw [hs], by rw [hs], by rw [h2, List.length_map], h3, ?_, ?_, ?_, ?_, ?_, ?_⟩
      · intro hm
        rw [hr]
        simp [osResult, hm]
      · intro hm
        rw [hr]
        simp [osResult, hm]
      · rw [hr]
        rfl
      · rw [hr]
        rfl
      · rw [hr]
        rfl
      · unfold OSCall.rows
        cases c.history <;> rfl

/-- C160: rows in order with valid data and proportions everywhere are accepted, whatever the counts
and variances in the history. -/
theorem C160_accepted (B : ℝ → ℝ → ℝ → ℝ) (t : TestType) (s : IDState) (c : OSCall) {d : Nat} {q : ℝ}
    (hv : osValid c.data) (hh : osHook c.rows)
    (hc : correctAlpha s c.rows.length c.rTol = .ok (d, q)) (hne : c.rows ≠ [])
    (hp : 0 < c.padding) (hs : (c.rows.map fun r => r.time).Pairwise (· ≤ ·))
    (hcon : c.consolidate = true) :
    ∃ x, osFit B t s c = .ok x := by
  obtain ⟨A, hA⟩ := C27_intervals_exist .reject (time := c.rows.map fun r => r.time)
    (mask := c.rows.map (osRejected t q)) (by simpa using hne) hp (by simp) hs
  obtain ⟨A', hA'⟩ := C27_intervals_exist .failToReject (time := c.rows.map fun r => r.time)
    (mask := c.rows.map (osRejected t q)) (by simpa using hne) hp (by simp) hs
  obtain ⟨pr, h1, _⟩ := C27_predictions hA d
  rw [List.length_map] at h1
  have hi : osIntervals s t c q = .ok (some A, some A') := by
    unfold osIntervals
    rw [if_pos hcon]
    dsimp only
    rw [hA, hA']
    rfl
  have hpr : idPredicted c.rows.length (some A) d = .ok pr := h1
  unfold osFit
  rw [if_neg (not_not.2 hv), hc]
  simp only [bind, Except.bind, if_neg (not_not.2 hh), hi, hpr]
  exact ⟨_, rfl⟩

example : ∃ (s : IDState) (c : OSCall), osValid c.data ∧ osHook c.rows ∧
    correctAlpha s c.rows.length c.rTol = .ok (2, 1 / 16) ∧ c.rows ≠ [] ∧ 0 < c.padding ∧
    (c.rows.map fun r => r.time).Pairwise (· ≤ ·) ∧ c.consolidate = true := by
  refine ⟨{ alpha := 1 / 4, duration := none },
    { data := [⟨0, 1 / 2, 1, 1000, 1 / 2⟩, ⟨60, 1 / 4, 1, 1000, 1 / 2⟩] }, ?_, ?_, auto_quarter, ?_, ?_,
    ?_, rfl⟩
  · simp [osValid]
  · simp only [osHook, OSCall.rows, List.mem_cons, List.not_mem_nil, or_false, forall_eq_or_imp,
      forall_eq]
    norm_num
  · simp [OSCall.rows]
  · norm_num
  · simp [OSCall.rows]

/-- C160: the variance column is required but has no influence: changing it, as long as it stays
non-negative, changes nothing.  (The code passes the effect size as the variance.) -/
theorem C160_variance (B : ℝ → ℝ → ℝ → ℝ) (t : TestType) (s : IDState) (c : OSCall) (f : OSRow → ℝ)
    (hf : ∀ r, 0 ≤ f r) (hc : ∀ r ∈ c.data, 0 ≤ r.variance) :
    osFit B t s { c with
      data := c.data.map fun r => { r with variance := f r },
      history := c.history.map fun h => h.map fun r => { r with variance := f r } } = osFit B t s c := by
  set g : OSRow → OSRow := fun r => { r with variance := f r } with hg
  set c' : OSCall := { c with data := c.data.map g, history := c.history.map fun h => h.map g } with hc'
  have hrows : c'.rows = c.rows.map g := by
    unfold OSCall.rows
    rw [hc']
    cases c.history <;> simp
  have hvalid : osValid c'.data ↔ osValid c.data := by
    unfold osValid
    rw [hc']
    constructor
    · exact fun h r hr => ⟨(h (g r) (List.mem_map_of_mem hr)).1, hc r hr⟩
    · intro h r hr
      obtain ⟨r', hr', rfl⟩ := List.mem_map.1 hr
      exact ⟨(h r' hr').1, hf r'⟩
  have hhook : osHook c'.rows ↔ osHook c.rows := by
    unfold osHook
    rw [hrows]
    constructor
    · exact fun h r hr => h (g r) (List.mem_map_of_mem hr)
    · intro h r hr
      obtain ⟨r', hr', rfl⟩ := List.mem_map.1 hr
      exact h r' hr'
  have hmap : ∀ {A : Type} (φ : OSRow → A), (∀ r, φ (g r) = φ r) → c'.rows.map φ = c.rows.map φ := by
    intro A φ h
    rw [hrows, List.map_map]
    exact List.map_congr_left fun r _ => h r
  have hiv : ∀ q, osIntervals s t c' q = osIntervals s t c q := by
    intro q
    unfold osIntervals
    rw [hmap (fun r => r.time) fun _ => rfl, hmap (osRejected t q) fun _ => rfl]
  have hres : ∀ q p, osResult B t c' q p = osResult B t c q p := by
    intro q p
    unfold osResult
    rw [hmap (fun r => if osRejected t q r then (1 : ℝ) else 0) fun _ => rfl,
      hmap (fun r => r.value) fun _ => rfl, hmap (osUpper B t q) fun _ => rfl,
      hmap (osLower B t q) fun _ => rfl, hmap (osStatSig t) fun _ => rfl]
  have hlen : c'.rows.length = c.rows.length := by rw [hrows, List.length_map]
  show osFit B t s c' = osFit B t s c
  unfold osFit
  simp only [hvalid, hhook, hiv, hres, hlen]
  rfl

example : ∃ (c : OSCall), (∀ r ∈ c.data, 0 ≤ r.variance) ∧ c.data ≠ [] :=
  ⟨{ data := [⟨0, 1 / 2, 1, 1000, 1 / 2⟩] }, by simp, by simp⟩

/-- C160: data with a count that is not positive or a negative variance are refused, and so are values
or effect sizes that are not proportions; the history is only checked for proportions. -/
theorem C160_refused (B : ℝ → ℝ → ℝ → ℝ) (t : TestType) (s : IDState) (c : OSCall) :
    ((∃ r ∈ c.data, r.count ≤ 0 ∨ r.variance < 0) → osFit B t s c = .error .valueError) ∧
    ((∃ r ∈ c.rows, r.value < 0 ∨ 1 < r.value ∨ r.effect < 0 ∨ 1 < r.effect) →
      ∀ x, osFit B t s c ≠ .ok x) := by
  constructor
  · rintro ⟨r, hr, h⟩
    unfold osFit
    rw [if_pos]
    intro hv
    obtain ⟨a, b⟩ := hv r hr
    rcases h with h | h
    · omega
    · linarith
  · rintro ⟨r, hr, h⟩ ⟨s', x⟩ hx
    obtain ⟨_, hh, _⟩ := osFit_ok hx
    obtain ⟨a, b, d, e⟩ := hh r hr
    rcases h with h | h | h | h <;> linarith

example : ∃ r : OSRow, r.count ≤ 0 := ⟨⟨0, 0, 0, 0, 0⟩, le_rfl⟩

end

end Kats
