import Verif.Props.RunCov
import Verif.Lemmas.RunProb

/-!
# Properties of the probability of runs with a covariance
-/

namespace Kats

open Finset

variable {K : Type} [Field K]

/-- The recursion that the powers of the matrix solve, with weights `f` and last weight `c`. -/
def rcG (f : ℕ → K) (c : K) (m n : ℕ) : K :=
  if h : n < m ∨ m = 0 then 0 else ∑ i : Fin m, f i * rcG f c m (n - 1 - i) + c
termination_by n
decreasing_by omega

theorem rcG_short (f : ℕ → K) (c : K) {m n : ℕ} (h : n < m) : rcG f c m n = 0 := by
  rw [rcG, dif_pos (Or.inl h)]

theorem rcG_rec (f : ℕ → K) (c : K) {m n : ℕ} (hm : 1 ≤ m) (h : m ≤ n) :
    rcG f c m n = ∑ i : Fin m, f i * rcG f c m (n - 1 - i) + c := by
  rw [rcG, dif_neg (by omega)]

theorem rcState {m : ℕ} (hm : 1 ≤ m) (f : ℕ → K) (c : K) (t : ℕ) : ∀ j : Fin (m + 1),
    Matrix.vecMul (fun i : Fin (m + 1) => if i.val = m then 1 else 0)
      (companion m ((List.range m).map f ++ [c]) ^ t) j
      = if j.val = m then 1 else rcG f c m (m + t - 1 - j.val) := by
  have hlt : ∀ i, i < m → ((List.range m).map f ++ [c]).getD i 0 = f i := by
    intro i hi
    simp [List.getD, List.getElem?_append, hi]
  have hlast : ((List.range m).map f ++ [c]).getD m 0 = c := by
    simp [List.getD, List.getElem?_append]
  induction t with
  | zero =>
    intro j
    simp only [pow_zero, Matrix.vecMul_one]
    have := j.isLt
    split
    · rfl
    · rw [rcG_short _ _ (by omega)]
  | succ t ih =>
    intro j
    rw [pow_succ, ← Matrix.vecMul_vecMul, Matrix.vecMul, dotProduct, Fin.sum_univ_castSucc]
    simp only [ih]
    have hj := j.isLt
    by_cases hjm : j.val = m
    · rw [Finset.sum_eq_zero]
      · simp [companion, hjm]
      · intro i _
        have hi := i.isLt
        have h1 : ¬ (i.val = m) := by omega
        have h2 : ¬ (m = 0) := by omega
        by_cases h3 : i.val + 1 = m
        · simp [companion, hjm, h1, h2, h3]
        · have h4 : ¬ (m = i.val + 1) := fun h => h3 h.symm
          simp [companion, hjm, h1, h2, h3, h4]
    · by_cases hj0 : j.val = 0
      · have h2 : ¬ (0 = m) := by omega
        rw [if_neg hjm, rcG_rec (n := m + (t + 1) - 1 - j.val) f c hm (by omega)]
        congr 1
        · apply Finset.sum_congr rfl
          intro i _
          have hi := i.isLt
          have h1 : ¬ (i.val = m) := by omega
          simp only [companion, Fin.val_castSucc, hj0, h1, h2, false_and, and_false, if_false, if_true, hlt _ hi]
          rw [show m + (t + 1) - 1 - 0 - 1 - i.val = m + t - 1 - i.val by omega]
          exact mul_comm _ _
        · simp only [companion, hj0, Fin.val_last, h2, and_false, if_false, if_true, hlast, one_mul]
      · obtain ⟨j', hj'⟩ : ∃ j', j.val = j' + 1 := ⟨j.val - 1, by omega⟩
        rw [Finset.sum_eq_single (⟨j', by omega⟩ : Fin m)]
        · have h1 : ¬ (j' = m) := by omega
          have h2 : ¬ (j' + 1 = m) := by omega
          simp only [companion, Fin.val_castSucc, Fin.val_last, hj', h1, h2, and_false, if_false,
            Nat.succ_ne_zero, if_true, mul_one]
          rw [show m + (t + 1) - 1 - (j' + 1) = m + t - 1 - j' by omega]
          simp [h1]
        · intro i _ hne
          have : ¬ (j.val = i.val + 1) := by
            intro h; apply hne; ext; simp; omega
          simp [companion, hjm, hj0, this]
        · simp

theorem rcSolve {m n : ℕ} (hm : 1 ≤ m) (hn : m ≤ n) (f : ℕ → K) (c : K) :
    vecSolve m ((List.range m).map f ++ [c]) n = rcG f c m n := by
  unfold vecSolve
  rw [rcState hm, if_neg (by simp; omega)]
  congr 1
  simp
  omega

variable [LinearOrder K]

theorem rcRunProb_ok (cov : Option (ℕ → List (RcIv K) → K)) (side : Option Bool) (ppf : K → K) (p : K) {n m : ℕ}
    (hm : 1 ≤ m) (hn : m ≤ n) : rcRunProb cov side ppf p n m = .ok (vecSolve m (rcW cov side ppf m p) n) := by
  unfold rcRunProb
  rw [if_neg (by omega), if_neg (by omega), if_neg (by omega)]

/-- C173: runs of no test, and runs longer than the number of tests, are refused. -/
theorem C173_rejects (cov : Option (ℕ → List (RcIv K) → K)) (side : Option Bool) (ppf : K → K) (p : K) {n m : ℕ}
    (h : m = 0 ∨ n < m) : rcRunProb cov side ppf p n m = .error .valueError := by
  unfold rcRunProb
  split_ifs <;> first | rfl | omega

example : rcRunProb (some fun _ _ => (1 : ℚ)) none id (1 / 20) 2 3 = .error .valueError :=
  C173_rejects _ _ _ _ (Or.inr (by norm_num))

variable [IsStrictOrderedRing K]

theorem rcG_nonneg {f : ℕ → K} {c : K} (hf : ∀ i, 0 ≤ f i) (hc : 0 ≤ c) (m n : ℕ) : 0 ≤ rcG f c m n := by
  induction n using Nat.strong_induction_on with
  | _ n ih =>
    rw [rcG]
    split_ifs with h
    · exact le_rfl
    · exact add_nonneg (sum_nonneg fun i _ => mul_nonneg (hf i) (ih _ (by omega))) hc

theorem rcG_mono {f : ℕ → K} {c : K} (hf : ∀ i, 0 ≤ f i) (hc : 0 ≤ c) {m : ℕ} (hm : 1 ≤ m) (n : ℕ) :
    rcG f c m n ≤ rcG f c m (n + 1) := by
  induction n using Nat.strong_induction_on with
  | _ n ih =>
    by_cases h : n < m
    · rw [rcG_short f c h]
      exact rcG_nonneg hf hc _ _
    · rw [rcG_rec f c hm (by omega : m ≤ n), rcG_rec f c hm (by omega : m ≤ n + 1)]
      refine add_le_add (sum_le_sum fun i _ => mul_le_mul_of_nonneg_left ?_ (hf i)) le_rfl
      have hi := i.isLt
      have := ih (n - 1 - i) (by omega)
      rwa [show n - 1 - i + 1 = n + 1 - 1 - i by omega] at this

theorem rcG_le_one {f : ℕ → K} {c : K} (hf : ∀ i, 0 ≤ f i) {m : ℕ} (hs : ∑ i ∈ range m, f i + c = 1) (n : ℕ) :
    rcG f c m n ≤ 1 := by
  induction n using Nat.strong_induction_on with
  | _ n ih =>
    rw [rcG]
    split_ifs with h
    · exact zero_le_one
    · rw [← hs, Finset.sum_range]
      exact add_le_add (sum_le_sum fun i _ => mul_le_of_le_one_right (hf i) (ih _ (by omega))) le_rfl

theorem rcG_step {f : ℕ → K} {c : K} (hf : ∀ i, 0 ≤ f i) (hc : 0 ≤ c) {m : ℕ} (hm : 1 ≤ m)
    (hs : ∑ i ∈ range m, f i + c = 1) {n : ℕ} (hn : m ≤ n) : rcG f c m n ≤ rcG f c m (n - 1) + c := by
  rw [rcG_rec f c hm hn]
  refine add_le_add ?_ le_rfl
  have hmono : Monotone (rcG f c m) := monotone_nat_of_le_succ (rcG_mono hf hc hm)
  calc ∑ i : Fin m, f i * rcG f c m (n - 1 - i) ≤ ∑ i : Fin m, f i * rcG f c m (n - 1) :=
        sum_le_sum fun i _ => mul_le_mul_of_nonneg_left (hmono (by omega)) (hf i)
    _ = (∑ i ∈ range m, f i) * rcG f c m (n - 1) := by rw [← sum_mul, Finset.sum_range]
    _ ≤ 1 * rcG f c m (n - 1) := mul_le_mul_of_nonneg_right (by linarith) (rcG_nonneg hf hc _ _)
    _ = _ := one_mul _

theorem rcG_union {f : ℕ → K} {c : K} (hf : ∀ i, 0 ≤ f i) (hc : 0 ≤ c) {m : ℕ} (hm : 1 ≤ m)
    (hs : ∑ i ∈ range m, f i + c = 1) (k : ℕ) : rcG f c m (m + k) ≤ ((k : K) + 1) * c := by
  induction k with
  | zero =>
    have := rcG_step hf hc hm hs (n := m + 0) (by omega)
    rw [rcG_short f c (by omega : m + 0 - 1 < m)] at this
    simpa using this
  | succ k ih =>
    have := rcG_step hf hc hm hs (n := m + (k + 1)) (by omega)
    rw [show m + (k + 1) - 1 = m + k by omega] at this
    push_cast
    linarith

/-- C173: for independent statistics with a symmetric distribution the probability with the covariance is the exact
probability of a run, and it is the one without. -/
theorem C173_independent (F ppf : K → K) (hF : ∀ x, F (-x) = 1 - F x) (p : K) (side : Option Bool)
    (hq : F (ppf (RcQ side p)) = RcQ side p) {n m : ℕ} (hm : 1 ≤ m) (hn : m ≤ n) :
    rcRunProb (some fun i l => RcProd (fun iv _ => RcF F iv) i l) side ppf p n m = .ok (exactRunProb p n m) ∧
    rcRunProb none side ppf p n m = .ok (exactRunProb p n m) := by
  have h : rcRunProb none side ppf p n m = .ok (exactRunProb p n m) := by
    rw [rcRunProb_ok _ _ _ _ hm hn]
    exact congrArg _ (vecSolve_eq hm hn p)
  refine ⟨?_, h⟩
  rw [← h, rcRunProb_ok _ _ _ _ hm hn, rcRunProb_ok _ _ _ _ hm hn,
    (C172_independent F ppf hF p side hq m).1]

theorem rcP_nonneg {I : Type} (S : Finset I) {wt : I → K} (hw : ∀ w ∈ S, 0 ≤ wt w) (E : I → Prop) :
    0 ≤ RcP S wt E := by
  classical
  unfold RcP
  refine sum_nonneg fun w h => mul_nonneg (hw w h) ?_
  split_ifs <;> norm_num

/-- C173: for every joint law, with exactly as many tests as the run is long the probability is the one that all are
rejected. If runs are as probable at every place, it lies between this one and one, grows with the number of tests, and
is at most the sum over the places where a run can start. -/
theorem C173_bounds_partial {I : Type} (S : Finset I) (wt : I → K) (hw : ∀ w ∈ S, 0 ≤ wt w) (h1 : ∑ w ∈ S, wt w = 1)
    (X : I → ℕ → K) (side : Option Bool) (ppf : K → K) (p z : K) (hp : ppf (RcQ side p) = z) (hz : 0 < z)
    (ht : ∀ w ∈ S, ∀ t, |X w t| ≠ z) {m : ℕ} (hm : 1 ≤ m)
    (hs : ∀ j < m, RcP S wt (fun w => ∀ t < j, RcReject side z (X w (m - 1 - j + t))) =
      RcP S wt (fun w => ∀ t < j, RcReject side z (X w (m - j + t)))) :
    ∃ g : ℕ → K, (∀ n, m ≤ n → rcRunProb (some (RcBox S wt X)) side ppf p n m = .ok (g n)) ∧
      g m = RcP S wt (fun w => ∀ t < m, RcReject side z (X w t)) ∧ Monotone g ∧ (∀ n, g n ≤ 1) ∧
      ∀ k : ℕ, g (m + k) ≤ ((k : K) + 1) * g m := by
  have hlaw := C172_law S wt X side ppf p z hp hz ht m
  have hsum := C172_sum S wt X side ppf p z hp hz ht m hs
  set f : ℕ → K := fun j => RcP S wt fun w =>
    (∀ t < j, RcReject side z (X w (m - 1 - j + t))) ∧ ¬ RcReject side z (X w (m - 1)) with hfdef
  set c : K := RcP S wt fun w => ∀ t < m, RcReject side z (X w t) with hcdef
  have hf : ∀ i, 0 ≤ f i := fun i => rcP_nonneg S hw _
  have hc : 0 ≤ c := rcP_nonneg S hw _
  rw [hlaw, List.sum_append, List.sum_singleton, rcSumRange, h1] at hsum
  have hgm : rcG f c m m = c := by
    rw [rcG_rec f c hm le_rfl, sum_eq_zero, zero_add]
    intro i _
    rw [rcG_short f c (by omega), mul_zero]
  refine ⟨rcG f c m, fun n hn => ?_, hgm, monotone_nat_of_le_succ (rcG_mono hf hc hm), rcG_le_one hf hsum,
    fun k => ?_⟩
  · rw [rcRunProb_ok _ _ _ _ hm hn, hlaw, rcSolve hm hn]
  · rw [hgm]
    exact rcG_union hf hc hm hsum k

/-- Two outcomes with the same statistic at all times: all hypotheses hold. -/
example : ∃ g : ℕ → ℚ, (∀ n, 2 ≤ n → rcRunProb (some (RcBox (range 2) (fun w => if w = 0 then (1 / 3 : ℚ) else 2 / 3)
    (fun w _ => if w = 0 then -5 else 1))) none (fun _ => 2) (1 / 20) n 2 = .ok (g n)) ∧ Monotone g := by
  obtain ⟨g, h1, _, h3, _⟩ := C173_bounds_partial (range 2) (fun w => if w = 0 then (1 / 3 : ℚ) else 2 / 3)
    (by intro w _; split_ifs <;> norm_num) (by norm_num [sum_range_succ]) (fun w _ => if w = 0 then -5 else 1) none
    (fun _ => 2) (1 / 20) 2 rfl (by norm_num) (by
      intro w _ t
      by_cases h : w = 0 <;> simp [h]) (m := 2) (by norm_num) (by intro j hj; rfl)
  exact ⟨g, h1, h3⟩

/-- C173: for statistics that depend on each other the result is not the probability of a run: of two statistics that
are always equal, one is rejected with probability one third, but the result is five ninths. -/
theorem C173_exact_violated : ∃ (S : Finset ℕ) (wt : ℕ → ℚ) (X : ℕ → ℕ → ℚ),
    (∀ w ∈ S, 0 < wt w) ∧ ∑ w ∈ S, wt w = 1 ∧ (∀ w ∈ S, ∀ s t, X w s = X w t) ∧
    RcP S wt (fun w => ∃ t < 2, RcReject none 2 (X w t)) = 1 / 3 ∧
    rcRunProb (some (RcBox S wt X)) none (fun _ => 2) (1 / 3) 2 1 = .ok (5 / 9) := by
  refine ⟨range 2, fun w => if w = 0 then 1 / 3 else 2 / 3, fun w _ => if w = 0 then 5 else 1, ?_, ?_, ?_, ?_, ?_⟩
  · intro w _
    dsimp only
    split_ifs <;> norm_num
  · norm_num [sum_range_succ]
  · intros; rfl
  · have h : ∃ t : ℕ, t ≤ 1 := ⟨0, by norm_num⟩
    norm_num [RcP, RcReject, sum_range_succ, h]
  · rw [rcRunProb_ok _ _ _ _ le_rfl (by norm_num), C172_law (range 2) _ _ none (fun _ => 2) (1 / 3) 2 rfl (by norm_num) (by
      intro w _ t
      by_cases h : w = 0 <;> simp [h]), rcSolve le_rfl (by norm_num), rcG_rec _ _ le_rfl (by norm_num),
      Fin.sum_univ_one, rcG_rec _ _ le_rfl (by norm_num), Fin.sum_univ_one, rcG_short _ _ (by norm_num)]
    norm_num [RcP, RcReject, sum_range_succ]

end Kats
