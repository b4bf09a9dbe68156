import Verif.Model.RunProb
import Verif.Spec.RunProb
import Mathlib.Tactic.Ring
import Mathlib.Tactic.Linarith
import Mathlib.Tactic.FieldSimp
import Mathlib.Data.Fin.Tuple.Basic
import Mathlib.Logic.Equiv.Fin.Basic

/-!
# Helper lemmas: run probability
-/

namespace Kats

section
variable {K : Type} [Field K]

/-- Weight of the outcomes of `n` tests which, after `k` rejections, contain a run of `m`. -/
def runF (m : Nat) (p : K) (n k : Nat) : K :=
  ∑ x : Fin n → Bool,
    if List.replicate m true <:+: List.replicate k true ++ List.ofFn x then
      ∏ i, (if x i = true then p else 1 - p) else 0

theorem runF_zero (m : Nat) (p : K) (n : Nat) : runF m p n 0 = exactRunProb p n m := by
  simp [runF, exactRunProb]

theorem sum_cons {n : Nat} (f : (Fin (n + 1) → Bool) → K) :
    ∑ x, f x = ∑ y : Fin n → Bool, f (Fin.cons true y) + ∑ y : Fin n → Bool, f (Fin.cons false y) := by
  rw [← (Fin.consEquiv (fun _ : Fin (n + 1) => Bool)).sum_comp, Fintype.sum_prod_type]
  simp [Fin.consEquiv, Fintype.sum_bool]

theorem infix_false {m k : Nat} (h : k < m) (l : List Bool) :
    List.replicate m true <:+: List.replicate k true ++ false :: l ↔
      List.replicate m true <:+: l := by
  induction k with
  | zero =>
    simp only [List.replicate_zero, List.nil_append, List.infix_cons_iff]
    constructor
    · rintro (h' | h')
      · exfalso
        obtain ⟨m', rfl⟩ : ∃ m', m = m' + 1 := ⟨m - 1, by omega⟩
        rw [List.replicate_succ, List.cons_prefix_cons] at h'
        exact absurd h'.1 (by simp)
      · exact h'
    · exact Or.inr
  | succ k ih =>
    rw [List.replicate_succ, List.cons_append, List.infix_cons_iff, ih (by omega)]
    constructor
    · rintro (h' | h')
      · exfalso
        have hh := h'.getElem (i := k + 1) (by simpa using h)
        simp [List.getElem_cons, List.getElem_append] at hh
      · exact h'
    · exact Or.inr

theorem runF_succ {m k : Nat} (hk : k < m) (p : K) (n : Nat) :
    runF m p (n + 1) k = p * runF m p n (k + 1) + (1 - p) * runF m p n 0 := by
  unfold runF
  rw [sum_cons, Finset.mul_sum, Finset.mul_sum]
  congr 1
  · apply Finset.sum_congr rfl
    intro y _
    have e : List.replicate k true ++ List.ofFn (Fin.cons true y : Fin (n + 1) → Bool)
        = List.replicate (k + 1) true ++ List.ofFn y := by
      rw [List.ofFn_succ, List.replicate_succ']
      simp
    rw [e]
    split
    · rw [Fin.prod_univ_succ]; simp
    · simp
  · apply Finset.sum_congr rfl
    intro y _
    have e : (List.replicate m true <:+:
        List.replicate k true ++ List.ofFn (Fin.cons false y : Fin (n + 1) → Bool))
        ↔ List.replicate m true <:+: List.replicate 0 true ++ List.ofFn y := by
      rw [List.ofFn_succ]
      simpa using infix_false hk (List.ofFn y)
    by_cases h : List.replicate m true <:+: List.replicate 0 true ++ List.ofFn y
    · rw [if_pos h, if_pos (e.2 h), Fin.prod_univ_succ]; simp
    · rw [if_neg h, if_neg (fun h' => h (e.1 h'))]; simp

theorem weight_total (p : K) (n : Nat) :
    ∑ x : Fin n → Bool, ∏ i, (if x i = true then p else 1 - p) = 1 := by
  induction n with
  | zero => simp
  | succ n ih =>
    rw [sum_cons]
    simp only [Fin.prod_univ_succ, Fin.cons_zero, Fin.cons_succ, ← Finset.mul_sum, ih]
    simp

theorem runF_ge {m k : Nat} (hk : m ≤ k) (p : K) (n : Nat) : runF m p n k = 1 := by
  rw [← weight_total p n]
  unfold runF
  apply Finset.sum_congr rfl
  intro x _
  rw [if_pos]
  obtain ⟨d, rfl⟩ := Nat.exists_eq_add_of_le hk
  refine ⟨[], List.replicate d true ++ List.ofFn x, ?_⟩
  simp [← List.append_assoc, List.replicate_append_replicate]

theorem runF_short {m k n : Nat} (h : n + k < m) (p : K) : runF m p n k = 0 := by
  unfold runF
  apply Finset.sum_eq_zero
  intro x _
  rw [if_neg]
  intro h'
  have := h'.length_le
  simp at this
  omega

/-- Decomposition at the first non-rejection. -/
theorem runF_rec (m : Nat) (p : K) (d : Nat) : ∀ (n k : Nat), k + d = m → d ≤ n →
    runF m p n k = ∑ j ∈ Finset.range d, p ^ j * (1 - p) * runF m p (n - 1 - j) 0 + p ^ d := by
  induction d with
  | zero => intro n k hk _; rw [runF_ge (by omega)]; simp
  | succ d ih =>
    intro n k hk hn
    obtain ⟨n', rfl⟩ : ∃ n', n = n' + 1 := ⟨n - 1, by omega⟩
    rw [runF_succ (by omega), ih n' (k + 1) (by omega) (by omega), Finset.sum_range_succ', mul_add,
      Finset.mul_sum]
    have : ∀ j ∈ Finset.range d, p * (p ^ j * (1 - p) * runF m p (n' - 1 - j) 0)
        = p ^ (j + 1) * (1 - p) * runF m p (n' + 1 - 1 - (j + 1)) 0 := by
      intro j _
      rw [show n' + 1 - 1 - (j + 1) = n' - 1 - j by omega]; ring
    rw [Finset.sum_congr rfl this]
    simp only [pow_zero, one_mul, Nat.add_sub_cancel, Nat.sub_zero]
    ring

theorem exact_rec {m n : Nat} (h : m ≤ n) (p : K) :
    exactRunProb p n m
      = ∑ j ∈ Finset.range m, p ^ j * (1 - p) * exactRunProb p (n - 1 - j) m + p ^ m := by
  have := runF_rec m p m n 0 (by omega) h
  simpa only [runF_zero] using this

theorem exact_short {m n : Nat} (h : n < m) (p : K) : exactRunProb p n m = 0 := by
  rw [← runF_zero, runF_short (by omega)]

theorem wIndependent_getD_lt {m i : Nat} (h : i < m) (p : K) :
    (wIndependent m p).getD i 0 = p ^ i * (1 - p) := by
  unfold wIndependent
  have hlen : i < (List.zipWith (· * ·) ((List.range (m + 1)).map fun i => p ^ i)
      (List.replicate m (1 - p) ++ [1])).length := by simp; omega
  rw [List.getD, List.getElem?_eq_getElem hlen]
  simp [List.getElem_append, h]

theorem wIndependent_getD_last (m : Nat) (p : K) : (wIndependent m p).getD m 0 = p ^ m := by
  unfold wIndependent
  have hlen : m < (List.zipWith (· * ·) ((List.range (m + 1)).map fun i => p ^ i)
      (List.replicate m (1 - p) ++ [1])).length := by simp
  rw [List.getD, List.getElem?_eq_getElem hlen]
  simp

/-- The state vector of the matrix iteration. -/
theorem companion_state {m : Nat} (hm : 1 ≤ m) (p : K) (t : Nat) : ∀ j : Fin (m + 1),
    Matrix.vecMul (fun i : Fin (m + 1) => if i.val = m then 1 else 0)
      (companion m (wIndependent m p) ^ t) j
      = if j.val = m then 1 else exactRunProb p (m + t - 1 - j.val) m := by
  induction t with
  | zero =>
    intro j
    simp only [pow_zero, Matrix.vecMul_one]
    have := j.isLt
    split
    · rfl
    · rw [exact_short (by omega)]
  | succ t ih =>
    intro j
    rw [pow_succ, ← Matrix.vecMul_vecMul, Matrix.vecMul, dotProduct, Fin.sum_univ_castSucc]
    simp only [ih]
    have hj := j.isLt
    by_cases hjm : j.val = m
    · rw [Finset.sum_eq_zero]
      · simp [companion, hjm]
      · intro i _
        have hi := i.isLt
        have h1 : ¬ (i.val = m) := by omega
        have h2 : ¬ (m = 0) := by omega
        by_cases h3 : i.val + 1 = m
        · simp [companion, hjm, h1, h2, h3]
        · have h4 : ¬ (m = i.val + 1) := fun h => h3 h.symm
          simp [companion, hjm, h1, h2, h3, h4]
    · by_cases hj0 : j.val = 0
      · have h2 : ¬ (0 = m) := by omega
        rw [if_neg hjm, exact_rec (n := m + (t + 1) - 1 - j.val) (by omega), Finset.sum_range]
        congr 1
        · apply Finset.sum_congr rfl
          intro i _
          have hi := i.isLt
          have h1 : ¬ (i.val = m) := by omega
          simp only [companion, Fin.val_castSucc, hj0, h1, h2, false_and, and_false, if_false, if_true,
            wIndependent_getD_lt hi]
          rw [show m + (t + 1) - 1 - 0 - 1 - i.val = m + t - 1 - i.val by omega]
          exact mul_comm _ _
        · simp only [companion, hj0, Fin.val_last, h2, and_false, if_false, if_true,
            wIndependent_getD_last, one_mul]
      · obtain ⟨j', hj'⟩ : ∃ j', j.val = j' + 1 := ⟨j.val - 1, by omega⟩
        rw [Finset.sum_eq_single (⟨j', by omega⟩ : Fin m)]
        · have h1 : ¬ (j' = m) := by omega
          have h2 : ¬ (j' + 1 = m) := by omega
          simp only [companion, Fin.val_castSucc, Fin.val_last, hj', h1, h2, and_false, if_false,
            Nat.succ_ne_zero, if_true, mul_one]
          rw [show m + (t + 1) - 1 - (j' + 1) = m + t - 1 - j' by omega]
          simp [h1]
        · intro i _ hne
          have : ¬ (j.val = i.val + 1) := by
            intro h; apply hne; ext; simp; omega
          simp [companion, hjm, hj0, this]
        · simp

theorem vecSolve_eq {m n : Nat} (hm : 1 ≤ m) (hn : m ≤ n) (p : K) :
    vecSolve m (wIndependent m p) n = exactRunProb p n m := by
  unfold vecSolve
  rw [companion_state hm]
  rw [if_neg (by simp; omega)]
  congr 1
  simp
  omega

theorem runProb_ok {m n : Nat} (hm : 1 ≤ m) (hn : m ≤ n) (p : K) :
    runProb p n m = .ok (exactRunProb p n m) := by
  unfold runProb
  rw [if_neg (by omega), if_neg (by omega), if_neg (by omega), vecSolve_eq hm hn]

variable [LinearOrder K] [IsStrictOrderedRing K]

theorem runF_nonneg {p : K} (h0 : 0 ≤ p) (h1 : p ≤ 1) (m n k : Nat) : 0 ≤ runF m p n k := by
  unfold runF
  apply Finset.sum_nonneg
  intro x _
  split
  · apply Finset.prod_nonneg
    intro i _
    split <;> linarith
  · exact le_rfl

theorem runF_le_one {p : K} (h0 : 0 ≤ p) (h1 : p ≤ 1) (m n k : Nat) : runF m p n k ≤ 1 := by
  rw [← weight_total p n]
  unfold runF
  apply Finset.sum_le_sum
  intro x _
  split
  · exact le_rfl
  · apply Finset.prod_nonneg
    intro i _
    split <;> linarith

/-- A longer current run only helps. -/
theorem runF_mono_k {p : K} (h0 : 0 ≤ p) (h1 : p ≤ 1) (m n : Nat) : ∀ k,
    runF m p n k ≤ runF m p n (k + 1) := by
  induction n with
  | zero =>
    intro k
    by_cases h : m ≤ k
    · rw [runF_ge h, runF_ge (by omega)]
    · rw [runF_short (by omega)]; exact runF_nonneg h0 h1 _ _ _
  | succ n ih =>
    intro k
    by_cases h : m ≤ k
    · rw [runF_ge h, runF_ge (by omega)]
    · by_cases h' : m ≤ k + 1
      · rw [runF_ge h']; exact runF_le_one h0 h1 _ _ _
      · rw [runF_succ (by omega), runF_succ (by omega)]
        have := mul_le_mul_of_nonneg_left (ih (k + 1)) h0
        linarith

theorem runF_zero_le {p : K} (h0 : 0 ≤ p) (h1 : p ≤ 1) (m n k : Nat) :
    runF m p n 0 ≤ runF m p n k := by
  induction k with
  | zero => exact le_rfl
  | succ k ih => exact ih.trans (runF_mono_k h0 h1 m n k)

/-- The run probability does not decrease with the rejection probability. -/
theorem runF_mono_p {p q : K} (h0 : 0 ≤ p) (hpq : p ≤ q) (h1 : q ≤ 1) (m n : Nat) : ∀ k,
    runF m p n k ≤ runF m q n k := by
  induction n with
  | zero => intro k; simp [runF]
  | succ n ih =>
    intro k
    by_cases h : m ≤ k
    · rw [runF_ge h, runF_ge h]
    · rw [runF_succ (by omega), runF_succ (by omega)]
      have a1 := mul_le_mul_of_nonneg_left (ih (k + 1)) h0
      have a2 := mul_le_mul_of_nonneg_left (ih 0) (by linarith : 0 ≤ 1 - p)
      have a3 := mul_le_mul_of_nonneg_left (runF_zero_le (h0.trans hpq) h1 m n (k + 1))
        (by linarith : 0 ≤ q - p)
      nlinarith

/-- Lipschitz bound in the rejection probability. -/
theorem runF_lip {p q : K} (h0 : 0 ≤ p) (hpq : p ≤ q) (h1 : q ≤ 1) (m n : Nat) : ∀ k,
    runF m q n k - runF m p n k ≤ n * (q - p) := by
  induction n with
  | zero => intro k; simp [runF]
  | succ n ih =>
    intro k
    by_cases h : m ≤ k
    · rw [runF_ge h, runF_ge h]
      have : (0 : K) ≤ ((n + 1 : Nat) : K) * (q - p) :=
        mul_nonneg (Nat.cast_nonneg _) (by linarith)
      linarith
    · rw [runF_succ (by omega), runF_succ (by omega)]
      have a1 := mul_le_mul_of_nonneg_left (ih (k + 1)) h0
      have a2 := mul_le_mul_of_nonneg_left (ih 0) (by linarith : 0 ≤ 1 - p)
      have b1 := runF_le_one (h0.trans hpq) h1 m n (k + 1)
      have b2 := runF_nonneg (h0.trans hpq) h1 m n 0
      have a3 : (q - p) * (runF m q n (k + 1) - runF m q n 0) ≤ (q - p) * 1 :=
        mul_le_mul_of_nonneg_left (by linarith) (by linarith)
      push_cast
      nlinarith

theorem exact_nonneg {p : K} (h0 : 0 ≤ p) (h1 : p ≤ 1) (n m : Nat) : 0 ≤ exactRunProb p n m := by
  rw [← runF_zero]; exact runF_nonneg h0 h1 _ _ _

theorem exact_le_one {p : K} (h0 : 0 ≤ p) (h1 : p ≤ 1) (n m : Nat) : exactRunProb p n m ≤ 1 := by
  rw [← runF_zero]; exact runF_le_one h0 h1 _ _ _

theorem exact_mono_p {p q : K} (h0 : 0 ≤ p) (hpq : p ≤ q) (h1 : q ≤ 1) (n m : Nat) :
    exactRunProb p n m ≤ exactRunProb q n m := by
  rw [← runF_zero, ← runF_zero]; exact runF_mono_p h0 hpq h1 _ _ _

theorem exact_lip {p q : K} (h0 : 0 ≤ p) (hpq : p ≤ q) (h1 : q ≤ 1) (n m : Nat) :
    exactRunProb q n m - exactRunProb p n m ≤ n * (q - p) := by
  rw [← runF_zero, ← runF_zero]; exact runF_lip h0 hpq h1 _ _ _

omit [LinearOrder K] [IsStrictOrderedRing K] in
theorem exact_full {m : Nat} (p : K) : exactRunProb p m m = p ^ m := by
  rw [exact_rec le_rfl, Finset.sum_eq_zero, zero_add]
  intro j hj
  rw [exact_short (by rw [Finset.mem_range] at hj; omega), mul_zero]

/-- More tests only help. -/
theorem exact_mono_n {p : K} (h0 : 0 ≤ p) (h1 : p ≤ 1) (m n : Nat) :
    exactRunProb p n m ≤ exactRunProb p (n + 1) m := by
  by_cases hm : m = 0
  · subst hm
    rw [← runF_zero, ← runF_zero, runF_ge (le_refl 0), runF_ge (le_refl 0)]
  · rw [← runF_zero, ← runF_zero, runF_succ (by omega)]
    have := mul_le_mul_of_nonneg_left (runF_zero_le h0 h1 m n 1) h0
    linarith

theorem exact_mono_n' {p : K} (h0 : 0 ≤ p) (h1 : p ≤ 1) (m : Nat) {a b : Nat} (h : a ≤ b) :
    exactRunProb p a m ≤ exactRunProb p b m := by
  induction b, h using Nat.le_induction with
  | base => exact le_rfl
  | succ b _ ih => exact ih.trans (exact_mono_n h0 h1 m b)

omit [LinearOrder K] [IsStrictOrderedRing K] in
theorem geom_weights (p : K) (m : Nat) :
    ∑ j ∈ Finset.range m, p ^ j * (1 - p) = 1 - p ^ m := by
  induction m with
  | zero => simp
  | succ m ih => rw [Finset.sum_range_succ, ih]; ring

/-- Union bound. -/
theorem exact_union {p : K} (h0 : 0 ≤ p) (h1 : p ≤ 1) (m : Nat) (n : Nat) (hm : 1 ≤ m) :
    exactRunProb p n m ≤ n * p ^ m := by
  have hpm : 0 ≤ p ^ m := pow_nonneg h0 m
  induction n with
  | zero => rw [exact_short (by omega)]; simp
  | succ n ih =>
    by_cases h : n + 1 < m
    · rw [exact_short h]; exact mul_nonneg (Nat.cast_nonneg _) hpm
    · rw [exact_rec (by omega)]
      have hb : ∑ j ∈ Finset.range m, p ^ j * (1 - p) * exactRunProb p (n + 1 - 1 - j) m
          ≤ ∑ j ∈ Finset.range m, p ^ j * (1 - p) * exactRunProb p n m := by
        apply Finset.sum_le_sum
        intro j _
        exact mul_le_mul_of_nonneg_left (exact_mono_n' h0 h1 m (by omega))
          (mul_nonneg (pow_nonneg h0 _) (by linarith))
      rw [← Finset.sum_mul, geom_weights] at hb
      have hx := exact_nonneg h0 h1 n m
      have := mul_nonneg hpm hx
      rw [Nat.cast_succ]
      linarith

/-- Disjoint blocks. -/
theorem exact_blocks {p : K} (h0 : 0 ≤ p) (h1 : p ≤ 1) (m : Nat) (hm : 1 ≤ m) (q : Nat) :
    1 - (1 - p ^ m) ^ q ≤ exactRunProb p (q * m) m := by
  have hpm1 : p ^ m ≤ 1 := pow_le_one₀ h0 h1
  induction q with
  | zero => simp; exact exact_nonneg h0 h1 _ _
  | succ q ih =>
    rw [exact_rec (by nlinarith)]
    have hb : ∑ j ∈ Finset.range m, p ^ j * (1 - p) * exactRunProb p (q * m) m
        ≤ ∑ j ∈ Finset.range m, p ^ j * (1 - p) * exactRunProb p ((q + 1) * m - 1 - j) m := by
      apply Finset.sum_le_sum
      intro j hj
      rw [Finset.mem_range] at hj
      exact mul_le_mul_of_nonneg_left (exact_mono_n' h0 h1 m (by
        rw [Nat.add_mul, one_mul]; omega))
        (mul_nonneg (pow_nonneg h0 _) (by linarith))
    rw [← Finset.sum_mul, geom_weights] at hb
    have := mul_le_mul_of_nonneg_left ih (by linarith : 0 ≤ 1 - p ^ m)
    rw [pow_succ]
    nlinarith

end

end Kats
