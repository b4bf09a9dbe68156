import Mathlib.Algebra.BigOperators.Field
import Verif.Model.BayesVar
import Verif.Lemmas.LeastSquares
import Verif.Props.Heuristic
import Mathlib.Logic.Equiv.Fin.Basic

/-!
# C121: the Bayesian vector autoregression of `kats/models/bayesian_var.py`
-/

namespace Kats

open Classical Matrix

/-! ### The quadratic form -/

theorem dot_conj {ι κ : Type} [Fintype ι] [Fintype κ] (Z : Matrix κ ι ℝ) (S : Matrix κ κ ℝ) (u v : ι → ℝ) :
    u ⬝ᵥ ((Zᵀ * S * Z) *ᵥ v) = (Z *ᵥ u) ⬝ᵥ (S *ᵥ (Z *ᵥ v)) := by
  rw [← mulVec_mulVec, ← mulVec_mulVec, dotProduct_mulVec, vecMul_transpose]

theorem dot_cross {ι κ : Type} [Fintype ι] [Fintype κ] (Z : Matrix κ ι ℝ) (S : Matrix κ κ ℝ) (u : ι → ℝ) (y : κ → ℝ) :
    u ⬝ᵥ ((Zᵀ * S) *ᵥ y) = (Z *ᵥ u) ⬝ᵥ (S *ᵥ y) := by
  rw [← mulVec_mulVec, dotProduct_mulVec, vecMul_transpose]

/-- The solution of the normal equations with a prior: completing the square. -/
theorem ridge_square {ι κ : Type} [Fintype ι] [Fintype κ] [DecidableEq ι] (w mu0 mu : ι → ℝ) (S : Matrix κ κ ℝ) (hS : Sᵀ = S) (n : Nat)
    (Z : Nat → Matrix κ ι ℝ) (y : Nat → κ → ℝ)
    (h : (Matrix.diagonal w + ∑ s ∈ Finset.range n, (Z s)ᵀ * S * Z s) *ᵥ mu
      = Matrix.diagonal w *ᵥ mu0 + ∑ s ∈ Finset.range n, ((Z s)ᵀ * S) *ᵥ y s) (nu : ι → ℝ) :
    (∑ i, w i * (nu i - mu0 i) ^ 2) + ∑ s ∈ Finset.range n, (y s - Z s *ᵥ nu) ⬝ᵥ (S *ᵥ (y s - Z s *ᵥ nu))
      = ((∑ i, w i * (mu i - mu0 i) ^ 2) + ∑ s ∈ Finset.range n, (y s - Z s *ᵥ mu) ⬝ᵥ (S *ᵥ (y s - Z s *ᵥ mu)))
        + ((∑ i, w i * (nu i - mu i) ^ 2) + ∑ s ∈ Finset.range n, (Z s *ᵥ (nu - mu)) ⬝ᵥ (S *ᵥ (Z s *ᵥ (nu - mu)))) := by
  obtain ⟨d, hd⟩ : ∃ d, d = nu - mu := ⟨_, rfl⟩
  have hnu : nu = mu + d := by rw [hd]; simp
  have h1 := congrArg (fun v => d ⬝ᵥ v) h
  simp only [add_mulVec, sum_mulVec, dotProduct_add, dotProduct_sum, dot_conj, dot_cross] at h1
  have e1 : ∀ v : ι → ℝ, d ⬝ᵥ (Matrix.diagonal w *ᵥ v) = ∑ i, w i * (d i * v i) := by
    intro v
    simp only [dotProduct, mulVec_diagonal]
    exact Finset.sum_congr rfl fun i _ => by ring
  rw [e1, e1] at h1
  have hsym : ∀ u v : κ → ℝ, u ⬝ᵥ (S *ᵥ v) = v ⬝ᵥ (S *ᵥ u) := by
    intro u v
    rw [dotProduct_mulVec, ← mulVec_transpose, hS, dotProduct_comm]
  have e2 : ∑ i, w i * (nu i - mu0 i) ^ 2 = ∑ i, w i * (mu i - mu0 i) ^ 2 + ∑ i, w i * (nu i - mu i) ^ 2
      + 2 * (∑ i, w i * (d i * mu i) - ∑ i, w i * (d i * mu0 i)) := by
    rw [← Finset.sum_sub_distrib, Finset.mul_sum, ← Finset.sum_add_distrib, ← Finset.sum_add_distrib]
    refine Finset.sum_congr rfl fun i _ => ?_
    rw [hnu, Pi.add_apply]
    ring
  have e3 : ∀ s, (y s - Z s *ᵥ nu) ⬝ᵥ (S *ᵥ (y s - Z s *ᵥ nu))
      = (y s - Z s *ᵥ mu) ⬝ᵥ (S *ᵥ (y s - Z s *ᵥ mu)) + (Z s *ᵥ d) ⬝ᵥ (S *ᵥ (Z s *ᵥ d))
        + 2 * ((Z s *ᵥ d) ⬝ᵥ (S *ᵥ (Z s *ᵥ mu)) - (Z s *ᵥ d) ⬝ᵥ (S *ᵥ y s)) := by
    intro s
    rw [hnu, mulVec_add]
    simp only [sub_dotProduct, dotProduct_sub, add_dotProduct, dotProduct_add, mulVec_sub, mulVec_add]
    rw [hsym (y s) (Z s *ᵥ d), hsym (Z s *ᵥ mu) (Z s *ᵥ d)]
    ring
  rw [e2, ← hd, Finset.sum_congr rfl fun s _ => e3 s, Finset.sum_add_distrib, Finset.sum_add_distrib, ← Finset.mul_sum,
    Finset.sum_sub_distrib]
  linarith

/-! ### The regressors -/

/-- The place of lag `l + 1` of column `j`. -/
def lagIx {m p : Nat} (j : Fin m) (l : Fin p) : Fin (bvarN m p) :=
  ⟨j.val * p + l.val, by
    have h1 := j.isLt
    have h2 := l.isLt
    have h3 : (j.val + 1) * p ≤ m * p := Nat.mul_le_mul_right p h1
    rw [Nat.succ_mul] at h3
    show _ < m * p + 1 + 1
    omega⟩

/-- The place of the time. -/
def timeIx (m p : Nat) : Fin (bvarN m p) := ⟨m * p, by show _ < m * p + 1 + 1; omega⟩

/-- The place of the constant. -/
def constIx (m p : Nat) : Fin (bvarN m p) := ⟨m * p + 1, by show _ < m * p + 1 + 1; omega⟩

theorem sum_places {m p : Nat} (g : Fin (bvarN m p) → ℝ) :
    ∑ k, g k = ∑ j : Fin m, ∑ l : Fin p, g (lagIx j l) + g (timeIx m p) + g (constIx m p) := by
  rw [Fin.sum_univ_castSucc, Fin.sum_univ_castSucc]
  congr 1
  congr 1
  rw [← Fintype.sum_prod_type']
  refine (Fintype.sum_equiv finProdFinEquiv _ _ ?_).symm
  rintro ⟨j, l⟩
  congr 1
  apply Fin.ext
  simp only [lagIx, finProdFinEquiv, Equiv.coe_fn_mk, Fin.val_castSucc]
  ring

theorem bvarZ_lag {m p : Nat} (x : ℝ) (rows : List (Fin m → ℝ)) (t : Nat) (j : Fin m) (l : Fin p) :
    bvarZ p x rows t (lagIx j l) = rowAt rows (t - 1 - l.val) j := by
  have h2 := l.isLt
  have hp : 0 < p := by omega
  have h3 : (j.val + 1) * p ≤ m * p := Nat.mul_le_mul_right p j.isLt
  rw [Nat.succ_mul] at h3
  unfold bvarZ
  rw [dif_pos (show (lagIx j l).val < m * p by show j.val * p + l.val < m * p; omega)]
  have e1 : (lagIx j l).val % p = l.val := by
    show (j.val * p + l.val) % p = l.val
    rw [Nat.mul_comm, Nat.mul_add_mod, Nat.mod_eq_of_lt h2]
  have e2 : (lagIx j l).val / p = j.val := by
    show (j.val * p + l.val) / p = j.val
    rw [Nat.mul_comm, Nat.mul_add_div hp, Nat.div_eq_of_lt h2, Nat.add_zero]
  rw [e1]
  congr 1
  exact Fin.ext e2

theorem bvarZ_time {m p : Nat} (x : ℝ) (rows : List (Fin m → ℝ)) (t : Nat) : bvarZ p x rows t (timeIx m p) = x := by
  simp [bvarZ, timeIx]

theorem bvarZ_const {m p : Nat} (x : ℝ) (rows : List (Fin m → ℝ)) (t : Nat) : bvarZ p x rows t (constIx m p) = 1 := by
  simp [bvarZ, constIx]

/-- What coefficients `mu` expect for column `i` at time `t`, from the rows before `t` and the time regressor `x`. -/
noncomputable def varMean {m p : Nat} (mu : BvarIx m p → ℝ) (row : Nat → Fin m → ℝ) (x : ℝ) (t : Nat) (i : Fin m) : ℝ :=
  ∑ j : Fin m, ∑ l : Fin p, mu (i, lagIx j l) * row (t - 1 - l.val) j + mu (i, timeIx m p) * x + mu (i, constIx m p)

theorem varMean_eq {m p : Nat} (mu : BvarIx m p → ℝ) (x : ℝ) (rows : List (Fin m → ℝ)) (t : Nat) (i : Fin m) :
    varMean mu (rowAt rows) x t i = ∑ k, bvarZ p x rows t k * mu (i, k) := by
  rw [sum_places, bvarZ_time, bvarZ_const]
  unfold varMean
  simp only [bvarZ_lag]
  rw [one_mul, mul_comm x]
  congr 2
  exact Finset.sum_congr rfl fun j _ => Finset.sum_congr rfl fun l _ => mul_comm _ _

theorem bvarStep_eq {m p : Nat} (mu : BvarIx m p → ℝ) (x : ℝ) (rows : List (Fin m → ℝ)) (t : Nat) (i : Fin m) :
    bvarStep mu x rows t i = varMean mu (rowAt rows) x t i := by
  rw [varMean_eq]
  show ∑ q : BvarIx m p, (if i = q.1 then bvarZ p x rows t q.2 else 0) * mu q = _
  rw [Fintype.sum_prod_type, Finset.sum_eq_single i]
  · simp
  · intro b _ hb
    apply Finset.sum_eq_zero
    intro k _
    rw [if_neg (fun h => hb h.symm), zero_mul]
  · intro h; exact absurd (Finset.mem_univ i) h

theorem npInv_ok {ι : Type} [Fintype ι] [DecidableEq ι] {A B : Matrix ι ι ℝ} (h : npInv A = .ok B) : A.det ≠ 0 ∧ B = A⁻¹ := by
  unfold npInv at h
  split_ifs at h with h1
  exact ⟨h1, (Except.ok.inj h).symm⟩

/-! ### The covariance -/

/-- Residuals of coefficients over the times from `p` on. -/
noncomputable def varResid {m p : Nat} (mu : BvarIx m p → ℝ) (rows : List (Fin m → ℝ)) (s : Nat) (i : Fin m) : ℝ :=
  rowAt rows (p + s) i - varMean mu (rowAt rows) ((p + s : Nat) : ℝ) (p + s) i

/-- C121, the covariance: `sigma_ols` comes from the least squares autoregression, each column on `p` lags of all columns,
the time and a constant.  Its entries are the sums of products of residuals over `T - m p - 1`, and it needs more than
`m p + 1` rows. -/
theorem C121_sigma {m : Nat} (p : Nat) (rows : List (Fin m → ℝ)) (sigma : Matrix (Fin m) (Fin m) ℝ)
    (h : bvarSigma p rows = .ok sigma) :
    m * p + 1 < rows.length ∧ ∃ beta : BvarIx m p → ℝ,
      (∀ (i : Fin m) (beta' : BvarIx m p → ℝ), ∑ s ∈ Finset.range (rows.length - p), varResid beta rows s i ^ 2
        ≤ ∑ s ∈ Finset.range (rows.length - p), varResid beta' rows s i ^ 2)
      ∧ ∀ i j, sigma i j = (∑ s ∈ Finset.range (rows.length - p), varResid beta rows s i * varResid beta rows s j)
          / ((rows.length : ℝ) - m * p - 1) := by
  unfold bvarSigma at h
  by_cases h0 : rows.length < p
  · rw [if_pos h0] at h; cases h
  rw [if_neg h0] at h
  simp only [bind, Except.bind] at h
  cases hG : npInv (bvarXols p rows * (bvarXols p rows)ᵀ) with
  | error e => rw [hG] at h; cases h
  | ok G =>
    rw [hG] at h
    simp only at h
    by_cases h1 : rows.length > m * p + 1
    swap
    · rw [if_neg h1] at h; cases h
    · rw [if_pos h1] at h
      obtain ⟨hdet, hGe⟩ := npInv_ok hG
      obtain ⟨X, hX⟩ : ∃ X, X = bvarXols p rows := ⟨_, rfl⟩
      obtain ⟨Y, hY⟩ : ∃ Y, Y = bvarYsuf p rows := ⟨_, rfl⟩
      rw [← hX] at hdet hGe h
      rw [← hY] at h
      have hGt : Gᵀ = G := by
        rw [hGe, transpose_nonsing_inv, transpose_mul, transpose_transpose]
      have hXG : X * Xᵀ * G = 1 := by
        rw [hGe, mul_nonsing_inv _ (isUnit_iff_ne_zero.2 hdet)]
      obtain ⟨B, hB⟩ : ∃ B, B = Y * Xᵀ * G := ⟨_, rfl⟩
      rw [← hB] at h
      have hres : ∀ (mu : BvarIx m p → ℝ) (i : Fin m) (s : Fin (rows.length - p)),
          varResid mu rows s.val i = Y i s - (Xᵀ *ᵥ fun k => mu (i, k)) s := by
        intro mu i s
        unfold varResid
        rw [varMean_eq, hY, hX]
        rfl
      have hbx : ∀ i s, (Y - B * X) i s = varResid (fun q : BvarIx m p => B q.1 q.2) rows s.val i := by
        intro i s
        rw [hres, Matrix.sub_apply, Matrix.mul_apply]
        congr 1
        exact Finset.sum_congr rfl fun k _ => mul_comm _ _
      have hnorm : ∀ i, (Xᵀ)ᵀ *ᵥ (Xᵀ *ᵥ (fun k => B i k)) = (Xᵀ)ᵀ *ᵥ (Y i) := by
        intro i
        have hb : (fun k => B i k) = G *ᵥ (X *ᵥ Y i) := by
          funext k
          have : B = (G * (X * Yᵀ))ᵀ := by
            rw [hB, transpose_mul, transpose_mul, transpose_transpose, hGt, Matrix.mul_assoc]
          rw [this, transpose_apply, ← Matrix.mul_assoc, mulVec_mulVec]
          rfl
        rw [transpose_transpose, hb, mulVec_mulVec, mulVec_mulVec, hXG, one_mulVec]
      refine ⟨h1, fun q => B q.1 q.2, ?_, ?_⟩
      · intro i beta'
        rw [Finset.sum_range, Finset.sum_range]
        have hp := normal_pythagoras Xᵀ (Y i) (fun k => B i k) (fun k => beta' (i, k)) (hnorm i)
        simp only [hres]
        rw [hp]
        exact le_add_of_nonneg_right (Finset.sum_nonneg fun s _ => sq_nonneg _)
      · intro i j
        injection h with h
        rw [← h, Matrix.smul_apply, Matrix.mul_apply, smul_eq_mul, Finset.sum_range, one_div, inv_mul_eq_div]
        congr 1
        refine Finset.sum_congr rfl fun s _ => ?_
        rw [transpose_apply, hbx, hbx]

theorem sigma_psd {m : Nat} (p : Nat) (rows : List (Fin m → ℝ)) (sigma : Matrix (Fin m) (Fin m) ℝ)
    (h : bvarSigma p rows = .ok sigma) : sigma.PosSemidef := by
  obtain ⟨h1, beta, -, h3⟩ := C121_sigma p rows sigma h
  have hpos : (0 : ℝ) < (rows.length : ℝ) - m * p - 1 := by
    have : ((m * p + 1 : Nat) : ℝ) < (rows.length : ℝ) := by exact_mod_cast h1
    push_cast at this
    linarith
  obtain ⟨E, hE⟩ : ∃ E : Matrix (Fin (rows.length - p)) (Fin m) ℝ, E = fun s i => varResid beta rows s.val i := ⟨_, rfl⟩
  have e : sigma = ((rows.length : ℝ) - m * p - 1)⁻¹ • (Eᵀ * E) := by
    ext i j
    rw [h3, Matrix.smul_apply, Matrix.mul_apply, smul_eq_mul, inv_mul_eq_div, Finset.sum_range, hE]
    rfl
  have hp := posSemidef_conjTranspose_mul_self E
  rw [conjTranspose_eq_transpose_of_trivial] at hp
  rw [e]
  exact hp.smul (inv_nonneg.2 hpos.le)

/-! ### The prior -/

/-- The variance of a column (over its length). -/
noncomputable def popVar (l : List ℝ) : ℝ := (l.map fun x => (x - l.sum / l.length) ^ 2).sum / l.length

theorem bvarVariance_eq {m : Nat} (rows : List (Fin m → ℝ)) (i : Fin m) :
    bvarVariance rows i = popVar (rows.map fun r => r i) := by
  unfold bvarVariance popVar
  rw [List.length_map, List.map_map]
  rfl

theorem bvarPriorVar_lag {m p : Nat} (q : BvarParams) (rows : List (Fin m → ℝ)) (i j : Fin m) (l : Fin p) :
    bvarPriorVar p q rows (i, lagIx j l) = if i = j then q.phi0 / ((l.val + 1 : Nat) : ℝ) ^ q.phi3
      else q.phi0 * q.phi1 / ((l.val + 1 : Nat) : ℝ) ^ q.phi3
        * (popVar (rows.map fun r => r j) / popVar (rows.map fun r => r i)) := by
  have h2 := l.isLt
  have hp : 0 < p := by omega
  have h3 : (j.val + 1) * p ≤ m * p := Nat.mul_le_mul_right p j.isLt
  rw [Nat.succ_mul] at h3
  unfold bvarPriorVar
  rw [dif_pos (show (lagIx j l).val < m * p by show j.val * p + l.val < m * p; omega)]
  have e1 : (lagIx j l).val % p = l.val := by
    show (j.val * p + l.val) % p = l.val
    rw [Nat.mul_comm, Nat.mul_add_mod, Nat.mod_eq_of_lt h2]
  have e2 : (lagIx j l).val / p = j.val := by
    show (j.val * p + l.val) / p = j.val
    rw [Nat.mul_comm, Nat.mul_add_div hp, Nat.div_eq_of_lt h2, Nat.add_zero]
  have e3 : ∀ hh, (⟨(lagIx j l).val / p, hh⟩ : Fin m) = j := fun hh => Fin.ext e2
  rw [e3, e1]
  unfold bvarLagVar
  rw [bvarVariance_eq, bvarVariance_eq]
  split_ifs
  · rfl
  · rw [mul_div_assoc]

theorem bvarPriorVar_time {m p : Nat} (q : BvarParams) (rows : List (Fin m → ℝ)) (i : Fin m) :
    bvarPriorVar p q rows (i, timeIx m p) = q.phi0 * q.phi2 := by simp [bvarPriorVar, timeIx]

theorem bvarPriorVar_const {m p : Nat} (q : BvarParams) (rows : List (Fin m → ℝ)) (i : Fin m) :
    bvarPriorVar p q rows (i, constIx m p) = q.phi0 * q.phi2 := by simp [bvarPriorVar, constIx]

theorem bvarPriorMean_lag {m p : Nat} (i j : Fin m) (l : Fin p) :
    bvarPriorMean (i, lagIx j l) = if j = i ∧ l.val = 0 then 1 else 0 := by
  unfold bvarPriorMean
  congr 1
  apply propext
  show j.val * p + l.val = p * i.val ↔ _
  have h2 := l.isLt
  have hp : 0 < p := by omega
  constructor
  · intro h
    have e1 : (j.val * p + l.val) % p = l.val := by rw [Nat.mul_comm, Nat.mul_add_mod, Nat.mod_eq_of_lt h2]
    rw [h, Nat.mul_mod_right] at e1
    refine ⟨Fin.ext ?_, e1.symm⟩
    rw [← e1, Nat.add_zero, Nat.mul_comm] at h
    exact Nat.eq_of_mul_eq_mul_left hp h
  · rintro ⟨rfl, h⟩
    rw [h, Nat.mul_comm]
    rfl

theorem bvarPriorMean_time {m p : Nat} (hp : 0 < p) (i : Fin m) : bvarPriorMean (i, timeIx m p) = 0 := by
  unfold bvarPriorMean
  rw [if_neg]
  show ¬ m * p = p * i.val
  intro h
  rw [Nat.mul_comm] at h
  have := Nat.eq_of_mul_eq_mul_left hp h
  have := i.isLt
  omega

theorem bvarPriorMean_const {m p : Nat} (i : Fin m) : bvarPriorMean (i, constIx m p) = 0 := by
  unfold bvarPriorMean
  rw [if_neg]
  show ¬ m * p + 1 = p * i.val
  have : p * i.val ≤ m * p := by rw [Nat.mul_comm]; exact Nat.mul_le_mul_right p i.isLt.le
  omega

theorem popVar_nonneg (l : List ℝ) : 0 ≤ popVar l := by
  unfold popVar
  apply div_nonneg _ (Nat.cast_nonneg _)
  apply List.sum_nonneg
  intro x hx
  obtain ⟨y, -, rfl⟩ := List.mem_map.1 hx
  exact sq_nonneg _

theorem popVar_zero (l : List ℝ) (h : popVar l = 0) : ∀ x ∈ l, x = l.sum / l.length := by
  intro x hx
  unfold popVar at h
  have hl : (l.length : ℝ) ≠ 0 := by
    have := List.length_pos_of_mem hx
    exact_mod_cast this.ne'
  rcases div_eq_zero_iff.1 h with h | h
  · have h1 : (x - l.sum / l.length) ^ 2 ≤ (l.map fun x => (x - l.sum / l.length) ^ 2).sum :=
      List.single_le_sum (fun y hy => by
        obtain ⟨z, -, rfl⟩ := List.mem_map.1 hy
        exact sq_nonneg _) _ (List.mem_map.2 ⟨x, hx, rfl⟩)
    rw [h] at h1
    have := pow_eq_zero_iff (two_ne_zero) |>.1 (le_antisymm h1 (sq_nonneg _))
    linarith
  · exact absurd h hl

/-- A constant column makes the regressors dependent, so that `fit` fails; otherwise all variances are positive. -/
theorem bvar_variance_pos {m p : Nat} (hp : 0 < p) (rows : List (Fin m → ℝ)) (hpl : p ≤ rows.length)
    (hdet : (bvarXols p rows * (bvarXols p rows)ᵀ).det ≠ 0) (i : Fin m) : 0 < popVar (rows.map fun r => r i) := by
  refine lt_of_le_of_ne (popVar_nonneg _) fun h0 => hdet ?_
  obtain ⟨c, hc⟩ : ∃ c, c = (rows.map fun r => r i).sum / ((rows.map fun r => r i).length : ℝ) := ⟨_, rfl⟩
  have hall : ∀ t < rows.length, rowAt rows t i = c := by
    intro t ht
    rw [hc]
    apply popVar_zero _ h0.symm
    unfold rowAt
    rw [List.getD_eq_getElem _ _ ht]
    exact List.mem_map.2 ⟨_, List.getElem_mem ht, rfl⟩
  apply exists_mulVec_eq_zero_iff.1
  obtain ⟨v, hv⟩ : ∃ v : Fin (bvarN m p) → ℝ, v = fun k =>
      if k = lagIx i ⟨0, hp⟩ then 1 else if k = constIx m p then -c else 0 := ⟨_, rfl⟩
  have hne : constIx m p ≠ lagIx i ⟨0, hp⟩ := by
    intro e
    have e := congrArg Fin.val e
    have e' : m * p + 1 = i.val * p + 0 := e
    have : i.val * p ≤ m * p := Nat.mul_le_mul_right p i.isLt.le
    omega
  refine ⟨v, ?_, ?_⟩
  · intro hz
    have := congrFun hz (lagIx i ⟨0, hp⟩)
    rw [hv] at this
    simp at this
  · rw [← mulVec_mulVec]
    have hz : (bvarXols p rows)ᵀ *ᵥ v = 0 := by
      funext s
      show ∑ k, bvarZ p ((p + s.val : Nat) : ℝ) rows (p + s.val) k * v k = 0
      have hk : ∀ k, bvarZ p ((p + s.val : Nat) : ℝ) rows (p + s.val) k * v k
          = (if k = lagIx i ⟨0, hp⟩ then bvarZ p ((p + s.val : Nat) : ℝ) rows (p + s.val) k else 0)
            + (if k = constIx m p then bvarZ p ((p + s.val : Nat) : ℝ) rows (p + s.val) k * -c else 0) := by
        intro k
        rw [hv]
        by_cases h1 : k = lagIx i ⟨0, hp⟩
        · simp only [h1, if_true, hne.symm, if_false, mul_one, add_zero]
        · simp only [h1, if_false, zero_add]
          split_ifs <;> simp
      rw [Finset.sum_congr rfl fun k _ => hk k, Finset.sum_add_distrib, Finset.sum_ite_eq' Finset.univ,
        Finset.sum_ite_eq' Finset.univ, if_pos (Finset.mem_univ _), if_pos (Finset.mem_univ _), bvarZ_lag, bvarZ_const,
        hall _ (by have := s.isLt; omega)]
      ring
    rw [hz, mulVec_zero]

/-- What the posterior mean minimises: the squared distances from the prior mean (1 for the first lag of the column itself,
0 otherwise) over the prior variances, and the squared errors over the data in the metric `S`. -/
noncomputable def bvarObjective {m p : Nat} (q : BvarParams) (rows : List (Fin m → ℝ)) (S : Matrix (Fin m) (Fin m) ℝ)
    (mu : BvarIx m p → ℝ) : ℝ :=
  ∑ i : Fin m, (∑ j : Fin m, ∑ l : Fin p, (mu (i, lagIx j l) - if j = i ∧ l.val = 0 then 1 else 0) ^ 2
      / (if i = j then q.phi0 / ((l.val + 1 : Nat) : ℝ) ^ q.phi3
        else q.phi0 * q.phi1 / ((l.val + 1 : Nat) : ℝ) ^ q.phi3
          * (popVar (rows.map fun r => r j) / popVar (rows.map fun r => r i)))
    + mu (i, timeIx m p) ^ 2 / (q.phi0 * q.phi2) + mu (i, constIx m p) ^ 2 / (q.phi0 * q.phi2))
  + ∑ s ∈ Finset.range (rows.length - p), ∑ i : Fin m, ∑ j : Fin m, varResid mu rows s i * S i j * varResid mu rows s j

theorem bvarObjective_eq {m p : Nat} (hp : 0 < p) (q : BvarParams) (rows : List (Fin m → ℝ)) (S : Matrix (Fin m) (Fin m) ℝ)
    (mu : BvarIx m p → ℝ) : bvarObjective q rows S mu
      = (∑ i, (bvarPriorVar p q rows i)⁻¹ * (mu i - bvarPriorMean i) ^ 2)
        + ∑ s ∈ Finset.range (rows.length - p),
          (rowAt rows (p + s) - bvarZt p ((p + s : Nat) : ℝ) rows (p + s) *ᵥ mu)
            ⬝ᵥ (S *ᵥ (rowAt rows (p + s) - bvarZt p ((p + s : Nat) : ℝ) rows (p + s) *ᵥ mu)) := by
  unfold bvarObjective
  congr 1
  · rw [Fintype.sum_prod_type]
    refine Finset.sum_congr rfl fun i _ => ?_
    rw [sum_places, bvarPriorVar_time, bvarPriorVar_const, bvarPriorMean_time hp, bvarPriorMean_const, sub_zero, sub_zero]
    simp only [bvarPriorVar_lag, bvarPriorMean_lag]
    rw [inv_mul_eq_div, inv_mul_eq_div]
    congr 2
    refine Finset.sum_congr rfl fun j _ => Finset.sum_congr rfl fun l _ => ?_
    rw [inv_mul_eq_div]
  · refine Finset.sum_congr rfl fun s _ => ?_
    have hr : ∀ i, (rowAt rows (p + s) - bvarZt p ((p + s : Nat) : ℝ) rows (p + s) *ᵥ mu) i = varResid mu rows s i := by
      intro i
      unfold varResid
      rw [← bvarStep_eq]
      rfl
    show _ = ∑ i, _ * ∑ j, S i j * _
    refine Finset.sum_congr rfl fun i _ => ?_
    rw [Finset.mul_sum]
    refine Finset.sum_congr rfl fun j _ => ?_
    rw [hr, hr, mul_assoc]

theorem priorVar_pos {m p : Nat} (hp : 0 < p) (q : BvarParams) (h0 : 0 < q.phi0) (h1 : 0 < q.phi1) (h2 : 0 < q.phi2)
    (rows : List (Fin m → ℝ)) (hv : ∀ i, 0 < popVar (rows.map fun r => r i)) (s : BvarIx m p) : 0 < bvarPriorVar p q rows s := by
  unfold bvarPriorVar bvarLagVar
  have hpow : ∀ n : Nat, (0 : ℝ) < ((n + 1 : Nat) : ℝ) ^ q.phi3 := fun n =>
    Real.rpow_pos_of_pos (by exact_mod_cast Nat.succ_pos n) _
  split_ifs
  · exact div_pos h0 (hpow _)
  · simp only [bvarVariance_eq]
    exact mul_pos (mul_pos h0 (div_pos h1 (hpow _))) (div_pos (hv _) (hv _))
  · exact mul_pos h0 h2

theorem validate_pos (q : BvarParams) (h : q.validate = .ok ()) :
    0 < q.p ∧ 0 < q.phi0 ∧ 0 < q.phi1 ∧ q.phi1 ≤ 1 ∧ 0 < q.phi2 ∧ 0 < q.phi3 := by
  unfold BvarParams.validate at h
  split_ifs at h with h1 h2 h3 h4 h5
  push Not at h1 h2 h3 h4 h5
  exact ⟨h1, h2, h3.1, h3.2, h4, h5⟩

theorem sigma_regressors {m p : Nat} {rows : List (Fin m → ℝ)} {sigma : Matrix (Fin m) (Fin m) ℝ}
    (h : bvarSigma p rows = .ok sigma) : p ≤ rows.length ∧ (bvarXols p rows * (bvarXols p rows)ᵀ).det ≠ 0 := by
  unfold bvarSigma at h
  by_cases h0 : rows.length < p
  · rw [if_pos h0] at h; cases h
  rw [if_neg h0] at h
  simp only [bind, Except.bind] at h
  cases hG : npInv (bvarXols p rows * (bvarXols p rows)ᵀ) with
  | error e => rw [hG] at h; cases h
  | ok G => exact ⟨by omega, (npInv_ok hG).1⟩

theorem gram_psd {m p : Nat} (rows : List (Fin m → ℝ)) {S : Matrix (Fin m) (Fin m) ℝ} (hS : S.PosSemidef) :
    (bvarGram p rows S).PosSemidef := by
  unfold bvarGram
  refine posSemidef_sum _ fun s _ => ?_
  have := hS.conjTranspose_mul_mul_same (bvarZt p ((p + s : Nat) : ℝ) rows (p + s))
  rwa [conjTranspose_eq_transpose_of_trivial] at this

/-- The steps of `fit`. -/
theorem posterior_ok {m p : Nat} (q : BvarParams) (rows : List (Fin m → ℝ)) (mu : BvarIx m p → ℝ)
    (h : bvarPosterior q p rows = .ok mu) :
    ∃ sigma, bvarSigma p rows = .ok sigma ∧ sigma.det ≠ 0 ∧ (Matrix.diagonal (bvarPriorVar p q rows)).det ≠ 0
      ∧ ((Matrix.diagonal (bvarPriorVar p q rows))⁻¹ + bvarGram p rows sigma⁻¹).det ≠ 0
      ∧ mu = ((Matrix.diagonal (bvarPriorVar p q rows))⁻¹ + bvarGram p rows sigma⁻¹)⁻¹
        *ᵥ ((Matrix.diagonal (bvarPriorVar p q rows))⁻¹ *ᵥ bvarPriorMean + bvarCross p rows sigma⁻¹) := by
  unfold bvarPosterior at h
  simp only [bind, Except.bind] at h
  cases h1 : bvarSigma p rows with
  | error e => rw [h1] at h; cases h
  | ok sigma =>
    rw [h1] at h
    simp only at h
    cases h2 : npInv sigma with
    | error e => rw [h2] at h; cases h
    | ok S =>
      rw [h2] at h
      simp only at h
      cases h3 : npInv (Matrix.diagonal (bvarPriorVar p q rows)) with
      | error e => rw [h3] at h; cases h
      | ok P =>
        rw [h3] at h
        simp only at h
        cases h4 : npInv (P + bvarGram p rows S) with
        | error e => rw [h4] at h; cases h
        | ok V =>
          rw [h4] at h
          injection h with h
          obtain ⟨d2, e2⟩ := npInv_ok h2
          obtain ⟨d3, e3⟩ := npInv_ok h3
          obtain ⟨d4, e4⟩ := npInv_ok h4
          subst e2 e3 e4
          exact ⟨sigma, rfl, d2, d3, d4, h.symm⟩

/-- C121, the fitted coefficients: with valid parameters, `fit` finds the only coefficients that minimise the squared
distance from the prior mean plus the squared errors in the metric of the inverse of `sigma_ols`: the posterior mean. -/
theorem C121_posterior {m : Nat} (q : BvarParams) (hq : q.validate = .ok ()) (rows : List (Fin m → ℝ))
    (mu : BvarIx m q.p.toNat → ℝ) (h : bvarPosterior q q.p.toNat rows = .ok mu) :
    ∃ sigma S : Matrix (Fin m) (Fin m) ℝ, bvarSigma q.p.toNat rows = .ok sigma ∧ S * sigma = 1
      ∧ ∀ nu, bvarObjective q rows S mu ≤ bvarObjective q rows S nu
        ∧ (bvarObjective q rows S nu = bvarObjective q rows S mu → nu = mu) := by
  obtain ⟨p1, p2, p3, -, p5, p6⟩ := validate_pos q hq
  have hp : 0 < q.p.toNat := by omega
  obtain ⟨sigma, hs, d2, d3, d4, hmu⟩ := posterior_ok q rows mu h
  obtain ⟨hpl, hdet⟩ := sigma_regressors hs
  have hvp := bvar_variance_pos hp rows hpl hdet
  have hw : ∀ s, 0 < bvarPriorVar q.p.toNat q rows s := priorVar_pos hp q p2 p3 p5 rows hvp
  have hpsd : (sigma⁻¹).PosSemidef := (sigma_psd _ _ _ hs).inv
  have hsym : (sigma⁻¹)ᵀ = sigma⁻¹ := by
    have := hpsd.isHermitian
    rwa [Matrix.IsHermitian, conjTranspose_eq_transpose_of_trivial] at this
  have hdiag : (Matrix.diagonal (bvarPriorVar q.p.toNat q rows))⁻¹
      = Matrix.diagonal fun s => (bvarPriorVar q.p.toNat q rows s)⁻¹ := by
    apply Matrix.inv_eq_right_inv
    rw [diagonal_mul_diagonal, ← diagonal_one]
    congr 1
    funext s
    exact mul_inv_cancel₀ (hw s).ne'
  rw [hdiag] at d4 hmu
  have hnorm : (Matrix.diagonal (fun s => (bvarPriorVar q.p.toNat q rows s)⁻¹) + bvarGram q.p.toNat rows sigma⁻¹) *ᵥ mu
      = Matrix.diagonal (fun s => (bvarPriorVar q.p.toNat q rows s)⁻¹) *ᵥ bvarPriorMean + bvarCross q.p.toNat rows sigma⁻¹ := by
    rw [hmu, mulVec_mulVec, mul_nonsing_inv _ (isUnit_iff_ne_zero.2 d4), one_mulVec]
  refine ⟨sigma, sigma⁻¹, hs, nonsing_inv_mul _ (isUnit_iff_ne_zero.2 d2), fun nu => ?_⟩
  have key := ridge_square (fun s => (bvarPriorVar q.p.toNat q rows s)⁻¹) bvarPriorMean mu sigma⁻¹ hsym
    (rows.length - q.p.toNat) (fun s => bvarZt q.p.toNat ((q.p.toNat + s : Nat) : ℝ) rows (q.p.toNat + s))
    (fun s => rowAt rows (q.p.toNat + s)) hnorm nu
  rw [bvarObjective_eq hp, bvarObjective_eq hp, key]
  have n1 : 0 ≤ ∑ s, (bvarPriorVar q.p.toNat q rows s)⁻¹ * (nu s - mu s) ^ 2 :=
    Finset.sum_nonneg fun s _ => mul_nonneg (inv_nonneg.2 (hw s).le) (sq_nonneg _)
  have n2 : 0 ≤ ∑ s ∈ Finset.range (rows.length - q.p.toNat),
      (bvarZt q.p.toNat ((q.p.toNat + s : Nat) : ℝ) rows (q.p.toNat + s) *ᵥ (nu - mu))
        ⬝ᵥ (sigma⁻¹ *ᵥ (bvarZt q.p.toNat ((q.p.toNat + s : Nat) : ℝ) rows (q.p.toNat + s) *ᵥ (nu - mu))) := by
    refine Finset.sum_nonneg fun s _ => ?_
    have := hpsd.dotProduct_mulVec_nonneg (bvarZt q.p.toNat ((q.p.toNat + s : Nat) : ℝ) rows (q.p.toNat + s) *ᵥ (nu - mu))
    simpa using this
  refine ⟨by linarith, fun he => ?_⟩
  have n3 : ∑ s, (bvarPriorVar q.p.toNat q rows s)⁻¹ * (nu s - mu s) ^ 2 = 0 := by linarith
  funext s
  have := (Finset.sum_eq_zero_iff_of_nonneg fun s _ => mul_nonneg (inv_nonneg.2 (hw s).le) (sq_nonneg _)).1 n3 s
    (Finset.mem_univ s)
  rcases mul_eq_zero.1 this with h | h
  · exact absurd h (inv_pos.2 (hw s)).ne'
  · have := pow_eq_zero_iff two_ne_zero |>.1 h
    linarith

/-- C121, when `fit` works: with valid parameters it fails only if the least squares autoregression cannot be estimated or
the covariance of its residuals is singular; the prior always makes the last inversion possible. -/
theorem C121_fit {m : Nat} (d : BvarData m) (q : BvarParams) (hq : q.validate = .ok ()) (hm : m ≠ 1) (f : DateFreq)
    (hf : d.freq = some f) :
    (∃ s, bvarFit d q = .ok s) ↔ ∃ sigma, bvarSigma q.p.toNat d.rows = .ok sigma ∧ sigma.det ≠ 0 := by
  obtain ⟨p1, p2, p3, -, p5, p6⟩ := validate_pos q hq
  have hp : 0 < q.p.toNat := by omega
  have hi : bvarInit d q = .ok f := by
    unfold bvarInit
    rw [if_neg hm, hf]
  have e : bvarFit d q = (bvarPosterior q q.p.toNat d.rows).map fun mu => ⟨d, f, mu, bvarHistory mu d.rows⟩ := by
    unfold bvarFit
    simp only [hi, bind, Except.bind]
    rw [if_neg (by omega)]
    cases bvarPosterior q q.p.toNat d.rows <;> rfl
  rw [e]
  constructor
  · rintro ⟨s, hs⟩
    cases hP : bvarPosterior q q.p.toNat d.rows with
    | error e => rw [hP] at hs; cases hs
    | ok mu =>
      obtain ⟨sigma, h1, h2, -⟩ := posterior_ok q d.rows mu hP
      exact ⟨sigma, h1, h2⟩
  · rintro ⟨sigma, h1, h2⟩
    obtain ⟨hpl, hdet⟩ := sigma_regressors h1
    have hw : ∀ s, 0 < bvarPriorVar q.p.toNat q d.rows s :=
      priorVar_pos hp q p2 p3 p5 d.rows (bvar_variance_pos hp d.rows hpl hdet)
    have hpd : (Matrix.diagonal (bvarPriorVar q.p.toNat q d.rows)).PosDef := posDef_diagonal_iff.2 hw
    have hpd2 : ((Matrix.diagonal (bvarPriorVar q.p.toNat q d.rows))⁻¹ + bvarGram q.p.toNat d.rows sigma⁻¹).PosDef :=
      hpd.inv.add_posSemidef (gram_psd d.rows (sigma_psd _ _ _ h1).inv)
    have u1 := ((isUnit_iff_isUnit_det _).1 hpd.isUnit).ne_zero
    have u2 := ((isUnit_iff_isUnit_det _).1 hpd2.isUnit).ne_zero
    have hok : ∃ mu, bvarPosterior q q.p.toNat d.rows = .ok mu := by
      unfold bvarPosterior npInv
      simp only [h1, bind, Except.bind, if_neg h2, if_neg u1, if_neg u2, pure, Except.pure]
      exact ⟨_, rfl⟩
    obtain ⟨mu, hmu⟩ := hok
    exact ⟨⟨d, f, mu, bvarHistory mu d.rows⟩, by rw [hmu]; rfl⟩

/-- C121, more lags than rows are refused with a ValueError, for all data and parameters that `__init__` takes. -/
theorem C121_short {m : Nat} (d : BvarData m) (q : BvarParams) (f : DateFreq) (hi : bvarInit d q = .ok f)
    (h : (d.rows.length : Int) < q.p) : bvarFit d q = .error .valueError := by
  unfold bvarFit
  simp only [hi, bind, Except.bind]
  rw [if_neg (by omega)]
  unfold bvarPosterior bvarSigma
  rw [if_pos (by omega)]
  rfl

/-- C121, data that can be fitted: it is enough that the columns, their lags, the time and the constant are linearly
independent over the times from `p` on, with more than `m p + 1` rows. -/
theorem C121_independent {m : Nat} (p : Nat) (rows : List (Fin m → ℝ)) (hpl : p ≤ rows.length) (hT : m * p + 1 < rows.length)
    (h : ∀ (c : Fin (bvarN m p) → ℝ) (v : Fin m → ℝ), (∀ s < rows.length - p,
      ∑ i : Fin m, v i * rowAt rows (p + s) i
        = ∑ j : Fin m, ∑ l : Fin p, c (lagIx j l) * rowAt rows (p + s - 1 - l.val) j
          + c (timeIx m p) * ((p + s : Nat) : ℝ) + c (constIx m p)) → c = 0 ∧ v = 0) :
    ∃ sigma, bvarSigma p rows = .ok sigma ∧ sigma.det ≠ 0 := by
  have hz : ∀ (c : Fin (bvarN m p) → ℝ) (s : Nat), ∑ j : Fin m, ∑ l : Fin p, c (lagIx j l) * rowAt rows (p + s - 1 - l.val) j
      + c (timeIx m p) * ((p + s : Nat) : ℝ) + c (constIx m p) = ∑ k, bvarZ p ((p + s : Nat) : ℝ) rows (p + s) k * c k := by
    intro c s
    rw [sum_places, bvarZ_time, bvarZ_const]
    simp only [bvarZ_lag]
    rw [one_mul, mul_comm (((p + s : Nat) : ℝ))]
    congr 2
    exact Finset.sum_congr rfl fun j _ => Finset.sum_congr rfl fun l _ => mul_comm _ _
  have hdet : (bvarXols p rows * (bvarXols p rows)ᵀ).det ≠ 0 := by
    intro hd
    obtain ⟨c, hc, h0⟩ := exists_mulVec_eq_zero_iff.2 hd
    have h1 : ((bvarXols p rows)ᵀ *ᵥ c) ⬝ᵥ ((bvarXols p rows)ᵀ *ᵥ c) = 0 := by
      rw [dotProduct_mulVec, vecMul_transpose, mulVec_mulVec, h0, zero_dotProduct]
    have h2 := dotProduct_self_eq_zero.1 h1
    apply hc
    refine (h c 0 fun s hs => ?_).1
    rw [hz]
    simp only [Pi.zero_apply, zero_mul, Finset.sum_const_zero]
    exact (congrFun h2 ⟨s, hs⟩).symm
  have hok : ∃ sigma, bvarSigma p rows = .ok sigma := by
    unfold bvarSigma npInv
    simp only [if_neg (show ¬ rows.length < p by omega), bind, Except.bind, if_neg hdet, if_pos hT]
    exact ⟨_, rfl⟩
  obtain ⟨sigma, hs⟩ := hok
  refine ⟨sigma, hs, fun hd => ?_⟩
  obtain ⟨-, beta, -, h3⟩ := C121_sigma p rows sigma hs
  obtain ⟨v, hv, h0⟩ := exists_mulVec_eq_zero_iff.2 hd
  apply hv
  have hpos : (0 : ℝ) < (rows.length : ℝ) - m * p - 1 := by
    have : ((m * p + 1 : Nat) : ℝ) < (rows.length : ℝ) := by exact_mod_cast hT
    push_cast at this
    linarith
  have hq : ∑ s ∈ Finset.range (rows.length - p), (∑ i, v i * varResid beta rows s i) ^ 2 = 0 := by
    have e : v ⬝ᵥ (sigma *ᵥ v) = 0 := by rw [h0, dotProduct_zero]
    have e2 : v ⬝ᵥ (sigma *ᵥ v) = (∑ s ∈ Finset.range (rows.length - p), (∑ i, v i * varResid beta rows s i) ^ 2)
        / ((rows.length : ℝ) - m * p - 1) := by
      show ∑ i, v i * ∑ j, sigma i j * v j = _
      have e3 : ∀ i, v i * ∑ j, sigma i j * v j = ∑ j, ∑ s ∈ Finset.range (rows.length - p),
          (v i * varResid beta rows s i) * (v j * varResid beta rows s j) / ((rows.length : ℝ) - m * p - 1) := by
        intro i
        rw [Finset.mul_sum]
        refine Finset.sum_congr rfl fun j _ => ?_
        rw [h3, ← Finset.sum_div, ← mul_assoc, mul_comm (v i), mul_assoc, div_mul_eq_mul_div, Finset.sum_mul]
        congr 1
        exact Finset.sum_congr rfl fun s _ => by ring
      rw [Finset.sum_congr rfl fun i _ => e3 i, Finset.sum_congr rfl fun i _ => Finset.sum_comm, Finset.sum_comm, Finset.sum_div]
      refine Finset.sum_congr rfl fun s _ => ?_
      rw [sq, Finset.sum_mul_sum, Finset.sum_div]
      refine Finset.sum_congr rfl fun i _ => ?_
      rw [Finset.sum_div]
    rw [e2] at e
    rcases div_eq_zero_iff.1 e with h | h
    · exact h
    · exact absurd h hpos.ne'
  have hq' := (Finset.sum_eq_zero_iff_of_nonneg fun s _ => sq_nonneg _).1 hq
  refine (h (fun k => ∑ i, v i * beta (i, k)) v fun s hs => ?_).2
  have e := pow_eq_zero_iff two_ne_zero |>.1 (hq' s (Finset.mem_range.2 hs))
  rw [hz (fun k => ∑ i, v i * beta (i, k)) s]
  have e2 : ∀ i, v i * varResid beta rows s i
      = v i * rowAt rows (p + s) i - ∑ k, bvarZ p ((p + s : Nat) : ℝ) rows (p + s) k * (v i * beta (i, k)) := by
    intro i
    unfold varResid
    rw [varMean_eq, mul_sub, Finset.mul_sum]
    congr 1
    exact Finset.sum_congr rfl fun k _ => by ring
  rw [Finset.sum_congr rfl fun i _ => e2 i, Finset.sum_sub_distrib, sub_eq_zero] at e
  rw [e, Finset.sum_comm]
  exact Finset.sum_congr rfl fun k _ => (Finset.mul_sum _ _ _).symm

/-- Two columns with one bump each. -/
noncomputable def bumpRows : List (Fin 2 → ℝ) :=
  [![0, 0], ![0, 0], ![1, 0], ![0, 0], ![0, 0], ![0, 1], ![0, 0]]

theorem bump_fits : ∃ sigma, bvarSigma 1 bumpRows = .ok sigma ∧ sigma.det ≠ 0 := by
  refine C121_independent 1 bumpRows (by simp [bumpRows]) (by simp [bumpRows]) ?_
  intro c v h
  have h0 := h 0 (by simp [bumpRows])
  have h1 := h 1 (by simp [bumpRows])
  have h2 := h 2 (by simp [bumpRows])
  have h3 := h 3 (by simp [bumpRows])
  have h4 := h 4 (by simp [bumpRows])
  have h5 := h 5 (by simp [bumpRows])
  simp [Fin.sum_univ_two, rowAt, bumpRows] at h0 h1 h2 h3 h4 h5
  have ht : c (timeIx 2 1) = 0 := by linarith
  have hc : c (constIx 2 1) = 0 := by linarith
  rw [ht, hc] at h1 h2 h4 h5
  constructor
  · funext k
    have : k = lagIx 0 0 ∨ k = lagIx 1 0 ∨ k = timeIx 2 1 ∨ k = constIx 2 1 := by
      have hk := k.isLt
      have hb : bvarN 2 1 = 4 := rfl
      have : k.val = 0 ∨ k.val = 1 ∨ k.val = 2 ∨ k.val = 3 := by omega
      rcases this with h | h | h | h
      · exact .inl (Fin.ext h)
      · exact .inr (.inl (Fin.ext h))
      · exact .inr (.inr (.inl (Fin.ext h)))
      · exact .inr (.inr (.inr (Fin.ext h)))
    rcases this with rfl | rfl | rfl | rfl
    · simpa using h2.symm
    · simpa using h5.symm
    · exact ht
    · exact hc
  · funext i
    fin_cases i
    · simpa using h1
    · simpa using h4

/-- Seven daily rows. -/
noncomputable def bumpData : BvarData 2 := ⟨[0, 1, 2, 3, 4, 5, 6], bumpRows, some ⟨id, (· + 1)⟩⟩

noncomputable def bumpParams : BvarParams := { p := 1 }

theorem bump_valid : bumpParams.validate = .ok () := by
  unfold BvarParams.validate bumpParams
  norm_num

theorem bump_fit : ∃ s, bvarFit bumpData bumpParams = .ok s :=
  (C121_fit bumpData bumpParams bump_valid (by simp) _ rfl).2 bump_fits

example : ∃ sigma, bvarSigma 1 bumpRows = .ok sigma ∧ ∀ i j, sigma i j = sigma j i := by
  obtain ⟨sigma, h, -⟩ := bump_fits
  obtain ⟨-, beta, -, h3⟩ := C121_sigma 1 bumpRows sigma h
  refine ⟨sigma, h, fun i j => ?_⟩
  rw [h3, h3]
  congr 1
  exact Finset.sum_congr rfl fun s _ => mul_comm _ _

example : ∃ mu S, bvarPosterior bumpParams bumpParams.p.toNat bumpRows = .ok mu
    ∧ bvarObjective bumpParams bumpRows S mu ≤ bvarObjective bumpParams bumpRows S (0 : BvarIx 2 bumpParams.p.toNat → ℝ) := by
  obtain ⟨s, hs⟩ := bump_fit
  have : ∃ mu, bvarPosterior bumpParams bumpParams.p.toNat bumpRows = .ok mu := by
    unfold bvarFit at hs
    simp only [bind, Except.bind] at hs
    cases hP : bvarPosterior bumpParams bumpParams.p.toNat bumpData.rows with
    | ok mu => exact ⟨mu, hP⟩
    | error e =>
      rw [hP] at hs
      cases hi : bvarInit bumpData bumpParams with
      | error e => rw [hi] at hs; cases hs
      | ok f =>
        rw [hi] at hs
        simp only at hs
        split_ifs at hs
  obtain ⟨mu, hmu⟩ := this
  obtain ⟨sigma, S, -, -, h⟩ := C121_posterior bumpParams bump_valid bumpRows mu hmu
  exact ⟨mu, S, hmu, (h 0).1⟩

/-! ### Forecasts -/

theorem bvarAhead_length {m p : Nat} (mu : BvarIx m p → ℝ) (last : ℝ) : ∀ (n step : Nat) (rows : List (Fin m → ℝ)),
    (bvarAhead mu last n step rows).length = n
  | 0, _, _ => rfl
  | n + 1, step, rows => by simp only [bvarAhead, List.length_cons, bvarAhead_length mu last n]

/-- Each future value is the expectation from the rows and the future values before it. -/
theorem bvarAhead_spec {m p : Nat} (mu : BvarIx m p → ℝ) (last : ℝ) : ∀ (n : Nat) (rows : List (Fin m → ℝ)), 0 < rows.length →
    ∀ s < n, ∀ i, rowAt (rows ++ bvarAhead mu last n rows.length rows) (rows.length + s) i
      = varMean mu (rowAt (rows ++ bvarAhead mu last n rows.length rows)) (last + ((rows.length + s : Nat) : ℝ)) (rows.length + s) i
  | 0, rows => by intro _ s hs; omega
  | n + 1, rows => by
    intro hpos s hs i
    obtain ⟨y, hy⟩ : ∃ y, y = bvarStep mu (last + (rows.length : ℝ)) rows rows.length := ⟨_, rfl⟩
    have e : rows ++ bvarAhead mu last (n + 1) rows.length rows
        = (rows ++ [y]) ++ bvarAhead mu last n (rows ++ [y]).length (rows ++ [y]) := by
      simp only [bvarAhead, ← hy, List.length_append, List.length_cons, List.length_nil, Nat.zero_add, List.append_assoc,
        List.cons_append, List.nil_append]
    rw [e]
    cases s with
    | zero =>
      obtain ⟨r, hr⟩ : ∃ r, r = bvarAhead mu last n (rows ++ [y]).length (rows ++ [y]) := ⟨_, rfl⟩
      rw [← hr]
      have e1 : rowAt (rows ++ [y] ++ r) (rows.length + 0) = y := by
        unfold rowAt
        rw [Nat.add_zero, List.getD_append _ _ _ _ (by simp), List.getD_append_right _ _ _ _ le_rfl]
        simp
      rw [e1, hy, bvarStep_eq]
      unfold varMean
      simp only [Nat.add_zero]
      congr 2
      refine Finset.sum_congr rfl fun j _ => Finset.sum_congr rfl fun l _ => ?_
      congr 1
      have hlt : rows.length - 1 - l.val < rows.length := by omega
      unfold rowAt
      rw [List.getD_append _ _ _ _ (by rw [List.length_append]; omega), List.getD_append _ _ _ _ hlt]
    | succ s =>
      have ih := bvarAhead_spec mu last n (rows ++ [y]) (by simp) s (by omega) i
      have hl : rows.length + (s + 1) = (rows ++ [y]).length + s := by simp; omega
      rw [hl]
      exact ih

theorem aheadTimes_eq (f : DateFreq) (last : Int) (steps : Nat) :
    (pdDateRange f last (steps + 1)).drop 1 = (List.range steps).map fun k => f.next^[k + 1] (f.roll last) := by
  unfold pdDateRange
  rw [List.range_succ_eq_map, List.map_cons, List.drop_one, List.tail_cons, List.map_map]
  rfl

theorem zipWith_fcst {m : Nat} (i : Fin m) : ∀ (times : List Int) (vals : List (Fin m → ℝ)), times.length = vals.length →
    (List.zipWith (fun t v => (⟨t, v i, -1, -1⟩ : BvarRow)) times vals).map (·.fcst) = vals.map (fun v => v i)
    ∧ (List.zipWith (fun t v => (⟨t, v i, -1, -1⟩ : BvarRow)) times vals).map (·.time) = times
  | [], [], _ => ⟨rfl, rfl⟩
  | t :: ts, v :: vs, h => by
    obtain ⟨h1, h2⟩ := zipWith_fcst i ts vs (by simpa using h)
    exact ⟨by rw [List.zipWith_cons_cons, List.map_cons, List.map_cons, h1],
      by rw [List.zipWith_cons_cons, List.map_cons, h2]⟩

/-- The data of column `j` followed by its forecasts. -/
noncomputable def extended {m : Nat} (rows : List (Fin m → ℝ)) (out : Fin m → List BvarRow) (t : Nat) (j : Fin m) : ℝ :=
  if t < rows.length then rowAt rows t j else ((out j).map (·.fcst)).getD (t - rows.length) 0

theorem bvarPredict_future {m p : Nat} (s : BvarModel m p) (steps : Nat) (hs : 0 < steps) :
    (bvarPredict s steps false) = (s, .ok fun i => List.zipWith (fun t v => (⟨t, v i, -1, -1⟩ : BvarRow))
      ((List.range steps).map fun k => s.freq.next^[k + 1] (s.freq.roll (s.data.times.getLastD 0)))
      (bvarAhead s.mu ((s.data.rows.length : ℝ) - 1) steps s.data.rows.length s.data.rows)) := by
  unfold bvarPredict
  rw [if_neg (by omega)]
  simp only [Bool.false_eq_true, if_false, List.nil_append, aheadTimes_eq]
  rw [if_neg (by simp [bvarAhead_length])]

/-- C121, the forecasts, the part that holds: they are dated at the steps of the frequency after the last time, and each is
what the coefficients expect from the data and the forecasts before it, but with `2 T - 1 + s` in the place of the time
for step `s` (see `C121_time_violated`).  The model is not changed. -/
theorem C121_forecast_partial {m p : Nat} (s : BvarModel m p) (hT : 0 < s.data.rows.length) (steps : Nat) (hs : 0 < steps) :
    ∃ out, bvarPredict s steps false = (s, .ok out)
      ∧ (∀ i, (out i).map (·.time)
          = (List.range steps).map fun k => s.freq.next^[k + 1] (s.freq.roll (s.data.times.getLastD 0)))
      ∧ ∀ i, (out i).length = steps ∧ ∀ k < steps,
        extended s.data.rows out (s.data.rows.length + k) i
          = varMean s.mu (extended s.data.rows out) (2 * (s.data.rows.length : ℝ) - 1 + k) (s.data.rows.length + k) i := by
  obtain ⟨out, ho⟩ : ∃ out : Fin m → List BvarRow, out = fun i => List.zipWith (fun t v => (⟨t, v i, -1, -1⟩ : BvarRow))
    ((List.range steps).map fun k => s.freq.next^[k + 1] (s.freq.roll (s.data.times.getLastD 0)))
    (bvarAhead s.mu ((s.data.rows.length : ℝ) - 1) steps s.data.rows.length s.data.rows) := ⟨_, rfl⟩
  refine ⟨out, by rw [ho]; exact bvarPredict_future s steps hs, ?_, ?_⟩
  · intro i
    rw [ho]
    exact (zipWith_fcst i _ _ (by simp [bvarAhead_length])).2
  · intro i
    refine ⟨by rw [ho]; simp [bvarAhead_length], ?_⟩
    intro k hk
    have hext : ∀ t < s.data.rows.length + steps, ∀ j, extended s.data.rows out t j = rowAt (s.data.rows
        ++ bvarAhead s.mu ((s.data.rows.length : ℝ) - 1) steps s.data.rows.length s.data.rows) t j := by
      intro t ht j
      unfold extended rowAt
      split_ifs with h1
      · rw [List.getD_append _ _ _ _ h1]
      · have hl : t - s.data.rows.length < (bvarAhead s.mu ((s.data.rows.length : ℝ) - 1) steps s.data.rows.length
            s.data.rows).length := by rw [bvarAhead_length]; omega
        rw [List.getD_append_right _ _ _ _ (by omega), ho, (zipWith_fcst j _ _ (by simp [bvarAhead_length])).1,
          List.getD_eq_getElem _ _ (by simpa using hl), List.getD_eq_getElem _ _ hl, List.getElem_map]
    rw [hext _ (by omega), bvarAhead_spec s.mu _ steps s.data.rows hT k hk i]
    unfold varMean
    congr 2
    · refine Finset.sum_congr rfl fun j _ => Finset.sum_congr rfl fun l _ => ?_
      rw [hext _ (by omega)]
    · congr 1
      push_cast
      ring

/-- C121, violated: the coefficients were fitted with time `t` at row `t`, so step `k` should be computed with time `T + k`.
It is computed with `T - 1` more, so every forecast of a column with a trend is wrong by `T - 1` times its slope. -/
theorem C121_time_violated {m p : Nat} (s : BvarModel m p) (hT : 2 ≤ s.data.rows.length) (steps : Nat) (hs : 0 < steps)
    (i : Fin m) (hi : s.mu (i, timeIx m p) ≠ 0) :
    ∃ out, bvarPredict s steps false = (s, .ok out) ∧ ∀ k < steps,
      extended s.data.rows out (s.data.rows.length + k) i
        = varMean s.mu (extended s.data.rows out) ((s.data.rows.length + k : Nat) : ℝ) (s.data.rows.length + k) i
          + s.mu (i, timeIx m p) * ((s.data.rows.length : ℝ) - 1)
      ∧ extended s.data.rows out (s.data.rows.length + k) i
        ≠ varMean s.mu (extended s.data.rows out) ((s.data.rows.length + k : Nat) : ℝ) (s.data.rows.length + k) i := by
  obtain ⟨out, h1, -, h3⟩ := C121_forecast_partial s (by omega) steps hs
  refine ⟨out, h1, fun k hk => ?_⟩
  have e : extended s.data.rows out (s.data.rows.length + k) i
      = varMean s.mu (extended s.data.rows out) ((s.data.rows.length + k : Nat) : ℝ) (s.data.rows.length + k) i
        + s.mu (i, timeIx m p) * ((s.data.rows.length : ℝ) - 1) := by
    rw [(h3 i).2 k hk]
    unfold varMean
    push_cast
    ring
  refine ⟨e, fun h => ?_⟩
  rw [h] at e
  have hne : (s.data.rows.length : ℝ) - 1 ≠ 0 := by
    have : (2 : ℝ) ≤ (s.data.rows.length : ℝ) := by exact_mod_cast hT
    linarith
  exact mul_ne_zero hi hne (by linarith)

/-- C121, the history, the part that holds: right after `fit`, the forecast with history has the fitted values of the times
from `p` on (each with its own time), followed by the forecast without history. -/
theorem C121_history_partial {m : Nat} (d : BvarData m) (q : BvarParams) (s : BvarModel m q.p.toNat) (h : bvarFit d q = .ok s)
    (hl : d.times.length = d.rows.length) (steps : Nat) (hs : 0 < steps) :
    ∃ s' out outh, bvarPredict s steps false = (s, .ok out) ∧ bvarPredict s steps true = (s', .ok outh)
      ∧ ∀ i, (outh i).map (·.time) = d.times.drop q.p.toNat ++ (out i).map (·.time)
        ∧ (outh i).map (·.fcst) = (List.range (d.rows.length - q.p.toNat)).map
            (fun k : Nat => varMean s.mu (rowAt d.rows) ((q.p.toNat + k : Nat) : ℝ) (q.p.toNat + k) i)
          ++ (out i).map (·.fcst) := by
  have hs' : s.data = d ∧ s.fitVals = bvarHistory s.mu d.rows := by
    unfold bvarFit at h
    simp only [bind, Except.bind] at h
    cases hi : bvarInit d q with
    | error e => rw [hi] at h; cases h
    | ok f =>
      rw [hi] at h
      simp only at h
      split_ifs at h with h1
      cases hP : bvarPosterior q q.p.toNat d.rows with
      | error e => rw [hP] at h; cases h
      | ok mu =>
        rw [hP] at h
        injection h with h
        subst h
        exact ⟨rfl, rfl⟩
  obtain ⟨hd, hv⟩ := hs'
  subst hd
  obtain ⟨tm, htm⟩ : ∃ tm, tm = (List.range steps).map
      fun k => s.freq.next^[k + 1] (s.freq.roll (s.data.times.getLastD 0)) := ⟨_, rfl⟩
  obtain ⟨ah, hah⟩ : ∃ ah, ah = bvarAhead s.mu ((s.data.rows.length : ℝ) - 1) steps s.data.rows.length s.data.rows :=
    ⟨_, rfl⟩
  have hlen' : tm.length = ah.length := by rw [htm, hah]; simp [bvarAhead_length]
  have hlen : (s.data.times.drop q.p.toNat ++ tm).length = (s.fitVals ++ ah).length := by
    rw [List.length_append, List.length_append, hlen', hv]
    simp [bvarHistory, hl]
  have hb : bvarPredict s steps true = ({ s with fitVals := s.fitVals ++ ah },
      .ok fun i => List.zipWith (fun t v => (⟨t, v i, -1, -1⟩ : BvarRow)) (s.data.times.drop q.p.toNat ++ tm)
        (s.fitVals ++ ah)) := by
    unfold bvarPredict
    rw [if_neg (by simp)]
    simp only [if_true, aheadTimes_eq, ← htm, ← hah]
    rw [if_neg (by rw [hlen]; simp)]
  have hb' := bvarPredict_future s steps hs
  rw [← htm, ← hah] at hb'
  refine ⟨_, _, _, hb', hb, ?_⟩
  intro i
  obtain ⟨e1, e2⟩ := zipWith_fcst i _ _ hlen
  obtain ⟨e3, e4⟩ := zipWith_fcst i _ _ hlen'
  rw [e1, e2, e3, e4]
  refine ⟨rfl, ?_⟩
  rw [List.map_append, hv]
  congr 1
  unfold bvarHistory
  rw [List.map_map]
  refine List.map_congr_left fun k _ => ?_
  exact bvarStep_eq s.mu _ _ _ i

/-- C121, violated: a forecast with history appends the future values to the fitted values that the model keeps, so the next
call with history fails with an `AssertionError`. -/
theorem C121_again_violated {m p : Nat} (s s' : BvarModel m p) (steps steps' : Nat) (hs : 0 < steps)
    (out : Fin m → List BvarRow) (h : bvarPredict s steps true = (s', .ok out)) :
    (bvarPredict s' steps' true).2 = .error .otherError := by
  unfold bvarPredict at h
  rw [if_neg (by simp)] at h
  simp only [if_true, aheadTimes_eq] at h
  split_ifs at h with h1
  · cases h
  · have hs' := (Prod.mk.inj h).1
    push Not at h1
    simp only [List.length_append, List.length_map, List.length_range, bvarAhead_length] at h1
    unfold bvarPredict
    rw [if_neg (by simp)]
    simp only [if_true, aheadTimes_eq]
    rw [if_pos]
    rw [← hs']
    simp only [List.length_append, List.length_map, List.length_range, bvarAhead_length]
    omega

/-- C121, the checks of `predict`: nothing to forecast is a `ValueError`; and the columns for the bounds are constant -1. -/
theorem C121_predict {m p : Nat} (s : BvarModel m p) (steps : Nat) (hist : Bool) :
    (bvarPredict s 0 false = (s, .error .valueError))
    ∧ ∀ s' out, bvarPredict s steps hist = (s', .ok out) → ∀ i, ∀ r ∈ out i, r.lower = -1 ∧ r.upper = -1 := by
  refine ⟨by unfold bvarPredict; rw [if_pos ⟨rfl, rfl⟩], ?_⟩
  intro s' out h i r hr
  have key : ∃ (ts : List Int) (vs : List (Fin m → ℝ)), out = fun i => List.zipWith (fun t v => ⟨t, v i, -1, -1⟩) ts vs := by
    unfold bvarPredict at h
    by_cases h0 : steps = 0 ∧ hist = false
    · rw [if_pos h0] at h; cases h
    · rw [if_neg h0] at h
      cases hist
      · simp only [Bool.false_eq_true, if_false] at h
        split at h
        · cases h
        · injection (Prod.mk.inj h).2 with h2
          exact ⟨_, _, h2.symm⟩
      · simp only [if_true] at h
        split at h
        · cases h
        · injection (Prod.mk.inj h).2 with h2
          exact ⟨_, _, h2.symm⟩
  obtain ⟨ts, vs, rfl⟩ := key
  obtain ⟨k, hk, rfl⟩ := List.getElem_of_mem hr
  simp only [List.getElem_zipWith]
  exact ⟨trivial, trivial⟩

/-- C121, violated: the dataclass does not call `validate_params`, and the model does not either, so parameters that are not
valid are accepted. -/
theorem C121_params_violated {m : Nat} (d : BvarData m) (hm : m ≠ 1) (f : DateFreq) (hf : d.freq = some f) (q : BvarParams) :
    bvarInit d q = .ok f ∧ BvarParams.validate { p := 0 } = .error .valueError
      ∧ BvarParams.validate { phi1 := 2 } = .error .valueError := by
  refine ⟨by unfold bvarInit; rw [if_neg hm, hf], ?_, ?_⟩
  · unfold BvarParams.validate; rw [if_pos le_rfl]
  · unfold BvarParams.validate; norm_num

/-- C121, `validate_params`, if it is called: it accepts exactly the parameters in their ranges. -/
theorem C121_params (q : BvarParams) : q.validate = .ok ()
    ↔ 0 < q.p ∧ 0 < q.phi0 ∧ 0 < q.phi1 ∧ q.phi1 ≤ 1 ∧ 0 < q.phi2 ∧ 0 < q.phi3 := by
  refine ⟨validate_pos q, ?_⟩
  rintro ⟨h1, h2, h3, h4, h5, h6⟩
  unfold BvarParams.validate
  rw [if_neg (by omega), if_neg (by linarith), if_neg (by rintro (h | h) <;> linarith), if_neg (by linarith),
    if_neg (by linarith)]

/-- A model of two columns with one lag: both have slope 1 in time and nothing else. -/
noncomputable def slopeModel : BvarModel 2 1 :=
  ⟨⟨[10, 11, 12], [![0, 0], ![1, 1], ![2, 2]], some ⟨id, (· + 1)⟩⟩, ⟨id, (· + 1)⟩,
    fun s => if s.2 = timeIx 2 1 then 1 else 0, [![1, 1], ![2, 2]]⟩

example : ∃ out, bvarPredict slopeModel 2 false = (slopeModel, .ok out) ∧ (out 0).map (·.time) = [13, 14] := by
  obtain ⟨out, h1, h2, -⟩ := C121_forecast_partial slopeModel (by simp [slopeModel]) 2 (by omega)
  exact ⟨out, h1, by rw [h2]; rfl⟩

example : ∃ out, bvarPredict slopeModel 2 false = (slopeModel, .ok out) ∧ ∀ k < 2,
    extended slopeModel.data.rows out (slopeModel.data.rows.length + k) 0 ≠ varMean slopeModel.mu
      (extended slopeModel.data.rows out) ((slopeModel.data.rows.length + k : Nat) : ℝ) (slopeModel.data.rows.length + k) 0 := by
  obtain ⟨out, h1, h2⟩ := C121_time_violated slopeModel (by simp [slopeModel]) 2 (by omega) 0 (by simp [slopeModel])
  exact ⟨out, h1, fun k hk => (h2 k hk).2⟩

example : ∃ s s' : BvarModel 2 bumpParams.p.toNat, bvarFit bumpData bumpParams = .ok s
    ∧ (∃ out, bvarPredict s 3 true = (s', .ok out)) ∧ (bvarPredict s' 3 true).2 = .error .otherError := by
  obtain ⟨s, hs⟩ := bump_fit
  obtain ⟨s', out, outh, -, h2, -⟩ := C121_history_partial bumpData bumpParams s hs rfl 3 (by omega)
  exact ⟨s, s', hs, ⟨outh, h2⟩, C121_again_violated s s' 3 3 (by omega) outh h2⟩

example : bvarPredict slopeModel 0 false = (slopeModel, .error .valueError) := (C121_predict slopeModel 1 true).1

example : bvarInit bumpData { p := 0 } = .ok ⟨id, (· + 1)⟩ := (C121_params_violated bumpData (by simp) _ rfl _).1

/-- Eight lags of seven rows. -/
example : bvarFit bumpData { p := 8 } = .error .valueError :=
  C121_short bumpData _ _ (C121_params_violated bumpData (by simp) _ rfl _).1 (by simp [bumpData, bumpRows])

example : BvarParams.validate {} = .ok () := (C121_params _).2 (by norm_num)

/-- C121, the data: those of one variable and those without a regular frequency are refused with a `ValueError`, all others are
accepted, and their frequency is the one kept. -/
theorem C121_data {m : Nat} (d : BvarData m) (q : BvarParams) :
    (m = 1 ∨ d.freq = none → bvarInit d q = .error .valueError)
    ∧ ∀ f, bvarInit d q = .ok f ↔ m ≠ 1 ∧ d.freq = some f := by
  unfold bvarInit
  by_cases hm : m = 1
  · simp [hm]
  · rw [if_neg hm]
    cases hf : d.freq <;> simp [hm]

example (d : BvarData 1) : bvarInit d { p := 2 } = .error .valueError := (C121_data d _).1 (.inl rfl)

end Kats
