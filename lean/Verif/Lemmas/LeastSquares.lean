import Verif.Model.LeastSquares
import Mathlib.LinearAlgebra.Matrix.PosDef
import Mathlib.LinearAlgebra.Matrix.DotProduct
import Mathlib.Algebra.Polynomial.Roots
import Mathlib.Data.List.GetD
import Mathlib.Algebra.Order.Star.Real
import Mathlib.Tactic.Linarith

/-!
# Facts about least squares
-/

namespace Kats

open Classical Matrix

theorem rowsMatrix_mulVec (rows : List (List ℝ)) (p : Nat) (b : Fin p → ℝ) (i : Fin rows.length) :
    (rowsMatrix rows p *ᵥ b) i = ∑ j : Fin p, (rows.getD i []).getD j 0 * b j := rfl

/-- Pythagoras for the normal equations. -/
theorem normal_pythagoras {n p : Nat} (X : Matrix (Fin n) (Fin p) ℝ) (y : Fin n → ℝ) (b c : Fin p → ℝ)
    (h : Xᵀ *ᵥ (X *ᵥ b) = Xᵀ *ᵥ y) :
    ∑ i, (y i - (X *ᵥ c) i) ^ 2 = ∑ i, (y i - (X *ᵥ b) i) ^ 2 + ∑ i, ((X *ᵥ (b - c)) i) ^ 2 := by
  have h0 : (Xᵀ *ᵥ (y - X *ᵥ b)) = 0 := by rw [mulVec_sub, h, sub_self]
  have h1 : (y - X *ᵥ b) ⬝ᵥ (X *ᵥ (b - c)) = 0 := by
    rw [dotProduct_mulVec, ← mulVec_transpose, h0, zero_dotProduct]
  have h2 : ∀ i, (y i - (X *ᵥ c) i) ^ 2
      = (y i - (X *ᵥ b) i) ^ 2 + ((X *ᵥ (b - c)) i) ^ 2 + 2 * ((y - X *ᵥ b) i * (X *ᵥ (b - c)) i) := by
    intro i
    rw [mulVec_sub, Pi.sub_apply, Pi.sub_apply]
    ring
  rw [Finset.sum_congr rfl fun i _ => h2 i, Finset.sum_add_distrib, Finset.sum_add_distrib, ← Finset.mul_sum]
  have : ∑ i, (y - X *ᵥ b) i * (X *ᵥ (b - c)) i = 0 := h1
  rw [this]
  ring

theorem gram_solve {p : Nat} (rows : List (List ℝ)) (y : Fin rows.length → ℝ) (hu : IsUnit (gram rows p).det) :
    (rowsMatrix rows p)ᵀ *ᵥ (rowsMatrix rows p *ᵥ ((gram rows p)⁻¹ *ᵥ ((rowsMatrix rows p)ᵀ *ᵥ y)))
      = (rowsMatrix rows p)ᵀ *ᵥ y := by
  rw [mulVec_mulVec, show (rowsMatrix rows p)ᵀ * rowsMatrix rows p = gram rows p from rfl, mulVec_mulVec,
    mul_nonsing_inv _ hu, one_mulVec]

/-- The normal matrix is invertible when only the zero coefficients give zero on all rows. -/
theorem gram_unit (rows : List (List ℝ)) (p : Nat)
    (h : ∀ v : Fin p → ℝ, (∀ i : Fin rows.length, ∑ j : Fin p, (rows.getD i []).getD j 0 * v j = 0) → v = 0) :
    IsUnit (gram rows p).det := by
  rw [isUnit_iff_ne_zero]
  intro hd
  obtain ⟨v, hv, hz⟩ := exists_mulVec_eq_zero_iff.2 hd
  apply hv
  apply h
  intro i
  have h1 : (rowsMatrix rows p *ᵥ v) ⬝ᵥ (rowsMatrix rows p *ᵥ v) = 0 := by
    rw [dotProduct_mulVec, ← mulVec_transpose, mulVec_mulVec,
      show (rowsMatrix rows p)ᵀ * rowsMatrix rows p = gram rows p from rfl, hz, zero_dotProduct]
  have h2 := dotProduct_self_eq_zero.1 h1
  exact congrFun h2 i

theorem gram_inv_nonneg (rows : List (List ℝ)) (p : Nat) (x : Fin p → ℝ) :
    0 ≤ x ⬝ᵥ ((gram rows p)⁻¹ *ᵥ x) := by
  have h1 : (gram rows p).PosSemidef := by
    have := posSemidef_conjTranspose_mul_self (rowsMatrix rows p)
    rwa [conjTranspose_eq_transpose_of_trivial] at this
  have := h1.inv.dotProduct_mulVec_nonneg x
  simpa using this

theorem lstsq_of_unit {p : Nat} (pinv : List (List ℝ) → List ℝ → List ℝ) (rows : List (List ℝ)) (y : List ℝ)
    (hp : (rows.headD []).length = p) (hu : IsUnit (gram rows p).det) :
    lstsq pinv rows y = List.ofFn ((gram rows p)⁻¹ *ᵥ ((rowsMatrix rows p)ᵀ *ᵥ dataVec rows.length y)) := by
  subst hp
  exact if_pos hu

theorem leverage_eq {p : Nat} (rows : List (List ℝ)) (x : List ℝ) (hp : (rows.headD []).length = p) :
    leverage rows x = dataVec p x ⬝ᵥ ((gram rows p)⁻¹ *ᵥ dataVec p x) := by
  subst hp
  rfl

/-- Rows of the regression on the position, counted from `o`, and a constant. -/
noncomputable def lineRows (o : ℝ) (n : Nat) : List (List ℝ) := (List.range n).map fun i : Nat => [(i : ℝ) + o, 1]

theorem lineRows_length (o : ℝ) (n : Nat) : (lineRows o n).length = n := by simp [lineRows]

theorem lineRows_head (o : ℝ) (n : Nat) (hn : 0 < n) : ((lineRows o n).headD []).length = 2 := by
  obtain ⟨m, rfl⟩ : ∃ m, n = m + 1 := ⟨n - 1, by omega⟩
  simp [lineRows, List.range_succ_eq_map]

theorem lineRows_mulVec (o : ℝ) (n : Nat) (c : Fin 2 → ℝ) (i : Fin (lineRows o n).length) :
    (rowsMatrix (lineRows o n) 2 *ᵥ c) i = c 0 * (((i : ℕ) : ℝ) + o) + c 1 := by
  rw [rowsMatrix_mulVec, Fin.sum_univ_two]
  have hi : (i : ℕ) < n := i.2.trans_eq (lineRows_length o n)
  have h : (lineRows o n).getD i [] = [((i : ℕ) : ℝ) + o, 1] := by
    rw [List.getD_eq_getElem _ _ i.2]
    simp [lineRows]
  rw [h]
  simp
  ring

theorem lineRows_unit (o : ℝ) (n : Nat) (hn : 2 ≤ n) : IsUnit (gram (lineRows o n) 2).det := by
  apply gram_unit
  intro v hv
  have key : ∀ i < n, v 0 * ((i : ℝ) + o) + v 1 = 0 := by
    intro i hi
    have := lineRows_mulVec o n v ⟨i, by rwa [lineRows_length]⟩
    rw [rowsMatrix_mulVec] at this
    rw [← this]
    exact hv _
  have h0 := key 0 (by omega)
  have h1 := key 1 (by omega)
  push_cast at h0 h1
  have e0 : v 0 = 0 := by linarith
  have e1 : v 1 = 0 := by rw [e0] at h0; linarith
  funext j
  match j with
  | 0 => exact e0
  | 1 => exact e1

theorem lineRows_rss (o : ℝ) (y : List ℝ) (c : Fin 2 → ℝ) :
    ∑ i ∈ Finset.range y.length, (y.getD i 0 - (c 0 * ((i : ℝ) + o) + c 1)) ^ 2
      = ∑ i, (dataVec (lineRows o y.length).length y i - (rowsMatrix (lineRows o y.length) 2 *ᵥ c) i) ^ 2 := by
  simp only [lineRows_mulVec, dataVec]
  rw [Fin.sum_univ_eq_sum_range (fun i : Nat => (y.getD i 0 - (c 0 * ((i : ℝ) + o) + c 1)) ^ 2), lineRows_length]

/-- The least squares line exists and is unique for two points or more. -/
theorem lstsq_line (pinv : List (List ℝ) → List ℝ → List ℝ) (o : ℝ) (y : List ℝ) (hn : 2 ≤ y.length) :
    ∃ a b, lstsq pinv (lineRows o y.length) y = [a, b]
      ∧ ∀ a' b', ∑ i ∈ Finset.range y.length, (y.getD i 0 - (a * ((i : ℝ) + o) + b)) ^ 2
          ≤ ∑ i ∈ Finset.range y.length, (y.getD i 0 - (a' * ((i : ℝ) + o) + b')) ^ 2
        ∧ (∑ i ∈ Finset.range y.length, (y.getD i 0 - (a' * ((i : ℝ) + o) + b')) ^ 2
            = ∑ i ∈ Finset.range y.length, (y.getD i 0 - (a * ((i : ℝ) + o) + b)) ^ 2 → a' = a ∧ b' = b) := by
  obtain ⟨c, hc⟩ : ∃ c, c = (gram (lineRows o y.length) 2)⁻¹ *ᵥ ((rowsMatrix (lineRows o y.length) 2)ᵀ *ᵥ
    dataVec (lineRows o y.length).length y) := ⟨_, rfl⟩
  refine ⟨c 0, c 1, ?_, ?_⟩
  · rw [lstsq_of_unit pinv _ _ (lineRows_head o y.length (by omega)) (lineRows_unit o _ hn), ← hc]
    simp [List.ofFn_succ]
  · intro a' b'
    have hpy := normal_pythagoras (rowsMatrix (lineRows o y.length) 2) (dataVec (lineRows o y.length).length y) c
      ![a', b'] (by rw [hc]; exact gram_solve _ _ (lineRows_unit o _ hn))
    rw [← lineRows_rss, ← lineRows_rss] at hpy
    simp only [Matrix.cons_val_zero, Matrix.cons_val_one] at hpy
    have hnn : 0 ≤ ∑ i, ((rowsMatrix (lineRows o y.length) 2 *ᵥ (c - ![a', b'])) i) ^ 2 :=
      Finset.sum_nonneg fun i _ => sq_nonneg _
    refine ⟨by linarith, fun he => ?_⟩
    have hz : ∑ i, ((rowsMatrix (lineRows o y.length) 2 *ᵥ (c - ![a', b'])) i) ^ 2 = 0 := by linarith
    rw [Finset.sum_eq_zero_iff_of_nonneg fun i _ => sq_nonneg _] at hz
    have key : ∀ i < y.length, (c 0 - a') * ((i : ℝ) + o) + (c 1 - b') = 0 := by
      intro i hi
      have h1 := hz ⟨i, by rwa [lineRows_length]⟩ (Finset.mem_univ _)
      rw [lineRows_mulVec] at h1
      simpa using pow_eq_zero_iff (two_ne_zero) |>.1 h1
    have h0 := key 0 (by omega)
    have h1 := key 1 (by omega)
    push_cast at h0 h1
    have e : c 0 - a' = 0 := by linarith
    rw [e] at h0
    constructor <;> linarith

end Kats
