import Verif.Model.Harmonic
import Verif.Lemmas.LeastSquares
import Mathlib.Data.List.GetD
import Mathlib.Analysis.SpecialFunctions.Trigonometric.Basic
import Mathlib.Analysis.SpecialFunctions.Complex.Log
import Mathlib.Algebra.Polynomial.Roots

/-!
# C117: harmonic regression
-/

namespace Kats

open Classical Matrix

/-- A sum of harmonics of a period in hours at a time in seconds: `a 0` and `b 0` belong to the first. -/
noncomputable def harmSum (period : ℝ) (order : Nat) (a b : Nat → ℝ) (t : Int) : ℝ :=
  ∑ k ∈ Finset.range order, (a k * Real.sin (((k : ℝ) + 1) * (2 * Real.pi * ((t : ℝ) / (3600 * period))))
    + b k * Real.cos (((k : ℝ) + 1) * (2 * Real.pi * ((t : ℝ) / (3600 * period)))))

/-- The phases of the times, as fractions of the period. -/
noncomputable def harmPhases (period : ℝ) (times : List Int) : Finset ℝ :=
  times.toFinset.image fun t : Int => Int.fract ((t : ℝ) / (3600 * period))

/-- C117, the parameters: exactly positive periods and orders pass. -/
theorem C117_params (pinv : List (List ℝ) → List ℝ → List ℝ) (period : ℝ) (order : Int) (times dates : List Int)
    (values : List ℝ) :
    (harmParams period order = .ok (period, order.toNat) ↔ 0 < period ∧ 0 < order)
    ∧ (¬(0 < period ∧ 0 < order) → harmRun pinv period order times values dates = .error .valueError)
    ∧ harmPredict period order.toNat none dates = .error .valueError := by
  unfold harmRun harmParams
  refine ⟨?_, ?_, rfl⟩
  · by_cases h1 : period ≤ 0
    · rw [if_pos h1]
      exact ⟨fun h => (by cases h), fun h => absurd h.1 (not_lt.2 h1)⟩
    · rw [if_neg h1]
      by_cases h2 : order ≤ 0
      · rw [if_pos h2]
        exact ⟨fun h => (by cases h), fun h => absurd h.2 (not_lt.2 h2)⟩
      · rw [if_neg h2]
        exact ⟨fun _ => ⟨not_le.1 h1, not_le.1 h2⟩, fun _ => rfl⟩
  · intro h
    by_cases h1 : period ≤ 0
    · rw [if_pos h1]; rfl
    · rw [if_neg h1]
      by_cases h2 : order ≤ 0
      · rw [if_pos h2]; rfl
      · exact absurd ⟨not_le.1 h1, not_le.1 h2⟩ h

example : harmParams 24 3 = .ok (24, 3) := (C117_params (fun _ _ => []) 24 3 [] [] []).1.2 ⟨by norm_num, by norm_num⟩

/-! ### Rows -/

theorem flatMap_pair_length (f g : Nat → ℝ) (n : Nat) :
    ((List.range n).flatMap fun i => [f i, g i]).length = 2 * n := by
  induction n with
  | zero => rfl
  | succ n ih => rw [List.range_succ, List.flatMap_append, List.length_append, ih]; simp; omega

theorem flatMap_pair_getD (f g : Nat → ℝ) (n : Nat) : ∀ k < n,
    ((List.range n).flatMap fun i => [f i, g i]).getD (2 * k) 0 = f k
    ∧ ((List.range n).flatMap fun i => [f i, g i]).getD (2 * k + 1) 0 = g k := by
  induction n with
  | zero => intro k hk; omega
  | succ n ih =>
    intro k hk
    have hl := flatMap_pair_length f g n
    rw [List.range_succ, List.flatMap_append]
    by_cases h : k < n
    · rw [List.getD_append _ _ _ _ (by rw [hl]; omega), List.getD_append _ _ _ _ (by rw [hl]; omega)]
      exact ih k h
    · have : k = n := by omega
      subst this
      rw [List.getD_append_right _ _ _ _ (by rw [hl]), List.getD_append_right _ _ _ _ (by rw [hl]; omega), hl]
      simp

theorem sum_range_pairs (g : Nat → ℝ) (n : Nat) :
    ∑ j ∈ Finset.range (2 * n), g j = ∑ k ∈ Finset.range n, (g (2 * k) + g (2 * k + 1)) := by
  induction n with
  | zero => rfl
  | succ n ih => rw [show 2 * (n + 1) = 2 * n + 1 + 1 by ring, Finset.sum_range_succ, Finset.sum_range_succ, ih,
      Finset.sum_range_succ]; ring

theorem harmRow_length (period : ℝ) (order : Nat) (t : Int) : (harmRow period order t).length = 2 * order :=
  flatMap_pair_length _ _ _

/-- Coefficients `a`, `b` in the order of the columns. -/
def interleave (a b : Nat → ℝ) (j : Nat) : ℝ := if j % 2 = 0 then a (j / 2) else b (j / 2)

theorem harmRow_dot (period : ℝ) (order : Nat) (t : Int) (v : Nat → ℝ) :
    ∑ j ∈ Finset.range (2 * order), (harmRow period order t).getD j 0 * v j
      = harmSum period order (fun k => v (2 * k)) (fun k => v (2 * k + 1)) t := by
  rw [sum_range_pairs (fun j => (harmRow period order t).getD j 0 * v j)]
  apply Finset.sum_congr rfl
  intro k hk
  obtain ⟨h1, h2⟩ := flatMap_pair_getD
    (fun i : Nat => Real.sin (2 * ((i : ℝ) + 1) * Real.pi * ((t : ℝ) / 3600) / period))
    (fun i : Nat => Real.cos (2 * ((i : ℝ) + 1) * Real.pi * ((t : ℝ) / 3600) / period)) order k (Finset.mem_range.1 hk)
  have e : 2 * ((k : ℝ) + 1) * Real.pi * ((t : ℝ) / 3600) / period
      = ((k : ℝ) + 1) * (2 * Real.pi * ((t : ℝ) / (3600 * period))) := by
    rw [div_mul_eq_div_div]; ring
  rw [e] at h1 h2
  unfold harmRow
  rw [h1, h2]
  ring

theorem zipWith_mul_sum (l : List ℝ) : ∀ r : List ℝ, r.length = l.length →
    (List.zipWith (· * ·) l r).sum = ∑ j ∈ Finset.range l.length, r.getD j 0 * l.getD j 0 := by
  induction l with
  | nil => intro r hr; simp
  | cons x l ih =>
    intro r hr
    cases r with
    | nil => simp at hr
    | cons z r =>
      rw [List.zipWith_cons_cons, List.sum_cons, ih r (by simpa using hr), List.length_cons, Finset.sum_range_succ']
      simp only [List.getD_cons_succ, List.getD_cons_zero]
      ring

/-! ### A sum of `order` harmonics with `2 * order + 1` zeros is zero -/

open Polynomial in
/-- The polynomial whose value on the unit circle is a sum of harmonics times a power. -/
noncomputable def harmPoly (order : Nat) (a b : Nat → ℝ) : ℂ[X] :=
  ∑ k ∈ Finset.range order, (C (((b k : ℂ) - Complex.I * a k) / 2) * X ^ (order + (k + 1))
    + C (((b k : ℂ) + Complex.I * a k) / 2) * X ^ (order - (k + 1)))

open Polynomial in
theorem harmPoly_eval (order : Nat) (a b : Nat → ℝ) (x : ℝ) :
    (harmPoly order a b).eval (Complex.exp (x * Complex.I)) = Complex.exp (x * Complex.I) ^ order
      * ((∑ k ∈ Finset.range order, (a k * Real.sin (((k : ℝ) + 1) * x) + b k * Real.cos (((k : ℝ) + 1) * x)) : ℝ) : ℂ) := by
  unfold harmPoly
  rw [eval_finset_sum, Complex.ofReal_sum, Finset.mul_sum]
  apply Finset.sum_congr rfl
  intro k hk
  have hk := Finset.mem_range.1 hk
  simp only [eval_add, eval_mul, eval_C, eval_pow, eval_X]
  have hz : Complex.exp (x * Complex.I) ≠ 0 := Complex.exp_ne_zero _
  have h1 : Complex.exp (x * Complex.I) ^ (order - (k + 1)) = Complex.exp (x * Complex.I) ^ order
      * Complex.exp (-(((k : ℂ) + 1) * x * Complex.I)) := by
    rw [pow_sub₀ _ hz (by omega), Complex.exp_neg, ← Complex.exp_nat_mul _ (k + 1)]
    congr 3
    push_cast; ring
  have h2 : Complex.exp (x * Complex.I) ^ (order + (k + 1)) = Complex.exp (x * Complex.I) ^ order
      * Complex.exp (((k : ℂ) + 1) * x * Complex.I) := by
    rw [pow_add, ← Complex.exp_nat_mul _ (k + 1)]
    congr 2
    push_cast; ring
  rw [h1, h2]
  generalize Complex.exp (x * Complex.I) ^ order = w
  rw [← neg_mul, Complex.exp_mul_I, Complex.exp_mul_I, Complex.cos_neg, Complex.sin_neg]
  push_cast
  have hI : Complex.I * Complex.I = -1 := Complex.I_mul_I
  linear_combination (-w * a k * Complex.sin (((k : ℂ) + 1) * x)) * hI

open Polynomial in
theorem harmPoly_coeff (order : Nat) (a b : Nat → ℝ) (k : Nat) (hk : k < order) :
    (harmPoly order a b).coeff (order + (k + 1)) = ((b k : ℂ) - Complex.I * a k) / 2 := by
  unfold harmPoly
  rw [finset_sum_coeff]
  rw [Finset.sum_eq_single k]
  · rw [coeff_add, coeff_C_mul_X_pow, coeff_C_mul_X_pow, if_pos rfl, if_neg (by omega), add_zero]
  · intro j hj hne
    rw [coeff_add, coeff_C_mul_X_pow, coeff_C_mul_X_pow, if_neg (by omega), if_neg (by omega), add_zero]
  · intro h; exact absurd (Finset.mem_range.2 hk) h

open Polynomial in
theorem harmPoly_degree (order : Nat) (a b : Nat → ℝ) : (harmPoly order a b).natDegree ≤ 2 * order := by
  unfold harmPoly
  apply natDegree_sum_le_of_forall_le
  intro k hk
  have hk := Finset.mem_range.1 hk
  refine (natDegree_add_le _ _).trans (max_le ?_ ?_)
  · exact (natDegree_C_mul_X_pow_le _ _).trans (by omega)
  · exact (natDegree_C_mul_X_pow_le _ _).trans (by omega)

theorem exp_phase_inj (x y : ℝ) (h : Complex.exp ((2 * Real.pi * x : ℝ) * Complex.I)
    = Complex.exp ((2 * Real.pi * y : ℝ) * Complex.I)) : Int.fract x = Int.fract y := by
  obtain ⟨n, hn⟩ := Complex.exp_eq_exp_iff_exists_int.1 h
  have h2 : ((2 * Real.pi * x : ℝ) : ℂ) = (2 * Real.pi * y : ℝ) + n * (2 * Real.pi) := by
    have := mul_right_cancel₀ Complex.I_ne_zero (a := ((2 * Real.pi * x : ℝ) : ℂ))
      (c := (2 * Real.pi * y : ℝ) + n * (2 * Real.pi)) (by rw [hn]; ring)
    exact this
  have h3 : 2 * Real.pi * x = 2 * Real.pi * y + n * (2 * Real.pi) := by exact_mod_cast h2
  have h4 : x = y + n := by
    have : 2 * Real.pi * x = 2 * Real.pi * (y + n) := by rw [h3]; ring
    exact mul_left_cancel₀ (by positivity) this
  rw [h4, Int.fract_add_intCast]

theorem harmSum_zero (period : ℝ) (order : Nat) (times : List Int) (a b : Nat → ℝ)
    (hp : 2 * order < (harmPhases period times).card) (h : ∀ t ∈ times, harmSum period order a b t = 0) :
    ∀ k < order, a k = 0 ∧ b k = 0 := by
  have hz : harmPoly order a b = 0 := by
    obtain ⟨z, hzd⟩ : ∃ z : ℝ → ℂ, z = fun x => Complex.exp ((2 * Real.pi * x : ℝ) * Complex.I) := ⟨_, rfl⟩
    have hinj : Set.InjOn z (harmPhases period times) := by
      intro x hx y hy hxy
      rw [hzd] at hxy
      have := exp_phase_inj x y hxy
      obtain ⟨t, _, rfl⟩ := Finset.mem_image.1 hx
      obtain ⟨s, _, rfl⟩ := Finset.mem_image.1 hy
      rwa [Int.fract_fract, Int.fract_fract] at this
    apply Polynomial.eq_zero_of_natDegree_lt_card_of_eval_eq_zero' _ ((harmPhases period times).image z)
    · intro w hw
      obtain ⟨x, hx, rfl⟩ := Finset.mem_image.1 hw
      obtain ⟨t, ht, rfl⟩ := Finset.mem_image.1 hx
      have hfr : z (Int.fract ((t : ℝ) / (3600 * period))) = z ((t : ℝ) / (3600 * period)) := by
        rw [hzd]
        apply Complex.exp_eq_exp_iff_exists_int.2
        refine ⟨-⌊(t : ℝ) / (3600 * period)⌋, ?_⟩
        unfold Int.fract
        push_cast
        ring
      rw [hfr, hzd, harmPoly_eval]
      have := h t (List.mem_toFinset.1 ht)
      unfold harmSum at this
      rw [this]
      simp
    · rw [Finset.card_image_of_injOn hinj]
      exact (harmPoly_degree order a b).trans_lt hp
  intro k hk
  have := harmPoly_coeff order a b k hk
  rw [hz, Polynomial.coeff_zero] at this
  have h1 : (b k : ℂ) - Complex.I * a k = 0 := by
    have := this.symm
    rw [div_eq_zero_iff] at this
    rcases this with h | h
    · exact h
    · norm_num at h
  have hre := congrArg Complex.re h1
  have him := congrArg Complex.im h1
  simp at hre him
  exact ⟨him, hre⟩

/-! ### The fit -/

theorem lstsq_best {p : Nat} (pinv : List (List ℝ) → List ℝ → List ℝ) (rows : List (List ℝ)) (y : List ℝ)
    (hp : (rows.headD []).length = p) (hu : IsUnit (gram rows p).det) :
    ∃ v : Fin p → ℝ, lstsq pinv rows y = List.ofFn v ∧ ∀ c : Fin p → ℝ,
      ∑ i, (dataVec rows.length y i - (rowsMatrix rows p *ᵥ v) i) ^ 2
        ≤ ∑ i, (dataVec rows.length y i - (rowsMatrix rows p *ᵥ c) i) ^ 2
      ∧ (∑ i, (dataVec rows.length y i - (rowsMatrix rows p *ᵥ c) i) ^ 2
          = ∑ i, (dataVec rows.length y i - (rowsMatrix rows p *ᵥ v) i) ^ 2 → c = v) := by
  refine ⟨_, lstsq_of_unit pinv rows y hp hu, ?_⟩
  intro c
  have h := normal_pythagoras (rowsMatrix rows p) (dataVec rows.length y) _ c (gram_solve rows _ hu)
  generalize (gram rows p)⁻¹ *ᵥ ((rowsMatrix rows p)ᵀ *ᵥ dataVec rows.length y) = v at h
  have hnn : 0 ≤ ∑ i, ((rowsMatrix rows p *ᵥ (v - c)) i) ^ 2 := Finset.sum_nonneg fun i _ => sq_nonneg _
  refine ⟨by linarith, fun he => ?_⟩
  have h0 : ∑ i, ((rowsMatrix rows p *ᵥ (v - c)) i) ^ 2 = 0 := by linarith
  have hz : rowsMatrix rows p *ᵥ (v - c) = 0 := by
    funext i
    have := (Finset.sum_eq_zero_iff_of_nonneg fun i _ => sq_nonneg _).1 h0 i (Finset.mem_univ i)
    exact pow_eq_zero_iff (two_ne_zero) |>.1 this
  have hg : gram rows p *ᵥ (v - c) = 0 := by
    unfold gram
    rw [← mulVec_mulVec, hz, mulVec_zero]
  have : v - c = 0 := by
    have := congrArg ((gram rows p)⁻¹ *ᵥ ·) hg
    simpa [mulVec_mulVec, nonsing_inv_mul _ hu] using this
  exact (sub_eq_zero.1 this).symm

/-- Sum of the squared differences of the data, less a level, and a sum of harmonics. -/
noncomputable def harmRss (period : ℝ) (order : Nat) (times : List Int) (values : List ℝ) (level : ℝ) (a b : Nat → ℝ) :
    ℝ :=
  ∑ i ∈ Finset.range values.length, (values.getD i 0 - level - harmSum period order a b (times.getD i 0)) ^ 2

theorem harmRow_fin (period : ℝ) (order : Nat) (t : Int) (v : Nat → ℝ) :
    ∑ j : Fin (2 * order), (harmRow period order t).getD j 0 * v j
      = harmSum period order (fun k => v (2 * k)) (fun k => v (2 * k + 1)) t := by
  rw [← harmRow_dot, Fin.sum_univ_eq_sum_range (fun j => (harmRow period order t).getD j 0 * v j)]

theorem harm_rss_matrix (period : ℝ) (order : Nat) (times : List Int) (values : List ℝ) (level : ℝ) (v : Nat → ℝ)
    (ht : times.length = values.length) :
    ∑ i, (dataVec (times.map (harmRow period order)).length (values.map (· - level)) i
      - (rowsMatrix (times.map (harmRow period order)) (2 * order) *ᵥ fun j => v j) i) ^ 2
    = harmRss period order times values level (fun k => v (2 * k)) (fun k => v (2 * k + 1)) := by
  have hlen : (times.map (harmRow period order)).length = values.length := by simp [ht]
  unfold harmRss
  rw [← hlen, ← Fin.sum_univ_eq_sum_range (fun i : Nat => (values.getD i 0 - level
    - harmSum period order (fun k => v (2 * k)) (fun k => v (2 * k + 1)) (times.getD i 0)) ^ 2)]
  apply Finset.sum_congr rfl
  intro i _
  have hi : (i : Nat) < values.length := i.2.trans_eq hlen
  rw [rowsMatrix_mulVec, List.getD_eq_getElem _ _ i.2, List.getElem_map, harmRow_fin, dataVec,
    List.getD_eq_getElem _ _ (by simpa using hi), List.getElem_map, List.getD_eq_getElem _ _ hi,
    List.getD_eq_getElem _ _ (by omega)]

theorem harmPhases_card_le (period : ℝ) (times : List Int) : (harmPhases period times).card ≤ times.length :=
  Finset.card_image_le.trans (List.toFinset_card_le times)

theorem harm_unit (period : ℝ) (order : Nat) (times : List Int) (hp : 2 * order < (harmPhases period times).card) :
    IsUnit (gram (times.map (harmRow period order)) (2 * order)).det := by
  apply gram_unit
  intro v hv
  obtain ⟨w, hw⟩ : ∃ w : Nat → ℝ, ∀ j : Fin (2 * order), w j = v j :=
    ⟨fun j => if h : j < 2 * order then v ⟨j, h⟩ else 0, fun j => by simp⟩
  have := harmSum_zero period order times (fun k => w (2 * k)) (fun k => w (2 * k + 1)) hp (by
    intro t ht
    obtain ⟨i, hi, rfl⟩ := List.mem_iff_getElem.1 ht
    have h := hv ⟨i, by simpa using hi⟩
    rw [List.getD_eq_getElem _ _ (by simpa using hi), List.getElem_map] at h
    rw [← harmRow_fin]
    refine Eq.trans (Finset.sum_congr rfl fun j _ => ?_) h
    rw [hw])
  funext j
  rw [← hw]
  have hj := j.2
  rcases Nat.even_or_odd' (j : Nat) with ⟨k, hk | hk⟩
  · rw [hk]; exact (this k (by omega)).1
  · rw [hk]; exact (this k (by omega)).2

theorem harmRun_ok (pinv : List (List ℝ) → List ℝ → List ℝ) (period : ℝ) (hper : 0 < period) (order : Nat)
    (ho : 0 < order) (times : List Int) (values : List ℝ) (ht : times.length = values.length)
    (hp : 2 * order < (harmPhases period times).card) :
    ∃ v : Nat → ℝ, (∀ dates, harmRun pinv period order times values dates
        = .ok (dates.map fun d => (d, harmSum period order (fun k => v (2 * k)) (fun k => v (2 * k + 1)) d)))
      ∧ ∀ c : Nat → ℝ,
        harmRss period order times values (values.sum / values.length) (fun k => v (2 * k)) (fun k => v (2 * k + 1))
          ≤ harmRss period order times values (values.sum / values.length) (fun k => c (2 * k)) (fun k => c (2 * k + 1))
        ∧ (harmRss period order times values (values.sum / values.length) (fun k => c (2 * k)) (fun k => c (2 * k + 1))
          = harmRss period order times values (values.sum / values.length) (fun k => v (2 * k)) (fun k => v (2 * k + 1))
          → ∀ j < 2 * order, c j = v j) := by
  have hcard := harmPhases_card_le period times
  have hhead : ((times.map (harmRow period order)).headD []).length = 2 * order := by
    cases times with
    | nil => rw [List.length_nil] at hcard; omega
    | cons t l => simp [harmRow_length]
  obtain ⟨u, hu, hb⟩ := lstsq_best pinv (times.map (harmRow period order)) (values.map (· - meanOf values)) hhead
    (harm_unit period order times hp)
  obtain ⟨v, hv⟩ : ∃ w : Nat → ℝ, ∀ j : Fin (2 * order), w j = u j :=
    ⟨fun j => if h : j < 2 * order then u ⟨j, h⟩ else 0, fun j => by simp⟩
  have huv : u = fun j : Fin (2 * order) => v j := funext fun j => (hv j).symm
  subst huv
  refine ⟨v, ?_, ?_⟩
  · intro dates
    unfold harmRun harmParams harmFit
    have hne : (values.map (· - meanOf values)).isEmpty = false := by
      rw [List.isEmpty_eq_false_iff_exists_mem]
      exact ⟨_, List.getElem_mem (l := values.map (· - meanOf values)) (n := 0) (by simp; omega)⟩
    simp only [if_neg (not_le.2 hper), if_neg (not_le.2 (Int.natCast_pos.2 ho)), bind, Except.bind, Int.toNat_natCast,
      hne, Bool.false_eq_true, if_false]
    rw [if_neg (by simp; omega)]
    simp only [harmPredict, hu]
    congr 1
    apply List.map_congr_left
    intro d _
    rw [zipWith_mul_sum _ _ (by rw [harmRow_length]; simp), List.length_ofFn, ← harmRow_dot]
    congr 1
    apply Finset.sum_congr rfl
    intro j hj
    rw [List.getD_eq_getElem (List.ofFn _) _ (by simpa using hj), List.getElem_ofFn]
  · intro c
    have h := hb fun j => c j
    rw [harm_rss_matrix _ _ _ _ _ _ ht, harm_rss_matrix _ _ _ _ _ _ ht] at h
    refine ⟨h.1, fun he j hj => ?_⟩
    exact congrFun (h.2 he) ⟨j, hj⟩

theorem interleave_even (a b : Nat → ℝ) : (fun k => interleave a b (2 * k)) = a := by
  funext k; simp [interleave]

theorem interleave_odd (a b : Nat → ℝ) : (fun k => interleave a b (2 * k + 1)) = b := by
  funext k
  have : (2 * k + 1) / 2 = k := by omega
  simp [interleave, this, Nat.add_mod]

/-- C117, the fit: if the times have more different phases than there are coefficients, `fit` and `predict` forecast
with the sum of harmonics of the period whose squared differences from the data less their mean add up to the least
value, and no other coefficients attain it. -/
theorem C117_least_squares (pinv : List (List ℝ) → List ℝ → List ℝ) (period : ℝ) (hper : 0 < period) (order : Nat)
    (ho : 0 < order) (times : List Int) (values : List ℝ) (ht : times.length = values.length)
    (hp : 2 * order < (harmPhases period times).card) :
    ∃ a b : Nat → ℝ, (∀ dates, harmRun pinv period order times values dates
        = .ok (dates.map fun d => (d, harmSum period order a b d)))
      ∧ ∀ a' b' : Nat → ℝ,
        harmRss period order times values (values.sum / values.length) a b
          ≤ harmRss period order times values (values.sum / values.length) a' b'
        ∧ (harmRss period order times values (values.sum / values.length) a' b'
            = harmRss period order times values (values.sum / values.length) a b
          → ∀ k < order, a' k = a k ∧ b' k = b k) := by
  obtain ⟨v, h1, h2⟩ := harmRun_ok pinv period hper order ho times values ht hp
  refine ⟨_, _, h1, fun a' b' => ?_⟩
  have := h2 (interleave a' b')
  simp only [interleave_even, interleave_odd] at this
  refine ⟨this.1, fun he k hk => ?_⟩
  have hj := this.2 he
  have e1 := congrFun (interleave_even a' b') k
  have e2 := congrFun (interleave_odd a' b') k
  exact ⟨e1 ▸ hj (2 * k) (by omega), e2 ▸ hj (2 * k + 1) (by omega)⟩

/-- A series of a level and harmonics that cancel over the data. -/
theorem harm_level_run (pinv : List (List ℝ) → List ℝ → List ℝ) (period : ℝ) (hper : 0 < period) (order : Nat)
    (ho : 0 < order) (times : List Int) (c : ℝ) (a b : Nat → ℝ) (hp : 2 * order < (harmPhases period times).card)
    (h0 : (times.map (harmSum period order a b)).sum = 0) (dates : List Int) :
    harmRun pinv period order times (times.map fun t => c + harmSum period order a b t) dates
      = .ok (dates.map fun d => (d, harmSum period order a b d)) := by
  obtain ⟨v, w, h1, h2⟩ := C117_least_squares pinv period hper order ho times
    (times.map fun t => c + harmSum period order a b t) (by simp) hp
  have hcard := harmPhases_card_le period times
  have hn : (0 : ℝ) < times.length := by exact_mod_cast (by omega)
  have hm : (times.map fun t => c + harmSum period order a b t).sum
      / ((times.map fun t => c + harmSum period order a b t).length : ℝ) = c := by
    rw [List.sum_map_add, h0, List.map_const', List.sum_replicate, List.length_map, add_zero, nsmul_eq_mul]
    field_simp
  have hz : harmRss period order times (times.map fun t => c + harmSum period order a b t) c a b = 0 := by
    unfold harmRss
    apply Finset.sum_eq_zero
    intro i hi
    have hi : i < times.length := by simpa using hi
    rw [List.getD_eq_getElem _ _ (by simpa using hi), List.getElem_map, List.getD_eq_getElem _ _ hi]
    ring
  rw [hm] at h2
  have hle := h2 a b
  have hz' : harmRss period order times (times.map fun t => c + harmSum period order a b t) c v w = 0 :=
    le_antisymm (hle.1.trans hz.le) (Finset.sum_nonneg fun i _ => sq_nonneg _)
  have hk := hle.2 (by rw [hz, hz'])
  rw [h1 dates]
  congr 1
  apply List.map_congr_left
  intro d _
  congr 1
  apply Finset.sum_congr rfl
  intro k hk'
  obtain ⟨e1, e2⟩ := hk k (Finset.mem_range.1 hk')
  rw [e1, e2]

/-- C117, reproduction as far as it holds: data that are a sum of harmonics with mean zero are continued exactly. -/
theorem C117_exact_partial (pinv : List (List ℝ) → List ℝ → List ℝ) (period : ℝ) (hper : 0 < period) (order : Nat)
    (ho : 0 < order) (times : List Int) (a b : Nat → ℝ) (hp : 2 * order < (harmPhases period times).card)
    (h0 : (times.map (harmSum period order a b)).sum = 0) (dates : List Int) :
    harmRun pinv period order times (times.map (harmSum period order a b)) dates
      = .ok (dates.map fun d => (d, harmSum period order a b d)) := by
  have := harm_level_run pinv period hper order ho times 0 a b hp h0 dates
  simpa using this

/-- C117 is violated as to the level of the data: `fit` takes the mean off and `predict` never puts it back.  Data
that are a level plus harmonics are forecast by the harmonics alone, so every forecast is off by the level; in
particular the forecasts of a constant series are 0. -/
theorem C117_level_violated (pinv : List (List ℝ) → List ℝ → List ℝ) (period : ℝ) (hper : 0 < period) (order : Nat)
    (ho : 0 < order) (times : List Int) (c : ℝ) (hp : 2 * order < (harmPhases period times).card) (dates : List Int) :
    (∀ a b : Nat → ℝ, (times.map (harmSum period order a b)).sum = 0 →
      harmRun pinv period order times (times.map fun t => c + harmSum period order a b t) dates
        = .ok (dates.map fun d => (d, harmSum period order a b d)))
    ∧ harmRun pinv period order times (times.map fun _ => c) dates = .ok (dates.map fun d => (d, 0)) := by
  refine ⟨fun a b h0 => harm_level_run pinv period hper order ho times c a b hp h0 dates, ?_⟩
  have hz : harmSum period order (fun _ => 0) (fun _ => 0) = fun _ => 0 := by
    funext t; simp [harmSum]
  have := harm_level_run pinv period hper order ho times c (fun _ => 0) (fun _ => 0) hp (by rw [hz]; simp) dates
  rw [hz] at this
  simpa using this

/-- C117, a level has no influence at all: data shifted by a constant get the same forecasts, or the same exception. -/
theorem C117_shift (pinv : List (List ℝ) → List ℝ → List ℝ) (period : ℝ) (order : Int) (times : List Int)
    (values : List ℝ) (c : ℝ) (dates : List Int) :
    harmRun pinv period order times (values.map (· + c)) dates = harmRun pinv period order times values dates := by
  have h : (values.map (· + c)).map (· - meanOf (values.map (· + c))) = values.map (· - meanOf values) := by
    by_cases hv : values = []
    · subst hv; rfl
    have hm : meanOf (values.map (· + c)) = meanOf values + c := by
      have hn : (values.length : ℝ) ≠ 0 := by
        have := List.length_pos_iff.2 hv
        positivity
      unfold meanOf
      rw [List.sum_map_add, List.map_const', List.sum_replicate, List.length_map, nsmul_eq_mul, List.map_id']
      field_simp
    rw [hm, List.map_map]
    apply List.map_congr_left
    intro x _
    simp only [Function.comp_apply]
    ring
  unfold harmRun harmFit
  simp only [h]

theorem harmRow_periodic (period : ℝ) (hper : 0 < period) (order : Nat) (d s k : Int) (hs : (s : ℝ) = 3600 * period) :
    harmRow period order (d + k * s) = harmRow period order d := by
  unfold harmRow
  apply List.flatMap_congr
  intro i _
  have e : 2 * ((i : ℝ) + 1) * Real.pi * (((d + k * s : Int) : ℝ) / 3600) / period
      = 2 * ((i : ℝ) + 1) * Real.pi * ((d : ℝ) / 3600) / period + ((((i : Int) + 1) * k : Int) : ℝ) * (2 * Real.pi) := by
    push_cast
    rw [hs]
    field_simp
  rw [e, Real.sin_add_int_mul_two_pi, Real.cos_add_int_mul_two_pi]

/-- C117, the forecast repeats with the period (if it is a whole number of seconds): dates moved by whole periods get
the same forecasts. -/
theorem C117_periodic (pinv : List (List ℝ) → List ℝ → List ℝ) (period : ℝ) (hper : 0 < period) (order : Int)
    (times : List Int) (values : List ℝ) (s k : Int) (hs : (s : ℝ) = 3600 * period) (dates : List Int)
    (out : List (Int × ℝ)) (h : harmRun pinv period order times values dates = .ok out) :
    harmRun pinv period order times values (dates.map (· + k * s)) = .ok (out.map fun r => (r.1 + k * s, r.2)) := by
  unfold harmRun at h ⊢
  simp only [bind, Except.bind] at h ⊢
  cases hq : harmParams period order with
  | error e => rw [hq] at h; cases h
  | ok p =>
    rw [hq] at h
    simp only at h ⊢
    have hp1 : p.1 = period := by
      unfold harmParams at hq
      split at hq
      · cases hq
      · split at hq
        · cases hq
        · cases hq; rfl
    cases hc : harmFit pinv p.1 p.2 times values with
    | error e => rw [hc] at h; cases h
    | ok c =>
      rw [hc] at h
      simp only [harmPredict] at h ⊢
      injection h with h
      rw [← h, List.map_map, List.map_map]
      congr 1
      apply List.map_congr_left
      intro d _
      simp only [Function.comp_apply]
      rw [hp1, harmRow_periodic period hper p.2 d s k hs]

/-- Five hours of data with a period of eight hours have five phases. -/
theorem harmPhases_example : 2 * 1 < (harmPhases 8 [0, 3600, 7200, 10800, 14400]).card := by
  have h : harmPhases 8 [0, 3600, 7200, 10800, 14400] = {0, 1 / 8, 1 / 4, 3 / 8, 1 / 2} := by
    unfold harmPhases
    have f : ∀ (t : Int) (q : ℝ), 0 ≤ q → q < 1 → (t : ℝ) / (3600 * 8) = q → Int.fract ((t : ℝ) / (3600 * 8)) = q := by
      intro t q h1 h2 h3
      rw [h3, Int.fract_eq_self.2 ⟨h1, h2⟩]
    simp only [List.toFinset_cons, List.toFinset_nil, Finset.image_insert, LawfulSingleton.insert_empty_eq,
      Finset.image_singleton]
    rw [f 0 0 (by norm_num) (by norm_num) (by norm_num), f 3600 (1 / 8) (by norm_num) (by norm_num) (by norm_num),
      f 7200 (1 / 4) (by norm_num) (by norm_num) (by norm_num), f 10800 (3 / 8) (by norm_num) (by norm_num) (by norm_num),
      f 14400 (1 / 2) (by norm_num) (by norm_num) (by norm_num)]
  rw [h]
  rw [Finset.card_insert_of_notMem, Finset.card_insert_of_notMem, Finset.card_insert_of_notMem,
    Finset.card_insert_of_notMem, Finset.card_singleton]
  all_goals norm_num

example (pinv : List (List ℝ) → List ℝ → List ℝ) (values : List ℝ) (hv : values.length = 5) :
    ∃ a b : Nat → ℝ, ∀ dates, harmRun pinv 8 1 [0, 3600, 7200, 10800, 14400] values dates
      = .ok (dates.map fun d => (d, harmSum 8 1 a b d)) := by
  obtain ⟨a, b, h, _⟩ := C117_least_squares pinv 8 (by norm_num) 1 (by norm_num) [0, 3600, 7200, 10800, 14400] values
    (by simp [hv]) harmPhases_example
  exact ⟨a, b, h⟩

example (pinv : List (List ℝ) → List ℝ → List ℝ) :
    harmRun pinv 8 1 [0, 3600, 7200, 10800, 14400] [7, 7, 7, 7, 7] [18000] = .ok [(18000, 0)] :=
  (C117_level_violated pinv 8 (by norm_num) 1 (by norm_num) [0, 3600, 7200, 10800, 14400] 7 harmPhases_example
    [18000]).2

/-- A cosine of eight hours over the hours 0 to 4 has sum 0. -/
example (pinv : List (List ℝ) → List ℝ → List ℝ) :
    harmRun pinv 8 1 [0, 3600, 7200, 10800, 14400]
      ([0, 3600, 7200, 10800, 14400].map (harmSum 8 1 (fun _ => 0) fun _ => 1)) [28800]
      = .ok [(28800, 1)] := by
  have hx : ∀ t : Int, harmSum 8 1 (fun _ => 0) (fun _ => 1) t = Real.cos (Real.pi * ((t : ℝ) / 14400)) := by
    intro t
    simp only [harmSum, Finset.sum_range_one, zero_mul, zero_add, one_mul, Nat.cast_zero]
    congr 1; ring
  have h := C117_exact_partial pinv 8 (by norm_num) 1 (by norm_num) [0, 3600, 7200, 10800, 14400] (fun _ => 0)
    (fun _ => 1) harmPhases_example (by
      simp only [List.map_cons, List.map_nil, hx, List.sum_cons, List.sum_nil]
      have e1 : Real.pi * (((3600 : Int) : ℝ) / 14400) = Real.pi / 4 := by push_cast; ring
      have e2 : Real.pi * (((7200 : Int) : ℝ) / 14400) = Real.pi / 2 := by push_cast; ring
      have e3 : Real.pi * (((10800 : Int) : ℝ) / 14400) = Real.pi - Real.pi / 4 := by push_cast; ring
      have e4 : Real.pi * (((14400 : Int) : ℝ) / 14400) = Real.pi := by push_cast; ring
      rw [e1, e2, e3, e4, Real.cos_pi_sub, Real.cos_pi_div_two, Real.cos_pi]
      simp) [28800]
  refine h.trans ?_
  simp only [List.map_cons, List.map_nil, hx]
  have : Real.pi * (((28800 : Int) : ℝ) / 14400) = 2 * Real.pi := by push_cast; ring
  rw [this, Real.cos_two_pi]

example (pinv : List (List ℝ) → List ℝ → List ℝ) (values : List ℝ) (out : List (Int × ℝ))
    (h : harmRun pinv 24 2 [0, 3600, 7200, 10800, 14400] values [0, 3600] = .ok out) :
    harmRun pinv 24 2 [0, 3600, 7200, 10800, 14400] values [86400, 90000] = .ok (out.map fun r => (r.1 + 1 * 86400, r.2)) :=
  C117_periodic pinv 24 (by norm_num) 2 _ values 86400 1 (by norm_num) [0, 3600] out h

end Kats
