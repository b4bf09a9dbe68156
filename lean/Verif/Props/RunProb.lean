import Verif.Lemmas.RunProb
import Mathlib.Tactic.NormNum

/-!
# Properties of the multiple-testing correction (C24 - C26, C57)
-/

set_option linter.unusedSimpArgs false

namespace Kats

section
variable {K : Type} [Field K]

/-! ## C24 -/

/-- C24: the matrix formula gives the exact probability of a run, for every `p`. -/
theorem C24_exact (p : K) {n m : Nat} (hm : 1 ≤ m) (hn : m ≤ n) :
    runProb p n m = .ok (exactRunProb p n m) :=
  runProb_ok hm hn p

example : runProb (1/2 : ℚ) 3 2 = .ok (3/8) ∧ exactRunProb (1/2 : ℚ) 3 2 = 3/8 := by decide +kernel

/-- C24: an impossible request (no run length, or longer than the number of tests) is rejected. -/
theorem C24_rejects (p : K) {n m : Nat} (h : m = 0 ∨ n < m) :
    runProb p n m = .error .valueError := by
  unfold runProb
  split_ifs <;> first | rfl | omega

example : runProb (1/2 : ℚ) 2 3 = .error .valueError := C24_rejects _ (by decide)

variable [LinearOrder K] [IsStrictOrderedRing K]

/-- C24: for a probability `p` the result is a probability, is monotone in `p` and in the number of
tests, and is sandwiched between the disjoint-blocks bound and the union bound. -/
theorem C24_bounds {p : K} (h0 : 0 ≤ p) (h1 : p ≤ 1) {n m : Nat} (hm : 1 ≤ m) (hn : m ≤ n) :
    ∃ r, runProb p n m = .ok r ∧ 0 ≤ r ∧ r ≤ 1 ∧ r ≤ n * p ^ m ∧ 1 - (1 - p ^ m) ^ (n / m) ≤ r ∧
      (∀ q, p ≤ q → q ≤ 1 → ∃ r', runProb q n m = .ok r' ∧ r ≤ r') ∧
      (∃ r', runProb p (n + 1) m = .ok r' ∧ r ≤ r') := by
  refine ⟨_, runProb_ok hm hn p, exact_nonneg h0 h1 n m, exact_le_one h0 h1 n m,
    exact_union h0 h1 m n hm, ?_, ?_, ?_⟩
  · exact (exact_blocks h0 h1 m hm (n / m)).trans
      (exact_mono_n' h0 h1 m (Nat.div_mul_le_self n m))
  · intro q hpq hq
    exact ⟨_, runProb_ok hm hn q, exact_mono_p h0 hpq hq n m⟩
  · exact ⟨_, runProb_ok hm (by omega) p, exact_mono_n h0 h1 m n⟩

example : runProb (1/3 : ℚ) 4 2 = .ok (7/27) ∧ (7/27 : ℚ) ≤ 4 * (1/3) ^ 2 ∧
    1 - (1 - (1/3 : ℚ) ^ 2) ^ (4 / 2) ≤ 7/27 := by decide +kernel

/-! ## C25 -/

omit [IsStrictOrderedRing K] in
theorem lowestMLoop_spec (α rTol : K) (n maxIter : Nat) (hr : α ≤ α * (rTol + 1)) (fuel : Nat) :
    ∀ (m : Nat) (p : K), 1 ≤ m → α ≤ p → maxIter ≤ fuel + m →
      ((∀ k q, lowestMLoop α rTol n maxIter fuel m p = .ok (k, q) ↔
        (m ≤ k ∧ k < maxIter ∧ k ≤ n ∧ q = exactRunProb α n k ∧ q ≤ α * (rTol + 1) ∧
          ∀ j, m ≤ j → j < k → α * (rTol + 1) < exactRunProb α n j)) ∧
       (∀ e, lowestMLoop α rTol n maxIter fuel m p = .error e → e = .otherError)) := by
  induction fuel with
  | zero =>
    intro m p hm hp hf
    refine ⟨fun k q => ?_, fun e => ?_⟩
    · simp only [lowestMLoop, reduceCtorEq, false_iff]
      rintro ⟨h1, h2, _⟩; omega
    · simp only [lowestMLoop]; rintro ⟨⟩; rfl
  | succ fuel ih =>
    intro m p hm hp hf
    by_cases hc : m < maxIter ∧ α ≤ p ∧ m ≤ n
    · have e : lowestMLoop α rTol n maxIter (fuel + 1) m p
          = if exactRunProb α n m ≤ α * (rTol + 1) then .ok (m, exactRunProb α n m)
            else lowestMLoop α rTol n maxIter fuel (m + 1) (exactRunProb α n m) := by
        rw [lowestMLoop, if_pos hc, runProb_ok hm hc.2.2]; rfl
      rw [e]
      by_cases hp' : exactRunProb α n m ≤ α * (rTol + 1)
      · rw [if_pos hp']
        refine ⟨fun k q => ⟨?_, ?_⟩, fun e => by rintro ⟨⟩⟩
        · intro h
          injection h with h
          injection h with h1 h2
          subst h1 h2
          exact ⟨le_rfl, hc.1, hc.2.2, rfl, hp', fun j _ _ => absurd ‹j < m› (by omega)⟩
        · rintro ⟨h1, h2, h3, h4, h5, h6⟩
          have : k = m := by
            by_contra hne
            exact absurd (h6 m le_rfl (by omega)) (not_lt.2 hp')
          subst this; rw [h4]
      · rw [if_neg hp']
        have hlt := not_le.1 hp'
        have := ih (m + 1) (exactRunProb α n m) (by omega) (hr.trans hlt.le) (by omega)
        refine ⟨fun k q => ?_, this.2⟩
        rw [this.1 k q]
        constructor
        · rintro ⟨h1, h2, h3, h4, h5, h6⟩
          refine ⟨by omega, h2, h3, h4, h5, fun j hj hjk => ?_⟩
          by_cases hjm : j = m
          · subst hjm; exact hlt
          · exact h6 j (by omega) hjk
        · rintro ⟨h1, h2, h3, h4, h5, h6⟩
          have hne : k ≠ m := by
            rintro rfl; rw [h4] at h5; exact hp' h5
          exact ⟨by omega, h2, h3, h4, h5, fun j hj hjk => h6 j (by omega) hjk⟩
    · rw [lowestMLoop, if_neg hc]
      refine ⟨fun k q => ?_, fun e => ?_⟩
      · simp only [reduceCtorEq, false_iff]
        rintro ⟨h1, h2, h3, _⟩
        exact hc ⟨by omega, hp, by omega⟩
      · rintro ⟨⟩; rfl

/-- C25: automatic duration returns `(k, q)` exactly when `k` is the least run length `≥ 1` (below
the iteration limit and not longer than the series) whose exact run probability is at most
`alpha * (1 + r_tol)`, with `q` that probability; in every other case it raises a plain
`Exception`. -/
theorem C25_lowest {α rTol : K} (h0 : 0 ≤ α) (hr : 0 ≤ rTol) (n maxIter : Nat) :
    (∀ k q, lowestM α n rTol maxIter = .ok (k, q) ↔
      (1 ≤ k ∧ k < maxIter ∧ k ≤ n ∧ q = exactRunProb α n k ∧ q ≤ α * (1 + rTol) ∧
        ∀ j, 1 ≤ j → j < k → α * (1 + rTol) < exactRunProb α n j)) ∧
    ((¬ ∃ k, 1 ≤ k ∧ k < maxIter ∧ k ≤ n ∧ exactRunProb α n k ≤ α * (1 + rTol)) →
      lowestM α n rTol maxIter = .error .otherError) := by
  have := lowestMLoop_spec α rTol n maxIter (by nlinarith) maxIter 1 α le_rfl le_rfl (by omega)
  rw [add_comm rTol 1] at this
  refine ⟨this.1, fun hn => ?_⟩
  cases h : lowestM α n rTol maxIter with
  | error e => rw [this.2 e h]
  | ok r =>
    obtain ⟨h1, h2, h3, h4, h5, _⟩ := (this.1 r.1 r.2).1 h
    exact absurd ⟨r.1, h1, h2, h3, h4 ▸ h5⟩ hn

example : lowestM (1/4 : ℚ) 2 (1/10) = .ok (2, 1/16) := by decide +kernel
example : lowestM (1/4 : ℚ) 2 (1/10) 2 = .error .otherError := by decide +kernel

/-- C25: below the iteration limit automatic duration always succeeds, and the probability
returned is a valid alpha (the setter of `corrected_alpha` accepts it). -/
theorem C25_total {α rTol : K} (h0 : 0 ≤ α) (h1 : α ≤ 1) (hr : 0 ≤ rTol) {n maxIter : Nat}
    (hn : 1 ≤ n) (hlim : n < maxIter) :
    ∃ k q, lowestM α n rTol maxIter = .ok (k, q) ∧ 0 ≤ q ∧ q ≤ 1 := by
  classical
  have hex : ∃ k, 1 ≤ k ∧ exactRunProb α n k ≤ α * (1 + rTol) := by
    refine ⟨n, hn, ?_⟩
    rw [exact_full]
    have h2 : α ^ n ≤ α := by
      calc α ^ n ≤ α ^ 1 := pow_le_pow_of_le_one h0 h1 hn
        _ = α := pow_one α
    nlinarith
  obtain ⟨hk1, hk2⟩ := Nat.find_spec hex
  have hkn : Nat.find hex ≤ n := by
    apply Nat.find_min'
    refine ⟨hn, ?_⟩
    rw [exact_full]
    have h2 : α ^ n ≤ α := by
      calc α ^ n ≤ α ^ 1 := pow_le_pow_of_le_one h0 h1 hn
        _ = α := pow_one α
    nlinarith
  refine ⟨Nat.find hex, exactRunProb α n (Nat.find hex), ?_, exact_nonneg h0 h1 _ _,
    exact_le_one h0 h1 _ _⟩
  rw [(C25_lowest h0 hr n maxIter).1]
  refine ⟨hk1, by omega, hkn, rfl, hk2, fun j hj hjk => ?_⟩
  have := Nat.find_min hex hjk
  push Not at this
  exact this hj

example : ∃ k q, lowestM (1/20 : ℚ) 500 (1/10) = .ok (k, q) ∧ 0 ≤ q ∧ q ≤ 1 :=
  C25_total (by norm_num) (by norm_num) (by norm_num) (by norm_num) (by norm_num)

/-! ## C57: does the automatic correction bound the global error? -/

/-- C57 is violated: `fit_predict`'s documentation says alpha is corrected to be no greater than
`alpha * (1 + r_tol)`, but testing each of the 4 points at the corrected alpha 0.57475 with the
automatic duration 2 has global error 0.6113... > 0.55 * 1.1. -/
theorem C57_global_error_violated :
    ¬ ∀ (α rTol : ℚ) (n k : Nat) (q : ℚ), 0 ≤ α → α ≤ 1 → 0 ≤ rTol → lowestM α n rTol = .ok (k, q) →
      exactRunProb q n k ≤ α * (1 + rTol) := by
  intro h
  have h1 : lowestM (11/20 : ℚ) 4 (1/10) = .ok (2, 2299/4000) := by decide +kernel
  have := h _ _ _ _ _ (by norm_num) (by norm_num) (by norm_num) h1
  revert this
  decide +kernel

/-- C57, the part that holds: if the corrected alpha is not above alpha then the global error at
the corrected alpha is at most the corrected alpha. -/
theorem C57_global_error_partial {α rTol : K} (h0 : 0 ≤ α) (h1 : α ≤ 1) (hr : 0 ≤ rTol)
    {n maxIter k : Nat} {q : K} (h : lowestM α n rTol maxIter = .ok (k, q)) (hq : q ≤ α) :
    exactRunProb q n k ≤ q ∧ q ≤ α * (1 + rTol) := by
  obtain ⟨_, _, _, h4, h5, _⟩ := ((C25_lowest h0 hr n maxIter).1 k q).1 h
  have hq0 : 0 ≤ q := h4 ▸ exact_nonneg h0 h1 n k
  refine ⟨?_, h5⟩
  calc exactRunProb q n k ≤ exactRunProb α n k := exact_mono_p hq0 hq h1 n k
    _ = q := h4.symm

example : lowestM (1/4 : ℚ) 2 (1/10) = .ok (2, 1/16) ∧ (1/16 : ℚ) ≤ 1/4 := by decide +kernel

end

/-! ## C26 -/

theorem lowestPLoop_ok {m n : Nat} {α rTol : ℝ} (hm : 1 ≤ m) (hn : m ≤ n) (fuel : Nat) :
    ∀ lo hi pc pg, lowestPLoop m n α rTol fuel lo hi = .ok (pc, pg) →
      lo ≤ pc ∧ pc ≤ hi ∧ pg = exactRunProb pc n m ∧ α * (1 - rTol) ≤ pg ∧ pg ≤ α * (1 + rTol) := by
  induction fuel with
  | zero => intro lo hi pc pg h; simp [lowestPLoop] at h
  | succ fuel ih =>
    intro lo hi pc pg h
    rw [lowestPLoop] at h
    split at h
    · rename_i hle
      dsimp only at h
      rw [runProb_ok hm hn] at h
      simp only [bind, Except.bind] at h
      split_ifs at h with h1 h2 h3
      · injection h with h
        injection h with e1 e2
        subst e1 e2
        exact ⟨by linarith, by linarith, rfl, h1.2, by rw [add_comm 1]; exact h1.1⟩
      · obtain ⟨a, b, c⟩ := ih _ _ _ _ h
        exact ⟨by linarith, b, c⟩
      · obtain ⟨a, b, c⟩ := ih _ _ _ _ h
        exact ⟨a, by linarith, c⟩
      · exact ih _ _ _ _ h
    · cases h

/-- C26: whenever a corrected alpha is returned, the reported global error is the exact global
error at that alpha, and is within a factor `1 ± r_tol` of alpha. -/
theorem C26_tolerance {m n maxIter : Nat} {α rTol pc pg : ℝ} (hm : 1 ≤ m) (h0 : 0 ≤ α)
    (hr : 0 ≤ rTol) (h : lowestP m n α rTol maxIter = .ok (pc, pg)) :
    pg = exactRunProb pc n m ∧ α * (1 - rTol) ≤ pg ∧ pg ≤ α * (1 + rTol) := by
  unfold lowestP at h
  split_ifs at h with h1 h2 h3
  · injection h with h
    injection h with e1 e2
    subst h2 e1 e2
    refine ⟨?_, by nlinarith, by nlinarith⟩
    rw [exact_full, ← Real.rpow_natCast, ← Real.rpow_mul h0]
    rw [one_div, inv_mul_cancel₀ (by exact_mod_cast (by omega : n ≠ 0)), Real.rpow_one]
  · exact (lowestPLoop_ok hm (by omega) _ _ _ _ _ h).2.2

/-- C26: a duration longer than the series is rejected. -/
theorem C26_too_long {m n maxIter : Nat} (α rTol : ℝ) (h : n < m) :
    lowestP m n α rTol maxIter = .error .valueError := by
  unfold lowestP; rw [if_pos h]

example : lowestP 5 4 (1/20) (1/10) = .error .valueError := C26_too_long _ _ (by norm_num)

/-- The initial bracket of the bisection (880, 884). -/
noncomputable def bracketLow (m n : Nat) (α : ℝ) : ℝ := (α / n) ^ ((1 : ℝ) / m)
noncomputable def bracketHigh (m n : Nat) (α : ℝ) : ℝ :=
  (1 - (1 - α) ^ ((1 : ℝ) / ((n / m : Nat) : ℝ))) ^ ((1 : ℝ) / m)

theorem rpow_inv_pow {x : ℝ} (hx : 0 ≤ x) {m : Nat} (hm : 1 ≤ m) :
    (x ^ ((1 : ℝ) / m)) ^ m = x := by
  rw [← Real.rpow_natCast, ← Real.rpow_mul hx, one_div,
    inv_mul_cancel₀ (by exact_mod_cast (by omega : m ≠ 0)), Real.rpow_one]

/-- C26: the initial bracket is a sub-interval of `[0, 1]` whose ends have a global error of at
most and at least alpha. -/
theorem C26_bracket_valid {m n : Nat} {α : ℝ} (hm : 1 ≤ m) (hn : m ≤ n) (h0 : 0 ≤ α) (h1 : α ≤ 1) :
    0 ≤ bracketLow m n α ∧ bracketHigh m n α ≤ 1 ∧ bracketLow m n α ≤ bracketHigh m n α ∧
      exactRunProb (bracketLow m n α) n m ≤ α ∧ α ≤ exactRunProb (bracketHigh m n α) n m := by
  have hn0 : (1 : ℝ) ≤ n := by exact_mod_cast (by omega : 1 ≤ n)
  have hq : 1 ≤ n / m := (Nat.one_le_div_iff (by omega)).2 hn
  have hx0 : 0 ≤ α / n := div_nonneg h0 (by linarith)
  have hx1 : α / n ≤ 1 := by rw [div_le_one (by linarith)]; linarith
  have hm0 : (0 : ℝ) ≤ 1 / m := by positivity
  have l0 : 0 ≤ bracketLow m n α := Real.rpow_nonneg hx0 _
  have l1 : bracketLow m n α ≤ 1 := Real.rpow_le_one hx0 hx1 hm0
  have hy0 : 0 ≤ (1 - α) ^ ((1 : ℝ) / ((n / m : Nat) : ℝ)) := Real.rpow_nonneg (by linarith) _
  have hy1 : (1 - α) ^ ((1 : ℝ) / ((n / m : Nat) : ℝ)) ≤ 1 :=
    Real.rpow_le_one (by linarith) (by linarith) (by positivity)
  have u0 : 0 ≤ bracketHigh m n α := Real.rpow_nonneg (by linarith) _
  have u1 : bracketHigh m n α ≤ 1 := Real.rpow_le_one (by linarith) (by linarith) hm0
  have lpow : bracketLow m n α ^ m = α / n := rpow_inv_pow hx0 hm
  have upow : bracketHigh m n α ^ m = 1 - (1 - α) ^ ((1 : ℝ) / ((n / m : Nat) : ℝ)) :=
    rpow_inv_pow (by linarith) hm
  have hlo : exactRunProb (bracketLow m n α) n m ≤ α := by
    refine (exact_union l0 l1 m n hm).trans ?_
    rw [lpow, mul_div_cancel₀ _ (by linarith)]
  have hhi : α ≤ exactRunProb (bracketHigh m n α) n m := by
    refine le_trans ?_ (exact_mono_n' u0 u1 m (Nat.div_mul_le_self n m))
    refine le_trans ?_ (exact_blocks u0 u1 m hm (n / m))
    rw [upow, sub_sub_cancel, rpow_inv_pow (by linarith) hq]
    linarith
  refine ⟨l0, u1, ?_, hlo, hhi⟩
  -- α / n ≤ 1 - (1 - α)^(1/q) by Bernoulli
  apply le_of_not_gt
  intro hlt
  have hpow : bracketHigh m n α ^ m < bracketLow m n α ^ m := pow_lt_pow_left₀ hlt u0 (by omega)
  rw [lpow, upow] at hpow
  have hbern := one_add_mul_le_pow (a := -(α / n)) (by linarith) (n / m)
  have hlt2 : (1 + -(α / n)) ^ (n / m) < ((1 - α) ^ ((1 : ℝ) / ((n / m : Nat) : ℝ))) ^ (n / m) :=
    pow_lt_pow_left₀ (by linarith) (by linarith) (by omega)
  rw [rpow_inv_pow (by linarith) hq] at hlt2
  have hqn : ((n / m : Nat) : ℝ) ≤ n := by exact_mod_cast Nat.div_le_self n m
  have : ((n / m : Nat) : ℝ) * (α / n) ≤ α := by
    calc ((n / m : Nat) : ℝ) * (α / n) ≤ n * (α / n) := mul_le_mul_of_nonneg_right hqn hx0
      _ = α := mul_div_cancel₀ _ (by linarith)
  linarith

example : (1 : ℕ) ≤ 2 ∧ 2 ≤ 5 ∧ (0 : ℝ) ≤ 1/20 ∧ (1/20 : ℝ) ≤ 1 := by norm_num

/-- C26: the corrected alpha lies in the initial bracket, hence is a valid alpha. -/
theorem C26_in_bracket {m n maxIter : Nat} {α rTol pc pg : ℝ} (hm : 1 ≤ m) (hne : n ≠ m)
    (h0 : 0 ≤ α) (h1 : α ≤ 1) (h : lowestP m n α rTol maxIter = .ok (pc, pg)) :
    bracketLow m n α ≤ pc ∧ pc ≤ bracketHigh m n α ∧ 0 ≤ pc ∧ pc ≤ 1 := by
  unfold lowestP at h
  split_ifs at h with h2 h3
  · obtain ⟨a, b, _⟩ := lowestPLoop_ok hm (by omega) _ _ _ _ _ h
    have := C26_bracket_valid (m := m) (n := n) hm (by omega) h0 h1
    exact ⟨a, b, this.1.trans a, b.trans this.2.1⟩

theorem lowestPLoop_converges {m n : Nat} {α rTol : ℝ} (hm : 1 ≤ m) (hn : m ≤ n)
    (hr : 0 ≤ α * rTol) (fuel : Nat) : ∀ lo hi : ℝ, 0 ≤ lo → lo ≤ hi → hi ≤ 1 →
      exactRunProb lo n m ≤ α → α ≤ exactRunProb hi n m → n * (hi - lo) ≤ α * rTol * 2 ^ fuel →
      ∃ pc pg, lowestPLoop m n α rTol (fuel + 1) lo hi = .ok (pc, pg) := by
  induction fuel with
  | zero =>
    intro lo hi h0 hle h1 hlo hhi hgap
    rw [lowestPLoop, if_pos hle]
    dsimp only
    rw [runProb_ok hm hn]
    simp only [bind, Except.bind]
    have hmid0 : lo ≤ (hi + lo) / 2 := by linarith
    have hmid1 : (hi + lo) / 2 ≤ hi := by linarith
    have a1 := exact_mono_p h0 hmid0 (hmid1.trans h1) n m
    have a2 := exact_mono_p (h0.trans hmid0) hmid1 h1 n m
    have a3 := exact_lip h0 hle h1 n m
    rw [if_pos ⟨by nlinarith, by nlinarith⟩]
    exact ⟨_, _, rfl⟩
  | succ fuel ih =>
    intro lo hi h0 hle h1 hlo hhi hgap
    rw [lowestPLoop, if_pos hle]
    dsimp only
    rw [runProb_ok hm hn]
    simp only [bind, Except.bind]
    have hmid0 : lo ≤ (hi + lo) / 2 := by linarith
    have hmid1 : (hi + lo) / 2 ≤ hi := by linarith
    have hhalf : (n : ℝ) * ((hi - lo) / 2) ≤ α * rTol * 2 ^ fuel := by
      rw [pow_succ] at hgap; linarith
    split_ifs with c1 c2 c3
    · exact ⟨_, _, rfl⟩
    · exact ih _ _ (by linarith) hmid1 h1 c2.le hhi
        (by rw [show hi - (hi + lo) / 2 = (hi - lo) / 2 by ring]; exact hhalf)
    · exact ih _ _ h0 hmid0 (by linarith) hlo c3.le
        (by rw [show (hi + lo) / 2 - lo = (hi - lo) / 2 by ring]; exact hhalf)
    · exfalso
      have e : exactRunProb ((hi + lo) / 2) n m = α := le_antisymm (not_lt.1 c3) (not_lt.1 c2)
      apply c1
      rw [e]
      constructor <;> nlinarith

/-- C26: in exact arithmetic the bisection succeeds, for every duration up to the length, once
`2 ^ max_iter` is at least `n / (alpha * r_tol)`.  With the default limit 1000 that is every
practical alpha. -/
theorem C26_converges {m n maxIter : Nat} {α rTol : ℝ} (hm : 1 ≤ m) (hn : m ≤ n) (h0 : 0 ≤ α)
    (h1 : α ≤ 1) (hr : 1 / 10 ^ 9 ≤ rTol) (hlim : α = 0 ∨ n ≤ α * rTol * 2 ^ maxIter) :
    ∃ pc pg, lowestP m n α rTol maxIter = .ok (pc, pg) := by
  unfold lowestP
  rw [if_neg (by omega)]
  by_cases hnm : n = m
  · rw [if_pos hnm]; exact ⟨_, _, rfl⟩
  · rw [if_neg hnm, if_neg (not_lt.2 hr)]
    obtain ⟨l0, u1, hle, hlo, hhi⟩ := C26_bracket_valid hm hn h0 h1
    have hr0 : 0 ≤ rTol := le_trans (by positivity) hr
    refine lowestPLoop_converges hm hn (mul_nonneg h0 hr0) maxIter _ _ l0 hle u1 hlo hhi ?_
    rcases hlim with rfl | hlim
    · have e1 : (0 / (n : ℝ)) ^ ((1 : ℝ) / m) = 0 := by
        rw [zero_div, Real.zero_rpow]
        rw [one_div]; exact inv_ne_zero (by exact_mod_cast (by omega : m ≠ 0))
      have e2 : ((1 : ℝ) - (1 - 0) ^ ((1 : ℝ) / ((n / m : Nat) : ℝ))) ^ ((1 : ℝ) / m) = 0 := by
        rw [sub_zero, Real.one_rpow, sub_self, Real.zero_rpow]
        rw [one_div]; exact inv_ne_zero (by exact_mod_cast (by omega : m ≠ 0))
      rw [e1, e2]; simp
    · refine le_trans ?_ hlim
      have hb : bracketHigh m n α - bracketLow m n α ≤ 1 := by linarith
      calc (n : ℝ) * (bracketHigh m n α - bracketLow m n α) ≤ n * 1 :=
            mul_le_mul_of_nonneg_left hb (Nat.cast_nonneg n)
        _ = n := mul_one _

/-- Instance of C26: alpha 5%, tolerance 10%, 300 points, duration 7, default limit. -/
example : ∃ pc pg, lowestP 7 300 (1/20) (1/10) = .ok (pc, pg) ∧ pg = exactRunProb pc 300 7 ∧
    1/20 * (1 - 1/10) ≤ pg ∧ pg ≤ 1/20 * (1 + 1/10) ∧ 0 ≤ pc ∧ pc ≤ 1 := by
  obtain ⟨pc, pg, h⟩ := C26_converges (m := 7) (n := 300) (maxIter := 1000) (α := 1/20)
    (rTol := 1/10) (by norm_num) (by norm_num) (by norm_num) (by norm_num) (by norm_num)
    (Or.inr (le_trans (by norm_num) (mul_le_mul_of_nonneg_left
      (pow_le_pow_right₀ (by norm_num) (by norm_num : 20 ≤ 1000)) (by norm_num))))
  obtain ⟨a, b, c⟩ := C26_tolerance (by norm_num) (by norm_num) (by norm_num) h
  obtain ⟨_, _, d, e⟩ := C26_in_bracket (by norm_num) (by norm_num) (by norm_num) (by norm_num) h
  exact ⟨pc, pg, h, a, b, c, d, e⟩

end Kats
