import Verif.Model.BocpdReg
import Mathlib.Tactic.Ring
import Mathlib.Tactic.Linarith
import Mathlib.Tactic.FieldSimp
import Mathlib.Tactic.Positivity
import Mathlib.Tactic.NormNum

/-!
# C158: the regression model of BOCPD
-/

namespace Kats

section
variable {K : Type} [Field K] [LinearOrder K]

/-! ## The points of a run -/

theorem br_state (x : Nat → K) (t : Nat) : (blrState x t).xs = (List.range t).map (fun (i : Nat) => ((1 : K), (i : K)))
    ∧ (blrState x t).ys = (List.range t).map x ∧ (blrState x t).t = t := by
  induction t with
  | zero => exact ⟨rfl, rfl, rfl⟩
  | succ t ih =>
    obtain ⟨h1, h2, h3⟩ := ih
    refine ⟨?_, ?_, ?_⟩
    · show (blrState x t).xs ++ [(1, ((blrState x t).t : K))] = _
      rw [h1, h3, List.range_succ, List.map_append]
      rfl
    · show (blrState x t).ys ++ [x t] = _
      rw [h2, List.range_succ, List.map_append]
      rfl
    · show (blrState x t).t + 1 = _
      rw [h3]

/-- The sum of squares of the errors of a line at the points from `s` on, with the penalty for leaving the prior. -/
def BrCost (x : Nat → K) (mu : K × K) (s n : Nat) (u v : K) : K :=
  ((List.range' s n).map fun i : Nat => (x i - u - v * (i : K)) ^ 2).sum + 2 / 10000000 * ((u - mu.1) ^ 2 + (v - mu.2) ^ 2)

/-- What the model knows about a run: the posterior for the rows of the points from `s` on. -/
def brRun (x : Nat → K) (mu : K × K) (a0 b0 : K) (s n t : Nat) : BlrPost K :=
  blrPost mu a0 b0 ((List.range' s n).map fun i : Nat => ((1 : K), (i : K))) ((List.range' s n).map x) t

theorem br_drop {α : Type} (f : Nat → α) (t k : Nat) (hk : k ≤ t) : ((List.range t).map f).drop k = (List.range' k (t - k)).map f := by
  rw [← List.map_drop, List.range_eq_range', List.drop_range', Nat.zero_add]
  simp

/-- C158: the point at time `t` is predicted for each run length from exactly the last points of the run, with their times. -/
theorem C158_rows (D : BlrDraw K) (n : Nat) (mu : K × K) (a0 b0 : K) (x : Nat → K) (t : Nat) (y : K) :
    blrPred D n ⟨some mu, a0, b0⟩ (blrState x t) t y
      = .ok ((List.range t).map fun rl => blrLik D n (brRun x mu a0 b0 (t - (rl + 1)) (rl + 1) t) t y) := by
  unfold blrPred
  have h : ∀ l : List Nat, (∀ r ∈ l, r < t) → l.mapM (fun rl => (Except.ok (blrLik D n (blrPost mu a0 b0
      ((blrState x t).xs.drop ((blrState x t).xs.length - rl - 1)) ((blrState x t).ys.drop ((blrState x t).xs.length - rl - 1)) t) t y) : Except Err _))
      = .ok (l.map fun rl => blrLik D n (brRun x mu a0 b0 (t - (rl + 1)) (rl + 1) t) t y) := by
    intro l
    induction l with
    | nil => intro _; rfl
    | cons r l ih =>
      intro hl
      have hr := hl r (by simp)
      obtain ⟨h1, h2, _⟩ := br_state x t
      have e : (blrState x t).xs.length - r - 1 = t - (r + 1) := by rw [h1]; simp; omega
      rw [List.mapM_cons, ih fun q hq => hl q (by simp [hq]), e, h1, h2, br_drop _ _ _ (by omega), br_drop _ _ _ (by omega),
        show t - (t - (r + 1)) = r + 1 by omega]
      rfl
  exact h _ fun r hr => List.mem_range.1 hr

variable [IsStrictOrderedRing K]

/-! ## The posterior -/

theorem br_quad (l : List (K × K)) (u v : K) :
    0 ≤ (l.map fun r => r.1 * r.1).sum * u ^ 2 + 2 * (l.map fun r => r.1 * r.2).sum * u * v + (l.map fun r => r.2 * r.2).sum * v ^ 2 := by
  induction l with
  | nil => simp
  | cons r l ih =>
    simp only [List.map_cons, List.sum_cons]
    nlinarith [sq_nonneg (r.1 * u + r.2 * v)]

theorem br_cauchy (l : List (K × K)) :
    0 ≤ (l.map fun r => r.1 * r.1).sum * (l.map fun r => r.2 * r.2).sum - (l.map fun r => r.1 * r.2).sum * (l.map fun r => r.1 * r.2).sum := by
  induction l with
  | nil => simp
  | cons r l ih =>
    simp only [List.map_cons, List.sum_cons]
    have := br_quad l r.2 (-r.1)
    nlinarith [this]

theorem br_nonneg (l : List (K × K)) (f : K × K → K) : 0 ≤ (l.map fun r => f r * f r).sum :=
  List.sum_nonneg fun a ha => by
    obtain ⟨r, _, rfl⟩ := List.mem_map.1 ha
    exact mul_self_nonneg _

/-- The determinant of `lambda_n` is positive. -/
theorem br_det (mu : K × K) (a0 b0 : K) (xs : List (K × K)) (ys : List K) (t : Nat) :
    0 < (blrPost mu a0 b0 xs ys t).l11 * (blrPost mu a0 b0 xs ys t).l22 - (blrPost mu a0 b0 xs ys t).l12 * (blrPost mu a0 b0 xs ys t).l12 := by
  show 0 < ((xs.map fun r => r.1 * r.1).sum + 2 / 10000000) * ((xs.map fun r => r.2 * r.2).sum + 2 / 10000000) - _ * _
  have h1 := br_cauchy xs
  have h2 := br_nonneg xs (·.1)
  have h3 := br_nonneg xs (·.2)
  have hq : (0 : K) < 2 / 10000000 := by positivity
  show 0 < ((xs.map fun r => r.1 * r.1).sum + 2 / 10000000) * ((xs.map fun r => r.2 * r.2).sum + 2 / 10000000)
    - (xs.map fun r => r.1 * r.2).sum * (xs.map fun r => r.1 * r.2).sum
  nlinarith [mul_nonneg h2 hq.le, mul_nonneg h3 hq.le, mul_pos hq hq]

/-- The cost of a line is a quadratic function of its coefficients. -/
theorem br_cost (l : List Nat) (x : Nat → K) (u v : K) :
    (l.map fun i : Nat => (x i - u - v * (i : K)) ^ 2).sum
      = ((l.map x).map fun y => y * y).sum
        - 2 * u * (List.zipWith (fun (r : K × K) y => r.1 * y) (l.map fun i : Nat => ((1 : K), (i : K))) (l.map x)).sum
        - 2 * v * (List.zipWith (fun (r : K × K) y => r.2 * y) (l.map fun i : Nat => ((1 : K), (i : K))) (l.map x)).sum
        + u ^ 2 * ((l.map fun i : Nat => ((1 : K), (i : K))).map fun r => r.1 * r.1).sum
        + 2 * u * v * ((l.map fun i : Nat => ((1 : K), (i : K))).map fun r => r.1 * r.2).sum
        + v ^ 2 * ((l.map fun i : Nat => ((1 : K), (i : K))).map fun r => r.2 * r.2).sum := by
  induction l with
  | nil => simp
  | cons i l ih =>
    simp only [List.map_cons, List.sum_cons, List.zipWith_cons_cons] at ih ⊢
    rw [ih]
    ring

/-- The mean of the posterior solves the normal equations, and the cost of any other line is greater by the quadratic form. -/
theorem br_expand (x : Nat → K) (mu : K × K) (a0 b0 : K) (s n t : Nat) (u v : K) :
    BrCost x mu s n u v = BrCost x mu s n (brRun x mu a0 b0 s n t).m0 (brRun x mu a0 b0 s n t).m1
      + ((brRun x mu a0 b0 s n t).l11 * (u - (brRun x mu a0 b0 s n t).m0) ^ 2
        + 2 * (brRun x mu a0 b0 s n t).l12 * (u - (brRun x mu a0 b0 s n t).m0) * (v - (brRun x mu a0 b0 s n t).m1)
        + (brRun x mu a0 b0 s n t).l22 * (v - (brRun x mu a0 b0 s n t).m1) ^ 2)
    ∧ BrCost x mu s n (brRun x mu a0 b0 s n t).m0 (brRun x mu a0 b0 s n t).m1
      = (((List.range' s n).map x).map fun y => y * y).sum + 2 / 10000000 * (mu.1 * mu.1 + mu.2 * mu.2)
        - ((brRun x mu a0 b0 s n t).l11 * (brRun x mu a0 b0 s n t).m0 * (brRun x mu a0 b0 s n t).m0
          + 2 * (brRun x mu a0 b0 s n t).l12 * (brRun x mu a0 b0 s n t).m0 * (brRun x mu a0 b0 s n t).m1
          + (brRun x mu a0 b0 s n t).l22 * (brRun x mu a0 b0 s n t).m1 * (brRun x mu a0 b0 s n t).m1) := by
  have hd := br_det mu a0 b0 ((List.range' s n).map fun i : Nat => ((1 : K), (i : K))) ((List.range' s n).map x) t
  unfold BrCost
  rw [br_cost, br_cost]
  unfold brRun
  unfold blrPost at hd ⊢
  simp only [] at hd ⊢
  generalize ((List.map (fun i : Nat => ((1 : K), (i : K))) (List.range' s n)).map fun r => r.1 * r.1).sum = S1 at *
  generalize ((List.map (fun i : Nat => ((1 : K), (i : K))) (List.range' s n)).map fun r => r.1 * r.2).sum = S12 at *
  generalize ((List.map (fun i : Nat => ((1 : K), (i : K))) (List.range' s n)).map fun r => r.2 * r.2).sum = S2 at *
  generalize (List.zipWith (fun (r : K × K) y => r.1 * y) (List.map (fun i : Nat => ((1 : K), (i : K))) (List.range' s n)) (List.map x (List.range' s n))).sum = T1 at *
  generalize (List.zipWith (fun (r : K × K) y => r.2 * y) (List.map (fun i : Nat => ((1 : K), (i : K))) (List.range' s n)) (List.map x (List.range' s n))).sum = T2 at *
  generalize ((List.map x (List.range' s n)).map fun y => y * y).sum = Y at *
  generalize (2 / 10000000 : K) = q at *
  have hd' := ne_of_gt hd
  obtain ⟨m0, hm0⟩ : ∃ m0, m0 = ((S2 + q) * (q * mu.1 + T1) - S12 * (q * mu.2 + T2)) / ((S1 + q) * (S2 + q) - S12 * S12) := ⟨_, rfl⟩
  obtain ⟨m1, hm1⟩ : ∃ m1, m1 = ((S1 + q) * (q * mu.2 + T2) - S12 * (q * mu.1 + T1)) / ((S1 + q) * (S2 + q) - S12 * S12) := ⟨_, rfl⟩
  rw [← hm0, ← hm1]
  have e0 : (S1 + q) * m0 + S12 * m1 = q * mu.1 + T1 := by
    rw [hm0, hm1, ← mul_div_assoc, ← mul_div_assoc, ← add_div, div_eq_iff hd']
    ring
  have e1 : S12 * m0 + (S2 + q) * m1 = q * mu.2 + T2 := by
    rw [hm0, hm1, ← mul_div_assoc, ← mul_div_assoc, ← add_div, div_eq_iff hd']
    ring
  have t1 : T1 = (S1 + q) * m0 + S12 * m1 - q * mu.1 := by rw [e0]; ring
  have t2 : T2 = S12 * m0 + (S2 + q) * m1 - q * mu.2 := by rw [e1]; ring
  rw [t1, t2]
  constructor <;> ring

/-- The quadratic form of `lambda_n` is positive. -/
theorem br_form (x : Nat → K) (mu : K × K) (a0 b0 : K) (s n t : Nat) (u v : K) (h : u ≠ 0 ∨ v ≠ 0) :
    0 < (brRun x mu a0 b0 s n t).l11 * u ^ 2 + 2 * (brRun x mu a0 b0 s n t).l12 * u * v + (brRun x mu a0 b0 s n t).l22 * v ^ 2 := by
  have h0 := br_quad ((List.range' s n).map fun i : Nat => ((1 : K), (i : K))) u v
  have hq : (0 : K) < 2 / 10000000 := by positivity
  have hp : 0 < u ^ 2 + v ^ 2 := by
    rcases h with h | h
    · have := sq_nonneg v
      have := pow_pos (abs_pos.2 h) 2
      rw [sq_abs] at this
      linarith
    · have := sq_nonneg u
      have := pow_pos (abs_pos.2 h) 2
      rw [sq_abs] at this
      linarith
  unfold brRun blrPost
  simp only []
  nlinarith [mul_pos hq hp]

/-- C158: the line expected after a run is the only one with the least sum of squares over the points of the run and the
penalty for leaving the prior. -/
theorem C158_mean (x : Nat → K) (mu : K × K) (a0 b0 : K) (s n t : Nat) (u v : K) (h : (u, v) ≠ ((brRun x mu a0 b0 s n t).m0, (brRun x mu a0 b0 s n t).m1)) :
    BrCost x mu s n (brRun x mu a0 b0 s n t).m0 (brRun x mu a0 b0 s n t).m1 < BrCost x mu s n u v := by
  rw [(br_expand x mu a0 b0 s n t u v).1]
  have := br_form x mu a0 b0 s n t (u - (brRun x mu a0 b0 s n t).m0) (v - (brRun x mu a0 b0 s n t).m1) (by
    by_contra hc
    simp only [not_or, not_not, sub_eq_zero] at hc
    exact h (by rw [hc.1, hc.2]))
  linarith

/-- C158: the second parameter of the inverse Gamma distribution grows by half the least cost, so that it never falls below
that of the prior and the prior is never used in its place. -/
theorem C158_scale (x : Nat → K) (mu : K × K) (a0 b0 : K) (hb : 0 ≤ b0) (s n t : Nat) :
    (brRun x mu a0 b0 s n t).b = b0 + BrCost x mu s n (brRun x mu a0 b0 s n t).m0 (brRun x mu a0 b0 s n t).m1 / 2
    ∧ b0 ≤ (brRun x mu a0 b0 s n t).b := by
  have hc : 0 ≤ BrCost x mu s n (brRun x mu a0 b0 s n t).m0 (brRun x mu a0 b0 s n t).m1 := by
    unfold BrCost
    have : 0 ≤ ((List.range' s n).map fun i : Nat => (x i - (brRun x mu a0 b0 s n t).m0 - (brRun x mu a0 b0 s n t).m1 * (i : K)) ^ 2).sum :=
      List.sum_nonneg fun a ha => by
        obtain ⟨r, _, rfl⟩ := List.mem_map.1 ha
        exact sq_nonneg _
    positivity
  have he := (br_expand x mu a0 b0 s n t 0 0).2
  have key : (brRun x mu a0 b0 s n t).b = b0 + BrCost x mu s n (brRun x mu a0 b0 s n t).m0 (brRun x mu a0 b0 s n t).m1 / 2 := by
    have hb' : (brRun x mu a0 b0 s n t).b = if b0 + 1 / 2 * ((((List.range' s n).map x).map fun y => y * y).sum
        + 2 / 10000000 * (mu.1 * mu.1 + mu.2 * mu.2)
        - ((brRun x mu a0 b0 s n t).l11 * (brRun x mu a0 b0 s n t).m0 * (brRun x mu a0 b0 s n t).m0
          + 2 * (brRun x mu a0 b0 s n t).l12 * (brRun x mu a0 b0 s n t).m0 * (brRun x mu a0 b0 s n t).m1
          + (brRun x mu a0 b0 s n t).l22 * (brRun x mu a0 b0 s n t).m1 * (brRun x mu a0 b0 s n t).m1)) < 0 then b0 else
        b0 + 1 / 2 * ((((List.range' s n).map x).map fun y => y * y).sum
        + 2 / 10000000 * (mu.1 * mu.1 + mu.2 * mu.2)
        - ((brRun x mu a0 b0 s n t).l11 * (brRun x mu a0 b0 s n t).m0 * (brRun x mu a0 b0 s n t).m0
          + 2 * (brRun x mu a0 b0 s n t).l12 * (brRun x mu a0 b0 s n t).m0 * (brRun x mu a0 b0 s n t).m1
          + (brRun x mu a0 b0 s n t).l22 * (brRun x mu a0 b0 s n t).m1 * (brRun x mu a0 b0 s n t).m1)) := rfl
    rw [← he] at hb'
    rw [hb', if_neg (by linarith)]
    ring
  exact ⟨key, by rw [key]; linarith⟩

/-- C158 violated: the first parameter should grow by a half for each point of the run.  It grows by a half for each point
before the new one, in the run or not, so that it is right for the longest run only. -/
theorem C158_shape_violated (x : Nat → K) (mu : K × K) (a0 b0 : K) (ha : 0 ≤ a0) (t rl : Nat) :
    (brRun x mu a0 b0 (t - (rl + 1)) (rl + 1) t).a = a0 + ((rl + 1 : Nat) : K) / 2 ↔ rl + 1 = t := by
  have e : (brRun x mu a0 b0 (t - (rl + 1)) (rl + 1) t).a = a0 + (t : K) / 2 := by
    show (if a0 + (t : K) / 2 < 0 then a0 else a0 + (t : K) / 2) = _
    rw [if_neg (by have : (0 : K) ≤ t := Nat.cast_nonneg t; linarith)]
  rw [e]
  constructor
  · intro h
    have : (t : K) = ((rl + 1 : Nat) : K) := by linarith
    exact (Nat.cast_injective this).symm
  · intro h
    rw [h]

/-- C158: adding a line to the series and to the prior adds it to the line expected and changes neither the precision nor the
distribution of the variance. -/
theorem C158_line (x : Nat → K) (mu : K × K) (a0 b0 : K) (s n t : Nat) (u v : K) :
    brRun (fun i => x i + u + v * (i : K)) (mu.1 + u, mu.2 + v) a0 b0 s n t
      = { brRun x mu a0 b0 s n t with m0 := (brRun x mu a0 b0 s n t).m0 + u, m1 := (brRun x mu a0 b0 s n t).m1 + v } := by
  have cost : ∀ w z, BrCost (fun i => x i + u + v * (i : K)) (mu.1 + u, mu.2 + v) s n (w + u) (z + v) = BrCost x mu s n w z := by
    intro w z
    unfold BrCost
    congr 1
    · congr 1
      apply List.map_congr_left
      intro i _
      ring
    · ring
  obtain ⟨r, hr⟩ : ∃ r, r = brRun x mu a0 b0 s n t := ⟨_, rfl⟩
  obtain ⟨r', hr'⟩ : ∃ r', r' = brRun (fun i => x i + u + v * (i : K)) (mu.1 + u, mu.2 + v) a0 b0 s n t := ⟨_, rfl⟩
  have hm : (r'.m0, r'.m1) = (r.m0 + u, r.m1 + v) := by
    by_contra hc
    have h1 := C158_mean (fun i => x i + u + v * (i : K)) (mu.1 + u, mu.2 + v) a0 b0 s n t (r.m0 + u) (r.m1 + v) (by rw [← hr']; exact fun h => hc h.symm)
    rw [← hr', cost] at h1
    have h2 := C158_mean x mu a0 b0 s n t (r'.m0 - u) (r'.m1 - v) (by
      rw [← hr]
      intro h
      simp only [Prod.mk.injEq] at h
      exact hc (by rw [← h.1, ← h.2]; simp))
    rw [← hr] at h2
    have h3 := cost (r'.m0 - u) (r'.m1 - v)
    rw [sub_add_cancel, sub_add_cancel] at h3
    rw [h3] at h1
    exact absurd h1 (not_lt.2 h2.le)
  simp only [Prod.mk.injEq] at hm
  have hl : r'.l11 = r.l11 ∧ r'.l12 = r.l12 ∧ r'.l22 = r.l22 ∧ r'.a = r.a := by
    rw [hr, hr']
    exact ⟨rfl, rfl, rfl, rfl⟩
  have hb : r'.b = r.b := by
    have e1 := (br_expand x mu a0 b0 s n t 0 0).2
    have e2 := (br_expand (fun i => x i + u + v * (i : K)) (mu.1 + u, mu.2 + v) a0 b0 s n t 0 0).2
    rw [← hr] at e1
    rw [← hr', hm.1, hm.2, cost, e1] at e2
    have f1 : r.b = if b0 + 1 / 2 * ((((List.range' s n).map x).map fun y => y * y).sum
        + 2 / 10000000 * (mu.1 * mu.1 + mu.2 * mu.2) - (r.l11 * r.m0 * r.m0 + 2 * r.l12 * r.m0 * r.m1 + r.l22 * r.m1 * r.m1)) < 0 then b0 else
        b0 + 1 / 2 * ((((List.range' s n).map x).map fun y => y * y).sum
        + 2 / 10000000 * (mu.1 * mu.1 + mu.2 * mu.2) - (r.l11 * r.m0 * r.m0 + 2 * r.l12 * r.m0 * r.m1 + r.l22 * r.m1 * r.m1)) := by
      rw [hr]; rfl
    have f2 : r'.b = if b0 + 1 / 2 * ((((List.range' s n).map fun i : Nat => x i + u + v * (i : K)).map fun y => y * y).sum
        + 2 / 10000000 * ((mu.1 + u) * (mu.1 + u) + (mu.2 + v) * (mu.2 + v)) - (r'.l11 * r'.m0 * r'.m0 + 2 * r'.l12 * r'.m0 * r'.m1 + r'.l22 * r'.m1 * r'.m1)) < 0 then b0 else
        b0 + 1 / 2 * ((((List.range' s n).map fun i : Nat => x i + u + v * (i : K)).map fun y => y * y).sum
        + 2 / 10000000 * ((mu.1 + u) * (mu.1 + u) + (mu.2 + v) * (mu.2 + v)) - (r'.l11 * r'.m0 * r'.m0 + 2 * r'.l12 * r'.m0 * r'.m1 + r'.l22 * r'.m1 * r'.m1)) := by
      rw [hr']; rfl
    rw [hm.1, hm.2, ← e2] at f2
    rw [f1, f2]
  rw [← hr, ← hr']
  cases r
  cases r'
  simp only [] at hm hl hb ⊢
  obtain ⟨e1, e2, e3, e4⟩ := hl
  subst e1 e2 e3 e4 hb
  rw [hm.1, hm.2]

/-! ## The likelihood -/

/-- C158: with fewer than 10⁸ samples the likelihood is the mean of the densities of the samples, whose variance is drawn
from the inverse Gamma distribution and whose lines are drawn around the line expected. -/
theorem C158_likelihood (D : BlrDraw K) (hpdf : ∀ y m s, 0 ≤ D.pdf y m s) (n : Nat) (hn : n < 100000000) (p : BlrPost K) (t : Nat) (y : K) :
    ∃ betas, betas = D.normal p.a p.b (p.m0, p.m1) (D.gamma p.a p.b * (p.l22 / (p.l11 * p.l22 - p.l12 * p.l12)),
        D.gamma p.a p.b * (-p.l12 / (p.l11 * p.l22 - p.l12 * p.l12)), D.gamma p.a p.b * (p.l11 / (p.l11 * p.l22 - p.l12 * p.l12))) n
      ∧ blrLik D n p t y = ((betas.map fun b => D.pdf y (b.1 + b.2 * (t : K)) (D.gamma p.a p.b)).sum / (n : K),
        (betas.map fun b => b.1 + b.2 * (t : K)).sum / (betas.length : K), D.gamma p.a p.b) := by
  refine ⟨_, rfl, ?_⟩
  have hf : blrFloor n = 0 := by
    unfold blrFloor
    apply Nat.div_eq_of_lt
    exact Nat.sqrt_lt'.2 (by omega)
  unfold blrLik
  simp only [hf, Nat.cast_zero, mul_one, List.map_map, List.length_map]
  rw [max_eq_left]
  · rfl
  · exact List.sum_nonneg fun a ha => by
      obtain ⟨r, _, rfl⟩ := List.mem_map.1 ha
      exact hpdf _ _ _

/-- C158 violated: the likelihood should be kept above zero.  The bound is zero for fewer than 10⁸ samples, so that a point far
from all lines drawn gets the likelihood zero. -/
theorem C158_floor_violated (D : BlrDraw K) (n : Nat) (hn : n < 100000000) (p : BlrPost K) (t : Nat) (y : K)
    (h : ∀ m, D.pdf y m (D.gamma p.a p.b) = 0) : (blrLik D n p t y).1 = 0 := by
  have hf : blrFloor n = 0 := by
    unfold blrFloor
    apply Nat.div_eq_of_lt
    exact Nat.sqrt_lt'.2 (by omega)
  have hz : ∀ l : List K, (l.map fun m => D.pdf y m (D.gamma p.a p.b)).sum = 0 := by
    intro l
    induction l with
    | nil => rfl
    | cons m l ih => rw [List.map_cons, List.sum_cons, ih, h, add_zero]
  unfold blrLik
  simp only [hf, hz, Nat.cast_zero, max_self, zero_div]

/-- C158, the part of the bound that holds: with 10⁸ samples or more the likelihood is positive.  Missing: all smaller numbers. -/
theorem C158_floor_partial (D : BlrDraw K) (n : Nat) (hn : 100000000 ≤ n) (p : BlrPost K) (t : Nat) (y : K) : 1 / (n : K) ≤ (blrLik D n p t y).1 := by
  have hf : 1 ≤ blrFloor n := by
    unfold blrFloor
    have : 10000 ≤ Nat.sqrt n := Nat.le_sqrt'.2 (by omega)
    omega
  have h1 : (1 : K) ≤ (blrFloor n : K) := by exact_mod_cast hf
  have hn0 : (0 : K) < n := by
    have : 0 < n := by omega
    exact_mod_cast this
  unfold blrLik
  simp only []
  exact div_le_div_of_nonneg_right (le_trans h1 (le_max_right _ _)) hn0.le

/-- C158 violated: the model should be usable as constructed.  Before `setup` there is no prior for the line, and every
prediction fails. -/
theorem C158_unset_violated (D : BlrDraw K) (n : Nat) (a0 b0 : K) (s : BlrSt K) (t : Nat) (ht : 0 < t) (y : K) :
    blrPred D n (blrInit : BlrPrior K) s t y = .error .otherError ∧ blrPred D n ⟨none, a0, b0⟩ s t y = .error .otherError := by
  obtain ⟨k, rfl⟩ : ∃ k, t = k + 1 := ⟨t - 1, by omega⟩
  have : ∀ pr : BlrPrior K, pr.mu = none → blrPred D n pr s (k + 1) y = .error .otherError := by
    intro pr h
    unfold blrPred
    rw [h, List.range_succ_eq_map, List.mapM_cons]
    rfl
  exact ⟨this _ rfl, this _ rfl⟩

/-! ## `setup` -/

theorem br_center (l : List Nat) (f g : Nat → K) (u w mt mv : K) :
    (l.map fun i => (g i - u - w * f i) ^ 2).sum
      = (l.map fun i => (g i - mv) ^ 2).sum - 2 * w * (l.map fun i => (f i - mt) * (g i - mv)).sum + w ^ 2 * (l.map fun i => (f i - mt) * (f i - mt)).sum
        + (l.length : K) * (mv - u - w * mt) ^ 2 + 2 * (mv - u - w * mt) * ((l.map fun i => g i - mv).sum - w * (l.map fun i => f i - mt).sum) := by
  induction l with
  | nil => simp
  | cons i l ih =>
    simp only [List.map_cons, List.sum_cons, List.length_cons, Nat.cast_succ]
    rw [ih]
    ring

theorem br_dev (l : List Nat) (f : Nat → K) (c : K) : (l.map fun i => f i - c).sum = (l.map f).sum - (l.length : K) * c := by
  induction l with
  | nil => simp
  | cons i l ih =>
    simp only [List.map_cons, List.sum_cons, List.length_cons, Nat.cast_succ]
    rw [ih]
    ring

/-- The sum of squares of the errors of a line at the first points. -/
def BrErr (vals : List K) (k : Nat) (u v : K) : K := ((List.range k).map fun i : Nat => (vals.getD i 0 - u - v * (i : K)) ^ 2).sum

theorem br_take (vals : List K) (p : Nat) : vals.take p = (List.range (min p vals.length)).map fun i => vals.getD i 0 := by
  apply List.ext_getElem
  · simp
  · intro i h1 h2
    simp at h1 h2
    simp [List.getElem?_eq_getElem (show i < vals.length by omega)]

/-- The line of `linregress` is the line of least squares. -/
theorem br_fit (vals : List K) (k : Nat) (hk : 2 ≤ k) :
    ∃ ic sl, blrFit ((List.range k).map fun i : Nat => (i : K)) ((List.range k).map fun i => vals.getD i 0) = .ok (ic, sl)
      ∧ ∀ u v, (u, v) ≠ (ic, sl) → BrErr vals k ic sl < BrErr vals k u v := by
  obtain ⟨f, hf⟩ : ∃ f : Nat → K, f = fun i : Nat => (i : K) := ⟨_, rfl⟩
  obtain ⟨g, hg⟩ : ∃ g : Nat → K, g = fun i : Nat => vals.getD i 0 := ⟨_, rfl⟩
  obtain ⟨mt, hmt⟩ : ∃ mt, mt = ((List.range k).map f).sum / (k : K) := ⟨_, rfl⟩
  obtain ⟨mv, hmv⟩ : ∃ mv, mv = ((List.range k).map g).sum / (k : K) := ⟨_, rfl⟩
  obtain ⟨sxy, hsxy⟩ : ∃ s, s = ((List.range k).map fun i => (f i - mt) * (g i - mv)).sum := ⟨_, rfl⟩
  obtain ⟨sxx, hsxx⟩ : ∃ s, s = ((List.range k).map fun i => (f i - mt) * (f i - mt)).sum := ⟨_, rfl⟩
  have hk0 : (0 : K) < k := by
    have : 0 < k := by omega
    exact_mod_cast this
  have z1 : ((List.range k).map fun i => f i - mt).sum = 0 := by
    rw [br_dev, hmt, List.length_range, mul_div_cancel₀ _ hk0.ne', sub_self]
  have z2 : ((List.range k).map fun i => g i - mv).sum = 0 := by
    rw [br_dev, hmv, List.length_range, mul_div_cancel₀ _ hk0.ne', sub_self]
  have hpos : 0 < sxx := by
    rw [hsxx]
    have hnn : ∀ l : List Nat, 0 ≤ (l.map fun i => (f i - mt) * (f i - mt)).sum := fun l => List.sum_nonneg fun a ha => by
      obtain ⟨r, _, rfl⟩ := List.mem_map.1 ha
      exact mul_self_nonneg _
    obtain ⟨j, rfl⟩ : ∃ j, k = j + 1 + 1 := ⟨k - 2, by omega⟩
    rw [List.range_succ_eq_map, List.range_succ_eq_map]
    simp only [List.map_cons, List.sum_cons]
    have h3 := hnn ((List.range j).map Nat.succ |>.map Nat.succ)
    have e0 : f 0 = 0 := by rw [hf]; exact Nat.cast_zero
    have e1 : f (Nat.succ 0) = 1 := by rw [hf]; exact Nat.cast_one
    rw [e0, e1]
    have h4 : (0 : K) < (0 - mt) * (0 - mt) + (1 - mt) * (1 - mt) := by
      nlinarith [mul_self_nonneg (2 * mt - 1)]
    linarith
  refine ⟨mv - sxy / sxx * mt, sxy / sxx, ?_, ?_⟩
  · unfold blrFit
    rw [if_neg (by simp; omega)]
    rw [← hf, ← hg]
    simp only [List.length_map, List.length_range, List.map_map]
    rw [← hmt, ← hmv, List.zipWith_map_left, List.zipWith_map_right, List.zipWith_self]
    rw [show (List.map (fun a => (f a - mt) * (g a - mv)) (List.range k)).sum = sxy from hsxy.symm,
      show (List.map ((fun t => (t - mt) * (t - mt)) ∘ f) (List.range k)).sum = sxx from hsxx.symm]
  · intro u v hne
    have key : ∀ u v, BrErr vals k u v = ((List.range k).map fun i => (g i - mv) ^ 2).sum - sxy ^ 2 / sxx + sxx * (v - sxy / sxx) ^ 2 + (k : K) * (mv - u - v * mt) ^ 2 := by
      intro u v
      have := br_center (List.range k) f g u v mt mv
      rw [z1, z2, ← hsxy, ← hsxx, List.length_range] at this
      have e : BrErr vals k u v = ((List.range k).map fun i => (g i - u - v * f i) ^ 2).sum := by rw [hf, hg]; rfl
      rw [e, this]
      field_simp
      ring
    rw [key u v, key (mv - sxy / sxx * mt) (sxy / sxx)]
    have e : mv - (mv - sxy / sxx * mt) - sxy / sxx * mt = 0 := by ring
    rw [e, sub_self]
    by_cases hv : v = sxy / sxx
    · have hu : mv - u - v * mt ≠ 0 := by
        intro h0
        apply hne
        rw [← hv]
        congr 1
        linarith
      rw [hv] at hu ⊢
      have := mul_pos hk0 (pow_pos (abs_pos.2 hu) 2)
      rw [sq_abs] at this
      rw [sub_self]
      linarith
    · have := mul_pos hpos (pow_pos (abs_pos.2 (sub_ne_zero.2 hv)) 2)
      rw [sq_abs] at this
      have h2 := mul_nonneg hk0.le (sq_nonneg (mv - u - v * mt))
      simp only [ne_eq, OfNat.ofNat_ne_zero, not_false_eq_true, zero_pow, mul_zero, add_zero]
      linarith

theorem br_residual (vals : List K) (k : Nat) (ic sl : K) :
    blrResidual ((List.range k).map fun i : Nat => (i : K)) ((List.range k).map fun i => vals.getD i 0) ic sl = BrErr vals k ic sl / ((k : K) - 2) := by
  unfold blrResidual BrErr
  rw [List.zipWith_map_left, List.zipWith_map_right, List.zipWith_self]
  simp only [List.length_map, List.length_range]
  congr 2
  apply List.map_congr_left
  intro i _
  ring

/-- C158: a prior that is given is taken; otherwise the prior for the line is the only line of least squares through the first
points, and two points are needed.  With the adjustment, the expected variance of the inverse Gamma distribution is the
variance of the residuals. -/
theorem C158_setup (a : BlrArgs K) (vals : List K) :
    (∀ m, a.mu = some m → blrSetup a vals = .ok ⟨some m, 1 / 10, 200⟩)
    ∧ (a.mu = none → min a.points vals.length < 2 → blrSetup a vals = .error .valueError)
    ∧ (a.mu = none → 2 ≤ min a.points vals.length → ∃ ic sl a0 b0, blrSetup a vals = .ok ⟨some (ic, sl), a0, b0⟩
      ∧ (∀ u v, (u, v) ≠ (ic, sl) → BrErr vals (min a.points vals.length) ic sl < BrErr vals (min a.points vals.length) u v)
      ∧ (a.readjust = false → a0 = 1 / 10 ∧ b0 = 200)
      ∧ (a.readjust = true → 3 ≤ min a.points vals.length →
        2 ≤ a0 ∧ b0 / (a0 - 1) = BrErr vals (min a.points vals.length) ic sl / ((min a.points vals.length : Nat) - 2 : K))) := by
  have e1 : ((List.range vals.length).take a.points).map (fun i : Nat => (i : K)) = (List.range (min a.points vals.length)).map fun i : Nat => (i : K) := by
    rw [List.take_range]
  refine ⟨?_, ?_, ?_⟩
  · intro m hm
    unfold blrSetup
    rw [hm]
    rfl
  · intro hm hk
    unfold blrSetup
    rw [hm]
    simp only [e1, br_take]
    unfold blrFit
    rw [if_pos (by simpa using hk)]
    rfl
  · intro hm hk
    obtain ⟨ic, sl, h1, h2⟩ := br_fit vals (min a.points vals.length) hk
    unfold blrSetup
    rw [hm]
    simp only [e1, br_take, h1, br_residual]
    cases hr : a.readjust with
    | false => exact ⟨ic, sl, 1 / 10, 200, rfl, h2, fun _ => ⟨rfl, rfl⟩, fun h => by cases h⟩
    | true =>
      refine ⟨ic, sl, _, _, rfl, h2, fun h => (by cases h), fun _ h3 => ?_⟩
      have hk3 : (0 : K) < ((min a.points vals.length : Nat) : K) - 2 := by
        have : (3 : K) ≤ ((min a.points vals.length : Nat) : K) := by exact_mod_cast h3
        linarith
      have hm0 : 0 ≤ BrErr vals (min a.points vals.length) ic sl / (((min a.points vals.length : Nat) : K) - 2) := by
        apply div_nonneg _ hk3.le
        exact List.sum_nonneg fun a ha => by
          obtain ⟨r, _, rfl⟩ := List.mem_map.1 ha
          exact sq_nonneg _
      generalize BrErr vals (min a.points vals.length) ic sl / (((min a.points vals.length : Nat) : K) - 2) = m at hm0 ⊢
      have : 0 ≤ m / 1000 := by positivity
      refine ⟨by linarith, ?_⟩
      rw [mul_div_assoc, div_self (by linarith), mul_one]

/-- C158 violated: with the adjustment, the variance of the inverse Gamma distribution should be 1000.  It is 1000 times the variance
of the residuals. -/
theorem C158_variance_violated (a : BlrArgs K) (vals : List K) (hm : a.mu = none) (hr : a.readjust = true) (pr : BlrPrior K)
    (h : blrSetup a vals = .ok pr) (m : K) (hb : pr.b / (pr.a - 1) = m) (h0 : 0 < m) (ha : 2 ≤ pr.a) :
    pr.b ^ 2 / ((pr.a - 1) ^ 2 * (pr.a - 2)) = 1000 * m
    ∧ (pr.b ^ 2 / ((pr.a - 1) ^ 2 * (pr.a - 2)) = 1000 ↔ m = 1) := by
  have hshape : ∃ v, pr.a = 2 + v / 1000 ∧ pr.b = v * (pr.a - 1) := by
    unfold blrSetup at h
    rw [hm] at h
    simp only [hr, if_true] at h
    obtain ⟨r, _, h2⟩ : ∃ r, blrFit (((List.range vals.length).take a.points).map fun i : Nat => (i : K)) (vals.take a.points) = .ok r ∧
        (⟨some r, 2 + blrResidual (((List.range vals.length).take a.points).map fun i : Nat => (i : K)) (vals.take a.points) r.1 r.2 / 1000,
          blrResidual (((List.range vals.length).take a.points).map fun i : Nat => (i : K)) (vals.take a.points) r.1 r.2 *
          (2 + blrResidual (((List.range vals.length).take a.points).map fun i : Nat => (i : K)) (vals.take a.points) r.1 r.2 / 1000 - 1)⟩ : BlrPrior K) = pr := by
      cases hf : blrFit (((List.range vals.length).take a.points).map fun i : Nat => (i : K)) (vals.take a.points) with
      | error e => rw [hf] at h; cases h
      | ok r =>
        rw [hf] at h
        exact ⟨r, rfl, Except.ok.inj h⟩
    rw [← h2]
    exact ⟨_, rfl, rfl⟩
  obtain ⟨v, e1, e2⟩ := hshape
  have ha1 : pr.a - 1 ≠ 0 := by linarith
  have hv : v = m := by rw [← hb, e2, mul_div_assoc, div_self ha1, mul_one]
  have ha2 : pr.a - 2 = m / 1000 := by rw [e1, hv]; ring
  have key : pr.b ^ 2 / ((pr.a - 1) ^ 2 * (pr.a - 2)) = 1000 * m := by
    rw [ha2, e2, hv]
    field_simp
  rw [key]
  refine ⟨rfl, ?_⟩
  constructor
  · intro h; linarith
  · intro h; rw [h]; ring

end

/-! ## Examples -/

/-- A series that rises by two, with a prior of zero: the line expected after two points, nearly `1 + 2 t`. -/
example : (brRun (fun i => if i = 0 then 1 else 3 : Nat → Rat) (0, 0) (1 / 10) 200 0 2 2).a = 11 / 10
    ∧ |(brRun (fun i => if i = 0 then 1 else 3 : Nat → Rat) (0, 0) (1 / 10) 200 0 2 2).m1 - 2| < 1 / 1000 := by decide +kernel

/-- Four points that are not on a line. -/
example : (blrSetup ⟨none, 100, 10, true⟩ [0, 1, 0, (1 : Rat)]).toOption = some ⟨some (1 / 5, 1 / 5), 2 + 2 / 5 / 1000, 2 / 5 * (1 + 2 / 5 / 1000)⟩
    ∧ (blrSetup ⟨none, 100, 10, false⟩ [0, 1, 0, (1 : Rat)]).toOption = some ⟨some (1 / 5, 1 / 5), 1 / 10, 200⟩
    ∧ (blrSetup ⟨none, 100, 1, false⟩ [0, 1, 0, (1 : Rat)]).toOption = none := by decide +kernel

/-- Draws without chance: the variance expected, and the line expected as the only sample; the density is one near the line and
zero far from it. -/
def brDraw : BlrDraw Rat := ⟨fun a b => b / a, fun _ _ m _ n => List.replicate n m, fun y m _ => if |y - m| < 1 then 1 else 0⟩

example : ((blrPred brDraw 2 ⟨some (0, 0), 1 / 10, 200⟩ (blrState (fun _ => 5) 2) 2 5).toOption.map fun l => l.map (·.1)) = some [0, 1]
    ∧ ((blrPred brDraw 2 ⟨some (0, 0), 1 / 10, 200⟩ (blrState (fun _ => 5) 2) 2 9).toOption.map fun l => l.map (·.1)) = some [0, 0] := by
  have hf : blrFloor 2 = 0 := Nat.div_eq_of_lt (Nat.sqrt_lt'.2 (by omega))
  rw [C158_rows, C158_rows]
  simp only [blrLik, hf]
  decide +kernel

end Kats
