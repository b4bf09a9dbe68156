import Verif.Model.Seasonality
import Mathlib.Algebra.Group.ForwardDiff
import Mathlib.Data.List.GetD
import Mathlib.Data.Nat.Prime.Basic
import Mathlib.Data.Real.Basic
import Mathlib.Tactic.Linarith
import Mathlib.Tactic.NormNum
import Mathlib.Tactic.Ring

/-!
# Seasonality by autocorrelation: C103
-/

namespace Kats

open scoped fwdDiff

theorem seasonLengths_cons (k : Nat) (d : List Nat) :
    seasonLengths (k :: d) = k :: seasonLengths (d.filter fun i => decide (i % k ≠ 0)) := by
  rw [seasonLengths]

theorem seasonLengths_sublist (d : List Nat) : List.Sublist (seasonLengths d) d := by
  induction h : d.length using Nat.strong_induction_on generalizing d with
  | _ n ih =>
    cases d with
    | nil => rw [seasonLengths]
    | cons k d =>
      rw [seasonLengths_cons]
      have hle := List.length_filter_le (fun i : Nat => decide (i % k ≠ 0)) d
      rw [List.length_cons] at h
      exact ((ih _ (by omega) _ rfl).trans List.filter_sublist).cons_cons k

theorem seasonLengths_mem (d : List Nat) (hp : ∀ i ∈ d, 0 < i) (hs : d.Pairwise (· < ·)) (i : Nat) :
    i ∈ seasonLengths d ↔ i ∈ d ∧ ∀ j ∈ d, j ∣ i → j = i := by
  induction h : d.length using Nat.strong_induction_on generalizing d with
  | _ n ih =>
    cases d with
    | nil => simp [seasonLengths]
    | cons k d =>
      rw [seasonLengths_cons]
      have hle := List.length_filter_le (fun i : Nat => decide (i % k ≠ 0)) d
      rw [List.length_cons] at h
      rw [List.pairwise_cons] at hs
      rw [List.mem_cons, ih _ (by omega) _ (fun i hi => hp i (by simp [(List.mem_filter.1 hi).1]))
        (hs.2.filter _) rfl]
      constructor
      · rintro (rfl | ⟨hi, hall⟩)
        · refine ⟨by simp, ?_⟩
          intro j hj hd
          rcases List.mem_cons.1 hj with rfl | hj
          · rfl
          · have := hs.1 j hj
            have := Nat.le_of_dvd (hp i (by simp)) hd
            omega
        · rw [List.mem_filter, decide_eq_true_eq] at hi
          refine ⟨by simp [hi.1], ?_⟩
          intro j hj hd
          rcases List.mem_cons.1 hj with rfl | hj
          · exact absurd (Nat.mod_eq_zero_of_dvd hd) hi.2
          · by_cases hm : j % k = 0
            · exact absurd (Nat.mod_eq_zero_of_dvd ((Nat.dvd_of_mod_eq_zero hm).trans hd)) hi.2
            · exact hall j (List.mem_filter.2 ⟨hj, by simpa using hm⟩) hd
      · rintro ⟨hi, hall⟩
        rcases List.mem_cons.1 hi with rfl | hi
        · exact Or.inl rfl
        · by_cases hm : i % k = 0
          · exact Or.inl (hall k (by simp) (Nat.dvd_of_mod_eq_zero hm)).symm
          · right
            refine ⟨List.mem_filter.2 ⟨hi, by simpa using hm⟩, ?_⟩
            intro j hj
            exact hall j (by simp [(List.mem_filter.1 hj).1])

/-- Each entry is a multiple of a result. -/
theorem seasonLengths_cover (d : List Nat) (hp : ∀ i ∈ d, 0 < i) (i : Nat) (hi : i ∈ d) :
    ∃ k ∈ seasonLengths d, k ∣ i := by
  induction h : d.length using Nat.strong_induction_on generalizing d with
  | _ n ih =>
    cases d with
    | nil => simp at hi
    | cons k d =>
      rw [seasonLengths_cons]
      have hle := List.length_filter_le (fun i : Nat => decide (i % k ≠ 0)) d
      rw [List.length_cons] at h
      by_cases hm : i % k = 0
      · exact ⟨k, by simp, Nat.dvd_of_mod_eq_zero hm⟩
      · have hid : i ∈ d := by
          rcases List.mem_cons.1 hi with rfl | hi
          · simp at hm
          · exact hi
        obtain ⟨j, hj, hd⟩ := ih _ (by omega) (d.filter fun i => decide (i % k ≠ 0))
          (fun i hi => hp i (by simp [(List.mem_filter.1 hi).1])) (List.mem_filter.2 ⟨hid, by simpa using hm⟩) rfl
        exact ⟨j, List.mem_cons_of_mem _ hj, hd⟩

/-- Lag `i` counts: at least two, and the confidence interval does not reach below zero. -/
def LagUp (lower : List (Option Rat)) (i : Nat) : Prop := 2 ≤ i ∧ ∃ x, lower[i]? = some (some x) ∧ 0 ≤ x

/-- C103, autocorrelation: the cycle lengths are, in increasing order, the significantly positive lags that are
no multiples of smaller ones; each significant lag is a multiple of a cycle length; seasonality is reported
exactly if there is one. -/
theorem C103_acf {K : Type} [Sub K] (acf : List K → Nat → Rat → Except Err (List (Option Rat))) (ts : List K)
    (lags : Option Nat) (diff : Nat) (alpha : Rat) (lower : List (Option Rat))
    (hacf : acf (npDiff^[diff] ts) (lags.getD (ts.length / 3)) alpha = .ok lower) :
    ∃ out, acfDetector acf ts lags diff (some alpha) = .ok out ∧
      (∀ i, i ∈ out.seasonality ↔ LagUp lower i ∧ ∀ j, LagUp lower j → j ∣ i → j = i) ∧
      (∀ i, LagUp lower i → ∃ k ∈ out.seasonality, k ∣ i) ∧
      out.seasonality.Pairwise (· < ·) ∧
      (out.detected = true ↔ ∃ i, LagUp lower i) := by
  set raw := (List.range lower.length).filter fun i =>
      ((lower.getD i none).elim false fun x => decide (0 ≤ x)) && decide (i > 1) with hraw
  have hmem : ∀ i, i ∈ raw ↔ LagUp lower i := by
    intro i
    rw [hraw, List.mem_filter, List.mem_range, Bool.and_eq_true, decide_eq_true_eq]
    unfold LagUp
    rw [List.getD_eq_getElem?_getD]
    by_cases hi : i < lower.length
    · rw [List.getElem?_eq_getElem hi, Option.getD_some]
      cases hx : lower[i] with
      | none => simp
      | some x =>
        simp only [Option.elim_some, decide_eq_true_eq, Option.some.injEq, exists_eq_left']
        constructor
        · rintro ⟨-, h1, h2⟩; exact ⟨h2, h1⟩
        · rintro ⟨h1, h2⟩; exact ⟨hi, h2, h1⟩
    · simp [hi]
  have hs : raw.Pairwise (· < ·) := List.pairwise_lt_range.filter _
  have hp : ∀ i ∈ raw, 0 < i := by
    intro i hi
    have := ((hmem i).1 hi).1
    omega
  refine ⟨⟨npDiff^[diff] ts, lags.getD (ts.length / 3), seasonLengths raw, !(seasonLengths raw).isEmpty⟩, ?_, ?_, ?_,
    ?_, ?_⟩
  · simp only [acfDetector, hacf, bind, Except.bind, pure, Except.pure]
    rfl
  · intro i
    simp only [seasonLengths_mem raw hp hs, hmem]
  · intro i hi
    exact seasonLengths_cover raw hp i ((hmem i).2 hi)
  · exact hs.sublist (seasonLengths_sublist raw)
  · simp only [Bool.not_eq_true', List.isEmpty_eq_false_iff]
    constructor
    · intro h
      obtain ⟨i, hi⟩ := List.exists_mem_of_ne_nil _ h
      exact ⟨i, (hmem i).1 ((seasonLengths_sublist raw).subset hi)⟩
    · rintro ⟨i, hi⟩
      obtain ⟨k, hk, -⟩ := seasonLengths_cover raw hp i ((hmem i).2 hi)
      exact List.ne_nil_of_mem hk

example : (acfDetector (fun _ _ _ => .ok [some 1, some 0, some (-1), some (1 / 2), none, some (-1), some (1 / 3), some (1 / 4)])
    [(1 : Int), 2, 3, 1, 2, 3, 1, 2, 3]).map (fun o => (o.seasonality, o.detected, o.lags, o.tsDiff)) =
    .ok ([3, 7], true, 3, [1, 1, -2, 1, 1, -2, 1, 1]) := by decide +kernel

/-- C103 is violated without a significance level, which the signature allows: the call fails. -/
theorem C103_alpha_violated {K : Type} [Sub K] (acf : List K → Nat → Rat → Except Err (List (Option Rat)))
    (ts : List K) (lags : Option Nat) (diff : Nat) : acfDetector acf ts lags diff none = .error .valueError := rfl

/-- C103 is violated for smooth series: if all autocorrelations are significantly positive, the "cycle lengths" are
the prime numbers up to the largest lag. -/
theorem C103_primes_violated {K : Type} [Sub K] (acf : List K → Nat → Rat → Except Err (List (Option Rat))) (ts : List K)
    (lags : Option Nat) (diff : Nat) (alpha : Rat) (lower : List (Option Rat))
    (hacf : acf (npDiff^[diff] ts) (lags.getD (ts.length / 3)) alpha = .ok lower)
    (hall : ∀ o ∈ lower, ∃ x, o = some x ∧ 0 ≤ x) :
    ∃ out, acfDetector acf ts lags diff (some alpha) = .ok out ∧
      ∀ i, i ∈ out.seasonality ↔ i.Prime ∧ i < lower.length := by
  obtain ⟨out, ho, hm, -⟩ := C103_acf acf ts lags diff alpha lower hacf
  refine ⟨out, ho, fun i => ?_⟩
  have hup : ∀ j, LagUp lower j ↔ 2 ≤ j ∧ j < lower.length := by
    intro j
    unfold LagUp
    refine and_congr_right fun _ => ?_
    constructor
    · rintro ⟨x, hx, -⟩
      exact (List.getElem?_eq_some_iff.1 hx).1
    · intro hj
      obtain ⟨x, hx, h0⟩ := hall lower[j] (List.getElem_mem hj)
      exact ⟨x, by rw [List.getElem?_eq_getElem hj, hx], h0⟩
  rw [hm, hup]
  constructor
  · rintro ⟨⟨h2, hl⟩, hd⟩
    refine ⟨?_, hl⟩
    have h1 := hd i.minFac ((hup _).2 ⟨(Nat.minFac_prime (by omega)).two_le,
      lt_of_le_of_lt (Nat.minFac_le (by omega)) hl⟩) (Nat.minFac_dvd i)
    rw [← h1]
    exact Nat.minFac_prime (by omega)
  · rintro ⟨hp, hl⟩
    refine ⟨⟨hp.two_le, hl⟩, ?_⟩
    intro j hj hd
    rcases (Nat.dvd_prime hp).1 hd with rfl | rfl
    · have := ((hup 1).1 hj).1
      omega
    · rfl

example : (acfDetector (fun _ _ _ => .ok (List.replicate 13 (some 1))) (List.range 36 |>.map fun i => (i : Int))).map
    (fun o => o.seasonality) = .ok [2, 3, 5, 7, 11] := by decide +kernel

/-! ### Trends -/

theorem npDiff_range {K : Type} [AddCommGroup K] (n : Nat) (f : Nat → K) :
    npDiff ((List.range n).map f) = (List.range (n - 1)).map (Δ_[1] f) := by
  unfold npDiff
  apply List.ext_getElem
  · simp
  · intro i h1 h2
    simp only [List.getElem_zipWith, List.getElem_drop, List.getElem_map, List.getElem_range, fwdDiff]
    rw [Nat.add_comm]

theorem npDiff_iter {K : Type} [AddCommGroup K] (d n : Nat) (f : Nat → K) :
    npDiff^[d] ((List.range n).map f) = (List.range (n - d)).map (Δ_[1]^[d] f) := by
  induction d generalizing n f with
  | zero => rfl
  | succ d ih =>
    rw [Function.iterate_succ_apply, npDiff_range, ih, Function.iterate_succ_apply]
    congr 2
    omega

theorem fwdDiff_cast (d : Nat) (g : ℝ → ℝ) (f : Nat → ℝ) :
    Δ_[1]^[d] (fun i : Nat => f i + g i) = fun i : Nat => Δ_[1]^[d] f i + Δ_[1]^[d] g (i : ℝ) := by
  induction d generalizing g f with
  | zero => rfl
  | succ d ih =>
    rw [Function.iterate_succ_apply, Function.iterate_succ_apply, Function.iterate_succ_apply]
    have : (Δ_[1] fun i : Nat => f i + g i) = fun i : Nat => (Δ_[1] f) i + (Δ_[1] g) (i : ℝ) := by
      funext i
      simp only [fwdDiff]
      push_cast
      ring
    rw [this, ih]

/-- C103: differencing `diff` times removes every polynomial trend of smaller degree, so that the result does
not depend on it. -/
theorem C103_trend (acf : List ℝ → Nat → Rat → Except Err (List (Option Rat))) (n : Nat) (f : Nat → ℝ)
    (P : Polynomial ℝ) (lags : Option Nat) (diff : Nat) (alpha : Option Rat) (hP : P.natDegree < diff) :
    acfDetector acf ((List.range n).map fun i : Nat => f i + P.eval (i : ℝ)) lags diff alpha =
      acfDetector acf ((List.range n).map f) lags diff alpha := by
  have h : npDiff^[diff] ((List.range n).map fun i : Nat => f i + P.eval (i : ℝ)) =
      npDiff^[diff] ((List.range n).map f) := by
    rw [npDiff_iter, npDiff_iter, fwdDiff_cast diff (fun x => P.eval x) f]
    apply List.map_congr_left
    intro i _
    have := congrFun (Polynomial.fwdDiff_iter_eq_zero_of_degree_lt hP) (i : ℝ)
    rw [show (fun x => P.eval x) = P.eval from rfl, this]
    simp
  unfold acfDetector
  rw [h]
  simp only [List.length_map]

/-- C103: if the autocorrelation ignores shifts of its argument, the cycle lengths do not depend on polynomial
trends of degree `diff` either, in particular by default not on linear trends. -/
theorem C103_trend_top (acf : List ℝ → Nat → Rat → Except Err (List (Option Rat)))
    (hacf : ∀ l c k a, acf (l.map (· + c)) k a = acf l k a) (n : Nat) (f : Nat → ℝ)
    (P : Polynomial ℝ) (lags : Option Nat) (diff : Nat) (alpha : Option Rat) (hP : P.natDegree ≤ diff) :
    (acfDetector acf ((List.range n).map fun i : Nat => f i + P.eval (i : ℝ)) lags diff alpha).map
        (fun o => (o.seasonality, o.detected)) =
      (acfDetector acf ((List.range n).map f) lags diff alpha).map (fun o => (o.seasonality, o.detected)) := by
  rcases Nat.lt_or_ge P.natDegree diff with h | h
  · rw [C103_trend acf n f P lags diff alpha h]
  · have he : P.natDegree = diff := by omega
    obtain ⟨c, hc⟩ : ∃ c : ℝ, ∀ x : ℝ, Δ_[1]^[diff] (fun x => P.eval x) x = c := by
      refine ⟨P.leadingCoeff • (diff.factorial : ℝ), ?_⟩
      intro x
      have := congrFun (Polynomial.fwdDiff_iter_degree_eq_factorial P) x
      rw [he] at this
      simpa using this
    have h : npDiff^[diff] ((List.range n).map fun i : Nat => f i + P.eval (i : ℝ)) =
        (npDiff^[diff] ((List.range n).map f)).map (· + c) := by
      rw [npDiff_iter, npDiff_iter, fwdDiff_cast diff (fun x => P.eval x) f, List.map_map]
      apply List.map_congr_left
      intro i _
      simp only [Function.comp, hc]
    cases alpha with
    | none => rfl
    | some alpha =>
      simp only [acfDetector, h, hacf, List.length_map, List.length_range, bind, Except.bind, pure, Except.pure,
        Except.map]
      cases acf (npDiff^[diff] ((List.range n).map f)) (lags.getD (n / 3)) alpha <;> rfl

/-- C103, `remover`: the series is decomposed exactly if seasonality was detected or the caller insists, and then the result
is that of the decomposition; otherwise nothing is returned. -/
theorem C103_remover {R : Type} (detected anyWay : Bool) (dec : Except Err R) :
    (anyWay = true → acfRemover detected anyWay dec = dec.map some) ∧
      (detected = true → acfRemover detected anyWay dec = dec.map some) ∧
      (anyWay = false → detected = false → acfRemover detected anyWay dec = .ok none) := by
  refine ⟨?_, ?_, ?_⟩
  · rintro rfl; rfl
  · rintro rfl
    cases anyWay <;> rfl
  · rintro rfl rfl; rfl

-- C103_remover: a detected season and a decomposition that fails
example : acfRemover (R := Nat) true false (.error .valueError) = .error .valueError :=
  (C103_remover true false (.error .valueError)).2.1 rfl

end Kats
