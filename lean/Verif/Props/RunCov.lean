import Verif.Model.RunCov
import Mathlib.Tactic.Linarith
import Mathlib.Tactic.Ring
import Mathlib.Tactic.NormNum
import Mathlib.Algebra.BigOperators.Group.Finset.Basic
import Mathlib.Algebra.BigOperators.Intervals
import Mathlib.Algebra.BigOperators.Ring.Finset
import Mathlib.Algebra.Order.Group.Abs

/-!
# Properties of the weights of runs with a covariance (C172)
-/

namespace Kats

open Finset

variable {K : Type} [Field K] [LinearOrder K] [IsStrictOrderedRing K]

/-- The product of `e` over the intervals, the first at position `i`. -/
def RcProd (e : RcIv K → ℕ → K) : ℕ → List (RcIv K) → K
  | _, [] => 1
  | i, iv :: l => e iv i * RcProd e (i + 1) l

omit [LinearOrder K] [IsStrictOrderedRing K] in
theorem rcProd_append (e : RcIv K → ℕ → K) : ∀ (l l' : List (RcIv K)) (i : ℕ),
    RcProd e i (l ++ l') = RcProd e i l * RcProd e (i + l.length) l'
  | [], l', i => by simp [RcProd]
  | iv :: l, l', i => by
    rw [List.cons_append, RcProd, RcProd, rcProd_append e l l' (i + 1), List.length_cons,
      show i + 1 + l.length = i + (l.length + 1) by omega]
    ring

omit [LinearOrder K] [IsStrictOrderedRing K] in
theorem rcProd_replicate (e : RcIv K → ℕ → K) (iv : RcIv K) : ∀ (n i : ℕ),
    RcProd e i (List.replicate n iv) = ∏ t ∈ range n, e iv (i + t)
  | 0, i => by simp [RcProd]
  | n + 1, i => by
    rw [List.replicate_succ, RcProd, rcProd_replicate e iv n (i + 1), prod_range_succ', mul_comm]
    simp only [Nat.add_zero]
    congr 1
    refine prod_congr rfl fun t _ => ?_
    rw [show i + 1 + t = i + (t + 1) by omega]

omit [LinearOrder K] [IsStrictOrderedRing K] in
theorem rcRegions_sum (e : RcIv K → ℕ → K) (z : K) (l : List (RcIv K)) : ∀ (n i : ℕ),
    ((rcRegions n).map fun r => RcProd e i (r.map (rcRegion z) ++ l)).sum =
      (∏ t ∈ range n, (e (rcRegion z false) (i + t) + e (rcRegion z true) (i + t))) * RcProd e (i + n) l
  | 0, i => by simp [rcRegions]
  | n + 1, i => by
    rw [rcRegions, List.map_append, List.sum_append, List.map_map, List.map_map]
    have h : ∀ b, ((rcRegions n).map ((fun r => RcProd e i (r.map (rcRegion z) ++ l)) ∘ (b :: ·))).sum =
        e (rcRegion z b) i * ((rcRegions n).map fun r => RcProd e (i + 1) (r.map (rcRegion z) ++ l)).sum := by
      intro b
      rw [← List.sum_map_mul_left]
      rfl
    rw [h, h, rcRegions_sum e z l n (i + 1), prod_range_succ', show i + 1 + n = i + (n + 1) by omega]
    have : ∏ t ∈ range n, (e (rcRegion z false) (i + 1 + t) + e (rcRegion z true) (i + 1 + t)) =
        ∏ t ∈ range n, (e (rcRegion z false) (i + (t + 1)) + e (rcRegion z true) (i + (t + 1))) :=
      prod_congr rfl fun t _ => by rw [show i + 1 + t = i + (t + 1) by omega]
    rw [this, Nat.add_zero]
    ring

omit [LinearOrder K] [IsStrictOrderedRing K] in
theorem rcOne_drop (a b : RcIv K) (m j : ℕ) (hj : j < m) :
    (List.replicate (m - 1) a ++ [b]).drop (m - 1 - j) = List.replicate j a ++ [b] := by
  rw [List.drop_append_of_le_length (by simp), List.drop_replicate]
  congr 2
  omega

/-- The distribution function with its limits. -/
def RcF (F : K → K) : RcIv K → K
  | (l, u) => (u.elim 1 F) - (l.elim 0 F)

omit [LinearOrder K] [IsStrictOrderedRing K] in
theorem wIndependent_eq (m : ℕ) (p : K) :
    wIndependent m p = ((List.range m).map fun j => p ^ j * (1 - p)) ++ [p ^ m] := by
  unfold wIndependent
  rw [List.range_succ, List.map_append, List.zipWith_append (by simp)]
  congr 1
  · apply List.ext_getElem
    · simp
    · intro i h1 h2
      simp
  · simp

omit [LinearOrder K] [IsStrictOrderedRing K] in
theorem rcSub (m j : ℕ) (hj : j < m) : m - 1 - (m - 1 - j) = j := by omega

theorem rcIndep (F : K → K) (hF : ∀ x, F (-x) = 1 - F x) (z p : K) (m : ℕ) (upper : Bool) :
    (F z = 1 - p → rcOne (fun i l => RcProd (fun iv _ => RcF F iv) i l) upper z m = wIndependent m p) ∧
    (F z = 1 - p / 2 → rcTwo (fun i l => RcProd (fun iv _ => RcF F iv) i l) z m = wIndependent m p) := by
  constructor
  · intro hz
    rw [wIndependent_eq]
    have h1 : RcF F (if upper then ((some z, none) : RcIv K) else (none, some (-z))) = p := by
      cases upper <;> simp [RcF, hF, hz]
    have h2 : RcF F (if upper then ((none, some z) : RcIv K) else (some (-z), none)) = 1 - p := by
      cases upper <;> simp [RcF, hF, hz]
    unfold rcOne
    simp only
    congr 1
    · refine List.map_congr_left fun j hj => ?_
      rw [rcOne_drop _ _ m j (List.mem_range.1 hj), rcProd_append, rcProd_replicate, RcProd, RcProd, h1, h2,
        prod_const, card_range, mul_one]
    · rw [rcProd_replicate, h1, prod_const, card_range]
  · intro hz
    rw [wIndependent_eq]
    have h1 : RcF F (rcRegion z false) + RcF F (rcRegion z true) = p := by
      simp only [RcF, rcRegion, hF, hz, if_true, Bool.false_eq_true, if_false, Option.elim]; ring
    have h2 : RcF F ((some (-z), some z) : RcIv K) = 1 - p := by
      simp only [RcF, hF, hz, Option.elim]; ring
    unfold rcTwo
    congr 1
    · refine List.map_congr_left fun j hj => ?_
      rw [rcSub m j (List.mem_range.1 hj), rcRegions_sum, RcProd, RcProd, h1, h2, prod_const, card_range, mul_one]
    · have := rcRegions_sum (fun iv _ => RcF F iv) z [] m 0
      simp only [List.append_nil] at this
      rw [this, RcProd, h1, prod_const, card_range, mul_one]

/-- Whether the value is in the interval. -/
def RcIn (iv : RcIv K) (x : K) : Prop := (∀ l ∈ iv.1, l ≤ x) ∧ ∀ u ∈ iv.2, x ≤ u

open Classical in
/-- The probability of an event, for a law with finitely many outcomes of weights `wt`. -/
noncomputable def RcP {I : Type} (S : Finset I) (wt : I → K) (E : I → Prop) : K :=
  ∑ w ∈ S, wt w * if E w then 1 else 0

open Classical in
/-- The probability that the statistics from position `i` on are in the intervals. -/
noncomputable def RcBox {I : Type} (S : Finset I) (wt : I → K) (X : I → ℕ → K) (i : ℕ) (l : List (RcIv K)) : K :=
  ∑ w ∈ S, wt w * RcProd (fun iv t => if RcIn iv (X w t) then 1 else 0) i l

omit [LinearOrder K] [IsStrictOrderedRing K] in
theorem rcSwap {I A : Type} (S : Finset I) (wt : I → K) (f : I → A → K) : ∀ l : List A,
    (l.map fun r => ∑ w ∈ S, wt w * f w r).sum = ∑ w ∈ S, wt w * (l.map (f w)).sum
  | [] => by simp
  | a :: l => by
    simp only [List.map_cons, List.sum_cons, rcSwap S wt f l, mul_add, sum_add_distrib]

open Classical in
omit [LinearOrder K] [IsStrictOrderedRing K] in
theorem rcInd (P : ℕ → Prop) (Q : Prop) (n : ℕ) :
    (∏ t ∈ range n, (if P t then (1 : K) else 0)) * (if Q then 1 else 0) = if (∀ t < n, P t) ∧ Q then 1 else 0 := by
  rw [prod_boole]
  simp only [mem_range]
  by_cases h1 : ∀ t < n, P t <;> by_cases h2 : Q <;> simp [h1, h2]

/-- The test rejects the value: `none` for two sides, otherwise whether it is the upper side. -/
def RcReject (side : Option Bool) (z x : K) : Prop :=
  match side with
  | none => z < |x|
  | some true => z < x
  | some false => x < -z

/-- The quantile that is the critical value. -/
def RcQ (side : Option Bool) (p : K) : K :=
  match side with
  | none => 1 - p / 2
  | some _ => 1 - p

/-- C172: if the statistics are independent with the same symmetric distribution `F`, whose quantiles are the ones used,
then the weights are the same as without a covariance, and they are geometric, for every side of the test. -/
theorem C172_independent (F ppf : K → K) (hF : ∀ x, F (-x) = 1 - F x) (p : K) (side : Option Bool)
    (hq : F (ppf (RcQ side p)) = RcQ side p) (m : ℕ) :
    rcW (some fun i l => RcProd (fun iv _ => RcF F iv) i l) side ppf m p = rcW none side ppf m p ∧
    rcW none side ppf m p = ((List.range m).map fun j => p ^ j * (1 - p)) ++ [p ^ m] := by
  refine ⟨?_, wIndependent_eq m p⟩
  cases side with
  | none => exact (rcIndep F hF _ p m true).2 hq
  | some u => exact (rcIndep F hF _ p m u).1 hq

/-- The theorem for the uniform distribution on `[-1, 1]`. -/
example : rcW (some fun i l => RcProd (fun iv _ => RcF (fun x : ℚ => (1 + x) / 2) iv) i l) none (fun q => 2 * q - 1) 2
    (1 / 2) = [1 / 2, 1 / 4, 1 / 4] := by
  have := (C172_independent (fun x : ℚ => (1 + x) / 2) (fun q => 2 * q - 1) (fun x => by ring) (1 / 2) none
    (by simp only [RcQ]; ring) 2)
  rw [this.1, this.2]
  norm_num [List.range_succ]

open Classical in
/-- C172: for every joint law of the statistics that gives no probability to the critical values, the weights are the
probabilities that the last statistic is not rejected and exactly the `j` ones before it are looked at and all rejected,
and that all are rejected. -/
theorem C172_law {I : Type} (S : Finset I) (wt : I → K) (X : I → ℕ → K) (side : Option Bool) (ppf : K → K) (p z : K)
    (hp : ppf (RcQ side p) = z) (hz : 0 < z)
    (ht : ∀ w ∈ S, ∀ t, |X w t| ≠ z) (m : ℕ) :
    rcW (some (RcBox S wt X)) side ppf m p =
      ((List.range m).map fun j => RcP S wt fun w =>
        (∀ t < j, RcReject side z (X w (m - 1 - j + t))) ∧ ¬ RcReject side z (X w (m - 1))) ++
      [RcP S wt fun w => ∀ t < m, RcReject side z (X w t)] := by
  have hne : ∀ w ∈ S, ∀ t, X w t ≠ z ∧ X w t ≠ -z := fun w hw t =>
    ⟨fun h => ht w hw t (by rw [h, abs_of_pos hz]), fun h => ht w hw t (by rw [h, abs_neg, abs_of_pos hz])⟩
  cases side with
  | some u =>
    have h1 : ∀ w ∈ S, ∀ t, RcIn (if u then ((some z, none) : RcIv K) else (none, some (-z))) (X w t) ↔
        RcReject (some u) z (X w t) := by
      intro w hw t
      obtain ⟨n1, n2⟩ := hne w hw t
      cases u
      · simp [RcIn, RcReject, lt_iff_le_and_ne, n2]
      · simp [RcIn, RcReject, lt_iff_le_and_ne, n1.symm]
    have h2 : ∀ w ∈ S, ∀ t, RcIn (if u then ((none, some z) : RcIv K) else (some (-z), none)) (X w t) ↔
        ¬ RcReject (some u) z (X w t) := by
      intro w hw t
      cases u <;> simp [RcIn, RcReject]
    unfold rcW rcOne
    rw [show ppf (1 - p) = z from hp]
    simp only
    congr 1
    · refine List.map_congr_left fun j hj => ?_
      have hj := List.mem_range.1 hj
      rw [rcOne_drop _ _ m j hj]
      unfold RcBox RcP
      refine sum_congr rfl fun w hw => ?_
      rw [rcProd_append, rcProd_replicate, RcProd, RcProd, mul_one, List.length_replicate,
        rcInd, show m - 1 - j + j = m - 1 by omega]
      simp only [h1 w hw, h2 w hw]
      congr
    · unfold RcBox RcP
      congr 1
      refine sum_congr rfl fun w hw => ?_
      rw [rcProd_replicate, prod_boole]
      simp only [h1 w hw, mem_range, Nat.zero_add]
      congr
  | none =>
    have h1 : ∀ w ∈ S, ∀ t, ((if RcIn (rcRegion z false) (X w t) then (1 : K) else 0) +
        if RcIn (rcRegion z true) (X w t) then 1 else 0) = if RcReject none z (X w t) then 1 else 0 := by
      intro w hw t
      obtain ⟨n1, n2⟩ := hne w hw t
      simp only [RcIn, rcRegion, RcReject, lt_abs, if_true, Bool.false_eq_true, if_false]
      by_cases a : z < X w t
      · have b : ¬ X w t ≤ -z := by intro h; linarith
        simp [a, a.le, b]
      · have b : ¬ z ≤ X w t := fun h => a (lt_of_le_of_ne h n1.symm)
        by_cases c : X w t ≤ -z
        · have : z < -X w t := by
            have := lt_of_le_of_ne c n2
            linarith
          simp [a, b, c, this]
        · have : ¬ z < -X w t := by intro h; apply c; linarith
          simp [a, b, c, this]
    have h2 : ∀ w ∈ S, ∀ t, RcIn ((some (-z), some z) : RcIv K) (X w t) ↔ ¬ RcReject none z (X w t) := by
      intro w hw t
      simp [RcIn, RcReject, abs_le]
    unfold rcW rcTwo
    rw [show ppf (1 - p / 2) = z from hp]
    simp only
    congr 1
    · refine List.map_congr_left fun j hj => ?_
      have hj := List.mem_range.1 hj
      rw [rcSub m j hj]
      unfold RcBox RcP
      rw [rcSwap S wt (fun w (r : List Bool) => RcProd (fun iv t => if RcIn iv (X w t) then (1 : K) else 0) (m - 1 - j)
        (r.map (rcRegion z) ++ [(some (-z), some z)]))]
      refine sum_congr rfl fun w hw => ?_
      rw [rcRegions_sum, RcProd, RcProd, mul_one, prod_congr rfl fun t _ => h1 w hw _, rcInd,
        show m - 1 - j + j = m - 1 by omega]
      simp only [h2 w hw]
      congr
    · unfold RcBox RcP
      congr 1
      rw [rcSwap S wt (fun w (r : List Bool) => RcProd (fun iv t => if RcIn iv (X w t) then (1 : K) else 0) 0 (r.map (rcRegion z)))]
      refine sum_congr rfl fun w hw => ?_
      have := rcRegions_sum (fun iv t => if RcIn iv (X w t) then (1 : K) else 0) z [] m 0
      simp only [List.append_nil] at this
      rw [this, RcProd, mul_one, prod_congr rfl fun t _ => h1 w hw _, prod_boole]
      simp only [mem_range, Nat.zero_add]
      congr

omit [LinearOrder K] [IsStrictOrderedRing K] in
theorem rcSumRange (f : ℕ → K) : ∀ m : ℕ, ((List.range m).map f).sum = ∑ j ∈ range m, f j
  | 0 => by simp
  | m + 1 => by rw [List.range_succ, List.map_append, List.sum_append, rcSumRange f m, sum_range_succ]; simp

/-- C172: if in addition runs are as probable at every place, the weights add up to the whole probability. -/
theorem C172_sum {I : Type} (S : Finset I) (wt : I → K) (X : I → ℕ → K) (side : Option Bool) (ppf : K → K) (p z : K)
    (hp : ppf (RcQ side p) = z) (hz : 0 < z)
    (ht : ∀ w ∈ S, ∀ t, |X w t| ≠ z) (m : ℕ)
    (hs : ∀ j < m, RcP S wt (fun w => ∀ t < j, RcReject side z (X w (m - 1 - j + t))) =
      RcP S wt (fun w => ∀ t < j, RcReject side z (X w (m - j + t)))) :
    (rcW (some (RcBox S wt X)) side ppf m p).sum = ∑ w ∈ S, wt w := by
  classical
  rw [C172_law S wt X side ppf p z hp hz ht m, List.sum_append, List.sum_singleton]
  have h : ∀ j < m, RcP S wt (fun w => (∀ t < j, RcReject side z (X w (m - 1 - j + t))) ∧
      ¬ RcReject side z (X w (m - 1))) =
      RcP S wt (fun w => ∀ t < j, RcReject side z (X w (m - j + t))) -
      RcP S wt (fun w => ∀ t < j + 1, RcReject side z (X w (m - (j + 1) + t))) := by
    intro j hj
    rw [← hs j hj]
    unfold RcP
    rw [← sum_sub_distrib]
    refine sum_congr rfl fun w _ => ?_
    have e : (∀ t < j + 1, RcReject side z (X w (m - (j + 1) + t))) ↔
        (∀ t < j, RcReject side z (X w (m - 1 - j + t))) ∧ RcReject side z (X w (m - 1)) := by
      rw [show m - (j + 1) = m - 1 - j by omega]
      constructor
      · intro h
        refine ⟨fun t ht => h t (by omega), ?_⟩
        have := h j (by omega)
        rwa [show m - 1 - j + j = m - 1 by omega] at this
      · rintro ⟨h1, h2⟩ t ht
        rcases Nat.lt_succ_iff_lt_or_eq.1 ht with h | rfl
        · exact h1 t h
        · rwa [show m - 1 - t + t = m - 1 by omega]
    by_cases h1 : ∀ t < j, RcReject side z (X w (m - 1 - j + t)) <;>
      by_cases h2 : RcReject side z (X w (m - 1)) <;> simp only [e, h1, h2] <;> simp
  have hl : ((List.range m).map fun j => RcP S wt fun w =>
      (∀ t < j, RcReject side z (X w (m - 1 - j + t))) ∧ ¬ RcReject side z (X w (m - 1))).sum =
      ∑ j ∈ range m, (RcP S wt (fun w => ∀ t < j, RcReject side z (X w (m - j + t))) -
      RcP S wt (fun w => ∀ t < j + 1, RcReject side z (X w (m - (j + 1) + t)))) := by
    rw [List.map_congr_left fun j hj => h j (List.mem_range.1 hj)]
    exact rcSumRange _ m
  rw [hl, sum_range_sub']
  simp only [Nat.sub_self, Nat.zero_add, sub_add_cancel]
  unfold RcP
  simp

/-- Two statistics, both rejected or both not, with probabilities one third and two thirds. -/
example : (rcW (some (RcBox (range 2) (fun w => if w = 0 then (1 / 3 : ℚ) else 2 / 3) (fun w _ => if w = 0 then -5 else 1)))
    none (fun _ => 2) 2 (1 / 20)).sum = 1 := by
  rw [C172_sum (range 2) _ _ none (fun _ => 2) (1 / 20) 2 rfl (by norm_num) (by
    intro w _ t
    by_cases h : w = 0 <;> simp [h]) 2 (by intro j hj; rfl)]
  simp [sum_range_succ]
  norm_num

/-- C172: without the same probability at every place the weights need not add up to one: the first of two statistics is
always rejected, the second never. -/
theorem C172_sum_violated : ∃ X : ℕ → ℕ → ℚ,
    (rcW (some (RcBox (range 1) (fun _ => (1 : ℚ)) X)) none (fun _ => 2) 2 (1 / 20)).sum = 2 := by
  refine ⟨fun _ t => if t = 0 then 5 else 1, ?_⟩
  rw [C172_law (range 1) _ _ none (fun _ => 2) (1 / 20) 2 rfl (by norm_num) (by
    intro w _ t
    by_cases h : t = 0 <;> simp [h])]
  have h : ¬ ∀ t ≤ 1, (2 : ℚ) < |if t = 0 then 5 else 1| := fun h => by
    have := h 1 le_rfl
    norm_num at this
  norm_num [List.range_succ, RcP, RcReject, h]

end Kats
