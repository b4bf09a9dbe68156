import Verif.Model.Dtw
import Mathlib.Data.List.GetD
import Mathlib.Tactic.Linarith
import Mathlib.Tactic.NormNum

/-!
# Dynamic time warping distance: C95
-/

namespace Kats

open Classical

/-! ## Specification -/

/-- `Warp ok d i j c`: there is an alignment of the positions `0..i` with the positions `0..j` that
starts with `(0, 0)`, ends with `(i, j)`, advances one or both sides by one in each step, uses only
pairs allowed by `ok`, and whose pairs cost `c` in total. -/
inductive Warp (ok : Nat → Nat → Prop) (d : Nat → Nat → ℝ) : Nat → Nat → ℝ → Prop
  | start : ok 0 0 → Warp ok d 0 0 (d 0 0)
  | down {i j c} : Warp ok d i j c → ok (i + 1) j → Warp ok d (i + 1) j (c + d (i + 1) j)
  | right {i j c} : Warp ok d i j c → ok i (j + 1) → Warp ok d i (j + 1) (c + d i (j + 1))
  | diag {i j c} : Warp ok d i j c → ok (i + 1) (j + 1) → Warp ok d (i + 1) (j + 1) (c + d (i + 1) (j + 1))

/-- The squared difference of two values. -/
def sqCost (s1 s2 : List ℝ) (i j : Nat) : ℝ := (s1.getD i 0 - s2.getD j 0) ^ 2

/-- The pairs that the loops of the code visit: `j` from `i - w` up to, but not including, `i + w`. -/
def halfBand (w i j : Nat) : Prop := i ≤ j + w ∧ j < i + w

/-! ## The table is the recursion -/

/-- The recursion, with indices shifted by one. -/
noncomputable def dtwRec (ok : Nat → Nat → Prop) (d : Nat → Nat → ℝ) : Nat → Nat → Dist
  | 0, 0 => 0
  | 0, _ + 1 => ⊤
  | _ + 1, 0 => ⊤
  | i + 1, j + 1 =>
    if ok i j then
      ((d i j : ℝ) : Dist) + min (min (dtwRec ok d i (j + 1)) (dtwRec ok d (i + 1) j)) (dtwRec ok d i j)
    else ⊤
termination_by i j => i + j

theorem dtwRec_succ (ok : Nat → Nat → Prop) (d : Nat → Nat → ℝ) (i j : Nat) :
    dtwRec ok d (i + 1) (j + 1) =
      if ok i j then
        ((d i j : ℝ) : Dist) + min (min (dtwRec ok d i (j + 1)) (dtwRec ok d (i + 1) j)) (dtwRec ok d i j)
      else ⊤ := by
  rw [dtwRec]

theorem dtwRec_zero_succ (ok : Nat → Nat → Prop) (d : Nat → Nat → ℝ) (j : Nat) :
    dtwRec ok d 0 (j + 1) = ⊤ := by rw [dtwRec]

theorem dtwRec_succ_zero (ok : Nat → Nat → Prop) (d : Nat → Nat → ℝ) (i : Nat) :
    dtwRec ok d (i + 1) 0 = ⊤ := by rw [dtwRec]

theorem dtwRec_zero (ok : Nat → Nat → Prop) (d : Nat → Nat → ℝ) : dtwRec ok d 0 0 = 0 := by rw [dtwRec]

theorem dtwInit_eq (a b : Nat) (ok : Nat → Nat → Prop) (d : Nat → Nat → ℝ) (h : a = 0) :
    dtwInit a b = dtwRec ok d a b := by
  subst h
  cases b with
  | zero => simp [dtwInit, dtwRec_zero]
  | succ b => simp [dtwInit, dtwRec_zero_succ]

/-- The inner loop after `k` steps. -/
theorem dtwRow_steps (s1 s2 : List ℝ) (w i : Nat) (T : Nat → Nat → Dist)
    (hT : ∀ a ≤ i, ∀ b ≤ s2.length, T a b = dtwRec (halfBand w) (sqCost s1 s2) a b)
    (hN : ∀ a > i, ∀ b, T a b = ⊤) (k : Nat) (hk : (i - w) + k ≤ s2.length ∨ k = 0) (hk' : (i - w) + k ≤ i + w ∨ k = 0) :
    let T' := (List.range' (i - w) k).foldl (dtwCell s1 s2 i) T
    (∀ a ≤ i, ∀ b ≤ s2.length, T' a b = dtwRec (halfBand w) (sqCost s1 s2) a b) ∧
      (∀ b ≤ s2.length, b ≤ (i - w) + k → T' (i + 1) b = dtwRec (halfBand w) (sqCost s1 s2) (i + 1) b) ∧
      (∀ b, b > (i - w) + k → T' (i + 1) b = ⊤) ∧ (∀ a > i + 1, ∀ b, T' a b = ⊤) := by
  induction k with
  | zero =>
    simp only [List.range'_zero, List.foldl_nil]
    refine ⟨hT, ?_, fun b _ => hN _ (by omega) b, fun a ha b => hN a (by omega) b⟩
    intro b hb hbk
    rw [hN _ (by omega)]
    cases b with
    | zero => rw [dtwRec_succ_zero]
    | succ b =>
      rw [dtwRec_succ, if_neg]
      unfold halfBand
      omega
  | succ k ih =>
    obtain ⟨h1, h2, h3, h4⟩ := ih (by omega) (by omega)
    rw [List.range'_concat, List.foldl_append]
    simp only [List.foldl_cons, List.foldl_nil, Nat.one_mul]
    set T' := (List.range' (i - w) k).foldl (dtwCell s1 s2 i) T with hT'
    have hval : ∀ a b, dtwCell s1 s2 i T' (i - w + k) a b =
        if a = i + 1 ∧ b = i - w + k + 1 then dtwRec (halfBand w) (sqCost s1 s2) (i + 1) (i - w + k + 1)
        else T' a b := by
      intro a b
      unfold dtwCell
      split_ifs with h
      · rw [dtwRec_succ, if_pos (by unfold halfBand; omega), h1 i le_rfl _ (by omega),
          h1 i le_rfl _ (by omega), h2 _ (by omega) (by omega)]
        rfl
      · rfl
    refine ⟨?_, ?_, ?_, ?_⟩
    · intro a ha b hb
      rw [hval, if_neg (by omega)]
      exact h1 a ha b hb
    · intro b hb hbk
      rw [hval]
      split_ifs with h
      · rw [h.2]
      · exact h2 b hb (by omega)
    · intro b hb
      rw [hval, if_neg (by omega)]
      exact h3 b (by omega)
    · intro a ha b
      rw [hval, if_neg (by omega)]
      exact h4 a ha b

theorem dtwTable_eq (s1 s2 : List ℝ) (w n : Nat) :
    (∀ a ≤ n, ∀ b ≤ s2.length, dtwTable s1 s2 w n a b = dtwRec (halfBand w) (sqCost s1 s2) a b) ∧
      (∀ a > n, ∀ b, dtwTable s1 s2 w n a b = ⊤) := by
  induction n with
  | zero =>
    refine ⟨fun a ha b _ => dtwInit_eq a b _ _ (by omega), fun a ha b => ?_⟩
    simp [dtwTable, dtwInit]
    omega
  | succ n ih =>
    have e : dtwTable s1 s2 w (n + 1) = dtwRow s1 s2 w (dtwTable s1 s2 w n) n := by
      unfold dtwTable
      rw [List.range_succ, List.foldl_append]
      rfl
    obtain ⟨h1, h2, h3, h4⟩ := dtwRow_steps s1 s2 w n (dtwTable s1 s2 w n) ih.1 ih.2
      (min s2.length (n + w) - (n - w)) (by omega) (by omega)
    rw [e]
    refine ⟨?_, fun a ha b => h4 a ha b⟩
    intro a ha b hb
    rcases Nat.lt_or_ge n a with h | h
    · obtain rfl : a = n + 1 := by omega
      by_cases hb' : b ≤ n - w + (min s2.length (n + w) - (n - w))
      · exact h2 b hb hb'
      · refine (h3 b (by omega)).trans ?_
        cases b with
        | zero => omega
        | succ b =>
          rw [dtwRec_succ, if_neg]
          unfold halfBand
          omega
    · exact h1 a h b hb

/-! ## The recursion is the least cost -/

theorem dtwRec_le {ok : Nat → Nat → Prop} {d : Nat → Nat → ℝ} {i j : Nat} {c : ℝ} (h : Warp ok d i j c) :
    dtwRec ok d (i + 1) (j + 1) ≤ (c : Dist) := by
  induction h with
  | start h =>
    rw [dtwRec_succ, if_pos h, dtwRec_zero]
    calc _ ≤ ((d 0 0 : ℝ) : Dist) + 0 := add_le_add le_rfl (min_le_right _ _)
      _ = _ := by simp
  | @down i j c _ h ih =>
    rw [dtwRec_succ, if_pos h, add_comm c, WithTop.coe_add]
    exact add_le_add le_rfl (le_trans (le_trans (min_le_left _ _) (min_le_left _ _)) ih)
  | @right i j c _ h ih =>
    rw [dtwRec_succ, if_pos h, add_comm c, WithTop.coe_add]
    exact add_le_add le_rfl (le_trans (le_trans (min_le_left _ _) (min_le_right _ _)) ih)
  | @diag i j c _ h ih =>
    rw [dtwRec_succ, if_pos h, add_comm c, WithTop.coe_add]
    exact add_le_add le_rfl (le_trans (min_le_right _ _) ih)

theorem dtwRec_attained (ok : Nat → Nat → Prop) (d : Nat → Nat → ℝ) (n : Nat) :
    ∀ i j c, i + j = n → dtwRec ok d (i + 1) (j + 1) = ((c : ℝ) : Dist) → Warp ok d i j c := by
  induction n using Nat.strong_induction_on with
  | _ n ih =>
    intro i j c hn h
    rw [dtwRec_succ] at h
    by_cases hok : ok i j
    · rw [if_pos hok] at h
      set m := min (min (dtwRec ok d i (j + 1)) (dtwRec ok d (i + 1) j)) (dtwRec ok d i j) with hm
      have hmt : m ≠ ⊤ := by
        intro e
        rw [e] at h
        simp at h
      obtain ⟨c', hc'⟩ := WithTop.ne_top_iff_exists.1 hmt
      rw [← hc', ← WithTop.coe_add, WithTop.coe_inj] at h
      have hcases : m = dtwRec ok d i (j + 1) ∨ m = dtwRec ok d (i + 1) j ∨ m = dtwRec ok d i j := by
        rcases min_choice (min (dtwRec ok d i (j + 1)) (dtwRec ok d (i + 1) j)) (dtwRec ok d i j) with h1 | h1
        · rcases min_choice (dtwRec ok d i (j + 1)) (dtwRec ok d (i + 1) j) with h2 | h2
          · exact Or.inl (hm.trans (h1.trans h2))
          · exact Or.inr (Or.inl (hm.trans (h1.trans h2)))
        · exact Or.inr (Or.inr (hm.trans h1))
      rw [← h, add_comm]
      rcases hcases with e | e | e
      · cases i with
        | zero => rw [dtwRec_zero_succ] at e; exact absurd e hmt
        | succ i => exact .down (ih (i + j) (by omega) i j c' rfl (by rw [← e, hc'])) hok
      · cases j with
        | zero => rw [dtwRec_succ_zero] at e; exact absurd e hmt
        | succ j => exact .right (ih (i + j) (by omega) i j c' rfl (by rw [← e, hc'])) hok
      · cases i with
        | zero =>
          cases j with
          | zero =>
            rw [dtwRec_zero, ← hc'] at e
            have : c' = 0 := by exact_mod_cast e
            rw [this, zero_add]
            exact .start hok
          | succ j => rw [dtwRec_zero_succ] at e; exact absurd e hmt
        | succ i =>
          cases j with
          | zero => rw [dtwRec_succ_zero] at e; exact absurd e hmt
          | succ j => exact .diag (ih (i + j) (by omega) i j c' rfl (by rw [← e, hc'])) hok
    · rw [if_neg hok] at h
      simp at h

theorem dtwDistance_eq (s1 s2 : List ℝ) (w : Nat) :
    dtwDistance s1 s2 w = WithTop.map Real.sqrt
      (dtwRec (halfBand (max w (max (s1.length - s2.length) (s2.length - s1.length)))) (sqCost s1 s2)
        s1.length s2.length) := by
  unfold dtwDistance
  dsimp only
  rw [(dtwTable_eq s1 s2 _ s1.length).1 s1.length le_rfl s2.length le_rfl]

theorem dsqrt_mono {a b : Dist} (h : a ≤ b) : WithTop.map Real.sqrt a ≤ WithTop.map Real.sqrt b := by
  cases b using WithTop.recTopCoe with
  | top => simp
  | coe b =>
    cases a using WithTop.recTopCoe with
    | top => simp at h
    | coe a =>
      simp only [WithTop.map_coe, WithTop.coe_le_coe] at h ⊢
      exact Real.sqrt_le_sqrt h

/-- C95: the distance is the square root of the least total squared difference over all alignments
within the band, and infinite exactly if there is no such alignment. -/
theorem C95_least (s1 s2 : List ℝ) (w n m : Nat) (h1 : s1.length = n + 1) (h2 : s2.length = m + 1) :
    let band := halfBand (max w (max (n - m) (m - n)))
    (∀ c, Warp band (sqCost s1 s2) n m c → dtwDistance s1 s2 w ≤ ((√c : ℝ) : Dist)) ∧
      (∀ x : ℝ, dtwDistance s1 s2 w = (x : Dist) → ∃ c, Warp band (sqCost s1 s2) n m c ∧ x = √c) ∧
      (dtwDistance s1 s2 w = ⊤ ↔ ¬ ∃ c, Warp band (sqCost s1 s2) n m c) := by
  intro band
  have hb : halfBand (max w (max (s1.length - s2.length) (s2.length - s1.length))) = band := by
    rw [h1, h2]; simp only [band, Nat.add_sub_add_right]
  have e := dtwDistance_eq s1 s2 w
  rw [hb, h1, h2] at e
  have key : ∀ x : ℝ, dtwDistance s1 s2 w = (x : Dist) → ∃ c, Warp band (sqCost s1 s2) n m c ∧ x = √c := by
    intro x hx
    rw [e] at hx
    cases hr : dtwRec band (sqCost s1 s2) (n + 1) (m + 1) using WithTop.recTopCoe with
    | top => rw [hr] at hx; simp at hx
    | coe c =>
      rw [hr, WithTop.map_coe, WithTop.coe_inj] at hx
      exact ⟨c, dtwRec_attained _ _ _ n m c rfl hr, hx.symm⟩
  have le : ∀ c, Warp band (sqCost s1 s2) n m c → dtwDistance s1 s2 w ≤ ((√c : ℝ) : Dist) := by
    intro c hc
    rw [e]
    exact dsqrt_mono (dtwRec_le hc)
  refine ⟨le, key, ?_⟩
  constructor
  · rintro h ⟨c, hc⟩
    have := le c hc
    rw [h] at this
    simp at this
  · intro h
    by_contra hne
    obtain ⟨x, hx⟩ := WithTop.ne_top_iff_exists.1 hne
    obtain ⟨c, hc, -⟩ := key x hx.symm
    exact h ⟨c, hc⟩

/-! ## Consequences -/

theorem warp_sub {ok ok' : Nat → Nat → Prop} {d : Nat → Nat → ℝ} {i j : Nat} {c : ℝ} (h : Warp ok d i j c)
    (hs : ∀ a b, a ≤ i → b ≤ j → ok a b → ok' a b) : Warp ok' d i j c := by
  induction h with
  | start h => exact .start (hs _ _ le_rfl le_rfl h)
  | down _ h ih => exact .down (ih fun a b ha hb => hs a b (by omega) hb) (hs _ _ le_rfl le_rfl h)
  | right _ h ih => exact .right (ih fun a b ha hb => hs a b ha (by omega)) (hs _ _ le_rfl le_rfl h)
  | diag _ h ih => exact .diag (ih fun a b ha hb => hs a b (by omega) (by omega)) (hs _ _ le_rfl le_rfl h)

theorem warp_swap {ok : Nat → Nat → Prop} {d : Nat → Nat → ℝ} {i j : Nat} {c : ℝ} (h : Warp ok d i j c) :
    Warp (fun a b => ok b a) (fun a b => d b a) j i c := by
  induction h with
  | start h => exact .start h
  | @down i j c _ h ih => exact Warp.right (ok := fun a b => ok b a) (d := fun a b => d b a) ih h
  | @right i j c _ h ih => exact Warp.down (ok := fun a b => ok b a) (d := fun a b => d b a) ih h
  | @diag i j c _ h ih => exact Warp.diag (ok := fun a b => ok b a) (d := fun a b => d b a) ih h

/-- The alignment along the diagonal. -/
theorem warp_diag (ok : Nat → Nat → Prop) (d : Nat → Nat → ℝ) (n : Nat) (h : ∀ i ≤ n, ok i i) :
    Warp ok d n n (((List.range (n + 1)).map fun i => d i i).sum) := by
  induction n with
  | zero => simpa using Warp.start (ok := ok) (d := d) (h 0 le_rfl)
  | succ n ih =>
    rw [List.range_succ, List.map_append, List.sum_append]
    simpa using Warp.diag (ih fun i hi => h i (by omega)) (h (n + 1) le_rfl)

theorem warp_nonneg {ok : Nat → Nat → Prop} {d : Nat → Nat → ℝ} (hd : ∀ a b, 0 ≤ d a b) {i j : Nat} {c : ℝ}
    (h : Warp ok d i j c) : 0 ≤ c := by
  induction h with
  | start h => exact hd _ _
  | down _ _ ih => exact add_nonneg ih (hd _ _)
  | right _ _ ih => exact add_nonneg ih (hd _ _)
  | diag _ _ ih => exact add_nonneg ih (hd _ _)

/-- C95: windows of the same length are at most as far apart as pointwise, if the band has at least the
width one. -/
theorem C95_euclid (s1 s2 : List ℝ) (w : Nat) (h : s1.length = s2.length) (hw : 0 < w) :
    dtwDistance s1 s2 w ≤ ((√((List.zipWith (fun x y => (x - y) ^ 2) s1 s2).sum) : ℝ) : Dist) := by
  cases hn : s1.length with
  | zero =>
    obtain rfl : s1 = [] := List.length_eq_zero_iff.1 hn
    obtain rfl : s2 = [] := List.length_eq_zero_iff.1 (by rw [← h, hn])
    rw [dtwDistance_eq]
    simp [dtwRec_zero]
  | succ n =>
    have := (C95_least s1 s2 w n n hn (by rw [← h, hn])).1 _
      (warp_diag _ _ n fun i _ => by unfold halfBand; omega)
    refine this.trans (le_of_eq ?_)
    congr 3
    apply List.ext_getElem
    · simp [hn, ← h]
    · intro i h1 h2
      simp only [List.length_map, List.length_range] at h1
      simp [sqCost, hn, ← h, h1]

example : dtwDistance [0, 0, 1] [0, 1, 1] 1 ≤ ((√(([0, 1, 0] : List ℝ).sum) : ℝ) : Dist) := by
  have := C95_euclid [0, 0, 1] [0, 1, 1] 1 rfl (by norm_num)
  simpa using this

/-- C95: a non-empty window is at distance zero from itself, if the band has at least the width one. -/
theorem C95_self_partial (s : List ℝ) (w : Nat) (hw : 0 < w) : dtwDistance s s w = 0 := by
  apply le_antisymm
  · refine (C95_euclid s s w rfl hw).trans (le_of_eq ?_)
    have : (List.zipWith (fun x y : ℝ => (x - y) ^ 2) s s).sum = 0 := by
      induction s with
      | nil => rfl
      | cons x s ih => simp
    rw [this]
    simp
  · rw [dtwDistance_eq]
    cases dtwRec _ (sqCost s s) s.length s.length using WithTop.recTopCoe with
    | top => simp
    | coe c => rw [WithTop.map_coe]; exact_mod_cast Real.sqrt_nonneg c

/-- C95 is violated for windows of one or two points: the band used by the detector, a third of the
length, is then empty and every distance is infinite, even that of a window to itself. -/
theorem C95_short_violated (s1 s2 : List ℝ) (h : s1.length = s2.length) (h0 : s1 ≠ []) (h2 : s2.length < 3) :
    dtwDistance s1 s2 (s2.length / 3) = ⊤ := by
  obtain ⟨n, hn⟩ : ∃ n, s1.length = n + 1 := ⟨s1.length - 1, by
    have := List.length_pos_iff.2 h0; omega⟩
  rw [(C95_least s1 s2 _ n n hn (by omega)).2.2]
  rintro ⟨c, hc⟩
  have : ∀ {i j c}, Warp (halfBand (max (s2.length / 3) (max (n - n) (n - n)))) (sqCost s1 s2) i j c → False := by
    intro i j c h
    have h3 : s2.length / 3 = 0 := by omega
    rw [h3] at h
    induction h with
    | start h => simp [halfBand] at h
    | down _ _ ih => exact ih
    | right _ _ ih => exact ih
    | diag _ _ ih => exact ih
  exact this hc

example : dtwDistance [1, 2] [1, 2] (([1, 2] : List ℝ).length / 3) = ⊤ :=
  C95_short_violated _ _ rfl (by simp) (by simp)

/-- C95: with a band wider than both windows, the distance is symmetric.  In general it is not. -/
theorem C95_symm_partial (s1 s2 : List ℝ) (w : Nat) (h1 : s1.length ≤ w) (h2 : s2.length ≤ w) :
    dtwDistance s1 s2 w = dtwDistance s2 s1 w := by
  have key : ∀ s1 s2 : List ℝ, s1.length ≤ w → s2.length ≤ w →
      dtwDistance s2 s1 w ≤ dtwDistance s1 s2 w := by
    intro s1 s2 h1 h2
    cases hx : dtwDistance s1 s2 w using WithTop.recTopCoe with
    | top => exact le_top
    | coe x =>
      cases hn : s1.length with
      | zero =>
        cases hm : s2.length with
        | zero =>
          rw [List.length_eq_zero_iff] at hn hm
          rw [hn, hm] at hx ⊢
          rw [hx]
        | succ m =>
          rw [dtwDistance_eq, hn, hm, dtwRec_zero_succ] at hx
          simp at hx
      | succ n =>
        cases hm : s2.length with
        | zero =>
          rw [dtwDistance_eq, hn, hm, dtwRec_succ_zero] at hx
          simp at hx
        | succ m =>
          obtain ⟨c, hc, rfl⟩ := (C95_least s1 s2 w n m hn hm).2.1 x hx
          refine (C95_least s2 s1 w m n hm hn).1 c ?_
          have := warp_swap hc
          have hd : (fun a b => sqCost s1 s2 b a) = sqCost s2 s1 := by
            funext a b
            unfold sqCost
            ring
          rw [hd] at this
          refine warp_sub this ?_
          intro a b ha hb _
          unfold halfBand
          omega
  exact le_antisymm (key s2 s1 h2 h1) (key s1 s2 h1 h2)

example : dtwDistance [1, 2] [3, 4] 5 = dtwDistance [3, 4] [1, 2] 5 := C95_symm_partial _ _ _ (by simp) (by simp)

/-- C95 is violated: the band is not symmetric (the second sequence may lag behind the first, but not the
other way round), so the distance depends on the order of the arguments. -/
theorem C95_symm_violated :
    dtwDistance [0, 0, 1] [0, 1, 1] 1 = 0 ∧ 1 ≤ dtwDistance [0, 1, 1] [0, 0, 1] 1 := by
  constructor
  · apply le_antisymm
    · have := (C95_least [0, 0, 1] [0, 1, 1] 1 2 2 rfl rfl).1 0 ?_
      · simpa using this
      · have b : ∀ i j, halfBand 1 i j ↔ i ≤ j + 1 ∧ j < i + 1 := fun _ _ => Iff.rfl
        have w0 := Warp.start (ok := halfBand 1) (d := sqCost [0, 0, 1] [0, 1, 1]) (by simp [b])
        have w1 := Warp.down w0 (by simp [b])
        have w2 := Warp.diag w1 (by simp [b])
        have w3 := Warp.right w2 (by simp [b])
        simpa [sqCost] using w3
    · rw [dtwDistance_eq]
      cases dtwRec _ (sqCost _ _) _ _ using WithTop.recTopCoe with
      | top => simp
      | coe c => rw [WithTop.map_coe]; exact_mod_cast Real.sqrt_nonneg c
  · cases hx : dtwDistance [0, 1, 1] [0, 0, 1] 1 using WithTop.recTopCoe with
    | top => simp
    | coe x =>
      obtain ⟨c, hc, rfl⟩ := (C95_least [0, 1, 1] [0, 0, 1] 1 2 2 rfl rfl).2.1 x hx
      have : ∀ {i j c}, Warp (halfBand 1) (sqCost [0, 1, 1] [0, 0, 1]) i j c → 1 ≤ i → 1 ≤ c := by
        intro i j c h
        have hn : ∀ a b, 0 ≤ sqCost [0, 1, 1] [0, 0, 1] a b := fun a b => sq_nonneg _
        induction h with
        | start h => intro h; omega
        | @down i j c hw h ih =>
          intro _
          have := warp_nonneg hn hw
          rcases Nat.eq_zero_or_pos i with rfl | hi
          · have : j = 0 ∨ j = 1 := by unfold halfBand at h; omega
            rcases this with rfl | rfl <;> simp [sqCost] <;> linarith
          · have := ih hi; have := hn (i + 1) j; linarith
        | @right i j c hw h ih => intro hi; have := ih hi; have := hn i (j + 1); linarith
        | @diag i j c hw h ih =>
          intro _
          have := warp_nonneg hn hw
          rcases Nat.eq_zero_or_pos i with rfl | hi
          · have : j = 0 := by unfold halfBand at h; omega
            subst this
            simp [sqCost]; linarith
          · have := ih hi; have := hn (i + 1) (j + 1); linarith
      have h1 := this hc (by norm_num)
      exact_mod_cast Real.one_le_sqrt.2 h1

end Kats
