import Verif.Model.TsNowcast
import Verif.Props.TsStats4

/-!
# Nowcasting features: C111
-/

namespace Kats

noncomputable section

open Classical

/-! ### The exponentially weighted average -/

/-- The documented average of the values up to `t`: weights `q ^ k` for the value `k` steps back. -/
def ewmaSpec (q : ℝ) (x : List ℝ) (t : Nat) : ℝ :=
  ((List.range (t + 1)).map fun k : Nat => q ^ k * x.getD (t - k) 0).sum / ((List.range (t + 1)).map fun k : Nat => q ^ k).sum

theorem ewmaLoop_length (q : ℝ) (t : List ℝ) (i : Nat) (w old : ℝ) : (ewmaLoop q i w old t).length = t.length := by
  induction t generalizing i w old with
  | nil => rfl
  | cons a t ih => simp [ewmaLoop, ih]

theorem ewmaAll_length (q : ℝ) (x : List ℝ) : (ewmaAll q x).length = x.length := by
  cases x with
  | nil => rfl
  | cons a t => simp [ewmaAll, ewmaLoop_length]

theorem sum_pow_shift (q : ℝ) (f : Nat → ℝ) (n : Nat) :
    ((List.range (n + 1)).map fun k : Nat => q ^ k * f k).sum =
      f 0 + q * ((List.range n).map fun k : Nat => q ^ k * f (k + 1)).sum := by
  rw [List.range_succ_eq_map, List.map_cons, List.sum_cons, List.map_map, pow_zero, one_mul, ← List.sum_map_mul_left]
  congr 2
  apply List.map_congr_left
  intro k _
  simp only [Function.comp, Nat.succ_eq_add_one]
  ring

theorem ewmaLoop_spec (q : ℝ) (x : List ℝ) (t : List ℝ) (i : Nat) (w old : ℝ) (hx : x.drop i = t) (hi : 0 < i)
    (hix : i ≤ x.length) (hwe : w = ((List.range i).map fun k : Nat => q ^ k).sum)
    (hoe : old = ((List.range i).map fun k : Nat => q ^ k * x.getD (i - 1 - k) 0).sum) :
    ∀ j (hj : j < t.length), (ewmaLoop q i w old t)[j]'(by rw [ewmaLoop_length]; exact hj) =
        ewmaSpec q x (i + j) := by
  induction t generalizing i w old with
  | nil => intro j hj; simp at hj
  | cons a t ih =>
    have hlt : i < x.length := by
      by_contra h
      rw [List.drop_eq_nil_of_le (by omega)] at hx
      simp at hx
    have ha : x.getD i 0 = a := by
      rw [List.drop_eq_getElem_cons hlt] at hx
      injection hx with h1 h2
      rw [List.getD_eq_getElem _ _ hlt, h1]
    have ht : x.drop (i + 1) = t := by
      rw [List.drop_eq_getElem_cons hlt] at hx
      injection hx with h1 h2
    have hw : ((List.range i).map fun k : Nat => q ^ k).sum + q ^ i = ((List.range (i + 1)).map fun k : Nat => q ^ k).sum := by
      rw [List.range_succ, List.map_append, List.sum_append]
      simp
    have ho : ((List.range i).map fun k : Nat => q ^ k * x.getD (i - 1 - k) 0).sum * q + a =
        ((List.range (i + 1)).map fun k : Nat => q ^ k * x.getD (i + 1 - 1 - k) 0).sum := by
      rw [sum_pow_shift q (fun k => x.getD (i + 1 - 1 - k) 0), Nat.add_sub_cancel, Nat.sub_zero, ha]
      have : (fun k : Nat => q ^ k * x.getD (i - (k + 1)) 0) = fun k : Nat => q ^ k * x.getD (i - 1 - k) 0 := by
        funext k
        rw [show i - (k + 1) = i - 1 - k by omega]
      rw [this]
      ring
    intro j hj
    cases j with
    | zero =>
      simp only [ewmaLoop, List.getElem_cons_zero]
      rw [hwe, hoe, hw, ho]
      rfl
    | succ j =>
      simp only [ewmaLoop, List.getElem_cons_succ]
      have := ih (i + 1) (w + q ^ i) (old * q + a) ht (by omega) (by omega) (by rw [hwe, hw]) (by rw [hoe, ho]) j
        (by simpa using hj)
      rw [this]
      congr 1
      omega

theorem ewmaAll_spec (q : ℝ) (x : List ℝ) (t : Nat) (h : t < x.length) :
    (ewmaAll q x)[t]'(by rw [ewmaAll_length]; exact h) = ewmaSpec q x t := by
  cases x with
  | nil => simp at h
  | cons a s =>
    cases t with
    | zero => simp [ewmaAll, ewmaSpec]
    | succ t =>
      simp only [ewmaAll, List.getElem_cons_succ]
      have := ewmaLoop_spec q (a :: s) s 1 1 a rfl (by omega) (by simp) (by simp) (by simp) t (by simpa using h)
      rw [this, Nat.add_comm]

theorem ewmaQ_bounds (span : Nat) (hs : 1 ≤ span) : 0 ≤ ewmaQ span ∧ ewmaQ span < 1 := by
  have h1 : (1 : ℝ) ≤ span := by exact_mod_cast hs
  unfold ewmaQ
  constructor
  · rw [sub_nonneg, div_le_one (by linarith)]
    linarith
  · rw [sub_lt_self_iff]
    positivity

theorem weight_pos (q : ℝ) (hq : 0 ≤ q) (n : Nat) : 0 < ((List.range (n + 1)).map fun k : Nat => q ^ k).sum := by
  rw [List.range_succ_eq_map, List.map_cons, List.sum_cons, pow_zero]
  have : 0 ≤ (((List.range n).map Nat.succ).map fun k : Nat => q ^ k).sum := by
    apply List.sum_nonneg
    intro y hy
    obtain ⟨k, _, rfl⟩ := List.mem_map.1 hy
    exact pow_nonneg hq k
  linarith

theorem ewmaSpec_affine (q : ℝ) (hq : 0 ≤ q) (x : List ℝ) (t : Nat) (ht : t < x.length) (a b : ℝ) :
    ewmaSpec q (x.map fun v => a * v + b) t = a * ewmaSpec q x t + b := by
  have hw := weight_pos q hq t
  unfold ewmaSpec
  have : ((List.range (t + 1)).map fun k : Nat => q ^ k * (x.map fun v => a * v + b).getD (t - k) 0).sum =
      a * ((List.range (t + 1)).map fun k : Nat => q ^ k * x.getD (t - k) 0).sum +
        b * ((List.range (t + 1)).map fun k : Nat => q ^ k).sum := by
    rw [← List.sum_map_mul_left, ← List.sum_map_mul_left, ← List.sum_map_add]
    congr 1
    apply List.map_congr_left
    intro k hk
    rw [List.mem_range] at hk
    rw [getD_map_lt _ _ _ (by omega)]
    ring
  rw [this]
  generalize ((List.range (t + 1)).map fun k : Nat => q ^ k).sum = W at *
  field_simp

theorem ewmaSpec_le (q : ℝ) (hq : 0 ≤ q) (x : List ℝ) (t : Nat) (ht : t < x.length) (hi : ℝ) (h : ∀ v ∈ x, v ≤ hi) :
    ewmaSpec q x t ≤ hi := by
  unfold ewmaSpec
  rw [div_le_iff₀ (weight_pos q hq t), ← List.sum_map_mul_left]
  apply List.sum_le_sum
  intro k hk
  rw [List.mem_range] at hk
  rw [mul_comm hi]
  apply mul_le_mul_of_nonneg_left _ (pow_nonneg hq k)
  rw [List.getD_eq_getElem _ _ (by omega)]
  exact h _ (List.getElem_mem _)

theorem le_ewmaSpec (q : ℝ) (hq : 0 ≤ q) (x : List ℝ) (t : Nat) (ht : t < x.length) (lo : ℝ) (h : ∀ v ∈ x, lo ≤ v) :
    lo ≤ ewmaSpec q x t := by
  unfold ewmaSpec
  rw [le_div_iff₀ (weight_pos q hq t), ← List.sum_map_mul_left]
  apply List.sum_le_sum
  intro k hk
  rw [List.mem_range] at hk
  rw [mul_comm lo]
  apply mul_le_mul_of_nonneg_left _ (pow_nonneg hq k)
  rw [List.getD_eq_getElem _ _ (by omega)]
  exact h _ (List.getElem_mem _)

theorem filterMap_id_some_real (x : List ℝ) : (x.map some).filterMap id = x := by
  induction x with
  | nil => rfl
  | cons a x ih => simp

theorem ewmaFn_ok (arr : List (Option ℝ)) (span m : Nat) (hm : 0 < m) (h : m ≤ (arr.filterMap id).length) :
    ewmaFn arr span m = .ok (List.replicate (arr.length - ((arr.filterMap id).length - (m - 1))) none ++
      ((ewmaAll (ewmaQ span) (arr.filterMap id)).drop (m - 1)).map some) := by
  unfold ewmaFn
  dsimp only
  rw [if_neg, if_neg, List.length_drop, ewmaAll_length]
  · intro h0
    have := congrArg List.length h0
    rw [List.length_drop, ewmaAll_length] at this
    simp only [List.length_nil] at this
    omega
  · intro h0
    rw [h0] at h
    simp at h
    omega

theorem ewmaFn_err (arr : List (Option ℝ)) (span m : Nat) (h : (arr.filterMap id).length < m) :
    ∃ e, ewmaFn arr span m = .error e := by
  unfold ewmaFn
  dsimp only
  split
  · exact ⟨_, rfl⟩
  · rw [if_pos]
    · exact ⟨_, rfl⟩
    · apply List.drop_eq_nil_of_le
      rw [ewmaAll_length]
      omega

/-- **C111 (weighted average).**  With at least `min_periods` values the result has one entry for each value; the first
`min_periods - 1` are NaN, and every other one is the documented weighted mean of the values up to it, which lies between
the least and the greatest value and is shifted and scaled with the values. -/
theorem C111_ewma (x : List ℝ) (span m : Nat) (hs : 1 ≤ span) (hm : 0 < m) (hx : m ≤ x.length) :
    ∃ out, ewmaFn (x.map some) span m = .ok out ∧ out.length = x.length ∧
      (∀ t : Nat, t + 1 < m → out.getD t none = none) ∧
      ∀ t : Nat, m ≤ t + 1 → t < x.length → ∃ y, out.getD t none = some y ∧
        y = ((List.range (t + 1)).map fun k : Nat => (1 - 2 / ((span : ℝ) + 1)) ^ k * x.getD (t - k) 0).sum /
          ((List.range (t + 1)).map fun k : Nat => (1 - 2 / ((span : ℝ) + 1)) ^ k).sum ∧
        (∀ lo, (∀ v ∈ x, lo ≤ v) → lo ≤ y) ∧ ∀ hi, (∀ v ∈ x, v ≤ hi) → y ≤ hi := by
  have hq := (ewmaQ_bounds span hs).1
  have hf := ewmaFn_ok (x.map some) span m hm (by rw [filterMap_id_some_real]; exact hx)
  rw [filterMap_id_some_real, List.length_map] at hf
  refine ⟨_, hf, ?_, ?_, ?_⟩
  · rw [List.length_append, List.length_replicate, List.length_map, List.length_drop, ewmaAll_length]
    omega
  · intro t ht
    rw [List.getD_append _ _ _ _ (by rw [List.length_replicate]; omega)]
    simp
  · intro t h1 h2
    refine ⟨ewmaSpec (ewmaQ span) x t, ?_, rfl, fun lo => le_ewmaSpec _ hq x t h2 lo, fun hi => ewmaSpec_le _ hq x t h2 hi⟩
    rw [List.getD_append_right _ _ _ _ (by rw [List.length_replicate]; omega), List.length_replicate,
      List.getD_eq_getElem _ _ (by rw [List.length_map, List.length_drop, ewmaAll_length]; omega), List.getElem_map,
      List.getElem_drop]
    congr 1
    rw [← ewmaAll_spec _ x t h2]
    congr 1
    omega

example : 1 ≤ 12 ∧ 0 < 2 ∧ 2 ≤ ([1, 5, 3] : List ℝ).length := by simp

/-! ### When everything fails -/

theorem nanSub_length (a b : List (Option ℝ)) : (nanSub a b).length = min a.length b.length := by
  simp [nanSub]

theorem nanSub1_none (u : Option ℝ) : nanSub1 u none = none := by
  cases u <;> rfl

theorem nanSub_none (u : List (Option ℝ)) : nanSub u (List.replicate u.length none) = List.replicate u.length none := by
  induction u with
  | nil => rfl
  | cons a u ih =>
    rw [List.length_cons, List.replicate_succ]
    unfold nanSub at ih ⊢
    rw [List.zipWith_cons_cons, ih, nanSub1_none]

theorem nanSub_append (a b c d : List (Option ℝ)) (h : a.length = b.length) :
    nanSub (a ++ c) (b ++ d) = nanSub a b ++ nanSub c d := by
  unfold nanSub
  exact List.zipWith_append h

theorem nanSub_some (u v : List ℝ) : nanSub (u.map some) (v.map some) = (List.zipWith (fun a b => a - b) u v).map some := by
  unfold nanSub
  rw [List.zipWith_map, List.map_zipWith]
  rfl

theorem nanSub_pad (p : Nat) (u v : List ℝ) : nanSub (List.replicate p none ++ u.map some) (List.replicate p none ++ v.map some) =
    List.replicate p none ++ (List.zipWith (fun a b => a - b) u v).map some := by
  rw [← nanSub_some, nanSub_append _ _ _ _ rfl]
  congr 1
  have := nanSub_none (List.replicate p none)
  rw [List.length_replicate] at this
  exact this

theorem filterMap_pad (p : Nat) (u : List ℝ) : (List.replicate p none ++ u.map some).filterMap id = u := by
  rw [List.filterMap_append, filterMap_id_some_real]
  simp

/-- The difference of the two averages, where both are defined. -/
def macdVals (x : List ℝ) (nFast nSlow : Nat) : List ℝ :=
  List.zipWith (fun a b => a - b) ((ewmaAll (ewmaQ nFast) x).drop (nSlow - 2)) ((ewmaAll (ewmaQ nSlow) x).drop (nSlow - 2))

theorem macdVals_length (x : List ℝ) (nFast nSlow : Nat) : (macdVals x nFast nSlow).length = x.length - (nSlow - 2) := by
  simp [macdVals, ewmaAll_length]

theorem nowMacd_ok (x : List ℝ) (nFast nSlow : Nat) (hs : 2 ≤ nSlow) (h : nSlow ≤ x.length + 1) :
    nowMacd x nFast nSlow = .ok (List.replicate (x.length - (x.length - (nSlow - 2))) none ++
      (macdVals x nFast nSlow).map some) := by
  have hf : ∀ span, ewmaFn (x.map some) span (nSlow - 1) = .ok (List.replicate (x.length - (x.length - (nSlow - 2))) none ++
      ((ewmaAll (ewmaQ span) x).drop (nSlow - 2)).map some) := by
    intro span
    have := ewmaFn_ok (x.map some) span (nSlow - 1) (by omega) (by rw [filterMap_id_some_real]; omega)
    rw [filterMap_id_some_real, List.length_map, show nSlow - 1 - 1 = nSlow - 2 by omega] at this
    exact this
  unfold nowMacd
  rw [hf, hf]
  simp only [bind, Except.bind, pure, Except.pure]
  rw [nanSub_pad]
  rfl

theorem nowMacd_err (x : List ℝ) (nFast nSlow : Nat) (h : x.length + 1 < nSlow) : ∃ e, nowMacd x nFast nSlow = .error e := by
  obtain ⟨e, he⟩ := ewmaFn_err (x.map some) nFast (nSlow - 1) (by rw [filterMap_id_some_real]; omega)
  unfold nowMacd
  rw [he]
  exact ⟨e, rfl⟩

theorem nowRoc_ok (x : List ℝ) (window : Nat) (hw : 2 ≤ window) : nowRoc x window =
    .ok (meanNan (List.zipWith (fun a b => if b = 0 then 0 else (a - b) / b) (x.drop (window - 1)) (x.take (x.length - (window - 1))))) := by
  have hd : pyDropEnd x (window - 1) = x.take (x.length - (window - 1)) := by
    unfold pyDropEnd
    rw [if_neg (by omega)]
  unfold nowRoc
  rw [hd, if_neg]
  rw [List.length_drop, List.length_take]
  omega

theorem nowcastNp_spec (x : List ℝ) (window nFast nSlow : Nat) (hw : 2 ≤ window) (hs : 2 ≤ nSlow) :
    (x.length + 1 < nSlow ∨ 27 ≤ x.length ∧ x.length < nSlow + 6 → ∃ e, nowcastNp x window nFast nSlow = .error e) ∧
    (nSlow ≤ x.length + 1 → x.length < 27 → ∃ roc, nowRoc x window = .ok roc ∧ nowcastNp x window nFast nSlow =
      .ok ⟨roc, nowMom x window, nowMa x window, nowLag x window, meanNan (macdVals x nFast nSlow), none, none⟩) ∧
    (27 ≤ x.length → nSlow + 6 ≤ x.length → ∃ roc, nowRoc x window = .ok roc ∧ nowcastNp x window nFast nSlow =
      .ok ⟨roc, nowMom x window, nowMa x window, nowLag x window, meanNan (macdVals x nFast nSlow),
        meanNan ((ewmaAll (ewmaQ 9) (macdVals x nFast nSlow)).drop 7),
        meanNan (List.zipWith (fun a b => a - b) ((macdVals x nFast nSlow).drop 7)
          ((ewmaAll (ewmaQ 9) (macdVals x nFast nSlow)).drop 7))⟩) := by
  have hroc := nowRoc_ok x window hw
  refine ⟨?_, ?_, ?_⟩
  · intro h
    unfold nowcastNp
    rw [hroc]
    simp only [bind, Except.bind]
    rcases Nat.lt_or_ge (x.length + 1) nSlow with h1 | h1
    · obtain ⟨e, he⟩ := nowMacd_err x nFast nSlow h1
      rw [he]
      exact ⟨e, rfl⟩
    · rcases h with h | ⟨h2, h3⟩
      · omega
      rw [nowMacd_ok x nFast nSlow hs h1]
      dsimp only
      rw [if_pos h2]
      obtain ⟨e, he⟩ := ewmaFn_err (List.replicate (x.length - (x.length - (nSlow - 2))) none ++
        (macdVals x nFast nSlow).map some) 9 8 (by rw [filterMap_pad, macdVals_length]; omega)
      rw [he]
      exact ⟨e, rfl⟩
  · intro h1 h2
    refine ⟨_, hroc, ?_⟩
    unfold nowcastNp
    rw [hroc, nowMacd_ok x nFast nSlow hs h1]
    simp only [bind, Except.bind]
    rw [if_neg (by omega)]
    unfold nanMeanR
    rw [filterMap_pad]
    rfl
  · intro h1 h2
    refine ⟨_, hroc, ?_⟩
    unfold nowcastNp
    rw [hroc, nowMacd_ok x nFast nSlow hs (by omega)]
    simp only [bind, Except.bind]
    rw [if_pos h1]
    have hsig := ewmaFn_ok (List.replicate (x.length - (x.length - (nSlow - 2))) none ++
        (macdVals x nFast nSlow).map some) 9 8 (by omega) (by rw [filterMap_pad, macdVals_length]; omega)
    rw [filterMap_pad] at hsig
    rw [hsig]
    simp only [pure, Except.pure]
    have hlen : (List.replicate (x.length - (x.length - (nSlow - 2))) (none : Option ℝ) ++
        (macdVals x nFast nSlow).map some).length = x.length := by
      rw [List.length_append, List.length_replicate, List.length_map, macdVals_length]
      omega
    rw [hlen, macdVals_length]
    have hpad : List.replicate (x.length - (x.length - (nSlow - 2))) (none : Option ℝ) ++ (macdVals x nFast nSlow).map some =
        List.replicate (nSlow - 2) none ++ (((macdVals x nFast nSlow).take 7).map some ++ ((macdVals x nFast nSlow).drop 7).map some) := by
      rw [← List.map_append, List.take_append_drop, show x.length - (x.length - (nSlow - 2)) = nSlow - 2 by omega]
    have hpad2 : List.replicate (x.length - (x.length - (nSlow - 2) - (8 - 1))) (none : Option ℝ) ++
        ((ewmaAll (ewmaQ 9) (macdVals x nFast nSlow)).drop (8 - 1)).map some =
        List.replicate (nSlow - 2) none ++ (List.replicate 7 none ++
          ((ewmaAll (ewmaQ 9) (macdVals x nFast nSlow)).drop 7).map some) := by
      rw [← List.append_assoc, List.replicate_append_replicate,
        show x.length - (x.length - (nSlow - 2) - (8 - 1)) = nSlow - 2 + 7 by omega]
    have hdiff : nanSub (List.replicate (nSlow - 2) none ++ (((macdVals x nFast nSlow).take 7).map some ++
        ((macdVals x nFast nSlow).drop 7).map some)) (List.replicate (nSlow - 2) none ++ (List.replicate 7 none ++
          ((ewmaAll (ewmaQ 9) (macdVals x nFast nSlow)).drop 7).map some)) =
        List.replicate (nSlow - 2 + 7) none ++ (List.zipWith (fun a b => a - b) ((macdVals x nFast nSlow).drop 7)
          ((ewmaAll (ewmaQ 9) (macdVals x nFast nSlow)).drop 7)).map some := by
      have ht : ((macdVals x nFast nSlow).take 7).length = 7 := by
        rw [List.length_take, macdVals_length]
        omega
      have h7 : nanSub (((macdVals x nFast nSlow).take 7).map some) (List.replicate 7 none) = List.replicate 7 none := by
        have := nanSub_none (((macdVals x nFast nSlow).take 7).map some)
        rw [List.length_map, ht] at this
        exact this
      have h8 : nanSub (List.replicate (nSlow - 2) none) (List.replicate (nSlow - 2) none) =
          List.replicate (nSlow - 2) none := by
        have := nanSub_none (List.replicate (nSlow - 2) none)
        rw [List.length_replicate] at this
        exact this
      rw [nanSub_append _ _ _ _ rfl, nanSub_append _ _ _ _ (by rw [List.length_map, ht, List.length_replicate]), h7, h8,
        nanSub_some, ← List.append_assoc, List.replicate_append_replicate]
    rw [hpad, hpad2, hdiff]
    have hm1 : nanMeanR (List.replicate (nSlow - 2) none ++ (((macdVals x nFast nSlow).take 7).map some ++
        ((macdVals x nFast nSlow).drop 7).map some)) = meanNan (macdVals x nFast nSlow) := by
      unfold nanMeanR
      rw [← List.map_append, List.take_append_drop, filterMap_pad]
    have hm2 : ∀ l : List ℝ, nanMeanR (List.replicate (nSlow - 2) none ++ (List.replicate 7 none ++ l.map some)) =
        meanNan l := by
      intro l
      unfold nanMeanR
      rw [← List.append_assoc, List.replicate_append_replicate, filterMap_pad]
    have hm3 : ∀ (p : Nat) (l : List ℝ), nanMeanR (List.replicate p none ++ l.map some) = meanNan l := by
      intro p l
      unfold nanMeanR
      rw [filterMap_pad]
    rw [hm1, hm2, hm3]

/-- **C111 (values).**  If there are enough points for the averages, the rate of change is the mean relative change over
`window - 1` steps (zero where the earlier value is zero), the momentum the mean change over `window` steps, the lag the
mean of all but the last `window` values, and all are defined if the series is longer than the window.  The two signal
features are defined exactly from 27 points on. -/
theorem C111_values_partial (x : List ℝ) (window nFast nSlow : Nat) (hw : 2 ≤ window) (hs : 2 ≤ nSlow)
    (h1 : nSlow ≤ x.length + 1) (h2 : 27 ≤ x.length → nSlow + 6 ≤ x.length) (hx : window < x.length) :
    ∃ F, getNowcasting x window nFast nSlow = F ∧
      F.roc = some (meanOf ((List.range (x.length - (window - 1))).map fun i : Nat =>
        if x.getD i 0 = 0 then 0 else (x.getD (i + (window - 1)) 0 - x.getD i 0) / x.getD i 0)) ∧
      F.mom = some (meanOf ((List.range (x.length - window)).map fun i : Nat => x.getD (i + window) 0 - x.getD i 0)) ∧
      F.lag = some (meanOf ((List.range (x.length - window)).map fun i : Nat => x.getD i 0)) ∧
      F.ma = some (meanOf ((List.range (x.length - (window - 1))).map fun i : Nat => meanOf ((x.drop i).take window))) ∧
      (∃ m, F.macd = some m) ∧ (F.macdsign.isSome ↔ 27 ≤ x.length) ∧ (F.macddiff.isSome ↔ 27 ≤ x.length) := by
  have hne : ∀ l : List ℝ, 0 < l.length → meanNan l = some (meanOf l) := by
    intro l hl
    unfold meanNan
    rw [if_neg (List.ne_nil_of_length_pos hl)]
  have hrocv : nowRoc x window = .ok (some (meanOf ((List.range (x.length - (window - 1))).map fun i : Nat =>
        if x.getD i 0 = 0 then 0 else (x.getD (i + (window - 1)) 0 - x.getD i 0) / x.getD i 0))) := by
    rw [nowRoc_ok x window hw, hne _ (by simp; omega)]
    congr 3
    apply List.ext_getElem
    · simp
    · intro i h3 h4
      simp only [List.getElem_zipWith, List.getElem_drop, List.getElem_take, List.getElem_map, List.getElem_range]
      have h5 : i < x.length - (window - 1) := by simpa using h4
      rw [List.getD_eq_getElem _ _ (by omega), List.getD_eq_getElem _ _ (by omega)]
      simp only [Nat.add_comm]
  have hmom : nowMom x window = some (meanOf ((List.range (x.length - window)).map fun i : Nat => x.getD (i + window) 0 - x.getD i 0)) := by
    unfold nowMom pyDropEnd
    rw [if_neg (by omega), hne _ (by simp; omega)]
    congr 2
    apply List.ext_getElem
    · simp
    · intro i h3 h4
      simp only [List.getElem_zipWith, List.getElem_drop, List.getElem_take, List.getElem_map, List.getElem_range]
      have h5 : i < x.length - window := by simpa using h4
      rw [List.getD_eq_getElem _ _ (by omega), List.getD_eq_getElem _ _ (by omega)]
      simp only [Nat.add_comm]
  have hlag : nowLag x window = some (meanOf ((List.range (x.length - window)).map fun i : Nat => x.getD i 0)) := by
    unfold nowLag pyDropEnd
    rw [if_neg (by omega), hne _ (by simp; omega)]
    congr 2
    apply List.ext_getElem
    · simp
    · intro i h3 h4
      simp only [List.getElem_take, List.getElem_map, List.getElem_range]
      have h5 : i < x.length - window := by simpa using h4
      rw [List.getD_eq_getElem _ _ (by omega)]
  have hma : nowMa x window = some (meanOf ((List.range (x.length - (window - 1))).map fun i : Nat => meanOf ((x.drop i).take window))) := by
    have hcl : (cumsumR x).length = x.length := by simp [cumsumR]
    have hcg : ∀ i (h : i < (cumsumR x).length), (cumsumR x)[i] = (x.take (i + 1)).sum := by
      intro i h
      simp [cumsumR]
    unfold nowMa pyDropEnd
    dsimp only
    rw [if_neg (by omega), hne _ (by simp [hcl]; omega)]
    congr 2
    apply List.ext_getElem
    · simp [hcl]; omega
    · intro i h3 h4
      have h5 : i < x.length - (window - 1) := by simpa using h4
      simp only [List.getElem_map, List.getElem_drop, List.getElem_range]
      have hml : ((x.drop i).take window).length = window := by
        rw [List.length_take, List.length_drop]
        omega
      unfold meanOf
      rw [hml]
      congr 1
      have hsum : (x.take (window - 1 + i + 1)).sum = (x.take i).sum + ((x.drop i).take window).sum := by
        rw [show window - 1 + i + 1 = i + window by omega, List.take_add, List.sum_append]
      rcases Nat.eq_zero_or_pos i with h0 | h0
      · subst h0
        rw [List.getElem_append_left (by simp [hcl]; omega), List.getElem_take, hcg, hsum]
        simp
      · rw [List.getElem_append_right (by simp [hcl]; omega)]
        simp only [List.getElem_zipWith, List.getElem_drop, List.getElem_take, hcg, List.length_take, hcl]
        rw [Nat.min_eq_left (by omega)]
        rw [show window + (window - 1 + i - window) + 1 = window - 1 + i + 1 by omega, hsum,
          show window - 1 + i - window + 1 = i by omega]
        ring
  obtain ⟨-, s2, s3⟩ := nowcastNp_spec x window nFast nSlow hw hs
  refine ⟨_, rfl, ?_⟩
  unfold getNowcasting
  rcases Nat.lt_or_ge x.length 27 with h27 | h27
  · obtain ⟨roc, hr, hn⟩ := s2 h1 h27
    rw [hrocv] at hr
    injection hr with hr
    subst hr
    rw [hn]
    dsimp only
    refine ⟨rfl, hmom, hlag, hma, ⟨_, hne _ (by rw [macdVals_length]; omega)⟩, ?_, ?_⟩
    · simp; omega
    · simp; omega
  · obtain ⟨roc, hr, hn⟩ := s3 h27 (h2 h27)
    rw [hrocv] at hr
    injection hr with hr
    subst hr
    have h3 := h2 h27
    rw [hn]
    dsimp only
    refine ⟨rfl, hmom, hlag, hma, ⟨_, hne _ (by rw [macdVals_length]; omega)⟩, ?_, ?_⟩
    · rw [hne _ (by rw [List.length_drop, ewmaAll_length, macdVals_length]; omega)]
      simp [h27]
    · rw [hne _ (by rw [List.length_zipWith, List.length_drop, List.length_drop, ewmaAll_length, macdVals_length]; omega)]
      simp [h27]

example : 2 ≤ 5 ∧ 2 ≤ 21 ∧ 21 ≤ (List.replicate 30 (1 : ℝ)).length + 1 ∧
    (27 ≤ (List.replicate 30 (1 : ℝ)).length → 21 + 6 ≤ (List.replicate 30 (1 : ℝ)).length) ∧
    5 < (List.replicate 30 (1 : ℝ)).length := by simp

/-- **C111 (all or nothing) is violated.**  With fewer points than `n_slow - 1`, or from 27 points on with fewer than
`n_slow + 6`, the averages cannot be calculated and all seven features are NaN, the rate of change, momentum, moving
average and lag, which need a few points only, among them. -/
theorem C111_all_nan_violated (x : List ℝ) (window nFast nSlow : Nat) (hw : 2 ≤ window) (hs : 2 ≤ nSlow)
    (h : x.length + 1 < nSlow ∨ 27 ≤ x.length ∧ x.length < nSlow + 6) (hx : window < x.length) :
    getNowcasting x window nFast nSlow = ⟨none, none, none, none, none, none, none⟩ ∧
      (∃ r, nowRoc x window = .ok (some r)) ∧ (∃ m, nowMom x window = some m) ∧ ∃ l, nowLag x window = some l := by
  have hne : ∀ l : List ℝ, 0 < l.length → meanNan l = some (meanOf l) := by
    intro l hl
    unfold meanNan
    rw [if_neg (List.ne_nil_of_length_pos hl)]
  refine ⟨?_, ?_, ?_, ?_⟩
  · obtain ⟨e, he⟩ := (nowcastNp_spec x window nFast nSlow hw hs).1 h
    unfold getNowcasting
    rw [he]
  · rw [nowRoc_ok x window hw, hne _ (by simp; omega)]
    exact ⟨_, rfl⟩
  · unfold nowMom pyDropEnd
    rw [if_neg (by omega), hne _ (by simp; omega)]
    exact ⟨_, rfl⟩
  · unfold nowLag pyDropEnd
    rw [if_neg (by omega), hne _ (by simp; omega)]
    exact ⟨_, rfl⟩

/-- The usual slow span of 26 and thirty points. -/
example : 27 ≤ (List.replicate 30 (1 : ℝ)).length ∧ (List.replicate 30 (1 : ℝ)).length < 26 + 6 := by simp

/-- **C111 (window one) is violated.**  A window of one step is accepted and makes all features NaN. -/
theorem C111_window_one_violated (x : List ℝ) (nFast nSlow : Nat) (hx : x ≠ []) :
    getNowcasting x 1 nFast nSlow = ⟨none, none, none, none, none, none, none⟩ := by
  have : nowRoc x 1 = .error .valueError := by
    unfold nowRoc pyDropEnd
    rw [if_pos]
    simp only [Nat.sub_self, List.drop_zero, if_true, List.length_nil]
    have := List.length_pos_of_ne_nil hx
    omega
  unfold getNowcasting nowcastNp
  rw [this]
  rfl

example : ([1, 2, 3, 4, 5] : List ℝ) ≠ [] := by simp

/-- **C111 (rate of change) is violated.**  The rate of change is described as comparing with `window` steps back, like
the momentum; it compares with one step less. -/
theorem C111_roc_violated : nowRoc [1, 2, 4] 2 = .ok (some 1) ∧ nowMom [1, 2, 4] 2 = some 3 ∧ ((4 : ℝ) - 1) / 1 = 3 := by
  refine ⟨?_, ?_, by norm_num⟩
  · rw [nowRoc_ok _ _ (by omega)]
    norm_num [meanNan, meanOf]
    intro h
    exact absurd h (by simp)
  · norm_num [nowMom, pyDropEnd, meanNan, meanOf]

theorem ewmaAll_affine (q : ℝ) (hq : 0 ≤ q) (x : List ℝ) (a b : ℝ) :
    ewmaAll q (x.map fun v => a * v + b) = (ewmaAll q x).map fun v => a * v + b := by
  apply List.ext_getElem
  · rw [ewmaAll_length, List.length_map, List.length_map, ewmaAll_length]
  · intro i h1 h2
    have hi : i < x.length := by rw [ewmaAll_length, List.length_map] at h1; exact h1
    rw [List.getElem_map, ewmaAll_spec q _ i (by rw [List.length_map]; exact hi), ewmaAll_spec q x i hi,
      ewmaSpec_affine q hq x i hi]

theorem macdVals_affine (x : List ℝ) (nFast nSlow : Nat) (hf : 1 ≤ nFast) (hs : 1 ≤ nSlow) (a b : ℝ) :
    macdVals (x.map fun v => a * v + b) nFast nSlow = (macdVals x nFast nSlow).map (a * ·) := by
  unfold macdVals
  rw [ewmaAll_affine _ (ewmaQ_bounds nFast hf).1, ewmaAll_affine _ (ewmaQ_bounds nSlow hs).1, ← List.map_drop,
    ← List.map_drop, List.zipWith_map, List.map_zipWith]
  congr 1
  funext u v
  ring

theorem meanNan_smul (l : List ℝ) (a : ℝ) : meanNan (l.map (a * ·)) = (meanNan l).map (a * ·) := by
  unfold meanNan
  by_cases h : l = []
  · subst h; rfl
  · rw [if_neg (by simpa using h), if_neg h, meanOf_smul]
    rfl

/-- **C111 (MACD).**  The MACD features do not change when a constant is added to the series, and are multiplied by a
factor of the series; they are zero for a constant series. -/
theorem C111_macd (x : List ℝ) (window nFast nSlow : Nat) (hw : 2 ≤ window) (hf : 1 ≤ nFast) (hs : 2 ≤ nSlow) (a b : ℝ) :
    (getNowcasting (x.map fun v => a * v + b) window nFast nSlow).macd =
      ((getNowcasting x window nFast nSlow).macd).map (a * ·) ∧
    (getNowcasting (x.map fun v => a * v + b) window nFast nSlow).macdsign =
      ((getNowcasting x window nFast nSlow).macdsign).map (a * ·) ∧
    (getNowcasting (x.map fun v => a * v + b) window nFast nSlow).macddiff =
      ((getNowcasting x window nFast nSlow).macddiff).map (a * ·) := by
  have hv := macdVals_affine x nFast nSlow hf (by omega) a b
  obtain ⟨s1, s2, s3⟩ := nowcastNp_spec x window nFast nSlow hw hs
  obtain ⟨t1, t2, t3⟩ := nowcastNp_spec (x.map fun v => a * v + b) window nFast nSlow hw hs
  rw [List.length_map] at t1 t2 t3
  unfold getNowcasting
  by_cases h : x.length + 1 < nSlow ∨ 27 ≤ x.length ∧ x.length < nSlow + 6
  · obtain ⟨e, he⟩ := s1 h
    obtain ⟨e', he'⟩ := t1 h
    rw [he, he']
    exact ⟨rfl, rfl, rfl⟩
  · push Not at h
    rcases Nat.lt_or_ge x.length 27 with h27 | h27
    · obtain ⟨_, _, hn⟩ := s2 (by omega) h27
      obtain ⟨_, _, hn'⟩ := t2 (by omega) h27
      rw [hn, hn', hv]
      exact ⟨meanNan_smul _ _, rfl, rfl⟩
    · obtain ⟨_, _, hn⟩ := s3 h27 (h.2 h27)
      obtain ⟨_, _, hn'⟩ := t3 h27 (h.2 h27)
      rw [hn, hn', hv]
      dsimp only
      have he : ewmaAll (ewmaQ 9) ((macdVals x nFast nSlow).map (a * ·)) =
          (ewmaAll (ewmaQ 9) (macdVals x nFast nSlow)).map (a * ·) := by
        have := ewmaAll_affine (ewmaQ 9) (ewmaQ_bounds 9 (by omega)).1 (macdVals x nFast nSlow) a 0
        simpa using this
      rw [he, ← List.map_drop, ← List.map_drop]
      refine ⟨meanNan_smul _ _, meanNan_smul _ _, ?_⟩
      rw [← meanNan_smul, List.zipWith_map, List.map_zipWith]
      congr 2
      funext u v
      ring

example : 2 ≤ 5 ∧ 1 ≤ 12 ∧ 2 ≤ 21 := by omega

end

end Kats
