import Verif.Model.Cusum
import Mathlib.Tactic.NormNum
import Mathlib.Tactic.Ring
import Mathlib.Tactic.FieldSimp
import Mathlib.Tactic.Linarith
import Mathlib.Tactic.Positivity
import Mathlib.Analysis.SpecialFunctions.Log.Deriv
import Mathlib.Analysis.Complex.ExponentialBounds

/-!
# Properties of the CUSUM detectors (C33, C34, C64 - C68)
-/

set_option linter.unusedSimpArgs false

namespace Kats

section
variable {K : Type} [Field K] [LinearOrder K]

/-! ## C33 -/

theorem cumsumFrom_length : ∀ (l : List K) (a : K), (cumsumFrom a l).length = l.length := by
  intro l
  induction l with
  | nil => intro a; rfl
  | cons b l ih => intro a; simp [cumsumFrom, ih]

theorem cusum_length (ts : List K) (m : K) : (cusum ts m).length = ts.length := by
  simp [cusum, cumsumFrom_length]

theorem argBest_lt (d : Dir) : ∀ l : List K, l ≠ [] → argBest d l < l.length := by
  intro l
  induction l with
  | nil => intro h; exact absurd rfl h
  | cons a l ih =>
    intro _
    simp only [argBest]
    split
    · simp
    · rename_i b hb
      have hj := (List.getElem?_eq_some_iff.1 hb).1
      split_ifs
      · simpa using hj
      · simp

theorem cusumStep_range (d : Dir) (ts : List K) (h : 3 ≤ ts.length) (cp : Nat) :
    1 ≤ cusumStep d ts cp ∧ cusumStep d ts cp + 2 ≤ ts.length := by
  unfold cusumStep
  dsimp only
  omega

theorem cusumStart_range (d : Dir) (ts : List K) (h : 3 ≤ ts.length) (start : Option Nat)
    (hs : ∀ s, start = some s → s + 2 ≤ ts.length) : cusumStart d ts start + 2 ≤ ts.length := by
  cases start with
  | none => simp only [cusumStart]; omega
  | some s => exact hs s rfl

theorem cusumLoop_spec (d : Dir) (ts : List K) (h : 3 ≤ ts.length) : ∀ (fuel cp : Nat),
    cp + 2 ≤ ts.length →
    (cusumLoop d ts fuel cp).1 + 2 ≤ ts.length ∧
    (1 ≤ fuel → 1 ≤ (cusumLoop d ts fuel cp).1) ∧
    (cusumLoop d ts fuel cp).2 ≤ fuel ∧
    ((cusumLoop d ts fuel cp).2 ≠ fuel →
      cusumStep d ts (cusumLoop d ts fuel cp).1 = (cusumLoop d ts fuel cp).1) := by
  intro fuel
  induction fuel with
  | zero => intro cp hcp; exact ⟨hcp, by omega, le_refl _, fun h => absurd rfl h⟩
  | succ fuel ih =>
    intro cp hcp
    have hst := cusumStep_range d ts h cp
    rw [cusumLoop]
    split_ifs with e
    · rw [e] at hst
      exact ⟨hcp, fun _ => hst.1, by simp, fun _ => e⟩
    · obtain ⟨h1, h2, h3, h4⟩ := ih (cusumStep d ts cp) hst.2
      refine ⟨h1, fun _ => ?_, by simpa using h3, fun hne => h4 (by simpa using hne)⟩
      rcases Nat.eq_zero_or_pos fuel with rfl | hf
      · exact hst.1
      · exact h2 hf

/-- C33: without an interest window, and with a start point (if given) that leaves both segments
non-empty, the changepoint index is at most `len - 2`, at least 1 after an iteration; a changepoint
flagged stable is a fixed point of the re-estimation step. -/
theorem C33_range_and_stability (d : Dir) (ts : List K) (h : 3 ≤ ts.length) (maxIter : Nat)
    (start : Option Nat) (hs : ∀ s, start = some s → s + 2 ≤ ts.length) :
    (getChangePoint d none maxIter start ts).changepoint + 2 ≤ ts.length ∧
    (1 ≤ maxIter → 1 ≤ (getChangePoint d none maxIter start ts).changepoint) ∧
    ((getChangePoint d none maxIter start ts).stable = true →
      cusumStep d ts (getChangePoint d none maxIter start ts).changepoint
        = (getChangePoint d none maxIter start ts).changepoint) := by
  obtain ⟨h1, h2, -, h4⟩ := cusumLoop_spec d ts h maxIter _ (cusumStart_range d ts h start hs)
  refine ⟨h1, h2, fun hst => h4 ?_⟩
  simpa [getChangePoint, windowOf] using hst

/-- C33: with an interest window of at least 3 points the changepoint lies inside the window, with a
point of the window after it. -/
theorem C33_window (d : Dir) (ts : List K) (a b : Nat) (hb : b ≤ ts.length) (hw : a + 3 ≤ b)
    (maxIter : Nat) (start : Option Nat) (hs : ∀ s, start = some s → s + 2 ≤ b - a) :
    a ≤ (getChangePoint d (some (a, b)) maxIter start ts).changepoint ∧
    (getChangePoint d (some (a, b)) maxIter start ts).changepoint + 2 ≤ b ∧
    (1 ≤ maxIter → a + 1 ≤ (getChangePoint d (some (a, b)) maxIter start ts).changepoint) := by
  have hl : (windowOf (some (a, b)) ts).length = b - a := by
    simp [windowOf, Nat.min_eq_left hb]
  obtain ⟨h1, h2, -, -⟩ := cusumLoop_spec d (windowOf (some (a, b)) ts) (by omega) maxIter _
    (cusumStart_range d _ (by omega) start (by rw [hl]; exact hs))
  simp only [getChangePoint, windowStart]
  rw [hl] at h1
  refine ⟨by omega, by omega, fun hm => ?_⟩
  have := h2 hm
  omega

/-- C33: the search does at most `max_iter` steps. -/
theorem C33_steps (d : Dir) (ts : List K) (h : 3 ≤ ts.length) (maxIter cp : Nat)
    (hcp : cp + 2 ≤ ts.length) : (cusumLoop d ts maxIter cp).2 ≤ maxIter :=
  (cusumLoop_spec d ts h maxIter cp hcp).2.2.1

example : getChangePoint .increase none 10 none [1, 1, 1, 5, 5, (6 : ℚ)]
    = ⟨2, 1, 16/3, true, 13/3, none⟩ := by decide +kernel

example : getChangePoint .decrease (some (1, 6)) 10 (some 1) [9, 7, 7, 5, 1, 1, 1, (1 : ℚ)]
    = ⟨3, 7, 1, true, -6, some (-16/3)⟩ := by decide +kernel

/-- C33: the extreme value picked in a step is the least (greatest) cumulative sum, and the first
such. -/
theorem C33_argBest (d : Dir) : ∀ (l : List K), l ≠ [] → ∃ v, l[argBest d l]? = some v ∧
    (∀ (i : Nat) w, l[i]? = some w → d.better w v = false) ∧
    (∀ (i : Nat) w, i < argBest d l → l[i]? = some w → d.better v w = true) := by
  intro l
  induction l with
  | nil => intro h; exact absurd rfl h
  | cons a l ih =>
    intro _
    rcases eq_or_ne l [] with rfl | hl
    · refine ⟨a, by simp [argBest], ?_, ?_⟩
      · intro i w hi
        cases i with
        | zero => simp at hi; subst hi; cases d <;> simp [Dir.better]
        | succ i => simp at hi
      · intro i w hi; simp [argBest] at hi
    · obtain ⟨v, hv, h1, h2⟩ := ih hl
      have htrans : ∀ x y z : K, d.better x y = false → d.better y z = false →
          d.better x z = false := by
        intro x y z; cases d <;> simp only [Dir.better, decide_eq_false_iff_not, not_lt]
        · exact fun p q => q.trans p
        · exact fun p q => p.trans q
      simp only [argBest, hv]
      by_cases hb : d.better v a = true
      · rw [if_pos hb]
        refine ⟨v, by simpa using hv, ?_, ?_⟩
        · intro i w hi
          cases i with
          | zero =>
            simp at hi; subst hi
            revert hb
            cases d <;> simp only [Dir.better, decide_eq_false_iff_not, decide_eq_true_eq, not_lt]
            · exact le_of_lt
            · exact le_of_lt
          | succ i => exact h1 i w (by simpa using hi)
        · intro i w hi hw
          cases i with
          | zero => simp at hw; subst hw; exact hb
          | succ i => exact h2 i w (by omega) (by simpa using hw)
      · have hb' : d.better v a = false := by simpa using hb
        rw [if_neg hb]
        refine ⟨a, by simp, ?_, fun i w hi => absurd hi (by omega)⟩
        intro i w hi
        cases i with
        | zero => simp at hi; subst hi; cases d <;> simp [Dir.better]
        | succ i => exact htrans _ _ _ (h1 i w (by simpa using hi)) hb'

example : argBest .increase [3, 1, 2, (1 : ℚ)] = 1 ∧ argBest .decrease [3, 1, 3, (1 : ℚ)] = 0 := by
  decide +kernel

/-! ## C34 -/

omit [LinearOrder K] in
theorem maskMean_prefix (ts : List K) (c : Nat) (hc : c + 1 ≤ ts.length) :
    maskMean ts (prefixMask ts.length c) = mean (ts.take (c + 1)) ∧
    maskMean ts ((prefixMask ts.length c).map not) = mean (ts.drop (c + 1)) := by
  have hm : prefixMask ts.length c
      = List.replicate (c + 1) true ++ List.replicate (ts.length - (c + 1)) false := by
    apply List.ext_getElem
    · simp [prefixMask]; omega
    · intro i h1 h2
      simp only [prefixMask, List.getElem_map, List.getElem_range]
      by_cases hi : i < c + 1
      · rw [List.getElem_append_left (by simpa using hi)]; simp [hi]
      · rw [List.getElem_append_right (by simpa using hi)]; simp [hi]
  have hz1 : ∀ (l : List K) (n : Nat) (b : Bool), n = l.length →
      List.zipWith (fun x b => if b then x else 0) l (List.replicate n b)
        = l.map fun x => if b then x else 0 := by
    intro l n b h
    subst h
    induction l with
    | nil => rfl
    | cons a l ih => simp [List.replicate_succ, ih]
  have hzero : ∀ l : List K, (l.map fun _ => (0 : K)).sum = 0 := by
    intro l; induction l with
    | nil => rfl
    | cons a l ih => simp [ih]
  have hsplit : ∀ m1 m2 : List Bool, m1.length = c + 1 →
      List.zipWith (fun (x : K) b => if b then x else 0) ts (m1 ++ m2)
        = List.zipWith (fun x b => if b then x else 0) (ts.take (c + 1)) m1 ++
          List.zipWith (fun x b => if b then x else 0) (ts.drop (c + 1)) m2 := by
    intro m1 m2 h
    conv_lhs => rw [← List.take_append_drop (c + 1) ts]
    rw [List.zipWith_append (by simp [h]; omega)]
  constructor
  · unfold maskMean mean
    rw [hm, hsplit _ _ (by simp), hz1 _ _ _ (by simp; omega), hz1 _ _ _ (by simp)]
    simp [hzero, List.count_replicate, Nat.min_eq_left hc]
  · unfold maskMean mean
    rw [hm, List.map_append, List.map_replicate, List.map_replicate, hsplit _ _ (by simp),
      hz1 _ _ _ (by simp; omega), hz1 _ _ _ (by simp)]
    simp [hzero, List.count_replicate]

theorem vecStepCol_eq (d : Dir) (ts : List K) (c : Nat) (hc : c + 1 ≤ ts.length) :
    vecStepCol d ts c = cusumStep d ts c := by
  unfold vecStepCol cusumStep
  dsimp only
  rw [(maskMean_prefix ts c hc).1, (maskMean_prefix ts c hc).2, max_comm]

/-- Iterating a column that has reached its fixed point changes nothing. -/
theorem cusumLoop_fixed (d : Dir) (ts : List K) (fuel cp : Nat) (h : cusumStep d ts cp = cp) :
    (cusumLoop d ts fuel cp).1 = cp := by
  cases fuel with
  | zero => rfl
  | succ fuel => simp [cusumLoop, h]

theorem cusumLoop_step (d : Dir) (ts : List K) (fuel cp : Nat) :
    (cusumLoop d ts fuel (cusumStep d ts cp)).1 = (cusumLoop d ts (fuel + 1) cp).1 := by
  rw [cusumLoop]
  split_ifs with h
  · rw [h]; exact cusumLoop_fixed d ts fuel cp h
  · rfl

theorem vecLoop_eq (d : Dir) : ∀ (fuel : Nat) (cols : List (List K)) (cps : List Nat) (st : List Bool),
    cols.length = cps.length → st.length = cps.length →
    (∀ q ∈ cols.zip cps, 3 ≤ q.1.length ∧ q.2 + 2 ≤ q.1.length) →
    (vecLoop d cols fuel cps st).1
      = List.zipWith (fun ts cp => (cusumLoop d ts fuel cp).1) cols cps ∧
    (vecLoop d cols fuel cps st).2.length = cps.length := by
  intro fuel
  induction fuel with
  | zero =>
    intro cols cps st hl hst hq
    refine ⟨?_, hst⟩
    simp only [vecLoop, cusumLoop]
    clear hst hq
    induction cols generalizing cps with
    | nil => cases cps with
      | nil => rfl
      | cons => simp at hl
    | cons a cols ih => cases cps with
      | nil => simp at hl
      | cons c cps => simp; exact ih cps (by simpa using hl)
  | succ fuel ih =>
    intro cols cps st hl hst hq
    have hnx : List.zipWith (vecStepCol d) cols cps = List.zipWith (cusumStep d) cols cps := by
      clear ih hst
      induction cols generalizing cps with
      | nil => rfl
      | cons a cols ih => cases cps with
        | nil => rfl
        | cons c cps =>
          simp only [List.zipWith_cons_cons]
          have := hq (a, c) (by simp)
          rw [vecStepCol_eq d a c (by simp only at this; omega),
            ih cps (by simpa using hl) (fun q h => hq q (by simp [h]))]
    rw [vecLoop]
    rw [hnx]
    split_ifs with hall
    · refine ⟨?_, by simp [hl]⟩
      clear ih hst hnx
      induction cols generalizing cps with
      | nil => cases cps with
        | nil => rfl
        | cons => simp at hl
      | cons a cols ih => cases cps with
        | nil => simp at hl
        | cons c cps =>
          simp only [List.zipWith_cons_cons, List.all_cons, Bool.and_eq_true, id, beq_iff_eq] at hall
          simp only [List.zipWith_cons_cons]
          rw [cusumLoop_fixed d a _ c hall.1.symm]
          congr 1
          exact ih cps (by simpa using hl) (fun q h => hq q (by simp [h])) hall.2
    · have hl' : cols.length = (List.zipWith (cusumStep d) cols cps).length := by simp [hl]
      obtain ⟨h1, h2⟩ := ih cols (List.zipWith (cusumStep d) cols cps)
        (List.zipWith (fun a b => a == b) cps (List.zipWith (cusumStep d) cols cps)) hl'
        (by simp [hl]) (by
          intro q hqm
          rw [List.mem_iff_getElem] at hqm
          obtain ⟨i, hi, rfl⟩ := hqm
          simp only [List.getElem_zip, List.getElem_zipWith]
          have hi' : i < (cols.zip cps).length := by simpa [hl] using hi
          have := hq _ (List.getElem_mem hi')
          simp only [List.getElem_zip] at this
          exact ⟨this.1, (cusumStep_range d _ this.1 _).2⟩)
      refine ⟨?_, by rw [h2]; simp [hl]⟩
      rw [h1]
      clear ih h1 h2 hall hnx hl' hst hq
      induction cols generalizing cps with
      | nil => rfl
      | cons a cols ih => cases cps with
        | nil => rfl
        | cons c cps =>
          simp only [List.zipWith_cons_cons]
          rw [cusumLoop_step, ih cps (by simpa using hl)]

/-- C34: the vectorised detector finds, for every column, the changepoint, means, change and window
change that the univariate detector finds on that column alone. -/
theorem C34_vectorised (d : Dir) (w : Option (Nat × Nat)) (maxIter : Nat) (start : Option Nat)
    (cols : List (List K)) (h3 : ∀ ts ∈ cols, 3 ≤ (windowOf w ts).length)
    (hs : ∀ ts ∈ cols, ∀ s, start = some s → s + 2 ≤ (windowOf w ts).length) :
    (vecChangePoints d w maxIter start cols).map (fun v => (v.changepoint, v.mu0, v.mu1, v.delta,
        v.deltaInt))
      = cols.map (fun ts => let v := getChangePoint d w maxIter start ts
          (v.changepoint, v.mu0, v.mu1, v.delta, v.deltaInt)) := by
  obtain ⟨h1, h2⟩ := vecLoop_eq d maxIter (cols.map (windowOf w))
    ((cols.map (windowOf w)).map fun ts => cusumStart d ts start)
    (List.replicate ((cols.map (windowOf w)).map fun ts => cusumStart d ts start).length false)
    (by simp) (by simp) (by
      intro q hq
      rw [List.mem_iff_getElem] at hq
      obtain ⟨i, hi, rfl⟩ := hq
      simp only [List.getElem_zip, List.getElem_map]
      have hi' : i < cols.length := by simpa using hi
      have hm := List.getElem_mem hi'
      exact ⟨h3 _ hm, cusumStart_range d _ (h3 _ hm) start (hs _ hm)⟩)
  unfold vecChangePoints
  dsimp only
  generalize vecLoop (K := K) d (cols.map (windowOf w)) _ _ _ = r at h1 h2 ⊢
  apply List.ext_getElem
  · simp [h1, h2]
  · intro i hi1 hi2
    have hi : i < cols.length := by simpa using hi2
    have hm := List.getElem_mem hi
    have hr := (cusumLoop_spec d (windowOf w cols[i]) (h3 _ hm) maxIter _
      (cusumStart_range d _ (h3 _ hm) start (hs _ hm))).1
    have hwl : (windowOf w cols[i]).length + windowStart w ≤ cols[i].length := by
      have := h3 _ hm
      cases w with
      | none => simp [windowOf, windowStart]
      | some ab =>
        simp only [windowOf, windowStart, List.length_drop, List.length_take] at this ⊢
        omega
    simp only [List.getElem_map, List.getElem_zip, h1, List.getElem_zipWith, getChangePoint]
    rw [(maskMean_prefix _ _ (by omega)).1, (maskMean_prefix _ _ (by omega)).2]
    cases w with
    | none => rfl
    | some ab =>
      simp only [Option.map_some, deltaInt]
      rw [(maskMean_prefix _ _ (by omega)).1, (maskMean_prefix _ _ (by omega)).2]

example : (vecChangePoints .increase none 10 none [[1, 1, 1, 5, 5, (6 : ℚ)], [3, 1, 4, 1, 5, 9]]).map
    (fun v => v.changepoint) = [2, 3] := by decide +kernel

/-! ## C64: the stability flag -/

/-- C64, the true part: the flag of the univariate detector is never wrongly on, and the loop ran
into the limit when it is off. Missing: convergence in exactly `max_iter` steps. -/
theorem C64_flag_partial (d : Dir) (ts : List K) (h : 3 ≤ ts.length) (maxIter : Nat)
    (start : Option Nat) (hs : ∀ s, start = some s → s + 2 ≤ ts.length) :
    ((getChangePoint d none maxIter start ts).stable = true →
      cusumStep d ts (getChangePoint d none maxIter start ts).changepoint
        = (getChangePoint d none maxIter start ts).changepoint) ∧
    ((getChangePoint d none maxIter start ts).stable = false ↔
      (cusumLoop d ts maxIter (cusumStart d ts start)).2 = maxIter) :=
  ⟨(C33_range_and_stability d ts h maxIter start hs).2.2, by simp [getChangePoint, windowOf]⟩

/-- C64 is violated: a start at the fixed point with one permitted iteration converges in that
iteration, the vectorised detector says stable, the univariate one unstable. -/
theorem C64_flag_violated :
    cusumStep .increase [1, 1, 1, 5, 5, (6 : ℚ)] 2 = 2 ∧
    (getChangePoint .increase none 1 (some 2) [1, 1, 1, 5, 5, (6 : ℚ)]).changepoint = 2 ∧
    (getChangePoint .increase none 1 (some 2) [1, 1, 1, 5, 5, (6 : ℚ)]).stable = false ∧
    (vecChangePoints .increase none 1 (some 2) [[1, 1, 1, 5, 5, (6 : ℚ)]]).map (fun v => v.stable)
      = [true] := by decide +kernel

/-! ## C65: a step does not worsen the fit -/

/-- Residual sum of squares of the two-mean model with the change after `cp`. -/
def rss (ts : List K) (cp : Nat) : K :=
  sqDev (ts.take (cp + 1)) (mean (ts.take (cp + 1))) +
    sqDev (ts.drop (cp + 1)) (mean (ts.drop (cp + 1)))

omit [LinearOrder K] in
theorem cumsumFrom_get : ∀ (l : List K) (a : K) (i : Nat), i < l.length →
    (cumsumFrom a l)[i]? = some (a + (l.take (i + 1)).sum) := by
  intro l
  induction l with
  | nil => intro a i hi; simp at hi
  | cons b l ih =>
    intro a i hi
    cases i with
    | zero => simp [cumsumFrom]
    | succ i =>
      simp only [cumsumFrom, List.getElem?_cons_succ, List.take_succ_cons, List.sum_cons]
      rw [ih _ i (by simpa using hi), add_assoc]

omit [LinearOrder K] in
theorem sqDev_diff [CharZero K] (l : List K) (m0 m1 : K) :
    sqDev l m0 = sqDev l m1 + 2 * (m1 - m0) * (l.map (· - (m0 + m1) / 2)).sum := by
  unfold sqDev
  induction l with
  | nil => simp
  | cons a l ih =>
    simp only [List.map_cons, List.sum_cons]
    rw [ih]
    ring

omit [LinearOrder K] in
theorem sqDev_expand (l : List K) (m : K) :
    sqDev l m = (l.map fun x => x ^ 2).sum - 2 * m * l.sum + l.length * m ^ 2 := by
  unfold sqDev
  induction l with
  | nil => simp
  | cons a l ih =>
    simp only [List.map_cons, List.sum_cons, List.length_cons]
    rw [ih]
    push_cast
    ring

omit [LinearOrder K] in
theorem sum_map_sub (l : List K) (m : K) : (l.map (· - m)).sum = l.sum - l.length * m := by
  induction l with
  | nil => simp
  | cons a l ih =>
    simp only [List.map_cons, List.sum_cons, List.length_cons]
    rw [ih]
    push_cast
    ring

omit [LinearOrder K] in
theorem mean_mul_length [CharZero K] (l : List K) (h : l ≠ []) : mean l * l.length = l.sum := by
  have : (l.length : K) ≠ 0 := by
    rw [Nat.cast_ne_zero]
    simpa using h
  unfold mean
  field_simp

omit [LinearOrder K] in
theorem sqDev_mean [CharZero K] (l : List K) (h : l ≠ []) (m : K) :
    sqDev l m = sqDev l (mean l) + l.length * (mean l - m) ^ 2 := by
  rw [sqDev_expand, sqDev_expand l (mean l), ← mean_mul_length l h]
  ring

variable [IsStrictOrderedRing K]

theorem sqDev_mean_le (l : List K) (h : l ≠ []) (m : K) : sqDev l (mean l) ≤ sqDev l m := by
  rw [sqDev_mean l h m]
  have : (0 : K) ≤ l.length * (mean l - m) ^ 2 := by positivity
  linarith

theorem sqDev_nonneg (l : List K) (m : K) : 0 ≤ sqDev l m := by
  unfold sqDev
  apply List.sum_nonneg
  intro x hx
  obtain ⟨v, -, rfl⟩ := List.mem_map.1 hx
  positivity

omit [LinearOrder K] [IsStrictOrderedRing K] in
theorem sqDev_split (ts : List K) (k : Nat) (m : K) :
    sqDev ts m = sqDev (ts.take k) m + sqDev (ts.drop k) m := by
  unfold sqDev
  conv_lhs => rw [← List.take_append_drop k ts]
  rw [List.map_append, List.sum_append]

/-- Are the means around `cp` ordered in the direction searched for. -/
def OrderedAt (d : Dir) (ts : List K) (cp : Nat) : Prop :=
  match d with
  | .increase => mean (ts.take (cp + 1)) ≤ mean (ts.drop (cp + 1))
  | .decrease => mean (ts.drop (cp + 1)) ≤ mean (ts.take (cp + 1))

/-- The midpoint of the two means around `cp`. -/
def midMean (ts : List K) (cp : Nat) : K :=
  (mean (ts.take (cp + 1)) + mean (ts.drop (cp + 1))) / 2

omit [LinearOrder K] [IsStrictOrderedRing K] in
theorem cusum_get (ts : List K) (m : K) (i : Nat) (hi : i < ts.length) :
    (cusum ts m)[i]? = some (((ts.take (i + 1)).map (· - m)).sum) := by
  unfold cusum
  rw [cumsumFrom_get _ _ _ (by simpa using hi), zero_add, List.map_take]

/-- The cumulative sum at the chosen index is extreme. -/
theorem argBest_extreme (d : Dir) (ts : List K) (m : K) (i : Nat) (hi : i < ts.length) :
    argBest d (cusum ts m) < ts.length ∧
    match d with
    | .increase => ((ts.take (argBest d (cusum ts m) + 1)).map (· - m)).sum
        ≤ ((ts.take (i + 1)).map (· - m)).sum
    | .decrease => ((ts.take (i + 1)).map (· - m)).sum
        ≤ ((ts.take (argBest d (cusum ts m) + 1)).map (· - m)).sum := by
  have hne : cusum ts m ≠ [] := by
    rw [← List.length_pos_iff, cusum_length]; omega
  have hlt := argBest_lt d _ hne
  rw [cusum_length] at hlt
  refine ⟨hlt, ?_⟩
  obtain ⟨v, hv, h1, -⟩ := C33_argBest d _ hne
  rw [cusum_get ts m _ hlt, Option.some.injEq] at hv
  have h2 := h1 i _ (cusum_get ts m i hi)
  rw [← hv] at h2
  cases d <;> simpa [Dir.better] using h2

/-- C65: a step whose extreme point needs no clamping does not increase the residual sum of squares
of the two-segment fit, and keeps the means ordered in the searched direction. Missing: clamped
steps (`C65_fit_violated`). -/
theorem C65_fit_partial (d : Dir) (ts : List K) (cp : Nat) (hcp : cp + 2 ≤ ts.length)
    (ho : OrderedAt d ts cp)
    (h1 : 1 ≤ argBest d (cusum ts (midMean ts cp)))
    (h2 : argBest d (cusum ts (midMean ts cp)) + 2 ≤ ts.length) :
    rss ts (cusumStep d ts cp) ≤ rss ts cp ∧ OrderedAt d ts (cusumStep d ts cp) := by
  have hk : cusumStep d ts cp = argBest d (cusum ts (midMean ts cp)) := by
    unfold cusumStep midMean at *
    dsimp only
    omega
  rw [hk]
  obtain ⟨-, he⟩ := argBest_extreme d ts (midMean ts cp) cp (by omega)
  obtain ⟨-, hl⟩ := argBest_extreme d ts (midMean ts cp) (ts.length - 1) (by omega)
  set k := argBest d (cusum ts (midMean ts cp)) with hkd
  have hne : ∀ j, j + 2 ≤ ts.length → ts.take (j + 1) ≠ [] ∧ ts.drop (j + 1) ≠ [] := by
    intro j hj
    rw [← List.length_pos_iff, ← List.length_pos_iff, List.length_take, List.length_drop]
    omega
  set m0 := mean (ts.take (cp + 1)) with hm0
  set m1 := mean (ts.drop (cp + 1)) with hm1
  have hmm : midMean ts cp = (m0 + m1) / 2 := rfl
  rw [hmm] at he hl
  -- the fit with fixed means is affine in the cumulative sum
  have hfix : ∀ j, sqDev (ts.take (j + 1)) m0 + sqDev (ts.drop (j + 1)) m1
      = sqDev ts m1 + 2 * (m1 - m0) * ((ts.take (j + 1)).map (· - (m0 + m1) / 2)).sum := by
    intro j
    rw [sqDev_diff _ m0 m1, sqDev_split ts (j + 1) m1]
    ring
  have hcpl : rss ts cp = sqDev (ts.take (cp + 1)) m0 + sqDev (ts.drop (cp + 1)) m1 := rfl
  have hle : rss ts k ≤ sqDev (ts.take (k + 1)) m0 + sqDev (ts.drop (k + 1)) m1 :=
    add_le_add (sqDev_mean_le _ (hne k h2).1 _) (sqDev_mean_le _ (hne k h2).2 _)
  have hsum : ∀ l : List K, l ≠ [] →
      (l.map (· - (m0 + m1) / 2)).sum = l.length * (mean l - (m0 + m1) / 2) := by
    intro l hl
    rw [sum_map_sub, ← mean_mul_length l hl]
    ring
  have hpos : ∀ l : List K, l ≠ [] → (0 : K) < l.length := by
    intro l hl
    rw [Nat.cast_pos]
    exact List.length_pos_iff.2 hl
  have htot : ((ts.take (ts.length - 1 + 1)).map (· - (m0 + m1) / 2)).sum
      = ((ts.take (k + 1)).map (· - (m0 + m1) / 2)).sum +
        ((ts.drop (k + 1)).map (· - (m0 + m1) / 2)).sum := by
    rw [← List.sum_append, ← List.map_append, List.take_append_drop, List.take_of_length_le (by omega)]
  have ecp := hsum _ (hne cp hcp).1
  have ek0 := hsum _ (hne k h2).1
  have ek1 := hsum _ (hne k h2).2
  have pcp := hpos _ (hne cp hcp).1
  have pk0 := hpos _ (hne k h2).1
  have pk1 := hpos _ (hne k h2).2
  rw [← hm0] at ecp
  cases d with
  | increase =>
    simp only [OrderedAt] at ho ⊢
    rw [← hm0, ← hm1] at ho
    simp only at he hl
    rw [htot] at hl
    refine ⟨?_, ?_⟩
    · rw [hcpl]
      refine hle.trans ?_
      rw [hfix k, hfix cp]
      have := mul_le_mul_of_nonneg_left he (show (0 : K) ≤ 2 * (m1 - m0) by linarith)
      linarith
    · have hs1 : 0 ≤ ((ts.drop (k + 1)).map (· - (m0 + m1) / 2)).sum := by linarith
      have hs0 : ((ts.take (cp + 1)).map (· - (m0 + m1) / 2)).sum ≤ 0 := by
        rw [ecp]
        exact mul_nonpos_of_nonneg_of_nonpos pcp.le (by linarith)
      have hs0' := he.trans hs0
      rw [ek0] at hs0'
      rw [ek1] at hs1
      have a1 := nonneg_of_mul_nonneg_right hs1 pk1
      have a0 : mean (ts.take (k + 1)) - (m0 + m1) / 2 ≤ 0 := by
        by_contra hc
        push Not at hc
        exact absurd (mul_pos pk0 hc) (not_lt.2 hs0')
      linarith
  | decrease =>
    simp only [OrderedAt] at ho ⊢
    rw [← hm0, ← hm1] at ho
    simp only at he hl
    rw [htot] at hl
    refine ⟨?_, ?_⟩
    · rw [hcpl]
      refine hle.trans ?_
      rw [hfix k, hfix cp]
      have := mul_le_mul_of_nonneg_left he (show (0 : K) ≤ 2 * (m0 - m1) by linarith)
      linarith
    · have hs1 : ((ts.drop (k + 1)).map (· - (m0 + m1) / 2)).sum ≤ 0 := by linarith
      have hs0 : 0 ≤ ((ts.take (cp + 1)).map (· - (m0 + m1) / 2)).sum := by
        rw [ecp]
        exact mul_nonneg pcp.le (by linarith)
      have hs0' := hs0.trans he
      rw [ek0] at hs0'
      rw [ek1] at hs1
      have a0 := nonneg_of_mul_nonneg_right hs0' pk0
      have a1 : mean (ts.drop (k + 1)) - (m0 + m1) / 2 ≤ 0 := by
        by_contra hc
        push Not at hc
        exact absurd (mul_pos pk1 hc) (not_lt.2 hs1)
      linarith

example : OrderedAt .increase [0, 3, 1, 5, 9, 8, (9 : ℚ)] 1 ∧
    argBest .increase (cusum [0, 3, 1, 5, 9, 8, (9 : ℚ)] (midMean [0, 3, 1, 5, 9, 8, 9] 1)) = 2 ∧
    rss [0, 3, 1, 5, 9, 8, (9 : ℚ)] 2 < rss [0, 3, 1, 5, 9, 8, (9 : ℚ)] 1 := by
  refine ⟨?_, ?_, ?_⟩
  · norm_num [OrderedAt, mean]
  · decide +kernel
  · norm_num [rss, sqDev, mean]

/-- C65 is violated by the clamping to index 1: for a series whose only change is after the first
point, the search starts at the perfect fit, leaves it for a worse one, and reports that as
stable. -/
theorem C65_fit_violated :
    cusumStart .increase [-10, 0, 0, (0 : ℚ)] none = 0 ∧ rss [-10, 0, 0, (0 : ℚ)] 0 = 0 ∧
    (getChangePoint .increase none 10 none [-10, 0, 0, (0 : ℚ)]).changepoint = 1 ∧
    (getChangePoint .increase none 10 none [-10, 0, 0, (0 : ℚ)]).stable = true ∧
    rss [-10, 0, 0, (0 : ℚ)] 1 = 50 := by decide +kernel

end

/-! ## C66: the likelihood ratio -/

theorem logLlr_sum (x : List ℝ) (mu0 s0 mu1 s1 : ℝ) :
    logLlr x mu0 s0 mu1 s1 = x.length * Real.log (s1 / s0) +
      0.5 * (sqDev x mu1 / s1 ^ 2 - sqDev x mu0 / s0 ^ 2) := by
  unfold logLlr sqDev
  induction x with
  | nil => simp
  | cons a x ih =>
    simp only [List.map_cons, List.sum_cons, List.length_cons]
    rw [ih]
    push_cast
    ring

/-- C66: closed form of the likelihood ratio when neither the series nor the two segments are
constant: `n log(((n - 2) SST) / (n SSE)) + 2`. -/
theorem C66_formula (ts : List ℝ) (mu0 mu1 : ℝ) (cp : Nat) (hn : 3 ≤ ts.length)
    (hS : 0 < sqDev (ts.take (cp + 1)) mu0 + sqDev (ts.drop (cp + 1)) mu1)
    (hT : 0 < sqDev ts (mean ts)) :
    getLlr ts mu0 mu1 cp = ts.length * Real.log ((((ts.length : ℝ) - 2) * sqDev ts (mean ts)) /
      (ts.length * (sqDev (ts.take (cp + 1)) mu0 + sqDev (ts.drop (cp + 1)) mu1))) + 2 := by
  have hn3 : (3 : ℝ) ≤ ts.length := by exact_mod_cast hn
  have hn2 : (0 : ℝ) < (ts.length : ℝ) - 2 := by linarith
  have hn0 : (0 : ℝ) < ts.length := by linarith
  set S := sqDev (ts.take (cp + 1)) mu0 + sqDev (ts.drop (cp + 1)) mu1 with hSd
  set T := sqDev ts (mean ts) with hTd
  have hTs := sqDev_split ts (cp + 1) (mean ts)
  rw [← hTd] at hTs
  have hlen : ((ts.take (cp + 1)).length : ℝ) + (ts.drop (cp + 1)).length = ts.length := by
    rw [← Nat.cast_add, ← List.length_append, List.take_append_drop]
  unfold getLlr npStd
  dsimp only
  rw [← hSd, ← hTd]
  have hsc : Real.sqrt (S / ((ts.length : ℝ) - 2)) ≠ 0 := (Real.sqrt_pos.2 (by positivity)).ne'
  rw [if_neg hsc, logLlr_sum, logLlr_sum]
  have e1 : Real.sqrt (S / ((ts.length : ℝ) - 2)) ^ 2 = S / ((ts.length : ℝ) - 2) :=
    Real.sq_sqrt (by positivity)
  have e2 : Real.sqrt (T / (ts.length : ℝ)) ^ 2 = T / (ts.length : ℝ) :=
    Real.sq_sqrt (by positivity)
  rw [e1, e2]
  have hlog : Real.log (((ts.length : ℝ) - 2) * T / (ts.length * S))
      = -2 * Real.log (Real.sqrt (S / ((ts.length : ℝ) - 2)) / Real.sqrt (T / (ts.length : ℝ))) := by
    rw [← Real.sqrt_div (by positivity), Real.log_sqrt (by positivity)]
    rw [show ((ts.length : ℝ) - 2) * T / (ts.length * S)
      = (S / ((ts.length : ℝ) - 2) / (T / (ts.length : ℝ)))⁻¹ by field_simp, Real.log_inv]
    ring
  rw [hlog]
  have hA : sqDev (ts.take (cp + 1)) mu0 = S - sqDev (ts.drop (cp + 1)) mu1 := by rw [hSd]; ring
  have hB : sqDev (ts.take (cp + 1)) (mean ts) = T - sqDev (ts.drop (cp + 1)) (mean ts) := by
    rw [hTs]; ring
  rw [hA, hB, ← hlen]
  have hS' : S ≠ 0 := hS.ne'
  have hT' : T ≠ 0 := hT.ne'
  rw [hlen]
  have hl' : ((ts.take (cp + 1)).length : ℝ) = ts.length - (ts.drop (cp + 1)).length := by
    linarith
  rw [hl']
  field_simp
  ring

/-- Segment means never fit worse than the overall mean. -/
theorem rss_le_total (ts : List ℝ) (cp : Nat) (hcp : cp + 2 ≤ ts.length) :
    rss ts cp ≤ sqDev ts (mean ts) := by
  rw [sqDev_split ts (cp + 1) (mean ts)]
  refine add_le_add (sqDev_mean_le _ ?_ _) (sqDev_mean_le _ ?_ _) <;>
  · rw [← List.length_pos_iff]
    simp only [List.length_take, List.length_drop]
    omega

/-- The likelihood ratio with the segment means, as the detector calls it (602-613). -/
noncomputable def llrAt (ts : List ℝ) (cp : Nat) : ℝ :=
  getLlr ts (mean (ts.take (cp + 1))) (mean (ts.drop (cp + 1))) cp

/-- C66: of two splits with noise in them, the one with the smaller residual sum of squares has the
greater likelihood ratio. -/
theorem C66_monotone_partial (ts : List ℝ) (c c' : Nat) (hn : 3 ≤ ts.length)
    (hc' : c' + 2 ≤ ts.length) (hpos : 0 < rss ts c) (hle : rss ts c ≤ rss ts c') :
    llrAt ts c' ≤ llrAt ts c := by
  have hT := (hpos.trans_le hle).trans_le (rss_le_total ts c' hc')
  have hn3 : (3 : ℝ) ≤ ts.length := by exact_mod_cast hn
  have hn2 : (0 : ℝ) < (ts.length : ℝ) - 2 := by linarith
  have hn0 : (0 : ℝ) < ts.length := by linarith
  have hpos' := hpos.trans_le hle
  unfold llrAt
  rw [C66_formula ts _ _ c' hn hpos' hT, C66_formula ts _ _ c hn hpos hT]
  change _ * Real.log (_ / (_ * rss ts c')) + 2 ≤ _ * Real.log (_ / (_ * rss ts c)) + 2
  have : Real.log ((((ts.length : ℝ) - 2) * sqDev ts (mean ts)) / (ts.length * rss ts c'))
      ≤ Real.log ((((ts.length : ℝ) - 2) * sqDev ts (mean ts)) / (ts.length * rss ts c)) := by
    apply Real.log_le_log (by positivity)
    gcongr
  have := mul_le_mul_of_nonneg_left this hn0.le
  linarith

/-- C66: the part of "never negative" that holds: the ratio is at least
`n log((n - 2) / n) + 2`. -/
theorem C66_lower_bound_partial (ts : List ℝ) (c : Nat) (hn : 3 ≤ ts.length)
    (hc : c + 2 ≤ ts.length) (hpos : 0 < rss ts c) :
    ts.length * Real.log (((ts.length : ℝ) - 2) / ts.length) + 2 ≤ llrAt ts c := by
  have hle := rss_le_total ts c hc
  have hT := hpos.trans_le hle
  have hn3 : (3 : ℝ) ≤ ts.length := by exact_mod_cast hn
  have hn2 : (0 : ℝ) < (ts.length : ℝ) - 2 := by linarith
  have hn0 : (0 : ℝ) < ts.length := by linarith
  unfold llrAt
  rw [C66_formula ts _ _ c hn hpos hT]
  change _ ≤ _ * Real.log (_ / (_ * rss ts c)) + 2
  have : Real.log (((ts.length : ℝ) - 2) / ts.length)
      ≤ Real.log ((((ts.length : ℝ) - 2) * sqDev ts (mean ts)) / (ts.length * rss ts c)) := by
    apply Real.log_le_log (by positivity)
    rw [div_le_div_iff₀ hn0 (by positivity)]
    nlinarith [mul_le_mul_of_nonneg_left hle (mul_pos hn0 hn2).le]
  have := mul_le_mul_of_nonneg_left this hn0.le
  linarith

theorem mean_affine (l : List ℝ) (h : l ≠ []) (a b : ℝ) :
    mean (l.map fun x => a * x + b) = a * mean l + b := by
  have h0 : (l.length : ℝ) ≠ 0 := by
    rw [Nat.cast_ne_zero]; simpa using h
  have hs : (l.map fun x => a * x + b).sum = a * l.sum + l.length * b := by
    clear h h0
    induction l with
    | nil => simp
    | cons c l ih =>
      simp only [List.map_cons, List.sum_cons, List.length_cons]
      rw [ih]
      push_cast
      ring
  unfold mean
  rw [hs, List.length_map]
  field_simp

theorem sqDev_affine (l : List ℝ) (a b m : ℝ) :
    sqDev (l.map fun x => a * x + b) (a * m + b) = a ^ 2 * sqDev l m := by
  unfold sqDev
  induction l with
  | nil => simp
  | cons c l ih =>
    simp only [List.map_cons, List.sum_cons] at ih ⊢
    rw [ih]
    ring

/-- C66: shifting and rescaling the series leaves the likelihood ratio unchanged, also for constant
segments. -/
theorem C66_affine (ts : List ℝ) (cp : Nat) (hcp : cp + 2 ≤ ts.length) (a b : ℝ) (ha : a ≠ 0) :
    llrAt (ts.map fun x => a * x + b) cp = llrAt ts cp := by
  have h0 : ts.take (cp + 1) ≠ [] := by
    rw [← List.length_pos_iff, List.length_take]; omega
  have h1 : ts.drop (cp + 1) ≠ [] := by
    rw [← List.length_pos_iff, List.length_drop]; omega
  have h2 : ts ≠ [] := by rw [← List.length_pos_iff]; omega
  have ha' : |a| ≠ 0 := abs_ne_zero.2 ha
  have hsq : ∀ x : ℝ, Real.sqrt (a ^ 2 * x) = |a| * Real.sqrt x := by
    intro x
    rw [Real.sqrt_mul (sq_nonneg a), Real.sqrt_sq_eq_abs]
  have hlog : ∀ (x : List ℝ) (m0 s0 m1 s1 : ℝ),
      logLlr (x.map fun x => a * x + b) (a * m0 + b) (|a| * s0) (a * m1 + b) (|a| * s1)
        = logLlr x m0 s0 m1 s1 := by
    intro x m0 s0 m1 s1
    rw [logLlr_sum, logLlr_sum, sqDev_affine, sqDev_affine, mul_pow, mul_pow, sq_abs,
      mul_div_mul_left _ _ (pow_ne_zero 2 ha), mul_div_mul_left _ _ (pow_ne_zero 2 ha),
      mul_div_mul_left _ _ ha', List.length_map]
  unfold llrAt getLlr npStd
  dsimp only
  rw [← List.map_take, ← List.map_drop, mean_affine _ h0, mean_affine _ h1, mean_affine _ h2,
    sqDev_affine, sqDev_affine, sqDev_affine, List.length_map, ← mul_add, mul_div_assoc,
    mul_div_assoc, hsq, hsq]
  by_cases hz : Real.sqrt ((sqDev (ts.take (cp + 1)) (mean (ts.take (cp + 1))) +
      sqDev (ts.drop (cp + 1)) (mean (ts.drop (cp + 1)))) / ((ts.length : ℝ) - 2)) = 0
  · rw [if_pos hz, if_pos (by rw [hz, mul_zero]), mul_assoc, hlog, hlog]
  · rw [if_neg hz, if_neg (mul_ne_zero ha' hz), hlog, hlog]

example : 0 < rss [0, 1, 5, (6 : ℝ)] 1 ∧ rss [0, 1, 5, (6 : ℝ)] 1 ≤ rss [0, 1, 5, (6 : ℝ)] 0 := by
  constructor <;> norm_num [rss, sqDev, mean]

/-- C66 is violated: for a split that explains nothing the "ratio" is negative, since the two
variances are not both maximum likelihood estimates. -/
theorem C66_nonneg_violated : llrAt [0, 1, 0, 1] 1 < 0 := by
  have hr : rss [0, 1, 0, (1 : ℝ)] 1 = 1 := by norm_num [rss, sqDev, mean]
  have hT : sqDev [0, 1, 0, (1 : ℝ)] (mean [0, 1, 0, 1]) = 1 := by norm_num [sqDev, mean]
  unfold llrAt
  rw [C66_formula _ _ _ _ (by simp) (by change 0 < rss [0, 1, 0, (1 : ℝ)] 1; rw [hr]; norm_num)
    (by rw [hT]; norm_num)]
  change _ * Real.log (_ / (_ * rss [0, 1, 0, (1 : ℝ)] 1)) + 2 < 0
  rw [hr, hT]
  norm_num
  rw [show (1 / 2 : ℝ) = 2⁻¹ by norm_num, Real.log_inv]
  have := Real.log_two_gt_d9
  linarith

/-! ## C67: the multivariate likelihood ratio -/

section
variable {K : Type} [Field K] {d : Nat}

theorem bilin_add_left (P : Fin d → Fin d → K) (u u' v : Fin d → K) :
    bilin P (fun i => u i + u' i) v = bilin P u v + bilin P u' v := by
  unfold bilin
  rw [← Finset.sum_add_distrib]
  refine Finset.sum_congr rfl fun i _ => ?_
  rw [← Finset.sum_add_distrib]
  exact Finset.sum_congr rfl fun j _ => by ring

theorem bilin_add_right (P : Fin d → Fin d → K) (u v v' : Fin d → K) :
    bilin P u (fun i => v i + v' i) = bilin P u v + bilin P u v' := by
  unfold bilin
  rw [← Finset.sum_add_distrib]
  refine Finset.sum_congr rfl fun i _ => ?_
  rw [← Finset.sum_add_distrib]
  exact Finset.sum_congr rfl fun j _ => by ring

theorem bilin_smul (P : Fin d → Fin d → K) (c e : K) (u v : Fin d → K) :
    bilin P (fun i => c * u i) (fun i => e * v i) = c * e * bilin P u v := by
  unfold bilin
  rw [Finset.mul_sum]
  refine Finset.sum_congr rfl fun i _ => ?_
  rw [Finset.mul_sum]
  exact Finset.sum_congr rfl fun j _ => by ring

theorem bilin_zero_left (P : Fin d → Fin d → K) (v : Fin d → K) :
    bilin P (fun _ => 0) v = 0 := by simp [bilin]

theorem bilin_zero_right (P : Fin d → Fin d → K) (u : Fin d → K) :
    bilin P u (fun _ => 0) = 0 := by simp [bilin]

theorem sum_dev_zero [CharZero K] (x : List (Fin d → K)) (h : x ≠ []) (i : Fin d) :
    (x.map fun v => v i - meanVec x i).sum = 0 := by
  have h0 : (x.length : K) ≠ 0 := by
    rw [Nat.cast_ne_zero]; simpa using h
  have : ∀ (y : List (Fin d → K)) (m : K), (y.map fun v => v i - m).sum
      = (y.map fun v => v i).sum - y.length * m := by
    intro y m
    induction y with
    | nil => simp
    | cons a y ih =>
      simp only [List.map_cons, List.sum_cons, List.length_cons]
      rw [ih]
      push_cast
      ring
  rw [this]
  unfold meanVec
  field_simp
  ring

theorem sum_bilin_left (P : Fin d → Fin d → K) (x : List (Fin d → K)) (m w : Fin d → K) :
    (x.map fun v => bilin P (fun i => v i - m i) w).sum
      = bilin P (fun i => (x.map fun v => v i - m i).sum) w := by
  induction x with
  | nil => simp [bilin]
  | cons a x ih =>
    simp only [List.map_cons, List.sum_cons]
    rw [ih, bilin_add_left]

theorem sum_bilin_right (P : Fin d → Fin d → K) (x : List (Fin d → K)) (m w : Fin d → K) :
    (x.map fun v => bilin P w (fun i => v i - m i)).sum
      = bilin P w (fun i => (x.map fun v => v i - m i).sum) := by
  induction x with
  | nil => simp [bilin]
  | cons a x ih =>
    simp only [List.map_cons, List.sum_cons]
    rw [ih, bilin_add_right]

/-- The log likelihood term of a segment around its own mean, against another mean `c`. -/
theorem logLlrMulti_segment [CharZero K] (P : Fin d → Fin d → K) (ld : K) (x : List (Fin d → K))
    (h : x ≠ []) (c : Fin d → K) :
    logLlrMulti x c P ld (meanVec x) P ld
      = x.length * bilin P (fun i => meanVec x i - c i) (fun i => meanVec x i - c i) := by
  unfold logLlrMulti
  rw [sub_self, mul_zero, zero_add]
  have hterm : ∀ v : Fin d → K,
      -bilin P (fun i => v i - meanVec x i) (fun i => v i - meanVec x i) +
        bilin P (fun i => v i - c i) (fun i => v i - c i)
      = bilin P (fun i => meanVec x i - c i) (fun i => meanVec x i - c i) +
        bilin P (fun i => v i - meanVec x i) (fun i => meanVec x i - c i) +
        bilin P (fun i => meanVec x i - c i) (fun i => v i - meanVec x i) := by
    intro v
    have e : (fun i => v i - c i) = fun i => (v i - meanVec x i) + (meanVec x i - c i) := by
      funext i; ring
    rw [e, bilin_add_left, bilin_add_right, bilin_add_right]
    ring
  rw [List.map_congr_left (fun v _ => hterm v), List.sum_map_add, List.sum_map_add, sum_bilin_left,
    sum_bilin_right]
  have hz : (fun i => (x.map fun v => v i - meanVec x i).sum) = fun _ => (0 : K) := by
    funext i; exact sum_dev_zero x h i
  rw [hz, bilin_zero_left, bilin_zero_right]
  simp

/-- C67: what the multivariate "likelihood ratio" is: twice the squared Mahalanobis distance of the
segment means, times `n0 n1 (n0 - n1) / n²`. A significant change has to lie in the second half:
missing is every other position (`C67_llr_violated`). -/
theorem C67_llr_partial [CharZero K] (P : Fin d → Fin d → K) (ld : K) (ts : List (Fin d → K))
    (cp : Nat) (hcp : cp + 2 ≤ ts.length) :
    multiLlr P ld ts cp =
      2 * ((cp + 1 : Nat) : K) * ((ts.length - (cp + 1) : Nat) : K) *
        (((cp + 1 : Nat) : K) - ((ts.length - (cp + 1) : Nat) : K)) / (ts.length : K) ^ 2 *
      bilin P (fun i => meanVec (ts.drop (cp + 1)) i - meanVec (ts.take (cp + 1)) i)
        (fun i => meanVec (ts.drop (cp + 1)) i - meanVec (ts.take (cp + 1)) i) := by
  have h0 : ts.take (cp + 1) ≠ [] := by
    rw [← List.length_pos_iff, List.length_take]; omega
  have h1 : ts.drop (cp + 1) ≠ [] := by
    rw [← List.length_pos_iff, List.length_drop]; omega
  have l0 : (ts.take (cp + 1)).length = cp + 1 := by rw [List.length_take]; omega
  have l1 : (ts.drop (cp + 1)).length = ts.length - (cp + 1) := by rw [List.length_drop]
  have hn : (ts.length : K) = ((cp + 1 : Nat) : K) + ((ts.length - (cp + 1) : Nat) : K) := by
    rw [← Nat.cast_add]; congr 1; omega
  have n0 : ((cp + 1 : Nat) : K) ≠ 0 := by rw [Nat.cast_ne_zero]; omega
  have n1 : ((ts.length - (cp + 1) : Nat) : K) ≠ 0 := by rw [Nat.cast_ne_zero]; omega
  have nn : (ts.length : K) ≠ 0 := by rw [Nat.cast_ne_zero]; omega
  unfold multiLlr
  rw [logLlrMulti_segment P ld _ h0, logLlrMulti_segment P ld _ h1, l0, l1]
  set A := ((cp + 1 : Nat) : K) with hA
  set B := ((ts.length - (cp + 1) : Nat) : K) with hB
  set N := (ts.length : K) with hN
  have hmean : ∀ i, meanVec ts i
      = (A * meanVec (ts.take (cp + 1)) i + B * meanVec (ts.drop (cp + 1)) i) / N := by
    intro i
    have hs : (ts.map fun v => v i).sum = ((ts.take (cp + 1)).map fun v => v i).sum +
        ((ts.drop (cp + 1)).map fun v => v i).sum := by
      rw [← List.sum_append, ← List.map_append, List.take_append_drop]
    unfold meanVec
    rw [l0, l1, ← hA, ← hB, ← hN, hs]
    field_simp
  have e0 : (fun i => meanVec (ts.take (cp + 1)) i - meanVec ts i)
      = fun i => (-(B / N)) * (meanVec (ts.drop (cp + 1)) i - meanVec (ts.take (cp + 1)) i) := by
    funext i
    rw [hmean]
    field_simp
    rw [hn]
    ring
  have e1 : (fun i => meanVec (ts.drop (cp + 1)) i - meanVec ts i)
      = fun i => (A / N) * (meanVec (ts.drop (cp + 1)) i - meanVec (ts.take (cp + 1)) i) := by
    funext i
    rw [hmean]
    field_simp
    rw [hn]
    ring
  rw [e0, e1, bilin_smul, bilin_smul]
  field_simp
  ring

/-- C67: with any positive semidefinite inverse covariance, a change in the first half or the
middle gets a ratio of at most 0 and so can never be significant, however large it is. -/
theorem C67_first_half_violated [LinearOrder K] [IsStrictOrderedRing K] (P : Fin d → Fin d → K)
    (hP : ∀ u, 0 ≤ bilin P u u) (ld : K) (ts : List (Fin d → K)) (cp : Nat)
    (hcp : 2 * (cp + 1) ≤ ts.length) : multiLlr P ld ts cp ≤ 0 := by
  have hle : ((cp + 1 : Nat) : K) ≤ ((ts.length - (cp + 1) : Nat) : K) := by
    exact_mod_cast (by omega : cp + 1 ≤ ts.length - (cp + 1))
  rw [C67_llr_partial P ld ts cp (by omega)]
  refine mul_nonpos_of_nonpos_of_nonneg ?_ (hP _)
  apply div_nonpos_of_nonpos_of_nonneg _ (by positivity)
  refine mul_nonpos_of_nonneg_of_nonpos (by positivity) (by linarith)

end

/-- C67 is violated: witness with a clear jump a third of the way in (`P` the identity). -/
theorem C67_llr_violated :
    multiLlr (fun _ _ => (1 : ℚ)) 0 [![0], ![0], ![9], ![9], ![9], (![9] : Fin 1 → ℚ)] 1 < 0 := by
  rw [C67_llr_partial _ _ _ _ (by simp)]
  norm_num [bilin, meanVec]

/-! ## C68: what is reported -/

/-- C68: without `return_all_changepoints` a changepoint is reported exactly when every test holds,
and its means are those of the series before and after it. -/
theorem C68_reported (a : CusumArgs) (w : Option (Nat × Nat)) (maxIter : Nat)
    (start : Option Nat) (mag : Dir → Bool) (dirs : List Dir) (ts : List ℝ) (d : Dir)
    (v : CusumVal ℝ) (hall : a.returnAll = false)
    (h : (d, v) ∈ cusumDetector a w maxIter start mag dirs ts) :
    d ∈ dirs ∧
    v.mu0 = mean (ts.take (v.changepoint + 1)) ∧ v.mu1 = mean (ts.drop (v.changepoint + 1)) ∧
    a.quant < llrAt ts v.changepoint ∧
    (d = .increase → v.mu0 + a.minAbsChange < v.mu1) ∧
    (d = .decrease → v.mu1 + a.minAbsChange < v.mu0) ∧
    npStd (ts.take v.changepoint) * a.deltaStdRatio < |v.mu1 - v.mu0| ∧ mag d = true := by
  classical
  unfold cusumDetector at h
  rw [List.mem_filter, hall, Bool.or_false] at h
  replace h := And.intro h.1 (of_decide_eq_true h.2)
  obtain ⟨hm, h1, -, h3, h4, h5⟩ := h
  obtain ⟨d', hd', e⟩ := List.mem_map.1 hm
  obtain ⟨rfl, rfl⟩ := Prod.mk.inj e
  refine ⟨hd', rfl, rfl, h1, ?_, ?_, h4, h5⟩
  · rintro rfl; exact h3
  · rintro rfl; exact h3

/-- C68: with a non-negative `min_abs_change` the increase and the decrease reported for one series
are at different points. -/
theorem C68_directions_differ (a : CusumArgs) (w : Option (Nat × Nat)) (maxIter : Nat)
    (start : Option Nat) (mag : Dir → Bool) (dirs : List Dir) (ts : List ℝ) (v v' : CusumVal ℝ)
    (hall : a.returnAll = false) (hm : 0 ≤ a.minAbsChange)
    (h : (Dir.increase, v) ∈ cusumDetector a w maxIter start mag dirs ts)
    (h' : (Dir.decrease, v') ∈ cusumDetector a w maxIter start mag dirs ts) :
    v.changepoint ≠ v'.changepoint := by
  intro e
  obtain ⟨-, a0, a1, -, ai, -⟩ := C68_reported a w maxIter start mag dirs ts _ v hall h
  obtain ⟨-, b0, b1, -, -, bi, -⟩ := C68_reported a w maxIter start mag dirs ts _ v' hall h'
  have p := ai rfl
  have q := bi rfl
  rw [a0, a1] at p
  rw [b0, b1, ← e] at q
  linarith

/-- C68: with `return_all_changepoints` there is exactly one changepoint per direction asked for. -/
theorem C68_return_all (a : CusumArgs) (w : Option (Nat × Nat)) (maxIter : Nat)
    (start : Option Nat) (mag : Dir → Bool) (dirs : List Dir) (ts : List ℝ)
    (hall : a.returnAll = true) :
    (cusumDetector a w maxIter start mag dirs ts).map (·.1) = dirs := by
  unfold cusumDetector
  rw [List.filter_eq_self.2 (by simp [hall]), List.map_map]
  exact List.map_id _

end Kats
