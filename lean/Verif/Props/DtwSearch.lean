import Verif.Props.Dtw
import Verif.Lemmas.Partition
import Verif.Props.RollingStatistics

/-!
# Dynamic time warping detector: C96, C97
-/

namespace Kats

open Classical

/-! ## C96: the lower bound -/

theorem foldl_max_ge (l : List ℝ) (x : ℝ) : x ≤ l.foldl max x ∧ ∀ y ∈ l, y ≤ l.foldl max x := by
  induction l generalizing x with
  | nil => simp
  | cons z l ih =>
    obtain ⟨h1, h2⟩ := ih (max x z)
    refine ⟨(le_max_left _ _).trans h1, ?_⟩
    intro y hy
    rcases List.mem_cons.1 hy with rfl | hy
    · exact (le_max_right _ _).trans h1
    · exact h2 y hy

theorem foldl_min_le (l : List ℝ) (x : ℝ) : l.foldl min x ≤ x ∧ ∀ y ∈ l, l.foldl min x ≤ y := by
  induction l generalizing x with
  | nil => simp
  | cons z l ih =>
    obtain ⟨h1, h2⟩ := ih (min x z)
    refine ⟨h1.trans (min_le_left _ _), ?_⟩
    intro y hy
    rcases List.mem_cons.1 hy with rfl | hy
    · exact h1.trans (min_le_right _ _)
    · exact h2 y hy

theorem le_pyMax {l : List ℝ} {y : ℝ} (h : y ∈ l) : y ≤ pyMax l := by
  cases l with
  | nil => simp at h
  | cons x l =>
    rcases List.mem_cons.1 h with rfl | h
    · exact (foldl_max_ge l _).1
    · exact (foldl_max_ge l x).2 y h

theorem pyMin_le {l : List ℝ} {y : ℝ} (h : y ∈ l) : pyMin l ≤ y := by
  cases l with
  | nil => simp at h
  | cons x l =>
    rcases List.mem_cons.1 h with rfl | h
    · exact (foldl_min_le l _).1
    · exact (foldl_min_le l x).2 y h

theorem foldl_max_mem (l : List ℝ) (x : ℝ) : l.foldl max x ∈ x :: l := by
  induction l generalizing x with
  | nil => simp
  | cons z l ih =>
    have := ih (max x z)
    rw [List.foldl_cons]
    rcases List.mem_cons.1 this with h | h
    · rw [h]
      rcases max_choice x z with e | e <;> rw [e] <;> simp
    · simp [h]

theorem pyMax_mem {l : List ℝ} (h : l ≠ []) : pyMax l ∈ l := by
  cases l with
  | nil => exact absurd rfl h
  | cons x l => exact foldl_max_mem l x

/-- The value of one term of the bound. -/
noncomputable def keoghVal (x : ℝ) (sl : List ℝ) : ℝ :=
  if x > pyMax sl then (x - pyMax sl) ^ 2 else if x < pyMin sl then (x - pyMin sl) ^ 2 else 0

theorem keoghTerm_ok (x : ℝ) {sl : List ℝ} (h : sl ≠ []) : keoghTerm x sl = .ok (keoghVal x sl) := by
  unfold keoghTerm keoghVal
  rw [if_neg h]
  split_ifs <;> rfl

theorem keoghVal_le (x : ℝ) {sl : List ℝ} {y : ℝ} (h : y ∈ sl) : keoghVal x sl ≤ (x - y) ^ 2 := by
  have h1 := le_pyMax h
  have h2 := pyMin_le h
  unfold keoghVal
  split_ifs with a b
  · nlinarith
  · nlinarith
  · positivity

theorem mem_keoghSlice (s2 : List ℝ) (w i j : Nat) (hb : halfBand w i j) (hj : j < s2.length) :
    s2.getD j 0 ∈ keoghSlice s2 w i := by
  obtain ⟨h1, h2⟩ := hb
  rw [List.getD_eq_getElem _ _ hj]
  have hl : (keoghSlice s2 w i).length = min (i + w) s2.length - (i - w) := by
    simp [keoghSlice]
  have hk : j - (i - w) < (keoghSlice s2 w i).length := by omega
  have : (keoghSlice s2 w i)[j - (i - w)] = s2[j] := by
    simp only [keoghSlice, List.getElem_drop, List.getElem_take]
    congr 1
    omega
  rw [← this]
  exact List.getElem_mem _

theorem lbKeogh_ok (s1 s2 : List ℝ) (w : Nat) (h : s1.length ≤ s2.length) (hw : 0 < w) :
    lbKeogh s1 s2 w = .ok (√(((List.range s1.length).map fun i =>
      keoghVal (s1.getD i 0) (keoghSlice s2 w i)).sum)) := by
  unfold lbKeogh
  rw [mapM_ok _ (fun i => keoghVal (s1.getD i 0) (keoghSlice s2 w i))]
  · rfl
  · intro i hi
    have hi := List.mem_range.1 hi
    apply keoghTerm_ok
    exact List.ne_nil_of_mem (mem_keoghSlice s2 w i i ⟨by omega, by omega⟩ (by omega))

theorem warp_lower {ok : Nat → Nat → Prop} {d : Nat → Nat → ℝ} (l : Nat → ℝ) (hl : ∀ a b, ok a b → l a ≤ d a b)
    (hd : ∀ a b, 0 ≤ d a b) {i j : Nat} {c : ℝ} (h : Warp ok d i j c) :
    ((List.range (i + 1)).map l).sum ≤ c := by
  induction h with
  | start h => simpa using hl 0 0 h
  | @down i j c _ h ih =>
    rw [List.range_succ, List.map_append, List.sum_append]
    simpa using add_le_add ih (hl _ _ h)
  | @right i j c _ h ih => exact ih.trans (le_add_of_nonneg_right (hd _ _))
  | @diag i j c _ h ih =>
    rw [List.range_succ, List.map_append, List.sum_append]
    simpa using add_le_add ih (hl _ _ h)

/-- C96: for windows of the same length the Keogh bound is defined and never above the distance. -/
theorem C96_bound (s1 s2 : List ℝ) (w : Nat) (h : s1.length = s2.length) (hw : 0 < w) :
    ∃ lb : ℝ, lbKeogh s1 s2 w = .ok lb ∧ 0 ≤ lb ∧ (lb : Dist) ≤ dtwDistance s1 s2 w := by
  refine ⟨_, lbKeogh_ok s1 s2 w h.le hw, Real.sqrt_nonneg _, ?_⟩
  cases hn : s1.length with
  | zero =>
    obtain rfl : s1 = [] := List.length_eq_zero_iff.1 hn
    obtain rfl : s2 = [] := List.length_eq_zero_iff.1 (by rw [← h, hn])
    rw [dtwDistance_eq]
    simp [dtwRec_zero]
  | succ n =>
    cases hx : dtwDistance s1 s2 w using WithTop.recTopCoe with
    | top => simp
    | coe x =>
      obtain ⟨c, hc, rfl⟩ := (C95_least s1 s2 w n n hn (by omega)).2.1 x hx
      rw [WithTop.coe_le_coe]
      apply Real.sqrt_le_sqrt
      have hc' := warp_sub (ok' := fun a b => halfBand w a b ∧ b ≤ n) hc
        (fun a b _ hb h => ⟨by simpa using h, hb⟩)
      exact warp_lower (fun i => keoghVal (s1.getD i 0) (keoghSlice s2 w i))
        (fun a b h => keoghVal_le _ (mem_keoghSlice s2 w a b h.1 (by omega))) (fun a b => sq_nonneg _) hc'

example : ([1, 2, 3] : List ℝ).length = ([4, 5, 6] : List ℝ).length := rfl

/-- With an empty band the bound cannot be computed at all. -/
theorem lbKeogh_error (s1 s2 : List ℝ) (h : s1 ≠ []) : lbKeogh s1 s2 0 = .error .valueError := by
  obtain ⟨n, hn⟩ : ∃ n, s1.length = n + 1 := ⟨s1.length - 1, by have := List.length_pos_iff.2 h; omega⟩
  unfold lbKeogh
  rw [hn, List.range_succ_eq_map, List.mapM_cons]
  have : keoghTerm (s1.getD 0 0) (keoghSlice s2 0 0) = .error .valueError := by
    simp [keoghTerm, keoghSlice]
  rw [this]
  rfl

/-! ## C96: pruning -/

theorem firstMinBy_snoc {α : Type} (f : α → Dist) (l : List α) (y : α) :
    firstMinBy f (l ++ [y]) = some (match firstMinBy f l with
      | none => y
      | some m => if f y < f m then y else m) := by
  cases l with
  | nil => rfl
  | cons x l => simp [firstMinBy, List.foldl_append]

theorem firstMinBy_spec {α : Type} (f : α → Dist) (l : List α) :
    (firstMinBy f l = none ↔ l = []) ∧
      ∀ m, firstMinBy f l = some m → m ∈ l ∧ ∀ y ∈ l, f m ≤ f y := by
  induction l using List.reverseRecOn with
  | nil => simp [firstMinBy]
  | append_singleton l y ih =>
    rw [firstMinBy_snoc]
    refine ⟨by simp, ?_⟩
    intro m hm
    cases hr : firstMinBy f l with
    | none =>
      rw [hr] at hm
      simp only [Option.some.injEq] at hm
      rw [ih.1] at hr
      subst hr hm
      simp
    | some r =>
      rw [hr] at hm
      obtain ⟨h1, h2⟩ := ih.2 r hr
      simp only [Option.some.injEq] at hm
      split_ifs at hm with hlt
      · subst hm
        refine ⟨by simp, ?_⟩
        intro z hz
        rcases List.mem_append.1 hz with hz | hz
        · exact hlt.le.trans (h2 z hz)
        · rw [List.mem_singleton.1 hz]
      · subst hm
        refine ⟨by simp [h1], ?_⟩
        intro z hz
        rcases List.mem_append.1 hz with hz | hz
        · exact h2 z hz
        · rw [List.mem_singleton.1 hz]; exact not_lt.1 hlt

theorem firstMaxBy_snoc {α : Type} (f : α → Dist) (l : List α) (y : α) :
    firstMaxBy f (l ++ [y]) = some (match firstMaxBy f l with
      | none => y
      | some m => if f m < f y then y else m) := by
  cases l with
  | nil => rfl
  | cons x l => simp [firstMaxBy, List.foldl_append]

theorem firstMaxBy_spec {α : Type} (f : α → Dist) (l : List α) :
    (firstMaxBy f l = none ↔ l = []) ∧
      ∀ m, firstMaxBy f l = some m → m ∈ l ∧ ∀ y ∈ l, f y ≤ f m := by
  induction l using List.reverseRecOn with
  | nil => simp [firstMaxBy]
  | append_singleton l y ih =>
    rw [firstMaxBy_snoc]
    refine ⟨by simp, ?_⟩
    intro m hm
    cases hr : firstMaxBy f l with
    | none =>
      rw [hr] at hm
      simp only [Option.some.injEq] at hm
      rw [ih.1] at hr
      subst hr hm
      simp
    | some r =>
      rw [hr] at hm
      obtain ⟨h1, h2⟩ := ih.2 r hr
      simp only [Option.some.injEq] at hm
      split_ifs at hm with hlt
      · subst hm
        refine ⟨by simp, ?_⟩
        intro z hz
        rcases List.mem_append.1 hz with hz | hz
        · exact (h2 z hz).trans hlt.le
        · rw [List.mem_singleton.1 hz]
      · subst hm
        refine ⟨by simp [h1], ?_⟩
        intro z hz
        rcases List.mem_append.1 hz with hz | hz
        · exact h2 z hz
        · rw [List.mem_singleton.1 hz]; exact not_lt.1 hlt

/-- The distance of a window to a candidate, as the detector computes it. -/
noncomputable def candDist (sub : List ℝ) (c : Cand) : Dist := dtwDistance sub c.2.2 (c.2.2.length / 3)

theorem search_inv (sub : List ℝ) (cs : List Cand)
    (hlen : ∀ c ∈ cs, c.2.2.length = sub.length) (h3 : 3 ≤ sub.length) :
    ∃ bsf ds, cs.foldlM (searchStep sub) (⊤, []) = .ok (bsf, ds) ∧
      firstMinBy (·.2) ds = firstMinBy (·.2) (cs.map fun c => (c, candDist sub c)) ∧
      bsf = ((firstMinBy (·.2) ds).map (·.2)).getD ⊤ := by
  induction cs using List.reverseRecOn with
  | nil => exact ⟨⊤, [], rfl, rfl, rfl⟩
  | append_singleton cs c ih =>
    obtain ⟨bsf, ds, h1, h2, h3'⟩ := ih fun c hc => hlen c (by simp [hc])
    have hl := hlen c (by simp)
    obtain ⟨lb, hlb, -, hle⟩ := C96_bound sub c.2.2 (c.2.2.length / 3) hl.symm (by omega)
    change (lb : Dist) ≤ candDist sub c at hle
    rw [List.foldlM_append, h1]
    simp only [List.foldlM_cons, List.foldlM_nil, bind, Except.bind, pure, Except.pure, searchStep, hlb]
    rw [List.map_append, List.map_cons, List.map_nil, firstMinBy_snoc, ← h2]
    by_cases hc : (lb : Dist) < bsf
    · rw [if_pos hc]
      refine ⟨_, _, rfl, ?_, ?_⟩
      · rw [firstMinBy_snoc]; rfl
      · rw [firstMinBy_snoc]
        cases hr : firstMinBy (·.2) ds with
        | none =>
          rw [hr] at h3'
          simp only [Option.map_none, Option.getD_none] at h3'
          simp only [Option.map_some, Option.getD_some, h3']
          by_cases ht : candDist sub c < ⊤
          · exact if_pos ht
          · rw [not_lt, top_le_iff] at ht
            change (if candDist sub c < ⊤ then candDist sub c else ⊤) = candDist sub c
            rw [ht]; simp
        | some r =>
          rw [hr] at h3'
          simp only [Option.map_some, Option.getD_some] at h3' ⊢
          rw [h3']
          split_ifs <;> rfl
    · rw [if_neg hc]
      rw [not_lt] at hc
      refine ⟨_, _, rfl, ?_, ?_⟩
      · rw [firstMinBy_snoc]
        cases hr : firstMinBy (·.2) ds with
        | none =>
          rw [hr] at h3'
          simp only [Option.map_none, Option.getD_none] at h3'
          rw [h3'] at hc
          simp at hc
        | some r =>
          rw [hr] at h3'
          simp only [Option.map_some, Option.getD_some] at h3' ⊢
          rw [if_neg (by simp), if_neg (not_lt.2 (h3' ▸ hc.trans hle))]
      · rw [firstMinBy_snoc]
        cases hr : firstMinBy (·.2) ds with
        | none =>
          rw [hr] at h3'
          simp only [Option.map_none, Option.getD_none] at h3'
          rw [h3'] at hc
          simp at hc
        | some r =>
          rw [hr] at h3'
          simp only [Option.map_some, Option.getD_some] at h3' ⊢
          rw [if_neg (by simp)]
          exact h3'

/-- C96: skipping the candidates whose lower bound is not below the best distance so far does not change
the closest candidate: it is the first of those at the least distance, as if all distances had been
computed. -/
theorem C96_pruning (sub : List ℝ) (cs : List Cand)
    (hlen : ∀ c ∈ cs, c.2.2.length = sub.length) (h3 : 3 ≤ sub.length) :
    ∃ ds, search sub cs = .ok ds ∧
      firstMinBy (·.2) ds = firstMinBy (·.2) (cs.map fun c => (c, dtwDistance sub c.2.2 (c.2.2.length / 3))) := by
  obtain ⟨bsf, ds, h1, h2, -⟩ := search_inv sub cs hlen h3
  refine ⟨ds, ?_, h2⟩
  unfold search
  rw [h1]
  rfl

example : ∃ ds, search [1, 2, 3] [("b", 0, [4, 5, 6]), ("c", 0, [1, 2, 4])] = .ok ds ∧
    firstMinBy (·.2) ds = firstMinBy (·.2)
      ([("b", 0, [4, 5, 6]), ("c", 0, [1, 2, 4])].map fun c : Cand =>
        (c, dtwDistance [1, 2, 3] c.2.2 (c.2.2.length / 3))) :=
  C96_pruning _ _ (by simp) (by simp)

/-- C96: all distances between windows of the same length are finite. -/
theorem C96_finite (s1 s2 : List ℝ) (h : s1.length = s2.length) (h3 : 3 ≤ s2.length) :
    dtwDistance s1 s2 (s2.length / 3) ≠ ⊤ := by
  intro e
  have := C95_euclid s1 s2 (s2.length / 3) h (by omega)
  rw [e] at this
  simp at this

example : dtwDistance [1, 2, 3] [5, 5, 9] (([5, 5, 9] : List ℝ).length / 3) ≠ ⊤ :=
  C96_finite _ _ rfl (by simp)

/-! ## C97: windows -/

/-- C97: the windows examined are those at the multiples of the skip size that fit into the series and
have a value above the threshold. -/
theorem C97_windows (win skip : Nat) (minValue : ℝ) (ts : List ℝ) (hw : 0 < win) (hs : 0 < skip) :
    ∃ l, subseqs win skip minValue ts = .ok l ∧ ∀ ind sub, (ind, sub) ∈ l ↔
      skip ∣ ind ∧ ind + win ≤ ts.length ∧ sub = (ts.drop ind).take win ∧ ∃ x ∈ sub, minValue < x := by
  unfold subseqs
  rw [if_neg (by omega)]
  dsimp only
  rw [if_neg (by omega)]
  refine ⟨_, rfl, ?_⟩
  intro ind sub
  have hrange : ∀ k, k < (ts.length + 1 - win + (skip - 1)) / skip ↔ k * skip + win ≤ ts.length := by
    intro k
    rw [← Nat.succ_le_iff, Nat.le_div_iff_mul_le hs, Nat.succ_mul]
    omega
  have hd : ∀ ind, (ts.take (ind + win)).drop ind = (ts.drop ind).take win := by
    intro ind
    rw [List.drop_take]
    congr 1
    omega
  rw [List.mem_filter, List.mem_map]
  simp only [decide_eq_true_eq, hd]
  constructor
  · rintro ⟨⟨k, hk, e⟩, hm⟩
    obtain ⟨i, hi, rfl⟩ := List.mem_map.1 hk
    rw [List.mem_range, hrange] at hi
    obtain ⟨rfl, rfl⟩ := Prod.mk.inj e
    refine ⟨⟨i, Nat.mul_comm _ _⟩, hi, rfl, _, pyMax_mem ?_, hm⟩
    rw [Ne, ← List.length_eq_zero_iff]
    simp
    omega
  · rintro ⟨⟨k, rfl⟩, hk, rfl, x, hx, hxm⟩
    refine ⟨⟨skip * k, List.mem_map.2 ⟨k, ?_, Nat.mul_comm _ _⟩, rfl⟩, lt_of_lt_of_le hxm (le_pyMax hx)⟩
    rw [List.mem_range, hrange, Nat.mul_comm]
    exact hk

example : ∃ l, subseqs 3 2 0 [1, 2, 3, 4, 5] = .ok l ∧ (2, [3, 4, 5]) ∈ l := by
  obtain ⟨l, h1, h2⟩ := C97_windows 3 2 0 [1, 2, 3, 4, 5] (by norm_num) (by norm_num)
  exact ⟨l, h1, (h2 _ _).2 ⟨by norm_num, by simp, by simp, 3, by simp, by norm_num⟩⟩

/-- C97: the windows that a window of series `a` is compared with: those of the other series, and, if
allowed, those of the same series that have no position in common with it. -/
theorem C97_candidates (win : Nat) (hw : 0 < win) (same : Bool) (all : List (String × List (Nat × List ℝ)))
    (a b : String) (inda indb : Nat) (sub : List ℝ) :
    (b, indb, sub) ∈ dtwCands win same all a inda ↔
      (∃ subs, (b, subs) ∈ all ∧ (indb, sub) ∈ subs) ∧
        (a ≠ b ∨ same = true ∧ ∀ k, ¬ (inda ≤ k ∧ k < inda + win ∧ indb ≤ k ∧ k < indb + win)) := by
  have hov : dtwOverlap win inda indb = false ↔
      ∀ k, ¬ (inda ≤ k ∧ k < inda + win ∧ indb ≤ k ∧ k < indb + win) := by
    unfold dtwOverlap
    rw [Bool.or_eq_false_iff, Bool.and_eq_false_iff, Bool.and_eq_false_iff]
    simp only [decide_eq_false_iff_not]
    constructor
    · intro h k
      omega
    · intro h
      have h1 := h inda
      have h2 := h indb
      omega
  unfold dtwCands
  rw [List.mem_flatMap]
  constructor
  · rintro ⟨⟨b', subs⟩, hb, hm⟩
    split_ifs at hm with hc
    · obtain ⟨⟨i, s⟩, hs, e⟩ := List.mem_map.1 hm
      simp only [Prod.mk.injEq] at e
      obtain ⟨rfl, rfl, rfl⟩ := e
      rw [List.mem_filter] at hs
      refine ⟨⟨subs, hb, hs.1⟩, ?_⟩
      by_cases hab : a = b'
      · right
        subst hab
        simp at hc hs
        exact ⟨hc, hov.1 hs.2⟩
      · exact Or.inl hab
    · simp at hm
  · rintro ⟨⟨subs, hb, hs⟩, hc⟩
    refine ⟨(b, subs), hb, ?_⟩
    have : (a != b || same) = true := by
      rcases hc with hc | hc
      · simp [hc]
      · simp [hc.1]
    rw [if_pos this]
    refine List.mem_map.2 ⟨(indb, sub), List.mem_filter.2 ⟨hs, ?_⟩, rfl⟩
    rcases hc with hc | hc
    · simp [hc]
    · simp [hov.2 hc.2]

/-! ## C97: the farthest window -/

theorem dtwBest_eq (win : Nat) (h3 : 3 ≤ win) (same : Bool) (all : List (String × List (Nat × List ℝ)))
    (a : String) (subs : List (Nat × List ℝ)) (hsubs : ∀ s ∈ subs, s.2.length = win)
    (hall : ∀ p ∈ all, ∀ s ∈ p.2, s.2.length = win) :
    dtwBest win same all a subs =
      match firstMaxBy (·.dist) ((subs.map fun s =>
        (firstMinBy (·.2) ((dtwCands win same all a s.1).map fun c => (c, candDist s.2 c))).map
          fun p => (⟨s.1, p.1.1, p.1.2.1, p.2⟩ : DtwMatch)).filterMap id) with
      | none => .error .valueError
      | some r => .ok r := by
  unfold dtwBest
  rw [mapM_ok _ (fun s =>
        (firstMinBy (·.2) ((dtwCands win same all a s.1).map fun c => (c, candDist s.2 c))).map
          fun p => (⟨s.1, p.1.1, p.1.2.1, p.2⟩ : DtwMatch))]
  · rfl
  · intro s hs
    obtain ⟨ds, h1, h2⟩ := C96_pruning s.2 (dtwCands win same all a s.1) (by
      rintro ⟨b, ind, sub⟩ hc
      obtain ⟨⟨sb, hb, hm⟩, -⟩ := (C97_candidates win (by omega) same all a b s.1 ind sub).1 hc
      rw [hsubs s hs]
      exact hall _ hb _ hm) (by rw [hsubs s hs]; exact h3)
    rw [h1]
    simp only [bind, Except.bind, pure, Except.pure]
    rw [h2]
    rfl

/-- C97: the match reported for a series is a window of the series with its closest candidate, and no
window of the series is farther from its own closest candidate. -/
theorem C97_farthest (win : Nat) (h3 : 3 ≤ win) (same : Bool) (all : List (String × List (Nat × List ℝ)))
    (a : String) (subs : List (Nat × List ℝ)) (hsubs : ∀ s ∈ subs, s.2.length = win)
    (hall : ∀ p ∈ all, ∀ s ∈ p.2, s.2.length = win) (r : DtwMatch)
    (h : dtwBest win same all a subs = .ok r) :
    (∃ s ∈ subs, s.1 = r.idx ∧
      (∃ sub, (r.matchedName, r.matchedIdx, sub) ∈ dtwCands win same all a s.1 ∧
        r.dist = dtwDistance s.2 sub (win / 3)) ∧
      ∀ c ∈ dtwCands win same all a s.1, r.dist ≤ dtwDistance s.2 c.2.2 (win / 3)) ∧
    (∀ s ∈ subs, dtwCands win same all a s.1 ≠ [] →
      ∃ c ∈ dtwCands win same all a s.1, dtwDistance s.2 c.2.2 (win / 3) ≤ r.dist) ∧
    r.dist ≠ ⊤ := by
  rw [dtwBest_eq win h3 same all a subs hsubs hall] at h
  set M := (subs.map fun s =>
        (firstMinBy (·.2) ((dtwCands win same all a s.1).map fun c => (c, candDist s.2 c))).map
          fun p => (⟨s.1, p.1.1, p.1.2.1, p.2⟩ : DtwMatch)).filterMap id with hM
  cases hr : firstMaxBy (·.dist) M with
  | none => rw [hr] at h; simp at h
  | some r' =>
    rw [hr] at h
    simp only [Except.ok.injEq] at h
    subst h
    have hclen : ∀ s c, c ∈ dtwCands win same all a s → c.2.2.length = win := by
      rintro s ⟨b, ind, sub⟩ hc
      obtain ⟨⟨sb, hb, hm⟩, -⟩ := (C97_candidates win (by omega) same all a b s ind sub).1 hc
      exact hall _ hb _ hm
    obtain ⟨hmem, hmax⟩ := (firstMaxBy_spec (·.dist) M).2 r' hr
    have hsp : ∀ (s : Nat × List ℝ) (m : DtwMatch), (firstMinBy (·.2) ((dtwCands win same all a s.1).map fun c => (c, candDist s.2 c))).map
          (fun p => (⟨s.1, p.1.1, p.1.2.1, p.2⟩ : DtwMatch)) = some m →
        s.1 = m.idx ∧ (∃ sub, (m.matchedName, m.matchedIdx, sub) ∈ dtwCands win same all a s.1 ∧
          m.dist = dtwDistance s.2 sub (win / 3)) ∧
        ∀ c ∈ dtwCands win same all a s.1, m.dist ≤ dtwDistance s.2 c.2.2 (win / 3) := by
      intro s m hm
      rw [Option.map_eq_some_iff] at hm
      obtain ⟨p, hp, rfl⟩ := hm
      obtain ⟨h1, h2⟩ := (firstMinBy_spec _ _).2 p hp
      obtain ⟨c, hc, rfl⟩ := List.mem_map.1 h1
      refine ⟨rfl, ⟨c.2.2, hc, ?_⟩, ?_⟩
      · simp only [candDist, hclen _ c hc]
      · intro c' hc'
        have := h2 (c', candDist s.2 c') (List.mem_map.2 ⟨c', hc', rfl⟩)
        simpa only [candDist, hclen _ c hc, hclen _ c' hc'] using this
    have hmem' := hmem
    rw [hM, List.mem_filterMap] at hmem'
    obtain ⟨o, ho, e⟩ := hmem'
    obtain ⟨s, hs, rfl⟩ := List.mem_map.1 ho
    have hs' := hsp s r' e
    refine ⟨⟨s, hs, hs'⟩, ?_, ?_⟩
    · intro s2 hs2 hne
      obtain ⟨m2, hm2⟩ : ∃ m2, firstMinBy (·.2)
          ((dtwCands win same all a s2.1).map fun c => (c, candDist s2.2 c)) = some m2 := by
        rw [← Option.isSome_iff_exists, Option.isSome_iff_ne_none, Ne, (firstMinBy_spec _ _).1]
        simpa using hne
      have h2 := hsp s2 _ (by rw [hm2]; rfl)
      obtain ⟨sub, hsub, hd⟩ := h2.2.1
      refine ⟨_, hsub, ?_⟩
      rw [← hd]
      apply hmax
      rw [hM, List.mem_filterMap]
      exact ⟨_, List.mem_map.2 ⟨s2, hs2, rfl⟩, by rw [hm2]; rfl⟩
    · obtain ⟨sub, hsub, hd⟩ := hs'.2.1
      rw [hd]
      have hl := hclen _ _ hsub
      simp only at hl
      have := C96_finite s.2 sub (by rw [hl, hsubs s hs]) (by omega)
      rwa [hl] at this

/-! ## C97: the detector -/

theorem allSubseqs_spec (win skip : Nat) (minValue : ℝ) (cols : List (String × List ℝ)) (hw : 0 < win)
    (hs : 0 < skip) :
    ∃ all, allSubseqs win skip minValue cols = .ok all ∧ ∀ p ∈ all, p.2 ≠ [] ∧ ∀ s ∈ p.2, s.2.length = win := by
  have hex : ∀ c : String × List ℝ, ∃ l, subseqs win skip minValue c.2 = .ok l := fun c =>
    (C97_windows win skip minValue c.2 hw hs).imp fun _ h => h.1
  choose f hf using hex
  refine ⟨(cols.map fun c => (c.1, f c)).filter fun p => decide (p.2.length > 0), ?_, ?_⟩
  · unfold allSubseqs
    rw [mapM_ok _ (fun c => (c.1, f c))]
    · rfl
    · intro c _
      rw [hf c]
      rfl
  · intro p hp
    rw [List.mem_filter] at hp
    refine ⟨List.length_pos_iff.1 (by simpa using hp.2), ?_⟩
    obtain ⟨c, hc, rfl⟩ := List.mem_map.1 hp.1
    obtain ⟨l, h1, h2⟩ := C97_windows win skip minValue c.2 hw hs
    rw [hf c] at h1
    obtain rfl := Except.ok.inj h1
    rintro ⟨ind, sub⟩ hm
    obtain ⟨-, h3, h4, -⟩ := (h2 ind sub).1 hm
    rw [h4]
    simp
    omega

/-- C97: with windows of at least three points the detector never raises: every series that has a window
to examine gets a match. -/
theorem C97_total (d : DtwDet) (h3 : 3 ≤ d.win) (hs : 0 < d.skipSize) (hn : (d.cols.map (·.1)).Nodup) :
    ∃ d', d.detector = .ok d' := by
  obtain ⟨all, h1, h2⟩ := allSubseqs_spec d.win d.skipSize d.minValue d.cols (by omega) hs
  have hnd : (all.map (·.1)).Nodup := by
    have : ∃ f : String × List ℝ → String × List (Nat × List ℝ), (∀ c, (f c).1 = c.1) ∧
        ∃ q, all = (d.cols.map f).filter q := by
      have hex : ∀ c : String × List ℝ, ∃ l, subseqs d.win d.skipSize d.minValue c.2 = .ok l := fun c =>
        (C97_windows d.win d.skipSize d.minValue c.2 (by omega) hs).imp fun _ h => h.1
      choose f hf using hex
      refine ⟨fun c => (c.1, f c), fun _ => rfl, fun p => decide (p.2.length > 0), ?_⟩
      unfold allSubseqs at h1
      rw [mapM_ok _ (fun c => (c.1, f c))] at h1
      · exact (Except.ok.inj h1).symm
      · intro c _
        rw [hf c]
        rfl
    obtain ⟨f, hf, q, rfl⟩ := this
    refine List.Nodup.sublist (List.Sublist.map _ List.filter_sublist) ?_
    rw [List.map_map]
    convert hn using 1
    exact List.map_congr_left fun c _ => hf c
  unfold DtwDet.detector
  rw [h1]
  simp only [bind, Except.bind]
  match all, h2, hnd with
  | [], _, _ => exact ⟨_, rfl⟩
  | [(name, subs)], _, _ => exact ⟨_, rfl⟩
  | p :: q :: rest, h2, hnd =>
    have hb : ∀ a ∈ p :: q :: rest, ∃ r, dtwBest d.win d.same (p :: q :: rest) a.1 a.2 = .ok r := by
      intro a ha
      rw [dtwBest_eq d.win h3 d.same _ _ _ (h2 a ha).2 fun p hp => (h2 p hp).2]
      have hne : ∃ b ∈ p :: q :: rest, b.1 ≠ a.1 := by
        by_cases e : p.1 = a.1
        · refine ⟨q, by simp, ?_⟩
          simp only [List.map_cons, List.nodup_cons, List.mem_cons] at hnd
          rw [← e]
          intro e2
          exact hnd.1 (Or.inl e2.symm)
        · exact ⟨p, by simp, e⟩
      obtain ⟨b, hb, hba⟩ := hne
      obtain ⟨s, hs⟩ := List.exists_mem_of_ne_nil _ (h2 a ha).1
      obtain ⟨t, ht⟩ := List.exists_mem_of_ne_nil _ (h2 b hb).1
      have hc : (b.1, t.1, t.2) ∈ dtwCands d.win d.same (p :: q :: rest) a.1 s.1 :=
        (C97_candidates d.win (by omega) _ _ _ _ _ _ _).2 ⟨⟨b.2, hb, ht⟩, Or.inl (Ne.symm hba)⟩
      obtain ⟨m, hm⟩ : ∃ m, firstMinBy (·.2)
          ((dtwCands d.win d.same (p :: q :: rest) a.1 s.1).map fun c => (c, candDist s.2 c)) = some m := by
        rw [← Option.isSome_iff_exists, Option.isSome_iff_ne_none, Ne, (firstMinBy_spec _ _).1]
        intro e
        rw [List.map_eq_nil_iff] at e
        rw [e] at hc
        simp at hc
      split
      · rename_i h
        rw [(firstMaxBy_spec _ _).1, List.filterMap_eq_nil_iff] at h
        have := h _ (List.mem_map.2 ⟨s, hs, rfl⟩)
        rw [hm] at this
        simp at this
      · exact ⟨_, rfl⟩
    have hb' : ∀ a : String × List (Nat × List ℝ), ∃ r, a ∈ p :: q :: rest →
        dtwBest d.win d.same (p :: q :: rest) a.1 a.2 = .ok r := by
      intro a
      by_cases ha : a ∈ p :: q :: rest
      · obtain ⟨r, hr⟩ := hb a ha
        exact ⟨r, fun _ => hr⟩
      · exact ⟨⟨0, "", 0, 0⟩, fun h => absurd h ha⟩
    choose f hf using hb'
    have : dtwAll d.win d.same (p :: q :: rest) = .ok ((p :: q :: rest).map fun a => (a.1, f a)) := by
      unfold dtwAll
      apply mapM_ok
      intro a ha
      rw [hf a ha]
      rfl
    simp only [this]
    exact ⟨_, rfl⟩

example : ∃ d', ({ time := [0, 1, 2, 3], cols := [("a", [1, 2, 3, 4]), ("b", [0, 5, 0, 0])],
                   win := 3, skipSize := 1 } : DtwDet).detector = .ok d' := C97_total _ (by simp) (by simp) (by simp)

/-- C97 is violated for windows of one or two points, which the constructor accepts: as soon as two series
have windows to compare, the detector raises a `ValueError` (`min` of an empty list). -/
theorem C97_short_violated (d : DtwDet) (hw : d.win = 1 ∨ d.win = 2) (hs : 0 < d.skipSize)
    (hn : d.win ≤ d.time.length) (p q : String × List (Nat × List ℝ)) (rest : List (String × List (Nat × List ℝ)))
    (hall : allSubseqs d.win d.skipSize d.minValue d.cols = .ok (p :: q :: rest)) (hpq : p.1 ≠ q.1) :
    (∃ d0, d.init false = .ok d0) ∧ d.detector = .error .valueError := by
  refine ⟨⟨_, by unfold DtwDet.init; rw [if_neg (by omega)]; rfl⟩, ?_⟩
  obtain ⟨all, h1, h2⟩ := allSubseqs_spec d.win d.skipSize d.minValue d.cols (by omega) hs
  rw [hall] at h1
  obtain rfl := Except.ok.inj h1
  have herr : dtwBest d.win d.same (p :: q :: rest) p.1 p.2 = .error .valueError := by
    obtain ⟨s, ss, hss⟩ := List.exists_cons_of_ne_nil (h2 p (by simp)).1
    have hsl := (h2 p (by simp)).2 s (by rw [hss]; simp)
    obtain ⟨t, ht⟩ := List.exists_mem_of_ne_nil _ (h2 q (by simp)).1
    have hc : (q.1, t.1, t.2) ∈ dtwCands d.win d.same (p :: q :: rest) p.1 s.1 :=
      (C97_candidates d.win (by omega) _ _ _ _ _ _ _).2 ⟨⟨q.2, by simp, ht⟩, Or.inl hpq⟩
    obtain ⟨c, cs, hcs⟩ := List.exists_cons_of_ne_nil (List.ne_nil_of_mem hc)
    have hcl : c.2.2.length = d.win := by
      obtain ⟨⟨sb, hb, hm⟩, -⟩ := (C97_candidates d.win (by omega) d.same (p :: q :: rest) p.1 c.1 s.1 c.2.1
        c.2.2).1 (by rw [hcs]; simp)
      exact (h2 _ hb).2 _ hm
    have hlb : lbKeogh s.2 c.2.2 (c.2.2.length / 3) = .error .valueError := by
      rw [hcl, show d.win / 3 = 0 by omega]
      apply lbKeogh_error
      rw [Ne, ← List.length_eq_zero_iff]
      omega
    unfold dtwBest
    rw [hss, List.mapM_cons, hcs]
    simp only [search, List.foldlM_cons, searchStep, hlb, bind, Except.bind]
  unfold DtwDet.detector
  rw [hall]
  simp only [bind, Except.bind, dtwAll, List.mapM_cons, herr]

theorem pyMax_single (x : ℝ) : pyMax [x] = x := rfl

example : allSubseqs 1 1 0 [("a", [1]), ("b", [2])] = .ok [("a", [(0, [1])]), ("b", [(0, [2])])] := by
  simp [allSubseqs, subseqs, bind, Except.bind, pure, Except.pure, List.range_succ, pyMax_single]

/-- C97 is violated: values below the threshold are never examined, so series that are far below zero
count as flat and nothing is reported, whatever happens in them. -/
theorem C97_negative_violated (d : DtwDet) (hw : 0 < d.win) (hs : 0 < d.skipSize)
    (h : ∀ c ∈ d.cols, ∀ x ∈ c.2, x ≤ d.minValue) : d.detector = .ok d := by
  have hsub : ∀ c ∈ d.cols, subseqs d.win d.skipSize d.minValue c.2 = .ok [] := by
    intro c hc
    obtain ⟨l, h1, h2⟩ := C97_windows d.win d.skipSize d.minValue c.2 hw hs
    rw [h1]
    congr 1
    rw [List.eq_nil_iff_forall_not_mem]
    rintro ⟨ind, sub⟩ hm
    obtain ⟨-, -, h4, x, hx, hlt⟩ := (h2 ind sub).1 hm
    rw [h4] at hx
    exact absurd (h c hc x (List.mem_of_mem_drop (List.mem_of_mem_take hx))) (not_le.2 hlt)
  have hall : allSubseqs d.win d.skipSize d.minValue d.cols = .ok [] := by
    unfold allSubseqs
    rw [mapM_ok _ (fun c => (c.1, []))]
    · simp [bind, Except.bind, pure, Except.pure]
    · intro c hc
      rw [hsub c hc]
      rfl
  unfold DtwDet.detector
  rw [hall]
  rfl

example : ({ time := [0, 1, 2, 3], cols := [("a", [-1, -2, -3, -4]), ("b", [-1, -500, -1, -1])],
             win := 3, skipSize := 1, minValue := 0 } : DtwDet).detector =
      .ok { time := [0, 1, 2, 3], cols := [("a", [-1, -2, -3, -4]), ("b", [-1, -500, -1, -1])], win := 3,
            skipSize := 1, minValue := 0 } := C97_negative_violated _ (by simp) (by simp) (by simp)

/-- C97 is violated when the detector is run again: if one series is not flat, each run adds its
changepoint once more. -/
theorem C97_again_violated (d d1 d2 : DtwDet) (name : String) (subs : List (Nat × List ℝ))
    (h : allSubseqs d.win d.skipSize d.minValue d.cols = .ok [(name, subs)])
    (h1 : d.detector = .ok d1) (h2 : d1.detector = .ok d2) :
    ∃ cp : DtwCP, cp.name = name ∧ d1.outliers = d.outliers ++ [cp] ∧ d2.outliers = d.outliers ++ [cp, cp] := by
  unfold DtwDet.detector at h1
  rw [h] at h1
  simp only [bind, Except.bind, pure, Except.pure, Except.ok.injEq] at h1
  subst h1
  unfold DtwDet.detector at h2
  simp only [h, bind, Except.bind, pure, Except.pure, Except.ok.injEq] at h2
  subst h2
  exact ⟨_, rfl, rfl, by simp⟩

example : allSubseqs 1 1 0 [("a", [1]), ("b", [-2])] = .ok [("a", [(0, [1])])] := by
  simp [allSubseqs, subseqs, bind, Except.bind, pure, Except.pure, List.range_succ, pyMax_single]

/-! ## C97: the report -/

theorem sum_div_const (l : List ℝ) (m : ℝ) : (l.map fun x => x / m).sum = l.sum / m := by
  induction l with
  | nil => simp
  | cons x l ih => simp [ih, add_div]

theorem filterMap_length_le (l : List ℝ) (k : ℝ) (hl : ∀ x ∈ l, 0 ≤ x) :
    ((l.filter fun x => decide (k < x)).length : ℝ) * k ≤ l.sum := by
  induction l with
  | nil => simp
  | cons x l ih =>
    have hx := hl x (by simp)
    have := ih fun y hy => hl y (by simp [hy])
    rw [List.filter_cons]
    split_ifs with h
    · rw [List.length_cons, List.sum_cons]
      push_cast
      have : k < x := by simpa using h
      linarith
    · rw [List.sum_cons]
      linarith

/-- C97: a report names series in their order, gives the times of the first and last point of the window,
and its confidence exceeds the threshold; at most one in `cutoff` series is reported. -/
theorem C97_report (win : Nat) (cutoff : ℝ) (time : List Int) (ms : List (String × DtwMatch)) :
    ((dtwAnomalies win cutoff time ms).map (·.name)).Sublist (ms.map (·.1)) ∧
    (∀ cp ∈ dtwAnomalies win cutoff time ms, cutoff < cp.confidence ∧ ∃ p ∈ ms, cp.name = p.1 ∧
      cp.startTime = time.getD p.2.idx 0 ∧ cp.endTime = time.getD (p.2.idx + win - 1) 0) ∧
    (0 ≤ cutoff → ((dtwAnomalies win cutoff time ms).length : ℝ) * cutoff ≤ ms.length) := by
  set ds := ms.map fun p => p.2.dist.toReal with hds
  set med := percentileR 50 ds with hmed
  set mad := (ds.map fun v => |med - v|).sum / ds.length with hmad
  have hdef : dtwAnomalies win cutoff time ms = ms.filterMap fun p =>
      if mad ≠ 0 ∧ |med - p.2.dist.toReal| / mad > cutoff then
        some ⟨time.getD p.2.idx 0, time.getD (p.2.idx + win - 1) 0, |med - p.2.dist.toReal| / mad, p.1⟩
      else none := rfl
  refine ⟨?_, ?_, ?_⟩
  · rw [hdef]
    generalize ms = l
    induction l with
    | nil => simp
    | cons p l ih =>
      rw [List.filterMap_cons]
      split_ifs with h
      · simpa using ih.cons_cons p.1
      · simpa using ih.cons p.1
  · intro cp hcp
    rw [hdef, List.mem_filterMap] at hcp
    obtain ⟨p, hp, e⟩ := hcp
    split_ifs at e with h
    · obtain rfl := Option.some.inj e
      exact ⟨h.2, p, hp, rfl, rfl, rfl⟩
  · intro hc
    by_cases h0 : mad = 0
    · rw [hdef]
      simp [h0]
    · have hlen : (dtwAnomalies win cutoff time ms).length =
          ((ms.map fun p => |med - p.2.dist.toReal| / mad).filter fun x => decide (cutoff < x)).length := by
        rw [hdef]
        generalize ms = l
        induction l with
        | nil => rfl
        | cons p l ih =>
          rw [List.filterMap_cons, List.map_cons, List.filter_cons]
          by_cases h : |med - p.2.dist.toReal| / mad > cutoff
          · rw [if_pos ⟨h0, h⟩, if_pos (by simpa using h)]
            simpa using ih
          · rw [if_neg (fun e => h e.2), if_neg (by simpa using h)]
            exact ih
      have hmn : 0 ≤ mad := by
        rw [hmad]
        apply div_nonneg _ (Nat.cast_nonneg _)
        apply List.sum_nonneg
        intro x hx
        obtain ⟨v, -, rfl⟩ := List.mem_map.1 hx
        exact abs_nonneg _
      rw [hlen]
      refine (filterMap_length_le _ cutoff ?_).trans (le_of_eq ?_)
      · intro x hx
        obtain ⟨v, -, rfl⟩ := List.mem_map.1 hx
        exact div_nonneg (abs_nonneg _) hmn
      · have e : (ms.map fun p => |med - p.2.dist.toReal| / mad) = (ds.map fun v => |med - v|).map fun x => x / mad := by
          rw [hds]
          simp [Function.comp_def]
        have hl : ds.length = ms.length := by rw [hds]; simp
        rw [e, sum_div_const]
        have hne : (ds.length : ℝ) ≠ 0 := by
          intro e
          apply h0
          rw [hmad, e]
          simp
        have hS : (ds.map fun v => |med - v|).sum ≠ 0 := by
          intro e
          apply h0
          rw [hmad, e]
          simp
        rw [hmad, ← hl]
        field_simp

/-- C97 is violated: the score is the absolute deviation from the median, so a series that is unusually
similar to the others is reported as an anomaly. -/
theorem C97_similar_violated : ∃ ms : List (String × DtwMatch), ∃ cp,
    dtwAnomalies 3 1 [0, 1, 2] ms = [cp] ∧ cp.name = "a" ∧
      ∀ p ∈ ms, p.1 = "a" → p.2.dist = 0 := by
  refine ⟨[("a", ⟨0, "b", 0, 0⟩), ("b", ⟨0, "a", 0, ((10 : ℝ) : Dist)⟩), ("c", ⟨0, "a", 0, ((10 : ℝ) : Dist)⟩)],
    ⟨0, 2, 3, "a"⟩, ?_, rfl, by simp⟩
  have hm : percentileR 50 [(0 : ℝ), 10, 10] = 10 := by
    norm_num [percentileR, List.insertionSort, List.orderedInsert]
  have hz : Dist.toReal 0 = 0 := rfl
  have ht : Dist.toReal ((10 : ℝ) : Dist) = 10 := rfl
  unfold dtwAnomalies
  simp only [List.map_cons, List.map_nil, hz, ht, hm]
  have ht' : Dist.toReal (10 : Dist) = 10 := rfl
  norm_num [List.filterMap_cons, hz, ht, ht']

end Kats
