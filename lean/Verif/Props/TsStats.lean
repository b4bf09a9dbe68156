import Verif.Model.TsStats
import Verif.Lemmas.Backtest
import Verif.Lemmas.MapM
import Verif.Props.MultiOutlier
import Mathlib.Data.List.GetD
import Mathlib.Data.List.Infix
import Mathlib.Data.List.TakeWhile
import Mathlib.Tactic.Linarith
import Mathlib.Tactic.Ring
import Mathlib.Tactic.NormNum
import Mathlib.Tactic.Positivity
import Mathlib.Tactic.FieldSimp

/-!
# Statistics of a series: C109
-/

namespace Kats

noncomputable section

open Classical

/-! ### Chunks -/

theorem splitSizes_length {α : Type} (ss : List Nat) (x : List α) : (splitSizes ss x).length = ss.length := by
  induction ss generalizing x with
  | nil => rfl
  | cons s ss ih => simp [splitSizes, ih]

theorem splitSizes_flatten {α : Type} (ss : List Nat) (x : List α) : (splitSizes ss x).flatten = x.take ss.sum := by
  induction ss generalizing x with
  | nil => simp [splitSizes]
  | cons s ss ih =>
    rw [splitSizes, List.flatten_cons, ih, List.sum_cons, List.take_add]

theorem splitSizes_lengths {α : Type} (ss : List Nat) (x : List α) (h : ss.sum ≤ x.length) :
    (splitSizes ss x).map List.length = ss := by
  induction ss generalizing x with
  | nil => rfl
  | cons s ss ih =>
    rw [List.sum_cons] at h
    rw [splitSizes, List.map_cons, ih _ (by rw [List.length_drop]; omega), List.length_take, Nat.min_eq_left (by omega)]

theorem splitSizes_map {α β : Type} (f : α → β) (ss : List Nat) (x : List α) :
    splitSizes ss (x.map f) = (splitSizes ss x).map (List.map f) := by
  induction ss generalizing x with
  | nil => rfl
  | cons s ss ih =>
    simp only [splitSizes, List.map_cons, ← List.map_drop, ← List.map_take, ih]

theorem arraySplitSizes_sum (n k : Nat) (hk : 0 < k) : (arraySplitSizes n k).sum = n := by
  have h : ∀ m, ((List.range m).map fun i => n / k + if i < n % k then 1 else 0).sum = m * (n / k) + min m (n % k) := by
    intro m
    induction m with
    | zero => simp
    | succ m ih =>
      rw [List.range_succ, List.map_append, List.sum_append, ih]
      simp only [List.map_cons, List.map_nil, List.sum_cons, List.sum_nil]
      rw [Nat.add_mul, Nat.one_mul]
      split <;> omega
  unfold arraySplitSizes
  rw [h, Nat.min_eq_right (Nat.mod_lt _ hk).le, Nat.div_add_mod]

theorem tsChunks_lengths (x : List ℝ) (w : Nat) :
    (tsChunks x w).map List.length = arraySplitSizes x.length (x.length / w + 1) :=
  splitSizes_lengths _ _ (by rw [arraySplitSizes_sum _ _ (Nat.succ_pos _)])

/-- **C109 (chunks).**  The chunks behind lumpiness and stability are consecutive and make up the series, differ in
length by at most one, and none is longer than the window; none is empty if the window has at least two points. -/
theorem C109_chunks (x : List ℝ) (w : Nat) (hw : 0 < w) :
    (tsChunks x w).flatten = x ∧ (tsChunks x w).length = x.length / w + 1 ∧
      (∀ c ∈ tsChunks x w, c.length ≤ w) ∧
      (∀ c ∈ tsChunks x w, ∀ c' ∈ tsChunks x w, c.length ≤ c'.length + 1) ∧
      (2 ≤ w → x ≠ [] → ∀ c ∈ tsChunks x w, c ≠ []) := by
  have hk : 0 < x.length / w + 1 := Nat.succ_pos _
  have hmem : ∀ c ∈ tsChunks x w, c.length = x.length / (x.length / w + 1) ∨
      (c.length = x.length / (x.length / w + 1) + 1 ∧ 0 < x.length % (x.length / w + 1)) := by
    intro c hc
    have : c.length ∈ (tsChunks x w).map List.length := List.mem_map.2 ⟨c, hc, rfl⟩
    rw [tsChunks_lengths] at this
    obtain ⟨i, -, hi⟩ := List.mem_map.1 this
    split at hi
    · right; omega
    · left; omega
  refine ⟨?_, ?_, ?_, ?_, ?_⟩
  · unfold tsChunks
    rw [splitSizes_flatten, arraySplitSizes_sum _ _ hk, List.take_length]
  · unfold tsChunks
    rw [splitSizes_length]
    simp [arraySplitSizes]
  · intro c hc
    have hlt : x.length < w * (x.length / w + 1) := Nat.lt_mul_div_succ _ hw
    have h1 : x.length / (x.length / w + 1) < w := by
      rw [Nat.div_lt_iff_lt_mul hk]
      exact hlt
    rcases hmem c hc with h | ⟨h, -⟩ <;> omega
  · intro c hc c' hc'
    rcases hmem c hc with h | ⟨h, -⟩ <;> rcases hmem c' hc' with h' | ⟨h', -⟩ <;> omega
  · intro hw2 hx c hc hnil
    have hpos := List.length_pos_of_ne_nil hx
    have : 0 < x.length / (x.length / w + 1) := by
      apply Nat.div_pos _ hk
      have : x.length / w < x.length := Nat.div_lt_self hpos hw2
      omega
    subst hnil
    rcases hmem [] hc with h | ⟨h, -⟩ <;> simp at h <;> omega

example : tsChunks [1, 2, 3, 4, 5] 2 = [[1, 2], [3, 4], [5]] := by
  simp [tsChunks, arraySplitSizes, splitSizes, List.range_succ]

/-- **C109 (chunk length) is violated.**  The chunks do not have the length of the window: a series of two windows is
split into three chunks. -/
theorem C109_chunk_length_violated : ∃ x : List ℝ, x.length = 2 * 3 ∧ ∀ c ∈ tsChunks x 3, c.length ≠ 3 := by
  refine ⟨[1, 2, 3, 4, 5, 6], rfl, ?_⟩
  intro c hc
  simp [tsChunks, arraySplitSizes, splitSizes, List.range_succ] at hc
  rcases hc with rfl | rfl | rfl <;> simp

theorem mapM_chunk (f : List ℝ → ℝ) (cs : List (List ℝ)) (h : ∀ c ∈ cs, c ≠ []) :
    (cs.mapM fun l => if l = [] then none else some (f l)) = some (cs.map f) := by
  induction cs with
  | nil => rfl
  | cons c cs ih =>
    rw [List.mapM_cons, if_neg (h c (by simp)), ih fun d hd => h d (by simp [hd])]
    rfl

theorem lumpiness_eq (x : List ℝ) (w : Nat) (hw : 2 ≤ w) (hx : x ≠ []) :
    getLumpiness x w = .ok (some (varOf ((tsChunks x w).map varOf))) := by
  obtain ⟨-, -, -, -, h⟩ := C109_chunks x w (by omega)
  unfold getLumpiness
  rw [if_neg (by omega)]
  have := mapM_chunk varOf (tsChunks x w) (h hw hx)
  unfold chunkVar
  rw [this]
  rfl

theorem stability_eq (x : List ℝ) (w : Nat) (hw : 2 ≤ w) (hx : x ≠ []) :
    getStability x w = .ok (some (varOf ((tsChunks x w).map meanOf))) := by
  obtain ⟨-, -, -, -, h⟩ := C109_chunks x w (by omega)
  unfold getStability
  rw [if_neg (by omega)]
  have := mapM_chunk meanOf (tsChunks x w) (h hw hx)
  unfold chunkMean
  rw [this]
  rfl

theorem meanOf_affine (a b : ℝ) (l : List ℝ) (hl : l ≠ []) : meanOf (l.map fun v => a * v + b) = a * meanOf l + b := by
  have hpos : (l.length : ℝ) ≠ 0 := by exact_mod_cast (List.length_pos_of_ne_nil hl).ne'
  have : ∀ l : List ℝ, (l.map fun v => a * v + b).sum = a * l.sum + l.length * b := by
    intro l
    induction l with
    | nil => simp
    | cons c l ih =>
      simp only [List.map_cons, List.sum_cons, List.length_cons, ih]
      push_cast
      ring
  unfold meanOf
  rw [this, List.length_map]
  field_simp

theorem varOf_affine (a b : ℝ) (l : List ℝ) : varOf (l.map fun v => a * v + b) = a ^ 2 * varOf l := by
  by_cases hl : l = []
  · subst hl; simp [varOf, meanOf]
  unfold varOf
  rw [meanOf_affine a b l hl, List.map_map, ← meanOf_smul (a ^ 2), List.map_map]
  congr 1
  apply List.map_congr_left
  intro x _
  simp only [Function.comp]
  ring

theorem tsChunks_map (f : ℝ → ℝ) (x : List ℝ) (w : Nat) : tsChunks (x.map f) w = (tsChunks x w).map (List.map f) := by
  unfold tsChunks
  rw [List.length_map, splitSizes_map]

/-- **C109 (lumpiness).**  Lumpiness is the variance of the variances of the chunks: not negative, zero for a series
shorter than the window, unchanged by a shift, and multiplied by the fourth power of a factor. -/
theorem C109_lumpiness (x : List ℝ) (w : Nat) (hw : 2 ≤ w) (hx : x ≠ []) :
    ∃ v, getLumpiness x w = .ok (some v) ∧ v = varOf ((tsChunks x w).map varOf) ∧ 0 ≤ v ∧ (x.length < w → v = 0) ∧
      ∀ a b : ℝ, getLumpiness (x.map fun u => a * u + b) w = .ok (some (a ^ 4 * v)) := by
  refine ⟨_, lumpiness_eq x w hw hx, rfl, varOf_nonneg' _, ?_, ?_⟩
  · intro hlt
    obtain ⟨-, h, -⟩ := C109_chunks x w (by omega)
    rw [Nat.div_eq_of_lt hlt] at h
    obtain ⟨c, hc⟩ := List.length_eq_one_iff.1 h
    rw [hc]
    exact varOf_const _ (varOf c) (by simp)
  · intro a b
    rw [lumpiness_eq _ w hw (by simpa using hx), tsChunks_map, List.map_map]
    have : ((tsChunks x w).map (varOf ∘ List.map fun u => a * u + b)) = ((tsChunks x w).map varOf).map (a ^ 2 * ·) := by
      rw [List.map_map]
      apply List.map_congr_left
      intro c _
      exact varOf_affine a b c
    rw [this, varOf_smul]
    congr 2
    ring

/-- The total variance of equally long groups. -/
theorem total_variance (m : Nat) (hm : 0 < m) (cs : List (List ℝ)) (hcs : ∀ c ∈ cs, c.length = m) (hne : cs ≠ []) :
    varOf cs.flatten = varOf (cs.map meanOf) + meanOf (cs.map varOf) := by
  have hm' : (m : ℝ) ≠ 0 := by exact_mod_cast hm.ne'
  have hk : (cs.length : ℝ) ≠ 0 := by exact_mod_cast (List.length_pos_of_ne_nil hne).ne'
  have hlen : (cs.flatten.length : ℝ) = cs.length * m := by
    have : cs.flatten.length = cs.length * m := by
      clear hne hk
      induction cs with
      | nil => simp
      | cons c cs ih =>
        rw [List.flatten_cons, List.length_append, ih fun d hd => hcs d (by simp [hd]), hcs c (by simp), List.length_cons]
        ring
    rw [this]
    push_cast
    ring
  -- the variance about any centre
  have hvar : ∀ (l : List ℝ) (μ : ℝ), l ≠ [] →
      (l.map fun v => (v - μ) ^ 2).sum = l.length * varOf l + l.length * (meanOf l - μ) ^ 2 := by
    intro l μ hl
    have hl' : (l.length : ℝ) ≠ 0 := by exact_mod_cast (List.length_pos_of_ne_nil hl).ne'
    have hexp : ∀ (l : List ℝ) (μ : ℝ), (l.map fun v => (v - μ) ^ 2).sum
        = (l.map fun v => v ^ 2).sum - 2 * μ * l.sum + l.length * μ ^ 2 := by
      intro l μ
      induction l with
      | nil => simp
      | cons c l ih =>
        simp only [List.map_cons, List.sum_cons, List.length_cons, ih]
        push_cast
        ring
    have hv : l.length * varOf l = (l.map fun v => (v - meanOf l) ^ 2).sum := by
      unfold varOf
      conv_lhs => rw [meanOf]
      rw [List.length_map]
      field_simp
    rw [hv, hexp, hexp]
    have hs : l.sum = l.length * meanOf l := by
      unfold meanOf
      field_simp
    rw [hs]
    ring
  have hsum : cs.flatten.sum = m * (cs.map meanOf).sum := by
    clear hne hk hlen
    induction cs with
    | nil => simp
    | cons c cs ih =>
      rw [List.flatten_cons, List.sum_append, ih fun d hd => hcs d (by simp [hd]), List.map_cons, List.sum_cons]
      have : c.sum = m * meanOf c := by
        unfold meanOf
        rw [hcs c (by simp)]
        field_simp
      rw [this]
      ring
  have hmean : meanOf cs.flatten = meanOf (cs.map meanOf) := by
    unfold meanOf at hsum ⊢
    rw [hsum, hlen, List.length_map]
    field_simp
  have hsq : ∀ μ : ℝ, (cs.flatten.map fun v => (v - μ) ^ 2).sum
      = m * (cs.map varOf).sum + m * ((cs.map meanOf).map fun v => (v - μ) ^ 2).sum := by
    intro μ
    clear hne hk hlen hsum hmean
    induction cs with
    | nil => simp
    | cons c cs ih =>
      have hc : c ≠ [] := by
        intro hc
        have := hcs c (by simp)
        rw [hc] at this
        simp at this
        omega
      rw [List.flatten_cons, List.map_append, List.sum_append, ih fun d hd => hcs d (by simp [hd]), hvar c μ hc,
        hcs c (by simp)]
      simp only [List.map_cons, List.sum_cons]
      ring
  conv_lhs => rw [varOf]
  rw [hmean]
  conv_lhs => rw [meanOf]
  rw [hsq, List.length_map, hlen]
  have h1 : varOf (cs.map meanOf) = ((cs.map meanOf).map fun v => (v - meanOf (cs.map meanOf)) ^ 2).sum / cs.length := by
    rw [varOf]
    conv_lhs => rw [meanOf]
    rw [List.length_map, List.length_map]
  have h2 : meanOf (cs.map varOf) = (cs.map varOf).sum / cs.length := by
    rw [meanOf, List.length_map]
  rw [h1, h2]
  generalize (cs.map varOf).sum = A
  generalize ((cs.map meanOf).map fun v => (v - meanOf (cs.map meanOf)) ^ 2).sum = B
  field_simp
  ring

/-- **C109 (stability).**  Stability is the variance of the means of the chunks: not negative, zero for a series shorter
than the window, unchanged by a shift, and multiplied by the square of a factor.  If the chunks are equally long, it and
the mean of the variances of the chunks add up to the variance of the series. -/
theorem C109_stability (x : List ℝ) (w : Nat) (hw : 2 ≤ w) (hx : x ≠ []) :
    ∃ v, getStability x w = .ok (some v) ∧ v = varOf ((tsChunks x w).map meanOf) ∧ 0 ≤ v ∧ (x.length < w → v = 0) ∧
      (∀ a b : ℝ, getStability (x.map fun u => a * u + b) w = .ok (some (a ^ 2 * v))) ∧
      (x.length % (x.length / w + 1) = 0 → varOf x = v + meanOf ((tsChunks x w).map varOf)) := by
  obtain ⟨hfl, hlen, hle, -, hnil⟩ := C109_chunks x w (by omega)
  refine ⟨_, stability_eq x w hw hx, rfl, varOf_nonneg' _, ?_, ?_, ?_⟩
  · intro hlt
    rw [Nat.div_eq_of_lt hlt] at hlen
    obtain ⟨c, hc⟩ := List.length_eq_one_iff.1 hlen
    rw [hc]
    exact varOf_const _ (meanOf c) (by simp)
  · intro a b
    rw [stability_eq _ w hw (by simpa using hx), tsChunks_map, List.map_map]
    have : ((tsChunks x w).map (meanOf ∘ List.map fun u => a * u + b))
        = ((tsChunks x w).map meanOf).map fun u => a * u + b := by
      rw [List.map_map]
      apply List.map_congr_left
      intro c hc
      exact meanOf_affine a b c (hnil hw hx c hc)
    rw [this, varOf_affine]
  · intro hmod
    have hcs : ∀ c ∈ tsChunks x w, c.length = x.length / (x.length / w + 1) := by
      intro c hc
      have : c.length ∈ (tsChunks x w).map List.length := List.mem_map.2 ⟨c, hc, rfl⟩
      rw [tsChunks_lengths] at this
      obtain ⟨i, -, hi⟩ := List.mem_map.1 this
      rw [hmod] at hi
      simp at hi
      exact hi.symm
    have hne : tsChunks x w ≠ [] := by
      intro h
      rw [h] at hlen
      simp at hlen
    have hpos : 0 < x.length / (x.length / w + 1) := by
      obtain ⟨c, hc⟩ := List.exists_mem_of_ne_nil _ hne
      rw [← hcs c hc]
      exact List.length_pos_of_ne_nil (hnil hw hx c hc)
    have := total_variance _ hpos _ hcs hne
    rw [hfl] at this
    exact this

/-- Two chunks of two points. -/
example : getStability [1, 3, 5, 7] 3 = .ok (some 4) ∧ ([1, 3, 5, 7] : List ℝ).length % (4 / 3 + 1) = 0 := by
  constructor
  · rw [stability_eq _ _ (by norm_num) (by simp)]
    simp [tsChunks, arraySplitSizes, splitSizes, List.range_succ, meanOf, varOf]
    norm_num
  · rfl

/-- **C109 (window of one point) is violated.**  With a window of one point there are more chunks than points, and both
features are NaN. -/
theorem C109_window_one_violated (x : List ℝ) :
    getLumpiness x 1 = .ok none ∧ getStability x 1 = .ok none := by
  have hlast : [] ∈ tsChunks x 1 := by
    by_contra hcon
    obtain ⟨hfl, hlen, -, -, -⟩ := C109_chunks x 1 (by omega)
    have hall : ∀ cs : List (List ℝ), [] ∉ cs → cs.length ≤ cs.flatten.length := by
      intro cs
      induction cs with
      | nil => simp
      | cons c cs ih =>
        intro h
        have h1 : c ≠ [] := fun hc => h (by simp [hc])
        have h2 := ih (fun hc => h (by simp [hc]))
        have h3 := List.length_pos_of_ne_nil h1
        simp only [List.length_cons, List.flatten_cons, List.length_append]
        omega
    have := hall _ hcon
    rw [hfl, hlen] at this
    simp at this
  have hnone : ∀ (f : List ℝ → Option ℝ) (hf : f [] = none) (cs : List (List ℝ)), [] ∈ cs → cs.mapM f = none := by
    intro f hf cs
    induction cs with
    | nil => simp
    | cons c cs ih =>
      intro h
      rw [List.mapM_cons]
      rcases List.mem_cons.1 h with h | h
      · rw [← h, hf]; rfl
      · rw [ih h]
        cases f c <;> rfl
  unfold getLumpiness getStability
  rw [hnone chunkVar (by simp [chunkVar]) _ hlast, hnone chunkMean (by simp [chunkMean]) _ hlast]
  simp

/-! ### Flat spots -/

theorem foldl_max_le {l : List Nat} {m b : Nat} (hm : m ≤ b) (h : ∀ x ∈ l, x ≤ b) : l.foldl max m ≤ b := by
  induction l generalizing m with
  | nil => exact hm
  | cons a l ih =>
    rw [List.foldl_cons]
    exact ih (max_le hm (h a (by simp))) fun x hx => h x (by simp [hx])

theorem le_foldl_max (l : List Nat) (m : Nat) : m ≤ l.foldl max m ∧ ∀ x ∈ l, x ≤ l.foldl max m := by
  induction l generalizing m with
  | nil => simp
  | cons a l ih =>
    rw [List.foldl_cons]
    obtain ⟨h1, h2⟩ := ih (max m a)
    refine ⟨le_trans (le_max_left _ _) h1, ?_⟩
    intro x hx
    rcases List.mem_cons.1 hx with rfl | hx
    · exact le_trans (le_max_right _ _) h1
    · exact h2 x hx

theorem nat_foldl_max_mem (l : List Nat) (m : Nat) : l.foldl max m = m ∨ l.foldl max m ∈ l := by
  induction l generalizing m with
  | nil => simp
  | cons a l ih =>
    rw [List.foldl_cons]
    rcases ih (max m a) with h | h
    · rcases max_choice m a with h' | h'
      · left; rw [h, h']
      · right; rw [h, h']; simp
    · right; exact List.mem_cons_of_mem _ h

theorem groupLens_mem {α : Type} [DecidableEq α] (n : Nat) (l : List α) (hl : l.length ≤ n) :
    ∀ r ∈ groupLens l, 1 ≤ r ∧ ∃ a, List.replicate r a <:+: l := by
  induction n generalizing l with
  | zero =>
    have : l = [] := List.eq_nil_of_length_eq_zero (by omega)
    subst this
    simp [groupLens]
  | succ n ih =>
    cases l with
    | nil => simp [groupLens]
    | cons a t =>
      intro r hr
      rw [groupLens] at hr
      have htw : t.takeWhile (fun b => decide (b = a)) = List.replicate (t.takeWhile fun b => decide (b = a)).length a := by
        rw [List.eq_replicate_iff]
        refine ⟨rfl, fun b hb => ?_⟩
        have := List.mem_takeWhile_imp hb
        simpa using this
      rcases List.mem_cons.1 hr with rfl | hr
      · refine ⟨by omega, a, ?_⟩
        refine ⟨[], t.dropWhile fun b => decide (b = a), ?_⟩
        rw [Nat.add_comm, List.replicate_succ, ← htw, List.nil_append, List.cons_append, List.takeWhile_append_dropWhile]
      · have hlen := (List.dropWhile_sublist (l := t) fun b => decide (b = a)).length_le
        simp only [List.length_cons] at hl
        obtain ⟨h1, b, h2⟩ := ih _ (by omega) r hr
        refine ⟨h1, b, h2.trans ?_⟩
        exact ((List.dropWhile_suffix _).isInfix).trans (List.suffix_cons a t).isInfix

theorem groupLens_ge {α : Type} [DecidableEq α] (n : Nat) (l : List α) (hl : l.length ≤ n) (m : Nat) (b : α)
    (h : List.replicate m b <:+: l) : m = 0 ∨ ∃ r ∈ groupLens l, m ≤ r := by
  induction n generalizing l with
  | zero =>
    have : l = [] := List.eq_nil_of_length_eq_zero (by omega)
    subst this
    left
    have := h.length_le
    simpa using this
  | succ n ih =>
    cases l with
    | nil =>
      left
      have := h.length_le
      simpa using this
    | cons a t =>
      by_cases hm : m = 0
      · exact Or.inl hm
      right
      rw [groupLens]
      obtain ⟨p, q, hpq⟩ := h
      set tw := t.takeWhile fun b => decide (b = a) with htw
      set dw := t.dropWhile fun b => decide (b = a) with hdw
      have hsplit : t = tw ++ dw := (List.takeWhile_append_dropWhile).symm
      have htwa : ∀ c ∈ tw, c = a := fun c hc => by
        have := List.mem_takeWhile_imp hc
        simpa using this
      by_cases hp : 1 + tw.length ≤ p.length
      · -- inside the rest
        have hd : dw = p.drop (1 + tw.length) ++ List.replicate m b ++ q := by
          have h1 : (p ++ List.replicate m b ++ q).drop (1 + tw.length) = dw := by
            rw [hpq, hsplit, Nat.add_comm, List.drop_succ_cons, List.drop_left]
          rw [← h1, List.append_assoc, List.drop_append_of_le_length hp, List.append_assoc]
        have hlen : dw.length ≤ n := by
          have := (List.dropWhile_sublist (l := t) fun b => decide (b = a)).length_le
          rw [← hdw] at this
          simp only [List.length_cons] at hl
          omega
        rcases ih dw hlen ⟨_, _, hd.symm⟩ with h | ⟨r, hr, hmr⟩
        · exact absurd h hm
        · exact ⟨r, List.mem_cons_of_mem _ hr, hmr⟩
      · -- within the first run
        refine ⟨1 + tw.length, by simp, ?_⟩
        by_contra hlt
        push Not at hp hlt
        -- the element right after the run is in the block
        have hget : ∀ i : Nat, p.length ≤ i → i < p.length + m → (a :: t)[i]? = some b := by
          intro i h1 h2
          rw [← hpq, List.append_assoc, List.getElem?_append_right h1,
            List.getElem?_append_left (by simp; omega), List.getElem?_replicate]
          simp; omega
        have hrun : ∀ i : Nat, i < 1 + tw.length → (a :: t)[i]? = some a := by
          intro i hi
          cases i with
          | zero => rfl
          | succ i =>
            rw [List.getElem?_cons_succ, hsplit, List.getElem?_append_left (by omega)]
            have : tw[i]? = some tw[i] := List.getElem?_eq_getElem (by omega)
            rw [this, htwa _ (List.getElem_mem _)]
        have hab : b = a := by
          have h1 := hget p.length le_rfl (by omega)
          have h2 := hrun p.length (by omega)
          rw [h1] at h2
          injection h2
        have h3 := hget (1 + tw.length) (by omega) (by omega)
        rw [Nat.add_comm, List.getElem?_cons_succ, hsplit, List.getElem?_append_right le_rfl, Nat.sub_self] at h3
        cases hdw0 : dw with
        | nil => rw [hdw0] at h3; simp at h3
        | cons c d =>
          rw [hdw0] at h3
          simp only [List.getElem?_cons_zero, Option.some.injEq] at h3
          have hc := List.head?_dropWhile_not (fun b => decide (b = a)) t
          rw [← hdw, hdw0] at hc
          simp only [List.head?_cons] at hc
          rw [h3, hab] at hc
          simp at hc

/-- The largest run length is the length of the longest constant block. -/
theorem maxRun_spec {α : Type} [DecidableEq α] (l : List α) (hl : l ≠ []) :
    1 ≤ maxRun l ∧ (∃ a, List.replicate (maxRun l) a <:+: l) ∧ ∀ m b, List.replicate m b <:+: l → m ≤ maxRun l := by
  have h1 : ∀ m b, List.replicate m b <:+: l → m ≤ maxRun l := by
    intro m b h
    rcases groupLens_ge l.length l le_rfl m b h with h | ⟨r, hr, hmr⟩
    · omega
    · exact le_trans hmr ((le_foldl_max _ _).2 r hr)
  have h2 : 1 ≤ maxRun l := by
    cases l with
    | nil => exact absurd rfl hl
    | cons a t => exact h1 1 a ⟨[], t, rfl⟩
  refine ⟨h2, ?_, h1⟩
  rcases nat_foldl_max_mem (groupLens l) 0 with h | h
  · unfold maxRun at h2
    omega
  · exact (groupLens_mem l.length l le_rfl _ h).2

theorem tsSegments_flatten {α : Type} (x : List α) (w : Nat) (hw : 0 < w) : (tsSegments x w).flatten = x := by
  have h : ∀ k, ((List.range k).map fun i : Nat => (x.drop (i * w)).take w).flatten = x.take (k * w) := by
    intro k
    induction k with
    | zero => simp
    | succ k ih =>
      rw [List.range_succ, List.map_append, List.flatten_append, ih, Nat.add_mul, Nat.one_mul, List.take_add]
      simp
  unfold tsSegments
  rw [h, List.take_of_length_le]
  have := Nat.lt_mul_div_succ (x.length + w - 1) hw
  have h2 : w * ((x.length + w - 1) / w + 1) = w * ((x.length + w - 1) / w) + w := by ring
  rw [Nat.mul_comm]
  omega

theorem tsSegments_ne {α : Type} (x : List α) (w : Nat) (hw : 0 < w) : ∀ s ∈ tsSegments x w, s ≠ [] ∧ s.length ≤ w := by
  intro s hs
  obtain ⟨i, hi, rfl⟩ := List.mem_map.1 hs
  rw [List.mem_range] at hi
  have h1 : i * w < x.length := by
    have h2 := Nat.div_mul_le_self (x.length + w - 1) w
    have h3 : (i + 1) * w ≤ (x.length + w - 1) / w * w := Nat.mul_le_mul_right _ hi
    rw [Nat.add_mul, Nat.one_mul] at h3
    omega
  refine ⟨?_, by simp⟩
  intro h
  have := congrArg List.length h
  simp at this
  omega

/-- **C109 (flat spots).**  For a series longer than the number of bins, the segments are consecutive and make up the
series; the feature is the length of the longest block of equal values within a segment: such a block exists, and none
is longer. -/
theorem C109_flat (x : List ℝ) (nbins : Nat) (hb : 0 < nbins) (hx : nbins < x.length) :
    ∃ L, getFlatSpots x nbins = .ok (some L) ∧ (tsSegments x (x.length / nbins)).flatten = x ∧
      1 ≤ L ∧ L ≤ x.length / nbins ∧
      (∃ s ∈ tsSegments x (x.length / nbins), ∃ a, List.replicate L a <:+: s) ∧
      ∀ s ∈ tsSegments x (x.length / nbins), ∀ m a, List.replicate m a <:+: s → m ≤ L := by
  have hw : 0 < x.length / nbins := Nat.div_pos hx.le hb
  set w := x.length / nbins with hwdef
  have hfold : ∀ (l : List Nat) (m : Nat), l.foldl (fun m r => if r > m then r else m) m = l.foldl max m := by
    intro l
    induction l with
    | nil => intro m; rfl
    | cons a l ih =>
      intro m
      rw [List.foldl_cons, List.foldl_cons, ih]
      congr 1
      split <;> omega
  have hne : tsSegments x w ≠ [] := by
    intro h
    have := tsSegments_flatten x w hw
    rw [h] at this
    simp at this
    rw [this] at hx
    simp at hx
  set L := ((tsSegments x w).map maxRun).foldl max 0 with hL
  have hle : ∀ s ∈ tsSegments x w, maxRun s ≤ L :=
    fun s hs => (le_foldl_max _ _).2 _ (List.mem_map.2 ⟨s, hs, rfl⟩)
  obtain ⟨s0, hs0⟩ := List.exists_mem_of_ne_nil _ hne
  have h1 : 1 ≤ L := le_trans (maxRun_spec s0 (tsSegments_ne x w hw s0 hs0).1).1 (hle s0 hs0)
  obtain ⟨s, hs, hsL⟩ : ∃ s ∈ tsSegments x w, maxRun s = L := by
    rcases nat_foldl_max_mem ((tsSegments x w).map maxRun) 0 with h | h
    · omega
    · obtain ⟨s, hs, h⟩ := List.mem_map.1 h
      exact ⟨s, hs, h⟩
  obtain ⟨-, ⟨a, ha⟩, -⟩ := maxRun_spec s (tsSegments_ne x w hw s hs).1
  rw [hsL] at ha
  refine ⟨L, ?_, tsSegments_flatten x w hw, h1, ?_, ⟨s, hs, a, ha⟩, ?_⟩
  · unfold getFlatSpots
    rw [if_neg (by omega), if_neg (by omega), hfold]
  · have := ha.length_le
    rw [List.length_replicate] at this
    exact le_trans this (tsSegments_ne x w hw s hs).2
  · intro s' hs' m b hb'
    exact le_trans ((maxRun_spec s' (tsSegments_ne x w hw s' hs').1).2.2 m b hb') (hle s' hs')

example : (2 : Nat) < ([1, 1, 2, 2, 2, 2] : List ℝ).length ∧ tsSegments ([1, 1, 2, 2, 2, 2] : List ℝ) 3 = [[1, 1, 2], [2, 2, 2]] := by
  constructor
  · simp
  · simp [tsSegments, List.range_succ]

/-- **C109 (flat spots, short series).**  The feature is NaN exactly when there are no more points than bins. -/
theorem C109_flat_nan (x : List ℝ) (nbins : Nat) : getFlatSpots x nbins = .ok none ↔ x.length ≤ nbins := by
  unfold getFlatSpots
  by_cases h : x.length ≤ nbins
  · simp [h]
  · rw [if_neg h]
    split <;> simp [h]

example : getFlatSpots [1, 2] 2 = .ok none := (C109_flat_nan _ _).2 (by simp)

/-- **C109 (flat spots of short series) is violated.**  If a series has more points than bins but fewer than twice as
many, every segment is a single point and the feature is one, even for a constant series. -/
theorem C109_flat_short_violated (x : List ℝ) (nbins : Nat) (h1 : nbins < x.length) (h2 : x.length < 2 * nbins) :
    getFlatSpots x nbins = .ok (some 1) ∧ (tsSegments x (x.length / nbins)).length = x.length := by
  have hb : 0 < nbins := by omega
  have hw : x.length / nbins = 1 := by
    rw [Nat.div_eq_iff hb]
    omega
  obtain ⟨L, hL, -, h3, h4, -⟩ := C109_flat x nbins hb h1
  rw [hw] at h4 ⊢
  refine ⟨?_, ?_⟩
  · rw [hL]
    congr 2
    omega
  · simp [tsSegments]

example : getFlatSpots (List.replicate 19 7) 10 = .ok (some 1) :=
  (C109_flat_short_violated (List.replicate 19 7) 10 (by simp) (by simp)).1

end

end Kats
