import Verif.Model.RollingStats
import Mathlib.Data.List.GetD
import Mathlib.Tactic.FieldSimp
import Mathlib.Tactic.Linarith
import Mathlib.Tactic.Ring

/-!
# The statistics of `RollingStatsModel`: C91 and C93
-/

namespace Kats

noncomputable section
open Classical

/-! ## Order statistics -/

theorem insSort_mono (l : List ℝ) {i j : Nat} (hij : i ≤ j) (hj : j < l.length) :
    (l.insertionSort (· ≤ ·)).getD i 0 ≤ (l.insertionSort (· ≤ ·)).getD j 0 := by
  have hl : (l.insertionSort (· ≤ ·)).length = l.length := List.length_insertionSort _ _
  rw [List.getD_eq_getElem _ _ (by omega), List.getD_eq_getElem _ _ (by omega)]
  rcases Nat.lt_or_ge i j with h | h
  · exact List.pairwise_iff_getElem.1 (List.pairwise_insertionSort (· ≤ ·) l) i j (by omega) (by omega) h
  · have : i = j := by omega
    subst this; exact le_refl _

theorem countP_sort (l : List ℝ) (p : ℝ → Bool) :
    (l.insertionSort (· ≤ ·)).countP p = l.countP p :=
  (List.perm_insertionSort (· ≤ ·) l).countP_eq p

/-- At least `i + 1` values are at most anything above the `i`-th smallest one. -/
theorem count_le (l : List ℝ) {i : Nat} (hi : i < l.length) {x : ℝ}
    (hx : (l.insertionSort (· ≤ ·)).getD i 0 ≤ x) : i + 1 ≤ l.countP fun y => decide (y ≤ x) := by
  have hl : (l.insertionSort (· ≤ ·)).length = l.length := List.length_insertionSort _ _
  rw [← countP_sort]
  rw [← List.take_append_drop (i + 1) (l.insertionSort (· ≤ ·)), List.countP_append]
  have : ((l.insertionSort (· ≤ ·)).take (i + 1)).countP (fun y => decide (y ≤ x)) = i + 1 := by
    rw [List.countP_eq_length.2, List.length_take]
    · omega
    · intro y hy
      obtain ⟨j, hj, rfl⟩ := List.getElem_of_mem hy
      rw [List.length_take] at hj
      rw [List.getElem_take]
      have := insSort_mono l (i := j) (j := i) (by omega) hi
      rw [List.getD_eq_getElem _ _ (by omega)] at this
      exact decide_eq_true (this.trans hx)
  omega

/-- At least `n - i` values are at least anything below the `i`-th smallest one. -/
theorem count_ge (l : List ℝ) {i : Nat} (hi : i < l.length) {x : ℝ}
    (hx : x ≤ (l.insertionSort (· ≤ ·)).getD i 0) : l.length - i ≤ l.countP fun y => decide (x ≤ y) := by
  have hl : (l.insertionSort (· ≤ ·)).length = l.length := List.length_insertionSort _ _
  rw [← countP_sort]
  rw [← List.take_append_drop i (l.insertionSort (· ≤ ·)), List.countP_append]
  have : ((l.insertionSort (· ≤ ·)).drop i).countP (fun y => decide (x ≤ y)) = l.length - i := by
    rw [List.countP_eq_length.2, List.length_drop]
    · omega
    · intro y hy
      obtain ⟨j, hj, rfl⟩ := List.getElem_of_mem hy
      rw [List.length_drop] at hj
      rw [List.getElem_drop]
      have := insSort_mono l (i := i) (j := i + j) (by omega) (by omega)
      rw [List.getD_eq_getElem (n := i + j) _ _ (by omega)] at this
      exact decide_eq_true (hx.trans this)
  omega

/-- The two neighbours of a percentile. -/
theorem percentileR_between (l : List ℝ) (q : Nat) (hl : l ≠ []) :
    (l.insertionSort (· ≤ ·)).getD ((l.length - 1) * q / 100) 0 ≤ percentileR q l ∨ 100 < q := by
  by_cases hq : 100 < q
  · exact Or.inr hq
  left
  have hpos := List.length_pos_iff.2 hl
  have hi : (l.length - 1) * q / 100 ≤ l.length - 1 := by
    apply Nat.div_le_of_le_mul
    rw [Nat.mul_comm 100]
    exact Nat.mul_le_mul_left _ (by omega)
  unfold percentileR
  dsimp only
  rw [List.length_insertionSort]
  have h1 := insSort_mono l (i := (l.length - 1) * q / 100)
    (j := min ((l.length - 1) * q / 100 + 1) (l.length - 1)) (by omega) (by omega)
  have h2 : (0 : ℝ) ≤ (((l.length - 1) * q % 100 : Nat) : ℝ) / 100 := by positivity
  nlinarith [mul_nonneg h2 (sub_nonneg.2 h1)]

/-- C91, percentiles: more than `q (n-1) / 100` of the values are at most the `q`-th percentile and more
than `(100-q) (n-1) / 100` of them are at least the percentile. -/
theorem C91_percentile (l : List ℝ) (q : Nat) (hl : l ≠ []) (hq : q ≤ 100) :
    q * (l.length - 1) < 100 * (l.countP fun y => decide (y ≤ percentileR q l)) ∧
    (100 - q) * (l.length - 1) < 100 * (l.countP fun y => decide (percentileR q l ≤ y)) := by
  have hpos := List.length_pos_iff.2 hl
  have hi : (l.length - 1) * q / 100 ≤ l.length - 1 := by
    apply Nat.div_le_of_le_mul
    rw [Nat.mul_comm 100]
    exact Nat.mul_le_mul_left _ (by omega)
  have hdm := Nat.div_add_mod ((l.length - 1) * q) 100
  have hml := Nat.mod_lt ((l.length - 1) * q) (show 0 < 100 by norm_num)
  have hcomm : (100 - q) * (l.length - 1) + (l.length - 1) * q = 100 * (l.length - 1) := by
    rw [Nat.mul_comm (l.length - 1) q, ← Nat.add_mul]; congr 1; omega
  constructor
  · have h := count_le l (i := (l.length - 1) * q / 100) (by omega)
      ((percentileR_between l q hl).resolve_right (by omega))
    rw [Nat.mul_comm q]
    omega
  · have hmono := insSort_mono l (i := (l.length - 1) * q / 100)
      (j := min ((l.length - 1) * q / 100 + 1) (l.length - 1)) (by omega) (by omega)
    by_cases hz : (l.length - 1) * q % 100 = 0
    · have he : percentileR q l = (l.insertionSort (· ≤ ·)).getD ((l.length - 1) * q / 100) 0 := by
        unfold percentileR
        dsimp only
        rw [List.length_insertionSort, hz]; simp
      have h := count_ge l (i := (l.length - 1) * q / 100) (by omega) he.le
      omega
    · have hlt : (l.length - 1) * q / 100 + 1 ≤ l.length - 1 := by
        by_contra hc
        have : (l.length - 1) * q / 100 = l.length - 1 := by omega
        rw [this] at hdm
        have := Nat.mul_le_mul_left (l.length - 1) hq
        omega
      have he : percentileR q l ≤ (l.insertionSort (· ≤ ·)).getD ((l.length - 1) * q / 100 + 1) 0 := by
        unfold percentileR
        dsimp only
        rw [List.length_insertionSort]
        rw [Nat.min_eq_left hlt] at hmono ⊢
        have h2 : (((l.length - 1) * q % 100 : Nat) : ℝ) / 100 ≤ 1 := by
          rw [div_le_one (by norm_num)]
          exact_mod_cast hml.le
        nlinarith [mul_nonneg (sub_nonneg.2 h2) (sub_nonneg.2 hmono)]
      have h := count_ge l (i := (l.length - 1) * q / 100 + 1) (by omega) he
      omega

/-- C91, median: at least half of the values are at most the median and at least half are at least it. -/
theorem C91_median (l : List ℝ) (hl : l ≠ []) :
    l.length ≤ 2 * (l.countP fun y => decide (y ≤ medianR l)) ∧
    l.length ≤ 2 * (l.countP fun y => decide (medianR l ≤ y)) := by
  have hpos := List.length_pos_iff.2 hl
  have hmono := insSort_mono l (i := (l.length - 1) / 2) (j := l.length / 2) (by omega) (by omega)
  have he : medianR l = ((l.insertionSort (· ≤ ·)).getD ((l.length - 1) / 2) 0 +
      (l.insertionSort (· ≤ ·)).getD (l.length / 2) 0) / 2 := by
    unfold medianR; dsimp only; rw [List.length_insertionSort]
  constructor
  · have := count_le l (i := (l.length - 1) / 2) (x := medianR l) (by omega) (by rw [he]; linarith)
    omega
  · have := count_ge l (i := l.length / 2) (x := medianR l) (by omega) (by rw [he]; linarith)
    omega

/-- The order of the values does not matter. -/
theorem C91_perm {l l' : List ℝ} (h : l.Perm l') :
    (∀ q, percentileR q l = percentileR q l') ∧ medianR l = medianR l' := by
  have e : l.insertionSort (· ≤ ·) = l'.insertionSort (· ≤ ·) :=
    List.Perm.eq_of_pairwise (fun a b _ _ h1 h2 => le_antisymm h1 h2)
      (List.pairwise_insertionSort _ _) (List.pairwise_insertionSort _ _)
      (((List.perm_insertionSort _ _).trans h).trans (List.perm_insertionSort _ _).symm)
  constructor
  · intro q; unfold percentileR; rw [e]
  · unfold medianR; rw [e]

/-! ## Affine changes of the unit -/

theorem sort_affine (l : List ℝ) {a b : ℝ} (hb : 0 < b) :
    (l.map fun x => a + b * x).insertionSort (· ≤ ·) =
      (l.insertionSort (· ≤ ·)).map fun x => a + b * x := by
  symm
  apply List.map_insertionSort
  intro x _ y _
  constructor
  · intro h; nlinarith [mul_le_mul_of_nonneg_left h hb.le]
  · intro h
    have : b * x ≤ b * y := by linarith
    exact le_of_mul_le_mul_left this hb

theorem getD_affine (l : List ℝ) (a b : ℝ) {i : Nat} (hi : i < l.length) :
    (l.map fun x => a + b * x).getD i 0 = a + b * l.getD i 0 := by
  rw [List.getD_eq_getElem _ _ (by simpa using hi), List.getD_eq_getElem _ _ hi]
  simp

theorem percentileR_affine (l : List ℝ) (hl : l ≠ []) {q : Nat} (hq : q ≤ 100) {a b : ℝ} (hb : 0 < b) :
    percentileR q (l.map fun x => a + b * x) = a + b * percentileR q l := by
  have hpos := List.length_pos_iff.2 hl
  have hi : (l.length - 1) * q / 100 ≤ l.length - 1 := by
    apply Nat.div_le_of_le_mul
    rw [Nat.mul_comm 100]
    exact Nat.mul_le_mul_left _ (by omega)
  unfold percentileR
  dsimp only
  rw [sort_affine l hb, List.length_map, List.length_insertionSort, getD_affine, getD_affine]
  · ring
  · rw [List.length_insertionSort]; omega
  · rw [List.length_insertionSort]; omega

theorem medianR_affine (l : List ℝ) (hl : l ≠ []) {a b : ℝ} (hb : 0 < b) :
    medianR (l.map fun x => a + b * x) = a + b * medianR l := by
  have hpos := List.length_pos_iff.2 hl
  unfold medianR
  dsimp only
  rw [sort_affine l hb, List.length_map, List.length_insertionSort, getD_affine, getD_affine]
  · ring
  · rw [List.length_insertionSort]; omega
  · rw [List.length_insertionSort]; omega

theorem meanR_affine (l : List ℝ) (hl : l ≠ []) (a b : ℝ) :
    mean (l.map fun x => a + b * x) = a + b * mean l := by
  have hpos : (0 : ℝ) < l.length := by exact_mod_cast List.length_pos_iff.2 hl
  have hsum : ∀ l : List ℝ, (l.map fun x => a + b * x).sum = l.length * a + b * l.sum := by
    intro l
    induction l with
    | nil => simp
    | cons x l ih => simp only [List.map_cons, List.sum_cons, ih, List.length_cons]; push_cast; ring
  unfold mean
  rw [hsum, List.length_map]
  field_simp

theorem npStd_affine (l : List ℝ) (hl : l ≠ []) (a b : ℝ) (hb : 0 ≤ b) :
    npStd (l.map fun x => a + b * x) = b * npStd l := by
  have hsq : ∀ (l : List ℝ) (m : ℝ), sqDev (l.map fun x => a + b * x) (a + b * m) = b ^ 2 * sqDev l m := by
    intro l m
    unfold sqDev
    induction l with
    | nil => simp
    | cons x l ih =>
      simp only [List.map_cons, List.sum_cons] at ih ⊢
      rw [ih]; ring
  unfold npStd
  rw [meanR_affine l hl, hsq, List.length_map, mul_div_assoc, Real.sqrt_mul (by positivity),
    Real.sqrt_sq hb]

/-- `a + b x` for every value that is not missing. -/
def affineRow (a b : ℝ) (l : List (Option ℝ)) : List (Option ℝ) := l.map fun o => o.map fun x => a + b * x

theorem nanVals_affine (a b : ℝ) (l : List (Option ℝ)) :
    nanVals (affineRow a b l) = (nanVals l).map fun x => a + b * x := by
  unfold nanVals affineRow
  induction l with
  | nil => rfl
  | cons o l ih =>
    cases o with
    | none => simpa using ih
    | some x => simpa using ih

theorem nanRed_affine (f : List ℝ → ℝ) (g : ℝ → ℝ) (a b : ℝ)
    (h : ∀ l, l ≠ [] → f (l.map fun x => a + b * x) = g (f l)) (l : List (Option ℝ)) :
    nanRed f (affineRow a b l) = (nanRed f l).map g := by
  unfold nanRed
  rw [nanVals_affine]
  by_cases hl : nanVals l = []
  · simp [hl]
  · rw [if_neg (by simpa using hl), if_neg hl, h _ hl]; rfl

theorem deviation_affine (a b : ℝ) (hb : 0 < b) (x m d : Option ℝ) :
    deviation (x.map fun x => a + b * x) (m.map fun x => a + b * x) (d.map fun x => b * x) =
      deviation x m d := by
  cases d with
  | none => rfl
  | some d =>
    by_cases hd : d = 0
    · simp [deviation, hd]
    · have : b * d ≠ 0 := mul_ne_zero hb.ne' hd
      cases x <;> cases m <;> simp [deviation, hd, this, hb.ne']
      field_simp

theorem dropLast_affine (a b : ℝ) (l : List (Option ℝ)) :
    (affineRow a b l).dropLast = affineRow a b l.dropLast := by
  simp [affineRow, List.map_dropLast]

theorem lastEntry_affine (a b : ℝ) (l : List (Option ℝ)) :
    lastEntry (affineRow a b l) = (lastEntry l).map fun x => a + b * x := by
  unfold lastEntry affineRow
  rw [List.getLastD_eq_getLast?, List.getLastD_eq_getLast?, List.getLast?_map]
  cases l.getLast? <;> rfl

theorem mad_affine (a b : ℝ) (hb : 0 < b) (l : List (Option ℝ)) :
    calcMad (affineRow a b l) = (calcMad l).map fun x => b * x := by
  apply nanRed_affine
  intro v hv
  rw [medianR_affine v hv hb, List.map_map]
  have : ((fun x => |x - (a + b * medianR v)|) ∘ fun x => a + b * x) =
      (fun x => 0 + b * x) ∘ fun x => |x - medianR v| := by
    funext x
    simp only [Function.comp]
    rw [show a + b * x - (a + b * medianR v) = b * (x - medianR v) by ring, abs_mul, abs_of_pos hb]
    ring
  rw [this, ← List.map_map, medianR_affine _ (by simpa using hv) hb]
  ring

theorem iqr_affine (a b : ℝ) (hb : 0 < b) (l : List (Option ℝ)) :
    calcIqr (affineRow a b l) = (calcIqr l).map fun x => b * x := by
  apply nanRed_affine
  intro v hv
  rw [percentileR_affine v hv (by norm_num) hb, percentileR_affine v hv (by norm_num) hb]
  ring

/-- C91, units: the scores of the z-score family do not depend on the unit or the origin of the data,
and the spreads are measured in the unit of the data. -/
theorem C91_affine (s : RSStat) (base a b : ℝ) (hb : 0 < b) (row : List (Option ℝ)) :
    (s = .zScore ∨ s = .modZMad ∨ s = .modZIqr → s.score base (affineRow a b row) = s.score base row) ∧
    (s = .iqr ∨ s = .mad → s.score base (affineRow a b row) = (s.score base row).map fun x => b * x) := by
  constructor
  · rintro (rfl | rfl | rfl)
    · show calcZ _ = calcZ _
      unfold calcZ
      rw [dropLast_affine, lastEntry_affine,
        nanRed_affine mean (fun x => a + b * x) a b (fun l hl => meanR_affine l hl a b),
        nanRed_affine npStd (fun x => b * x) a b (fun l hl => npStd_affine l hl a b hb.le),
        deviation_affine a b hb]
    · show calcModZMad _ = calcModZMad _
      unfold calcModZMad
      rw [dropLast_affine, lastEntry_affine, mad_affine a b hb,
        nanRed_affine medianR (fun x => a + b * x) a b (fun l hl => medianR_affine l hl hb),
        deviation_affine a b hb]
    · show calcModZIqr _ = calcModZIqr _
      unfold calcModZIqr
      rw [dropLast_affine, lastEntry_affine, iqr_affine a b hb,
        nanRed_affine medianR (fun x => a + b * x) a b (fun l hl => medianR_affine l hl hb),
        deviation_affine a b hb]
  · rintro (rfl | rfl)
    · exact iqr_affine a b hb row
    · exact mad_affine a b hb row

/-! ## Values -/

theorem dropLast_snoc (past : List (Option ℝ)) (x : Option ℝ) : (past ++ [x]).dropLast = past := by
  simp

theorem lastEntry_snoc (past : List (Option ℝ)) (x : Option ℝ) : lastEntry (past ++ [x]) = x := by
  simp [lastEntry]

/-- C91, z-score: the distance of the point from the mean of the values before it, in standard
deviations of those values; missing values are left out. -/
theorem C91_z (base : ℝ) (past : List (Option ℝ)) (x μ σ : ℝ) (hne : past.filterMap id ≠ [])
    (hμ : μ * (past.filterMap id).length = (past.filterMap id).sum) (hσ : 0 < σ)
    (hσ2 : σ ^ 2 * (past.filterMap id).length = ((past.filterMap id).map fun y => (y - μ) ^ 2).sum) :
    RSStat.zScore.score base (past ++ [some x]) = some ((x - μ) / σ) := by
  show calcZ _ = _
  have hpos : (0 : ℝ) < (past.filterMap id).length := by exact_mod_cast List.length_pos_iff.2 hne
  have hm : mean (past.filterMap id) = μ := by
    unfold mean; rw [← hμ]; field_simp
  have hsd : npStd (past.filterMap id) = σ := by
    unfold npStd sqDev
    rw [hm, ← hσ2, mul_div_assoc, div_self hpos.ne', mul_one, Real.sqrt_sq hσ.le]
  unfold calcZ nanRed nanVals
  rw [dropLast_snoc, lastEntry_snoc, if_neg hne, if_neg hne, hm, hsd]
  simp [deviation, hσ.ne']

example : ([some 1, none, some 3] : List (Option ℝ)).filterMap id ≠ [] ∧
    (2 : ℝ) * (([some 1, none, some 3] : List (Option ℝ)).filterMap id).length =
      (([some 1, none, some 3] : List (Option ℝ)).filterMap id).sum ∧
    (1 : ℝ) ^ 2 * (([some 1, none, some 3] : List (Option ℝ)).filterMap id).length =
      ((([some 1, none, some 3] : List (Option ℝ)).filterMap id).map fun y => (y - 2) ^ 2).sum := by
  simp; norm_num

/-- C91, modified z-score: the distance of the point from the median, in units of the median absolute
deviation or of the distance of the quartiles. -/
theorem C91_modified (base : ℝ) (past : List (Option ℝ)) (x : ℝ) (hne : past.filterMap id ≠ []) (v : List ℝ)
    (hv : v = past.filterMap id) :
    (medianR (v.map fun y => |y - medianR v|) ≠ 0 →
      RSStat.modZMad.score base (past ++ [some x]) =
        some ((x - medianR v) / medianR (v.map fun y => |y - medianR v|))) ∧
    (percentileR 75 v ≠ percentileR 25 v →
      RSStat.modZIqr.score base (past ++ [some x]) =
        some ((x - medianR v) / (percentileR 75 v - percentileR 25 v))) := by
  subst hv
  constructor
  · intro h
    show calcModZMad _ = _
    unfold calcModZMad calcMad nanRed nanVals
    rw [dropLast_snoc, lastEntry_snoc, if_neg hne, if_neg hne]
    dsimp only [deviation]
    rw [if_neg h]
  · intro h
    show calcModZIqr _ = _
    unfold calcModZIqr calcIqr nanRed nanVals
    rw [dropLast_snoc, lastEntry_snoc, if_neg hne, if_neg hne]
    dsimp only [deviation]
    rw [if_neg (sub_ne_zero.2 h)]

/-- The spread of a window that contains the point. -/
theorem C91_spread (base : ℝ) (row : List (Option ℝ)) (hne : row.filterMap id ≠ []) :
    RSStat.iqr.score base row = some (percentileR 75 (row.filterMap id) - percentileR 25 (row.filterMap id)) ∧
    RSStat.mad.score base row = some (medianR ((row.filterMap id).map fun y => |y - medianR (row.filterMap id)|)) := by
  show calcIqr _ = _ ∧ calcMad _ = _
  unfold calcIqr calcMad nanRed nanVals
  rw [if_neg hne, if_neg hne]
  exact ⟨rfl, rfl⟩

theorem mean_replicate (n : Nat) (a : ℝ) (hn : 0 < n) : mean (List.replicate n a) = a := by
  have : (0 : ℝ) < n := by exact_mod_cast hn
  unfold mean
  rw [List.sum_replicate, List.length_replicate, nsmul_eq_mul]
  field_simp

/-- C91 is violated where the past is constant: every jump is scored 0, as if nothing had happened. -/
theorem C91_constant_violated (base : ℝ) (n : Nat) (hn : 0 < n) (a x : ℝ) :
    RSStat.zScore.score base (List.replicate n (some a) ++ [some x]) = some 0 := by
  show calcZ _ = _
  have hv : (List.replicate n (some a)).filterMap id = List.replicate n a := by
    rw [← List.map_replicate, List.filterMap_map]
    simp
  have hne : List.replicate n a ≠ [] := by
    intro h; have := congrArg List.length h; simp at this; omega
  unfold calcZ nanRed nanVals
  rw [dropLast_snoc, lastEntry_snoc, hv, if_neg hne, if_neg hne]
  have : npStd (List.replicate n a) = 0 := by
    unfold npStd sqDev
    rw [mean_replicate n a hn, List.map_replicate]
    simp
  rw [this]
  simp [deviation]

example : RSStat.zScore.score 1 (List.replicate 5 (some 1) ++ [some 1000000]) = some 0 :=
  C91_constant_violated 1 5 (by norm_num) _ _

/-- C91, interpolation: between two neighbouring order statistics the percentile moves linearly. -/
theorem C91_interpolation (l w : List ℝ) (hp : l.Perm w) (hw : w.Pairwise (· ≤ ·)) (q i r : Nat)
    (hr : r < 100) (hq : q * (l.length - 1) = 100 * i + r) (x y : ℝ) (hx : w[i]? = some x)
    (hy : w[i + 1]? = some y) : percentileR q l = x + r / 100 * (y - x) := by
  have e : l.insertionSort (· ≤ ·) = w :=
    List.Perm.eq_of_pairwise (fun a b _ _ h1 h2 => le_antisymm h1 h2)
      (List.pairwise_insertionSort _ _) hw ((List.perm_insertionSort _ _).trans hp)
  have hl := hp.length_eq
  obtain ⟨hi, rfl⟩ := List.getElem?_eq_some_iff.1 hx
  obtain ⟨hi', rfl⟩ := List.getElem?_eq_some_iff.1 hy
  unfold percentileR
  dsimp only
  rw [e, Nat.mul_comm, ← hl, hq, show (100 * i + r) / 100 = i by omega,
    show (100 * i + r) % 100 = r by omega, Nat.min_eq_left (by omega),
    List.getD_eq_getElem _ _ hi, List.getD_eq_getElem _ _ hi']

example : percentileR 25 [4, 2, 3] = 2 + 50 / 100 * (3 - 2) := by
  refine C91_interpolation [4, 2, 3] [2, 3, 4] ?_ ?_ 25 0 50 (by norm_num) rfl 2 3 rfl rfl
  · exact (List.perm_append_comm : ([4] ++ [2, 3] : List ℝ).Perm ([2, 3] ++ [4]))
  · norm_num

/-- C91, missing values: without a value before the point, or without the point itself, there is no
score; the exception is a past without spread. -/
theorem C91_missing (base : ℝ) (past : List (Option ℝ)) (x : Option ℝ) :
    (past.filterMap id = [] → RSStat.zScore.score base (past ++ [x]) = none) ∧
    (npStd (past.filterMap id) ≠ 0 → RSStat.zScore.score base (past ++ [none]) = none) := by
  constructor
  · intro h
    show calcZ _ = _
    unfold calcZ nanRed nanVals
    rw [dropLast_snoc, if_pos h, if_pos h]
    rfl
  · intro h
    show calcZ _ = _
    unfold calcZ nanRed nanVals
    rw [dropLast_snoc, lastEntry_snoc]
    by_cases he : past.filterMap id = []
    · rw [if_pos he, if_pos he]; rfl
    · rw [if_neg he, if_neg he]
      dsimp only [deviation]
      rw [if_neg h]

/-! ## C93: the deviation from the median, outside the quartiles -/

/-- C93 for a positive median: the sign tells whether the point is above or below the band
`[q1 - base·iqr, q3 + base·iqr)`, the size is the distance from the median relative to the median.
Partial: the median of the past has to be positive. -/
theorem C93_sign_partial (base : ℝ) (past : List (Option ℝ)) (x : ℝ) (v : List ℝ)
    (hv : v = past.filterMap id) (hne : v ≠ []) (hm : 0 < medianR v) :
    let q1 := percentileR 25 v
    let q3 := percentileR 75 v
    (x < q1 - base * (q3 - q1) →
      RSStat.iqrMedianDev.score base (past ++ [some x]) = some (-(|x - medianR v| / medianR v))) ∧
    (q1 - base * (q3 - q1) ≤ x → q3 + base * (q3 - q1) ≤ x →
      RSStat.iqrMedianDev.score base (past ++ [some x]) = some (|x - medianR v| / medianR v)) ∧
    (q1 - base * (q3 - q1) ≤ x → x < q3 + base * (q3 - q1) →
      RSStat.iqrMedianDev.score base (past ++ [some x]) = some 0) := by
  subst hv
  have e : RSStat.iqrMedianDev.score base (past ++ [some x]) =
      some (iqrSign base (some x) (percentileR 25 (past.filterMap id)) (percentileR 75 (past.filterMap id)) *
        (|x - medianR (past.filterMap id)| / medianR (past.filterMap id))) := by
    show calcIqrDev _ _ = _
    unfold calcIqrDev nanVals
    dsimp only
    rw [dropLast_snoc, lastEntry_snoc, if_neg hne, if_neg hm.ne']
    rfl
  rw [e]
  refine ⟨fun h => ?_, fun h1 h2 => ?_, fun h1 h2 => ?_⟩
  · simp only [iqrSign]; rw [if_pos h]; congr 1; ring
  · simp only [iqrSign]; rw [if_neg (not_lt.2 h1), if_pos h2]; congr 1; ring
  · simp only [iqrSign]; rw [if_neg (not_lt.2 h1), if_neg (not_le.2 h2)]; congr 1; ring

example : (0 : ℝ) < medianR [2, 3, 4] := by
  simp [medianR, List.insertionSort, List.orderedInsert]; norm_num

/-- C93 is violated for a negative median: a point above the band gets a negative score and a point below
it a positive one. -/
theorem C93_negative_violated (base : ℝ) (past : List (Option ℝ)) (x : ℝ) (v : List ℝ)
    (hv : v = past.filterMap id) (hne : v ≠ []) (hm : medianR v < 0) (hx : x ≠ medianR v) :
    let q1 := percentileR 25 v
    let q3 := percentileR 75 v
    (x < q1 - base * (q3 - q1) → ∃ y, RSStat.iqrMedianDev.score base (past ++ [some x]) = some y ∧ 0 < y) ∧
    (q1 - base * (q3 - q1) ≤ x → q3 + base * (q3 - q1) ≤ x →
      ∃ y, RSStat.iqrMedianDev.score base (past ++ [some x]) = some y ∧ y < 0) := by
  subst hv
  have e : RSStat.iqrMedianDev.score base (past ++ [some x]) =
      some (iqrSign base (some x) (percentileR 25 (past.filterMap id)) (percentileR 75 (past.filterMap id)) *
        (|x - medianR (past.filterMap id)| / medianR (past.filterMap id))) := by
    show calcIqrDev _ _ = _
    unfold calcIqrDev nanVals
    dsimp only
    rw [dropLast_snoc, lastEntry_snoc, if_neg hne, if_neg hm.ne]
    rfl
  have hneg : |x - medianR (past.filterMap id)| / medianR (past.filterMap id) < 0 :=
    div_neg_of_pos_of_neg (abs_pos.2 (sub_ne_zero.2 hx)) hm
  refine ⟨fun h => ⟨_, e, ?_⟩, fun h1 h2 => ⟨_, e, ?_⟩⟩
  · simp only [iqrSign]; rw [if_pos h]; linarith
  · simp only [iqrSign]; rw [if_neg (not_lt.2 h1), if_pos h2]; linarith

example : medianR [-4, -3, -2] < 0 ∧ (10 : ℝ) ≠ medianR [-4, -3, -2] := by
  simp [medianR, List.insertionSort, List.orderedInsert]; norm_num

/-- C93 is violated for a zero median: every point is scored 0. -/
theorem C93_zero_violated (base : ℝ) (past : List (Option ℝ)) (x : Option ℝ)
    (hne : past.filterMap id ≠ []) (hm : medianR (past.filterMap id) = 0) :
    RSStat.iqrMedianDev.score base (past ++ [x]) = some 0 := by
  show calcIqrDev _ _ = _
  unfold calcIqrDev nanVals
  dsimp only
  rw [dropLast_snoc, lastEntry_snoc, if_neg hne, if_pos hm]
  simp

example : medianR (([some (-1), some 0, some 1] : List (Option ℝ)).filterMap id) = 0 := by
  simp [medianR, List.insertionSort, List.orderedInsert]

end

end Kats
