import Verif.Model.Outlier
import Verif.Props.Kde
import Verif.Props.RobustStat
import Verif.Props.RollingStatistics
import Mathlib.Data.List.GetD
import Mathlib.Tactic.Linarith
import Mathlib.Tactic.NormNum
import Mathlib.Tactic.FieldSimp
import Mathlib.Tactic.IntervalCases

/-!
# Outlier detector: C104
-/

namespace Kats

noncomputable section

open Classical

/-! ### Linear interpolation -/

theorem lastKnown_succ (l : List (Option ℝ)) (i : Nat) :
    lastKnown l (i + 1) = ((l.getD (i + 1) none).map fun v => (i + 1, v)).or (lastKnown l i) := by
  unfold lastKnown
  rw [List.range_succ, List.filterMap_append, List.getLast?_append]
  cases h : l.getD (i + 1) none <;> simp only [List.filterMap_cons, List.filterMap_nil, h, Option.map_none, Option.map_some] <;> rfl

theorem lastKnown_zero (l : List (Option ℝ)) : lastKnown l 0 = (l.getD 0 none).map fun v => (0, v) := by
  unfold lastKnown
  rw [show List.range (0 + 1) = [0] from rfl]
  cases h : l.getD 0 none <;> simp only [List.filterMap_cons, List.filterMap_nil, h, Option.map_none, Option.map_some] <;> rfl

theorem lastKnown_spec (l : List (Option ℝ)) (i j : Nat) (a : ℝ) (hj : j ≤ i) (ha : l.getD j none = some a)
    (hn : ∀ k, j < k → k ≤ i → l.getD k none = none) : lastKnown l i = some (j, a) := by
  induction i with
  | zero =>
    obtain rfl : j = 0 := by omega
    rw [lastKnown_zero, ha]
    rfl
  | succ i ih =>
    rw [lastKnown_succ]
    rcases Nat.lt_or_ge i j with h | h
    · obtain rfl : j = i + 1 := by omega
      rw [ha]
      rfl
    · rw [hn (i + 1) (by omega) le_rfl, ih h (fun k h1 h2 => hn k h1 (by omega))]
      rfl

theorem lastKnown_some (l : List (Option ℝ)) (i j : Nat) (a : ℝ) (h : lastKnown l i = some (j, a)) :
    j ≤ i ∧ l.getD j none = some a := by
  have hm := List.mem_of_getLast? h
  obtain ⟨k, hk, e⟩ := List.mem_filterMap.1 hm
  obtain ⟨v, hv, e⟩ := Option.map_eq_some_iff.1 e
  obtain ⟨rfl, rfl⟩ := Prod.mk.inj e
  rw [List.mem_range] at hk
  exact ⟨by omega, hv⟩

theorem nextKnown_spec (l : List (Option ℝ)) (i k : Nat) (b : ℝ) (hk : i ≤ k) (hb : l.getD k none = some b)
    (hn : ∀ j, i ≤ j → j < k → l.getD j none = none) : nextKnown l i = some (k, b) := by
  have hkl : k < l.length := by
    by_contra hc
    rw [List.getD_eq_default _ _ (by omega)] at hb
    simp at hb
  unfold nextKnown
  rw [List.head?_filterMap, List.findSome?_eq_some_iff]
  refine ⟨List.range k, k, (List.range (l.length - k - 1)).map (fun x => k + 1 + x), ?_, ?_, ?_⟩
  · conv_lhs => rw [show l.length = k + 1 + (l.length - k - 1) by omega, List.range_add, List.range_succ]
    simp
  · rw [if_pos hk, hb]
    rfl
  · intro j hj
    rw [List.mem_range] at hj
    by_cases hij : i ≤ j
    · rw [if_pos hij, hn j hij hj]
      rfl
    · rw [if_neg hij]

theorem nextKnown_some (l : List (Option ℝ)) (i k : Nat) (b : ℝ) (h : nextKnown l i = some (k, b)) :
    i ≤ k ∧ l.getD k none = some b := by
  have hm := List.mem_of_head? h
  obtain ⟨j, hj, e⟩ := List.mem_filterMap.1 hm
  split_ifs at e with hij
  obtain ⟨v, hv, e⟩ := Option.map_eq_some_iff.1 e
  obtain ⟨rfl, rfl⟩ := Prod.mk.inj e
  exact ⟨hij, hv⟩

theorem linInterp_getD (l : List (Option ℝ)) (i : Nat) (hi : i < l.length) : (linInterp l).getD i none =
    fillAt i (lastKnown l i) (nextKnown l i) := by
  unfold linInterp
  rw [List.getD_eq_getElem _ _ (by simpa using hi), List.getElem_map, List.getElem_range]

/-- Known values are kept. -/
theorem linInterp_known (l : List (Option ℝ)) (i : Nat) (v : ℝ) (h : l.getD i none = some v) :
    (linInterp l).getD i none = some v := by
  have hi : i < l.length := by
    by_contra hc
    rw [List.getD_eq_default _ _ (by omega)] at h
    simp at h
  rw [linInterp_getD l i hi, lastKnown_spec l i i v le_rfl h (by intros; omega), nextKnown_spec l i i v le_rfl h (by intros; omega)]
  simp [fillAt]

/-- A gap is filled with the line between its ends. -/
theorem linInterp_gap (l : List (Option ℝ)) (i j k : Nat) (a b : ℝ) (hj : j < i) (hk : i < k) (ha : l.getD j none = some a)
    (hb : l.getD k none = some b) (hn : ∀ m, j < m → m < k → l.getD m none = none) :
    (linInterp l).getD i none = some (a + (b - a) * (((i : ℝ) - j) / ((k : ℝ) - j))) := by
  have hkl : k < l.length := by
    by_contra hc
    rw [List.getD_eq_default _ _ (by omega)] at hb
    simp at hb
  rw [linInterp_getD l i (by omega), lastKnown_spec l i j a (by omega) ha (fun m h1 h2 => hn m h1 (by omega)),
    nextKnown_spec l i k b (by omega) hb (fun m h1 h2 => hn m (by omega) h2)]
  simp only [fillAt]
  rw [if_neg (by omega), mul_div_assoc]

/-- Every entry is filled, if one is known, by a value between the bounds of the known ones. -/
theorem linInterp_bounds (l : List (Option ℝ)) (m M : ℝ) (hb : ∀ v, some v ∈ l → m ≤ v ∧ v ≤ M) (hne : ∃ v, some v ∈ l)
    (i : Nat) (hi : i < l.length) : ∃ x, (linInterp l).getD i none = some x ∧ m ≤ x ∧ x ≤ M := by
  have hmem : ∀ j v, l.getD j none = some v → some v ∈ l := by
    intro j v h
    by_cases hj : j < l.length
    · rw [List.getD_eq_getElem _ _ hj] at h
      exact h ▸ List.getElem_mem hj
    · rw [List.getD_eq_default _ _ (by omega)] at h
      simp at h
  rw [linInterp_getD l i hi]
  cases h1 : lastKnown l i with
  | none =>
    cases h2 : nextKnown l i with
    | none =>
      exfalso
      obtain ⟨v, hv⟩ := hne
      obtain ⟨j, hj, e⟩ := List.getElem_of_mem hv
      have e' : l.getD j none = some v := by rw [List.getD_eq_getElem _ _ hj, e]
      rcases Nat.le_total j i with h | h
      · have := List.getLast?_eq_none_iff.1 h1
        rw [List.filterMap_eq_nil_iff] at this
        have := this j (List.mem_range.2 (by omega))
        rw [e'] at this
        simp at this
      · have := List.head?_eq_none_iff.1 h2
        rw [List.filterMap_eq_nil_iff] at this
        have := this j (List.mem_range.2 hj)
        rw [if_pos h, e'] at this
        simp at this
    | some p =>
      obtain ⟨k, b⟩ := p
      exact ⟨b, rfl, hb b (hmem k b (nextKnown_some l i k b h2).2)⟩
  | some p =>
    obtain ⟨j, a⟩ := p
    have ha := lastKnown_some l i j a h1
    have hab := hb a (hmem j a ha.2)
    cases h2 : nextKnown l i with
    | none => exact ⟨a, rfl, hab⟩
    | some p =>
      obtain ⟨k, b⟩ := p
      have hk := nextKnown_some l i k b h2
      have hbb := hb b (hmem k b hk.2)
      refine ⟨_, rfl, ?_⟩
      split_ifs with hjk
      · exact hab
      · have hlt : (j : ℝ) < k := by exact_mod_cast (by omega : j < k)
        have hji : (j : ℝ) ≤ i := by exact_mod_cast ha.1
        have hik : (i : ℝ) ≤ k := by exact_mod_cast hk.1
        have ht0 : 0 ≤ ((i : ℝ) - j) / ((k : ℝ) - j) := div_nonneg (by linarith) (by linarith)
        have ht1 : ((i : ℝ) - j) / ((k : ℝ) - j) ≤ 1 := by rw [div_le_one (by linarith)]; linarith
        set t := ((i : ℝ) - j) / ((k : ℝ) - j) with ht
        have e : a + (b - a) * ((i : ℝ) - j) / ((k : ℝ) - j) = a * (1 - t) + b * t := by
          rw [ht, mul_div_assoc]; ring
        rw [e]
        constructor <;> nlinarith

/-! ### Quantiles -/

theorem quantile_between (l : List ℝ) (q : ℝ) (hl : l ≠ []) (hq0 : 0 ≤ q) (hq1 : q ≤ 1) (n : Nat)
    (hn : n = ⌊((l.length - 1 : Nat) : ℝ) * q⌋₊) :
    n < l.length ∧ (l.insertionSort (· ≤ ·)).getD n 0 ≤ quantileR q l ∧
      quantileR q l ≤ (l.insertionSort (· ≤ ·)).getD (min (n + 1) (l.length - 1)) 0 := by
  have hpos := List.length_pos_iff.2 hl
  have hlen : (l.insertionSort (· ≤ ·)).length = l.length := List.length_insertionSort _ _
  have hnl : n ≤ l.length - 1 := by
    rw [hn]
    apply Nat.floor_le_of_le
    have : (0 : ℝ) ≤ ((l.length - 1 : Nat) : ℝ) := Nat.cast_nonneg _
    nlinarith
  refine ⟨by omega, ?_⟩
  unfold quantileR
  simp only [hlen, ← hn]
  have hmono := insSort_mono l (i := n) (j := min (n + 1) (l.length - 1)) (by omega) (by omega)
  have h0 : (n : ℝ) ≤ ((l.length - 1 : Nat) : ℝ) * q := by
    rw [hn]
    exact Nat.floor_le (mul_nonneg (Nat.cast_nonneg _) hq0)
  have h1 : ((l.length - 1 : Nat) : ℝ) * q < n + 1 := by
    rw [hn]
    exact Nat.lt_floor_add_one _
  constructor <;> nlinarith

theorem quantile_mono (l : List ℝ) (q q' : ℝ) (hl : l ≠ []) (hq0 : 0 ≤ q) (hqq : q ≤ q') (hq1 : q' ≤ 1) :
    quantileR q l ≤ quantileR q' l := by
  obtain ⟨a1, -, a3⟩ := quantile_between l q hl hq0 (hqq.trans hq1) _ rfl
  obtain ⟨b1, b2, -⟩ := quantile_between l q' hl (hq0.trans hqq) hq1 _ rfl
  have hc : (0 : ℝ) ≤ ((l.length - 1 : Nat) : ℝ) := Nat.cast_nonneg _
  have hh : ((l.length - 1 : Nat) : ℝ) * q ≤ ((l.length - 1 : Nat) : ℝ) * q' := mul_le_mul_of_nonneg_left hqq hc
  have hf := Nat.floor_le_floor hh
  rcases Nat.lt_or_ge ⌊((l.length - 1 : Nat) : ℝ) * q⌋₊ ⌊((l.length - 1 : Nat) : ℝ) * q'⌋₊ with h | h
  · exact a3.trans ((insSort_mono l (by omega) b1).trans b2)
  · have he : ⌊((l.length - 1 : Nat) : ℝ) * q⌋₊ = ⌊((l.length - 1 : Nat) : ℝ) * q'⌋₊ := le_antisymm hf h
    have hlen : (l.insertionSort (· ≤ ·)).length = l.length := List.length_insertionSort _ _
    unfold quantileR
    simp only [hlen]
    rw [← he]
    set n := ⌊((l.length - 1 : Nat) : ℝ) * q⌋₊ with hn
    have hm := insSort_mono l (i := n) (j := min (n + 1) (l.length - 1)) (by omega) (by omega)
    nlinarith

theorem insSort_smul (a : ℝ) (ha : 0 < a) (l : List ℝ) :
    (l.map (a * ·)).insertionSort (· ≤ ·) = (l.insertionSort (· ≤ ·)).map (a * ·) := by
  apply List.Perm.eq_of_pairwise (le := (· ≤ ·))
  · intro x y _ _ h1 h2; exact le_antisymm h1 h2
  · exact List.pairwise_insertionSort _ _
  · rw [List.pairwise_map]
    exact (List.pairwise_insertionSort (· ≤ ·) l).imp (fun h => mul_le_mul_of_nonneg_left h ha.le)
  · exact (List.perm_insertionSort _ _).trans ((List.perm_insertionSort _ _).symm.map _)

theorem quantile_smul (a : ℝ) (ha : 0 < a) (q : ℝ) (l : List ℝ) : quantileR q (l.map (a * ·)) = a * quantileR q l := by
  unfold quantileR
  rw [insSort_smul a ha]
  simp only [List.length_map]
  have : ∀ i, ((l.insertionSort (· ≤ ·)).map (a * ·)).getD i 0 = a * (l.insertionSort (· ≤ ·)).getD i 0 := by
    intro i
    rw [List.getD_eq_getElem?_getD, List.getD_eq_getElem?_getD, List.getElem?_map]
    cases (l.insertionSort (· ≤ ·))[i]? <;> simp
  simp only [this]
  ring

theorem quantile_const (q : ℝ) (hq0 : 0 ≤ q) (hq1 : q ≤ 1) (l : List ℝ) (hl : l ≠ []) (x : ℝ) (h : ∀ y ∈ l, y = x) :
    quantileR q l = x :=
  le_antisymm (quantile_le_max l q x (fun y hy => (h y hy).le) hl hq0 hq1)
    (quantile_ge_min l q x (fun y hy => (h y hy).ge) hl hq0 hq1)

/-- A quantile among the copies of the smallest value. -/
theorem quantile_low (q : ℝ) (hq0 : 0 ≤ q) (hq1 : q ≤ 1) (l : List ℝ) (hl : l ≠ []) (v : ℝ) (hv : ∀ y ∈ l, v ≤ y)
    (hc : ⌊((l.length - 1 : Nat) : ℝ) * q⌋₊ + 2 ≤ l.countP fun y => decide (y ≤ v)) : quantileR q l = v := by
  have key : ∀ i, i < l.countP (fun y => decide (y ≤ v)) → (l.insertionSort (· ≤ ·)).getD i 0 ≤ v := by
    intro i hi
    by_contra hgt
    rw [not_le] at hgt
    set s := l.insertionSort (· ≤ ·) with hs
    have hlen : s.length = l.length := List.length_insertionSort _ _
    have hil : i < l.length := lt_of_lt_of_le hi List.countP_le_length
    have hcs : s.countP (fun y => decide (y ≤ v)) = l.countP fun y => decide (y ≤ v) :=
      (List.perm_insertionSort _ _).countP_eq _
    have hsplit : s.countP (fun y => decide (y ≤ v)) = (s.take i).countP (fun y => decide (y ≤ v)) + (s.drop i).countP fun y => decide (y ≤ v) := by
      rw [← List.countP_append, List.take_append_drop]
    have h0 : (s.drop i).countP (fun y => decide (y ≤ v)) = 0 := by
      rw [List.countP_eq_zero]
      intro y hy
      obtain ⟨j, hj, e⟩ := List.getElem_of_mem hy
      rw [List.getElem_drop] at e
      rw [List.length_drop] at hj
      have := insSort_mono l (i := i) (j := i + j) (by omega) (by omega)
      rw [← hs, List.getD_eq_getElem s _ (show i + j < s.length by omega), e] at this
      simp only [decide_eq_true_eq, not_le]
      linarith
    have h1 : (s.take i).countP (fun y => decide (y ≤ v)) ≤ i := List.countP_le_length.trans (by simp)
    omega
  obtain ⟨h1, -, h3⟩ := quantile_between l q hl hq0 hq1 _ rfl
  refine le_antisymm (h3.trans (key _ (by omega))) (quantile_ge_min l q v hv hl hq0 hq1)

/-! ### Classification -/

/-- C104: scores and outliers agree: if the multiplier is not negative, a time with a (finite) score is an outlier exactly
if its score is below 0 or above 1. -/
theorem C104_scores (W : OutWorld) (c : OutCfg) (rows : List (Int × Option ℝ)) (res : OutRes)
    (h : cleanTs W c rows = .ok res) (hm : 0 ≤ c.iqrMult) (hnd : res.times.Nodup)
    (i : Nat) (t : Int) (s : ℝ) (ht : res.times[i]? = some t) (hi : res.scores[i]? = some (some s)) :
    t ∈ res.outliers ↔ s < 0 ∨ 1 < s := by
  unfold cleanTs at h
  cases hp : outPrepare W rows with
  | error e => simp [hp, bind, Except.bind] at h
  | ok full =>
    cases hd : W.decompose c.mult full with
    | error e => simp [hp, hd, bind, Except.bind] at h
    | ok d =>
      simp only [hp, hd, bind, Except.bind, pure, Except.pure, Except.ok.injEq] at h
      subst h
      dsimp only at *
      set r := outResid (full.map (·.2)) d with hr
      set lim := outLimits c.iqrMult r with hlim
      rw [List.getElem?_map, Option.map_eq_some_iff] at hi
      obtain ⟨x, hx, hxs⟩ := hi
      have hne : r ≠ [] := List.ne_nil_of_mem (List.mem_of_getElem? hx)
      have hq' := quantile_mono r (1 / 4) (3 / 4) hne (by norm_num) (by norm_num) (by norm_num)
      unfold outScore at hxs
      split_ifs at hxs with h0
      have hpos : 0 < lim.2 - lim.1 := by
        refine lt_of_le_of_ne ?_ (Ne.symm h0)
        have : lim.2 - lim.1 = (quantileR (3 / 4) r - quantileR (1 / 4) r) * (1 + 2 * c.iqrMult) := by
          rw [hlim]; unfold outLimits; dsimp only; ring
        rw [this]
        exact mul_nonneg (by linarith) (by linarith)
      rw [Option.some.injEq] at hxs
      have h1 : s < 0 ↔ x < lim.1 := by
        rw [← hxs, div_lt_iff₀ hpos]; constructor <;> intro h <;> linarith
      have h2 : 1 < s ↔ lim.2 < x := by
        rw [← hxs, lt_div_iff₀ hpos]; constructor <;> intro h <;> linarith
      rw [h1, h2, List.mem_map]
      constructor
      · rintro ⟨⟨t', x'⟩, hmem, rfl⟩
        rw [List.mem_filter, decide_eq_true_eq] at hmem
        obtain ⟨k, hk⟩ := List.mem_iff_getElem?.1 hmem.1
        rw [List.getElem?_zip_eq_some] at hk
        have hik : i = k := by
          obtain ⟨a1, a2⟩ := List.getElem?_eq_some_iff.1 ht
          obtain ⟨b1, b2⟩ := List.getElem?_eq_some_iff.1 hk.1
          exact (hnd.getElem_inj_iff).1 (a2.trans b2.symm)
        rw [← hik, hx] at hk
        obtain rfl : x = x' := by simpa using hk.2
        tauto
      · intro hor
        refine ⟨(t, x), ?_, rfl⟩
        rw [List.mem_filter, decide_eq_true_eq]
        exact ⟨List.mem_of_getElem? (List.getElem?_zip_eq_some.2 ⟨ht, hx⟩), by dsimp only; tauto⟩

/-- C104 is violated for a negative multiplier, which is accepted: below -1/2 every point is an outlier. -/
theorem C104_multiplier_violated (m : ℝ) (hm : m < -1 / 2) (r : List ℝ) (hq : quantileR (1 / 4) r < quantileR (3 / 4) r) (x : ℝ) :
    (OutCfg.init "additive" m).iqrMult = m ∧ (x > (outLimits m r).2 ∨ x < (outLimits m r).1) := by
  refine ⟨rfl, ?_⟩
  unfold outLimits
  dsimp only
  by_contra hc
  rw [not_or, not_lt, not_lt] at hc
  nlinarith [hc.1, hc.2]

/-- C104 is violated if the quartiles of the residuals coincide: every residual different from them is an outlier, however
small the difference, and no point has a finite score. -/
theorem C104_quartiles_violated (m : ℝ) (r : List ℝ) (q : ℝ) (h1 : quantileR (1 / 4) r = q) (h3 : quantileR (3 / 4) r = q) (x : ℝ) :
    ((x > (outLimits m r).2 ∨ x < (outLimits m r).1) ↔ x ≠ q) ∧ outScore (outLimits m r) x = none := by
  unfold outLimits outScore
  simp only [h1, h3, sub_self, mul_zero, sub_zero, add_zero, if_true, and_true]
  exact ⟨fun h => h.elim (fun h => h.ne') (fun h => h.ne), fun h => (lt_or_gt_of_ne h).elim Or.inr Or.inl⟩

theorem varOf_zero (l : List ℝ) (h : varOf l = 0) : ∀ x ∈ l, x = meanOf l := by
  intro x hx
  have hpos : (0 : ℝ) < l.length := by exact_mod_cast List.length_pos_of_mem hx
  unfold varOf at h
  rw [meanOf, List.length_map, div_eq_zero_iff] at h
  rcases h with h | h
  · have hall : ∀ y ∈ (l.map fun x => (x - meanOf l) ^ 2), 0 ≤ y := by
      intro y hy
      obtain ⟨z, -, rfl⟩ := List.mem_map.1 hy
      positivity
    have := List.all_zero_of_le_zero_le_of_sum_eq_zero hall h (List.mem_map.2 ⟨x, hx, rfl⟩)
    have := pow_eq_zero_iff (two_ne_zero) |>.1 this
    linarith
  · linarith

theorem varOf_const (l : List ℝ) (x : ℝ) (h : ∀ y ∈ l, y = x) : varOf l = 0 := by
  unfold varOf
  have hm : ∀ y ∈ l, y = meanOf l := by
    intro y hy
    have e : l = List.replicate l.length x := List.eq_replicate_iff.2 ⟨rfl, h⟩
    have hpos : (l.length : ℝ) ≠ 0 := by
      have := List.length_pos_of_mem hy
      exact_mod_cast this.ne'
    rw [h y hy, meanOf]
    conv_rhs => rw [e]
    rw [List.sum_replicate, List.length_replicate, nsmul_eq_mul]
    field_simp
  have : (l.map fun y => (y - meanOf l) ^ 2) = l.map fun _ => (0 : ℝ) := by
    apply List.map_congr_left
    intro y hy
    have := hm y hy
    rw [sub_eq_zero.2 this]
    norm_num
  rw [this, meanOf]
  simp

theorem flagged_const (m : ℝ) (r : List ℝ) (x : ℝ) (h : ∀ y ∈ r, y = x) :
    ∀ y ∈ r, ¬ (y > (outLimits m r).2 ∨ y < (outLimits m r).1) := by
  intro y hy
  have hne := List.ne_nil_of_mem hy
  have h1 := quantile_const (1 / 4) (by norm_num) (by norm_num) r hne x h
  have h3 := quantile_const (3 / 4) (by norm_num) (by norm_num) r hne x h
  rw [(C104_quartiles_violated m r x h1 h3 y).1, h y hy]
  simp

/-- C104, additive decomposition: a series that is exactly the sum of its trend and its season has no outliers. -/
theorem C104_additive (W : OutWorld) (c : OutCfg) (rows : List (Int × Option ℝ)) (res : OutRes)
    (h : cleanTs W c rows = .ok res) (full : List (Int × ℝ)) (hfull : outPrepare W rows = .ok full) (d : OutDecomp)
    (hd : W.decompose c.mult full = .ok d) (ht : d.trend.length = full.length) (hs : d.seasonal.length = full.length)
    (hr : ∀ x ∈ d.resid, x = 0) (hsum : full.map (·.2) = d.trend.zipWith (· + ·) d.seasonal) : res.outliers = [] := by
  unfold cleanTs at h
  simp only [hfull, hd, bind, Except.bind, pure, Except.pure, Except.ok.injEq] at h
  subst h
  dsimp only
  have hlen : d.trend.length = d.seasonal.length := ht.trans hs.symm
  have hdet : (full.map (·.2)).zipWith (· - ·) d.trend = d.seasonal := by
    rw [hsum]
    apply List.ext_getElem
    · simp [hlen]
    · intro i h1 h2
      simp
  have hconst : ∃ x, ∀ y ∈ outResid (full.map (·.2)) d, y = x := by
    unfold outResid
    simp only [hdet]
    rw [varOf_const d.resid 0 hr]
    by_cases hv : varOf d.seasonal = 0
    · rw [if_neg (by simp [hv]), hdet]
      exact ⟨_, varOf_zero _ hv⟩
    · rw [if_pos ⟨hv, by norm_num⟩]
      refine ⟨0, ?_⟩
      intro y hy
      obtain ⟨i, hi, rfl⟩ := List.getElem_of_mem hy
      simp [hsum]
  obtain ⟨x, hx⟩ := hconst
  rw [List.map_eq_nil_iff, List.filter_eq_nil_iff]
  rintro ⟨t, y⟩ hp
  rw [decide_eq_true_eq]
  exact flagged_const c.iqrMult _ x hx y (List.of_mem_zip hp).2

/-- C104: a change of unit and of origin changes neither outliers nor scores, if the decomposition follows it. -/
theorem C104_affine (a b : ℝ) (ha : 0 < a) (m : ℝ) (y : List ℝ) (d d' : OutDecomp) (ht : d'.trend = d.trend.map fun x => a * x + b)
    (hs : d'.seasonal = d.seasonal.map (a * ·)) (hr : d'.resid = d.resid.map (a * ·)) :
    outResid (y.map fun x => a * x + b) d' = (outResid y d).map (a * ·) ∧
      ∀ x, outScore (outLimits m ((outResid y d).map (a * ·))) (a * x) = outScore (outLimits m (outResid y d)) x ∧
        ((a * x > (outLimits m ((outResid y d).map (a * ·))).2 ∨ a * x < (outLimits m ((outResid y d).map (a * ·))).1) ↔
          (x > (outLimits m (outResid y d)).2 ∨ x < (outLimits m (outResid y d)).1)) := by
  constructor
  · have h1 : (y.map fun x => a * x + b).zipWith (· - ·) d'.trend = (y.zipWith (· - ·) d.trend).map (a * ·) := by
      rw [ht, List.zipWith_map, List.map_zipWith]
      congr 1
      funext u v
      ring
    have h2 : ((y.map fun x => a * x + b).zipWith (· - ·) d'.seasonal).zipWith (· - ·) d'.trend =
        ((y.zipWith (· - ·) d.seasonal).zipWith (· - ·) d.trend).map (a * ·) := by
      have e : (y.map fun x => a * x + b).zipWith (· - ·) d'.seasonal = (y.zipWith (· - ·) d.seasonal).map fun x => a * x + b := by
        rw [hs, List.zipWith_map, List.map_zipWith]
        congr 1
        funext u v
        ring
      rw [e, ht, List.zipWith_map, List.map_zipWith]
      congr 1
      funext u v
      ring
    unfold outResid
    simp only [h1]
    rw [hr, varOf_smul, varOf_smul]
    have ha2 : a ^ 2 ≠ 0 := by positivity
    have hst : (a ^ 2 * varOf (y.zipWith (· - ·) d.trend) ≠ 0 ∧
        1 - a ^ 2 * varOf d.resid / (a ^ 2 * varOf (y.zipWith (· - ·) d.trend)) ≥ 6 / 10) ↔
        (varOf (y.zipWith (· - ·) d.trend) ≠ 0 ∧ 1 - varOf d.resid / varOf (y.zipWith (· - ·) d.trend) ≥ 6 / 10) := by
      rw [mul_div_mul_left _ _ ha2]
      simp [ha.ne']
    by_cases hc : (varOf (y.zipWith (· - ·) d.trend) ≠ 0 ∧ 1 - varOf d.resid / varOf (y.zipWith (· - ·) d.trend) ≥ 6 / 10)
    · rw [if_pos (hst.2 hc), if_pos hc, h2]
    · rw [if_neg (fun h => hc (hst.1 h)), if_neg hc, h1]
  · intro x
    have hlim : outLimits m ((outResid y d).map (a * ·)) = (a * (outLimits m (outResid y d)).1, a * (outLimits m (outResid y d)).2) := by
      unfold outLimits
      simp only [quantile_smul a ha]
      ext <;> dsimp only <;> ring
    rw [hlim]
    constructor
    · unfold outScore
      dsimp only
      rw [← mul_sub, ← mul_sub, mul_div_mul_left _ _ ha.ne']
      simp [ha.ne']
    · dsimp only
      rw [gt_iff_lt, mul_lt_mul_iff_right₀ ha, mul_lt_mul_iff_right₀ ha]

/-! ### The multiplicative model -/

/-- A series with an exact weekly season around the trend 10: six days of 7.5 and one of 25. -/
def weekly (k : Nat) (lo hi : ℝ) : List ℝ := (List.range (7 * k)).map fun i : Nat => if i % 7 = 6 then hi else lo

theorem weekly_zip (k : Nat) (f : ℝ → ℝ → ℝ) (a b c d : ℝ) :
    (weekly k a b).zipWith f (weekly k c d) = weekly k (f a c) (f b d) := by
  unfold weekly
  rw [List.zipWith_map]
  apply List.ext_getElem
  · simp
  · intro i h1 h2
    simp only [List.getElem_zipWith, List.getElem_map, List.getElem_range]
    split_ifs <;> rfl

theorem weekly_count (k : Nat) (lo hi : ℝ) (h : lo < hi) : (weekly k lo hi).countP (fun y => decide (y ≤ lo)) = 6 * k := by
  unfold weekly
  rw [List.countP_map]
  have e : ((fun y => decide (y ≤ lo)) ∘ fun i : Nat => if i % 7 = 6 then hi else lo) = fun i : Nat => decide (i % 7 ≠ 6) := by
    funext i
    simp only [Function.comp]
    by_cases hi : i % 7 = 6
    · simp [hi, h]
    · simp [hi]
  rw [e]
  induction k with
  | zero => rfl
  | succ k ih =>
    rw [show 7 * (k + 1) = 7 * k + 7 by ring, List.range_add, List.countP_append, ih, List.countP_map]
    have : ((fun i : Nat => decide (i % 7 ≠ 6)) ∘ fun x => 7 * k + x) = fun i : Nat => decide (i % 7 ≠ 6) := by
      funext i
      simp only [Function.comp, Nat.mul_add_mod]
    rw [this]
    have : (List.range 7).countP (fun i : Nat => decide (i % 7 ≠ 6)) = 6 := by decide
    omega

theorem weekly_quantile (k : Nat) (hk : 2 ≤ k) (lo hi : ℝ) (h : lo < hi) (q : ℝ) (hq0 : 0 ≤ q) (hq1 : q ≤ 3 / 4) :
    quantileR q (weekly k lo hi) = lo := by
  have hlen : (weekly k lo hi).length = 7 * k := by simp [weekly]
  have hne : weekly k lo hi ≠ [] := by
    intro e
    rw [e] at hlen
    simp at hlen
    omega
  apply quantile_low q hq0 (hq1.trans (by norm_num)) _ hne
  · intro y hy
    unfold weekly at hy
    obtain ⟨i, -, rfl⟩ := List.mem_map.1 hy
    split_ifs <;> linarith
  · rw [weekly_count k lo hi h, hlen]
    have hle : ⌊((7 * k - 1 : Nat) : ℝ) * q⌋₊ ≤ 6 * k - 2 := by
      apply Nat.floor_le_of_le
      rw [Nat.cast_sub (by omega), Nat.cast_sub (by omega)]
      push_cast
      have : (2 : ℝ) ≤ k := by exact_mod_cast hk
      have h0 : (0 : ℝ) ≤ 7 * k - 1 := by linarith
      nlinarith
    omega

/-- C104 is violated for the multiplicative model: trend and season are subtracted although they are factors.  A series of
two weeks or more that is exactly the product of its trend 10 and its weekly season (3/4 on six days, 5/2 on the seventh)
has an outlier on every seventh day, for every multiplier. -/
theorem C104_multiplicative_violated (k : Nat) (hk : 2 ≤ k) (W : OutWorld) (m : ℝ) (rows : List (Int × Option ℝ))
    (full : List (Int × ℝ)) (hfull : outPrepare W rows = .ok full) (hy : full.map (·.2) = weekly k (15 / 2) 25)
    (hd : W.decompose true full = .ok ⟨weekly k 10 10, weekly k (3 / 4) (5 / 2), weekly k 1 1⟩) :
    full.map (·.2) = (weekly k 10 10).zipWith (· * ·) (weekly k (3 / 4) (5 / 2)) ∧
    ∃ res, cleanTs W (OutCfg.init "multiplicative" m) rows = .ok res ∧ res.times.length = 7 * k ∧
      ∀ i t, res.times[i]? = some t → i % 7 = 6 → t ∈ res.outliers := by
  refine ⟨by rw [hy, weekly_zip]; norm_num, ?_⟩
  have hmul : (OutCfg.init "multiplicative" m).mult = true := by simp [OutCfg.init]
  have hconst : varOf (weekly k 1 1) = 0 := by
    apply varOf_const _ 1
    intro y hy
    unfold weekly at hy
    obtain ⟨i, -, rfl⟩ := List.mem_map.1 hy
    simp
  have hvar : varOf (weekly k (15 / 2 - 10) (25 - 10)) ≠ 0 := by
    intro h0
    have h1 := varOf_zero _ h0 (15 / 2 - 10) (List.mem_map.2 ⟨0, List.mem_range.2 (by omega), by simp⟩)
    have h2 := varOf_zero _ h0 (25 - 10) (List.mem_map.2 ⟨6, List.mem_range.2 (by omega), by simp⟩)
    linarith
  have hres : outResid (full.map (·.2)) ⟨weekly k 10 10, weekly k (3 / 4) (5 / 2), weekly k 1 1⟩ =
      weekly k (15 / 2 - 3 / 4 - 10) (25 - 5 / 2 - 10) := by
    unfold outResid
    simp only [hy, weekly_zip, hconst]
    rw [if_pos ⟨hvar, by norm_num⟩, weekly_zip]
  unfold cleanTs
  simp only [hfull, hmul, hd, bind, Except.bind, pure, Except.pure, hres]
  have hfl : full.length = 7 * k := by
    have := congrArg List.length hy
    simpa [weekly] using this
  refine ⟨_, rfl, by simp [hfl], ?_⟩
  intro i t hi h6
  dsimp only at hi ⊢
  obtain ⟨hil, -⟩ := List.getElem?_eq_some_iff.1 hi
  rw [List.length_map, hfl] at hil
  rw [List.mem_map]
  refine ⟨(t, 25 - 5 / 2 - 10), ?_, rfl⟩
  rw [List.mem_filter, decide_eq_true_eq]
  constructor
  · apply List.mem_of_getElem? (i := i)
    rw [List.getElem?_zip_eq_some]
    refine ⟨hi, ?_⟩
    unfold weekly
    rw [List.getElem?_map, List.getElem?_range hil, Option.map_some, if_pos h6]
  · have h1 := weekly_quantile k hk (15 / 2 - 3 / 4 - 10) (25 - 5 / 2 - 10) (by norm_num) (1 / 4) (by norm_num) (by norm_num)
    have h3 := weekly_quantile k hk (15 / 2 - 3 / 4 - 10) (25 - 5 / 2 - 10) (by norm_num) (3 / 4) (by norm_num) le_rfl
    rw [(C104_quartiles_violated _ _ _ h1 h3 _).1]
    norm_num

example : ∃ (W : OutWorld) (rows : List (Int × Option ℝ)) (full : List (Int × ℝ)), outPrepare W rows = .ok full ∧
    full.map (·.2) = weekly 3 (15 / 2) 25 ∧
    W.decompose true full = .ok ⟨weekly 3 10 10, weekly 3 (3 / 4) (5 / 2), weekly 3 1 1⟩ := by
  refine ⟨⟨fun _ => .ok true, fun l => .ok l, fun _ _ => .ok ⟨weekly 3 10 10, weekly 3 (3 / 4) (5 / 2), weekly 3 1 1⟩⟩,
    ((List.range 21).map fun i : Nat => (i : Int) * 86400).zip ((weekly 3 (15 / 2) 25).map some),
    ((List.range 21).map fun i : Nat => (i : Int) * 86400).zip (weekly 3 (15 / 2) 25), ?_, ?_, rfl⟩
  · unfold outPrepare
    have hl : (weekly 3 (15 / 2) 25).length = 21 := by simp [weekly]
    have h2 : (((List.range 21).map fun i : Nat => (i : Int) * 86400).zip ((weekly 3 (15 / 2) 25).map some)).map (·.2) =
        (weekly 3 (15 / 2) 25).map some := List.map_snd_zip (by simp [hl])
    have h1 : (((List.range 21).map fun i : Nat => (i : Int) * 86400).zip ((weekly 3 (15 / 2) 25).map some)).map (·.1) =
        (List.range 21).map fun i : Nat => (i : Int) * 86400 := List.map_fst_zip (by simp [hl])
    have h3 : ((weekly 3 (15 / 2) 25).map some).any (fun x => x.isNone) = false := by
      rw [List.any_eq_false]
      intro x hx
      obtain ⟨y, -, rfl⟩ := List.mem_map.1 hx
      simp
    simp only [bind, Except.bind, pure, Except.pure, if_true, h1, h2, h3, if_false, Bool.false_eq_true]
    rw [List.map_map]
    congr 2
  · exact List.map_snd_zip (by simp [weekly])

/-! ### Times -/

/-- C104 is violated if no frequency can be inferred: only times a whole number of days after the first one are examined;
all other points are ignored. -/
theorem C104_offgrid_violated (W : OutWorld) (c : OutCfg) (r0 : Int × Option ℝ) (rows : List (Int × Option ℝ)) (res : OutRes)
    (hinf : W.infers ((r0 :: rows).map (·.1)) = .ok false) (h : cleanTs W c (r0 :: rows) = .ok res) :
    (∀ t ∈ res.times, (t - r0.1) % 86400 = 0) ∧ ∀ t ∈ res.outliers, (t - r0.1) % 86400 = 0 := by
  have hsub : ∀ t ∈ res.times, (t - r0.1) % 86400 = 0 := by
    unfold cleanTs at h
    cases hp : outPrepare W (r0 :: rows) with
    | error e => simp [hp, bind, Except.bind] at h
    | ok full =>
      cases hd : W.decompose c.mult full with
      | error e => simp [hp, hd, bind, Except.bind] at h
      | ok d =>
        simp only [hp, hd, bind, Except.bind, pure, Except.pure, Except.ok.injEq] at h
        subst h
        dsimp only
        unfold outPrepare at hp
        simp only [hinf, bind, Except.bind, pure, Except.pure, Bool.false_eq_true, if_false] at hp
        cases ha : asfreqDay (r0 :: rows) with
        | error e => simp [ha] at hp
        | ok g =>
          simp only [ha] at hp
          have hg : ∀ t ∈ g.map (·.1), (t - r0.1) % 86400 = 0 := by
            unfold asfreqDay at ha
            split_ifs at ha
            rw [List.head?_cons] at ha
            cases hl : (r0 :: rows).getLast? with
            | none => simp at hl
            | some b =>
              simp only [hl, Except.ok.injEq] at ha
              intro t ht
              rw [← ha, List.map_map] at ht
              obtain ⟨k, -, rfl⟩ := List.mem_map.1 ht
              simp only [Function.comp]
              omega
          split at hp
          · simp at hp
          · split_ifs at hp
            all_goals
              rw [← Except.ok.inj hp]
              intro t ht
              obtain ⟨⟨t', v⟩, hm, rfl⟩ := List.mem_map.1 ht
              exact hg _ (List.of_mem_zip hm).1
  refine ⟨hsub, ?_⟩
  intro t ht
  apply hsub
  unfold cleanTs at h
  cases hp : outPrepare W (r0 :: rows) with
  | error e => simp [hp, bind, Except.bind] at h
  | ok full =>
    cases hd : W.decompose c.mult full with
    | error e => simp [hp, hd, bind, Except.bind] at h
    | ok d =>
      simp only [hp, hd, bind, Except.bind, pure, Except.pure, Except.ok.injEq] at h
      subst h
      dsimp only at ht ⊢
      obtain ⟨⟨t', v⟩, hm, rfl⟩ := List.mem_map.1 ht
      exact (List.of_mem_zip (List.mem_filter.1 hm).1).1

/-- C104: if a frequency can be inferred, the examined times are the times of the data. -/
theorem C104_times (W : OutWorld) (hW : ∀ l l', W.poly l = .ok l' → l'.length = l.length) (c : OutCfg)
    (rows : List (Int × Option ℝ)) (res : OutRes) (hinf : W.infers (rows.map (·.1)) = .ok true)
    (h : cleanTs W c rows = .ok res) : res.times = rows.map (·.1) := by
  unfold cleanTs at h
  cases hp : outPrepare W rows with
  | error e => simp [hp, bind, Except.bind] at h
  | ok full =>
    cases hd : W.decompose c.mult full with
    | error e => simp [hp, hd, bind, Except.bind] at h
    | ok d =>
      simp only [hp, hd, bind, Except.bind, pure, Except.pure, Except.ok.injEq] at h
      subst h
      dsimp only
      unfold outPrepare at hp
      simp only [hinf, bind, Except.bind, pure, Except.pure, if_true] at hp
      cases hy : W.poly (rows.map (·.2)) with
      | error e => simp [hy] at hp
      | ok y =>
        have hl := hW _ _ hy
        rw [List.length_map] at hl
        simp only [hy] at hp
        split_ifs at hp
        all_goals
          rw [← Except.ok.inj hp]
          apply List.map_fst_zip
          simp [linInterp, hl]

/-- C104: one list of outliers per column, that of the column itself; a column that cannot be examined is reported to have
no outliers, and has no scores. -/
theorem C104_columns (W : OutWorld) (c : OutCfg) (cols : List (String × List (Int × Option ℝ))) :
    (outDetector W c cols).1.length = cols.length ∧
      (∀ (i : Nat) col res, cols[i]? = some col → cleanTs W c col.2 = .ok res → (outDetector W c cols).1[i]? = some res.outliers) ∧
      (∀ (i : Nat) col e, cols[i]? = some col → cleanTs W c col.2 = .error e → (outDetector W c cols).1[i]? = some []) ∧
      ∀ name s, (name, s) ∈ (outDetector W c cols).2 ↔ ∃ col ∈ cols, ∃ res, col.1 = name ∧ cleanTs W c col.2 = .ok res ∧
        res.scores = s := by
  unfold outDetector
  refine ⟨by simp, ?_, ?_, ?_⟩
  · intro i col res h1 h2
    simp [h1, h2]
  · intro i col e h1 h2
    simp [h1, h2]
  · intro name s
    simp only [List.mem_filterMap]
    constructor
    · rintro ⟨col, hc, h⟩
      cases hr : cleanTs W c col.2 with
      | error e => simp [hr] at h
      | ok res =>
        simp only [hr, Option.some.injEq, Prod.mk.injEq] at h
        exact ⟨col, hc, res, h.1, hr, h.2⟩
    · rintro ⟨col, hc, res, h1, h2, h3⟩
      exact ⟨col, hc, by simp [h1, h2, h3]⟩

/-! ### Remover -/

/-- C104, remover without interpolation: the values at the outliers become missing, all others stay, if the outliers are
times of the data. -/
theorem C104_removed (outs : List Int) (rows : List (Int × Option ℝ)) (hs : ∀ t ∈ outs, t ∈ rows.map (·.1)) :
    ∃ out, remover false [outs] [rows] = .ok [out] ∧ out.map (·.1) = rows.map (·.1) ∧
      ∀ (i : Nat) t v, rows[i]? = some (t, v) → out[i]? = some (t, if t ∈ outs then none else v) := by
  refine ⟨rows.map fun r => (r.1, if r.1 ∈ outs then none else r.2), ?_, ?_, ?_⟩
  · unfold remover removeCol
    simp only [List.zip_cons_cons, List.zip_nil_left, List.mapM_cons, List.mapM_nil]
    rw [if_pos (by rw [List.all_eq_true]; intro t ht; simpa using hs t ht)]
    rfl
  · rw [List.map_map]
    rfl
  · intro i t v h
    simp [h]

/-- C104, remover with interpolation: values that are no outliers stay; an outlier between kept values is put on the line
between the nearest kept ones. -/
theorem C104_interpolated (outs : List Int) (rows : List (Int × Option ℝ)) (hs : ∀ t ∈ outs, t ∈ rows.map (·.1)) :
    ∃ out, remover true [outs] [rows] = .ok [out] ∧ out.map (·.1) = rows.map (·.1) ∧
      (∀ (i : Nat) t v, rows[i]? = some (t, some v) → t ∉ outs → out[i]? = some (t, some v)) ∧
      ∀ (i j k : Nat) tj a tk b, j < i → i < k → rows[j]? = some (tj, some a) → rows[k]? = some (tk, some b) → tj ∉ outs → tk ∉ outs →
        (∀ m r, j < m → m < k → rows[m]? = some r → r.1 ∈ outs) →
        (out.map (·.2))[i]? = some (some (a + (b - a) * (((i : ℝ) - j) / ((k : ℝ) - j)))) := by
  set vals : List (Option ℝ) := rows.map fun r => if r.1 ∈ outs then none else r.2 with hvals
  have hvl : vals.length = rows.length := by simp [hvals]
  have hil : (linInterp vals).length = rows.length := by simp [linInterp, hvl]
  have hget : ∀ i t v, rows[i]? = some (t, some v) → t ∉ outs → vals.getD i none = some v := by
    intro i t v h hn
    rw [hvals, List.getD_eq_getElem?_getD, List.getElem?_map, h]
    simp [hn]
  have hfin : ∀ i x, (linInterp vals).getD i none = some x → (linInterp vals)[i]? = some (some x) := by
    intro i x h
    rw [List.getD_eq_getElem?_getD] at h
    cases he : (linInterp vals)[i]? with
    | none => rw [he] at h; simp at h
    | some y => rw [he] at h; simpa using h
  refine ⟨(rows.map (·.1)).zip (linInterp vals), ?_, ?_, ?_, ?_⟩
  · unfold remover removeCol
    simp only [List.zip_cons_cons, List.zip_nil_left, List.mapM_cons, List.mapM_nil]
    rw [if_pos (by rw [List.all_eq_true]; intro t ht; simpa using hs t ht)]
    simp only [bind, Except.bind, pure, Except.pure, if_true, List.map_cons, List.map_nil, List.map_map]
    rfl
  · exact List.map_fst_zip (by simp [hil])
  · intro i t v h hn
    rw [List.getElem?_zip_eq_some]
    refine ⟨by rw [List.getElem?_map, h]; rfl, ?_⟩
    exact hfin i v (linInterp_known vals i v (hget i t v h hn))
  · intro i j k tj a tk b hji hik hj hk hnj hnk hm
    rw [List.map_snd_zip (by simp [hil])]
    apply hfin
    apply linInterp_gap vals i j k a b hji hik (hget j tj a hj hnj) (hget k tk b hk hnk)
    intro m h1 h2
    have hkl : k < rows.length := (List.getElem?_eq_some_iff.1 hk).1
    have hml : m < rows.length := by omega
    rw [hvals, List.getD_eq_getElem _ _ (by simpa using hml), List.getElem_map]
    rw [if_pos (hm m rows[m] h1 h2 (List.getElem?_eq_getElem hml))]

/-- C104 is violated: an outlier at a time that was missing in the data (and was filled in for the examination) makes the
remover fail. -/
theorem C104_remover_violated (interpolate : Bool) (outs : List Int) (rows : List (Int × Option ℝ)) (t : Int) (ht : t ∈ outs)
    (hn : t ∉ rows.map (·.1)) : remover interpolate [outs] [rows] = .error .keyError := by
  unfold remover removeCol
  simp only [List.zip_cons_cons, List.zip_nil_left, List.mapM_cons, List.mapM_nil]
  rw [if_neg]
  · rfl
  · intro h
    rw [List.all_eq_true] at h
    exact hn (by simpa using h t ht)

example : ∃ out, remover true [[1]] [[(0, some 2), (1, some 100), (2, some 4)]] = .ok [out] ∧
    (out.map (·.2))[1]? = some (some 3) := by
  obtain ⟨out, h1, -, -, h4⟩ := C104_interpolated [1] [(0, some 2), (1, some 100), (2, some 4)] (by simp)
  refine ⟨out, h1, ?_⟩
  rw [h4 1 0 2 0 2 2 4 (by norm_num) (by norm_num) rfl rfl (by simp) (by simp)]
  · norm_num
  · intro m r hm1 hm2 hr
    obtain rfl : m = 1 := by omega
    simp at hr
    simp [← hr]

/-! ### Configuration and preparation -/

/-- C104, `__init__`: only the name "multiplicative" selects the multiplicative model; any unknown name is additive. -/
theorem C104_config (name : String) (m : ℝ) :
    ((OutCfg.init name m).mult = true ↔ name = "multiplicative") ∧ (OutCfg.init name m).iqrMult = m ∧
      (OutCfg.init).mult = false ∧ (OutCfg.init).iqrMult = 3 := by
  refine ⟨?_, rfl, by simp [OutCfg.init], rfl⟩
  unfold OutCfg.init
  by_cases h : name ∈ ["additive", "multiplicative"]
  · simp only [if_pos h, decide_eq_true_eq]
  · simp only [if_neg h]
    constructor
    · intro e; simp at e
    · intro e; simp [e] at h

/-- C104: the series without a regular frequency is completed to all days from the first to the last time; the values at these
days are kept, and the missing ones are missing. -/
theorem C104_daily (r0 : Int × Option ℝ) (rows : List (Int × Option ℝ)) (hs : (r0 :: rows).Pairwise fun a b => a.1 < b.1) :
    ∃ full, asfreqDay (r0 :: rows) = .ok full ∧ full.Pairwise (fun a b => a.1 < b.1) ∧
      (∀ t, t ∈ full.map (·.1) ↔ r0.1 ≤ t ∧ t ≤ ((r0 :: rows).getLast (by simp)).1 ∧ 86400 ∣ t - r0.1) ∧
      (∀ r ∈ r0 :: rows, 86400 ∣ r.1 - r0.1 → r ∈ full) ∧
      (∀ t, t ∉ (r0 :: rows).map (·.1) → ∀ v, (t, some v) ∉ full) := by
  have hnd : ((r0 :: rows).map (·.1)).Nodup := by
    rw [List.nodup_iff_pairwise_ne, List.pairwise_map]
    exact hs.imp fun h => ne_of_lt h
  set b := (r0 :: rows).getLast (by simp) with hb
  have hle : ∀ r ∈ r0 :: rows, r0.1 ≤ r.1 ∧ r.1 ≤ b.1 := by
    intro r hr
    constructor
    · rcases List.mem_cons.1 hr with rfl | hr
      · exact le_rfl
      · exact ((List.pairwise_cons.1 hs).1 r hr).le
    · have hsplit := List.dropLast_append_getLast (l := r0 :: rows) (by simp)
      rw [← hb] at hsplit
      rw [← hsplit] at hr hs
      rcases List.mem_append.1 hr with hr | hr
      · exact ((List.pairwise_append.1 hs).2.2 r hr b (by simp)).le
      · rw [List.mem_singleton.1 hr]
  have h0b := (hle b (List.getLast_mem _)).1
  have hlast : (r0 :: rows).getLast? = some b := List.getLast?_eq_some_getLast (by simp)
  refine ⟨_, by unfold asfreqDay; rw [if_pos hnd, List.head?_cons, hlast], ?_, ?_, ?_, ?_⟩
  · rw [List.pairwise_map]
    refine List.pairwise_lt_range.imp ?_
    intro i j hij
    simp only
    omega
  · intro t
    rw [List.map_map, List.mem_map]
    simp only [Function.comp, List.mem_range]
    constructor
    · rintro ⟨k, hk, rfl⟩
      refine ⟨by omega, by omega, ⟨(k : Int), by omega⟩⟩
    · rintro ⟨h1, h2, c, hc⟩
      exact ⟨c.toNat, by omega, by omega⟩
  · rintro r hr ⟨c, hc⟩
    obtain ⟨h1, h2⟩ := hle r hr
    refine List.mem_map.2 ⟨c.toNat, List.mem_range.2 (by omega), ?_⟩
    have e : r0.1 + 86400 * ((c.toNat : Nat) : Int) = r.1 := by omega
    rw [e]
    cases hf : (r0 :: rows).find? (fun q => decide (q.1 = r.1)) with
    | none =>
      have := List.find?_eq_none.1 hf r hr
      simp at this
    | some q =>
      have h3 := List.find?_some hf
      rw [decide_eq_true_eq] at h3
      have h4 : q = r := List.inj_on_of_nodup_map hnd (List.mem_of_find?_eq_some hf) hr h3
      rw [h4]
      rfl
  · intro t ht v hm
    obtain ⟨k, -, e⟩ := List.mem_map.1 hm
    obtain ⟨rfl, e2⟩ := Prod.mk.inj e
    obtain ⟨q, hq, -⟩ := Option.bind_eq_some_iff.1 e2
    apply ht
    have h3 := List.find?_some hq
    rw [decide_eq_true_eq] at h3
    rw [← h3]
    exact List.mem_map_of_mem (List.mem_of_find?_eq_some hq)

/-- C104: the series that is decomposed.  If the polynomial interpolation leaves the missing values, a value missing between
two known ones lies on the line between them, and at the ends the nearest known one is repeated; known values are kept. -/
theorem C104_filled (W : OutWorld) (rows : List (Int × Option ℝ)) (hinf : W.infers (rows.map (·.1)) = .ok true)
    (hpoly : W.poly (rows.map (·.2)) = .ok (rows.map (·.2))) (hk : ∃ r ∈ rows, ∃ v, r.2 = some v) :
    ∃ full, outPrepare W rows = .ok full ∧ full.map (·.1) = rows.map (·.1) ∧
      (∀ (i : Nat) (t : Int) (v : ℝ), rows[i]? = some (t, some v) → full[i]? = some (t, v)) ∧
      (∀ (i j k : Nat) (a b : ℝ), j < i → i < k → (rows.map (·.2)).getD j none = some a → (rows.map (·.2)).getD k none = some b →
        (∀ m, j < m → m < k → (rows.map (·.2)).getD m none = none) →
        (full.map (·.2))[i]? = some (a + (b - a) * (((i : ℝ) - j) / ((k : ℝ) - j)))) := by
  set y := rows.map (·.2) with hy
  have hyl : y.length = rows.length := by simp [hy]
  obtain ⟨z, hz, hzl, hknown, hgap⟩ : ∃ z : List (Option ℝ), z = (if y.any (fun x => x.isNone) then linInterp y else y) ∧ z.length = rows.length ∧
      (∀ (i : Nat) (v : ℝ), y.getD i none = some v → z.getD i none = some v) ∧
      (∀ (i j k : Nat) (a b : ℝ), j < i → i < k → y.getD j none = some a → y.getD k none = some b →
        (∀ m, j < m → m < k → y.getD m none = none) →
        z.getD i none = some (a + (b - a) * (((i : ℝ) - j) / ((k : ℝ) - j)))) := by
    refine ⟨_, rfl, ?_, ?_, ?_⟩
    · split_ifs
      · simp [linInterp, hyl]
      · exact hyl
    · intro i v h
      split_ifs
      · exact linInterp_known y i v h
      · exact h
    · intro i j k a b hji hik ha hb hn
      have hik' : k < y.length := by
        by_contra hc
        rw [List.getD_eq_default _ _ (by omega)] at hb
        simp at hb
      rw [if_pos]
      · exact linInterp_gap y i j k a b hji hik ha hb hn
      · refine List.any_eq_true.2 ⟨none, ?_, rfl⟩
        have := hn i hji hik
        rw [List.getD_eq_getElem _ _ (by omega)] at this
        rw [← this]
        exact List.getElem_mem _
  have hall : ∀ i, i < rows.length → ∃ v, z.getD i none = some v := by
    intro i hi
    rw [hz]
    split_ifs with hany
    · have hne : ∃ v, some v ∈ y := by
        obtain ⟨r, hr, v, hv⟩ := hk
        exact ⟨v, hv ▸ List.mem_map_of_mem hr⟩
      have hfin : ∀ l : List (Option ℝ), ∃ m M : ℝ, ∀ v, some v ∈ l → m ≤ v ∧ v ≤ M := by
        intro l
        induction l with
        | nil => exact ⟨0, 0, by simp⟩
        | cons a l ih =>
          obtain ⟨m, M, h⟩ := ih
          refine ⟨min (a.getD 0) m, max (a.getD 0) M, ?_⟩
          intro v hv
          rcases List.mem_cons.1 hv with rfl | hv
          · exact ⟨min_le_left _ _, le_max_left _ _⟩
          · exact ⟨(min_le_right _ _).trans (h v hv).1, (h v hv).2.trans (le_max_right _ _)⟩
      obtain ⟨m, M, hb⟩ := hfin y
      obtain ⟨x, hx, -⟩ := linInterp_bounds y m M hb hne i (by omega)
      exact ⟨x, hx⟩
    · rw [Bool.not_eq_true, List.any_eq_false] at hany
      have h1 := hany (y[i]'(by omega)) (List.getElem_mem _)
      rw [List.getD_eq_getElem _ _ (by omega)]
      cases e : y[i]'(by omega) with
      | none => rw [e] at h1; simp at h1
      | some v => exact ⟨v, rfl⟩
  have hno : z.any (fun x => x.isNone) = false := by
    rw [List.any_eq_false]
    intro x hx
    obtain ⟨i, hi, e⟩ := List.getElem_of_mem hx
    obtain ⟨v, hv⟩ := hall i (by omega)
    rw [List.getD_eq_getElem _ _ hi, e] at hv
    simp [hv]
  have hget : ∀ i v, z.getD i none = some v → (z.map fun x => x.getD 0)[i]? = some v := by
    intro i v h
    have hi : i < z.length := by
      by_contra hc
      rw [List.getD_eq_default _ _ (by omega)] at h
      simp at h
    rw [List.getD_eq_getElem _ _ hi] at h
    simp [hi, h]
  refine ⟨(rows.map (·.1)).zip (z.map fun x => x.getD 0), ?_, ?_, ?_, ?_⟩
  · unfold outPrepare
    simp only [hinf, hpoly, bind, Except.bind, pure, Except.pure, if_true, ← hz, ← hy, hno, Bool.false_eq_true, if_false]
  · exact List.map_fst_zip (by simp [hzl])
  · intro i t v h
    have h1 : y.getD i none = some v := by
      obtain ⟨hi, e⟩ := List.getElem?_eq_some_iff.1 h
      rw [List.getD_eq_getElem _ _ (by omega)]
      simp [hy, e]
    have h2 := hget i v (hknown i v h1)
    rw [List.getElem?_zip_eq_some]
    exact ⟨by simp [h], h2⟩
  · intro i j k a b hji hik ha hb hn
    rw [List.map_snd_zip (by simp [hzl])]
    exact hget i _ (hgap i j k a b hji hik ha hb hn)

example : ∃ full, asfreqDay [(0, some 1), (86400, none), (5 * 86400, some 4)] = .ok full ∧ full.map (·.1) =
    [0, 86400, 2 * 86400, 3 * 86400, 4 * 86400, 5 * 86400] := by
  refine ⟨_, by unfold asfreqDay; rw [if_pos (by simp)]; rfl, ?_⟩
  simp [List.range_succ]

example : ∃ full, outPrepare ⟨fun _ => .ok true, fun l => .ok l, fun _ _ => .error .valueError⟩ [(0, some 2), (1, none), (2, some 4)] =
    .ok full ∧ (full.map (·.2))[1]? = some 3 := by
  obtain ⟨full, h1, -, -, h4⟩ := C104_filled ⟨fun _ => .ok true, fun l => .ok l, fun _ _ => .error .valueError⟩
    [(0, some 2), (1, none), (2, some 4)] rfl rfl ⟨_, List.mem_cons_self, 2, rfl⟩
  refine ⟨full, h1, ?_⟩
  rw [h4 1 0 2 2 4 (by norm_num) (by norm_num) rfl rfl]
  · norm_num
  · intro m hm1 hm2
    obtain rfl : m = 1 := by omega
    rfl

end

end Kats
