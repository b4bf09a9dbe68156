import Verif.Props.GmEnsTrain
import Verif.Props.GmSingle

/-!
# C142: the forecasts of an ensemble of global models
-/

namespace Kats

/-! ## The mean and the median -/

section
variable {K : Type} [Field K] [LinearOrder K]

theorem np_sorted (l : List K) : (l.insertionSort (· ≤ ·)).Pairwise (· ≤ ·) := List.pairwise_insertionSort (· ≤ ·) l

theorem np_sort_perm {l l' : List K} (h : l.Perm l') : l.insertionSort (· ≤ ·) = l'.insertionSort (· ≤ ·) :=
  List.Perm.eq_of_pairwise (le := (· ≤ ·)) (fun _ _ _ _ h1 h2 => le_antisymm h1 h2) (np_sorted l) (np_sorted l')
    ((List.perm_insertionSort _ l).trans (h.trans (List.perm_insertionSort _ l').symm))

theorem np_count_le {s : List K} (hs : s.Pairwise (· ≤ ·)) (m : K) (k : Nat) (hk : k ≤ s.length)
    (h : ∀ i (hi : i < s.length), i + 1 = k → s[i] ≤ m) : k ≤ s.countP (fun x => decide (x ≤ m)) := by
  have h1 : (s.take k).countP (fun x => decide (x ≤ m)) = (s.take k).length := by
    rw [List.countP_eq_length]
    intro x hx
    obtain ⟨i, hi, rfl⟩ := List.getElem_of_mem hx
    rw [List.length_take] at hi
    rw [List.getElem_take]
    have hk1 : k - 1 < s.length := by omega
    have h2 := h (k - 1) hk1 (by omega)
    have h3 : s[i] ≤ s[k - 1] := by
      rcases Nat.lt_or_ge i (k - 1) with hlt | hge
      · exact List.pairwise_iff_getElem.1 hs i (k - 1) (by omega) hk1 hlt
      · have : i = k - 1 := by omega
        subst this
        exact le_refl _
    simpa using h3.trans h2
  have h2 : (s.take k).countP (fun x => decide (x ≤ m)) ≤ s.countP (fun x => decide (x ≤ m)) :=
    (List.take_sublist k s).countP_le
  rw [h1, List.length_take] at h2
  omega

theorem np_count_ge {s : List K} (hs : s.Pairwise (· ≤ ·)) (m : K) (k : Nat) (h : ∀ hi : k < s.length, m ≤ s[k]) :
    s.length - k ≤ s.countP (fun x => decide (m ≤ x)) := by
  have h1 : (s.drop k).countP (fun x => decide (m ≤ x)) = (s.drop k).length := by
    rw [List.countP_eq_length]
    intro x hx
    obtain ⟨i, hi, rfl⟩ := List.getElem_of_mem hx
    rw [List.length_drop] at hi
    rw [List.getElem_drop]
    have h3 : s[k] ≤ s[k + i] := by
      rcases Nat.eq_zero_or_pos i with h0 | h0
      · simp [h0]
      · exact List.pairwise_iff_getElem.1 hs k (k + i) (by omega) (by omega) (by omega)
    simpa using (h (by omega)).trans h3
  have h2 : (s.drop k).countP (fun x => decide (m ≤ x)) ≤ s.countP (fun x => decide (m ≤ x)) :=
    (List.drop_sublist k s).countP_le
  rw [h1, List.length_drop] at h2
  exact h2

theorem np_count_lt {s : List K} (hs : s.Pairwise (· ≤ ·)) (c : K) (k : Nat) (hk : k < s.length) (h : c < s[k]) :
    s.countP (fun x => decide (x ≤ c)) ≤ k := by
  have e : s = s.take k ++ s.drop k := (List.take_append_drop k s).symm
  rw [e, List.countP_append]
  have h1 : (s.drop k).countP (fun x => decide (x ≤ c)) = 0 := by
    rw [List.countP_eq_zero]
    intro x hx
    obtain ⟨i, hi, rfl⟩ := List.getElem_of_mem hx
    rw [List.getElem_drop]
    rw [List.length_drop] at hi
    have h3 : s[k] ≤ s[k + i] := by
      rcases Nat.eq_zero_or_pos i with h0 | h0
      · simp [h0]
      · exact List.pairwise_iff_getElem.1 hs k (k + i) hk (by omega) (by omega)
    simp only [decide_eq_true_eq, not_le]
    exact lt_of_lt_of_le h h3
  have h2 := (s.take k).countP_le_length (p := fun x => decide (x ≤ c))
  rw [List.length_take] at h2
  omega

theorem np_count_mono {xs ys : List K} (h : List.Forall₂ (· ≤ ·) xs ys) (c : K) :
    ys.countP (fun x => decide (x ≤ c)) ≤ xs.countP (fun x => decide (x ≤ c)) := by
  induction h with
  | nil => simp
  | @cons x y xs ys hxy _ ih =>
    rw [List.countP_cons, List.countP_cons]
    by_cases hy : y ≤ c
    · have hx : x ≤ c := hxy.trans hy
      simp only [hx, hy, decide_true, if_true]
      omega
    · simp only [hy, decide_false]
      split <;> simp_all <;> omega

theorem np_sort_mono {xs ys : List K} (h : List.Forall₂ (· ≤ ·) xs ys) (k : Nat)
    (hk : k < (xs.insertionSort (· ≤ ·)).length) (hk' : k < (ys.insertionSort (· ≤ ·)).length) :
    (xs.insertionSort (· ≤ ·))[k] ≤ (ys.insertionSort (· ≤ ·))[k] := by
  by_contra hcon
  push Not at hcon
  obtain ⟨c, hc⟩ : ∃ c, c = (ys.insertionSort (· ≤ ·))[k] := ⟨_, rfl⟩
  rw [← hc] at hcon
  have a1 := np_count_lt (np_sorted xs) c k hk hcon
  have a2 := np_count_le (np_sorted ys) c (k + 1) (by omega) (by
    intro i hi e
    have : i = k := by omega
    subst this
    exact hc.ge)
  rw [(List.perm_insertionSort (· ≤ ·) xs).countP_eq] at a1
  rw [(List.perm_insertionSort (· ≤ ·) ys).countP_eq] at a2
  have := np_count_mono h c
  omega

variable [IsStrictOrderedRing K]

/-- What makes a function a kind of average: the order of the values does not matter, the result is between the
least and the greatest, greater values do not give a smaller result, and it follows a change of the unit. -/
structure IsAverage (f : List K → K) : Prop where
  perm : ∀ l l', l.Perm l' → f l = f l'
  between : ∀ l, l ≠ [] → ∀ lo hi, (∀ x ∈ l, lo ≤ x ∧ x ≤ hi) → lo ≤ f l ∧ f l ≤ hi
  mono : ∀ xs ys, List.Forall₂ (· ≤ ·) xs ys → xs ≠ [] → f xs ≤ f ys
  affine : ∀ (l : List K) (a b : K), 0 ≤ a → l ≠ [] → f (l.map fun x => a * x + b) = a * f l + b

/-- C142: the mean is an average, and as many times it as there are values is their sum. -/
theorem C142_mean : IsAverage (gmEnsMean : List K → K) ∧
    ∀ l : List K, l ≠ [] → (l.length : K) * gmEnsMean l = l.sum := by
  have hpos : ∀ l : List K, l ≠ [] → (0 : K) < (l.length : K) := fun l h => by
    exact_mod_cast List.length_pos_iff.2 h
  refine ⟨⟨?_, ?_, ?_, ?_⟩, ?_⟩
  · intro l l' h
    unfold gmEnsMean
    rw [h.sum_eq, h.length_eq]
  · intro l hne lo hi h
    have h1 : (l.length : K) * lo ≤ l.sum ∧ l.sum ≤ (l.length : K) * hi := by
      clear hne
      induction l with
      | nil => simp
      | cons a l ih =>
        have ih := ih fun x hx => h x (by simp [hx])
        have ha := h a (by simp)
        rw [List.length_cons, List.sum_cons]
        push_cast
        constructor <;> nlinarith
    unfold gmEnsMean
    rw [le_div_iff₀ (hpos l hne), div_le_iff₀ (hpos l hne), mul_comm lo, mul_comm hi]
    exact h1
  · intro xs ys h hne
    unfold gmEnsMean
    rw [← h.length_eq]
    refine div_le_div_of_nonneg_right ?_ (hpos xs hne).le
    exact h.sum_le_sum
  · intro l a b _ hne
    have h1 : (l.map fun x => a * x + b).sum = a * l.sum + (l.length : K) * b := by
      clear hne
      induction l with
      | nil => simp
      | cons c l ih =>
        rw [List.map_cons, List.sum_cons, ih, List.sum_cons, List.length_cons]
        push_cast
        ring
    have := (hpos l hne).ne'
    unfold gmEnsMean
    rw [h1, List.length_map]
    field_simp
  · intro l hne
    unfold gmEnsMean
    rw [mul_div_cancel₀ _ (hpos l hne).ne']

theorem median_sorted (l : List K) (s : List K) (hp : s.Perm l) (hs : s.Pairwise (· ≤ ·)) :
    gmEnsMedian l = (s.getD ((s.length - 1) / 2) 0 + s.getD (s.length / 2) 0) / 2 := by
  have : l.insertionSort (· ≤ ·) = s :=
    List.Perm.eq_of_pairwise (le := (· ≤ ·)) (fun _ _ _ _ h1 h2 => le_antisymm h1 h2) (np_sorted l) hs
      ((List.perm_insertionSort _ l).trans hp.symm)
  unfold gmEnsMedian
  rw [this]

/-- C142: the median is an average, and half of the values are not above it and half are not below. -/
theorem C142_median : IsAverage (gmEnsMedian : List K → K) ∧ ∀ l : List K, l ≠ [] →
    l.length ≤ 2 * l.countP (fun x => decide (x ≤ gmEnsMedian l)) ∧
    l.length ≤ 2 * l.countP (fun x => decide (gmEnsMedian l ≤ x)) := by
  have hget : ∀ (l : List K) i, i < l.length → l.getD i 0 ∈ l := by
    intro l i hi
    rw [gmp_getD _ _ _ hi]
    exact List.getElem_mem hi
  have hlen : ∀ l : List K, (l.insertionSort (· ≤ ·)).length = l.length := fun l => List.length_insertionSort _ l
  refine ⟨⟨?_, ?_, ?_, ?_⟩, ?_⟩
  · intro l l' h
    unfold gmEnsMedian
    rw [np_sort_perm h]
  · intro l hne lo hi h
    have hp := List.length_pos_iff.2 hne
    have hb : ∀ i, i < l.length → lo ≤ (l.insertionSort (· ≤ ·)).getD i 0 ∧
        (l.insertionSort (· ≤ ·)).getD i 0 ≤ hi := by
      intro i hi'
      exact h _ ((List.perm_insertionSort _ l).mem_iff.1 (hget _ i (by rw [hlen]; exact hi')))
    unfold gmEnsMedian
    dsimp only
    rw [hlen]
    have h1 := hb ((l.length - 1) / 2) (by omega)
    have h2 := hb (l.length / 2) (by omega)
    rw [le_div_iff₀ two_pos, div_le_iff₀ two_pos]
    constructor <;> linarith [h1.1, h1.2, h2.1, h2.2]
  · intro xs ys h hne
    have hl := h.length_eq
    have hp := List.length_pos_iff.2 hne
    have hk : ∀ k, k < xs.length →
        (xs.insertionSort (· ≤ ·)).getD k 0 ≤ (ys.insertionSort (· ≤ ·)).getD k 0 := by
      intro k hk
      rw [gmp_getD _ _ _ (by rw [hlen]; exact hk), gmp_getD _ _ _ (by rw [hlen]; omega)]
      exact np_sort_mono h k _ _
    unfold gmEnsMedian
    dsimp only
    rw [hlen, hlen, ← hl]
    have h1 := hk ((xs.length - 1) / 2) (by omega)
    have h2 := hk (xs.length / 2) (by omega)
    linarith
  · intro l a b ha hne
    have hp := List.length_pos_iff.2 hne
    have hs : ((l.insertionSort (· ≤ ·)).map fun x => a * x + b).Pairwise (· ≤ ·) := by
      rw [List.pairwise_map]
      refine (np_sorted l).imp ?_
      intro x y h
      have := mul_le_mul_of_nonneg_left h ha
      linarith
    rw [median_sorted _ _ ((List.perm_insertionSort _ l).map _) hs]
    unfold gmEnsMedian
    dsimp only
    rw [List.length_map, hlen]
    have hm : ∀ i, i < l.length → ((l.insertionSort (· ≤ ·)).map fun x => a * x + b).getD i 0 =
        a * (l.insertionSort (· ≤ ·)).getD i 0 + b := by
      intro i hi
      rw [gmp_getD _ _ _ (by rw [List.length_map, hlen]; exact hi), gmp_getD _ _ _ (by rw [hlen]; exact hi),
        List.getElem_map]
    rw [hm _ (by omega), hm _ (by omega)]
    ring
  · intro l hne
    have hp := List.length_pos_iff.2 hne
    obtain ⟨m, hm⟩ : ∃ m, m = gmEnsMedian l := ⟨_, rfl⟩
    rw [← hm]
    unfold gmEnsMedian at hm
    dsimp only at hm
    have hsort := np_sorted l
    have hl := hlen l
    have hpm := List.perm_insertionSort (· ≤ ·) l
    obtain ⟨s, hs⟩ : ∃ s, s = l.insertionSort (· ≤ ·) := ⟨_, rfl⟩
    rw [← hs] at hm hsort hl hpm
    rw [gmp_getD _ _ _ (by omega), gmp_getD _ _ _ (by omega)] at hm
    have hle : s[(s.length - 1) / 2]'(by omega) ≤ s[s.length / 2]'(by omega) := by
      rcases Nat.lt_or_ge ((s.length - 1) / 2) (s.length / 2) with hlt | hge
      · exact List.pairwise_iff_getElem.1 hsort _ _ _ _ hlt
      · have : (s.length - 1) / 2 = s.length / 2 := by omega
        simp only [this]
        exact le_refl _
    have h1 : s[(s.length - 1) / 2]'(by omega) ≤ m := by rw [hm]; linarith
    have h2 : m ≤ s[s.length / 2]'(by omega) := by rw [hm]; linarith
    have c1 := np_count_le hsort m ((s.length - 1) / 2 + 1) (by omega) (by
      intro i hi e
      have : i = (s.length - 1) / 2 := by omega
      subst this
      exact h1)
    have c2 := np_count_ge hsort m (s.length / 2) fun _ => h2
    rw [hpm.countP_eq] at c1 c2
    omega

/-- The function that an ensemble uses is one of the two. -/
theorem ensFunc_average (kind : String) : IsAverage (gmEnsFunc kind : List K → K) := by
  unfold gmEnsFunc
  split
  · exact C142_median.1
  · exact C142_mean.1

/-- C142: with the kind "median" half of the values are at most the combination and half at least; with "mean" its multiple is their sum. -/
theorem C142_kind (l : List K) (hl : l ≠ []) : (l.length : K) * gmEnsFunc "mean" l = l.sum ∧
    l.length ≤ 2 * l.countP (fun x => decide (x ≤ gmEnsFunc "median" l)) ∧
    l.length ≤ 2 * l.countP (fun x => decide (gmEnsFunc "median" l ≤ x)) := by
  unfold gmEnsFunc
  rw [if_neg (by decide), if_pos rfl]
  exact ⟨C142_mean.2 l hl, C142_median.2 l hl⟩

end

example : gmEnsFunc "mean" [1, 2, (9 : Rat)] = 4 ∧ gmEnsFunc "median" [1, 2, (9 : Rat)] = 2 := by decide +kernel

example : gmEnsMean [1, 5, (9 : Rat)] = 5 ∧ gmEnsMedian [9, 1, (4 : Rat)] = 4 ∧ gmEnsMedian [9, 1, 2, (4 : Rat)] = 3 := by
  decide +kernel

/-! ## The combined windows -/

section
variable {K : Type} [Field K]

theorem combine_ok (f : List K → K) (fcsts : List (List (List K))) (hne : fcsts ≠ []) (n L : Nat)
    (h : ∀ w ∈ fcsts, w.length = n ∧ ∀ r ∈ w, r.length = L) :
    gmCombine f fcsts = .ok ((List.range n).map fun j => (List.range L).map fun i =>
      f (fcsts.map fun w => (w.getD j []).getD i 0)) := by
  have hat : ∀ j ∈ List.range n, gmCombineAt f fcsts j = .ok ((List.range L).map fun i =>
      f (fcsts.map fun w => (w.getD j []).getD i 0)) := by
    intro j hj
    rw [List.mem_range] at hj
    unfold gmCombineAt
    rw [mapM_eq_map _ (fun w => w.getD j []) fcsts (by
      intro w hw
      have := (h w hw).1
      rw [List.getElem?_eq_getElem (by omega), gmp_getD _ j _ (by omega)])]
    show (if ((fcsts.map fun w => w.getD j []).all fun x => decide (x.length =
      ((fcsts.map fun w => w.getD j []).headD []).length)) = true then _ else _) = _
    have hL : ∀ x ∈ fcsts.map fun w => w.getD j [], x.length = L := by
      intro x hx
      obtain ⟨w, hw, rfl⟩ := List.mem_map.1 hx
      obtain ⟨a, b⟩ := h w hw
      rw [gmp_getD _ j _ (by omega)]
      exact b _ (List.getElem_mem _)
    have hhead : ((fcsts.map fun w => w.getD j []).headD []).length = L := by
      rcases fcsts with _ | ⟨w, l⟩
      · exact absurd rfl hne
      · exact hL _ (by simp)
    rw [hhead, if_pos (by
      rw [List.all_eq_true]
      intro x hx
      simpa using hL x hx)]
    simp only [List.map_map]
    rfl
  rcases fcsts with _ | ⟨w, l⟩
  · exact absurd rfl hne
  · unfold gmCombine
    simp only []
    rw [(h w (by simp)).1]
    exact mapM_eq_map _ _ _ hat

/-- What is known of the models of an ensemble. -/
structure GmEnsOk (p : GmParams) (quantile : List String) (n : Nat) (models : List (GmRand × GmPredictor K)) : Prop where
  some : models ≠ []
  rand : ∀ m ∈ models, GmRandOk m.1
  params : ∀ m ∈ models, m.2.p = p
  quantile : ∀ m ∈ models, m.2.quantile = quantile
  single : ∀ m ∈ models, GmSingleOk m.2 n

theorem mem_unique {α : Type} (d : List (GmKey × α)) (hd : (d.map (·.1)).Nodup) (k : GmKey) (x y : α)
    (hx : (k, x) ∈ d) (hy : (k, y) ∈ d) : x = y := by
  have h1 := gm_lookup_of_mem d hd k x hx
  rw [gm_lookup_of_mem d hd k y hy] at h1
  injection h1 with h1
  exact h1.symm

/-- C142: an ensemble gives, in the order of the series, one frame for every series: with the same columns and the
same times as the frames that its models give, and the value at a step and a quantile is the average of the values
that its models have there.  With `raw` it gives the windows that have these values. -/
theorem C142_predict (f : List K → K) (multi : Bool) (p : GmParams) (hp : GmPredOk p) (quantile : List String)
    (hq : quantile ≠ []) (steps : Nat) (hsteps : 1 ≤ steps) (models : List (GmRand × GmPredictor K))
    (hM : GmEnsOk p quantile (gmStepNum steps p.fcstWindow) models)
    (data : List (GmKey × Bool × GmTs)) (hne : data ≠ []) (hd : (data.map (·.1)).Nodup)
    (hplain : gmNpKeys (data.map (·.1)) = data.map (·.1)) (hs : ∀ e ∈ data, GmSeriesOk p e.2)
    (size : Int) (hsize : 0 < size) :
    ∃ res raw, gmEnsPredict f multi p quantile models data steps size = .ok res ∧
      gmEnsPredictRaw f multi models data steps size = .ok raw ∧
      res.map (·.1) = data.map (·.1) ∧ raw.map (·.1) = data.map (·.1) ∧
      (∀ k w, (k, w) ∈ raw → w.length = (steps + p.fcstWindow - 1) / p.fcstWindow ∧
        ∀ r ∈ w, r.length = p.fcstWindow * quantile.length) ∧
      ∃ frames, models.mapM (fun m => gmPredict m.1 m.2 data steps size) = .ok frames ∧
        ∀ k t, (k, t) ∈ res → ∃ s b w ts, (k, s) ∈ data ∧ s.2.getLast? = some b ∧ (k, w) ∈ raw ∧
          List.Forall₂ (fun fr tm => (k, tm) ∈ fr) frames ts ∧
          t.names = quantile.map ("fcst_quantile_" ++ ·) ∧ t.rows.length = steps ∧ t.time.length = steps ∧
          (∀ r ∈ t.rows, r.length = quantile.length) ∧
          (∀ i : Nat, i < steps → t.time[i]? = some (b.1 + ((i : Int) + 1) * p.freq)) ∧
          (∀ tm ∈ ts, tm.names = t.names ∧ tm.time = t.time) ∧
          ∀ i j, i < steps → j < quantile.length →
            (t.rows.getD i []).getD j 0 = f (ts.map fun tm => (tm.rows.getD i []).getD j 0) ∧
            ∃ r, w[i / p.fcstWindow]? = some r ∧
              r[j * p.fcstWindow + i % p.fcstWindow]? = some ((t.rows.getD i []).getD j 0) := by
  have hfw := hp.wf.fw
  have hone : ∀ m : GmRand × GmPredictor K, ∃ res raw, m ∈ models → gmPredict m.1 m.2 data steps size = .ok res ∧
      gmPredictRaw m.1 m.2 data steps size = .ok raw ∧
      (res.map (·.1)).Perm (data.map (·.1)) ∧ raw.map (·.1) = res.map (·.1) ∧
      (∀ k w, (k, w) ∈ raw → w.length = (steps + p.fcstWindow - 1) / p.fcstWindow ∧
        ∀ r ∈ w, r.length = p.fcstWindow * quantile.length) ∧
      ∀ k t, (k, t) ∈ res → ∃ s b w, (k, s) ∈ data ∧ s.2.getLast? = some b ∧ (k, w) ∈ raw ∧
        t.names = quantile.map ("fcst_quantile_" ++ ·) ∧ t.rows.length = steps ∧ t.time.length = steps ∧
        (∀ r ∈ t.rows, r.length = quantile.length) ∧
        (∀ i : Nat, i < steps → t.time[i]? = some (b.1 + ((i : Int) + 1) * p.freq)) ∧
        ∀ i j, i < steps → j < quantile.length → ∃ r v, w[i / p.fcstWindow]? = some r ∧
          r[j * p.fcstWindow + i % p.fcstWindow]? = some v ∧ (t.rows.getD i []).getD j 0 = v := by
    intro m
    by_cases h : m ∈ models
    · have h1 := hM.params m h
      have h2 := hM.quantile m h
      obtain ⟨res, raw, hh⟩ := C141_predict m.1 (hM.rand m h) m.2 (by rw [h1]; exact hp) (by rw [h2]; exact hq) steps
        hsteps (by rw [h1]; exact hM.single m h) data hne hd hplain (by rw [h1]; exact hs) size hsize
      rw [h1, h2] at hh
      exact ⟨res, raw, fun _ => hh⟩
    · exact ⟨[], [], fun h' => absurd h' h⟩
  choose RES RAW hR using hone
  -- the frame and the windows of a key
  have hkey : ∀ (m : GmRand × GmPredictor K) (k : GmKey), ∃ t w, m ∈ models → k ∈ data.map (·.1) →
      (k, t) ∈ RES m ∧ (k, w) ∈ RAW m ∧ gmLookup (RAW m) k = .ok w := by
    intro m k
    by_cases h : m ∈ models ∧ k ∈ data.map (·.1)
    · obtain ⟨_, _, r3, r4, _⟩ := hR m h.1
      have h1 : k ∈ (RES m).map (·.1) := r3.mem_iff.2 h.2
      have h2 : k ∈ (RAW m).map (·.1) := by rw [r4]; exact h1
      have hn : ((RAW m).map (·.1)).Nodup := by rw [r4]; exact r3.nodup_iff.2 hd
      obtain ⟨e, he, rfl⟩ := List.mem_map.1 h1
      obtain ⟨e', he', hee⟩ := List.mem_map.1 h2
      have he'' : (e.1, e'.2) ∈ RAW m := by rw [← hee]; exact he'
      exact ⟨e.2, e'.2, fun _ _ => ⟨he, he'', gm_lookup_of_mem _ hn _ _ he''⟩⟩
    · exact ⟨⟨[], [], []⟩, [], fun a b => absurd ⟨a, b⟩ h⟩
  choose T W hTW using hkey
  have hall : models.mapM (fun m => gmPredictRaw m.1 m.2 data steps size) = .ok (models.map RAW) :=
    mapM_eq_map _ _ _ fun m hm => (hR m hm).2.1
  have hfr : models.mapM (fun m => gmPredict m.1 m.2 data steps size) = .ok (models.map RES) :=
    mapM_eq_map _ _ _ fun m hm => (hR m hm).1
  obtain ⟨n, hn⟩ : ∃ n, n = (steps + p.fcstWindow - 1) / p.fcstWindow := ⟨_, rfl⟩
  obtain ⟨C, hC⟩ : ∃ C : GmKey → List (List K), C = fun k => (List.range n).map fun j =>
    (List.range (p.fcstWindow * quantile.length)).map fun i =>
      f ((models.map fun m => W m k).map fun w => (w.getD j []).getD i 0) := ⟨_, rfl⟩
  have hraw : ∀ k ∈ data.map (·.1), gmEnsRaw f (models.map RAW) k = .ok (k, C k) := by
    intro k hk
    unfold gmEnsRaw
    rw [List.mapM_map, mapM_eq_map ((fun d => gmLookup d k) ∘ RAW) (fun m => W m k) models fun m hm => (hTW m k hm hk).2.2]
    show (gmCombine f (models.map fun m => W m k) >>= fun w => _) = _
    rw [combine_ok f (models.map fun m => W m k) (by simpa using hM.some) n (p.fcstWindow * quantile.length) (by
      intro w hw
      obtain ⟨m, hm, rfl⟩ := List.mem_map.1 hw
      rw [hn]
      exact (hR m hm).2.2.2.2.1 k _ (hTW m k hm hk).2.1), hC]
    rfl
  have hCs : ∀ k, (C k).length = n ∧ ∀ r ∈ C k, r.length = p.fcstWindow * quantile.length := by
    intro k
    rw [hC]
    refine ⟨by simp, ?_⟩
    intro r hr
    simp only [List.mem_map] at hr
    obtain ⟨j, _, rfl⟩ := hr
    simp
  have hn1 : 1 ≤ n := by
    rw [hn, Nat.le_div_iff_mul_le (by omega)]
    omega
  have hns : steps ≤ n * p.fcstWindow := by
    obtain ⟨s1, s2, s3, s4⟩ := stepNum_spec steps p.fcstWindow hfw
    rw [hn, ← s1]
    exact s2
  -- the frame of a key
  have hframe : ∀ k, ∃ t : GmTable K, k ∈ data.map (·.1) → ∃ s b, (k, s) ∈ data ∧ s.2.getLast? = some b ∧
      gmFrame quantile p.freq steps (C k) (b.1 + p.freq) = .ok t ∧
      gmEnsFrame f quantile p.freq data steps (models.map RAW) k = .ok (k, t) := by
    intro k
    by_cases hk : k ∈ data.map (·.1)
    · obtain ⟨m, hm⟩ := List.exists_mem_of_ne_nil _ hM.some
      obtain ⟨s, b, w, d1, d2, _⟩ := (hR m hm).2.2.2.2.2 k _ (hTW m k hm hk).1
      obtain ⟨t, ht, _⟩ := C141_frame quantile hq p.fcstWindow hfw p.freq steps (C k) (by
        rw [← List.length_pos_iff, (hCs k).1]; exact hn1) (hCs k).2 (by rw [(hCs k).1]; exact hns) (b.1 + p.freq)
      refine ⟨t, fun _ => ⟨s, b, d1, d2, ht, ?_⟩⟩
      unfold gmEnsFrame
      rw [gm_lookup_of_mem data hd k s d1]
      show (match s.2.getLast? with
        | none => Except.error Err.indexError
        | some b => _) = _
      rw [d2]
      show (gmEnsRaw f (models.map RAW) k >>= fun w => _) = _
      rw [hraw k hk]
      show (gmFrame quantile p.freq steps (C k) (b.1 + p.freq) >>= fun t => _) = _
      rw [ht]
      rfl
    · exact ⟨⟨[], [], []⟩, fun h => absurd h hk⟩
  choose F hF using hframe
  have hpre : ∀ {β : Type} (one : List (List (GmKey × List (List K))) → GmKey → Except Err (GmKey × β)) (g : GmKey → β),
      (∀ k ∈ data.map (·.1), one (models.map RAW) k = .ok (k, g k)) →
      gmEnsPredictWith multi models data steps size one = .ok ((data.map (·.1)).map fun k => (k, g k)) := by
    intro β one g h
    unfold gmEnsPredictWith
    rw [if_neg (by omega), if_neg (by omega)]
    simp only [Int.toNat_natCast]
    rw [hall]
    show (data.map (·.1)).mapM (fun k => gmEnsWrap multi (one (models.map RAW) k)) = _
    apply mapM_eq_map
    intro k hk
    rw [h k hk]
    rfl
  refine ⟨(data.map (·.1)).map fun k => (k, F k), (data.map (·.1)).map fun k => (k, C k), ?_, ?_, ?_, ?_, ?_,
    models.map RES, hfr, ?_⟩
  · unfold gmEnsPredict
    rw [Int.toNat_natCast]
    exact hpre _ F fun k hk => by
      obtain ⟨s, b, _, _, _, h⟩ := hF k hk
      exact h
  · exact hpre _ C hraw
  · rw [List.map_map]; exact List.map_id _
  · rw [List.map_map]; exact List.map_id _
  · intro k w h
    obtain ⟨k', _, e⟩ := List.mem_map.1 h
    injection e with e1 e2
    subst e1 e2
    rw [← hn]
    exact hCs k'
  · intro k t h
    obtain ⟨k', hk, e⟩ := List.mem_map.1 h
    injection e with e1 e2
    subst e1 e2
    obtain ⟨s, b, d1, d2, d3, _⟩ := hF k' hk
    obtain ⟨t, ht, g1, g2, g3, g4, g5, g6⟩ := C141_frame quantile hq p.fcstWindow hfw p.freq steps (C k') (by
        rw [← List.length_pos_iff, (hCs k').1]; exact hn1) (hCs k').2 (by rw [(hCs k').1]; exact hns) (b.1 + p.freq)
    rw [d3] at ht
    injection ht with ht
    subst ht
    have htime : ∀ i : Nat, i < steps → (F k').time[i]? = some (b.1 + ((i : Int) + 1) * p.freq) := by
      intro i hi
      rw [g6 i hi]
      congr 1
      ring
    refine ⟨s, b, C k', models.map fun m => T m k', d1, d2, List.mem_map.2 ⟨k', hk, rfl⟩, ?_, g1, g2, g3, g4, htime, ?_, ?_⟩
    · rw [List.forall₂_map_left_iff, List.forall₂_map_right_iff, List.forall₂_same]
      intro m hm
      exact (hTW m k' hm hk).1
    · intro tm htm
      obtain ⟨m, hm, rfl⟩ := List.mem_map.1 htm
      obtain ⟨s', b', w', c1, c2, _, c4, c5, c6, _, c8, _⟩ := (hR m hm).2.2.2.2.2 k' _ (hTW m k' hm hk).1
      have hss := mem_unique data hd k' s s' d1 c1
      subst hss
      rw [d2] at c2
      injection c2 with c2
      subst c2
      refine ⟨c4.trans g1.symm, ?_⟩
      apply List.ext_getElem?
      intro i
      by_cases hi : i < steps
      · rw [c8 i hi, htime i hi]
      · rw [List.getElem?_eq_none (by omega), List.getElem?_eq_none (by omega)]
    · intro i j hi hj
      obtain ⟨r, v, v1, v2, v3⟩ := g5 i j hi hj
      refine ⟨?_, r, v1, by rw [v2, v3]⟩
      rw [v3]
      have hin : i / p.fcstWindow < n := by
        rw [Nat.div_lt_iff_lt_mul (by omega)]
        omega
      rw [hC] at v1
      simp only [List.getElem?_map, List.getElem?_range hin, Option.map_some] at v1
      injection v1 with v1
      rw [← v1] at v2
      have hmod : i % p.fcstWindow < p.fcstWindow := Nat.mod_lt _ (by omega)
      have hjn : j * p.fcstWindow + i % p.fcstWindow < p.fcstWindow * quantile.length := by
        have : (j + 1) * p.fcstWindow ≤ quantile.length * p.fcstWindow := Nat.mul_le_mul_right _ hj
        rw [Nat.add_mul, Nat.one_mul, Nat.mul_comm quantile.length] at this
        omega
      simp only [List.getElem?_map, List.getElem?_range hjn, Option.map_some] at v2
      injection v2 with v2
      rw [← v2, List.map_map, List.map_map]
      congr 1
      apply List.map_congr_left
      intro m hm
      obtain ⟨s', b', w', _, _, c3, _, _, _, _, _, c9⟩ := (hR m hm).2.2.2.2.2 k' _ (hTW m k' hm hk).1
      have hnd : ((RAW m).map (·.1)).Nodup := by
        rw [(hR m hm).2.2.2.1]; exact (hR m hm).2.2.1.nodup_iff.2 hd
      have hww := mem_unique (RAW m) hnd k' _ _ c3 (hTW m k' hm hk).2.1
      subst hww
      obtain ⟨r', v', u1, u2, u3⟩ := c9 i j hi hj
      simp only [Function.comp_apply]
      rw [u3, List.getD_eq_getElem?_getD, List.getD_eq_getElem?_getD, u1, Option.getD_some, u2, Option.getD_some]

/-- C142: `predict` refuses numbers of steps and batch sizes that are not positive. -/
theorem C142_predict_refused (f : List K → K) (multi : Bool) (p : GmParams) (quantile : List String)
    (models : List (GmRand × GmPredictor K)) (data : List (GmKey × Bool × GmTs)) (steps size : Int)
    (h : steps ≤ 0 ∨ size ≤ 0) : gmEnsPredict f multi p quantile models data steps size = .error .valueError := by
  unfold gmEnsPredict gmEnsPredictWith
  rcases h with h | h
  · rw [if_pos h]
  · split
    · rfl
    · rfl

end

section
variable {K : Type} [Field K] [LinearOrder K] [IsStrictOrderedRing K]

/-- C142: if in the forecasts of every model a quantile is not above another one at some step, neither is it in the
forecast of the ensemble; and the forecast is between the least and the greatest forecast of a model. -/
theorem C142_quantiles (kind : String) (multi : Bool) (p : GmParams) (hp : GmPredOk p) (quantile : List String)
    (hq : quantile ≠ []) (steps : Nat) (hsteps : 1 ≤ steps) (models : List (GmRand × GmPredictor K))
    (hM : GmEnsOk p quantile (gmStepNum steps p.fcstWindow) models)
    (data : List (GmKey × Bool × GmTs)) (hne : data ≠ []) (hd : (data.map (·.1)).Nodup)
    (hplain : gmNpKeys (data.map (·.1)) = data.map (·.1)) (hs : ∀ e ∈ data, GmSeriesOk p e.2)
    (size : Int) (hsize : 0 < size) (res : List (GmKey × GmTable K))
    (hres : gmEnsPredict (gmEnsFunc kind) multi p quantile models data steps size = .ok res)
    (frames : List (List (GmKey × GmTable K)))
    (hfr : models.mapM (fun m => gmPredict m.1 m.2 data steps size) = .ok frames)
    (k : GmKey) (t : GmTable K) (hkt : (k, t) ∈ res) (i : Nat) (hi : i < steps) :
    (∀ j j', j < quantile.length → j' < quantile.length →
      (∀ fr ∈ frames, ∀ tm, (k, tm) ∈ fr → (tm.rows.getD i []).getD j 0 ≤ (tm.rows.getD i []).getD j' 0) →
      (t.rows.getD i []).getD j 0 ≤ (t.rows.getD i []).getD j' 0) ∧
    ∀ j lo hi', j < quantile.length →
      (∀ fr ∈ frames, ∀ tm, (k, tm) ∈ fr → lo ≤ (tm.rows.getD i []).getD j 0 ∧ (tm.rows.getD i []).getD j 0 ≤ hi') →
      lo ≤ (t.rows.getD i []).getD j 0 ∧ (t.rows.getD i []).getD j 0 ≤ hi' := by
  obtain ⟨res', raw, r1, _, _, _, _, frames', r6, r7⟩ := C142_predict (gmEnsFunc kind) multi p hp quantile hq steps hsteps
    models hM data hne hd hplain hs size hsize
  rw [hres] at r1
  injection r1 with r1
  subst r1
  rw [hfr] at r6
  injection r6 with r6
  subst r6
  obtain ⟨s, b, w, ts, _, _, _, h4, _, _, _, _, _, _, h11⟩ := r7 k t hkt
  have hlen : frames.length = models.length := by
    have := (mapM_forall2 _ _ _ hfr).length_eq
    omega
  have hts : ts ≠ [] := by
    have h1 := List.length_pos_iff.2 hM.some
    have h2 := h4.length_eq
    rw [← List.length_pos_iff]
    omega
  have hmem : ∀ tm ∈ ts, ∃ fr ∈ frames, (k, tm) ∈ fr := by
    clear * - h4
    induction h4 with
    | nil => simp
    | @cons a b l m hab _ ih =>
      intro tm htm
      rcases List.mem_cons.1 htm with rfl | h
      · exact ⟨a, by simp, hab⟩
      · obtain ⟨fr, h1, h2⟩ := ih tm h
        exact ⟨fr, by simp [h1], h2⟩
  have hav := ensFunc_average (K := K) kind
  constructor
  · intro j j' hj hj' h
    rw [(h11 i j hi hj).1, (h11 i j' hi hj').1]
    refine hav.mono _ _ ?_ (by simpa using hts)
    rw [List.forall₂_map_left_iff, List.forall₂_map_right_iff, List.forall₂_same]
    intro tm htm
    obtain ⟨fr, h1, h2⟩ := hmem tm htm
    exact h fr h1 tm h2
  · intro j lo hi' hj h
    rw [(h11 i j hi hj).1]
    refine hav.between _ (by simpa using hts) lo hi' ?_
    intro x hx
    obtain ⟨tm, htm, rfl⟩ := List.mem_map.1 hx
    obtain ⟨fr, h1, h2⟩ := hmem tm htm
    exact h fr h1 tm h2

/-- C142: an ensemble of one model gives the frames of that model. -/
theorem C142_single (kind : String) (multi : Bool) (p : GmParams) (hp : GmPredOk p) (quantile : List String)
    (hq : quantile ≠ []) (steps : Nat) (hsteps : 1 ≤ steps) (m : GmRand × GmPredictor K)
    (hM : GmEnsOk p quantile (gmStepNum steps p.fcstWindow) [m])
    (data : List (GmKey × Bool × GmTs)) (hne : data ≠ []) (hd : (data.map (·.1)).Nodup)
    (hplain : gmNpKeys (data.map (·.1)) = data.map (·.1)) (hs : ∀ e ∈ data, GmSeriesOk p e.2)
    (size : Int) (hsize : 0 < size) :
    ∃ res fr, gmEnsPredict (gmEnsFunc kind) multi p quantile [m] data steps size = .ok res ∧
      gmPredict m.1 m.2 data steps size = .ok fr ∧ res.Perm fr := by
  obtain ⟨res, raw, r1, _, r3, _, _, frames, r6, r7⟩ := C142_predict (gmEnsFunc kind) multi p hp quantile hq steps hsteps
    [m] hM data hne hd hplain hs size hsize
  have hmp := hM.params m (by simp)
  have hmq := hM.quantile m (by simp)
  obtain ⟨fr, _, q1, _, q3, _, _, q6⟩ := C141_predict m.1 (hM.rand m (by simp)) m.2 (by rw [hmp]; exact hp)
    (by rw [hmq]; exact hq) steps hsteps (by rw [hmp]; exact hM.single m (by simp)) data hne hd hplain
    (by rw [hmp]; exact hs) size hsize
  rw [mapM_eq_map _ (fun _ => fr) [m] (by
    intro x hx
    rw [List.mem_singleton.1 hx]
    exact q1)] at r6
  injection r6 with r6
  subst r6
  refine ⟨res, fr, r1, q1, perm_of_keys res fr (q3.nodup_iff.2 hd) (by rw [r3]; exact q3.symm) ?_⟩
  rintro ⟨k, t⟩ he
  obtain ⟨s, b, w, ts, _, _, _, h4, h5, h6, h7, h8, _, h10, h11⟩ := r7 k t he
  have hk4 : ∃ tm, ts = [tm] ∧ (k, tm) ∈ fr := by
    cases h4 with
    | cons hab h =>
      cases h
      exact ⟨_, rfl, hab⟩
  obtain ⟨tm, rfl, htm⟩ := hk4
  obtain ⟨_, _, _, _, _, _, c4, c5, _, c7, _⟩ := q6 k tm htm
  rw [hmq] at c4 c7
  have hone : ∀ x : K, gmEnsFunc kind [x] = x := by
    intro x
    have := (ensFunc_average (K := K) kind).between [x] (by simp) x x (by simp)
    exact le_antisymm this.2 this.1
  have heq : t = tm := by
    obtain ⟨e1, e2⟩ := h10 tm (by simp)
    have hrows : t.rows = tm.rows := by
      apply List.ext_getElem (by omega)
      intro i i1 i2
      have l1 := h8 _ (List.getElem_mem i1)
      have l2 := c7 _ (List.getElem_mem i2)
      apply List.ext_getElem (by omega)
      intro j j1 j2
      have := (h11 i j (by omega) (by omega)).1
      simp only [List.map_cons, List.map_nil] at this
      rw [hone, gmp_getD _ i _ i1, gmp_getD _ i _ i2, gmp_getD _ j _ j1, gmp_getD _ j _ j2] at this
      exact this
    obtain ⟨a1, a2, a3⟩ := t
    obtain ⟨b1, b2, b3⟩ := tm
    simp only at e1 e2 hrows
    subst e1 e2 hrows
    rfl
  rw [heq]
  exact htm

/-- C142: an ensemble is evaluated as a model is: with as many steps as the longest of the evaluated series has, and
one row for each of the windows of every series, which judges the combined forecast of that window. -/
theorem C142_evaluate {V : Type} (f : List K → K) (multi : Bool) (p : GmParams) (hp : GmPredOk p)
    (quantile : List String) (hq : quantile ≠ []) (models : List (GmRand × GmPredictor K))
    (hM : ∀ n, 1 ≤ n → GmEnsOk p quantile n models) (judge : List K → List (Option Rat) → V) (train valid : GmColl)
    (hkind : gmSameKind train valid = true) (hlen : train.entries.length = valid.entries.length)
    (hne : train.entries ≠ []) (hd : (train.entries.map (·.1)).Nodup)
    (hplain : gmNpKeys (train.entries.map (·.1)) = train.entries.map (·.1))
    (hs : ∀ e ∈ train.entries, GmSeriesOk p e.2) (hd' : (valid.entries.map (·.1)).Nodup)
    (T : GmKey → Bool × GmTs) (hT : ∀ e ∈ train.entries, (e.1, T e.1) ∈ valid.entries)
    (hpos : ∃ e ∈ train.entries, 1 ≤ (T e.1).2.length) :
    ∃ res raw steps, gmEnsEvaluate f multi p models judge train valid = .ok res ∧
      (∃ e ∈ train.entries, steps = (T e.1).2.length) ∧ (∀ e ∈ train.entries, (T e.1).2.length ≤ steps) ∧
      gmEnsPredictRaw f multi models train.entries (steps : Nat) 500 = .ok raw ∧
      res.map (fun r => (r.2.2, r.2.1)) = train.entries.flatMap (fun e =>
        (List.range (((T e.1).2.length + p.fcstWindow - 1) / p.fcstWindow)).map fun j => (e.1, j)) ∧
      ∀ r ∈ res, ∃ w fc, (r.2.2, w) ∈ raw ∧ w[r.2.1]? = some fc ∧
        r.1 = judge fc (gmWindow p.fcstWindow (T r.2.2).2 r.2.1) := by
  have hfw := hp.wf.fw
  obtain ⟨lens, hlens⟩ : ∃ lens, lens = train.entries.map fun e => (T e.1).2.length := ⟨_, rfl⟩
  obtain ⟨steps, hst⟩ : ∃ s, lens.max? = some s := by
    rcases hm : lens.max? with _ | s
    · rw [List.max?_eq_none_iff, hlens, List.map_eq_nil_iff] at hm
      exact absurd hm hne
    · exact ⟨s, rfl⟩
  obtain ⟨m1, m2⟩ := List.max?_eq_some_iff.1 hst
  have hmax : ∀ e ∈ train.entries, (T e.1).2.length ≤ steps := by
    intro e he
    exact m2 _ (by rw [hlens]; exact List.mem_map.2 ⟨e, he, rfl⟩)
  have hsteps : 1 ≤ steps := by
    obtain ⟨e, he, h⟩ := hpos
    exact le_trans h (hmax e he)
  obtain ⟨s1, s2, s3, s4⟩ := stepNum_spec steps p.fcstWindow hfw
  obtain ⟨_, raw, _, p2, _, p4, p5, _⟩ := C142_predict f multi p hp quantile hq steps hsteps models (hM _ (s4 hsteps))
    train.entries hne hd hplain hs 500 (by omega)
  have hrawd : (raw.map (·.1)).Nodup := by rw [p4]; exact hd
  have hw : ∀ k, ∃ w, k ∈ train.entries.map (·.1) → (k, w) ∈ raw := by
    intro k
    by_cases h : k ∈ train.entries.map (·.1)
    · have : k ∈ raw.map (·.1) := by rw [p4]; exact h
      obtain ⟨e, he, rfl⟩ := List.mem_map.1 this
      exact ⟨e.2, fun _ => he⟩
    · exact ⟨[], fun h' => absurd h' h⟩
  choose W hW using hw
  obtain ⟨row, hrow⟩ : ∃ row : GmKey → List (V × Nat × GmKey), row = fun k =>
    (List.range (gmStepNum (T k).2.length p.fcstWindow)).map fun j =>
      (judge ((W k).getD j []) (gmWindow p.fcstWindow (T k).2 j), j, k) := ⟨_, rfl⟩
  have hkey : ∀ k ∈ train.entries.map (·.1), gmLookup valid.entries k = .ok (T k) ∧
      gmStepNum (T k).2.length p.fcstWindow ≤ (W k).length ∧
      gmEvalKey p.fcstWindow judge valid.entries raw k = .ok (row k) := by
    intro k hk
    obtain ⟨e, he, hek⟩ := List.mem_map.1 hk
    have h1 := gm_lookup_of_mem valid.entries hd' k (T k) (by rw [← hek]; exact hT e he)
    have h2 := gm_lookup_of_mem raw hrawd k (W k) (hW k hk)
    have h3 : gmStepNum (T k).2.length p.fcstWindow ≤ (W k).length := by
      rw [(p5 k (W k) (hW k hk)).1, ← s1]
      exact stepNum_mono _ _ _ hfw (by rw [← hek]; exact hmax e he)
    refine ⟨h1, h3, ?_⟩
    rw [hrow]
    exact evalKey_ok _ judge _ _ k (T k) (W k) h1 h2 h3
  have hres : gmEnsEvaluate f multi p models judge train valid = .ok ((train.entries.map (·.1)).map row).flatten := by
    unfold gmEnsEvaluate
    rw [if_neg (by rw [hkind]; simp), if_neg (by simpa using hlen), if_neg (by simpa using hne)]
    simp only []
    rw [mapM_eq_map _ (fun k => (T k).2.length) (train.entries.map (·.1)) (by
      intro k hk
      rw [(hkey k hk).1]
      rfl)]
    have e1 : (train.entries.map (·.1)).map (fun k => (T k).2.length) = lens := by
      rw [List.map_map, hlens]; rfl
    rw [e1]
    show (gmEnsPredictRaw f multi models train.entries ((lens.max?.getD 0 : Nat) : Int) 500 >>= fun fcst => _) = _
    rw [hst, Option.getD_some, p2]
    show ((train.entries.map (·.1)).mapM (gmEvalKey p.fcstWindow judge valid.entries raw) >>= fun rows => _) = _
    rw [mapM_eq_map _ row _ fun k hk => (hkey k hk).2.2]
    rfl
  refine ⟨_, raw, steps, hres, ?_, hmax, p2, ?_, ?_⟩
  · rw [hlens] at m1
    obtain ⟨e, he, h⟩ := List.mem_map.1 m1
    exact ⟨e, he, h.symm⟩
  · rw [List.map_flatten, List.map_map, List.map_map, List.flatMap_def]
    congr 1
    apply List.map_congr_left
    intro e he
    rw [hrow]
    simp only [Function.comp_apply, List.map_map]
    rw [(stepNum_spec (T e.1).2.length p.fcstWindow hfw).1]
    rfl
  · intro r hr
    obtain ⟨l, hl, hrl⟩ := List.mem_flatten.1 hr
    obtain ⟨k, hk, rfl⟩ := List.mem_map.1 hl
    rw [hrow] at hrl
    obtain ⟨j, hj, rfl⟩ := List.mem_map.1 hrl
    rw [List.mem_range] at hj
    have := (hkey k hk).2.1
    exact ⟨W k, (W k).getD j [], hW k hk, by
      have hj' : j < (W k).length := by omega
      rw [gmp_getD _ j _ hj']
      exact List.getElem?_eq_getElem hj', rfl⟩

end

/-! ## An example -/

/-- A second network: it gives the double of the number of its calls. -/
def gmEnsE : GmEnv Rat Nat :=
  { gmPredE with net := fun s inp => (s + 1, inp.map fun _ => [0, 2 * s, 2 * s, 2 * s + 10, 2 * s + 20]) }

theorem gmEnsE_ok : GmNetOk gmEnsE :=
  ⟨fun s inp => by simp [gmEnsE], by
    intro s inp o ho
    simp only [gmEnsE, List.mem_map] at ho
    obtain ⟨_, _, rfl⟩ := ho
    rfl, fun v => by constructor <;> norm_num [gmEnsE, gmPredE], by decide, by decide, by decide⟩

/-- The predictor with this network. -/
def gmEnsY : GmPredictor Rat :=
  ⟨gmPredP, ["0.5", "0.9"], gmSingleRnn gmEnsE (⟨fun _ _ => 0, fun _ _ => 0⟩ : GmJudge Rat Rat) (fun a => (a : Rat)) 0
    [1 / 2, 1 / 2] 10 10⟩

theorem gmEnsY_ok (n : Nat) (hn : 1 ≤ n) : GmSingleOk gmEnsY n :=
  C141_rnn gmPredP gmPredP_ok (by decide) (by decide +kernel) (by decide +kernel) ["0.5", "0.9"] gmEnsE _ gmEnsE_ok
    rfl rfl rfl rfl 0 (1 / 2) (1 / 2) [] ⟨by norm_num, by norm_num⟩ ⟨by norm_num, by norm_num⟩ 10 10 n hn

/-- An ensemble of two models. -/
def gmEnsXY : List (GmRand × GmPredictor Rat) := [(gmExRand, gmPredX), (gmExRand, gmEnsY)]

theorem gmEnsXY_ok (n : Nat) (hn : 1 ≤ n) : GmEnsOk gmPredP ["0.5", "0.9"] n gmEnsXY := by
  refine ⟨by simp [gmEnsXY], ?_, ?_, ?_, ?_⟩ <;> intro m hm <;>
    simp only [gmEnsXY, List.mem_cons, List.not_mem_nil, or_false] at hm
  · rcases hm with rfl | rfl <;> exact gmExRand_ok
  · rcases hm with rfl | rfl <;> rfl
  · rcases hm with rfl | rfl <;> rfl
  · rcases hm with rfl | rfl
    · exact gmPredX_ok n hn
    · exact gmEnsY_ok n hn

/-- The two series of the examples. -/
def gmEnsD : List (GmKey × Bool × GmTs) := [(.str "a", gmPredTs 9), (.str "b", gmPredTs 5)]

theorem gmEnsD_ok : ∀ e ∈ gmEnsD, GmSeriesOk gmPredP e.2 := by
  intro e he
  simp only [gmEnsD, List.mem_cons, List.not_mem_nil, or_false] at he
  rcases he with rfl | rfl
  · exact gmPredTs_ok 9 (by omega)
  · exact gmPredTs_ok 5 (by omega)

/-- Two models, two series and five steps. -/
example : ∃ res raw, gmEnsPredict (gmEnsFunc "median") true gmPredP ["0.5", "0.9"] gmEnsXY gmEnsD 5 500 = .ok res ∧
    gmEnsPredictRaw (gmEnsFunc "median") true gmEnsXY gmEnsD 5 500 = .ok raw ∧
    res.map (·.1) = [.str "a", .str "b"] := by
  obtain ⟨res, raw, h1, h2, h3, _⟩ := C142_predict (gmEnsFunc "median") true gmPredP gmPredP_ok ["0.5", "0.9"] (by decide)
    5 (by omega) gmEnsXY (gmEnsXY_ok _ (by decide)) gmEnsD (by simp [gmEnsD]) (by decide) (by decide) gmEnsD_ok 500
    (by omega)
  exact ⟨res, raw, h1, h2, h3⟩

/-- One model. -/
example : ∃ res fr, gmEnsPredict (gmEnsFunc "mean") true gmPredP ["0.5", "0.9"] [(gmExRand, gmPredX)] gmEnsD 5 500 = .ok res ∧
    gmPredict gmExRand gmPredX gmEnsD 5 500 = .ok fr ∧ res.Perm fr :=
  C142_single "mean" true gmPredP gmPredP_ok ["0.5", "0.9"] (by decide) 5 (by omega) (gmExRand, gmPredX)
    ⟨by simp, by simpa using gmExRand_ok, by simp [gmPredX], by simp [gmPredX], by
      intro m hm
      rw [List.mem_singleton.1 hm]
      exact gmPredX_ok _ (by decide)⟩ gmEnsD (by simp [gmEnsD]) (by decide) (by decide) gmEnsD_ok 500 (by omega)

/-- Two series with three and one values to evaluate: three rows. -/
example : ∃ res : List (Nat × Nat × GmKey), gmEnsEvaluate (gmEnsFunc "mean") false gmPredP gmEnsXY
      (fun f a => f.length + a.length) (.list [gmPredTs 9, gmPredTs 5]) (.list [gmPredTs 3, gmPredTs 1]) = .ok res ∧
    res.map (fun r => (r.2.2, r.2.1)) = [(.int 0, 0), (.int 0, 1), (.int 1, 0)] := by
  obtain ⟨res, raw, steps, h1, _, _, _, h5, _⟩ := C142_evaluate (gmEnsFunc "mean") false gmPredP gmPredP_ok
    ["0.5", "0.9"] (by decide) gmEnsXY (fun n hn => gmEnsXY_ok n hn) (fun f a => f.length + a.length)
    (.list [gmPredTs 9, gmPredTs 5]) (.list [gmPredTs 3, gmPredTs 1]) rfl rfl (by simp [GmColl.entries]) (by decide)
    (by decide) (by
      intro e he
      simp only [GmColl.entries, List.mapIdx_cons, List.mapIdx_nil, List.mem_cons, List.not_mem_nil, or_false] at he
      rcases he with rfl | rfl
      · exact gmPredTs_ok 9 (by omega)
      · exact gmPredTs_ok 5 (by omega)) (by decide) (fun k => if k = .int 0 then gmPredTs 3 else gmPredTs 1) (by
      intro e he
      simp only [GmColl.entries, List.mapIdx_cons, List.mapIdx_nil, List.mem_cons, List.not_mem_nil, or_false] at he
      rcases he with rfl | rfl <;> simp [GmColl.entries]) ⟨(.int 0, gmPredTs 9), by simp [GmColl.entries], by decide⟩
  exact ⟨res, h1, h5.trans (by decide)⟩

end Kats
