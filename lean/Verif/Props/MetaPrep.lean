import Verif.Props.MetaSelect
import Verif.Props.GmEnsPredict

/-!
# C147: preparing the meta data, and the same for new series
-/

namespace Kats

/-! ## Downsampling -/

theorem ms_classes (y : List String) : (msClasses y).Nodup ∧ ∀ c, c ∈ msClasses y ↔ c ∈ y := by
  have key : ∀ (y l : List String), l.Nodup → (y.foldl (fun l c => if c ∈ l then l else l ++ [c]) l).Nodup ∧
      ∀ c, c ∈ y.foldl (fun l c => if c ∈ l then l else l ++ [c]) l ↔ c ∈ l ∨ c ∈ y := by
    intro y
    induction y with
    | nil => intro l hl; exact ⟨hl, fun c => by simp⟩
    | cons a y ih =>
      intro l hl
      rw [List.foldl_cons]
      by_cases ha : a ∈ l
      · rw [if_pos ha]
        refine ⟨(ih l hl).1, fun c => ?_⟩
        rw [(ih l hl).2 c, List.mem_cons]
        constructor
        · rintro (h | h)
          · exact Or.inl h
          · exact Or.inr (Or.inr h)
        · rintro (h | h | h)
          · exact Or.inl h
          · exact Or.inl (h ▸ ha)
          · exact Or.inr h
      · rw [if_neg ha]
        have hl' : (l ++ [a]).Nodup := by
          rw [List.nodup_append]
          exact ⟨hl, by simp, fun x hx z hz => by rw [List.mem_singleton] at hz; rw [hz]; exact fun e => ha (e ▸ hx)⟩
        refine ⟨(ih _ hl').1, fun c => ?_⟩
        rw [(ih _ hl').2 c, List.mem_append, List.mem_singleton, List.mem_cons, or_assoc]
  obtain ⟨h1, h2⟩ := key y [] List.nodup_nil
  exact ⟨h1, fun c => by rw [msClasses, h2 c]; simp⟩

theorem ms_indices (y : List String) (c : String) : (msIndices y c).Nodup ∧ (msIndices y c).length = y.count c ∧
    ∀ i, i ∈ msIndices y c ↔ y[i]? = some c := by
  refine ⟨List.nodup_range.filter _, ?_, ?_⟩
  · unfold msIndices
    have : ∀ (y : List String), ((List.range y.length).filter fun i => decide (y[i]? = some c)).length = y.count c := by
      intro y
      induction y using List.reverseRecOn with
      | nil => rfl
      | append_singleton y a ih =>
        rw [List.length_append, List.length_singleton, List.range_succ, List.filter_append, List.length_append, List.count_append, ← ih]
        congr 1
        · congr 1
          apply List.filter_congr
          intro i hi
          rw [List.mem_range] at hi
          rw [List.getElem?_append_left hi]
        · rw [List.filter_cons, List.filter_nil, List.getElem?_append_right (le_refl _), Nat.sub_self]
          by_cases hac : a = c
          · subst hac; simp
          · have : ¬ ([a][0]? = some c) := by simpa using hac
            simp [hac]
    exact this y
  · intro i
    unfold msIndices
    rw [List.mem_filter, decide_eq_true_eq, List.mem_range]
    exact ⟨fun h => h.2, fun h => ⟨(List.getElem?_eq_some_iff.1 h).1, h⟩⟩

theorem ms_minCount (y : List String) (h : y ≠ []) : (∃ c ∈ y, msMinCount y = y.count c) ∧ ∀ c ∈ y, msMinCount y ≤ y.count c := by
  unfold msMinCount
  rcases hm : ((msClasses y).map fun c => y.count c).min? with _ | k
  · rw [List.min?_eq_none_iff, List.map_eq_nil_iff] at hm
    obtain ⟨a, ha⟩ := List.exists_mem_of_ne_nil y h
    have := ((ms_classes y).2 a).2 ha
    rw [hm] at this
    exact absurd this List.not_mem_nil
  · obtain ⟨h1, h2⟩ := List.min?_eq_some_iff.1 hm
    rw [Option.getD_some]
    constructor
    · obtain ⟨c, hc, rfl⟩ := List.mem_map.1 h1
      exact ⟨c, ((ms_classes y).2 c).1 hc, rfl⟩
    · intro c hc
      exact h2 _ (List.mem_map.2 ⟨c, ((ms_classes y).2 c).2 hc, rfl⟩)

/-- `np.random.choice` without replacement: as many different members as asked for. -/
def MsPick (pick : String → List Nat → Nat → List Nat) : Prop :=
  ∀ c l n, l.Nodup → n ≤ l.length → (pick c l n).Nodup ∧ (pick c l n).length = n ∧ ∀ i ∈ pick c l n, i ∈ l

theorem ms_picked (pick : String → List Nat → Nat → List Nat) (hp : MsPick pick) (y : List String) (hy : y ≠ []) :
    (msPicked pick y).Nodup ∧ (∀ i ∈ msPicked pick y, i < y.length) ∧
      ∀ c ∈ y, ((msPicked pick y).map fun i => y.getD i "").count c = msMinCount y := by
  have hpc : ∀ c ∈ y, (pick c (msIndices y c) (msMinCount y)).Nodup ∧
      (pick c (msIndices y c) (msMinCount y)).length = msMinCount y ∧
      ∀ i ∈ pick c (msIndices y c) (msMinCount y), y[i]? = some c := by
    intro c hc
    obtain ⟨i1, i2, i3⟩ := ms_indices y c
    obtain ⟨p1, p2, p3⟩ := hp c (msIndices y c) (msMinCount y) i1 (by rw [i2]; exact (ms_minCount y hy).2 c hc)
    exact ⟨p1, p2, fun i hi => (i3 i).1 (p3 i hi)⟩
  obtain ⟨c1, c2⟩ := ms_classes y
  unfold msPicked
  refine ⟨?_, ?_, ?_⟩
  · rw [List.nodup_flatMap]
    refine ⟨fun c hc => (hpc c ((c2 c).1 hc)).1, ?_⟩
    refine List.Pairwise.imp_of_mem ?_ c1
    intro a b ha hb hab i hia hib
    have e1 := (hpc a ((c2 a).1 ha)).2.2 i hia
    have e2 := (hpc b ((c2 b).1 hb)).2.2 i hib
    rw [e1] at e2
    injection e2 with e2
    exact hab e2
  · intro i hi
    obtain ⟨c, hc, hi⟩ := List.mem_flatMap.1 hi
    exact (List.getElem?_eq_some_iff.1 ((hpc c ((c2 c).1 hc)).2.2 i hi)).1
  · intro c hc
    have hmap : ((msClasses y).flatMap fun c => pick c (msIndices y c) (msMinCount y)).map (fun i => y.getD i "") =
        (msClasses y).flatMap fun c => List.replicate (msMinCount y) c := by
      rw [List.map_flatMap]
      have : ∀ l : List String, (∀ c ∈ l, c ∈ y) → (l.flatMap fun a => (pick a (msIndices y a) (msMinCount y)).map fun i => y.getD i "") =
          l.flatMap fun c => List.replicate (msMinCount y) c := by
        intro l hl
        induction l with
        | nil => rfl
        | cons a l ih =>
          rw [List.flatMap_cons, List.flatMap_cons, ih fun c hc => hl c (List.mem_cons_of_mem _ hc)]
          congr 1
          obtain ⟨_, p2, p3⟩ := hpc a (hl a List.mem_cons_self)
          rw [List.eq_replicate_iff]
          refine ⟨by rw [List.length_map, p2], ?_⟩
          intro b hb
          obtain ⟨i, hi, rfl⟩ := List.mem_map.1 hb
          rw [List.getD_eq_getElem?_getD, p3 i hi, Option.getD_some]
      exact this _ fun c hc => (c2 c).1 hc
    rw [hmap]
    have : ∀ l : List String, l.Nodup → c ∈ l → (l.flatMap fun c => List.replicate (msMinCount y) c).count c = msMinCount y := by
      intro l
      induction l with
      | nil => intro _ h; exact absurd h List.not_mem_nil
      | cons a l ih =>
        intro hnd hcl
        rw [List.nodup_cons] at hnd
        rw [List.flatMap_cons, List.count_append]
        rcases List.mem_cons.1 hcl with rfl | hcl
        · rw [List.count_replicate_self]
          have : (l.flatMap fun c => List.replicate (msMinCount y) c).count c = 0 := by
            rw [List.count_eq_zero]
            intro hm
            obtain ⟨b, hb, hb'⟩ := List.mem_flatMap.1 hm
            rw [List.mem_replicate] at hb'
            exact hnd.1 (hb'.2 ▸ hb)
          omega
        · rw [ih hnd.2 hcl]
          have : (List.replicate (msMinCount y) a).count c = 0 := by
            rw [List.count_eq_zero]
            intro hm
            rw [List.mem_replicate] at hm
            exact hnd.1 (hm.2 ▸ hcl)
          omega
    exact this _ c1 ((c2 c).2 hc)

section
variable {K : Type} [Field K] [LinearOrder K]

theorem ms_mean_eq (n : Nat) (x : List (List K)) : msMean n x =
    (List.range n).map (fun j => (x.map fun r => r.getD j 0).sum / (x.length : K)) := by
  unfold msMean
  apply List.map_congr_left
  intro j _
  simp only [gmEnsMean, msCol, List.length_map]

/-- C147: downsampling keeps the same number of rows for every model, that of the model with the least rows; the rows kept are different rows of the data,
each with its features, its best model and its errors, and the means and deviations are those of the rows kept. -/
theorem C147_downsample (std : List K → K) (pick : String → List Nat → Nat → List Nat) (hp : MsPick pick) (s : Ms K)
    (hs : MsStats std s) (hy : s.y ≠ []) : ∃ (ix : List Nat) (k : Nat), ix.Nodup ∧ (∀ i ∈ ix, i < s.y.length) ∧
      (msPreprocess std pick true false s).x = ix.map (fun i => s.x.getD i []) ∧
      (msPreprocess std pick true false s).y = ix.map (fun i => s.y.getD i "") ∧
      (msPreprocess std pick true false s).hpt = ix.map (fun i => s.hpt.getD i []) ∧
      (∃ c ∈ s.y, s.y.count c = k) ∧ (∀ c ∈ s.y, k ≤ s.y.count c ∧ (msPreprocess std pick true false s).y.count c = k) ∧
      (msPreprocess std pick true false s).scale = s.scale ∧ (msPreprocess std pick true false s).cols = s.cols ∧
      MsStats std (msPreprocess std pick true false s) := by
  obtain ⟨p1, p2, p3⟩ := ms_picked pick hp s.y hy
  obtain ⟨⟨c, hc, hk⟩, m2⟩ := ms_minCount s.y hy
  refine ⟨msPicked pick s.y, msMinCount s.y, p1, p2, rfl, rfl, rfl, ⟨c, hc, hk.symm⟩, fun c hc => ⟨m2 c hc, p3 c hc⟩, rfl, rfl, ?_⟩
  refine ⟨ms_mean_eq _ _, rfl, ?_, by simp [msPreprocess], by simp [msPreprocess]⟩
  intro r hr
  have hr : r ∈ (msPicked pick s.y).map fun i => s.x.getD i [] := hr
  obtain ⟨i, hi, rfl⟩ := List.mem_map.1 hr
  have hi' := p2 i hi
  rw [← hs.2.2.2.1] at hi'
  rw [List.getD_eq_getElem?_getD, List.getElem?_eq_getElem hi', Option.getD_some]
  exact hs.2.2.1 _ (List.getElem_mem hi')

/-! ## Scaling -/

/-- The row `r` with each value less the mean and divided by the deviation of its column. -/
def msScaled (s : Ms K) (r : List K) : List K :=
  (List.range s.cols.length).map fun j => (r.getD j 0 - s.mean.getD j 0) / s.std.getD j 0

theorem ms_zip (s : Ms K) (r : List K) (h1 : r.length = s.cols.length) (h2 : s.mean.length = s.cols.length)
    (h3 : s.std.length = s.cols.length) :
    List.zipWith (fun a b => a / b) (List.zipWith (fun a b => a - b) r s.mean) s.std = msScaled s r := by
  apply List.ext_getElem
  · simp [msScaled, h1, h2, h3]
  · intro j hj1 hj2
    simp only [List.length_zipWith] at hj1
    simp only [msScaled, List.getElem_zipWith, List.getElem_map, List.getElem_range]
    rw [gmp_getD _ _ _ (by omega), gmp_getD _ _ _ (by omega), gmp_getD _ _ _ (by omega)]

theorem ms_stats_len (std : List K → K) (s : Ms K) (hs : MsStats std s) :
    s.mean.length = s.cols.length ∧ s.std.length = s.cols.length := by
  rw [hs.1, hs.2.1]
  simp

theorem ms_scaled_x (std : List K → K) (pick : String → List Nat → Nat → List Nat) (s : Ms K) (hs : MsStats std s) :
    msPreprocess std pick false true s = { s with scale := true, x := s.x.map (msScaled s) } := by
  unfold msPreprocess
  simp only [Bool.false_eq_true, if_false, if_true]
  congr 1
  apply List.map_congr_left
  intro r hr
  obtain ⟨l1, l2⟩ := ms_stats_len std s hs
  exact ms_zip s r (hs.2.2.1 r hr) l1 l2

variable [IsStrictOrderedRing K]

theorem ms_sum_sq (l : List K) (h : (l.map fun v => v * v).sum = 0) : ∀ v ∈ l, v = 0 := by
  have hnn : ∀ l : List K, 0 ≤ (l.map fun v => v * v).sum := by
    intro l
    apply List.sum_nonneg
    intro x hx
    obtain ⟨v, _, rfl⟩ := List.mem_map.1 hx
    exact mul_self_nonneg v
  induction l with
  | nil => intro v hv; exact absurd hv List.not_mem_nil
  | cons a l ih =>
    rw [List.map_cons, List.sum_cons] at h
    have h1 := mul_self_nonneg a
    have h2 := hnn l
    have h3 : a * a = 0 := by linarith
    have h4 : (l.map fun v => v * v).sum = 0 := by linarith
    intro v hv
    rcases List.mem_cons.1 hv with rfl | hv
    · exact mul_self_eq_zero.1 h3
    · exact ih h4 v hv

theorem ms_sum_lin (l : List K) (m d : K) : (l.map fun v => (v - m) / d).sum = (l.sum - (l.length : K) * m) / d := by
  induction l with
  | nil => simp
  | cons a l ih =>
    rw [List.map_cons, List.sum_cons, ih, List.sum_cons, List.length_cons, ← add_div]
    congr 1
    push_cast
    ring

/-- C147: scaling gives every column the mean zero and, if it is not constant, the variance one; a constant column becomes zero.  The
deviation is that of `np.std`. -/
theorem C147_scale (std : List K → K)
    (hstd : ∀ l : List K, l ≠ [] → std l * std l = (l.map fun v => (v - l.sum / l.length) * (v - l.sum / l.length)).sum / l.length)
    (pick : String → List Nat → Nat → List Nat) (s : Ms K) (hs : MsStats std s) (hne : s.x ≠ []) (j : Nat) (hj : j < s.cols.length)
    (col : List K) (hcol : col = (msPreprocess std pick false true s).x.map fun r => r.getD j 0) :
    (msPreprocess std pick false true s).scale = true ∧ col.sum = 0 ∧
      ((∃ r ∈ s.x, ∃ r' ∈ s.x, r.getD j 0 ≠ r'.getD j 0) → (col.map fun v => v * v).sum / (col.length : K) = 1) ∧
      ((∀ r ∈ s.x, ∀ r' ∈ s.x, r.getD j 0 = r'.getD j 0) → ∀ v ∈ col, v = 0) := by
  rw [ms_scaled_x std pick s hs] at hcol ⊢
  obtain ⟨raw, hraw⟩ : ∃ raw, raw = s.x.map fun r => r.getD j 0 := ⟨_, rfl⟩
  obtain ⟨m, hm⟩ : ∃ m, m = raw.sum / (raw.length : K) := ⟨_, rfl⟩
  obtain ⟨d, hd⟩ : ∃ d, d = if std raw = 0 then 1 else std raw := ⟨_, rfl⟩
  have hmean : s.mean.getD j 0 = m := by
    rw [hs.1, gmp_getD _ _ _ (by simpa using hj), List.getElem_map, List.getElem_range, hm, hraw, List.length_map]
  have hsd : s.std.getD j 0 = d := by
    rw [hs.2.1, gmp_getD _ _ _ (by simpa using hj), List.getElem_map, List.getElem_range, hd, hraw]
  have hc : col = raw.map fun v => (v - m) / d := by
    rw [hcol, hraw, List.map_map, List.map_map]
    apply List.map_congr_left
    intro r _
    simp only [Function.comp_apply, msScaled]
    rw [gmp_getD _ _ _ (by simpa using hj), List.getElem_map, List.getElem_range, hmean, hsd]
  have hrne : raw ≠ [] := by rw [hraw]; simpa using hne
  have hlen : (raw.length : K) ≠ 0 := by
    have := List.length_pos_iff.2 hrne
    exact_mod_cast this.ne'
  have hzero : raw.sum - (raw.length : K) * m = 0 := by
    rw [hm, mul_div_cancel₀ _ hlen, sub_self]
  have hvar := hstd raw hrne
  rw [← hm] at hvar
  refine ⟨rfl, by rw [hc, ms_sum_lin, hzero, zero_div], ?_, ?_⟩
  · rintro ⟨r, hr, r', hr', hrr⟩
    have hne0 : std raw ≠ 0 := by
      intro h0
      rw [h0, mul_zero, eq_comm, div_eq_zero_iff] at hvar
      rcases hvar with hvar | hvar
      · have := ms_sum_sq (raw.map fun v => v - m) (by rw [List.map_map]; exact hvar)
        have key : ∀ r ∈ s.x, r.getD j 0 = m := by
          intro r hr
          have := this (r.getD j 0 - m) (List.mem_map.2 ⟨_, by rw [hraw]; exact List.mem_map.2 ⟨r, hr, rfl⟩, rfl⟩)
          exact sub_eq_zero.1 this
        exact hrr ((key r hr).trans (key r' hr').symm)
      · exact hlen hvar
    rw [if_neg hne0] at hd
    have e1 : (col.map fun v => v * v).sum = (raw.map fun v => (v - m) * (v - m)).sum / (d * d) := by
      rw [hc, List.map_map]
      clear * -
      induction raw with
      | nil => simp
      | cons a l ih =>
        rw [List.map_cons, List.sum_cons, ih, List.map_cons, List.sum_cons, add_div]
        congr 1
        simp only [Function.comp_apply]
        rw [div_mul_div_comm]
    rw [e1, hd, hvar, hc, List.length_map]
    have hs0 : (raw.map fun v => (v - m) * (v - m)).sum ≠ 0 := by
      intro h0
      rw [h0, zero_div] at hvar
      exact hne0 (mul_self_eq_zero.1 hvar)
    generalize (raw.map fun v => (v - m) * (v - m)).sum = S at hs0
    field_simp
  · intro hconst v hv
    rw [hc] at hv
    obtain ⟨w, hw, rfl⟩ := List.mem_map.1 hv
    rw [hraw] at hw
    obtain ⟨r, hr, rfl⟩ := List.mem_map.1 hw
    have hall : raw = List.replicate raw.length (r.getD j 0) := by
      rw [List.eq_replicate_iff]
      refine ⟨rfl, ?_⟩
      intro b hb
      rw [hraw] at hb
      obtain ⟨r', hr', rfl⟩ := List.mem_map.1 hb
      exact hconst r' hr' r hr
    have : m = r.getD j 0 := by
      rw [hm, hall, List.sum_replicate, List.length_replicate, nsmul_eq_mul, mul_div_cancel_left₀ _ hlen]
    rw [this, sub_self, zero_div]

/-- C147 violated: the features should have the mean zero after scaling.  If `preprocess` scales twice, the mean of each column is the old
mean, divided by the deviation, with the other sign; new series are still scaled once. -/
theorem C147_twice_violated (std : List K → K) (pick : String → List Nat → Nat → List Nat) (s : Ms K) (hs : MsStats std s)
    (hne : s.x ≠ []) (j : Nat) (hj : j < s.cols.length) (t : Ms K)
    (ht : t = msPreprocess std pick false true (msPreprocess std pick false true s)) :
    (t.x.map fun r => r.getD j 0).sum / (t.x.length : K) = - s.mean.getD j 0 / s.std.getD j 0 ∧ t.mean = s.mean ∧ t.std = s.std := by
  have h1 := ms_scaled_x std pick s hs
  obtain ⟨l1, l2⟩ := ms_stats_len std s hs
  have h2 : msPreprocess std pick false true ({ s with scale := true, x := s.x.map (msScaled s) } : Ms K) =
      { s with scale := true, x := (s.x.map (msScaled s)).map (msScaled s) } := by
    unfold msPreprocess
    simp only [Bool.false_eq_true, if_false, if_true]
    congr 1
    apply List.map_congr_left
    intro r hr
    obtain ⟨r', _, rfl⟩ := List.mem_map.1 hr
    exact ms_zip s _ (by simp [msScaled]) l1 l2
  rw [h1, h2] at ht
  subst ht
  refine ⟨?_, rfl, rfl⟩
  obtain ⟨raw, hraw⟩ : ∃ raw, raw = s.x.map fun r => r.getD j 0 := ⟨_, rfl⟩
  have hmean : s.mean.getD j 0 = raw.sum / (raw.length : K) := by
    rw [hs.1, gmp_getD _ _ _ (by simpa using hj), List.getElem_map, List.getElem_range, hraw, List.length_map]
  have hget : ∀ r : List K, (msScaled s r).getD j 0 = (r.getD j 0 - s.mean.getD j 0) / s.std.getD j 0 := by
    intro r
    unfold msScaled
    rw [gmp_getD _ _ _ (by simpa using hj), List.getElem_map, List.getElem_range]
  have hc : (((s.x.map (msScaled s)).map (msScaled s)).map fun r => r.getD j 0) =
      (raw.map fun v => (v - s.mean.getD j 0) / s.std.getD j 0).map fun v => (v - s.mean.getD j 0) / s.std.getD j 0 := by
    rw [hraw]
    simp only [List.map_map]
    apply List.map_congr_left
    intro r _
    simp only [Function.comp_apply, hget]
  have hrne : raw ≠ [] := by rw [hraw]; simpa using hne
  have hlen : (raw.length : K) ≠ 0 := by
    have := List.length_pos_iff.2 hrne
    exact_mod_cast this.ne'
  have hxl : (((s.x.map (msScaled s)).map (msScaled s)).length : K) = (raw.length : K) := by rw [hraw]; simp
  have hzero : raw.sum - (raw.length : K) * s.mean.getD j 0 = 0 := by
    rw [hmean, mul_div_cancel₀ _ hlen, sub_self]
  simp only []
  rw [hc, ms_sum_lin, ms_sum_lin, hzero, List.length_map, hxl, zero_div, zero_sub]
  by_cases hd : s.std.getD j 0 = 0
  · rw [hd]; simp
  · field_simp

omit [IsStrictOrderedRing K] in
/-- C147, the part that holds: a classifier gets for the features of a row, if none is missing, what it was trained with for this row, whatever the
preparation (made once). -/
theorem C147_same_partial (std : List K → K) (pick : String → List Nat → Nat → List Nat) (hp : MsPick pick) (s : Ms K) (hs : MsStats std s)
    (hsc : s.scale = false) (hy : s.y ≠ []) (down scale : Bool) (clf : MsClf K) (i : Nat) (row : List K)
    (hrow : (msPreprocess std pick down scale s).x[i]? = some row) :
    ∃ raw ∈ s.x, ∀ c, clf.predict row = .ok c →
      msPredBy (some (msPreprocess std pick down scale s, some clf)) (.rows [raw.map some]) 1 = .ok (.inl [c]) := by
  obtain ⟨s1, hs1⟩ : ∃ s1, s1 = msPreprocess std pick down false s := ⟨_, rfl⟩
  have hst : MsStats std s1 ∧ s1.scale = false ∧ ∀ r ∈ s1.x, r ∈ s.x := by
    rcases down with _ | _
    · have : s1 = s := by rw [hs1]; rfl
      rw [this]
      exact ⟨hs, hsc, fun r hr => hr⟩
    · obtain ⟨ix, k, _, h2, h3, _, _, _, _, h8, _, h10⟩ := C147_downsample std pick hp s hs hy
      rw [← hs1] at h3 h8 h10
      refine ⟨h10, h8.trans hsc, ?_⟩
      intro r hr
      rw [h3] at hr
      obtain ⟨k, hk, rfl⟩ := List.mem_map.1 hr
      have := h2 k hk
      rw [← hs.2.2.2.1] at this
      rw [List.getD_eq_getElem?_getD, List.getElem?_eq_getElem this, Option.getD_some]
      exact List.getElem_mem _
  obtain ⟨hst, hsc1, hsub⟩ := hst
  have hpre : msPreprocess std pick down scale s = if scale then msPreprocess std pick false true s1 else s1 := by
    rw [hs1]
    rcases down with _ | _ <;> rcases scale with _ | _ <;> rfl
  obtain ⟨l1, l2⟩ := ms_stats_len std s1 hst
  have hpred : ∀ (t : Ms K) (raw r : List K), msScaleRow t (raw.map some) = .ok (r.map some) → ∀ c, clf.predict r = .ok c →
      msPredBy (some (t, some clf)) (.rows [raw.map some]) 1 = .ok (.inl [c]) := by
    intro t raw r h c hc
    unfold msPredBy
    rw [gm_bind_ok]
    refine ⟨(t, clf), rfl, ?_⟩
    simp only []
    rw [if_neg (by simp), gm_bind_ok]
    refine ⟨[r.map some], ?_, ?_⟩
    · rw [List.mapM_cons, List.mapM_nil, h]
      rfl
    · simp only [if_true]
      rw [gm_bind_ok]
      refine ⟨[c], ?_, rfl⟩
      have : (List.map (fun r : List (Option K) => r.map fun v => v.getD 0) [r.map some]) = [r] := by simp
      rw [this, List.mapM_cons, List.mapM_nil, hc]
      rfl
  rcases scale with _ | _
  · rw [hpre] at hrow ⊢
    simp only [Bool.false_eq_true, if_false] at hrow ⊢
    refine ⟨row, hsub row (List.mem_of_getElem? hrow), ?_⟩
    apply hpred
    unfold msScaleRow
    rw [if_neg (by rw [hsc1]; simp)]
  · rw [hpre] at hrow ⊢
    simp only [if_true] at hrow ⊢
    rw [ms_scaled_x std pick s1 hst] at hrow ⊢
    simp only [] at hrow
    rw [List.getElem?_map] at hrow
    rcases hraw : s1.x[i]? with _ | raw
    · rw [hraw] at hrow; cases hrow
    rw [hraw, Option.map_some] at hrow
    injection hrow with hrow
    have hmem := List.mem_of_getElem? hraw
    refine ⟨raw, hsub raw hmem, ?_⟩
    apply hpred
    unfold msScaleRow
    rw [if_pos rfl, if_pos (by rw [List.length_map, hst.2.2.1 raw hmem, l1])]
    simp only []
    rw [← hrow, ← ms_zip s1 raw (hst.2.2.1 raw hmem) l1 l2]
    congr 1
    generalize s1.mean = m, s1.std = d
    clear * -
    induction raw generalizing m d with
    | nil => rfl
    | cons a raw ih =>
      rcases m with _ | ⟨b, m⟩
      · rfl
      · rcases d with _ | ⟨e, d⟩
        · rfl
        · simp only [List.map_cons, List.zipWith_cons_cons, Option.map_some]
          rw [ih]

end

end Kats
