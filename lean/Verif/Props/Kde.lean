import Verif.Model.Kde
import Verif.Props.RollingStatistics
import Mathlib.Data.List.GetD
import Mathlib.Tactic.Linarith
import Mathlib.Tactic.NormNum
import Mathlib.Tactic.Positivity

/-!
# Residual translator: C100
-/

namespace Kats

noncomputable section

open Classical

/-- C100: the constructor accepts exactly fractions with `0 ≤ below ≤ above ≤ 1`. -/
theorem C100_fractions (below above : ℝ) :
    (∃ k, Kde.init below above = .ok k) ↔ 0 ≤ below ∧ below ≤ above ∧ above ≤ 1 := by
  unfold Kde.init
  by_cases h1 : below < 0 ∨ above > 1
  · rw [if_pos h1]
    constructor
    · rintro ⟨k, hk⟩; simp at hk
    · rintro ⟨h2, h3, h4⟩
      rcases h1 with h | h <;> linarith
  · rw [if_neg h1]
    push Not at h1
    by_cases h2 : below > above
    · rw [if_pos h2]
      constructor
      · rintro ⟨k, hk⟩; simp at hk
      · rintro ⟨_, h3, _⟩; linarith
    · rw [if_neg h2]
      push Not at h2
      exact ⟨fun _ => ⟨h1.1, h2, h1.2⟩, fun _ => ⟨_, rfl⟩⟩

example : Kde.init (1 / 10) (9 / 10) = .ok ⟨1 / 10, 9 / 10, none⟩ := by
  unfold Kde.init
  rw [if_neg (by norm_num), if_neg (by norm_num)]

/-- C100: which arguments are accepted, if the arithmetic on the series succeeds: either outcomes and
predictions, with both bounds or none, or residuals alone. -/
theorem C100_arguments (W : KdeWorld) (hs : ∀ a b, ∃ c, W.sub a b = .ok c) (hd : ∀ a b, ∃ c, W.div a b = .ok c)
    (a : KdeArgs) :
    (∃ r, kdeResidual W a = .ok r) ↔
      (a.yhat.isSome ∧ a.y.isSome ∧ a.residual = none ∧ (a.lower.isSome ↔ a.upper.isSome)) ∨
      (a.residual.isSome ∧ a.y = none ∧ a.yhat = none ∧ a.lower = none ∧ a.upper = none) := by
  obtain ⟨y, yhat, lower, upper, residual⟩ := a
  unfold kdeResidual kdeRaw
  cases yhat with
  | none =>
    cases residual with
    | none => simp [bind, Except.bind]
    | some r => cases y <;> cases lower <;> cases upper <;> simp [bind, Except.bind, pure, Except.pure]
  | some yh =>
    cases y with
    | none => simp [bind, Except.bind]
    | some y =>
      cases residual with
      | some r => simp [bind, Except.bind]
      | none =>
        obtain ⟨c, hc⟩ := hs y yh
        cases lower with
        | none => cases upper <;> simp [hc, bind, Except.bind, pure, Except.pure]
        | some l =>
          cases upper with
          | none => simp [hc, bind, Except.bind]
          | some u =>
            obtain ⟨c', hc'⟩ := hs u l
            obtain ⟨c'', hc''⟩ := hd c c'
            simp [hc, hc', hc'', bind, Except.bind, pure, Except.pure]

/-- C100: the residual of outcomes and predictions is their difference, divided by the width of the band if
one is given, without missing values. -/
theorem C100_residual (W : KdeWorld) (y yhat r : USeries) (h : W.sub y yhat = .ok r) :
    kdeResidual W { y := some y, yhat := some yhat } = .ok (r.filterMap fun x => x.2.map fun v => (x.1, v)) ∧
    ∀ l u band q, W.sub u l = .ok band → W.div r band = .ok q →
      kdeResidual W { y := some y, yhat := some yhat, lower := some l, upper := some u } =
        .ok (q.filterMap fun x => x.2.map fun v => (x.1, v)) := by
  constructor
  · simp [kdeResidual, kdeRaw, h, bind, Except.bind, pure, Except.pure, dropMissing]
  · intro l u band q h1 h2
    simp [kdeResidual, kdeRaw, h, h1, h2, bind, Except.bind, pure, Except.pure, dropMissing]

/-! ### Training values -/

theorem quantile_ge_min (l : List ℝ) (q : ℝ) (x : ℝ) (hx : ∀ y ∈ l, x ≤ y) (hl : l ≠ []) (hq0 : 0 ≤ q) (hq1 : q ≤ 1) :
    x ≤ quantileR q l := by
  have hpos := List.length_pos_iff.2 hl
  have hmem : ∀ i, i < l.length → x ≤ (l.insertionSort (· ≤ ·)).getD i 0 := by
    intro i hi
    rw [List.getD_eq_getElem _ _ (by simpa using hi)]
    exact hx _ ((List.mem_insertionSort _).1 (List.getElem_mem _))
  unfold quantileR
  dsimp only
  rw [List.length_insertionSort]
  set h := ((l.length - 1 : Nat) : ℝ) * q with hh
  have hnn : (0 : ℝ) ≤ ((l.length - 1 : Nat) : ℝ) := by positivity
  have h0 : 0 ≤ h := mul_nonneg hnn hq0
  have h1 : h ≤ ((l.length - 1 : Nat) : ℝ) := by nlinarith
  have hf : ⌊h⌋₊ ≤ l.length - 1 := by
    have := Nat.floor_le_floor h1
    rwa [Nat.floor_natCast] at this
  have hfl := Nat.floor_le h0
  have hfu := Nat.lt_floor_add_one h
  have a := hmem ⌊h⌋₊ (by omega)
  have b := hmem (min (⌊h⌋₊ + 1) (l.length - 1)) (by omega)
  nlinarith [mul_nonneg (sub_nonneg.2 hfl) (sub_nonneg.2 b),
    mul_nonneg (sub_nonneg.2 hfu.le) (sub_nonneg.2 a)]

theorem quantile_le_max (l : List ℝ) (q : ℝ) (x : ℝ) (hx : ∀ y ∈ l, y ≤ x) (hl : l ≠ []) (hq0 : 0 ≤ q) (hq1 : q ≤ 1) :
    quantileR q l ≤ x := by
  have hpos := List.length_pos_iff.2 hl
  have hmem : ∀ i, i < l.length → (l.insertionSort (· ≤ ·)).getD i 0 ≤ x := by
    intro i hi
    rw [List.getD_eq_getElem _ _ (by simpa using hi)]
    exact hx _ ((List.mem_insertionSort _).1 (List.getElem_mem _))
  unfold quantileR
  dsimp only
  rw [List.length_insertionSort]
  set h := ((l.length - 1 : Nat) : ℝ) * q with hh
  have hnn : (0 : ℝ) ≤ ((l.length - 1 : Nat) : ℝ) := by positivity
  have h0 : 0 ≤ h := mul_nonneg hnn hq0
  have h1 : h ≤ ((l.length - 1 : Nat) : ℝ) := by nlinarith
  have hf : ⌊h⌋₊ ≤ l.length - 1 := by
    have := Nat.floor_le_floor h1
    rwa [Nat.floor_natCast] at this
  have hfl := Nat.floor_le h0
  have hfu := Nat.lt_floor_add_one h
  have a := hmem ⌊h⌋₊ (by omega)
  have b := hmem (min (⌊h⌋₊ + 1) (l.length - 1)) (by omega)
  nlinarith [mul_nonneg (sub_nonneg.2 hfl) (sub_nonneg.2 b),
    mul_nonneg (sub_nonneg.2 hfu.le) (sub_nonneg.2 a)]

theorem quantile_zero (l : List ℝ) (x : ℝ) (hx : x ∈ l) (hmin : ∀ y ∈ l, x ≤ y) : quantileR 0 l = x := by
  have hl : l ≠ [] := List.ne_nil_of_mem hx
  refine le_antisymm ?_ (quantile_ge_min l 0 x hmin hl le_rfl zero_le_one)
  unfold quantileR
  simp only [mul_zero, Nat.floor_zero, Nat.cast_zero, sub_zero, zero_mul, add_zero]
  obtain ⟨i, hi, e⟩ := List.getElem_of_mem ((List.mem_insertionSort (r := (· ≤ ·))).2 hx)
  rw [List.length_insertionSort] at hi
  have := insSort_mono l (i := 0) (j := i) (by omega) hi
  rw [List.getD_eq_getElem (n := i) _ _ (by simpa using hi), e] at this
  exact this

theorem quantile_one (l : List ℝ) (x : ℝ) (hx : x ∈ l) (hmax : ∀ y ∈ l, y ≤ x) : quantileR 1 l = x := by
  have hl : l ≠ [] := List.ne_nil_of_mem hx
  refine le_antisymm (quantile_le_max l 1 x hmax hl zero_le_one le_rfl) ?_
  unfold quantileR
  simp only [mul_one, Nat.floor_natCast, sub_self, zero_mul, add_zero]
  obtain ⟨i, hi, e⟩ := List.getElem_of_mem ((List.mem_insertionSort (r := (· ≤ ·))).2 hx)
  rw [List.length_insertionSort] at hi ⊢
  have := insSort_mono l (i := i) (j := l.length - 1) (by omega) (by omega)
  rw [List.getD_eq_getElem (n := i) _ _ (by simpa using hi), e] at this
  exact this

/-- C100, default fractions: all values between the smallest and the largest residual are used, in order. What
is missing: the smallest and the largest values are not used, see `C100_extremes_violated`. -/
theorem C100_training_partial (v : List ℝ) (m M : ℝ) (hm : m ∈ v) (hM : M ∈ v) (hlo : ∀ y ∈ v, m ≤ y)
    (hhi : ∀ y ∈ v, y ≤ M) : kdeTrain {} v = v.filter fun x => decide (m < x ∧ x < M) := by
  unfold kdeTrain
  simp only [quantile_zero v m hm hlo, quantile_one v M hM hhi, Bool.decide_and]

/-- C100 is violated: whatever fractions are chosen, also 0 and 1 (ignore nothing), the smallest and the
largest residuals are never used. -/
theorem C100_extremes_violated (k : Kde) (below above : ℝ) (hk : Kde.init below above = .ok k) (v : List ℝ) (x : ℝ)
    (hx : (∀ y ∈ v, x ≤ y) ∨ ∀ y ∈ v, y ≤ x) : x ∉ kdeTrain k v := by
  obtain ⟨h1, h2, h3⟩ := (C100_fractions below above).1 ⟨k, hk⟩
  have hb : k.below = below ∧ k.above = above := by
    unfold Kde.init at hk
    split_ifs at hk
    rw [← Except.ok.inj hk]
    exact ⟨rfl, rfl⟩
  intro hmem
  unfold kdeTrain at hmem
  rw [List.mem_filter, Bool.and_eq_true, decide_eq_true_eq, decide_eq_true_eq, hb.1, hb.2] at hmem
  obtain ⟨hv, ha, hb'⟩ := hmem
  have hl : v ≠ [] := List.ne_nil_of_mem hv
  rcases hx with h | h
  · have := quantile_ge_min v below x h hl h1 (h2.trans h3)
    linarith
  · have := quantile_le_max v above x h hl (h1.trans h2) h3
    linarith

/-- C100 is violated: residuals with at most two different values cannot be fitted at all. -/
theorem C100_two_values_violated (W : KdeWorld) (k : Kde) (below above : ℝ) (hk : Kde.init below above = .ok k)
    (r : USeries) (x y : ℝ) (h : ∀ p ∈ r, ∀ z ∈ p.2, z = x ∨ z = y) :
    k.fit W { residual := some r } = .error .valueError := by
  have hval : ∀ z ∈ (dropMissing r).map (·.2), z = x ∨ z = y := by
    intro z hz
    obtain ⟨p, hp, rfl⟩ := List.mem_map.1 hz
    obtain ⟨q, hq, e⟩ := List.mem_filterMap.1 hp
    obtain ⟨w, hw, rfl⟩ := Option.map_eq_some_iff.1 e
    exact h q hq w (by simp [hw])
  have ht : kdeTrain k ((dropMissing r).map (·.2)) = [] := by
    rw [List.eq_nil_iff_forall_not_mem]
    intro z hz
    have hzv : z ∈ (dropMissing r).map (·.2) := by
      unfold kdeTrain at hz
      exact (List.mem_filter.1 hz).1
    refine C100_extremes_violated k below above hk _ z ?_ hz
    rcases le_total x y with hxy | hxy
    · rcases hval z hzv with rfl | rfl
      · left
        intro u hu
        rcases hval u hu with rfl | rfl
        · exact le_rfl
        · exact hxy
      · right
        intro u hu
        rcases hval u hu with rfl | rfl
        · exact hxy
        · exact le_rfl
    · rcases hval z hzv with rfl | rfl
      · right
        intro u hu
        rcases hval u hu with rfl | rfl
        · exact le_rfl
        · exact hxy
      · left
        intro u hu
        rcases hval u hu with rfl | rfl
        · exact hxy
        · exact le_rfl
  unfold Kde.fit
  simp only [kdeResidual, kdeRaw, bind, Except.bind, pure, Except.pure, Option.isSome_none, Bool.or_self,
    Bool.false_eq_true, if_false, ht, List.length_nil]
  rw [if_pos (by norm_num)]

/-- The hypotheses are met, also by a binary series. -/
example : ∃ k, Kde.init 0 1 = .ok k ∧ ∀ p ∈ ([(0, some 1), (1, none), (2, some 3), (3, some 1)] : USeries),
    ∀ z ∈ p.2, z = (1 : ℝ) ∨ z = 3 := by
  refine ⟨⟨0, 1, none⟩, ?_, ?_⟩
  · unfold Kde.init
    rw [if_neg (by norm_num), if_neg (by norm_num)]
  · simp

/-! ### Predictions -/

/-- C100: a prediction before a fit fails. -/
theorem C100_unfitted (W : KdeWorld) (k : Kde) (hk : k.kde = none) (r : USeries) :
    k.predictProba W { residual := some r } = .error .attributeError := by
  simp [Kde.predictProba, kdeResidual, kdeRaw, hk, bind, Except.bind, pure, Except.pure]

/-- C100: after a fit, the times that have a residual get a prediction. -/
theorem C100_times (W : KdeWorld) (hW : ∀ l, (W.srt l).Perm l) (k : Kde) (train : List ℝ) (h : ℝ)
    (hk : k.kde = some (train, h)) (r : USeries) :
    ∃ p, k.predictProba W { residual := some r } = .ok p ∧
      (p.map (·.1)).Perm ((r.filter fun x => x.2.isSome).map (·.1)) := by
  refine ⟨W.srt ((dropMissing r).map fun x => (x.1, kdeDensity train h x.2)), ?_, ?_⟩
  · simp [Kde.predictProba, kdeResidual, kdeRaw, hk, bind, Except.bind, pure, Except.pure]
  · refine ((hW _).map _).trans (List.Perm.of_eq ?_)
    rw [List.map_map]
    unfold dropMissing
    induction r with
    | nil => rfl
    | cons x r ih =>
      cases hx : x.2 with
      | none => simp [hx, ih]
      | some v => simp [hx, ih]

/-- C100 is violated: a row whose residual is missing gets no prediction, though one is promised for each
row of the input. -/
theorem C100_missing_violated (W : KdeWorld) (hW : ∀ l, (W.srt l).Perm l) (k : Kde) (train : List ℝ) (h : ℝ)
    (hk : k.kde = some (train, h)) (r : USeries) (hr : ∃ x ∈ r, x.2 = none) :
    ∃ p, k.predictProba W { residual := some r } = .ok p ∧ p.length < r.length := by
  obtain ⟨p, hp, hperm⟩ := C100_times W hW k train h hk r
  refine ⟨p, hp, ?_⟩
  have := hperm.length_eq
  rw [List.length_map, List.length_map] at this
  rw [this]
  obtain ⟨x, hx, e⟩ := hr
  exact List.length_filter_lt_length_iff_exists.2 ⟨x, hx, by simp [e]⟩

/-- C100 is violated: a call changes the residuals of the caller: rows with missing values disappear from
the series that was passed. -/
theorem C100_caller_violated (W : KdeWorld) :
    kdeCallerResidual W { residual := some [(0, some 1), (1, none), (2, some 3)] } = some [(0, some 1), (2, some 3)] := by
  rfl

/-- C100: outcomes and predictions of the caller are not changed, and residuals without missing values
neither. -/
theorem C100_caller (W : KdeWorld) (a : KdeArgs) (h : ∀ r ∈ a.residual, ∀ x ∈ r, x.2.isSome) :
    kdeCallerResidual W a = a.residual := by
  unfold kdeCallerResidual
  split
  · cases hr : a.residual with
    | none => rfl
    | some r =>
      rw [Option.map_some]
      congr 1
      have hall := h r (by simp [hr])
      clear hr h
      unfold dropMissing
      induction r with
      | nil => rfl
      | cons x r ih =>
        obtain ⟨t, v⟩ := x
        have := hall (t, v) (by simp)
        cases v with
        | none => simp at this
        | some v => simpa using ih fun x hx => hall x (by simp [hx])
  · rfl

/-- The density at a training value is at least the peak of its own kernel. -/
theorem density_ge (train : List ℝ) (h x : ℝ) (hh : 0 < h) (hx : x ∈ train) :
    1 / (train.length * (h * Real.sqrt (2 * Real.pi))) ≤ kdeDensity train h x := by
  have hpos : (0 : ℝ) < train.length := by
    exact_mod_cast List.length_pos_of_mem hx
  have hs : 0 < h * Real.sqrt (2 * Real.pi) := mul_pos hh (Real.sqrt_pos.2 (by positivity))
  unfold kdeDensity
  have hle : 1 / (h * Real.sqrt (2 * Real.pi)) ≤
      (train.map fun t => Real.exp (-((x - t) / h) ^ 2 / 2) / (h * Real.sqrt (2 * Real.pi))).sum := by
    have h1 : 1 / (h * Real.sqrt (2 * Real.pi)) ∈
        train.map fun t => Real.exp (-((x - t) / h) ^ 2 / 2) / (h * Real.sqrt (2 * Real.pi)) := by
      refine List.mem_map.2 ⟨x, hx, ?_⟩
      simp
    exact List.single_le_sum (fun y hy => by
      obtain ⟨t, -, rfl⟩ := List.mem_map.1 hy
      positivity) _ h1
  rw [mul_comm, ← div_div]
  exact div_le_div_of_nonneg_right hle hpos.le

/-- C100: predictions are positive. -/
theorem C100_positive (train : List ℝ) (h x : ℝ) (hh : 0 < h) (ht : train ≠ []) : 0 < kdeDensity train h x := by
  have hpos : (0 : ℝ) < train.length := by exact_mod_cast List.length_pos_iff.2 ht
  unfold kdeDensity
  refine div_pos (List.sum_pos _ ?_ (by simpa using ht)) hpos
  intro y hy
  obtain ⟨t, -, rfl⟩ := List.mem_map.1 hy
  have := Real.sqrt_pos.2 (show (0 : ℝ) < 2 * Real.pi by positivity)
  positivity

/-- C100 is violated: the predictions are no probabilities.  For each fit on `n` training values whose 5% and 95%
quantiles are less than `10 / (3 n)` apart, every training value has a prediction above one. -/
theorem C100_probability_violated (W : KdeWorld) (hW : ∀ t g, g ≠ [] → W.pick t g ∈ g) (k k' : Kde) (a : KdeArgs)
    (hk : k.fit W a = .ok k') :
    ∃ train h, k'.kde = some (train, h) ∧
      (0 < quantileR (95 / 100) train - quantileR (5 / 100) train →
        3 * train.length * (quantileR (95 / 100) train - quantileR (5 / 100) train) < 10 →
        ∀ x ∈ train, 1 < kdeDensity train h x) := by
  unfold Kde.fit at hk
  cases hr : kdeResidual W a with
  | error e => simp [hr, bind, Except.bind] at hk
  | ok r =>
  simp only [hr, bind, Except.bind] at hk
  set train := kdeTrain k (r.map (·.2)) with htrain
  split_ifs at hk with h1 h2
  simp only [pure, Except.pure, Except.ok.injEq] at hk
  subst hk
  refine ⟨train, W.pick train (kdeGrid train), rfl, ?_⟩
  intro hpos hsmall x hx
  have hg := hW train (kdeGrid train) (by simp [kdeGrid])
  set h := W.pick train (kdeGrid train) with hh
  unfold kdeGrid at hg
  dsimp only at hg
  set e := quantileR (95 / 100) train - quantileR (5 / 100) train with he
  obtain ⟨i, hi, hei⟩ := List.mem_map.1 hg
  rw [List.mem_range] at hi
  have hi' : (i : ℝ) ≤ 999 := by exact_mod_cast Nat.le_of_lt_succ hi
  have hi0 : (0 : ℝ) ≤ i := by positivity
  have hh0 : 0 < h := by rw [← hei]; nlinarith
  have hh1 : h ≤ e / 10 := by rw [← hei]; nlinarith
  have hlen : (0 : ℝ) < train.length := by exact_mod_cast List.length_pos_of_mem hx
  have hsq : Real.sqrt (2 * Real.pi) < 3 := by
    rw [Real.sqrt_lt' (by norm_num)]
    have := Real.pi_le_four
    linarith
  have hsq0 : 0 < Real.sqrt (2 * Real.pi) := Real.sqrt_pos.2 (by positivity)
  refine lt_of_lt_of_le ?_ (density_ge train h x hh0 hx)
  rw [lt_div_iff₀ (by positivity), one_mul]
  calc (train.length : ℝ) * (h * Real.sqrt (2 * Real.pi)) ≤ train.length * (e / 10 * 3) := by
        apply mul_le_mul_of_nonneg_left _ hlen.le
        exact mul_le_mul hh1 hsq.le hsq0.le (by linarith)
    _ < 1 := by linarith

/-- The hypotheses are met by ten residuals between 0 and 0.009, whatever the search picks. -/
example (W : KdeWorld) (hW : ∀ t g, g ≠ [] → W.pick t g ∈ g) :
    ∃ k' train h, (({} : Kde).fit W { residual := some ((List.range 10).map fun i : Nat =>
        ((i : Int), some ((i : ℝ) / 1000))) } = .ok k') ∧ k'.kde = some (train, h) ∧ 1 / 1000 ∈ train ∧
      1 < kdeDensity train h (1 / 1000) := by
  set r : USeries := (List.range 10).map fun i : Nat => ((i : Int), some ((i : ℝ) / 1000)) with hr
  have hd : (dropMissing r).map (·.2) = (List.range 10).map fun i : Nat => (i : ℝ) / 1000 := by
    rw [hr]
    unfold dropMissing
    rw [List.filterMap_map, List.map_filterMap]
    rfl
  have ht : kdeTrain {} ((dropMissing r).map (·.2)) =
      [1 / 1000, 2 / 1000, 3 / 1000, 4 / 1000, 5 / 1000, 6 / 1000, 7 / 1000, 8 / 1000] := by
    rw [hd, C100_training_partial _ 0 (9 / 1000)]
    · rw [List.filter_map]
      have : (List.range 10).filter ((fun x : ℝ => decide (0 < x ∧ x < 9 / 1000)) ∘ fun i : Nat => (i : ℝ) / 1000) =
          [1, 2, 3, 4, 5, 6, 7, 8] := by
        simp [List.range_succ, List.filter_cons]
        norm_num
      rw [this]
      norm_num
    · exact List.mem_map.2 ⟨0, by simp, by norm_num⟩
    · exact List.mem_map.2 ⟨9, by simp, by norm_num⟩
    · intro y hy
      obtain ⟨i, -, rfl⟩ := List.mem_map.1 hy
      positivity
    · intro y hy
      obtain ⟨i, hi, rfl⟩ := List.mem_map.1 hy
      have : (i : ℝ) ≤ 9 := by exact_mod_cast Nat.le_of_lt_succ (List.mem_range.1 hi)
      linarith
  set train : List ℝ := [1 / 1000, 2 / 1000, 3 / 1000, 4 / 1000, 5 / 1000, 6 / 1000, 7 / 1000, 8 / 1000] with htr
  have hq : ∀ q : ℝ, quantileR q train = train.getD ⌊7 * q⌋₊ 0 +
      (7 * q - ⌊7 * q⌋₊) * (train.getD (min (⌊7 * q⌋₊ + 1) 7) 0 - train.getD ⌊7 * q⌋₊ 0) := by
    intro q
    have hsort : train.insertionSort (· ≤ ·) = train := by
      apply List.Pairwise.insertionSort_eq
      rw [htr]
      norm_num
    unfold quantileR
    rw [hsort]
    simp only [htr, List.length_cons, List.length_nil]
    norm_num
  have h95 : quantileR (95 / 100) train = 7 / 1000 + 65 / 100 * (1 / 1000) := by
    rw [hq, show ⌊(7 : ℝ) * (95 / 100)⌋₊ = 6 by rw [Nat.floor_eq_iff (by norm_num)]; norm_num]
    simp only [htr, List.getD_cons_succ, List.getD_cons_zero]
    norm_num
  have h05 : quantileR (5 / 100) train = 1 / 1000 + 35 / 100 * (1 / 1000) := by
    rw [hq, show ⌊(7 : ℝ) * (5 / 100)⌋₊ = 0 by rw [Nat.floor_eq_zero]; norm_num]
    simp only [htr, List.getD_cons_succ, List.getD_cons_zero]
    norm_num
  have hfit : ({} : Kde).fit W { residual := some r } =
      .ok { ({} : Kde) with kde := some (train, W.pick train (kdeGrid train)) } := by
    unfold Kde.fit
    simp only [kdeResidual, kdeRaw, bind, Except.bind, pure, Except.pure, Option.isSome_none, Bool.or_self,
      Bool.false_eq_true, if_false, ht]
    rw [if_neg (by simp [htr]), if_neg (by rw [h95, h05]; norm_num)]
  obtain ⟨train', h, e, hall⟩ := C100_probability_violated W hW {} _ _ hfit
  obtain ⟨rfl, rfl⟩ := Prod.mk.inj (Option.some.inj e)
  refine ⟨_, _, _, hfit, rfl, by simp [htr], ?_⟩
  refine hall (by rw [h95, h05]; norm_num) (by rw [h95, h05]; simp [htr]; norm_num) _ (by simp [htr])

end

end Kats
