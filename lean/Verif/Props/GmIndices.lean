import Verif.Props.GmLoader

/-!
# C136: the places of the windows of a batch
-/

namespace Kats

/-- What `GMParam` checks: positive integers (1337-1355). -/
structure GmWf (p : GmParams) : Prop where
  iw : 1 ≤ p.inputWindow
  fw : 1 ≤ p.fcstWindow
  season : 1 ≤ p.seasonality
  num : 1 ≤ p.minTrainNum
  len : 1 ≤ p.minTrainLen
  valid : 1 ≤ p.validSteps
  warm : 1 ≤ p.warmUp
  fcst : 1 ≤ p.fcstSteps

theorem mem_arange (lo hi step : Nat) (hs : 1 ≤ step) (i : Nat) :
    i ∈ gmArange lo hi step ↔ lo ≤ i ∧ i < hi ∧ step ∣ i - lo := by
  unfold gmArange
  rw [List.mem_map]
  constructor
  · rintro ⟨k, hk, rfl⟩
    rw [List.mem_range, Nat.lt_div_iff_mul_lt hs] at hk
    have : k * step = step * k := Nat.mul_comm _ _
    refine ⟨by omega, by omega, by rw [Nat.add_sub_cancel_left]; exact Dvd.intro_left k rfl⟩
  · rintro ⟨h1, h2, k, hk⟩
    have : k * step = step * k := Nat.mul_comm _ _
    refine ⟨k, ?_, by omega⟩
    rw [List.mem_range, Nat.lt_div_iff_mul_lt hs]
    omega

theorem arange_sorted (lo hi step : Nat) (hs : 1 ≤ step) :
    (gmArange lo hi step).Pairwise (· < ·) := by
  unfold gmArange
  rw [List.pairwise_map]
  refine List.pairwise_lt_range.imp fun {a b} h => ?_
  have := Nat.mul_lt_mul_of_pos_right h (show 0 < step by omega)
  omega

theorem arange_length (lo n step : Nat) (hs : 1 ≤ step) :
    (gmArange lo (lo + n * step) step).length = n := by
  unfold gmArange
  rw [List.length_map, List.length_range, Nat.add_sub_cancel_left, Nat.div_eq_of_lt_le]
  · omega
  · have : (n + 1) * step = n * step + step := by ring
    omega

theorem arange_length_succ (lo n step : Nat) (hs : 1 ≤ step) :
    (gmArange lo (lo + n * step + 1) step).length = n + 1 := by
  unfold gmArange
  rw [List.length_map, List.length_range, Nat.div_eq_of_lt_le]
  · have : (n + 1) * step = n * step + step := by ring
    omega
  · have : (n + 1 + 1) * step = n * step + step + step := by ring
    omega

theorem randint_bounds (lo hi r : Nat) (h : lo < hi) : lo ≤ gmRandint lo hi r ∧ gmRandint lo hi r < hi := by
  unfold gmRandint
  have := Nat.mod_lt r (show hi - lo > 0 by omega)
  omega

/-- C136: the indices are there if and only if there is a series and none is shorter than a period. -/
theorem C136_indices_ok (p : GmParams) (training : Bool) (lens : List Nat) (valid : Option (List Nat))
    (r1 r2 : Nat) :
    (∃ ix, gmIndices p training lens valid r1 r2 = .ok ix) ↔
      lens ≠ [] ∧ ∀ n ∈ lens, p.seasonality ≤ n := by
  unfold gmIndices
  rcases hmn : lens.min? with _ | mn
  · rw [List.min?_eq_none_iff] at hmn
    subst hmn
    simp
  · rcases hmx : lens.max? with _ | mx
    · rw [List.max?_eq_none_iff] at hmx
      subst hmx
      simp at hmn
    · obtain ⟨h1, h2⟩ := List.min?_eq_some_iff.1 hmn
      have hne : lens ≠ [] := by rintro rfl; simp at h1
      have hiff : (∀ n ∈ lens, p.seasonality ≤ n) ↔ ¬ mn < p.seasonality := by
        constructor
        · intro h; have := h mn h1; omega
        · intro h n hn; have := h2 n hn; omega
      simp only [ne_eq, hne, not_false_eq_true, true_and]
      rw [hiff]
      by_cases hs : mn < p.seasonality
      · rw [if_pos hs]
        simp [hs]
      · rw [if_neg hs]
        simp only [hs, not_false_eq_true, iff_true]
        split
        · cases valid
          · exact ⟨_, rfl⟩
          · exact ⟨_, rfl⟩
        · exact ⟨_, rfl⟩

/-- C136, training: the training indices are the places from `input_window` on, in steps of
`min_training_step_length`, up to the last one with a whole target part in the array, at which the
array ends; there are at least `min_training_step_num + 1`.  The array is not longer than the longest
series if that is long enough.  The validation indices follow in steps of `fcst_window` and the
validation array holds exactly their targets: for the recurrent model they cover the validation
series, up to `validation_step_num` steps, for the sequence to sequence model as many steps as in
training. -/
theorem C136_train_indices (p : GmParams) (hp : GmWf p) (lens : List Nat) (valid : Option (List Nat))
    (r1 r2 : Nat) (ix : GmIndices) (h : gmIndices p true lens valid r1 r2 = .ok ix) :
    (∀ i, i ∈ ix.train ↔ p.inputWindow ≤ i ∧ i + p.fcstWindow * ix.trainEnc ≤ ix.reduced ∧
      p.minTrainLen ∣ i - p.inputWindow) ∧
    ix.train.Pairwise (· < ·) ∧
    (∃ i ∈ ix.train, i + p.fcstWindow * ix.trainEnc = ix.reduced) ∧
    p.minTrainNum + 1 ≤ ix.train.length ∧
    1 ≤ ix.trainEnc ∧ (p.rnn = true → ix.trainEnc = 1) ∧ ix.trainEnc ≤ max 1 (2 * p.fcstSteps) ∧
    ((∃ n ∈ lens, p.inputWindow + p.minTrainNum * p.minTrainLen + p.fcstWindow * ix.trainEnc ≤ n) →
      ∃ n ∈ lens, ix.reduced ≤ n) ∧
    (∀ i, i ∈ ix.valid ↔ ix.reduced ≤ i ∧ i + p.fcstWindow ≤ ix.reduced + ix.reducedValid ∧
      p.fcstWindow ∣ i - ix.reduced) ∧
    ix.valid.Pairwise (· < ·) ∧ ix.reducedValid = p.fcstWindow * ix.valid.length ∧
    (valid = none → ix.valid = []) ∧
    (∀ v, valid = some v → v ≠ [] → p.rnn = true → ix.valid.length ≤ p.validSteps ∧
      ((∀ n ∈ v, n ≤ ix.reducedValid) ∨ ix.valid.length = p.validSteps) ∧
      ∃ n ∈ v, ix.reducedValid < n + p.fcstWindow) ∧
    (∀ v, valid = some v → p.rnn = false → ix.valid.length = ix.trainEnc ∧ ix.testEnc = ix.trainEnc) := by
  unfold gmIndices at h
  rcases hmn : lens.min? with _ | mn
  · rw [hmn] at h; cases h
  rcases hmx : lens.max? with _ | mx
  · rw [hmn, hmx] at h; cases h
  rw [hmn, hmx] at h
  simp only [] at h
  by_cases hs : mn < p.seasonality
  · rw [if_pos hs] at h; cases h
  rw [if_neg hs, if_pos trivial] at h
  obtain ⟨hmx1, hmx2⟩ := List.max?_eq_some_iff.1 hmx
  have hf := hp.fw
  have hl := hp.len
  obtain ⟨tb, htb⟩ : ∃ tb, tb = p.inputWindow + p.minTrainNum * p.minTrainLen := ⟨_, rfl⟩
  obtain ⟨enc, henc⟩ : ∃ enc, enc = (if p.rnn then 1
    else min (p.fcstSteps * 2) (gmRandint 1 (max 2 ((mx - tb) / p.fcstWindow)) r1)) := ⟨_, rfl⟩
  have henc1 : 1 ≤ enc ∧ (p.rnn = true → enc = 1) ∧ enc ≤ max 1 (2 * p.fcstSteps) := by
    rw [henc]
    have := randint_bounds 1 (max 2 ((mx - tb) / p.fcstWindow)) r1 (by omega)
    have := hp.fcst
    split
    · exact ⟨le_refl _, fun _ => rfl, le_max_left _ _⟩
    · rename_i hr
      exact ⟨by omega, fun h => absurd h hr, by omega⟩
  rw [← htb, ← henc] at h
  obtain ⟨q, hq⟩ : ∃ q, q = gmRandint 0 ((mx - (tb + p.fcstWindow * enc)) / p.minTrainLen + 1) r2 := ⟨_, rfl⟩
  have hq2 : q * p.minTrainLen ≤ mx - (tb + p.fcstWindow * enc) := by
    have := (randint_bounds 0 ((mx - (tb + p.fcstWindow * enc)) / p.minTrainLen + 1) r2 (Nat.succ_pos _)).2
    rw [← hq] at this
    exact le_trans (Nat.mul_le_mul_right _ (by omega)) (Nat.div_mul_le_self _ _)
  rw [← hq] at h
  obtain ⟨red, hred⟩ : ∃ red, red = tb + p.fcstWindow * enc + q * p.minTrainLen := ⟨_, rfl⟩
  rw [← hred] at h
  have hstop : red - p.fcstWindow * enc = p.inputWindow + (p.minTrainNum + q) * p.minTrainLen := by
    have : (p.minTrainNum + q) * p.minTrainLen = p.minTrainNum * p.minTrainLen + q * p.minTrainLen := by
      ring
    omega
  have hfe : p.fcstWindow * enc ≤ red := by omega
  obtain ⟨tr, htr⟩ : ∃ tr, tr = gmArange p.inputWindow (red - p.fcstWindow * enc + 1) p.minTrainLen :=
    ⟨_, rfl⟩
  have hT : (∀ i, i ∈ tr ↔ p.inputWindow ≤ i ∧ i + p.fcstWindow * enc ≤ red ∧
      p.minTrainLen ∣ i - p.inputWindow) := by
    intro i
    rw [htr, mem_arange _ _ _ hl]
    constructor
    · rintro ⟨h1, h2, h3⟩; exact ⟨h1, by omega, h3⟩
    · rintro ⟨h1, h2, h3⟩; exact ⟨h1, by omega, h3⟩
  have hT2 : ∃ i ∈ tr, i + p.fcstWindow * enc = red := by
    refine ⟨red - p.fcstWindow * enc, (hT _).2 ⟨by omega, by omega, ?_⟩, by omega⟩
    rw [hstop, Nat.add_sub_cancel_left]
    exact Dvd.intro_left _ rfl
  have hT3 : p.minTrainNum + 1 ≤ tr.length := by
    rw [htr, hstop, arange_length_succ _ _ _ hl]
    omega
  have hT4 : tr.Pairwise (· < ·) := by rw [htr]; exact arange_sorted _ _ _ hl
  have hT5 : (∃ n ∈ lens, p.inputWindow + p.minTrainNum * p.minTrainLen + p.fcstWindow * enc ≤ n) →
      ∃ n ∈ lens, red ≤ n := by
    rintro ⟨n, hn, hle⟩
    have := hmx2 n hn
    exact ⟨mx, hmx1, by omega⟩
  rw [← htr] at h
  rcases valid with _ | v
  · simp only [] at h
    injection h with h
    subst h
    refine ⟨hT, hT4, hT2, hT3, henc1.1, henc1.2.1, henc1.2.2, hT5, ?_, List.Pairwise.nil, by simp,
      fun _ => rfl, by simp, by simp⟩
    intro i
    simp only [List.not_mem_nil, false_iff, not_and]
    intros
    omega
  · simp only [] at h
    injection h with h
    subst h
    simp only []
    obtain ⟨w, hw⟩ : ∃ w, w = (if p.rnn then min (v.max?.getD 0) (p.fcstWindow * p.validSteps)
      else enc * p.fcstWindow) := ⟨_, rfl⟩
    have hlast : (if p.rnn then red + min (v.max?.getD 0) (p.fcstWindow * p.validSteps)
        else red + enc * p.fcstWindow) = red + w := by
      rw [hw]; split <;> rfl
    rw [hlast]
    obtain ⟨c, hc⟩ : ∃ c, c = (w + p.fcstWindow - 1) / p.fcstWindow := ⟨_, rfl⟩
    have hlen : (gmArange red (red + w) p.fcstWindow).length = c := by
      unfold gmArange
      rw [List.length_map, List.length_range, hc, Nat.add_sub_cancel_left]
    have hc1 : w ≤ c * p.fcstWindow := by
      have := Nat.lt_div_mul_add (a := w + p.fcstWindow - 1) hf
      rw [← hc] at this
      omega
    have hc2 : c * p.fcstWindow ≤ w + p.fcstWindow - 1 := by
      rw [hc]; exact Nat.div_mul_le_self _ _
    have hcc : c * p.fcstWindow = p.fcstWindow * c := Nat.mul_comm _ _
    refine ⟨hT, hT4, hT2, hT3, henc1.1, henc1.2.1, henc1.2.2, hT5, ?_, arange_sorted _ _ _ hf, ?_,
      by simp, ?_, ?_⟩
    · intro i
      rw [mem_arange _ _ _ hf, hlen]
      constructor
      · rintro ⟨h1, h2, k, hk⟩
        refine ⟨h1, ?_, k, hk⟩
        have hkc : k < c := by
          by_contra hge
          have := Nat.mul_le_mul_left p.fcstWindow (show c ≤ k by omega)
          omega
        have := Nat.mul_le_mul_left p.fcstWindow (show k + 1 ≤ c by omega)
        rw [Nat.mul_add, Nat.mul_one] at this
        omega
      · rintro ⟨h1, h2, k, hk⟩
        exact ⟨h1, by omega, k, hk⟩
    · rw [hlen]; exact hcc
    · rintro v' hv' hne hr
      injection hv' with hv'
      subst hv'
      rw [hlen]
      rw [if_pos hr] at hw
      rcases hvm : v.max? with _ | vm
      · rw [List.max?_eq_none_iff] at hvm; exact absurd hvm hne
      obtain ⟨g1, g2⟩ := List.max?_eq_some_iff.1 hvm
      rw [hvm, Option.getD_some] at hw
      have hcv : c ≤ p.validSteps := by
        by_contra hgt
        have := Nat.mul_le_mul_left p.fcstWindow (show p.validSteps + 1 ≤ c by omega)
        rw [Nat.mul_add, Nat.mul_one] at this
        omega
      refine ⟨hcv, ?_, ?_⟩
      · rcases le_total vm (p.fcstWindow * p.validSteps) with hle | hle
        · left
          intro n hn
          have := g2 n hn
          omega
        · right
          have : p.fcstWindow * p.validSteps ≤ p.fcstWindow * c := by omega
          have := Nat.le_of_mul_le_mul_left this (by omega)
          omega
      · exact ⟨vm, g1, by omega⟩
    · rintro v' _ hr
      rw [hr] at hw ⊢
      simp only [Bool.false_eq_true, if_false] at hw ⊢
      refine ⟨?_, trivial⟩
      rw [hw, arange_length _ _ _ hf]

/-- C136, test: the array has whole steps of `min_training_step_length` after the first input window,
at least `min_warming_up_step_num` of them; all the longest series but less than a step is used; the
indices before its end warm the model up and the `fcst_step_num` steps after it are forecast. -/
theorem C136_test_indices (p : GmParams) (hp : GmWf p) (lens : List Nat) (valid : Option (List Nat))
    (r1 r2 : Nat) (ix : GmIndices) (h : gmIndices p false lens valid r1 r2 = .ok ix) :
    (∀ i, i ∈ ix.train ↔ p.inputWindow ≤ i ∧ i < ix.reduced ∧ p.minTrainLen ∣ i - p.inputWindow) ∧
    ix.train.Pairwise (· < ·) ∧ p.warmUp ≤ ix.train.length ∧
    p.inputWindow ≤ ix.reduced ∧ p.minTrainLen ∣ ix.reduced - p.inputWindow ∧
    (∀ n ∈ lens, n < ix.reduced + p.minTrainLen) ∧
    ((∃ n ∈ lens, ix.reduced ≤ n) ∨
      ix.reduced = p.inputWindow + p.warmUp * p.minTrainLen) ∧
    (∀ i, i ∈ ix.valid ↔ ix.reduced ≤ i ∧ i + p.fcstWindow ≤ ix.reduced + ix.reducedValid ∧
      p.fcstWindow ∣ i - ix.reduced) ∧
    ix.valid.Pairwise (· < ·) ∧ ix.valid.length = p.fcstSteps ∧
    ix.reducedValid = p.fcstWindow * p.fcstSteps := by
  unfold gmIndices at h
  rcases hmn : lens.min? with _ | mn
  · rw [hmn] at h; cases h
  rcases hmx : lens.max? with _ | mx
  · rw [hmn, hmx] at h; cases h
  rw [hmn, hmx] at h
  simp only [] at h
  by_cases hs : mn < p.seasonality
  · rw [if_pos hs] at h; cases h
  rw [if_neg hs] at h
  simp only [Bool.false_eq_true, if_false] at h
  obtain ⟨hmx1, hmx2⟩ := List.max?_eq_some_iff.1 hmx
  have hf := hp.fw
  have hl := hp.len
  obtain ⟨red, hred⟩ : ∃ red, red = max (p.inputWindow + p.warmUp * p.minTrainLen)
    (((mx : Int) - ((mx : Int) - (p.inputWindow : Int)) % (p.minTrainLen : Int)).toNat) := ⟨_, rfl⟩
  rw [← hred] at h
  injection h with h
  subst h
  simp only []
  have hm0 := Int.emod_nonneg ((mx : Int) - (p.inputWindow : Int)) (show (p.minTrainLen : Int) ≠ 0 by omega)
  have hm1 := Int.emod_lt_of_pos ((mx : Int) - (p.inputWindow : Int)) (show 0 < (p.minTrainLen : Int) by omega)
  have hm2 := Int.mul_ediv_add_emod ((mx : Int) - (p.inputWindow : Int)) (p.minTrainLen : Int)
  obtain ⟨md, hmd⟩ : ∃ md, md = ((mx : Int) - (p.inputWindow : Int)) % (p.minTrainLen : Int) := ⟨_, rfl⟩
  obtain ⟨dv, hdv⟩ : ∃ dv, dv = ((mx : Int) - (p.inputWindow : Int)) / (p.minTrainLen : Int) := ⟨_, rfl⟩
  rw [← hmd] at hred hm0 hm1 hm2
  rw [← hdv] at hm2
  have hge : p.inputWindow + p.warmUp * p.minTrainLen ≤ red := by rw [hred]; exact le_max_left _ _
  have hdvd : ∃ k, red = p.inputWindow + k * p.minTrainLen ∧ p.warmUp ≤ k := by
    rcases le_total (((mx : Int) - md).toNat) (p.inputWindow + p.warmUp * p.minTrainLen) with hle | hle
    · exact ⟨p.warmUp, by rw [hred, max_eq_left hle], le_refl _⟩
    · have hr : red = ((mx : Int) - md).toNat := by rw [hred, max_eq_right hle]
      have hp1 : 0 < p.warmUp * p.minTrainLen := Nat.mul_pos hp.warm hl
      have e : ((mx : Int) - md) = p.inputWindow + p.minTrainLen * dv := by omega
      have hdv0 : 0 ≤ dv := by
        by_contra hneg
        have : (p.minTrainLen : Int) * dv ≤ 0 :=
          Int.mul_nonpos_of_nonneg_of_nonpos (by omega) (by omega)
        have := hp.iw
        omega
      obtain ⟨k, rfl⟩ := Int.eq_ofNat_of_zero_le hdv0
      have e2 : (p.minTrainLen : Int) * (k : Int) = ((k * p.minTrainLen : Nat) : Int) := by
        push_cast; ring
      refine ⟨k, by omega, ?_⟩
      have : p.warmUp * p.minTrainLen ≤ k * p.minTrainLen := by omega
      exact Nat.le_of_mul_le_mul_right this (by omega)
  obtain ⟨k, hk, hkw⟩ := hdvd
  refine ⟨fun i => mem_arange _ _ _ hl i, arange_sorted _ _ _ hl, ?_, by omega, ?_, ?_, ?_, ?_,
    arange_sorted _ _ _ hf, ?_, trivial⟩
  · rw [hk, arange_length _ _ _ hl]; exact hkw
  · rw [hk, Nat.add_sub_cancel_left]; exact Dvd.intro_left _ rfl
  · intro n hn
    have := hmx2 n hn
    have : ((mx : Int) - md).toNat ≤ red := by rw [hred]; exact le_max_right _ _
    omega
  · rcases le_total (((mx : Int) - md).toNat) (p.inputWindow + p.warmUp * p.minTrainLen) with hle | hle
    · right; rw [hred, max_eq_left hle]
    · left
      refine ⟨mx, hmx1, ?_⟩
      rw [hred, max_eq_right hle]
      omega
  · intro i
    rw [mem_arange _ _ _ hf]
    constructor
    · rintro ⟨h1, h2, j, hj⟩
      refine ⟨h1, ?_, j, hj⟩
      have hjc : j < p.fcstSteps := by
        by_contra hge
        have := Nat.mul_le_mul_left p.fcstWindow (show p.fcstSteps ≤ j by omega)
        omega
      have := Nat.mul_le_mul_left p.fcstWindow (show j + 1 ≤ p.fcstSteps by omega)
      rw [Nat.mul_add, Nat.mul_one] at this
      omega
    · rintro ⟨h1, h2, h3⟩
      exact ⟨h1, by omega, h3⟩
  · rw [show red + p.fcstWindow * p.fcstSteps = red + p.fcstSteps * p.fcstWindow by ring,
      arange_length _ _ _ hf]

/-- Parameters for the examples: input of two rows, one row ahead, period 2. -/
def gmExP : GmParams := ⟨2, 1, 2, 2, 1, 2, 1, 1, 10, true, 3, 1 / 10, 10⟩

theorem gmExP_wf : GmWf gmExP := ⟨by decide, by decide, by decide, by decide, by decide, by decide,
  by decide, by decide⟩

example : (gmIndices gmExP true [7, 9] (some [3, 3]) 0 1).toOption.map
    (fun ix => (ix.reduced, ix.reducedValid, ix.train, ix.valid)) =
    some (6, 2, [2, 3, 4, 5], [6, 7]) := by decide

example : (gmIndices gmExP false [7, 9] none 0 0).toOption.map
    (fun ix => (ix.reduced, ix.reducedValid, ix.train, ix.valid)) =
    some (9, 1, [2, 3, 4, 5, 6, 7, 8], [9]) := by decide

/-- C136: a series alone in a test batch is not padded exactly if it is at least `calc_min_input_length`
long, and the test part is `calc_max_fcst_horizon` steps long. -/
theorem C136_min_input (p : GmParams) (n : Nat) (valid : Option (List Nat))
    (r1 r2 : Nat) (ix : GmIndices) (h : gmIndices p false [n] valid r1 r2 = .ok ix) :
    (ix.reduced ≤ n ↔ gmMinInput p ≤ n) ∧ ix.reducedValid = gmMaxHorizon p := by
  have e1 : [n].min? = some n := rfl
  have e2 : [n].max? = some n := rfl
  unfold gmIndices at h
  rw [e1, e2] at h
  simp only [] at h
  by_cases hs : n < p.seasonality
  · rw [if_pos hs] at h; cases h
  rw [if_neg hs] at h
  simp only [Bool.false_eq_true, if_false] at h
  injection h with h
  subst h
  unfold gmMinInput gmMaxHorizon
  refine ⟨?_, rfl⟩
  simp only []
  constructor
  · intro hle; exact le_trans (le_max_left _ _) hle
  · intro hle
    apply max_le hle
    rcases Nat.eq_zero_or_pos p.minTrainLen with h0 | h0
    · have hnn : 0 ≤ ((n : Int) - (p.inputWindow : Int)) := by
        have := Nat.le_add_right p.inputWindow (p.warmUp * p.minTrainLen)
        omega
      have := Int.emod_nonneg
      rw [h0, Int.natCast_zero, Int.emod_zero]
      omega
    · have := Int.emod_nonneg ((n : Int) - (p.inputWindow : Int)) (show (p.minTrainLen : Int) ≠ 0 by omega)
      omega

example : (gmIndices gmExP false [9] none 0 0).toOption.isSome = true := by decide +kernel

end Kats
