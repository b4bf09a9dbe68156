import Verif.Model.Seasonality
import Mathlib.Data.List.GetD
import Mathlib.Tactic.Linarith
import Mathlib.Tactic.NormNum
import Mathlib.Tactic.FieldSimp
import Mathlib.Tactic.Positivity

/-!
# Seasonality by Fourier transform: C103
-/

namespace Kats

noncomputable section

open Classical

/-! ### The loop over harmonics -/

theorem marks_spec (fs : List ℝ) (n k : Nat) (m0 : List Bool) (h0 : m0 = List.replicate n false) :
    ((List.range k).foldl (markStep fs) m0).length = n ∧
      ∀ j, j < n → (((List.range k).foldl (markStep fs) m0).getD j false = true ↔
        ∃ i, i < k ∧ i < j ∧ isHarmonic (fs.getD i 0) (fs.getD j 0) = true) := by
  induction k with
  | zero =>
    subst h0
    refine ⟨by simp, ?_⟩
    intro j hj
    simp [List.getD_eq_getElem?_getD, hj]
  | succ k ih =>
    rw [List.range_succ, List.foldl_append, List.foldl_cons, List.foldl_nil]
    set m := (List.range k).foldl (markStep fs) m0 with hm
    refine ⟨by simp [markStep, ih.1], ?_⟩
    intro j hj
    unfold markStep
    rw [List.getD_eq_getElem?_getD, List.getElem?_map, List.getElem?_range (by rw [ih.1]; exact hj), Option.map_some,
      Option.getD_some]
    split
    · rename_i h
      exact ⟨fun _ => ⟨k, by omega, h⟩, fun _ => rfl⟩
    · rename_i h
      rw [ih.2 j hj]
      constructor
      · rintro ⟨i, h1, h2⟩; exact ⟨i, by omega, h2⟩
      · rintro ⟨i, h1, h2⟩
        refine ⟨i, ?_, h2⟩
        by_contra hc
        obtain rfl : i = k := by omega
        exact h h2

/-- `g` is within 0.01 of a multiple of `f`. -/
def NearMultiple (f g : ℝ) : Prop := ∃ m : ℤ, -(1 / 100) < g / f - m ∧ g / f - m < 1 / 100

theorem isHarmonic_iff (f g : ℝ) : isHarmonic f g = true ↔ NearMultiple f g := by
  unfold isHarmonic mod1 NearMultiple
  rw [Bool.or_eq_true, decide_eq_true_eq, decide_eq_true_eq]
  have h0 := Int.floor_le (g / f)
  have h1 := Int.lt_floor_add_one (g / f)
  constructor
  · rintro (h | h)
    · exact ⟨⌊g / f⌋, by linarith, h⟩
    · exact ⟨⌊g / f⌋ + 1, by push_cast; linarith, by push_cast; linarith⟩
  · rintro ⟨m, h2, h3⟩
    rcases le_or_gt (m : ℝ) (g / f) with h | h
    · left
      rw [Int.floor_eq_iff.2 ⟨h, by linarith⟩]
      exact h3
    · right
      have : ⌊g / f⌋ = m - 1 := by
        rw [Int.floor_eq_iff]
        push_cast
        constructor <;> linarith
      rw [this]
      push_cast
      linarith

/-- Row `r` stands at an inner position of the spectrum, its amplitude is above `t` and at least 0.1 above both
neighbours (minus infinity is below everything). -/
def HighPeak (l : List FftRow) (t : ℝ) (r : FftRow) : Prop :=
  ∃ i x, 0 < i ∧ i + 1 < l.length ∧ l[i]? = some r ∧ r.2 = some x ∧ t < x ∧
    (∀ q, l[i - 1]? = some q → ∀ y ∈ q.2, y + 1 / 10 ≤ x) ∧ ∀ q, l[i + 1]? = some q → ∀ y ∈ q.2, y + 1 / 10 ≤ x

theorem exceeds_iff (a b : Option ℝ) : exceeds a b = true ↔ ∃ x, a = some x ∧ ∀ y ∈ b, y + 1 / 10 ≤ x := by
  cases a <;> cases b <;> simp [exceeds]

/-- The rows that enter the loop. -/
theorem high_mem (l : List FftRow) (t : ℝ) (r : FftRow) :
    r ∈ (((peakIdx l).map fun i => l.getD i (0, none)).filter fun r => r.2.elim false fun x => decide (x > t)) ↔
      HighPeak l t r := by
  rw [List.mem_filter, List.mem_map]
  constructor
  · rintro ⟨⟨i, hi, rfl⟩, ht⟩
    unfold peakIdx at hi
    rw [List.mem_filter, List.mem_range] at hi
    simp only [Bool.and_eq_true, decide_eq_true_eq] at hi
    obtain ⟨hl, ⟨⟨h1, h2⟩, h3⟩, h4⟩ := hi
    rw [exceeds_iff] at h3 h4
    obtain ⟨x, hx, h3⟩ := h3
    obtain ⟨x', hx', h4⟩ := h4
    rw [hx, Option.some.injEq] at hx'
    subst hx'
    rw [hx] at ht
    refine ⟨i, x, h1, h2, ?_, hx, by simpa using ht, ?_, ?_⟩
    · rw [List.getElem?_eq_getElem hl, List.getD_eq_getElem _ _ hl]
    · intro q hq y hy
      rw [List.getD_eq_getElem?_getD, hq] at h3
      exact h3 y hy
    · intro q hq y hy
      rw [List.getD_eq_getElem?_getD, hq] at h4
      exact h4 y hy
  · rintro ⟨i, x, h1, h2, hr, hx, ht, h3, h4⟩
    have hl : i < l.length := by omega
    have hri : l.getD i (0, none) = r := by rw [List.getD_eq_getElem?_getD, hr]; rfl
    refine ⟨⟨i, ?_, hri⟩, by simp [hx, ht]⟩
    unfold peakIdx
    rw [List.mem_filter, List.mem_range]
    simp only [Bool.and_eq_true, decide_eq_true_eq, exceeds_iff]
    refine ⟨hl, ⟨⟨h1, h2⟩, x, by rw [hri, hx], ?_⟩, x, by rw [hri, hx], ?_⟩
    · rw [List.getD_eq_getElem _ _ (show i - 1 < l.length by omega)]
      exact h3 _ (List.getElem?_eq_getElem _)
    · rw [List.getD_eq_getElem _ _ h2]
      exact h4 _ (List.getElem?_eq_getElem _)

/-- C103, Fourier: for a spectrum with increasing frequencies, the selected peaks are, in order, the high peaks whose
frequency is not nearly a multiple of the frequency of a lower high peak. -/
theorem C103_fft_selected (l : List FftRow) (mad t : ℝ) (hl : (l.map (·.1)).Pairwise (· < ·))
    (ht : fftThreshold l mad = some t) :
    (∀ r, r ∈ (fftPeaks l mad).2.2 ↔ HighPeak l t r ∧ ∀ r', HighPeak l t r' → r'.1 < r.1 → ¬ NearMultiple r'.1 r.1) ∧
      ((fftPeaks l mad).2.2.map (·.1)).Pairwise (· < ·) := by
  unfold fftPeaks
  dsimp only
  rw [ht]
  simp only [Option.elim_some]
  set high := (((peakIdx l).map fun i => l.getD i (0, none)).filter fun r => r.2.elim false fun x => decide (x > t))
    with hhigh
  have hsorted : (high.map (·.1)).Pairwise (· < ·) := by
    have h1 : List.Sublist ((peakIdx l).map fun i => l.getD i (0, none)) l := by
      have h2 : List.Sublist (peakIdx l) (List.range l.length) := List.filter_sublist
      have h3 := h2.map fun i => l.getD i (0, none)
      have h4 : (List.range l.length).map (fun i => l.getD i (0, none)) = l := by
        apply List.ext_getElem
        · simp
        · intro i h5 h6
          simp [h6]
      rwa [h4] at h3
    exact hl.sublist (((List.filter_sublist).trans h1).map _)
  have hmono : ∀ i j (hi : i < high.length) (hj : j < high.length), high[i].1 < high[j].1 ↔ i < j := by
    intro i j hi hj
    have hpw := List.pairwise_iff_getElem.1 hsorted
    constructor
    · intro h
      by_contra hc
      rcases Nat.lt_or_ge j i with h2 | h2
      · have := hpw j i (by simpa using hj) (by simpa using hi) h2
        simp only [List.getElem_map] at this
        linarith
      · obtain rfl : i = j := by omega
        exact lt_irrefl _ h
    · intro h
      have := hpw i j (by simpa using hi) (by simpa using hj) h
      simpa using this
  obtain ⟨hmlen, hmarks⟩ := marks_spec (high.map (·.1)) high.length high.length (high.map fun _ => false) (by
    rw [List.map_const'])
  set marks := (List.range high.length).foldl (markStep (high.map (·.1))) (high.map fun _ => false) with hmk
  constructor
  · intro r
    rw [List.mem_map]
    have hm := high_mem l t
    rw [← hhigh] at hm
    constructor
    · rintro ⟨⟨r', b⟩, hp, rfl⟩
      rw [List.mem_filter] at hp
      obtain ⟨hz, hb⟩ := hp
      obtain ⟨j, hj, e⟩ := List.getElem_of_mem hz
      rw [List.getElem_zip, Prod.mk.injEq] at e
      have hj' : j < high.length := by
        rw [List.length_zip] at hj
        omega
      obtain ⟨e1, e2⟩ := e
      refine ⟨(hm _).1 (by rw [← e1]; exact List.getElem_mem _), ?_⟩
      intro r'' hr'' hlt hnear
      obtain ⟨i, hi, rfl⟩ := List.getElem_of_mem ((hm _).2 hr'')
      dsimp only at hlt hnear
      rw [← e1] at hlt hnear
      have hij := (hmono i j hi hj').1 hlt
      have := (hmarks j hj').2 ⟨i, hi, hij, by
        rw [isHarmonic_iff, List.getD_eq_getElem _ _ (by simpa using hi), List.getD_eq_getElem _ _ (by simpa using hj')]
        simpa using hnear⟩
      rw [List.getD_eq_getElem _ _ (by rw [hmlen]; exact hj'), e2] at this
      simp [this] at hb
    · rintro ⟨hr, hall⟩
      obtain ⟨j, hj, e⟩ := List.getElem_of_mem ((hm r).2 hr)
      refine ⟨(r, marks.getD j false), List.mem_filter.2 ⟨?_, ?_⟩, rfl⟩
      · rw [List.getD_eq_getElem _ _ (by rw [hmlen]; exact hj)]
        have hjz : j < (high.zip marks).length := by
          rw [List.length_zip, hmlen]
          omega
        have : (high.zip marks)[j] = (r, marks[j]) := by rw [List.getElem_zip, e]
        rw [← this]
        exact List.getElem_mem _
      · rw [Bool.not_eq_true', Bool.eq_false_iff]
        intro hc
        obtain ⟨i, hi, hij, hh⟩ := (hmarks j hj).1 hc
        rw [isHarmonic_iff, List.getD_eq_getElem _ _ (by simpa using hi), List.getD_eq_getElem _ _ (by simpa using hj)]
          at hh
        simp only [List.getElem_map] at hh
        rw [e] at hh
        refine hall high[i] ((hm _).1 (List.getElem_mem hi)) ?_ hh
        rw [← e]
        exact (hmono i j hi hj).2 hij
  · refine hsorted.sublist (List.Sublist.map _ ?_)
    have h1 : List.Sublist (((high.zip marks).filter fun p => !p.2).map (·.1)) ((high.zip marks).map (·.1)) :=
      List.filter_sublist.map _
    rw [List.map_fst_zip (by rw [hmlen])] at h1
    exact h1

/-- C103: without a positive amplitude, or with none above their median, nothing is selected. -/
theorem C103_fft_none (l : List FftRow) (mad : ℝ) (ht : fftThreshold l mad = none) : (fftPeaks l mad).2.2 = [] := by
  unfold fftPeaks
  dsimp only
  rw [ht]
  simp

/-! ### The spectrum -/

/-- The rows of the spectrum: the frequencies `i s / n` for `1 ≤ i ≤ (n - 1) / 2`. -/
theorem getFft_eq (psd : List ℝ) (s : ℝ) (hs : 0 < s) :
    getFft psd s = .ok ((List.range ((psd.length - 1) / 2)).map fun k : Nat =>
      (((k + 1 : Nat) : ℝ) * s / psd.length, decibel (psd.getD (k + 1) 0))) := by
  unfold getFft
  rw [if_neg hs.ne']
  congr 1
  set n := psd.length with hn
  rcases Nat.eq_zero_or_pos n with h0 | hpos
  · have : psd = [] := List.length_eq_zero_iff.1 (by omega)
    subst this
    simp [hn]
  have hn' : (0 : ℝ) < n := by exact_mod_cast hpos
  set m := (n - 1) / 2 with hm
  have hsplit : psd = psd.take (m + 1) ++ psd.drop (m + 1) := (List.take_append_drop _ _).symm
  have hlen1 : (psd.take (m + 1)).length = m + 1 := by
    rw [List.length_take]
    omega
  have hz : (fftFreq n s).zip psd =
      (((List.range (m + 1)).map fun i : Nat => (i : ℝ) * s / n).zip (psd.take (m + 1))) ++
        (((List.range (n / 2)).map fun i : Nat => ((i : ℝ) - (n / 2 : Nat)) * s / n).zip (psd.drop (m + 1))) := by
    conv_lhs => rw [hsplit]
    unfold fftFreq
    rw [List.zip_append (by rw [hlen1, List.length_map, List.length_range])]
  rw [hz, List.filter_append]
  have h2 : ((((List.range (n / 2)).map fun i : Nat => ((i : ℝ) - (n / 2 : Nat)) * s / n).zip (psd.drop (m + 1))).filter
      fun r => decide (r.1 > 0)) = [] := by
    rw [List.filter_eq_nil_iff]
    rintro ⟨f, x⟩ hfx
    obtain ⟨i, hi, rfl⟩ := List.mem_map.1 (List.of_mem_zip hfx).1
    rw [List.mem_range] at hi
    have : (i : ℝ) < (n / 2 : Nat) := by exact_mod_cast hi
    simp only [gt_iff_lt, decide_eq_true_eq, not_lt]
    apply div_nonpos_of_nonpos_of_nonneg _ hn'.le
    nlinarith
  rw [h2, List.append_nil]
  have h1 : ((List.range (m + 1)).map fun i : Nat => (i : ℝ) * s / n).zip (psd.take (m + 1)) =
      (0, psd.getD 0 0) :: (List.range m).map fun k : Nat => (((k + 1 : Nat) : ℝ) * s / n, psd.getD (k + 1) 0) := by
    apply List.ext_getElem
    · simp [hlen1]
    · intro i h3 h4
      have hi : i < m + 1 := by simpa using h4
      rw [List.getElem_zip, List.getElem_map, List.getElem_range, List.getElem_take]
      cases i with
      | zero =>
        rw [List.getElem_cons_zero, List.getD_eq_getElem _ _ (show 0 < psd.length by omega)]
        simp
      | succ i =>
        rw [List.getElem_cons_succ, List.getElem_map, List.getElem_range,
          List.getD_eq_getElem _ _ (show i + 1 < psd.length by omega)]
  rw [h1, List.filter_cons_of_neg (by simp), List.filter_eq_self.2, List.map_map]
  · rfl
  · intro r hr
    obtain ⟨k, -, rfl⟩ := List.mem_map.1 hr
    simp only [gt_iff_lt, decide_eq_true_eq]
    positivity

theorem fft_sorted (psd : List ℝ) (s : ℝ) (hs : 0 < s) :
    (((List.range ((psd.length - 1) / 2)).map fun k : Nat =>
      ((((k + 1 : Nat) : ℝ) * s / psd.length, decibel (psd.getD (k + 1) 0)) : FftRow)).map (·.1)).Pairwise (· < ·) := by
  rw [List.map_map, List.pairwise_map]
  refine List.pairwise_lt_range.imp_of_mem ?_
  intro a b ha _ hab
  rw [List.mem_range] at ha
  have hn' : (0 : ℝ) < psd.length := by
    have : 0 < psd.length := by omega
    exact_mod_cast this
  simp only [Function.comp]
  apply div_lt_div_of_pos_right _ hn'
  apply mul_lt_mul_of_pos_right _ hs
  exact_mod_cast Nat.succ_lt_succ hab

/-- C103: every reported cycle length is `n / (i s)` for a frequency number `i` from 2 to `(n - 3) / 2`, the inner
frequencies; the lengths decrease, and presence is reported exactly if there is one. -/
theorem C103_fft_periods (psd : List ℝ) (s mad : ℝ) (hs : 0 < s) :
    ∃ p seas, fftDetector psd s mad = .ok (p, seas) ∧ (p = true ↔ seas ≠ []) ∧ seas.Pairwise (· > ·) ∧
      ∀ x ∈ seas, ∃ i : Nat, 2 ≤ i ∧ 2 * i + 3 ≤ psd.length ∧ x = psd.length / (i * s) := by
  unfold fftDetector
  rw [getFft_eq psd s hs]
  simp only [bind, Except.bind, pure, Except.pure]
  set l : List FftRow := (List.range ((psd.length - 1) / 2)).map fun k : Nat =>
      (((k + 1 : Nat) : ℝ) * s / psd.length, decibel (psd.getD (k + 1) 0)) with hl
  have hlen : l.length = (psd.length - 1) / 2 := by simp [hl]
  refine ⟨_, _, rfl, ?_, ?_, ?_⟩
  · rw [decide_eq_true_eq, gt_iff_lt, List.length_pos_iff, ne_eq, ne_eq, List.map_eq_nil_iff]
  · cases ht : fftThreshold l mad with
    | none => rw [C103_fft_none l mad ht]; simp
    | some t =>
      obtain ⟨hm, hp⟩ := C103_fft_selected l mad t (fft_sorted psd s hs) ht
      rw [List.pairwise_map] at hp ⊢
      refine hp.imp_of_mem ?_
      intro a b ha hb hab
      have hpos : 0 < a.1 := by
        obtain ⟨i, x, h1, h2, h3, -⟩ := ((hm a).1 ha).1
        have := List.mem_of_getElem? h3
        obtain ⟨k, hk, rfl⟩ := List.mem_map.1 this
        rw [List.mem_range] at hk
        have hn' : (0 : ℝ) < psd.length := by
          have : 0 < psd.length := by omega
          exact_mod_cast this
        dsimp only
        positivity
      exact one_div_lt_one_div_of_lt hpos hab
  · intro x hx
    cases ht : fftThreshold l mad with
    | none => rw [C103_fft_none l mad ht] at hx; simp at hx
    | some t =>
      obtain ⟨hm, hp⟩ := C103_fft_selected l mad t (fft_sorted psd s hs) ht
      obtain ⟨r, hr, rfl⟩ := List.mem_map.1 hx
      obtain ⟨i, y, h1, h2, h3, -⟩ := ((hm r).1 hr).1
      rw [hlen] at h2
      have hr' : r = (((i + 1 : Nat) : ℝ) * s / psd.length, decibel (psd.getD (i + 1) 0)) := by
        rw [hl, List.getElem?_map, List.getElem?_range (by omega)] at h3
        simpa using h3.symm
      refine ⟨i + 1, by omega, by omega, ?_⟩
      rw [hr']
      simp only
      rw [one_div_div]

/-- C103 is violated: a cycle of two samples is never reported, whatever the data (for an even number of points its
frequency is stored with a negative sign and dropped). -/
theorem C103_nyquist_violated (psd : List ℝ) (s mad : ℝ) (hs : 0 < s) :
    ∃ p seas, fftDetector psd s mad = .ok (p, seas) ∧ 2 / s ∉ seas := by
  obtain ⟨p, seas, h, -, -, hall⟩ := C103_fft_periods psd s mad hs
  refine ⟨p, seas, h, fun hmem => ?_⟩
  obtain ⟨i, h1, h2, h3⟩ := hall _ hmem
  have hi : (0 : ℝ) < i := by
    have : 0 < i := by omega
    exact_mod_cast this
  rw [div_eq_div_iff hs.ne' (by positivity)] at h3
  have h4 : (2 : ℝ) * i = psd.length := by
    have : (2 : ℝ) * i * s = psd.length * s := by linarith
    exact mul_right_cancel₀ hs.ne' this
  have : 2 * i = psd.length := by exact_mod_cast h4
  omega

/-- C103 is violated: cycles in data of small scale are never found: if no power exceeds one, nothing is reported. -/
theorem C103_scale_violated (psd : List ℝ) (s mad : ℝ) (hs : 0 < s) (h : ∀ x ∈ psd, 0 ≤ x ∧ x ≤ 1) :
    fftDetector psd s mad = .ok (false, []) := by
  unfold fftDetector
  rw [getFft_eq psd s hs]
  simp only [bind, Except.bind, pure, Except.pure]
  set l : List FftRow := (List.range ((psd.length - 1) / 2)).map fun k : Nat =>
      (((k + 1 : Nat) : ℝ) * s / psd.length, decibel (psd.getD (k + 1) 0)) with hl
  have ht : fftThreshold l mad = none := by
    unfold fftThreshold
    have : (l.filterMap fun r => r.2.bind fun x => if x > 0 then some x else none) = [] := by
      rw [List.filterMap_eq_nil_iff]
      intro r hr
      obtain ⟨k, hk, rfl⟩ := List.mem_map.1 hr
      rw [List.mem_range] at hk
      have hk' : k + 1 < psd.length := by omega
      simp only [List.getD_eq_getElem _ _ hk']
      obtain ⟨h0, h1⟩ := h _ (List.getElem_mem hk')
      unfold decibel
      split
      · rfl
      · rw [Option.bind_some, if_neg]
        have := Real.log_nonpos h0 h1
        have h10 : 0 < Real.log 10 := Real.log_pos (by norm_num)
        have := div_nonpos_of_nonpos_of_nonneg this h10.le
        linarith
    rw [this]
    simp
  rw [C103_fft_none l mad ht]
  simp

/-- A spectrum with peaks at 200, 401 and 803. -/
def chainFft : List FftRow :=
  [(100, some 1), (200, some 50), (300, some 1), (401, some 50), (600, some 1), (803, some 50), (900, some 1)]

/-- C103 is violated: a peak can be removed though it is no harmonic of any selected peak.  Of 200, 401 and 803 only
200 is selected: 401 is nearly twice 200, and 803 is nearly twice 401, but 803 / 200 = 4.015. -/
theorem C103_chain_violated (mad : ℝ) :
    (∃ x, (803, some x) ∈ (fftPeaks chainFft mad).2.1 ∧ ∃ t, (fftPeaks chainFft mad).1 = some t ∧ t < x) ∧
      (∀ r, r ∈ (fftPeaks chainFft mad).2.2 ↔ r = (200, some 50)) ∧ ¬ NearMultiple 200 803 := by
  have ht : fftThreshold chainFft mad = some 1 := by
    have hpos : (chainFft.filterMap fun r => r.2.bind fun x => if x > 0 then some x else none) =
        [1, 50, 1, 50, 1, 50, 1] := by
      simp [chainFft]
    have hs : ([1, 50, 1, 50, 1, 50, 1] : List ℝ).insertionSort (· ≤ ·) = [1, 1, 1, 1, 50, 50, 50] := by
      simp [List.insertionSort, List.orderedInsert]
    have hmed : medianR [1, 50, 1, 50, 1, 50, 1] = 1 := by
      unfold medianR
      rw [hs]
      norm_num
    unfold fftThreshold
    dsimp only
    rw [hpos, if_neg (by simp), hmed]
    have habove : ([1, 50, 1, 50, 1, 50, 1] : List ℝ).filter (fun x => decide (x > 1)) = [50, 50, 50] := by
      norm_num [List.filter_cons]
    rw [habove, if_neg (by simp)]
    norm_num
  have hsorted : (chainFft.map (·.1)).Pairwise (· < ·) := by
    norm_num [chainFft]
  obtain ⟨hm, -⟩ := C103_fft_selected chainFft mad 1 hsorted ht
  have hp : ∀ i, i ∈ [1, 3, 5] → HighPeak chainFft 1 (chainFft.getD i (0, none)) := by
    intro i hi
    simp only [List.mem_cons, List.not_mem_nil, or_false] at hi
    rcases hi with rfl | rfl | rfl
    · exact ⟨1, 50, by norm_num [chainFft]⟩
    · exact ⟨3, 50, by norm_num [chainFft]⟩
    · exact ⟨5, 50, by norm_num [chainFft]⟩
  have h200 := hp 1 (by simp)
  have h401 := hp 3 (by simp)
  have h803 := hp 5 (by simp)
  simp only [chainFft, List.getD_cons_succ, List.getD_cons_zero] at h200 h401 h803
  refine ⟨⟨50, ?_, 1, ?_, by norm_num⟩, ?_, ?_⟩
  · have := (high_mem chainFft 1 (803, some 50)).2 h803
    exact (List.mem_filter.1 this).1
  · exact ht
  · have hcase : ∀ r, HighPeak chainFft 1 r → r = (200, some 50) ∨ r = (401, some 50) ∨ r = (803, some 50) := by
      rintro r ⟨i, x, h1, h2, h3, h4, h5, h6, h7⟩
      have hi : i + 1 < 7 := by simpa [chainFft] using h2
      have : i = 1 ∨ i = 2 ∨ i = 3 ∨ i = 4 ∨ i = 5 := by omega
      rcases this with rfl | rfl | rfl | rfl | rfl
      · exact Or.inl (by simpa [chainFft] using h3.symm)
      · simp [chainFft] at h3
        rw [← h3] at h4
        simp at h4
        linarith
      · exact Or.inr (Or.inl (by simpa [chainFft] using h3.symm))
      · simp [chainFft] at h3
        rw [← h3] at h4
        simp at h4
        linarith
      · exact Or.inr (Or.inr (by simpa [chainFft] using h3.symm))
    intro r
    rw [hm]
    constructor
    · rintro ⟨hpk, hno⟩
      rcases hcase r hpk with rfl | rfl | rfl
      · rfl
      · exact absurd ⟨2, by norm_num, by norm_num⟩ (hno _ h200 (by norm_num))
      · exact absurd ⟨2, by norm_num, by norm_num⟩ (hno _ h401 (by norm_num))
    · rintro rfl
      refine ⟨h200, ?_⟩
      intro r' hr' hlt
      rcases hcase r' hr' with rfl | rfl | rfl
      · exact absurd hlt (lt_irrefl _)
      · norm_num at hlt
      · norm_num at hlt
  · rintro ⟨m, h1, h2⟩
    have h3 : (4 : ℝ) < m := by linarith
    have h4 : (m : ℝ) < 5 := by linarith
    have h5 : (4 : ℤ) < m := by exact_mod_cast h3
    have h6 : m < (5 : ℤ) := by exact_mod_cast h4
    omega

/-! ### Amplitudes and the threshold -/

/-- C103: amplitudes are decibels: power 1 has amplitude 0, ten times the power ten more. -/
theorem C103_decibel : decibel 1 = some 0 ∧ ∀ x y, 0 < x → decibel x = some y → decibel (10 * x) = some (y + 10) := by
  constructor
  · simp [decibel]
  · intro x y hx h
    unfold decibel at h ⊢
    rw [if_neg hx.ne', Option.some.injEq] at h
    rw [if_neg (by positivity), Real.log_mul (by norm_num) hx.ne', ← h, Option.some.injEq]
    have : Real.log 10 ≠ 0 := (Real.log_pos (by norm_num)).ne'
    field_simp
    ring

/-- C103, the threshold: with `a` the amplitudes that are positive and above the median of the positive ones, and any number
`m` with `a.length * m = a.sum`, it exceeds that median by `mad_threshold` times the mean distance of `a` from `m`. -/
theorem C103_threshold (l : List FftRow) (mad t : ℝ) (h : fftThreshold l mad = some t) :
    ∃ pos a : List ℝ, ∃ m : ℝ, (∀ x, x ∈ pos ↔ 0 < x ∧ ∃ r ∈ l, r.2 = some x) ∧ (∀ x, x ∈ a ↔ x ∈ pos ∧ medianR pos < x) ∧
      0 < a.length ∧ a.length * m = a.sum ∧ (t - medianR pos) * a.length = mad * (a.map fun x => |x - m|).sum ∧
      (0 ≤ mad → medianR pos ≤ t) ∧ (0 < mad → (∃ x ∈ a, x ≠ m) → medianR pos < t) := by
  unfold fftThreshold at h
  simp only at h
  split_ifs at h with h1 h2
  rw [Option.some.injEq] at h
  set pos := l.filterMap fun r => r.2.bind fun x => if x > 0 then some x else none with hpos
  set a := pos.filter fun x => decide (x > medianR pos) with ha
  have hl : 0 < a.length := List.length_pos_iff.2 h2
  have hlr : (0 : ℝ) < a.length := by exact_mod_cast hl
  have habs : ∀ x ∈ a.map fun x => |x - a.sum / a.length|, 0 ≤ x := by
    intro x hx
    obtain ⟨y, -, rfl⟩ := List.mem_map.1 hx
    exact abs_nonneg _
  have hnn : 0 ≤ (a.map fun x => |x - a.sum / a.length|).sum := List.sum_nonneg habs
  refine ⟨pos, a, a.sum / a.length, ?_, ?_, hl, by field_simp, ?_, ?_, ?_⟩
  · intro x
    rw [hpos, List.mem_filterMap]
    constructor
    · rintro ⟨r, hr, e⟩
      cases h3 : r.2 with
      | none => simp [h3] at e
      | some y =>
        rw [h3, Option.bind_some] at e
        split_ifs at e with hy
        rw [Option.some.injEq] at e
        subst e
        exact ⟨hy, r, hr, h3⟩
    · rintro ⟨hx, r, hr, e⟩
      exact ⟨r, hr, by rw [e, Option.bind_some, if_pos hx]⟩
  · intro x
    rw [ha, List.mem_filter, decide_eq_true_eq]
  · rw [← h]
    generalize (a.map fun x => |x - a.sum / a.length|).sum = S
    field_simp
    ring
  · intro hm
    rw [← h]
    have : 0 ≤ (a.map fun x => |x - a.sum / a.length|).sum / a.length * mad := by positivity
    linarith
  · rintro hm ⟨x, hx, hne⟩
    rw [← h]
    have hpos2 : 0 < (a.map fun x => |x - a.sum / a.length|).sum := by
      rcases hnn.lt_or_eq with h3 | h3
      · exact h3
      · exfalso
        have := List.all_zero_of_le_zero_le_of_sum_eq_zero habs h3.symm (List.mem_map.2 ⟨x, hx, rfl⟩)
        rw [abs_eq_zero, sub_eq_zero] at this
        exact hne this
    have : 0 < (a.map fun x => |x - a.sum / a.length|).sum / a.length * mad := by positivity
    linarith

-- C103_decibel, C103_threshold: their hypotheses are met
example : decibel 100 = some 20 := by
  have h := C103_decibel.2 1 0 one_pos C103_decibel.1
  have h2 := C103_decibel.2 _ _ (by norm_num) h
  norm_num at h2
  exact h2

example := C103_threshold chainFft 6

end

end Kats
