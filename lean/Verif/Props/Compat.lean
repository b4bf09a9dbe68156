import Verif.Model.Compat
import Mathlib.Data.List.GetD

/-!
# Properties of the comparisons of versions and the wrappers around libraries (C166)
-/

namespace Kats

/-- The `i`-th number of a release; missing numbers are 0. -/
def cmNum (a : CmVer) (i : ℕ) : ℕ := a.release.getD i 0

/-- One version is before another: by the epoch, then by the first number that differs, then by the stage. -/
def CmBefore (a b : CmVer) : Prop :=
  a.epoch < b.epoch ∨ a.epoch = b.epoch ∧
    ((∃ i, cmNum a i < cmNum b i ∧ ∀ j < i, cmNum a j = cmNum b j) ∨
      (∀ i, cmNum a i = cmNum b i) ∧ a.stage < b.stage)

/-- Two versions are the same. -/
def CmSame (a b : CmVer) : Prop := a.epoch = b.epoch ∧ (∀ i, cmNum a i = cmNum b i) ∧ a.stage = b.stage

theorem cmStrip_concat_zero (l : List ℕ) : cmStrip (l ++ [0]) = cmStrip l := by simp [cmStrip]

theorem cmStrip_concat_pos (l : List ℕ) (a : ℕ) (h : a ≠ 0) : cmStrip (l ++ [a]) = l ++ [a] := by
  simp [cmStrip, List.dropWhile_cons, h]

theorem cmStrip_getD (l : List ℕ) (i : ℕ) : (cmStrip l).getD i 0 = l.getD i 0 := by
  induction l using List.reverseRecOn with
  | nil => rfl
  | append_singleton l a ih =>
    by_cases h : a = 0
    · subst h
      rw [cmStrip_concat_zero, ih]
      rcases lt_trichotomy i l.length with h | h | h
      · rw [List.getD_append _ _ _ _ h]
      · subst h; simp [List.getD_eq_getElem?_getD]
      · rw [List.getD_eq_default _ _ (by omega), List.getD_eq_default _ _ (by simp; omega)]
    · rw [cmStrip_concat_pos l a h]

theorem cmStrip_last (l : List ℕ) : cmStrip l = [] ∨ ∃ k a, cmStrip l = k ++ [a] ∧ a ≠ 0 := by
  induction l using List.reverseRecOn with
  | nil => exact Or.inl rfl
  | append_singleton l a ih =>
    by_cases h : a = 0
    · subst h; rwa [cmStrip_concat_zero]
    · exact Or.inr ⟨l, a, cmStrip_concat_pos l a h, h⟩

/-- A tuple without trailing zeros: empty or with a last number that is not 0. -/
def CmTight (l : List ℕ) : Prop := l = [] ∨ ∃ k a, l = k ++ [a] ∧ a ≠ 0

theorem cmTight_tail (x : ℕ) (l : List ℕ) (h : CmTight (x :: l)) : CmTight l := by
  rcases h with h | ⟨k, a, h, ha⟩
  · cases h
  · cases k with
    | nil => simp at h; exact Or.inl h.2
    | cons y k => simp at h; exact Or.inr ⟨k, a, h.2, ha⟩

theorem cmTight_nonzero (l : List ℕ) (h : CmTight l) (hl : l ≠ []) : ∃ i, l.getD i 0 ≠ 0 := by
  rcases h with h | ⟨k, a, rfl, ha⟩
  · exact absurd h hl
  · exact ⟨k.length, by simpa [List.getD_eq_getElem?_getD] using ha⟩

theorem cmTight_ext (l m : List ℕ) (hl : CmTight l) (hm : CmTight m)
    (h : ∀ i, l.getD i 0 = m.getD i 0) : l = m := by
  induction l generalizing m with
  | nil =>
    by_contra hne
    obtain ⟨i, hi⟩ := cmTight_nonzero m hm (Ne.symm hne)
    exact hi (by rw [← h i]; rfl)
  | cons x l ih =>
    cases m with
    | nil =>
      obtain ⟨i, hi⟩ := cmTight_nonzero _ hl (by simp)
      exact absurd (h i) (by simpa using hi)
    | cons y m =>
      have h0 : x = y := h 0
      rw [h0, ih m (cmTight_tail _ _ hl) (cmTight_tail _ _ hm) fun i => by simpa using h (i + 1)]

theorem cmTupleLt_iff (l m : List ℕ) (hl : CmTight l) (hm : CmTight m) :
    cmTupleLt l m = true ↔ ∃ i, l.getD i 0 < m.getD i 0 ∧ ∀ j < i, l.getD j 0 = m.getD j 0 := by
  induction l generalizing m with
  | nil =>
    cases m with
    | nil => simp [cmTupleLt]
    | cons y m =>
      simp only [cmTupleLt, true_iff]
      obtain ⟨i, hi⟩ := cmTight_nonzero _ hm (by simp)
      have hex : ∃ i, (y :: m).getD i 0 ≠ 0 := ⟨i, hi⟩
      refine ⟨Nat.find hex, Nat.pos_of_ne_zero (Nat.find_spec hex), fun j hj => ?_⟩
      have := Nat.find_min hex hj
      simp only [ne_eq, not_not] at this
      rw [this]; rfl
  | cons x l ih =>
    cases m with
    | nil => simp [cmTupleLt]
    | cons y m =>
      unfold cmTupleLt
      by_cases h : x = y
      · rw [if_pos h, ih m (cmTight_tail _ _ hl) (cmTight_tail _ _ hm)]
        constructor
        · rintro ⟨i, hi, hj⟩
          refine ⟨i + 1, by simpa using hi, fun j hj' => ?_⟩
          cases j with
          | zero => simpa using h
          | succ j => simpa using hj j (by omega)
        · rintro ⟨i, hi, hj⟩
          cases i with
          | zero => simp [h] at hi
          | succ i => exact ⟨i, by simpa using hi, fun j hj' => by simpa using hj (j + 1) (by omega)⟩
      · rw [if_neg h, decide_eq_true_iff]
        constructor
        · intro hlt; exact ⟨0, by simpa using hlt, by simp⟩
        · rintro ⟨i, hi, hj⟩
          cases i with
          | zero => simpa using hi
          | succ i => exact absurd (by simpa using hj 0 (by omega)) h

theorem cmRelease_eq (a b : CmVer) : cmStrip a.release = cmStrip b.release ↔ ∀ i, cmNum a i = cmNum b i := by
  constructor
  · intro h i
    unfold cmNum
    rw [← cmStrip_getD, h, cmStrip_getD]
  · intro h
    exact cmTight_ext _ _ (cmStrip_last _) (cmStrip_last _) fun i => by
      rw [cmStrip_getD, cmStrip_getD]; exact h i

theorem cmKeyLt_iff (a b : CmVer) : cmKeyLt a b = true ↔ CmBefore a b := by
  unfold cmKeyLt CmBefore
  by_cases he : a.epoch = b.epoch
  · rw [if_pos he]
    by_cases hr : cmStrip a.release = cmStrip b.release
    · rw [if_pos hr, decide_eq_true_iff]
      have h := (cmRelease_eq a b).1 hr
      constructor
      · intro hs; exact Or.inr ⟨he, Or.inr ⟨h, hs⟩⟩
      · rintro (h' | ⟨_, ⟨i, hi, _⟩ | ⟨_, hs⟩⟩)
        · omega
        · exact absurd (h i) (by omega)
        · exact hs
    · rw [if_neg hr, cmTupleLt_iff _ _ (cmStrip_last _) (cmStrip_last _)]
      simp only [cmStrip_getD]
      constructor
      · intro h; exact Or.inr ⟨he, Or.inl h⟩
      · rintro (h' | ⟨_, h | ⟨h, _⟩⟩)
        · omega
        · exact h
        · exact absurd ((cmRelease_eq a b).2 h) hr
  · rw [if_neg he, decide_eq_true_iff]
    constructor
    · exact Or.inl
    · rintro (h | ⟨h, _⟩)
      · exact h
      · exact absurd h he

theorem cmKeyEq_iff (a b : CmVer) : cmKeyEq a b = true ↔ CmSame a b := by
  unfold cmKeyEq CmSame
  rw [Bool.and_eq_true, Bool.and_eq_true, decide_eq_true_iff, decide_eq_true_iff, decide_eq_true_iff,
    cmRelease_eq, and_assoc]

theorem cmBefore_tri (a b : CmVer) : CmBefore a b ∨ CmSame a b ∨ CmBefore b a := by
  rcases lt_trichotomy a.epoch b.epoch with h | h | h
  · exact Or.inl (Or.inl h)
  · by_cases hn : ∀ i, cmNum a i = cmNum b i
    · rcases lt_trichotomy a.stage b.stage with hs | hs | hs
      · exact Or.inl (Or.inr ⟨h, Or.inr ⟨hn, hs⟩⟩)
      · exact Or.inr (Or.inl ⟨h, hn, hs⟩)
      · exact Or.inr (Or.inr (Or.inr ⟨h.symm, Or.inr ⟨fun i => (hn i).symm, hs⟩⟩))
    · have hex : ∃ i, cmNum a i ≠ cmNum b i := by simpa using hn
      have hm : ∀ j < Nat.find hex, cmNum a j = cmNum b j := fun j hj => by
        simpa using Nat.find_min hex hj
      rcases lt_or_gt_of_ne (Nat.find_spec hex) with hl | hl
      · exact Or.inl (Or.inr ⟨h, Or.inl ⟨_, hl, hm⟩⟩)
      · exact Or.inr (Or.inr (Or.inr ⟨h.symm, Or.inl ⟨_, hl, fun j hj => (hm j hj).symm⟩⟩))
  · exact Or.inr (Or.inr (Or.inl h))

theorem cmBefore_not_same (a b : CmVer) (h : CmBefore a b) : ¬ CmSame a b := by
  rintro ⟨h1, h2, h3⟩
  rcases h with h | ⟨_, ⟨i, hi, _⟩ | ⟨_, h⟩⟩
  · omega
  · exact absurd (h2 i) (by omega)
  · omega

theorem cmBefore_asymm (a b : CmVer) (h : CmBefore a b) : ¬ CmBefore b a := by
  intro h'
  rcases h with h | ⟨e, h⟩ <;> rcases h' with h' | ⟨e', h'⟩
  · omega
  · omega
  · omega
  · rcases h with ⟨i, hi, hj⟩ | ⟨h, hs⟩ <;> rcases h' with ⟨i', hi', hj'⟩ | ⟨h', hs'⟩
    · rcases lt_trichotomy i i' with hh | hh | hh
      · have := hj' i hh; omega
      · subst hh; omega
      · have := hj i' hh; omega
    · have := h' i; omega
    · have := h i'; omega
    · omega

theorem cmBefore_trans (a b c : CmVer) (h : CmBefore a b) (h' : CmBefore b c) : CmBefore a c := by
  rcases h with h | ⟨e, h⟩ <;> rcases h' with h' | ⟨e', h'⟩
  · exact Or.inl (by omega)
  · exact Or.inl (by omega)
  · exact Or.inl (by omega)
  · refine Or.inr ⟨e.trans e', ?_⟩
    rcases h with ⟨i, hi, hj⟩ | ⟨h, hs⟩ <;> rcases h' with ⟨i', hi', hj'⟩ | ⟨h', hs'⟩
    · rcases lt_trichotomy i i' with hh | hh | hh
      · exact Or.inl ⟨i, by have := hj' i hh; omega, fun j hlt => (hj j hlt).trans (hj' j (by omega))⟩
      · subst hh
        exact Or.inl ⟨i, by omega, fun j hlt => (hj j hlt).trans (hj' j hlt)⟩
      · exact Or.inl ⟨i', by have := hj i' hh; omega, fun j hlt => (hj j (by omega)).trans (hj' j hlt)⟩
    · exact Or.inl ⟨i, by have := h' i; omega, fun j hlt => (hj j hlt).trans (h' j)⟩
    · exact Or.inl ⟨i', by have := h i'; omega, fun j hlt => (h j).trans (hj' j hlt)⟩
    · exact Or.inr ⟨fun i => (h i).trans (h' i), by omega⟩

/-- What a version is compared with. -/
inductive CmMeans (w : CmWorld) : CmArg → CmVer → Prop
  | wrapped (v) : CmMeans w (.wrapped v) v
  | packaging (v) : CmMeans w (.packaging v) v
  | statsmodels (v) : w.parse w.statsmodels = .ok v → CmMeans w (.text "statsmodels") v
  | sklearn (v) : w.parse w.sklearn = .ok v → CmMeans w (.text "sklearn") v
  | package (s t v) : s ≠ "statsmodels" → s ≠ "sklearn" → w.metadata s = some t → w.parse t = .ok v →
      CmMeans w (.text s) v
  | text (s v) : s ≠ "statsmodels" → s ≠ "sklearn" → w.metadata s = none → w.parse s = .ok v →
      CmMeans w (.text s) v

theorem cmMeans_compare (w : CmWorld) (a : CmVer) (x : CmArg) (b : CmVer) (h : CmMeans w x b)
    (m : CmVer → CmVer → Bool) : cmCompare w a x m = .ok (some (m a b)) := by
  cases h with
  | wrapped => rfl
  | packaging => rfl
  | statsmodels v h => simp [cmCompare, cmParse, h, Except.map]
  | sklearn v h => simp [cmCompare, cmParse, h, Except.map]
  | package s t v h1 h2 h3 h4 => simp [cmCompare, cmParse, h1, h2, h3, h4, Except.map]
  | text s v h1 h2 h3 h4 => simp [cmCompare, cmParse, h1, h2, h3, h4, Except.map]

/-- C166: a version is compared with a version, with the version of the package of a name, or with the text
of a version, by epoch, numbers (missing ones are 0) and stage; this is a linear order, of which the six
operators are the six relations. -/
theorem C166_order (w : CmWorld) (a : CmVer) (x : CmArg) (b : CmVer) (h : CmMeans w x b) :
    (∃ r, cmOp w .lt a x = .ok r ∧ (r = true ↔ CmBefore a b)) ∧
    (∃ r, cmOp w .le a x = .ok r ∧ (r = true ↔ ¬ CmBefore b a)) ∧
    (∃ r, cmOp w .eq a x = .ok r ∧ (r = true ↔ CmSame a b)) ∧
    (∃ r, cmOp w .ge a x = .ok r ∧ (r = true ↔ ¬ CmBefore a b)) ∧
    (∃ r, cmOp w .gt a x = .ok r ∧ (r = true ↔ CmBefore b a)) ∧
    (∃ r, cmOp w .ne a x = .ok r ∧ (r = true ↔ ¬ CmSame a b)) ∧
    cmInit w x = .ok (some b) ∧
    (CmBefore a b ∨ CmSame a b ∨ CmBefore b a) ∧ (CmBefore a b → ¬ CmSame a b ∧ ¬ CmBefore b a) ∧
    ∀ c, CmBefore a b → CmBefore b c → CmBefore a c := by
  have hc := fun op => show cmOp w op a x = .ok (cmMethod op a b) by
    unfold cmOp; rw [cmMeans_compare w a x b h]
  have hsame : CmSame a b ↔ CmSame b a :=
    ⟨fun h => ⟨h.1.symm, fun i => (h.2.1 i).symm, h.2.2.symm⟩, fun h => ⟨h.1.symm, fun i => (h.2.1 i).symm, h.2.2.symm⟩⟩
  have htri := cmBefore_tri a b
  have h1 := cmBefore_not_same a b
  have h2 := cmBefore_asymm a b
  have h3 : CmBefore b a → ¬ CmSame a b := fun h h' => cmBefore_not_same b a h (hsame.1 h')
  refine ⟨⟨_, hc .lt, cmKeyLt_iff a b⟩, ⟨_, hc .le, ?_⟩, ⟨_, hc .eq, cmKeyEq_iff a b⟩, ⟨_, hc .ge, ?_⟩,
    ⟨_, hc .gt, cmKeyLt_iff b a⟩, ⟨_, hc .ne, ?_⟩, ?_, htri, fun h => ⟨h1 h, h2 h⟩,
    fun c => cmBefore_trans a b c⟩
  · show (cmKeyLt a b || cmKeyEq a b) = true ↔ _
    rw [Bool.or_eq_true, cmKeyLt_iff, cmKeyEq_iff]
    tauto
  · show (cmKeyLt b a || cmKeyEq a b) = true ↔ _
    rw [Bool.or_eq_true, cmKeyLt_iff, cmKeyEq_iff]
    tauto
  · show (!cmKeyEq a b) = true ↔ _
    rw [← cmKeyEq_iff]; simp
  · cases h with
    | wrapped => rfl
    | packaging => rfl
    | statsmodels v h => simp [cmInit, cmParse, h, Except.map]
    | sklearn v h => simp [cmInit, cmParse, h, Except.map]
    | package s t v h1 h2 h3 h4 => simp [cmInit, cmParse, h1, h2, h3, h4, Except.map]
    | text s v h1 h2 h3 h4 => simp [cmInit, cmParse, h1, h2, h3, h4, Except.map]

/-- 1.10.0 is after 1.9, the same as 1.10, and its release candidate is before it. -/
example : CmBefore (cmRel [1, 9]) (cmRel [1, 10, 0]) ∧ CmSame (cmRel [1, 10, 0]) (cmRel [1, 10]) ∧
    CmBefore ⟨0, [1, 10], -1⟩ (cmRel [1, 10]) := by
  refine ⟨(cmKeyLt_iff _ _).1 (by decide +kernel), (cmKeyEq_iff _ _).1 (by decide +kernel),
    (cmKeyLt_iff _ _).1 (by decide +kernel)⟩

example : CmMeans ⟨"0.12.2", "1.0", fun s => if s = "pandas" then some "1.3" else none,
    fun s => if s = "1.3" then .ok (cmRel [1, 3]) else .error .valueError⟩ (.text "pandas") (cmRel [1, 3]) :=
  .package _ "1.3" _ (by decide) (by decide) (by simp) (by simp)

/-- C166: a text that is no version and no name of a package raises, whatever the operator; an object of
another type is unequal and has no order. -/
theorem C166_incomparable (w : CmWorld) (a : CmVer) (s : String) (e : Err) (h1 : s ≠ "statsmodels")
    (h2 : s ≠ "sklearn") (h3 : w.metadata s = none) (h4 : w.parse s = .error e) :
    (∀ op, cmOp w op a (.text s) = .error e) ∧ cmInit w (.text s) = .error e ∧
    cmOp w .eq a .other = .ok false ∧ cmOp w .ne a .other = .ok true ∧
    ∀ op, op ≠ .eq → op ≠ .ne → cmOp w op a .other = .error .typeError := by
  refine ⟨fun op => ?_, ?_, rfl, rfl, ?_⟩
  · simp [cmOp, cmCompare, cmParse, h1, h2, h3, h4, Except.map]
  · simp [cmInit, cmParse, h1, h2, h3, h4, Except.map]
  · intro op h h'
    cases op <;> first | rfl | exact absurd rfl h | exact absurd rfl h'

example : (CmWorld.mk "0.12.2" "1.0" (fun _ => none) fun _ => .error .valueError).parse "abc" =
    .error .valueError := rfl

/-- The digits `check_less_precise` asks for: 3, 5 or the number itself. -/
def CmDigits : CmPrecise → ℤ → Prop
  | .flag true, d => d = 3
  | .flag false, d => d = 5
  | .digits n, d => d = n

theorem cmDigits_convert (c : CmPrecise) (d : ℤ) (h : CmDigits c d) (r : ℝ) (hr : 0 < r) :
    cmConvert c r = .ok (min d ⌊|Real.logb 10 r|⌋) := by
  unfold cmConvert
  rcases c with (_ | _) | n <;> simp only [CmDigits] at h <;> subst h <;> simp [not_le.2 hr]

/-- C166: for a tolerance of at most 1 the digits are the most that are not more than asked for and do not
make the comparison stricter than the tolerance. A tolerance that is not positive raises. -/
theorem C166_digits (c : CmPrecise) (d : ℤ) (h : CmDigits c d) (r : ℝ) :
    (r ≤ 0 → cmConvert c r = .error .valueError) ∧
    (0 < r → r ≤ 1 → ∃ p, cmConvert c r = .ok p ∧ p ≤ d ∧ r ≤ (10 : ℝ) ^ (-p) ∧
      ∀ q : ℤ, q ≤ d → r ≤ (10 : ℝ) ^ (-q) → q ≤ p) := by
  refine ⟨fun hr => by unfold cmConvert; simp [hr], fun hr h1 => ?_⟩
  have hlog : |Real.logb 10 r| = -Real.logb 10 r :=
    abs_of_nonpos (Real.logb_nonpos (by norm_num) hr.le h1)
  have key : ∀ q : ℤ, r ≤ (10 : ℝ) ^ (-q) ↔ q ≤ ⌊-Real.logb 10 r⌋ := fun q => by
    rw [Int.le_floor, ← Real.rpow_intCast, ← Real.logb_le_iff_le_rpow (by norm_num) hr]
    push_cast
    constructor <;> intro h <;> linarith
  refine ⟨_, cmDigits_convert c d h r hr, min_le_left _ _, ?_, fun q hq hq' => ?_⟩
  · rw [hlog, key]; exact min_le_right _ _
  · rw [hlog]; exact le_min hq ((key q).1 hq')

example : CmDigits (.flag false) 5 ∧ (0 : ℝ) < 1 / 1000 ∧ (1 : ℝ) / 1000 ≤ 1 := by
  refine ⟨rfl, by norm_num, by norm_num⟩

/-- C166: tolerances above 1 are taken for their inverses: 1000 asks for three digits, 1 for none, so the
wider tolerance makes the stricter comparison. -/
theorem C166_digits_violated :
    ∃ (c : CmPrecise) (r : ℝ) (p : ℤ), 1 < r ∧ cmConvert c r = .ok p ∧ (10 : ℝ) ^ (-p) < r / 100000 ∧
      cmConvert c 1 = .ok 0 := by
  have h3 : Real.logb 10 1000 = 3 := by
    rw [show (1000 : ℝ) = (10 : ℝ) ^ (3 : ℝ) by norm_num]
    exact Real.logb_rpow (by norm_num) (by norm_num)
  refine ⟨.flag false, 1000, 3, by norm_num, ?_, by norm_num, ?_⟩
  · rw [cmDigits_convert (.flag false) 5 rfl 1000 (by norm_num), h3]
    norm_num
  · rw [cmDigits_convert (.flag false) 5 rfl 1 (by norm_num), Real.logb_one]
    norm_num

/-- What `pandas.testing` accepts besides the arguments of all versions: a keyword, the version that
introduced it and whether it is one of `assert_frame_equal`, `assert_series_equal` and
`assert_index_equal`. -/
def cmNew : List (String × List ℕ × Bool × Bool × Bool) :=
  [("check_category_order", [1, 0, 2], false, true, false), ("check_freq", [1, 1], true, true, false),
    ("rtol", [1, 1], true, true, true), ("atol", [1, 1], true, true, true),
    ("check_flags", [1, 2], true, true, false), ("check_order", [1, 2], false, false, true),
    ("check_index", [1, 3], false, true, false)]

theorem cmBefore_mono (v : CmVer) (l m : List ℕ) (h : cmKeyLt (cmRel l) (cmRel m) = true)
    (hv : cmKeyLt v (cmRel l) = true) : cmKeyLt v (cmRel m) = true :=
  (cmKeyLt_iff _ _).2 (cmBefore_trans _ _ _ ((cmKeyLt_iff _ _).1 hv) ((cmKeyLt_iff _ _).1 h))

/-- C166: a keyword that came with some version of pandas is passed exactly from that version on, and the
number of digits exactly as long as there are no tolerances. -/
theorem C166_keywords (v : CmVer) :
    (∀ k l f s i, (k, l, f, s, i) ∈ cmNew →
      (k ∈ cmFrameKw v ↔ f = true ∧ ¬ CmBefore v (cmRel l)) ∧
      (k ∈ cmSeriesKw v ↔ s = true ∧ ¬ CmBefore v (cmRel l)) ∧
      (k ∈ cmIndexKw v ↔ i = true ∧ ¬ CmBefore v (cmRel l))) ∧
    ("check_less_precise" ∈ cmFrameKw v ↔ CmBefore v (cmRel [1, 1])) ∧
    ("check_less_precise" ∈ cmSeriesKw v ↔ CmBefore v (cmRel [1, 1])) ∧
    ("check_less_precise" ∈ cmIndexKw v ↔ CmBefore v (cmRel [1, 1])) := by
  have m1 := cmBefore_mono v [1, 0, 2] [1, 1] (by decide +kernel)
  have m2 := cmBefore_mono v [1, 1] [1, 2] (by decide +kernel)
  have m3 := cmBefore_mono v [1, 2] [1, 3] (by decide +kernel)
  simp only [← cmKeyLt_iff]
  refine ⟨fun k l f s i hk => ?_, ?_⟩
  · simp only [cmNew, List.mem_cons, Prod.mk.injEq, List.not_mem_nil, or_false] at hk
    rcases hk with hk | hk | hk | hk | hk | hk | hk <;> obtain ⟨rfl, rfl, rfl, rfl, rfl⟩ := hk <;>
      unfold cmFrameKw cmSeriesKw cmIndexKw <;>
      cases h1 : cmKeyLt v (cmRel [1, 0, 2]) <;> cases h2 : cmKeyLt v (cmRel [1, 1]) <;>
      cases h3 : cmKeyLt v (cmRel [1, 2]) <;> cases h4 : cmKeyLt v (cmRel [1, 3]) <;>
      simp [h1, h2, h3, h4] at m1 m2 m3 ⊢
  · unfold cmFrameKw cmSeriesKw cmIndexKw
    cases h1 : cmKeyLt v (cmRel [1, 0, 2]) <;> cases h2 : cmKeyLt v (cmRel [1, 1]) <;>
      cases h3 : cmKeyLt v (cmRel [1, 2]) <;> cases h4 : cmKeyLt v (cmRel [1, 3]) <;>
      simp [h1, h2, h3, h4] at m1 m2 m3 ⊢

example : ("rtol", [1, 1], true, true, true) ∈ cmNew ∧ CmBefore (cmRel [1, 0, 5]) (cmRel [1, 1]) :=
  ⟨by simp [cmNew], (cmKeyLt_iff _ _).1 (by decide +kernel)⟩

/-- C166: two series pass if the values agree, the index if it is to be checked, the frequency if it is to be
checked and both have one, and likewise the flags: from pandas 1.3 on, or if the index is to be checked. -/
theorem C166_series_partial (v : CmVer) (ci cf cg : Bool) (p : CmPair)
    (h : ci = true ∨ ¬ CmBefore v (cmRel [1, 3])) :
    cmSeriesEqual v ci cf cg p = true ↔ p.values = true ∧ (ci = true → p.index = true) ∧
      (cf = true → p.timed = true → p.hasFreq = true → p.freq = true) ∧
      (cg = true → p.hasFlags = true → p.flags = true) := by
  obtain ⟨hk, _⟩ := C166_keywords v
  have k1 := (hk "check_freq" [1, 1] true true false (by simp [cmNew])).2.1
  have k2 := (hk "check_flags" [1, 2] true true false (by simp [cmNew])).2.1
  have k3 := (hk "check_index" [1, 3] false true false (by simp [cmNew])).2.1
  simp only [← cmKeyLt_iff, true_and] at k1 k2 k3 h
  unfold cmSeriesEqual cmPandasSeries
  simp only [k1, k2, k3]
  obtain ⟨v1, v2, v3, v4, v5, v6, v7⟩ := p
  generalize cmKeyLt v (cmRel [1, 1]) = b1 at *
  generalize cmKeyLt v (cmRel [1, 2]) = b2 at *
  generalize cmKeyLt v (cmRel [1, 3]) = b3 at *
  clear hk k1 k2 k3
  revert h
  have imp : ∀ a b : Bool, (!a || b) = true ↔ (a = true → b = true) := by decide
  simp only [Bool.and_eq_true, imp, Bool.or_eq_true, Bool.not_eq_true', decide_eq_true_eq]
  intro h
  constructor
  · rintro ⟨⟨⟨⟨⟨⟨h1, h2⟩, h3⟩, h4⟩, h5⟩, h6⟩, h7⟩
    refine ⟨h1, fun hc => ?_, fun h8 h9 h10 => ?_, fun h8 h9 => ?_⟩
    · rcases h2 with ⟨_, h2⟩ | h2
      · simp [hc] at h2
      · exact h2
    · cases b1
      · exact h3 ⟨⟨⟨by simp, h8⟩, h9⟩, h10⟩
      · exact h5 ⟨⟨⟨h8, rfl⟩, h9⟩, h10⟩
    · cases b2
      · exact h4 ⟨⟨by simp, h8⟩, h9⟩
      · exact h6 ⟨⟨h8, rfl⟩, h9⟩
  · rintro ⟨h1, h2, h3, h4⟩
    refine ⟨⟨⟨⟨⟨⟨h1, ?_⟩, fun h => h3 h.1.1.2 h.1.2 h.2⟩, fun h => h4 h.1.2 h.2⟩,
      fun h => h3 h.1.1.1 h.1.2 h.2⟩, fun h => h4 h.1.1 h.2⟩, fun h => h2 h.1⟩
    cases ci
    · rcases h with h | h
      · simp at h
      · exact Or.inl ⟨h, rfl⟩
    · exact Or.inr (h2 rfl)

example : (⟨true, false, true, true, true, true, true⟩ : CmPair).values = true ∧
    ¬ CmBefore (cmRel [1, 3, 5]) (cmRel [1, 3]) :=
  ⟨rfl, fun h => by have := (cmKeyLt_iff _ _).2 h; revert this; decide +kernel⟩

/-- C166: before pandas 1.3 the index is compared though it is not to be. -/
theorem C166_series_violated (v : CmVer) (h : CmBefore v (cmRel [1, 3])) (cf cg : Bool) (p : CmPair)
    (hp : p.index = false) : cmSeriesEqual v false cf cg p = false := by
  have k3 := ((C166_keywords v).1 "check_index" [1, 3] false true false (by simp [cmNew])).2.1
  have : ¬ "check_index" ∈ cmSeriesKw v := by rw [k3]; simp [h]
  unfold cmSeriesEqual cmPandasSeries
  simp [this, hp]

example : CmBefore (cmRel [1, 0, 4]) (cmRel [1, 3]) := (cmKeyLt_iff _ _).1 (by decide +kernel)

/-- The errors of the outputs, or their roots, and the average of these. -/
def CmScore (errors : List ℝ) (m : CmMulti) (squared : Bool) (r : List ℝ) : Prop :=
  match m with
  | .raw => r = errors.map fun e => if squared then e else √e
  | .uniform => r = [(errors.map fun e => if squared then e else √e).sum / errors.length]

theorem cmAverage_score (errors : List ℝ) (m : CmMulti) (squared : Bool) :
    CmScore errors m squared (cmAverage m (if squared then errors else errors.map Real.sqrt)) := by
  cases m <;> cases squared <;> simp [CmScore, cmAverage, cmMean]

/-- C166: the errors are those asked for with scikit-learn from 1.0 to before 1.6; with versions up to 0.24
the logarithmic error is if it is squared, for single outputs or for one output. -/
theorem C166_errors_partial (v : CmVer) (errors : List ℝ) (m : CmMulti) (squared : Bool) :
    (¬ CmBefore v (cmRel [1, 0]) → CmBefore v (cmRel [1, 6]) →
      (∃ r, cmMse v errors m squared = .ok r ∧ CmScore errors m squared r) ∧
      ∃ r, cmMsle v errors m squared = .ok r ∧ CmScore errors m squared r) ∧
    (¬ CmBefore (cmRel [0, 24]) v → (squared = true ∨ m = .raw ∨ errors.length = 1) →
      ∃ r, cmMsle v errors m squared = .ok r ∧ CmScore errors m squared r) := by
  simp only [← cmKeyLt_iff]
  constructor
  · intro h1 h2
    have h0 : cmKeyLt v (cmRel [0, 22]) = false := by
      by_contra h
      exact h1 (cmBefore_mono v [0, 22] [1, 0] (by decide +kernel) (by simpa using h))
    have h24 : cmKeyLt v (cmRel [0, 24]) = false := by
      by_contra h
      exact h1 (cmBefore_mono v [0, 24] [1, 0] (by decide +kernel) (by simpa using h))
    have h24' : cmKeyLt (cmRel [0, 24]) v = true := by
      rw [cmKeyLt_iff]
      rcases cmBefore_tri (cmRel [0, 24]) v with h | h | h
      · exact h
      · exfalso
        apply h1
        have hb : CmBefore (cmRel [0, 24]) (cmRel [1, 0]) := (cmKeyLt_iff _ _).1 (by decide +kernel)
        rw [cmKeyLt_iff]
        rcases cmBefore_tri v (cmRel [1, 0]) with h' | h' | h'
        · exact h'
        · exact absurd ⟨h.1.trans h'.1, fun i => (h.2.1 i).trans (h'.2.1 i), h.2.2.trans h'.2.2⟩
            (cmBefore_not_same _ _ hb)
        · have := (cmKeyLt_iff _ _).2 (cmBefore_trans _ _ _ hb h')
          have hs := (cmKeyEq_iff _ _).2 h
          exact absurd h (cmBefore_not_same _ _ (cmBefore_trans _ _ _ hb h'))
      · rw [← cmKeyLt_iff, h24] at h; simp at h
    have hs := cmAverage_score errors m squared
    refine ⟨⟨_, ?_, hs⟩, ⟨_, ?_, hs⟩⟩
    · unfold cmMse cmSkMse
      rw [h0, h2, h24]
      cases squared <;> simp
    · unfold cmMsle cmSkMsle
      simp [h24', h1, h2]
  · intro h hs
    have h' : cmKeyLt (cmRel [0, 24]) v = false := by simpa using h
    refine ⟨if squared then cmAverage m errors else (cmAverage m errors).map Real.sqrt, ?_, ?_⟩
    · unfold cmMsle cmSkMsle
      simp [h']
    · rcases hs with rfl | rfl | hl
      · have := cmAverage_score errors m true
        simpa using this
      · cases squared <;> simp [CmScore, cmAverage]
      · obtain ⟨e, rfl⟩ := List.length_eq_one_iff.1 hl
        cases m <;> cases squared <;> simp [CmScore, cmAverage, cmMean]

example : ¬ CmBefore (cmRel [1, 0, 2]) (cmRel [1, 0]) ∧ CmBefore (cmRel [1, 0, 2]) (cmRel [1, 6]) :=
  ⟨fun h => by have := (cmKeyLt_iff _ _).2 h; revert this; decide +kernel,
    (cmKeyLt_iff _ _).1 (by decide +kernel)⟩

/-- C166: after 0.24 and before 1.0 (as with 0.24.2, the least version in requirements.txt) the logarithmic
error raises, with all arguments, since `squared` is passed and not yet known; from 1.6 on both errors raise;
with 0.24 and outputs of errors 1 and 9 the root of the average is given instead of the average of roots. -/
theorem C166_errors_violated :
    (∀ v, CmBefore (cmRel [0, 24]) v → CmBefore v (cmRel [1, 0]) → ∀ errors m squared,
      cmMsle v errors m squared = .error .typeError) ∧ CmBefore (cmRel [0, 24]) (cmRel [0, 24, 2]) ∧
    CmBefore (cmRel [0, 24, 2]) (cmRel [1, 0]) ∧
    (∀ v, ¬ CmBefore v (cmRel [1, 6]) → ∀ errors m squared,
      cmMse v errors m squared = .error .typeError ∧
      (CmBefore (cmRel [0, 24]) v → cmMsle v errors m squared = .error .typeError)) ∧
    ∃ errors r, cmMsle (cmRel [0, 24]) errors .uniform false = .ok r ∧ ¬ CmScore errors .uniform false r := by
  refine ⟨?_, (cmKeyLt_iff _ _).1 (by decide +kernel), (cmKeyLt_iff _ _).1 (by decide +kernel), ?_, ?_⟩
  · intro v h1 h2 errors m squared
    rw [← cmKeyLt_iff] at h1 h2
    unfold cmMsle cmSkMsle
    simp [h1, h2]
  · intro v h errors m squared
    rw [← cmKeyLt_iff] at h
    simp only [Bool.not_eq_true] at h
    refine ⟨by unfold cmMse cmSkMse; simp [h], fun h1 => ?_⟩
    rw [← cmKeyLt_iff] at h1
    unfold cmMsle cmSkMsle
    simp [h1, h]
  · refine ⟨[1, 9], [√5], ?_, ?_⟩
    · have : cmKeyLt (cmRel [0, 24]) (cmRel [0, 24]) = false := by decide +kernel
      unfold cmMsle cmSkMsle
      simp only [this]
      show Except.ok _ = _
      simp only [cmAverage, cmMean, Bool.false_eq_true, if_false, List.map_cons, List.map_nil, List.sum_cons,
        List.sum_nil, List.length_cons, List.length_nil]
      norm_num
    · have h9 : √(9 : ℝ) = 3 := by
        rw [show (9 : ℝ) = 3 ^ 2 by norm_num]; exact Real.sqrt_sq (by norm_num)
      simp only [CmScore, List.map_cons, List.map_nil, List.sum_cons, List.sum_nil, List.length_cons,
        List.length_nil, List.cons.injEq, and_true, Bool.false_eq_true, if_false, Real.sqrt_one, h9]
      intro h
      have h5 := Real.mul_self_sqrt (show (0 : ℝ) ≤ 5 by norm_num)
      rw [h] at h5
      norm_num at h5

/-- What the constructor of statsmodels accepts; `damped` became `damped_trend` with 0.12. -/
def CmSmoothKnown (v : CmVer) (k : String) : Prop :=
  k ∈ ["endog", "trend", "seasonal", "seasonal_periods", "dates", "freq", "missing"] ∨
  (CmBefore v (cmRel [0, 12]) ∧ k = "damped") ∨
  (¬ CmBefore v (cmRel [0, 12]) ∧ k ∈ ["damped_trend", "initialization_method", "initial_level",
    "initial_trend", "initial_seasonal", "use_boxcox", "bounds"])

/-- C166: from statsmodels 0.12 on exactly the arguments the constructor knows are passed, without warning. -/
theorem C166_smoothing_partial (v : CmVer) (h : ¬ CmBefore v (cmRel [0, 12])) :
    (∀ k, k ∈ cmSmoothKw v ↔ CmSmoothKnown v k) ∧ ∀ s, cmSmoothWarns v s = false := by
  have h' : cmKeyLt v (cmRel [0, 12]) = false := by
    rw [← cmKeyLt_iff] at h; simpa using h
  refine ⟨fun k => ?_, fun s => by simp [cmSmoothWarns, h']⟩
  simp only [cmSmoothKw, h', CmSmoothKnown, h]
  simp
  tauto

example : ¬ CmBefore (cmRel [0, 12, 2]) (cmRel [0, 12]) :=
  fun h => by have := (cmKeyLt_iff _ _).2 h; revert this; decide +kernel

/-- C166: before statsmodels 0.12 an argument is passed that the constructor does not know, and the warning
says that the period is not supported although it is passed. -/
theorem C166_smoothing_violated (v : CmVer) (h : CmBefore v (cmRel [0, 12])) (n : ℕ) :
    (∃ k ∈ cmSmoothKw v, ¬ CmSmoothKnown v k) ∧ cmSmoothWarns v (some n) = true ∧
      "seasonal_periods" ∈ cmSmoothKw v := by
  have h' := (cmKeyLt_iff _ _).2 h
  refine ⟨⟨"damped_trend", by simp [cmSmoothKw, h'], ?_⟩, by simp [cmSmoothWarns, h'],
    by simp [cmSmoothKw, h']⟩
  simp [CmSmoothKnown, h]

example : CmBefore (cmRel [0, 11, 1]) (cmRel [0, 12]) := (cmKeyLt_iff _ _).1 (by decide +kernel)

end Kats
