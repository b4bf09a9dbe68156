import Verif.Lemmas.Backtest

/-!
# Properties of the backtesters (C14 - C17, C51)
-/

set_option linter.unusedSimpArgs false

namespace Kats

/-! ## C14 -/

/-- A fold without leakage inside a series of `size` points: non-empty train, non-empty test, the
test starts exactly `gap` points after the end of the train block. -/
def CleanFold (size : Nat) (gap : Int) (s : Split) : Prop :=
  0 ≤ s.trainStart ∧ s.trainStart < s.trainEnd ∧ s.trainEnd ≤ s.testStart
  ∧ s.testStart < s.testEnd ∧ s.testEnd ≤ size ∧ s.testStart - s.trainEnd = gap

/-- C14: `BackTesterSimple` either raises `ValueError` or produces a clean fold; it succeeds exactly
when both percentages are in (0, 100], both block sizes are positive, smaller than the data, and fit
together. -/
theorem C14_simple (size : Nat) (a b : Rat) :
    (∀ splits, btSimpleSplits size a b = .ok splits →
        splits.length = 1 ∧ ∀ s ∈ splits, CleanFold size 0 s)
    ∧ (∀ e, btSimpleSplits size a b = .error e → e = .valueError)
    ∧ ((∃ splits, btSimpleSplits size a b = .ok splits) ↔
        (0 < a ∧ a ≤ 100) ∧ (0 < b ∧ b ≤ 100)
        ∧ 0 < ⌊size * a / 100⌋ ∧ ⌊size * a / 100⌋ < size ∧ 0 < ⌊size * b / 100⌋
        ∧ ⌊size * b / 100⌋ < size ∧ ⌊size * a / 100⌋ + ⌊size * b / 100⌋ ≤ size) := by
  rcases checkPct_err a with ha | ha
  · rcases checkPct_err b with hb | hb
    · by_cases h0 : size = 0
      · subst h0
        simp [btSimpleSplits, ha, hb, bind, Except.bind, throw, throwThe, MonadExceptOf.throw]
      · rcases checkSize_err (btAbsSize size a) size with c1 | c1
        · rcases checkSize_err (btAbsSize size b) size with c2 | c2
          · have d1 := (checkSize_ok _ _).1 c1
            have d2 := (checkSize_ok _ _).1 c2
            have p1 := (checkPct_ok _).1 ha
            have p2 := (checkPct_ok _).1 hb
            by_cases hs : btAbsSize size a + btAbsSize size b > size
            · have hne : ¬ (⌊size * a / 100⌋ + ⌊size * b / 100⌋ ≤ (size : Int)) := not_le.2 hs
              simp [btSimpleSplits, ha, hb, bind, Except.bind, throw, throwThe,
                MonadExceptOf.throw, h0, c1, c2, hs, hne]
            · have e : btSimpleSplits size a b = .ok [⟨0, btAbsSize size a, btAbsSize size a,
                  btAbsSize size a + btAbsSize size b⟩] := by
                simp [btSimpleSplits, ha, hb, bind, Except.bind, h0, c1, c2, hs, pure, Except.pure]
              rw [e]
              refine ⟨?_, by simp, ⟨fun _ => ⟨p1, p2, d1.1, d1.2, d2.1, d2.2, not_lt.1 hs⟩,
                fun _ => ⟨_, rfl⟩⟩⟩
              intro splits h
              injection h with h
              subst h
              refine ⟨rfl, ?_⟩
              intro s hsm
              rw [List.mem_singleton] at hsm
              subst hsm
              unfold CleanFold
              dsimp only
              omega
          · have : ¬ (0 < ⌊size * b / 100⌋ ∧ ⌊size * b / 100⌋ < (size : Int)) := by
              intro h; rw [(checkSize_ok (btAbsSize size b) size).2 h] at c2; simp at c2
            refine ⟨?_, ?_, ?_⟩
            · simp [btSimpleSplits, ha, hb, bind, Except.bind, h0, c1, c2]
            · simp [btSimpleSplits, ha, hb, bind, Except.bind, h0, c1, c2]
            · constructor
              · simp [btSimpleSplits, ha, hb, bind, Except.bind, h0, c1, c2]
              · rintro ⟨_, _, _, _, h1, h2, _⟩; exact absurd ⟨h1, h2⟩ this
        · have : ¬ (0 < ⌊size * a / 100⌋ ∧ ⌊size * a / 100⌋ < (size : Int)) := by
            intro h; rw [(checkSize_ok (btAbsSize size a) size).2 h] at c1; simp at c1
          refine ⟨?_, ?_, ?_⟩
          · simp [btSimpleSplits, ha, hb, bind, Except.bind, h0, c1]
          · simp [btSimpleSplits, ha, hb, bind, Except.bind, h0, c1]
          · constructor
            · simp [btSimpleSplits, ha, hb, bind, Except.bind, h0, c1]
            · rintro ⟨_, _, h1, h2, _⟩; exact absurd ⟨h1, h2⟩ this
    · have : ¬ (0 < b ∧ b ≤ 100) := by
        intro h; rw [(checkPct_ok _).2 h] at hb; simp at hb
      refine ⟨?_, ?_, ?_⟩
      · simp [btSimpleSplits, ha, hb, bind, Except.bind]
      · simp [btSimpleSplits, ha, hb, bind, Except.bind]
      · simp [btSimpleSplits, ha, hb, bind, Except.bind, this]
  · have : ¬ (0 < a ∧ a ≤ 100) := by
      intro h; rw [(checkPct_ok _).2 h] at ha; simp at ha
    refine ⟨?_, ?_, ?_⟩
    · simp [btSimpleSplits, ha, bind, Except.bind]
    · simp [btSimpleSplits, ha, bind, Except.bind]
    · simp [btSimpleSplits, ha, bind, Except.bind, this]


example : ∃ splits, btSimpleSplits 10 75 25 = .ok splits :=
  (C14_simple 10 75 25).2.2.2 (by
    have h1 : ⌊((10 : Nat) : Rat) * 75 / 100⌋ = 7 := by rw [Int.floor_eq_iff]; norm_num
    have h2 : ⌊((10 : Nat) : Rat) * 25 / 100⌋ = 2 := by rw [Int.floor_eq_iff]; norm_num
    rw [h1, h2]; norm_num)

/-- C14: `BackTesterRollingOrigin` (and the expanding and rolling window backtesters built on it)
either raises `ValueError` or produces only clean folds, at least one. -/
theorem C14_rolling (size : Nat) (a b : Rat) (k : Int) (constant : Bool) :
    (∀ splits, btRollingSplits size a b k constant = .ok splits →
        splits ≠ [] ∧ ∀ s ∈ splits, CleanFold size 0 s)
    ∧ (∀ e, btRollingSplits size a b k constant = .error e → e = .valueError) := by
  unfold btRollingSplits
  rcases checkPct_err a with ha | ha
  swap
  · simp [ha, bind, Except.bind]
  rcases checkPct_err b with hb | hb
  swap
  · simp [ha, hb, bind, Except.bind]
  by_cases g1 : a + b > 100
  · simp [ha, hb, g1, bind, Except.bind, throw, throwThe, MonadExceptOf.throw]
  by_cases g2 : a + b = 100 ∧ k > 1
  · simp [ha, hb, g2, bind, Except.bind, throw, throwThe, MonadExceptOf.throw]
  by_cases g3 : k < 0
  · simp [ha, hb, g1, g2, g3, bind, Except.bind, throw, throwThe, MonadExceptOf.throw, pure,
      Except.pure]
  by_cases h0 : size = 0
  · simp [ha, hb, g1, g2, g3, h0, bind, Except.bind, throw, throwThe, MonadExceptOf.throw, pure,
      Except.pure]
  rcases checkSize_err (btAbsSize size a) size with c1 | c1
  swap
  · simp [ha, hb, g1, g2, g3, h0, c1, bind, Except.bind, pure, Except.pure]
  rcases checkSize_err (btAbsSize size b) size with c2 | c2
  swap
  · simp [ha, hb, g1, g2, g3, h0, c1, c2, bind, Except.bind, pure, Except.pure]
  have d1 := (checkSize_ok _ _).1 c1
  have d2 := (checkSize_ok _ _).1 c2
  by_cases g4 : btAbsSize size a + btAbsSize size b > size
  · simp [ha, hb, g1, g2, g3, h0, c1, c2, g4, bind, Except.bind, throw, throwThe,
      MonadExceptOf.throw, pure, Except.pure]
  by_cases g5 : btAbsSize size a + btAbsSize size b = size ∧ k > 1
  · simp [ha, hb, g1, g2, g3, h0, c1, c2, g5, bind, Except.bind, throw, throwThe,
      MonadExceptOf.throw, pure, Except.pure]
  by_cases g6 : k = 1
  · subst g6
    simp only [ha, hb, g1, g2, g3, h0, c1, c2, g4, g5, bind, Except.bind, pure, Except.pure,
      if_false, if_true]
    refine ⟨?_, by simp⟩
    intro splits h
    injection h with h
    subst h
    refine ⟨by simp, ?_⟩
    intro s hs
    rw [List.mem_singleton] at hs
    subst hs
    unfold CleanFold
    dsimp only
    omega
  simp only [ha, hb, g1, g2, g3, h0, c1, c2, g4, g5, g6, bind, Except.bind, pure, Except.pure,
    if_false]
  by_cases hk : k - 1 ≤ 0
  · simp [foldOffsets, hk]
  obtain ⟨m, rfl⟩ : ∃ m : Nat, k = ((m + 1 : Nat) : Int) := ⟨(k - 1).toNat, by omega⟩
  have hm : 1 ≤ m := by omega
  rw [foldOffsets_closed _ _ m hm]
  refine ⟨?_, by simp⟩
  intro splits h
  injection h with h
  subst h
  refine ⟨by simp, ?_⟩
  intro s hs
  rw [List.map_map, List.mem_map] at hs
  obtain ⟨i, hi, rfl⟩ := hs
  rw [List.mem_range] at hi
  have l1 := offsetAt_mono ((size : Int) - btAbsSize size a - btAbsSize size b - 0).toNat m
    (show i ≤ m by omega)
  rw [offsetAt_last _ _ hm, Int.sub_zero] at l1
  unfold CleanFold
  cases constant <;> simp <;> omega

/-- C14: `BackTesterFixedWindow` either raises `ValueError` or produces one clean fold whose gap is
the requested window. -/
theorem C14_fixed (size : Nat) (a b w : Rat) :
    (∀ splits, btFixedSplits size a b w = .ok splits →
        splits.length = 1 ∧ ∀ s ∈ splits, CleanFold size ⌊size * w / 100⌋ s)
    ∧ (∀ e, btFixedSplits size a b w = .error e → e = .valueError) := by
  unfold btFixedSplits
  rcases checkPct_err a with ha | ha
  swap
  · simp [ha, bind, Except.bind]
  rcases checkPct_err b with hb | hb
  swap
  · simp [ha, hb, bind, Except.bind]
  by_cases g1 : w < 0
  · simp [ha, hb, g1, bind, Except.bind, throw, throwThe, MonadExceptOf.throw]
  by_cases g2 : w > 100
  · simp [ha, hb, g1, g2, bind, Except.bind, throw, throwThe, MonadExceptOf.throw]
  by_cases h0 : size = 0
  · simp [ha, hb, g1, g2, h0, bind, Except.bind, throw, throwThe, MonadExceptOf.throw, pure,
      Except.pure]
  rcases checkSize_err (btAbsSize size a) size with c1 | c1
  swap
  · simp [ha, hb, g1, g2, h0, c1, bind, Except.bind, pure, Except.pure]
  rcases checkSize_err (btAbsSize size b) size with c2 | c2
  swap
  · simp [ha, hb, g1, g2, h0, c1, c2, bind, Except.bind, pure, Except.pure]
  have d1 := (checkSize_ok _ _).1 c1
  have d2 := (checkSize_ok _ _).1 c2
  by_cases g4 : btAbsSize size a + btAbsSize size b + btAbsSize size w > size
  · simp [ha, hb, g1, g2, h0, c1, c2, g4, bind, Except.bind, throw, throwThe,
      MonadExceptOf.throw, pure, Except.pure]
  simp only [ha, hb, g1, g2, h0, c1, c2, g4, bind, Except.bind, pure, Except.pure, if_false]
  refine ⟨?_, by simp⟩
  intro splits h
  injection h with h
  subst h
  refine ⟨rfl, ?_⟩
  intro s hs
  rw [List.mem_singleton] at hs
  subst hs
  have hw : (0 : Int) ≤ btAbsSize size w := by
    unfold btAbsSize
    apply Int.floor_nonneg.2
    have : (0 : Rat) ≤ w := not_lt.1 g1
    positivity
  have hw' : ⌊(size : Rat) * w / 100⌋ = btAbsSize size w := rfl
  unfold CleanFold
  rw [hw']
  dsimp only
  omega

/-- The rolling backtester does produce folds: 10 points, 50 % / 20 %, three folds. -/
theorem btRolling_ex (constant : Bool) : btRollingSplits 10 50 20 3 constant
    = .ok [⟨0, 5, 5, 7⟩, ⟨if constant then 2 else 0, 7, 7, 9⟩, ⟨if constant then 3 else 0, 8, 8, 10⟩] := by
  have h1 : btAbsSize 10 50 = 5 := by unfold btAbsSize; rw [Int.floor_eq_iff]; norm_num
  have h2 : btAbsSize 10 20 = 2 := by unfold btAbsSize; rw [Int.floor_eq_iff]; norm_num
  have p1 : checkPct 50 = .ok () := (checkPct_ok _).2 (by norm_num)
  have p2 : checkPct 20 = .ok () := (checkPct_ok _).2 (by norm_num)
  unfold btRollingSplits
  rw [h1, h2, p1, p2]
  have n1 : ¬ ((50 : Rat) + 20 > 100) := by norm_num
  have n2 : ¬ ((50 : Rat) + 20 = 100 ∧ (3 : Int) > 1) := by norm_num
  rw [if_neg n1, if_neg n2]
  cases constant <;> rfl

example : ∀ s ∈ [(⟨0, 5, 5, 7⟩ : Split), ⟨2, 7, 7, 9⟩, ⟨3, 8, 8, 10⟩], CleanFold 10 0 s :=
  ((C14_rolling 10 50 20 3 true).1 _ (btRolling_ex true)).2

example : ∃ splits, btFixedSplits 10 50 20 30 = .ok splits := by
  have h1 : btAbsSize 10 50 = 5 := by unfold btAbsSize; rw [Int.floor_eq_iff]; norm_num
  have h2 : btAbsSize 10 20 = 2 := by unfold btAbsSize; rw [Int.floor_eq_iff]; norm_num
  have h3 : btAbsSize 10 30 = 3 := by unfold btAbsSize; rw [Int.floor_eq_iff]; norm_num
  have p1 : checkPct 50 = .ok () := (checkPct_ok _).2 (by norm_num)
  have p2 : checkPct 20 = .ok () := (checkPct_ok _).2 (by norm_num)
  refine ⟨[⟨0, 5, 8, 10⟩], ?_⟩
  unfold btFixedSplits
  rw [h1, h2, h3, p1, p2]
  have n1 : ¬ ((30 : Rat) < 0) := by norm_num
  have n2 : ¬ ((30 : Rat) > 100) := by norm_num
  rw [if_neg n1, if_neg n2]
  rfl

/-! ## C15 -/

/-- C15: with `k ≥ 2` folds there are exactly `k` splits; all test blocks and (for the expanding
window) all train starts follow one list of offsets that starts at 0, never decreases, and whose
steps differ by at most one; the last test block ends at the last data point. -/
theorem C15_offsets (size : Nat) (a b : Rat) (k : Int) (hk : 2 ≤ k) (constant : Bool)
    (splits : List Split) (h : btRollingSplits size a b k constant = .ok splits) :
    ∃ off : Nat → Int,
      splits.length = k.toNat
      ∧ (∀ i (hi : i < splits.length), splits[i] =
          ⟨if constant then off i else 0, ⌊size * a / 100⌋ + off i, ⌊size * a / 100⌋ + off i,
            ⌊size * a / 100⌋ + off i + ⌊size * b / 100⌋⟩)
      ∧ off 0 = 0
      ∧ (∀ i j, i ≤ j → j < splits.length → off i ≤ off j)
      ∧ (∃ q : Int, ∀ i, i + 1 < splits.length →
          off (i + 1) - off i = q ∨ off (i + 1) - off i = q + 1)
      ∧ (splits.getLast?.map (·.testEnd)) = some (size : Int) := by
  obtain ⟨m, rfl⟩ : ∃ m : Nat, k = ((m + 1 : Nat) : Int) := ⟨(k - 1).toNat, by omega⟩
  have hm : 1 ≤ m := by omega
  have key : splits = (List.range (m + 1)).map (fun i : Nat =>
      (⟨if constant then ((offsetAt ((size : Int) - btAbsSize size a - btAbsSize size b - 0).toNat m i : Nat) : Int) else 0,
        btAbsSize size a + (offsetAt ((size : Int) - btAbsSize size a - btAbsSize size b - 0).toNat m i : Nat),
        btAbsSize size a + (offsetAt ((size : Int) - btAbsSize size a - btAbsSize size b - 0).toNat m i : Nat),
        btAbsSize size a + (offsetAt ((size : Int) - btAbsSize size a - btAbsSize size b - 0).toNat m i : Nat)
          + btAbsSize size b⟩ : Split))
      ∧ btAbsSize size a + btAbsSize size b ≤ size := by
    revert h
    unfold btRollingSplits
    rcases checkPct_err a with ha | ha
    swap
    · simp [ha, bind, Except.bind]
    rcases checkPct_err b with hb | hb
    swap
    · simp [ha, hb, bind, Except.bind]
    by_cases g1 : a + b > 100
    · simp [ha, hb, g1, bind, Except.bind, throw, throwThe, MonadExceptOf.throw]
    by_cases g2 : a + b = 100 ∧ ((m + 1 : Nat) : Int) > 1
    · rw [ha, hb, if_neg g1, if_pos g2]
      simp [bind, Except.bind, throw, throwThe, MonadExceptOf.throw]
    rw [ha, hb, if_neg g1, if_neg g2, if_neg (by omega : ¬ ((m + 1 : Nat) : Int) < 0)]
    by_cases h0 : size = 0
    · simp [h0, bind, Except.bind, throw, throwThe, MonadExceptOf.throw, pure, Except.pure]
    rw [if_neg h0]
    rcases checkSize_err (btAbsSize size a) size with c1 | c1
    swap
    · simp [c1, bind, Except.bind, pure, Except.pure]
    rcases checkSize_err (btAbsSize size b) size with c2 | c2
    swap
    · simp [c1, c2, bind, Except.bind, pure, Except.pure]
    dsimp only
    rw [c1, c2]
    by_cases g4 : btAbsSize size a + btAbsSize size b > size
    · simp [g4, bind, Except.bind, throw, throwThe, MonadExceptOf.throw, pure, Except.pure]
    rw [if_neg g4]
    by_cases g5 : btAbsSize size a + btAbsSize size b = size ∧ ((m + 1 : Nat) : Int) > 1
    · rw [if_pos g5]
      simp [bind, Except.bind, throw, throwThe, MonadExceptOf.throw, pure, Except.pure]
    rw [if_neg g5, if_neg (by omega : ¬ ((m + 1 : Nat) : Int) = 1), foldOffsets_closed _ _ m hm]
    simp only [bind, Except.bind, pure, Except.pure]
    intro h
    injection h with h
    refine ⟨?_, not_lt.1 g4⟩
    rw [← h, List.map_map]
    rfl
  obtain ⟨key, hle⟩ := key
  have hl : splits.length = m + 1 := by rw [key]; simp
  refine ⟨fun i => ((offsetAt ((size : Int) - btAbsSize size a - btAbsSize size b - 0).toNat m i : Nat) : Int),
    by rw [hl]; simp, ?_, by simp [offsetAt], ?_,
    ⟨((((size : Int) - btAbsSize size a - btAbsSize size b - 0).toNat / m : Nat) : Int), ?_⟩, ?_⟩
  · intro i hi
    subst key
    rw [List.getElem_map, List.getElem_range]
    rfl
  · intro i j hij _
    exact Int.ofNat_le.2 (offsetAt_mono _ _ hij)
  · intro i _
    rcases offsetAt_step ((size : Int) - btAbsSize size a - btAbsSize size b - 0).toNat m i with e | e
    · left; dsimp only; rw [e]; push_cast; ring
    · right; dsimp only; rw [e]; push_cast; ring
  · rw [key, List.range_succ, List.map_append, List.map_singleton, List.getLast?_append]
    simp only [List.getLast?_singleton, Option.some_or, Option.map_some]
    rw [offsetAt_last _ _ hm]
    congr 1
    omega

example : ∃ off : Nat → Int, off 0 = 0 ∧ off 1 - off 0 = 2 ∧ off 2 - off 1 = 1 := by
  obtain ⟨off, _, h, h0, _⟩ := C15_offsets 10 50 20 3 (by norm_num) true _ (btRolling_ex true)
  have h1 := h 1 (by simp)
  have h2 := h 2 (by simp)
  simp at h1 h2
  exact ⟨off, h0, by omega, by omega⟩

/-- C14: the single fold of `BackTesterSimple` and `BackTesterFixedWindow` has exactly the requested
sizes: the training block is the first `⌊size·a/100⌋` points, the test block has `⌊size·b/100⌋` points
and begins `⌊size·w/100⌋` points after the training block. -/
theorem C14_exact (size : Nat) (a b w : Rat) (splits : List Split) :
    (btSimpleSplits size a b = .ok splits →
      splits = [⟨0, ⌊size * a / 100⌋, ⌊size * a / 100⌋, ⌊size * a / 100⌋ + ⌊size * b / 100⌋⟩])
    ∧ (btFixedSplits size a b w = .ok splits →
      splits = [⟨0, ⌊size * a / 100⌋, ⌊size * a / 100⌋ + ⌊size * w / 100⌋,
        ⌊size * a / 100⌋ + ⌊size * w / 100⌋ + ⌊size * b / 100⌋⟩]) := by
  constructor
  · intro h
    unfold btSimpleSplits checkPct checkSize at h
    simp only [bind, Except.bind, pure, Except.pure, throw, throwThe, MonadExceptOf.throw] at h
    split_ifs at h; simp_all [btAbsSize]
  · intro h
    unfold btFixedSplits checkPct checkSize at h
    simp only [bind, Except.bind, pure, Except.pure, throw, throwThe, MonadExceptOf.throw] at h
    split_ifs at h; simp_all [btAbsSize]

example : ∃ splits, btSimpleSplits 10 75 25 = .ok splits :=
  (C14_simple 10 75 25).2.2.2 (by
    have h1 : ⌊((10 : Nat) : Rat) * 75 / 100⌋ = 7 := by rw [Int.floor_eq_iff]; norm_num
    have h2 : ⌊((10 : Nat) : Rat) * 25 / 100⌋ = 2 := by rw [Int.floor_eq_iff]; norm_num
    rw [h1, h2]; norm_num)

/-! ## C16 -/

/-- Specification: the size-weighted mean of one metric over a list of folds. -/
def weightedMean (m : List Rat → List Rat → Rat) (folds : List FoldResult) : Rat :=
  (folds.map fun r =>
    (r.truth.length : Rat) / ((folds.map (·.truth.length)).sum : Nat) * m r.truth r.predictions).sum

theorem foldlM_calcFold (metrics : List (List Rat → List Rat → Rat)) (total : Nat) :
    ∀ (rs : List FoldResult) (st st' : BTState),
      rs.foldlM (calcFold metrics total) st = .ok st' → st.errors.length = metrics.length →
      st'.results = st.results
      ∧ st'.errors = List.zipWith (fun e m => e + (rs.map fun r =>
          (r.truth.length : Rat) / total * m r.truth r.predictions).sum) st.errors metrics
      ∧ st'.rawErrors = st.rawErrors ++ rs.map fun r => List.zipWith (· - ·) r.truth r.predictions
  | [], st, st', h, hl => by
    simp only [List.foldlM_nil, pure, Except.pure] at h
    injection h with h
    subst h
    refine ⟨rfl, ?_, by simp⟩
    apply List.ext_getElem <;> simp [hl]
  | r :: rs, st, st', h, hl => by
    rw [List.foldlM_cons] at h
    unfold calcFold at h
    split_ifs at h with g1 g2 g3 g4
    all_goals try (simp [bind, Except.bind] at h; done)
    simp only [bind, Except.bind] at h
    obtain ⟨i1, i2, i3⟩ := foldlM_calcFold metrics total rs _ st' h (by simp [hl])
    refine ⟨i1, ?_, ?_⟩
    · rw [i2]
      apply List.ext_getElem
      · simp
      · intro i h1 h2
        simp [add_assoc]
    · rw [i3]
      simp

theorem calcError_spec (metrics : List (List Rat → List Rat → Rat)) (st st' : BTState)
    (h : calcError metrics st = .ok st') (hl : st.errors.length = metrics.length) :
    st'.results = st.results
    ∧ st'.errors = List.zipWith (fun e m => e + weightedMean m st.results) st.errors metrics := by
  unfold calcError at h
  split_ifs at h
  obtain ⟨h1, h2, _⟩ := foldlM_calcFold metrics _ _ _ _ h hl
  exact ⟨h1, h2⟩

/-- What one fold should contain: the data of its train and test ranges and the forecast for the
test range made from the train range alone, after skipping `offset` steps. -/
def FoldOf (data : List Rat) (offset : Nat) (forecast : List Rat → Nat → List Rat) (s : Split)
    (r : FoldResult) : Prop :=
  r.training = (data.drop s.trainStart.toNat).take (s.trainEnd - s.trainStart).toNat
  ∧ r.truth = (data.drop s.testStart.toNat).take (s.testEnd - s.testStart).toNat
  ∧ r.predictions = (forecast r.training (r.truth.length + offset)).drop offset

theorem createModel_spec {data : List Rat} {offset : Nat} {forecast : List Rat → Nat → List Rat}
    {s : Split} {r : FoldResult} (h : createModel data offset forecast s = .ok r) :
    FoldOf data offset forecast s r := by
  unfold createModel at h
  dsimp only at h
  split_ifs at h with g1 g2 g3 g4
  injection h with h
  subst h
  refine ⟨?_, ?_, rfl⟩
  · have := pySlice_nat data s.trainStart.toNat s.trainEnd.toNat
    rw [Int.toNat_of_nonneg (by omega), Int.toNat_of_nonneg (by omega)] at this
    dsimp only
    rw [this]
    congr 1
    omega
  · have := pySlice_nat data s.testStart.toNat s.testEnd.toNat
    rw [Int.toNat_of_nonneg (by omega), Int.toNat_of_nonneg (by omega)] at this
    dsimp only
    rw [this]
    congr 1
    omega

/-- C16 (first run): every reported error is the size-weighted mean of the metric over the folds,
one fold per split in order, each computed from that split's own data. -/
theorem C16_first_run_partial (multi : Bool) (data : List Rat) (offset : Nat)
    (forecast : List Rat → Nat → List Rat) (metrics : List (List Rat → List Rat → Rat))
    (splits : List Split) (st : BTState)
    (h : runBacktest multi data offset forecast metrics splits (BTState.fresh metrics.length)
      = .ok st) :
    List.Forall₂ (FoldOf data offset forecast) splits st.results
    ∧ st.errors = metrics.map fun m => weightedMean m st.results := by
  unfold runBacktest at h
  cases hn : splits.mapM (createModel data offset forecast) with
  | error e => rw [hn] at h; simp [bind, Except.bind] at h
  | ok new =>
    rw [hn] at h
    simp only [bind, Except.bind] at h
    obtain ⟨h1, h2⟩ := calcError_spec metrics _ _ h (by simp [BTState.fresh])
    have hr : st.results = new := by
      rw [h1]; cases multi <;> simp [BTState.fresh]
    have hr' : (if multi then new else (BTState.fresh metrics.length).results ++ new) = new := by
      cases multi <;> simp [BTState.fresh]
    constructor
    · rw [hr]
      exact mapM_forall₂ _ _ (fun _ _ => createModel_spec) _ _ hn
    · rw [h2, hr]
      dsimp only
      rw [hr']
      apply List.ext_getElem
      · simp [BTState.fresh]
      · intro i _ _
        simp [BTState.fresh]

theorem weightedMean_double (m : List Rat → List Rat → Rat) (l : List FoldResult) :
    weightedMean m (l ++ l) = weightedMean m l := by
  unfold weightedMean
  rw [List.map_append, List.map_append, List.sum_append, List.sum_append]
  have key : ∀ l' : List FoldResult,
      (l'.map fun r => (r.truth.length : Rat) /
        (((l.map (·.truth.length)).sum + (l.map (·.truth.length)).sum : Nat) : Rat)
          * m r.truth r.predictions).sum * 2
      = (l'.map fun r => (r.truth.length : Rat) / ((l.map (·.truth.length)).sum : Nat)
          * m r.truth r.predictions).sum := by
    intro l'
    induction l' with
    | nil => simp
    | cons r l' ih =>
      rw [List.map_cons, List.map_cons, List.sum_cons, List.sum_cons, add_mul, ih]
      congr 1
      by_cases h0 : (((l.map (·.truth.length)).sum : Nat) : Rat) = 0
      · push_cast; push_cast at h0; rw [h0]; simp
      · push_cast; push_cast at h0
        rw [← two_mul]
        field_simp
  have := key l
  linarith

theorem foldlM_calcFold_aligned (metrics : List (List Rat → List Rat → Rat)) (total : Nat) :
    ∀ (rs : List FoldResult) (st st' : BTState),
      rs.foldlM (calcFold metrics total) st = .ok st' →
      ∀ r ∈ rs, r.predictions.length = r.truth.length ∧ r.truth ≠ [] ∧ r.training ≠ []
  | [], _, _, _ => by simp
  | r :: rs, st, st', h => by
    rw [List.foldlM_cons] at h
    cases hc : calcFold metrics total st r with
    | error e => rw [hc] at h; simp [bind, Except.bind] at h
    | ok st1 =>
      rw [hc] at h
      have ih := foldlM_calcFold_aligned metrics total rs st1 st' h
      intro q hq
      rcases List.mem_cons.1 hq with rfl | hq
      · unfold calcFold at hc
        split_ifs at hc with g1 g2 g3 g4
        refine ⟨not_not.1 g4, ?_, ?_⟩
        · simpa using g3
        · simpa using g1
      · exact ih q hq

/-- C16: no error is reported unless every fold has as many predictions as test points, at least one
of each. -/
theorem C16_aligned (multi : Bool) (data : List Rat) (offset : Nat)
    (forecast : List Rat → Nat → List Rat) (metrics : List (List Rat → List Rat → Rat))
    (splits : List Split) (st0 st : BTState)
    (h : runBacktest multi data offset forecast metrics splits st0 = .ok st) :
    ∃ new, splits.mapM (createModel data offset forecast) = .ok new ∧
      ∀ r ∈ new, r.predictions.length = r.truth.length ∧ r.truth ≠ [] ∧ r.training ≠ [] := by
  unfold runBacktest at h
  cases hn : splits.mapM (createModel data offset forecast) with
  | error e => rw [hn] at h; simp [bind, Except.bind] at h
  | ok new =>
    rw [hn] at h
    simp only [bind, Except.bind] at h
    refine ⟨new, rfl, fun r hr => ?_⟩
    unfold calcError at h
    split_ifs at h
    all_goals
      refine foldlM_calcFold_aligned _ _ _ _ _ h r ?_
      simp [hr]

/-- C16 is violated: running the backtest again on the same object always reports twice the error of
the first run (with or without multiprocessing), because `errors` is never reset. -/
theorem C16_rerun_doubles_violated (multi : Bool) (data : List Rat) (offset : Nat)
    (forecast : List Rat → Nat → List Rat) (metrics : List (List Rat → List Rat → Rat))
    (splits : List Split) (st st2 : BTState)
    (h : runBacktest multi data offset forecast metrics splits (BTState.fresh metrics.length)
      = .ok st)
    (h2 : runBacktest multi data offset forecast metrics splits st = .ok st2) :
    st2.errors = st.errors.map (2 * ·) := by
  obtain ⟨_, e1⟩ := C16_first_run_partial multi data offset forecast metrics splits st h
  unfold runBacktest at h h2
  cases hn : splits.mapM (createModel data offset forecast) with
  | error e => rw [hn] at h; simp [bind, Except.bind] at h
  | ok new =>
    rw [hn] at h h2
    simp only [bind, Except.bind] at h h2
    obtain ⟨r1, _⟩ := calcError_spec metrics _ _ h (by simp [BTState.fresh])
    obtain ⟨_, r2⟩ := calcError_spec metrics _ _ h2 (by rw [e1]; simp)
    have hr : st.results = new := by
      rw [r1]; cases multi <;> simp [BTState.fresh]
    rw [r2, e1, hr]
    apply List.ext_getElem
    · simp
    · intro i _ _
      cases multi
      · simp [weightedMean_double]; ring
      · simp; ring

/-- A concrete backtest: five points, two folds of sizes 2 and 1, last-value forecast, one metric
(sum of absolute differences). -/
def btEx : Except Err BTState :=
  runBacktest false [1, 2, 4, 7, 11] 0 (fun t n => List.replicate n (t.getLast?.getD 0))
    [fun t p => ((List.zipWith (· - ·) t p).map (fun d => if d < 0 then -d else d)).sum]
    [⟨0, 2, 2, 4⟩, ⟨0, 4, 4, 5⟩] (BTState.fresh 1)

theorem btEx_ok : ∃ st, btEx = .ok st ∧ st.errors = [6] := by
  have h : (match btEx with | .ok st => st.errors | .error _ => []) = [6] := by decide +kernel
  cases e : btEx with
  | error x => rw [e] at h; simp at h
  | ok st => rw [e] at h; exact ⟨st, rfl, h⟩

example : ∃ st, btEx = .ok st ∧ ∃ st2, runBacktest false [1, 2, 4, 7, 11] 0
    (fun t n => List.replicate n (t.getLast?.getD 0))
    [fun t p => ((List.zipWith (· - ·) t p).map (fun d => if d < 0 then -d else d)).sum]
    [⟨0, 2, 2, 4⟩, ⟨0, 4, 4, 5⟩] st = .ok st2 ∧ st2.errors = [12] := by
  obtain ⟨st, h, he⟩ := btEx_ok
  refine ⟨st, h, ?_⟩
  have h2 : (match btEx with
    | .ok st => (match runBacktest false [1, 2, 4, 7, 11] 0
        (fun t n => List.replicate n (t.getLast?.getD 0))
        [fun t p => ((List.zipWith (· - ·) t p).map (fun d => if d < 0 then -d else d)).sum]
        [⟨0, 2, 2, 4⟩, ⟨0, 4, 4, 5⟩] st with | .ok st => st.errors | .error _ => [])
    | .error _ => []) = [12] := by decide +kernel
  rw [h] at h2
  dsimp only at h2
  split at h2
  · exact ⟨_, by assumption, h2⟩
  · simp at h2

/-- C16: the reported error never leaves the range of the fold errors. -/
theorem C16_between_partial (m : List Rat → List Rat → Rat) (folds : List FoldResult) (lo hi : Rat)
    (hne : ∃ r ∈ folds, r.truth ≠ [])
    (hb : ∀ r ∈ folds, lo ≤ m r.truth r.predictions ∧ m r.truth r.predictions ≤ hi) :
    lo ≤ weightedMean m folds ∧ weightedMean m folds ≤ hi := by
  unfold weightedMean
  set T : Rat := (((folds.map (·.truth.length)).sum : Nat) : Rat) with hT
  have hpos : 0 < T := by
    obtain ⟨r, hr, hne⟩ := hne
    have h1 : r.truth.length ≤ (folds.map (·.truth.length)).sum :=
      List.le_sum_of_mem (List.mem_map.2 ⟨r, hr, rfl⟩)
    have h2 : 0 < r.truth.length := List.length_pos_iff.2 hne
    rw [hT]
    exact_mod_cast lt_of_lt_of_le h2 h1
  have gen : ∀ l : List FoldResult, (∀ r ∈ l, r ∈ folds) →
      lo * (((l.map (·.truth.length)).sum : Nat) : Rat) ≤
        (l.map fun r => (r.truth.length : Rat) / T * m r.truth r.predictions).sum * T
      ∧ (l.map fun r => (r.truth.length : Rat) / T * m r.truth r.predictions).sum * T
        ≤ hi * (((l.map (·.truth.length)).sum : Nat) : Rat) := by
    intro l
    induction l with
    | nil => intro _; simp
    | cons r l ih =>
      intro hl
      obtain ⟨i1, i2⟩ := ih (fun x hx => hl x (by simp [hx]))
      obtain ⟨b1, b2⟩ := hb r (hl r (by simp))
      simp only [List.map_cons, List.sum_cons]
      have e : ((r.truth.length : Rat) / T * m r.truth r.predictions) * T
          = r.truth.length * m r.truth r.predictions := by field_simp
      have hn : (0 : Rat) ≤ r.truth.length := by positivity
      push_cast at i1 i2 ⊢
      rw [add_mul, e]
      constructor <;> nlinarith
  obtain ⟨g1, g2⟩ := gen folds (fun _ h => h)
  rw [← hT] at g1 g2
  exact ⟨le_of_mul_le_mul_right g1 hpos, le_of_mul_le_mul_right g2 hpos⟩

example : (2 : Rat) ≤ weightedMean (fun t p => t.sum - p.sum) [⟨[1], [4], [2]⟩, ⟨[1], [9, 1], [2, 4]⟩] :=
  (C16_between_partial _ _ 2 4 ⟨⟨[1], [4], [2]⟩, by simp, by simp⟩ (by
    intro r hr
    simp only [List.mem_cons, List.not_mem_nil, or_false] at hr
    rcases hr with rfl | rfl <;> norm_num)).1

/-! ## C17 -/

/-- C17 for `BackTesterParent`: construction succeeds exactly when every requested name is known. -/
theorem C17_parent_partial (known : String → Bool) (names : List String) :
    ((∃ r, btInitErrors known names = .ok r) ↔ ∀ n ∈ names, known n = true)
    ∧ (∀ n ∈ names, known n = false → btInitErrors known names = .error .valueError) := by
  unfold btInitErrors
  constructor
  · constructor
    · rintro ⟨r, h⟩ n hn
      split_ifs at h with g
      exact List.all_eq_true.1 g n hn
    · intro h
      rw [if_pos (List.all_eq_true.2 h)]
      exact ⟨_, rfl⟩
  · intro n hn hk
    rw [if_neg]
    intro g
    have := List.all_eq_true.1 g n hn
    simp [hk] at this

example : btInitErrors (fun s => s == "mape" || s == "mae") ["mae", "nope"] = .error .valueError :=
  (C17_parent_partial _ _).2 "nope" (by simp) (by decide)

/-- C17 is violated for `GenericBacktester`: whatever unknown names are requested, no exception is
raised and they are just absent from the scorers. -/
theorem C17_generic_violated (known : String → Bool) (names : List String) :
    ∃ r, getScorerNames known names = .ok r
      ∧ (∀ n ∈ names, known n = false → n ∉ r)
      ∧ (∀ n ∈ names, known n = true → n ∈ r) := by
  refine ⟨_, rfl, ?_, ?_⟩
  · intro n _ hk hm
    have := (List.mem_filter.1 hm).2
    simp [hk] at this
  · intro n hn hk
    exact List.mem_filter.2 ⟨hn, hk⟩

example : getScorerNames (fun s => s == "mape") ["mape", "nope"] = .ok ["mape"] := by decide

/-! ## C51 -/

/-- Specification: score number `j` of a fold; a failed fold counts with the error score. -/
def scoreAt (err : Option Rat) (j : Nat) : GenFold → Option Rat
  | some f => f.2.getD j none
  | none => err

/-- Specification: mean of the scores that are not NaN. -/
def IsMeanOfAvailable (scores : List (Option Rat)) (r : Option Rat) : Prop :=
  (r = none ∧ ∀ x ∈ scores, x = none)
  ∨ ∃ v : List Rat, v ≠ [] ∧ v.map some = scores.filter Option.isSome
      ∧ r = some (v.sum / v.length)

theorem nanmean_spec (l : List (Option Rat)) : IsMeanOfAvailable l (nanmean l) := by
  unfold nanmean IsMeanOfAvailable
  dsimp only
  have hf : (l.filterMap id).map some = l.filter Option.isSome := by
    induction l with
    | nil => rfl
    | cons a l ih => cases a <;> simp_all
  by_cases h : (l.filterMap id) = []
  · left
    rw [h]
    refine ⟨rfl, ?_⟩
    intro x hx
    cases x with
    | none => rfl
    | some a =>
      have : a ∈ l.filterMap id := List.mem_filterMap.2 ⟨some a, hx, rfl⟩
      rw [h] at this
      simp at this
  · right
    refine ⟨_, h, hf, ?_⟩
    rw [if_neg (by simpa [List.isEmpty_iff] using h)]

theorem genFoldErrors_spec (err : Option Rat) (m : Nat) (res : List GenFold)
    (hs : ∃ f, some f ∈ res) (hm : ∀ f, some f ∈ res → f.2.length = m) :
    ∃ rows, genFoldErrors err res = .ok (m, rows) ∧ rows.length = res.length
      ∧ ∀ j < m, rows.mapM (rowGet j) = .ok (res.map (scoreAt err j)) := by
  obtain ⟨f, hf⟩ := hs
  have hmem : f ∈ res.filterMap id := List.mem_filterMap.2 ⟨some f, hf, rfl⟩
  unfold genFoldErrors
  cases hv : res.filterMap id with
  | nil => rw [hv] at hmem; simp at hmem
  | cons g tl =>
    have hg : some g ∈ res := by
      have : g ∈ res.filterMap id := by rw [hv]; simp
      obtain ⟨a, ha, hb⟩ := List.mem_filterMap.1 this
      simp only [id] at hb
      rw [← hb]; exact ha
    have hgm := hm g hg
    refine ⟨_, by dsimp only; rw [hgm], by simp, ?_⟩
    intro j hj
    clear hf hmem hg hv
    induction res with
    | nil => rfl
    | cons a res ih =>
      rw [List.map_cons, List.mapM_cons, ih (fun f hf => hm f (by simp [hf]))]
      cases a with
      | none => simp [rowGet, scoreAt, hj, bind, Except.bind, pure, Except.pure]
      | some f =>
        have hl : j < f.2.length := by rw [hm f (by simp)]; exact hj
        simp [rowGet, scoreAt, hl, bind, Except.bind, pure, Except.pure]

/-- C51 (`average`): as soon as one fold succeeded, every metric is summarised by the mean of its
available scores, failed folds counting with the error score (ignored when it is NaN). -/
theorem C51_average_partial (err : Option Rat) (m : Nat) (res : List GenFold)
    (hs : ∃ f, some f ∈ res) (hm : ∀ f, some f ∈ res → f.2.length = m) :
    ∃ out, genSummarize false err res = .ok out ∧ out.length = m
      ∧ ∀ j (hj : j < out.length), IsMeanOfAvailable (res.map (scoreAt err j)) out[j] := by
  obtain ⟨rows, h1, h2, h3⟩ := genFoldErrors_spec err m res hs hm
  unfold genSummarize
  rw [h1]
  simp only [bind, Except.bind, pure, Except.pure, Bool.false_eq_true, if_false]
  refine mapM_range_ok (fun j r => IsMeanOfAvailable (res.map (scoreAt err j)) r) _ _ ?_
  intro j hj
  rw [h3 j hj]
  refine ⟨_, rfl, ?_⟩
  have : List.zipWith scaleO (List.replicate rows.length 1) (res.map (scoreAt err j))
      = res.map (scoreAt err j) := by
    rw [h2]
    apply List.ext_getElem
    · simp
    · intro i _ _
      simp [scaleO]
  rw [this]
  exact nanmean_spec _

example : ∃ out, genSummarize false none [some (2, [some 1]), none, some (3, [some 5])] = .ok out
    ∧ out.length = 1 := by
  obtain ⟨out, h, hl, _⟩ := C51_average_partial none 1
    [some (2, [some 1]), none, some (3, [some 5])] ⟨(2, [some 1]), by simp⟩ (by
      intro f hf
      simp at hf
      rcases hf with rfl | rfl <;> rfl)
  exact ⟨out, h, hl⟩

theorem weightedSum (folds : List (Nat × List Rat)) (j : Nat) (S k : Rat) :
    (folds.map fun f => f.2.getD j 0 * ((f.1 : Rat) / S * k)).sum
      = (folds.map fun f => (f.1 : Rat) * f.2.getD j 0).sum / S * k := by
  induction folds with
  | nil => simp
  | cons f l ih => simp only [List.map_cons, List.sum_cons, ih]; ring

/-- C51 (`weighted`): if no fold failed and no score is NaN, the summary is the mean weighted by the
lengths of the test blocks. -/
theorem C51_weighted_partial (err : Option Rat) (m : Nat)
    (folds : List (Nat × List Rat)) (hne : folds ≠ []) (hm : ∀ f ∈ folds, f.2.length = m) :
    ∃ out, genSummarize true err (folds.map fun f => some (f.1, f.2.map some)) = .ok out
      ∧ out.length = m
      ∧ ∀ j (hj : j < out.length), out[j] = some (
          (folds.map fun f => (f.1 : Rat) * f.2.getD j 0).sum / ((folds.map (·.1)).sum : Nat)) := by
  obtain ⟨f0, hf0⟩ := List.exists_mem_of_ne_nil _ hne
  obtain ⟨rows, h1, h2, h3⟩ := genFoldErrors_spec err m
    (folds.map fun f => some (f.1, f.2.map some))
    ⟨(f0.1, f0.2.map some), List.mem_map.2 ⟨f0, hf0, rfl⟩⟩ (by
      intro f hf
      obtain ⟨g, hg, e⟩ := List.mem_map.1 hf
      injection e with e
      rw [← e]
      simp [hm g hg])
  unfold genSummarize
  rw [h1]
  have hlens : (folds.map fun f => (some (f.1, f.2.map some) : GenFold)).mapM foldLen = .ok (folds.map fun f => (f.1 : Rat)) := by
    rw [List.mapM_map]
    exact mapM_ok _ _ _ (fun _ _ => rfl)
  simp only [bind, Except.bind, pure, Except.pure, if_true]
  rw [hlens]
  dsimp only
  refine mapM_range_ok (fun j r => r = some (
          (folds.map fun f => (f.1 : Rat) * f.2.getD j 0).sum / ((folds.map (·.1)).sum : Nat))) _ _ ?_
  intro j hj
  rw [h3 j hj]
  refine ⟨_, rfl, ?_⟩
  have hS : (folds.map fun f => (f.1 : Rat)).sum = (((folds.map (·.1)).sum : Nat) : Rat) := by
    clear hlens h1 h2 h3 hne hm hf0
    induction folds with
    | nil => simp
    | cons f l ih => simp [ih]
  rw [hS, h2]
  set S : Rat := (((folds.map (·.1)).sum : Nat) : Rat)
  have e : List.zipWith scaleO
      (List.map (fun l => l / S * ((folds.map fun f => (some (f.1, f.2.map some) : GenFold)).length : Rat))
        (folds.map fun f => (f.1 : Rat)))
      ((folds.map fun f => (some (f.1, f.2.map some) : GenFold)).map (scoreAt err j))
      = (folds.map fun f => f.2.getD j 0 * ((f.1 : Rat) / S * folds.length)).map some := by
    apply List.ext_getElem
    · simp
    · intro i hi1 _
      have hi : i < folds.length := by simpa using hi1
      have hl : j < folds[i].2.length := by rw [hm _ (List.getElem_mem _)]; exact hj
      simp [scaleO, scoreAt, hl]
  rw [e]
  unfold nanmean
  have e2 : ∀ l : List Rat, (l.map some).filterMap id = l := by
    intro l; induction l with
    | nil => rfl
    | cons a l ih => simp
  rw [e2]
  have hl0 : (folds.length : Rat) ≠ 0 := by
    have := List.length_pos_iff.2 hne
    positivity
  rw [if_neg (by simp [hne]), weightedSum, List.length_map]
  congr 1
  field_simp

example : ∃ out, genSummarize true none [some (2, [some 1]), some (3, [some 5])] = .ok out
    ∧ out.length = 1 := by
  obtain ⟨out, h, hl, _⟩ := C51_weighted_partial none 1 [(2, [1]), (3, [5])] (by simp) (by simp)
  exact ⟨out, h, hl⟩

/-- C51 is violated: with weighting, one failed fold makes the whole summary fail with `TypeError`
although other folds succeeded (`error_score` has no effect). -/
theorem C51_failed_fold_violated (err : Option Rat) (m : Nat) (res : List GenFold)
    (hs : ∃ f, some f ∈ res) (hm : ∀ f, some f ∈ res → f.2.length = m) (hf : none ∈ res) :
    genSummarize true err res = .error .typeError := by
  obtain ⟨rows, h1, h2, h3⟩ := genFoldErrors_spec err m res hs hm
  unfold genSummarize
  rw [h1]
  have hlens : res.mapM foldLen = .error .typeError := by
    clear h1 h2 h3 hs hm
    induction res with
    | nil => simp at hf
    | cons a res ih =>
      rw [List.mapM_cons]
      cases a with
      | none => rfl
      | some f =>
        rw [ih (by simpa using hf)]
        rfl
  simp only [bind, Except.bind, pure, Except.pure, if_true]
  rw [hlens]

example : genSummarize true (some 9) [some (2, [some 1]), none] = .error .typeError :=
  C51_failed_fold_violated _ 1 _ ⟨(2, [some 1]), by simp⟩ (by
    intro f hf; simp at hf; rw [hf]; rfl) (by simp)

/-- C51 is violated: when every fold failed, `IndexError` instead of the intended report. -/
theorem C51_all_failed_violated (weighted : Bool) (err : Option Rat) (n : Nat) :
    genSummarize weighted err (List.replicate n none) = .error .indexError := by
  have : (List.replicate n (none : GenFold)).filterMap id = [] := by
    induction n with
    | zero => rfl
    | succ n ih => rw [List.replicate_succ]; simp
  unfold genSummarize genFoldErrors
  rw [this]
  rfl

/-- C51 is violated: with weighting, a NaN score distorts the rest.  Two folds of lengths 1 and 3,
scores NaN and 10: the summary is 15, outside of the range of all scores. -/
theorem C51_nan_violated :
    genSummarize true none [some (1, [none]), some (3, [some 10])] = .ok [some 15] := by
  have h : (match genSummarize true none [some (1, [none]), some (3, [some 10])] with
    | .ok o => some o | .error _ => none) = some [some 15] := by decide +kernel
  cases e : genSummarize true none [some (1, [none]), some (3, [some 10])] with
  | error x => rw [e] at h; simp at h
  | ok o => rw [e] at h; simp at h; rw [h]

end Kats
