import Verif.Lemmas.Partition

/-!
# Properties of the data partition classes (C09 - C13)

"Strictly increasing times" (`Pairwise (·.1 < ·.1)`) is the usual series without repeated time
stamps; for series with repeated stamps slicing re-sorts and may permute equal stamps.
-/

namespace Kats

/-! ## C09 -/

/-- The number of points asked for by a fraction or a size argument. -/
def wanted (n : Nat) (frac : Option Rat) (size : Option Int) : Option Nat :=
  match frac, size with
  | some f, _ => some ⌊(n : Rat) * f⌋.toNat
  | none, some s => some s.toNat
  | none, none => none

/-- The documented ranges of the arguments. -/
def InRange (frac : Option Rat) (size : Option Int) : Prop :=
  (∀ f, frac = some f → 0 < f ∧ f < 1) ∧ (∀ s, size = some s → 0 < s)

/-- C09, the true part: for arguments in the documented ranges accepted by the constructor, train
is the first `k` points, test the `m` points directly after it (all remaining points when no test
argument is given), where `k`, `m` are the requested numbers.  Missing for the full claim: arguments
out of range are not rejected (`C09_out_of_range_rejected_violated`). -/
theorem C09_train_prefix_test_next_partial {V : Type} (srt : TimeSort V) (ts : TSD V)
    (hts : ts.rows.Pairwise (fun a b => a.1 < b.1))
    (trf tef : Option Rat) (trs tes : Option Int) (p : SDP)
    (hinit : SDP.init trf tef trs tes = .ok p)
    (htr : InRange trf trs) (hte : InRange tef tes) :
    ∃ k fold, wanted ts.rows.length trf trs = some k ∧ p.split srt ts = .ok fold
      ∧ fold.train.rows = ts.rows.take k
      ∧ fold.test.rows = match wanted ts.rows.length tef tes with
          | some m => (ts.rows.drop k).take m
          | none => ts.rows.drop k := by
  have hp : p = ⟨trf, tef, trs, tes⟩ ∧ (trf.isNone && trs.isNone) = false
      ∧ (trf.isSome && trs.isSome) = false ∧ (tef.isSome && tes.isSome) = false := by
    cases trf <;> cases trs <;> cases tef <;> cases tes <;>
      simp_all [SDP.init, sdpParamCheck, pure, Except.pure, bind, Except.bind, throw,
        throwThe, MonadExceptOf.throw]
  obtain ⟨rfl, h1, h2, h3⟩ := hp
  -- the number of training points
  obtain ⟨k, hk, hk'⟩ : ∃ k : Nat, wanted ts.rows.length trf trs = some k ∧
      (if truthyRat trf then trf.map (dpAbsSize ts.rows.length) else trs) = some (k : Int) := by
    cases trf with
    | some f =>
      have hf := htr.1 f rfl
      refine ⟨_, rfl, ?_⟩
      have : truthyRat (some f) = true := by simp [truthyRat, ne_of_gt hf.1]
      simp [this, dpAbsSize_eq _ f (le_of_lt hf.1)]
    | none =>
      cases trs with
      | none => simp at h1
      | some s =>
        have hs := htr.2 s rfl
        refine ⟨s.toNat, rfl, ?_⟩
        simp [truthyRat]; omega
  have fin : ∀ e : Nat,
      (ts.sliceO srt none (some (k : Int))).rows = ts.rows.take k
      ∧ (ts.sliceO srt (some (k : Int)) (some (e : Int))).rows = (ts.rows.drop k).take (e - k) := by
    intro e
    constructor
    · show (ts.slice srt ((0 : Nat) : Int) (k : Int)).rows = _
      rw [slice_strict srt ts hts, pySlice_nat]; simp
    · show (ts.slice srt (k : Int) (e : Int)).rows = _
      rw [slice_strict srt ts hts, pySlice_nat]
  unfold SDP.split
  simp only [hk']
  cases tef with
  | some f =>
    have hf := hte.1 f rfl
    have ht : truthyRat (some f) = true := by simp [truthyRat, ne_of_gt hf.1]
    have hsz := dpAbsSize_eq ts.rows.length f (le_of_lt hf.1)
    have := fin (⌊(ts.rows.length : Rat) * f⌋.toNat + k)
    refine ⟨k, _, hk, by simp only [ht, if_true]; rfl, this.1, ?_⟩
    show (ts.sliceO srt (some (k : Int)) (some (dpAbsSize ts.rows.length f + k))).rows = _
    rw [hsz, ← Nat.cast_add, this.2]
    simp [wanted]
  | none =>
    have ht : truthyRat none = false := rfl
    cases tes with
    | some s =>
      have hs := hte.2 s rfl
      have ht' : truthyInt (some s) = true := by simp [truthyInt, ne_of_gt hs]
      have := fin (s.toNat + k)
      refine ⟨k, _, hk, by simp only [ht, ht', Bool.false_eq_true, if_false, if_true]; rfl,
        this.1, ?_⟩
      show (ts.sliceO srt (some (k : Int)) (some (s + k))).rows = _
      have e : s + (k : Int) = ((s.toNat + k : Nat) : Int) := by omega
      rw [e, this.2]
      simp [wanted]
    | none =>
      have ht' : truthyInt none = false := rfl
      have := fin ts.rows.length
      refine ⟨k, _, hk, by simp only [ht, ht', Bool.false_eq_true, if_false]; rfl, this.1, ?_⟩
      show (ts.sliceO srt (some (k : Int)) (some (ts.rows.length : Int))).rows = _
      rw [this.2]
      simp only [wanted]
      exact List.take_of_length_le (by simp)

/-- C09: without a test argument train and test together are the whole series. -/
theorem C09_whole_series_partial {V : Type} (srt : TimeSort V) (ts : TSD V)
    (hts : ts.rows.Pairwise (fun a b => a.1 < b.1)) (trf : Option Rat) (trs : Option Int) (p : SDP)
    (hinit : SDP.init trf none trs none = .ok p) (htr : InRange trf trs) :
    ∃ fold, p.split srt ts = .ok fold ∧ fold.train.rows ++ fold.test.rows = ts.rows := by
  obtain ⟨k, fold, _, h2, h3, h4⟩ := C09_train_prefix_test_next_partial srt ts hts trf none trs
    none p hinit htr ⟨by simp, by simp⟩
  exact ⟨fold, h2, by rw [h3, h4]; simp [wanted]⟩

/-- C09: missing or conflicting size arguments are rejected with `ValueError`, and nothing else
is. -/
theorem C09_rejects_iff (trf tef : Option Rat) (trs tes : Option Int) :
    SDP.init trf tef trs tes = .error .valueError ↔
      (trf = none ∧ trs = none) ∨ (trf ≠ none ∧ trs ≠ none) ∨ (tef ≠ none ∧ tes ≠ none) := by
  cases trf <;> cases trs <;> cases tef <;> cases tes <;>
    simp [SDP.init, sdpParamCheck, pure, Except.pure, bind, Except.bind, throw,
        throwThe, MonadExceptOf.throw]

/-- C09 is violated: `train_frac=0` (documented as outside the range) is accepted, and then both
train and test are the entire series. -/
theorem C09_out_of_range_rejected_violated {V : Type} (srt : TimeSort V) (ts : TSD V)
    (hts : ts.rows.Pairwise (fun a b => a.1 < b.1)) :
    ∃ p fold, SDP.init (some 0) none none none = .ok p ∧ p.split srt ts = .ok fold
      ∧ fold.train.rows = ts.rows ∧ fold.test.rows = ts.rows := by
  have h : (ts.slice srt ((0 : Nat) : Int) ((ts.rows.length : Nat) : Int)).rows = ts.rows := by
    rw [slice_strict srt ts hts, pySlice_nat]; simp
  exact ⟨⟨some 0, none, none, none⟩, ⟨ts.sliceO srt none none,
    ts.sliceO srt none (some ts.rows.length)⟩, rfl, rfl, h, h⟩

example : ∃ p, SDP.init (some (4/5)) none none (some 2) = .ok p := ⟨_, rfl⟩
example : InRange (some (4/5)) none ∧ InRange none (some 2) := by
  constructor
  · exact ⟨fun f hf => by injection hf with hf; subst hf; norm_num, by simp⟩
  · exact ⟨by simp, fun s hs => by injection hs with hs; omega⟩

/-! ## C10 -/

/-- C10: on a series in time order, train consists of exactly the points with
`train_start ≤ t ≤ train_end` and test of exactly those with `test_start ≤ t ≤ test_end`, in time
order (literally the filtered list when no time is repeated). -/
theorem C10_closed_windows {V : Type} (srt : TimeSort V) (p : STDP) (ts : TSD V)
    (hts : ts.rows.Pairwise (fun a b => a.1 ≤ b.1)) :
    let tr := ts.rows.filter (fun r => decide (p.train_start ≤ r.1 ∧ r.1 ≤ p.train_end))
    let te := ts.rows.filter (fun r => decide (p.test_start ≤ r.1 ∧ r.1 ≤ p.test_end))
    let fold := p.split srt ts
    fold.train.rows.Perm tr ∧ fold.test.rows.Perm te
    ∧ fold.train.rows.Pairwise (fun a b => a.1 ≤ b.1)
    ∧ fold.test.rows.Pairwise (fun a b => a.1 ≤ b.1)
    ∧ (ts.rows.Pairwise (fun a b => a.1 < b.1) → fold.train.rows = tr ∧ fold.test.rows = te) := by
  intro tr te fold
  refine ⟨?_, ?_, slice_sorted _ _ _ _, slice_sorted _ _ _ _, ?_⟩
  · refine (slice_perm srt ts _ _).trans ?_
    rw [search_slice _ hts]
  · refine (slice_perm srt ts _ _).trans ?_
    rw [search_slice _ hts]
  · intro hs
    constructor
    · refine (slice_strict srt ts hs _ _).trans ?_
      rw [search_slice _ hts]
    · refine (slice_strict srt ts hs _ _).trans ?_
      rw [search_slice _ hts]

/-- C10: if `train_end < test_start`, every train point is earlier than every test point. -/
theorem C10_no_overlap {V : Type} (srt : TimeSort V) (p : STDP) (ts : TSD V)
    (hts : ts.rows.Pairwise (fun a b => a.1 ≤ b.1)) (h : p.train_end < p.test_start) :
    ∀ a ∈ (p.split srt ts).train.rows, ∀ b ∈ (p.split srt ts).test.rows, a.1 < b.1 := by
  obtain ⟨h1, h2, _⟩ := C10_closed_windows srt p ts hts
  intro a ha b hb
  have ha' := (List.mem_filter.1 ((h1.mem_iff).1 ha)).2
  have hb' := (List.mem_filter.1 ((h2.mem_iff).1 hb)).2
  simp only [decide_eq_true_eq] at ha' hb'
  omega

/-- C10: the constructor accepts exactly windows with `start < end`; a missing start or end is the
smallest or largest time stamp, so nothing is cut off there. -/
theorem C10_accepts_iff (tmin tmax train_end test_start : Int) (train_start test_end : Option Int) :
    (∃ p, STDP.init tmin tmax train_end test_start train_start test_end = .ok p
        ∧ p.train_start = train_start.getD tmin ∧ p.train_end = train_end
        ∧ p.test_start = test_start ∧ p.test_end = test_end.getD tmax)
      ↔ train_start.getD tmin < train_end ∧ test_start < test_end.getD tmax := by
  unfold STDP.init
  dsimp only
  constructor
  · rintro ⟨p, hp, _⟩
    split_ifs at hp with h1 h2
    omega
  · rintro ⟨h1, h2⟩
    rw [if_neg (by omega), if_neg (by omega)]
    exact ⟨_, rfl, rfl, rfl, rfl, rfl⟩

example : ([(1, "a"), (2, "b"), (2, "c"), (4, "d")] : List (Row String)).Pairwise
    (fun a b => a.1 ≤ b.1) := by decide

/-! ## C11 -/

/-- C11: every accepted configuration with at least one fold splits into exactly `expanding_steps`
folds given by offsets `o`: train is `rows[o .. o+tr)` (constant size) or `rows[0 .. o+tr)`, test is
`rows[o+tr+w .. o+tr+w+te)`, all inside the series, where `tr`, `te`, `w` are the rounded down sizes.
Offsets start at 0, never decrease, have steps differing by at most one, and with two or more folds
the last test block ends at the last point. -/
theorem C11_rolling_folds {V : Type} (srt : TimeSort V) (ts : TSD V)
    (hts : ts.rows.Pairwise (fun a b => a.1 < b.1)) (q p : RODP) (hinit : RODP.init q = .ok p)
    (k : Nat) (hk : p.expanding_steps = (k : Int)) (hk1 : 1 ≤ k) :
    let n := ts.rows.length
    let tr := ⌊(n : Rat) * q.start_train_frac⌋.toNat
    let te := ⌊(n : Rat) * q.test_frac⌋.toNat
    let w := ⌊(n : Rat) * q.window_frac⌋.toNat
    ∃ (off : Nat → Nat) (folds : List (Fold V)), p.split srt ts = .ok folds
      ∧ folds.length = k
      ∧ off 0 = 0
      ∧ (∀ i j, i ≤ j → off i ≤ off j)
      ∧ (∃ d, ∀ i, i + 1 < k → off (i + 1) = off i + d ∨ off (i + 1) = off i + d + 1)
      ∧ (2 ≤ k → off (k - 1) + tr + w + te = n)
      ∧ ∀ i, ∀ h : i < folds.length,
          off i + tr + w + te ≤ n
          ∧ folds[i].train.rows = (if q.constant_train_size then (ts.rows.drop (off i)).take tr
              else ts.rows.take (off i + tr))
          ∧ folds[i].test.rows = (ts.rows.drop (off i + tr + w)).take te := by
  intro n tr te w
  -- acceptance
  have hq : p = q ∧ 0 ≤ q.start_train_frac ∧ 0 ≤ q.test_frac ∧ 0 ≤ q.window_frac
      ∧ q.start_train_frac + q.test_frac + q.window_frac ≤ 1 := by
    unfold RODP.init at hinit
    split_ifs at hinit with c1 c2 c3 c4 c5
    injection hinit with hinit
    rw [not_or, not_lt, not_lt] at c1 c2 c3
    exact ⟨hinit.symm, c1.1, c2.1, c3.1, not_lt.1 c4⟩
  obtain ⟨rfl, f1, f2, f3, fs⟩ := hq
  have e1 : dpAbsSize n p.start_train_frac = (tr : Int) := dpAbsSize_eq n _ f1
  have e2 : dpAbsSize n p.test_frac = (te : Int) := dpAbsSize_eq n _ f2
  have e3 : dpAbsSize n p.window_frac = (w : Int) := dpAbsSize_eq n _ f3
  have hsum : tr + te + w ≤ n := by
    have b : ∀ f : Rat, 0 ≤ f → ((⌊(n : Rat) * f⌋.toNat : Nat) : Rat) ≤ n * f := by
      intro f hf
      have h0 : 0 ≤ ⌊(n : Rat) * f⌋ := Int.floor_nonneg.2 (by positivity)
      have h1 : ((⌊(n : Rat) * f⌋.toNat : Nat) : Int) = ⌊(n : Rat) * f⌋ := Int.toNat_of_nonneg h0
      have h2 : ((⌊(n : Rat) * f⌋.toNat : Nat) : Rat) = ((⌊(n : Rat) * f⌋ : Int) : Rat) := by
        exact_mod_cast congrArg (fun z : Int => (z : Rat)) h1
      rw [h2]; exact Int.floor_le _
    have h1 := b _ f1
    have h2 := b _ f2
    have h3 := b _ f3
    have hn : (0 : Rat) ≤ n := by positivity
    have hle : ((tr + te + w : Nat) : Rat) ≤ (n : Rat) := by
      push_cast
      calc (tr : Rat) + te + w ≤ n * p.start_train_frac + n * p.test_frac + n * p.window_frac := by
            linarith
        _ = n * (p.start_train_frac + p.test_frac + p.window_frac) := by ring
        _ ≤ n * 1 := mul_le_mul_of_nonneg_left fs hn
        _ = n := mul_one _
    exact_mod_cast hle
  set E : Nat := n - tr - te - w with hE
  have hEI : (n : Int) - tr - te - w = (E : Int) := by omega
  -- offsets
  let off : Nat → Nat := fun i => if k = 1 then 0 else i * E / (k - 1)
  have hlin : linspaceInt ((n : Int) - tr - te - w) p.expanding_steps
      = .ok ((List.range k).map fun i => ((off i : Nat) : Int)) := by
    unfold linspaceInt
    rw [hk, if_neg (by omega), hEI]
    by_cases h1 : k = 1
    · subst h1; simp [off]
    · rw [if_neg (by omega)]
      simp only [Int.toNat_natCast, off, if_neg h1]
      congr 1
      apply List.map_congr_left
      intro i _
      have : ((k : Int) - 1) = ((k - 1 : Nat) : Int) := by omega
      rw [this]; push_cast; rfl
  have hmono : ∀ i j, i ≤ j → off i ≤ off j := by
    intro i j hij
    simp only [off]
    split
    · exact le_refl _
    · exact Nat.div_le_div_right (Nat.mul_le_mul_right _ hij)
  have hle : ∀ i, i < k → off i ≤ E := by
    intro i hi
    simp only [off]
    split
    · omega
    · rename_i h1
      have hi' : i ≤ k - 1 := by omega
      calc i * E / (k - 1) ≤ (k - 1) * E / (k - 1) :=
            Nat.div_le_div_right (Nat.mul_le_mul_right _ hi')
        _ = E := Nat.mul_div_cancel_left _ (by omega)
  refine ⟨off, (List.range k).map (fun i =>
    ⟨if p.constant_train_size then ts.slice srt (off i : Nat) ((off i : Nat) + tr)
      else ts.slice srt 0 ((off i : Nat) + tr),
     ts.slice srt ((off i : Nat) + tr + w) ((off i : Nat) + tr + te + w)⟩), ?_, by simp, ?_, hmono,
    ?_, ?_, ?_⟩
  · have hd : dpAbsSize ts.rows.length p.start_train_frac = (tr : Int) := e1
    have hd2 : dpAbsSize ts.rows.length p.test_frac = (te : Int) := e2
    have hd3 : dpAbsSize ts.rows.length p.window_frac = (w : Int) := e3
    have hl : linspaceInt ((ts.rows.length : Int) - tr - te - w) p.expanding_steps
      = .ok ((List.range k).map fun i => ((off i : Nat) : Int)) := hlin
    simp only [RODP.split, hd, hd2, hd3, hl, bind, Except.bind, pure, Except.pure, List.map_map]
    rfl
  · simp [off]
  · refine ⟨E / (k - 1), fun i hi => ?_⟩
    have h1 : k ≠ 1 := by omega
    simp only [off, if_neg h1]
    have := floor_step (E : Int) (k - 1) i (by omega)
    have c1 : (((i + 1) * E / (k - 1) : Nat) : Int) = ((i : Int) + 1) * E / ((k - 1 : Nat) : Int) := by
      push_cast; rfl
    have c2 : ((i * E / (k - 1) : Nat) : Int) = (i : Int) * E / ((k - 1 : Nat) : Int) := by
      push_cast; rfl
    have c3 : ((E / (k - 1) : Nat) : Int) = (E : Int) / ((k - 1 : Nat) : Int) := by
      push_cast; rfl
    rw [← c1, ← c2, ← c3] at this
    omega
  · intro h2
    have h1 : k ≠ 1 := by omega
    simp only [off, if_neg h1]
    rw [Nat.mul_div_cancel_left _ (by omega)]
    omega
  · intro i hi
    have hi' : i < k := by simpa using hi
    have hb := hle i hi'
    simp only [List.getElem_map, List.getElem_range]
    refine ⟨by omega, ?_, ?_⟩
    · split
      · have : ((off i : Nat) : Int) + (tr : Int) = ((off i + tr : Nat) : Int) := by push_cast; rfl
        rw [this, slice_strict srt ts hts, pySlice_nat]
        congr 1; omega
      · have : ((off i : Nat) : Int) + (tr : Int) = ((off i + tr : Nat) : Int) := by push_cast; rfl
        rw [this, slice_strict srt ts hts, show (0 : Int) = ((0 : Nat) : Int) from rfl, pySlice_nat]
        simp
    · have c1 : ((off i : Nat) : Int) + (tr : Int) + (w : Int) = ((off i + tr + w : Nat) : Int) := by
        push_cast; rfl
      have c2 : ((off i : Nat) : Int) + (tr : Int) + (te : Int) + (w : Int)
          = ((off i + tr + w + te : Nat) : Int) := by push_cast; ring
      rw [c1, c2, slice_strict srt ts hts, pySlice_nat]
      congr 1; omega

/-- C11: the fraction checks; a non-positive number of folds is not among the rejections. -/
theorem C11_accepts_iff (q : RODP) :
    (∃ p, RODP.init q = .ok p) ↔
      (0 ≤ q.start_train_frac ∧ q.start_train_frac ≤ 1) ∧ (0 ≤ q.test_frac ∧ q.test_frac ≤ 1)
      ∧ (0 ≤ q.window_frac ∧ q.window_frac ≤ 1)
      ∧ q.start_train_frac + q.test_frac + q.window_frac ≤ 1
      ∧ ¬(q.start_train_frac + q.test_frac + q.window_frac = 1 ∧ q.expanding_steps > 1) := by
  unfold RODP.init
  constructor
  · rintro ⟨p, hp⟩
    split_ifs at hp with c1 c2 c3 c4 c5
    rw [not_or, not_lt, not_lt] at c1 c2 c3
    exact ⟨c1, c2, c3, not_lt.1 c4, c5⟩
  · rintro ⟨c1, c2, c3, c4, c5⟩
    rw [if_neg (by rw [not_or, not_lt, not_lt]; exact c1),
      if_neg (by rw [not_or, not_lt, not_lt]; exact c2),
      if_neg (by rw [not_or, not_lt, not_lt]; exact c3), if_neg (not_lt.2 c4), if_neg c5]
    exact ⟨_, rfl⟩

example : ∃ p, RODP.init ⟨1/2, 1/5, 1/10, 3, true⟩ = .ok p ∧ p.expanding_steps = ((3 : Nat) : Int) := by
  refine ⟨⟨1/2, 1/5, 1/10, 3, true⟩, ?_, rfl⟩
  simp only [RODP.init]
  norm_num

/-! ## C12 -/

/-- C12 is violated: a `max_core` above the number of cores is not capped, the attribute stays
unset; and `max_core = cores` is rejected although the message allows it. -/
theorem C12_max_core_violated :
    (∀ (total : Nat) (mc : Int), (total : Int) < mc → dpMaxCore total true (some mc) = .ok none)
    ∧ (∀ total : Nat, dpMaxCore total true (some (total : Int)) = .error .valueError) := by
  constructor
  · intro total mc h
    simp only [dpMaxCore, if_true]
    rw [if_neg (by omega), if_pos (by omega)]
  · intro total
    simp only [dpMaxCore, if_true]
    rw [if_neg (by omega), if_neg (by omega)]

/-- C12, the true part: `max_core` in `[1, cores)` is used as given, `None` gives a number in
`[1, cores]`, non-positive numbers are rejected, and without multiprocessing it is 1.  Missing:
`max_core ≥ cores`. -/
theorem C12_max_core_partial (total : Nat) (htotal : 1 ≤ total) :
    (∀ mc : Int, 1 ≤ mc → mc < total → dpMaxCore total true (some mc) = .ok (some mc))
    ∧ (∃ c, dpMaxCore total true none = .ok (some c) ∧ 1 ≤ c ∧ c ≤ total)
    ∧ (∀ mc : Int, mc ≤ 0 → dpMaxCore total true (some mc) = .error .valueError)
    ∧ (∀ mc, dpMaxCore total false mc = .ok (some 1)) := by
  refine ⟨?_, ?_, ?_, fun _ => rfl⟩
  · intro mc h1 h2
    simp only [dpMaxCore, if_true]
    rw [if_pos ⟨by omega, h2⟩]
  · refine ⟨_, rfl, le_max_right _ _, ?_⟩
    omega
  · intro mc h
    simp only [dpMaxCore, if_true]
    rw [if_neg (by omega), if_neg (by omega)]

/-- C12: the backtesters' own core check always yields a number in `[1, cores]`. -/
theorem C12_backtester_core_bounds (total : Nat) (htotal : 1 ≤ total) (mc : Option Int) :
    1 ≤ btMaxCore total mc ∧ btMaxCore total mc ≤ total := by
  unfold btMaxCore
  cases mc with
  | none => exact ⟨by simp, by simp; omega⟩
  | some m =>
    dsimp only
    split
    · omega
    · exact ⟨by simp, by simp; omega⟩

example : (1 : Nat) ≤ 8 := by omega

/-! ## C13 -/

/-- C13: splitting a dictionary gives `split_num` folds; fold `i` holds under each key exactly
fold `i` of splitting that series alone, with or without multiprocessing and whatever order the
workers finish in (`schedule` names every task). -/
theorem C13_dict_regroup {K S A : Type} (multi : Bool) (schedule : List Nat)
    (single : S → List (A × A)) (split_num : Nat) (data : List (K × S))
    (hsch : ∀ i < data.length, i ∈ schedule)
    (hlen : ∀ e ∈ data, (single e.2).length = split_num) :
    ∃ res, splitDict multi schedule single split_num data = .ok res ∧ res.length = split_num
      ∧ ∀ i (hi : i < res.length),
          List.Forall₂ (fun e o => o.1 = e.1 ∧ ((single e.2)[i]?).map Prod.fst = some o.2)
            data res[i].1
          ∧ List.Forall₂ (fun e o => o.1 = e.1 ∧ ((single e.2)[i]?).map Prod.snd = some o.2)
            data res[i].2 := by
  have hraw : splitDict multi schedule single split_num data
      = regroupDict split_num (data.map fun e => (e.1, single e.2)) := by
    unfold splitDict
    cases multi with
    | false => rfl
    | true =>
      simp only [if_true]
      have h := slots_mapM (data.map fun e => (e.1, single e.2))
      rw [List.map_map] at h
      rw [starmap_eq _ _ _ hsch]
      exact congrArg (fun x => x >>= regroupDict split_num) h
  rw [hraw]
  unfold regroupDict
  refine mapM_range_ok (fun i (r : List (K × A) × List (K × A)) =>
    List.Forall₂ (fun e o => o.1 = e.1 ∧ ((single e.2)[i]?).map Prod.fst = some o.2) data r.1
    ∧ List.Forall₂ (fun e o => o.1 = e.1 ∧ ((single e.2)[i]?).map Prod.snd = some o.2) data r.2)
    _ _ ?_
  intro i hi
  have hb : ∀ e ∈ data.map (fun e => (e.1, single e.2)), i < e.2.length := by
    intro e he
    obtain ⟨d, hd, rfl⟩ := List.mem_map.1 he
    dsimp only
    rw [hlen d hd]; exact hi
  obtain ⟨o1, h1, h1'⟩ := pickFold_mapM Prod.fst i _ hb
  obtain ⟨o2, h2, h2'⟩ := pickFold_mapM Prod.snd i _ hb
  refine ⟨(o1, o2), by rw [h1, h2]; rfl, ?_, ?_⟩
  · exact List.forall₂_map_left_iff.1 h1'
  · exact List.forall₂_map_left_iff.1 h2'

/-- C13: splitting a list of series gives `split_num` folds; entry `j` of fold `i` is exactly fold
`i` of splitting series `j` alone, in list order. -/
theorem C13_list_regroup {S A : Type} (multi : Bool) (schedule : List Nat)
    (single : S → List (A × A)) (split_num : Nat) (data : List S)
    (hsch : ∀ i < data.length, i ∈ schedule)
    (hlen : ∀ s ∈ data, (single s).length = split_num) :
    ∃ res, splitList multi schedule single split_num data = .ok res ∧ res.length = split_num
      ∧ ∀ i (hi : i < res.length),
          List.Forall₂ (fun s o => ((single s)[i]?).map Prod.fst = some o) data res[i].1
          ∧ List.Forall₂ (fun s o => ((single s)[i]?).map Prod.snd = some o) data res[i].2 := by
  have hkl : (List.range data.length).length = data.length := by simp
  obtain ⟨r, h1, h2, h3⟩ := C13_dict_regroup multi schedule single split_num
    ((List.range data.length).zip data) (by intro i hi; exact hsch i (by simpa using hi))
    (by intro e he; exact hlen e.2 (List.of_mem_zip he).2)
  unfold splitList
  dsimp only
  rw [h1]
  have hnd : (List.range data.length).Nodup := List.nodup_range
  obtain ⟨res, m1, m2⟩ := mapM_mem_ok
    (fun f o => o.1 = f.1.map (·.2) ∧ o.2 = f.2.map (·.2))
    (fun f : List (Nat × A) × List (Nat × A) => do
      let tr ← dictToList (List.range data.length) f.1
      let te ← dictToList (List.range data.length) f.2
      return (tr, te)) r (by
      intro f hf
      obtain ⟨i, hi, rfl⟩ := List.getElem_of_mem hf
      obtain ⟨a1, a2⟩ := h3 i hi
      have b1 := forall₂_zip_range (fun s o => ((single s)[i]?).map Prod.fst = some o) _ _ _ a1 hkl
      have b2 := forall₂_zip_range (fun s o => ((single s)[i]?).map Prod.snd = some o) _ _ _ a2 hkl
      refine ⟨(r[i].1.map (·.2), r[i].2.map (·.2)), ?_, rfl, rfl⟩
      rw [dictToList_self _ _ b1.1 hnd, dictToList_self _ _ b2.1 hnd]
      rfl)
  have hlr := m2.length_eq
  refine ⟨res, m1, by omega, ?_⟩
  intro i hi
  obtain ⟨a1, a2⟩ := h3 i (by omega)
  have b1 := forall₂_zip_range (fun s o => ((single s)[i]?).map Prod.fst = some o) _ _ _ a1 hkl
  have b2 := forall₂_zip_range (fun s o => ((single s)[i]?).map Prod.snd = some o) _ _ _ a2 hkl
  have hm := List.Forall₂.get m2 (i := i) (by omega) hi
  simp only [List.get_eq_getElem] at hm
  rw [hm.1, hm.2]
  exact ⟨b1.2, b2.2⟩

/-- two series, two folds each, workers finishing in reverse order -/
example : splitList true [1, 0] (fun n : Nat => [(n, n + 1), (n + 2, n + 3)]) 2 [10, 20]
    = .ok [([10, 20], [11, 21]), ([12, 22], [13, 23])] := by rfl

end Kats
