import Verif.Lemmas.TimeSeries

/-!
# Properties of `TimeSeriesData` (C01 - C08)
-/

namespace Kats

/-! ## C01 -/

/-- C01: building from a non-empty table with default arguments gives exactly the input rows (each
as often as given) in non-decreasing time order, whatever sort routine pandas uses. -/
theorem C01_construct_sorted_perm {V : Type} (srt : TimeSort V) (rows : List (Row V))
    (hne : rows ≠ []) :
    ∃ out, construct srt { df := some ⟨true, true, rows⟩, time := none, value := none } = .ok out
      ∧ out.Perm rows ∧ out.Pairwise (fun a b => a.1 ≤ b.1) := by
  refine ⟨srt.run rows, ?_, srt.perm rows, srt.sorted rows⟩
  simp [construct, hne, buildRows, sortByTime]

/-- C01: with `drop_duplicate_time=True`, for every time stamp exactly the first input row of that
stamp survives, and the times are strictly increasing. -/
theorem C01_drop_duplicates_first {V : Type} (srt : TimeSort V) (rows : List (Row V))
    (hne : rows ≠ []) :
    ∃ out, construct srt { df := some ⟨true, true, rows⟩, time := none, value := none,
                           drop_duplicate_time := true } = .ok out
      ∧ (∀ t, out.filter (fun r => r.1 == t) = (rows.filter (fun r => r.1 == t)).take 1)
      ∧ out.Pairwise (fun a b => a.1 < b.1) := by
  refine ⟨srt.run (dropDupTime [] rows), ?_, ?_, ?_⟩
  · simp [construct, hne, buildRows, sortByTime]
  · intro t
    have h1 := (srt.perm (dropDupTime [] rows)).filter (fun r => r.1 == t)
    have h2 := dropDup_filter t rows []
    simp only [List.not_mem_nil, if_false] at h2
    rw [h2] at h1
    have hl : ((rows.filter (fun r => r.1 == t)).take 1).length ≤ 1 := by simp
    generalize (rows.filter (fun r => r.1 == t)).take 1 = s at *
    match s, hl with
    | [], _ => exact List.perm_nil.1 h1
    | [x], _ => exact List.perm_singleton.1 h1
  · have hne' : (srt.run (dropDupTime [] rows)).Pairwise (fun a b => a.1 ≠ b.1) :=
      ((srt.perm _).pairwise_iff (fun {a b} hab => hab.symm)).2 (dropDup_nodup rows [])
    exact ((srt.sorted _).and hne').imp (fun {a b} hab => lt_of_le_of_ne hab.1 hab.2)

example : ([(3, 10), (1, 20), (3, 30)] : List (Row Nat)) ≠ [] := by simp
/-- a table with a duplicate time, through a concrete sort -/
example : dropDupTime [] ([(3, 10), (1, 20), (3, 30)] : List (Row Nat)) = [(3, 10), (1, 20)] := by
  decide

/-! ## C02 -/

/-- C02: construction from `time` and `value` succeeds exactly when both are empty, or both are
non-empty, of the same length and numeric. -/
theorem C02_time_value_accepted_iff {V : Type} (srt : TimeSort V) (t : List Int) (v : List V)
    (numeric sortFlag dropFlag : Bool) :
    (∃ out, construct srt { df := none, time := some t, value := some (v, numeric),
                            sort_by_time := sortFlag, drop_duplicate_time := dropFlag } = .ok out)
      ↔ (t = [] ∧ v = []) ∨ (t ≠ [] ∧ t.length = v.length ∧ numeric = true) := by
  unfold construct
  cases t with
  | nil => cases v <;> simp
  | cons a t =>
    cases v with
    | nil => simp
    | cons b v =>
      by_cases hl : t.length = v.length
      · cases numeric <;> simp [hl]
      · cases numeric <;> simp [hl]

/-- C02: what the other argument combinations do, and that every rejection is a `ValueError`. -/
theorem C02_other_arguments {V : Type} (srt : TimeSort V) :
    (∀ a : CtorArgs V, a.df = none → a.time = none → a.value = none →
        construct srt a = .ok [])
    ∧ (∀ a : CtorArgs V, a.df = none → (a.time = none ↔ a.value ≠ none) →
        construct srt a = .error .valueError)
    ∧ (∀ (a : CtorArgs V) (d : DfArg V), a.df = some d → d.rows ≠ [] → d.hasTimeCol = false →
        construct srt a = .error .valueError)
    ∧ (∀ (a : CtorArgs V) (d : DfArg V), a.df = some d → d.rows = [] →
        construct srt a = .ok [])
    ∧ (∀ (a : CtorArgs V) (e : Err), construct srt a = .error e → e = .valueError) := by
  refine ⟨?_, ?_, ?_, ?_, ?_⟩
  · intro a h1 h2 h3; simp [construct, h1, h2, h3]
  · intro a h1 h2
    cases ht : a.time with
    | none =>
      cases hv : a.value with
      | none => simp [ht, hv] at h2
      | some v => simp [construct, h1, ht, hv]
    | some t =>
      cases hv : a.value with
      | none => simp [construct, h1, ht, hv]
      | some v => simp [ht, hv] at h2
  · intro a d h1 h2 h3; simp [construct, h1, h2, h3]
  · intro a d h1 h2; simp [construct, h1, h2]
  · intro a e h
    unfold construct at h
    split at h
    · split_ifs at h <;> simp_all
    · split at h
      · split_ifs at h <;> simp_all
      · simp at h
      · simp_all

/-- C02: on success the constructed rows are the given time/value pairs, in time order. -/
theorem C02_time_value_result {V : Type} (srt : TimeSort V) (t : List Int) (v : List V)
    (hl : t.length = v.length) :
    ∃ out, construct srt { df := none, time := some t, value := some (v, true) } = .ok out
      ∧ out.Perm (t.zip v) ∧ out.Pairwise (fun a b => a.1 ≤ b.1) := by
  cases t with
  | nil =>
    have : v = [] := by simpa using hl.symm
    exact ⟨[], by simp [construct, this], by simp, by simp⟩
  | cons a t =>
    cases v with
    | nil => simp at hl
    | cons b v =>
      have hl' : t.length = v.length := by simpa using hl
      refine ⟨srt.run ((a :: t).zip (b :: v)), ?_, srt.perm _, srt.sorted _⟩
      simp [construct, hl', buildRows, sortByTime]

example : ([1, 2] : List Int).length = (["a", "b"] : List String).length := rfl

/-- C02 for a table: construction succeeds exactly when the table is empty, or has the time column and
numeric values; on success the rows are those of the table. -/
theorem C02_dataframe_accepted_iff {V : Type} (srt : TimeSort V) (a : CtorArgs V) (d : DfArg V)
    (ha : a.df = some d) :
    ((∃ out, construct srt a = .ok out) ↔
        d.rows = [] ∨ (d.hasTimeCol = true ∧ d.numeric = true))
    ∧ (a.drop_duplicate_time = false → ∀ out, construct srt a = .ok out → out.Perm d.rows) := by
  unfold construct
  rw [ha]
  dsimp only
  by_cases h0 : d.rows = []
  · simp [h0]
  · constructor
    · cases h1 : d.hasTimeCol <;> cases h2 : d.numeric <;> simp [h0]
    · intro hd out
      cases h1 : d.hasTimeCol <;> cases h2 : d.numeric <;>
        simp only [List.isEmpty_iff, h0, Bool.not_true, Bool.not_false, if_true, if_false,
          Bool.false_eq_true, reduceCtorEq, false_imp_iff, Except.ok.injEq]
      rintro rfl
      unfold buildRows sortByTime
      rw [hd]
      cases a.sort_by_time
      · simp
      · simpa using srt.perm d.rows

example : (⟨true, true, [(2, "b"), (1, "a")]⟩ : DfArg String).rows ≠ [] := by simp

/-! ## C03 -/

/-- C03 is violated: a rejected `extend` (`ValueError`) has already changed the series. -/
theorem C03_failed_extend_unchanged_violated :
    ∃ (inferFreq : List Int → Bool) (ts other : TSD Nat),
      (ts.extend inferFreq other true).2 = some .valueError
        ∧ (ts.extend inferFreq other true).1.rows ≠ ts.rows :=
  ⟨fun t => decide (t = [0, 1, 2]), ⟨[(0, 7), (1, 7)], true⟩, ⟨[(9, 7)], true⟩, by decide⟩

/-- C03, the true part: when `extend` reports no error the series holds its old points followed by
the points of the other, and `validate=False` never fails.  Missing for the full claim: the state
after a failure (it is the same concatenation, see `C03_failed_extend_unchanged_violated`). -/
theorem C03_extend_appends_partial {V : Type} (inferFreq : List Int → Bool) (ts other : TSD V) :
    (∀ validate, (ts.extend inferFreq other validate).2 = none →
        (ts.extend inferFreq other validate).1.rows = ts.rows ++ other.rows
        ∧ (ts.extend inferFreq other validate).1.sort_by_time = ts.sort_by_time)
    ∧ (ts.extend inferFreq other false).2 = none
    ∧ ((ts.extend inferFreq other true).2 = none ↔
        inferFreq (ts.rows.map (·.1) ++ other.rows.map (·.1)) = true) := by
  refine ⟨?_, ?_, ?_⟩
  · intro validate _
    unfold TSD.extend
    dsimp only
    split <;> simp
  · simp [TSD.extend]
  · unfold TSD.extend
    dsimp only
    cases h : inferFreq (List.map (fun x => x.1) ts.rows ++ List.map (fun x => x.1) other.rows)
      <;> simp [h]

example : (TSD.extend (fun _ => true) ⟨[(0, 7)], true⟩ (⟨[(1, 8)], true⟩ : TSD Nat) true).1.rows
    = [(0, 7), (1, 8)] := by decide

/-! ## C04 -/

/-- C04: `exclude(start, stop)` keeps exactly the points not in the closed range, each as often as
before, in time order for a series built with `sort_by_time`. -/
theorem C04_exclude_exact {V : Type} (srt : TimeSort V) (ts : TSD V) (start stop : Int) :
    (ts.exclude srt start stop).rows.Perm
        (ts.rows.filter (fun r => !decide (start ≤ r.1 ∧ r.1 ≤ stop)))
    ∧ (ts.sort_by_time = true →
        (ts.exclude srt start stop).rows.Pairwise (fun a b => a.1 ≤ b.1)) := by
  have hf : (fun r : Row V => decide (r.1 < start) || decide (r.1 > stop))
      = (fun r => !decide (start ≤ r.1 ∧ r.1 ≤ stop)) := by
    funext r
    rw [Bool.eq_iff_iff]
    simp only [Bool.or_eq_true, decide_eq_true_eq, Bool.not_eq_true', decide_eq_false_iff_not]
    omega
  unfold TSD.exclude buildRows sortByTime
  rw [hf]
  constructor
  · cases ts.sort_by_time
    · exact List.Perm.refl _
    · exact srt.perm _
  · intro h
    simp only [h, if_true]
    exact srt.sorted _

/-- C04: excluding the same range a second time changes nothing (the rows are the same multiset and
the time columns are equal; with distinct times the series are equal). -/
theorem C04_exclude_idempotent {V : Type} (srt : TimeSort V) (ts : TSD V) (start stop : Int) :
    let once := ts.exclude srt start stop
    let twice := once.exclude srt start stop
    twice.rows.Perm once.rows
    ∧ twice.rows.map (·.1) = once.rows.map (·.1)
    ∧ (ts.rows.Pairwise (fun a b => a.1 < b.1) → twice.rows = once.rows) := by
  intro once twice
  have hfil : once.rows.filter (fun r => decide (r.1 < start) || decide (r.1 > stop))
      = once.rows := by
    rw [List.filter_eq_self]
    intro r hr
    have := ((C04_exclude_exact srt ts start stop).1.mem_iff).1 hr
    have := (List.mem_filter.1 this).2
    simp only [Bool.or_eq_true, decide_eq_true_eq]
    simp only [Bool.not_eq_true', decide_eq_false_iff_not] at this
    omega
  have htw : twice.rows = sortByTime srt ts.sort_by_time once.rows := by
    show buildRows srt once.sort_by_time false _ = _
    rw [hfil]; rfl
  have hperm : twice.rows.Perm once.rows := by
    rw [htw]; unfold sortByTime
    cases ts.sort_by_time
    · exact List.Perm.refl _
    · exact srt.perm _
  refine ⟨hperm, ?_, ?_⟩
  · by_cases hs : ts.sort_by_time = true
    · have s1 : once.rows.Pairwise (fun a b => a.1 ≤ b.1) :=
        (C04_exclude_exact srt ts start stop).2 hs
      have s2 : twice.rows.Pairwise (fun a b => a.1 ≤ b.1) :=
        (C04_exclude_exact srt once start stop).2 hs
      exact (hperm.map _).eq_of_pairwise (fun a b _ _ => le_antisymm)
        (List.pairwise_map.2 s2) (List.pairwise_map.2 s1)
    · rw [htw]; simp [sortByTime, hs]
  · intro hlt
    rw [htw]; unfold sortByTime
    split
    · have hl : once.rows.Pairwise (fun a b => a.1 < b.1) := by
        have hfl := hlt.filter (fun r => decide (r.1 < start) || decide (r.1 > stop))
        show (buildRows srt ts.sort_by_time false _).Pairwise _
        unfold buildRows sortByTime
        cases ts.sort_by_time
        · exact hfl
        · show (srt.run (List.filter _ ts.rows)).Pairwise _
          rw [srt.run_eq_self _ hfl]; exact hfl
      exact srt.run_eq_self _ hl
    · rfl

example : (TSD.exclude (mergeTimeSort Nat) ⟨[(0, 5), (1, 6), (2, 7), (2, 8), (3, 9)], true⟩ 1 2).rows.Perm
    [(0, 5), (3, 9)] :=
  (C04_exclude_exact (mergeTimeSort Nat) ⟨[(0, 5), (1, 6), (2, 7), (2, 8), (3, 9)], true⟩ 1 2).1

/-! ## C05 -/

/-- C05 is violated for repeated time stamps: adding a two-point series to itself gives four
points. -/
theorem C05_pointwise_violated :
    ∃ (a r : Frame Int),
      performOp (mergeTimeSort _) 0 (· + ·) a (.series a) = .ok r
        ∧ r.rows.length ≠ a.rows.length := by
  let a : Frame Int := ⟨["value"], [(0, fun _ => 1), (0, fun _ => 2)]⟩
  refine ⟨a, _, rfl, ?_⟩
  show ((mergeTimeSort (String → Int)).run _).length ≠ 2
  rw [((mergeTimeSort (String → Int)).perm _).length_eq]
  decide

/-- C05, the true part: if no time is repeated, a binary operation between series with the same
times and the same columns gives a series with the times of the operands (sorted) whose value at
each time is the operation applied to the two values, for every column.  Missing for the full
claim: repeated time stamps. -/
theorem C05_pointwise_partial {Val : Type} (srt : TimeSort (String → Val)) (nan : Val)
    (op : Val → Val → Val) (a b : Frame Val)
    (htime : a.rows.map (·.1) = b.rows.map (·.1)) (hd : (a.rows.map (·.1)).Nodup)
    (hcols : a.cols = b.cols) :
    ∃ r, performOp srt nan op a (.series b) = .ok r
      ∧ r.cols = a.cols
      ∧ (r.rows.map (·.1)).Perm (a.rows.map (·.1))
      ∧ (r.rows.map (·.1)).Pairwise (· ≤ ·)
      ∧ ∀ x ∈ a.rows, ∀ y ∈ b.rows, x.1 = y.1 →
          ∃ z ∈ r.rows, z.1 = x.1 ∧ ∀ c ∈ a.cols, z.2 c = op (x.2 c) (y.2 c) := by
  refine ⟨_, by simp only [performOp, binaryOther, if_pos htime]; rfl, ?_, ?_, ?_, ?_⟩
  · have h1 : (b.cols.filter fun c => !(b.cols.contains c)) = [] := by
      rw [List.filter_eq_nil_iff]; intro c hc; simp [hc]
    have h2 : (b.cols.filter fun c => b.cols.contains c) = b.cols := by
      rw [List.filter_eq_self]; intro c hc; simp [hc]
    simp only [hcols, h1, h2, List.nil_append]
  · refine ((srt.perm _).map _).trans ?_
    rw [List.map_map]
    have : ((fun x : Row (String → Val) => x.1) ∘ fun p : Row _ =>
        (p.1, combine nan op a.cols b.cols p.2)) = fun p => p.1 := rfl
    rw [this, outerJoin_times _ _ (by intro t; rw [htime]) (by rw [← htime]; exact hd)]
  · exact List.pairwise_map.2 (srt.sorted _)
  · intro x hx y hy hxy
    have hm := mem_outerJoin a.rows b.rows x y hx hy hxy
    refine ⟨(x.1, combine nan op a.cols b.cols (some x.2, some y.2)), ?_, rfl, ?_⟩
    · exact ((srt.perm _).mem_iff).2 (List.mem_map.2 ⟨_, hm, rfl⟩)
    · intro c hc
      have hc' : c ∈ b.cols := hcols ▸ hc
      simp [combine, hc, hc']

/-- C05: with a scalar the univariate series is transformed pointwise (distinct times). -/
theorem C05_scalar_partial {Val : Type} (srt : TimeSort (String → Val)) (nan : Val)
    (op : Val → Val → Val) (a : Frame Val) (name : String) (k : Val)
    (hcols : a.cols = [name]) (hd : (a.rows.map (·.1)).Nodup) :
    ∃ r, performOp srt nan op a (.scalar k) = .ok r
      ∧ r.cols = [name]
      ∧ (r.rows.map (·.1)).Perm (a.rows.map (·.1))
      ∧ (r.rows.map (·.1)).Pairwise (· ≤ ·)
      ∧ ∀ x ∈ a.rows, ∃ z ∈ r.rows, z.1 = x.1 ∧ z.2 name = op (x.2 name) k := by
  have hlen : a.cols.length = 1 := by simp [hcols]
  refine ⟨_, by simp only [performOp, binaryOther, if_pos hlen]; rfl, ?_, ?_, ?_, ?_⟩
  · simp [hcols]
  · refine ((srt.perm _).map _).trans ?_
    rw [List.map_map]
    have : ((fun x : Row (String → Val) => x.1) ∘ fun p : Row _ =>
        (p.1, combine nan op a.cols a.cols p.2)) = fun p => p.1 := rfl
    rw [this]
    have hp : ((srt.run (a.rows.map (fun r => (r.1, fun _ => k)))).map (·.1)).Perm
        (a.rows.map (·.1)) := by
      refine ((srt.perm _).map _).trans ?_
      rw [List.map_map]; exact List.Perm.refl _
    rw [outerJoin_times _ _ (by intro t; exact (hp.mem_iff).symm) (hp.nodup_iff.2 hd)]
  · exact List.pairwise_map.2 (srt.sorted _)
  · intro x hx
    have hy : ((x.1, fun _ => k) : Row (String → Val)) ∈
        srt.run (a.rows.map (fun r => (r.1, fun _ => k))) :=
      ((srt.perm _).mem_iff).2 (List.mem_map.2 ⟨x, hx, rfl⟩)
    have hm := mem_outerJoin a.rows _ x _ hx hy rfl
    refine ⟨(x.1, combine nan op a.cols a.cols (some x.2, some fun _ => k)), ?_, rfl, ?_⟩
    · exact ((srt.perm _).mem_iff).2 (List.mem_map.2 ⟨_, hm, rfl⟩)
    · simp [combine, hcols]

/-- C05: the rejections, with their exception classes. -/
theorem C05_rejections {Val : Type} (srt : TimeSort (String → Val)) (nan : Val)
    (op : Val → Val → Val) (a : Frame Val) :
    (∀ b : Frame Val, a.rows.map (·.1) ≠ b.rows.map (·.1) →
        performOp srt nan op a (.series b) = .error .valueError)
    ∧ (∀ k, a.cols.length ≠ 1 → performOp srt nan op a (.scalar k) = .error .notImplemented)
    ∧ performOp srt nan op a .other = .error .typeError := by
  refine ⟨?_, ?_, rfl⟩
  · intro b h; simp only [performOp, binaryOther, if_neg h]; rfl
  · intro k h; simp only [performOp, binaryOther, if_neg h]; rfl

example : (([(0, fun _ => 1), (5, fun _ => 2)] : List (Row (String → Int))).map (·.1)).Nodup := by
  decide

/-! ## C06 -/

/-- `m` is the least non-NaN value of `l` (`none` when there is none). -/
def IsNanMin (l : List (Option Rat)) (m : Option Rat) : Prop :=
  (m = none ∧ ∀ x ∈ l, x = none) ∨ ∃ k, m = some k ∧ some k ∈ l ∧ ∀ x, some x ∈ l → k ≤ x

/-- `m` is the greatest non-NaN value of `l` (`none` when there is none). -/
def IsNanMax (l : List (Option Rat)) (m : Option Rat) : Prop :=
  (m = none ∧ ∀ x ∈ l, x = none) ∨ ∃ k, m = some k ∧ some k ∈ l ∧ ∀ x, some x ∈ l → x ≤ k

/-- C06: after construction from any values and any sequence of assignments and extends, `min` and
`max` are the extrema of the values currently held. -/
theorem C06_min_max_current (init : List (Option Rat)) (ops : List TSOp) :
    let s := ops.foldl TSCache.step (TSCache.calc init)
    IsNanMin s.value s.min ∧ IsNanMax s.value s.max := by
  have base : ∀ v, IsNanMin (TSCache.calc v).value (TSCache.calc v).min
      ∧ IsNanMax (TSCache.calc v).value (TSCache.calc v).max := by
    intro v
    constructor
    · show IsNanMin v (nanExt _ v)
      cases h : nanExt (fun a b => decide (a < b)) v with
      | none => exact Or.inl ⟨rfl, (nanExt_none _ v).1 h⟩
      | some k => exact Or.inr ⟨k, rfl, nanMin_spec v k h⟩
    · show IsNanMax v (nanExt _ v)
      cases h : nanExt (fun a b => decide (b < a)) v with
      | none => exact Or.inl ⟨rfl, (nanExt_none _ v).1 h⟩
      | some k => exact Or.inr ⟨k, rfl, nanMax_spec v k h⟩
  have step : ∀ (ops : List TSOp) (s : TSCache), (IsNanMin s.value s.min ∧ IsNanMax s.value s.max) →
      IsNanMin (ops.foldl TSCache.step s).value (ops.foldl TSCache.step s).min
      ∧ IsNanMax (ops.foldl TSCache.step s).value (ops.foldl TSCache.step s).max := by
    intro ops
    induction ops with
    | nil => intro s h; exact h
    | cons o ops ih =>
      intro s h
      apply ih
      cases o with
      | setValue v => exact base v
      | setTime t => exact h
      | extend o => exact base _
  exact step ops _ (base init)

/-- C06: the values held are the ones last assigned, followed by the ones extended since. -/
theorem C06_values_tracked (s : TSCache) (v o : List (Option Rat)) :
    (s.step (.setValue v)).value = v ∧ (s.step (.extend o)).value = s.value ++ o
    ∧ ∀ t, (s.step (.setTime t)).value = s.value := ⟨rfl, rfl, fun _ => rfl⟩

example : ([TSOp.extend [some 5], .setTime [1, 2]].foldl TSCache.step
    (TSCache.calc [some 3, none])).max = some 5 := by decide

/-! ## C07 -/

theorem ColIter.drain_from {C : Type} (n : Nat) : ∀ (it : ColIter C),
    it.cols.length - it.start < n →
    (ColIter.drain n it).1 = it.cols.drop it.start
    ∧ (ColIter.drain n it).2.cols = it.cols
    ∧ it.cols.length ≤ (ColIter.drain n it).2.start := by
  induction n with
  | zero => intro it h; omega
  | succ n ih =>
    intro it h
    simp only [ColIter.drain, ColIter.next]
    cases hg : it.cols[it.start]? with
    | none =>
      have := List.getElem?_eq_none_iff.1 hg
      simp [List.drop_eq_nil_of_le this, this]
    | some c =>
      obtain ⟨hlt, hc⟩ := List.getElem?_eq_some_iff.1 hg
      obtain ⟨h1, h2, h3⟩ := ih { it with start := it.start + 1 } (by dsimp only; omega)
      dsimp only at h1 h2 h3 ⊢
      refine ⟨?_, h2, h3⟩
      rw [h1, ← hc]
      exact (List.drop_eq_getElem_cons hlt).symm

/-- C07 is violated: a second `for` loop over the same iterator yields nothing. -/
theorem C07_second_iteration_violated {C : Type} (cols : List C) :
    ((ColIter.init cols).forLoop.2).forLoop.1 = [] := by
  obtain ⟨_, h2, h3⟩ := ColIter.drain_from (cols.length + 1) (ColIter.init cols) (by
    simp [ColIter.init])
  have hc : ((ColIter.init cols).forLoop.2).cols = cols := h2
  have hs : cols.length ≤ ((ColIter.init cols).forLoop.2).start := h3
  generalize (ColIter.init cols).forLoop.2 = it at *
  unfold ColIter.forLoop ColIter.iter
  rw [(ColIter.drain_from (it.cols.length + 1) it (by omega)).1, hc]
  exact List.drop_eq_nil_of_le hs

/-- C07, the true part: the first `for` loop yields every column exactly once, in order.  Missing
for the full claim: any later loop. -/
theorem C07_first_iteration_partial {C : Type} (cols : List C) :
    (ColIter.init cols).forLoop.1 = cols := by
  have := (ColIter.drain_from (cols.length + 1) (ColIter.init cols) (by simp [ColIter.init])).1
  simpa [ColIter.forLoop, ColIter.iter, ColIter.init] using this

example : ((ColIter.init ["a", "b"]).forLoop.2).forLoop.1 ≠ ["a", "b"] := by
  rw [C07_second_iteration_violated]; simp

/-! ## C08 -/

/-- How often the gap `g` occurs between neighbouring entries of `t`. -/
def gapCount (t : List Int) (g : Int) : Nat := (t.zip t.tail).countP (fun p => p.2 - p.1 == g)

/-- `f` is the smallest among the most frequent gaps between neighbours of `t`. -/
def IsMajorityGap (t : List Int) (f : Int) : Prop :=
  0 < gapCount t f ∧ ∀ g, 0 < gapCount t g →
    gapCount t g ≤ gapCount t f ∧ (gapCount t g = gapCount t f → f ≤ g)

theorem gapCount_eq_count (t : List Int) (g : Int) : gapCount t g = (diffs t).count g := by
  rw [diffs_eq_zip, List.count_eq_countP, List.countP_map]; rfl

theorem majority_of_modeMin (t : List Int) (h : 2 ≤ t.length) :
    ∃ f, modeMin (diffs t) = some f ∧ IsMajorityGap t f := by
  obtain ⟨f, h1, h2, h3⟩ := modeMin_spec (diffs t) (diffs_ne_nil t h)
  refine ⟨f, h1, ?_, ?_⟩
  · rw [gapCount_eq_count]; exact List.count_pos_iff.2 h2
  · intro g hg
    rw [gapCount_eq_count] at hg
    simp only [gapCount_eq_count]
    exact h3 g (List.count_pos_iff.1 hg)

theorem int_mergeSort_sorted (t : List Int) :
    (t.mergeSort (fun a b => decide (a ≤ b))).Pairwise (· ≤ ·) := by
  have h := List.pairwise_mergeSort (le := fun a b : Int => decide (a ≤ b))
    (by intro a b c; simp only [decide_eq_true_eq]; exact fun h1 h2 => le_trans h1 h2)
    (by intro a b; simp only [Bool.or_eq_true, decide_eq_true_eq]; exact le_total _ _) t
  exact h.imp (by intro a b; simp)

/-- C08: for at least two points, on a series whose rows are in time order or which was built with
`sort_by_time=False`, the result is the smallest of the most frequent gaps of the times listed in
ascending order (`sorted` is any ascending arrangement of the times). -/
theorem C08_majority_gap_partial {V : Type} (ts : TSD V) (h2 : 2 ≤ ts.rows.length)
    (hs : ts.sort_by_time = true → ts.rows.Pairwise (fun a b => a.1 ≤ b.1))
    (sorted : List Int) (hp : sorted.Perm (ts.rows.map (·.1))) (ho : sorted.Pairwise (· ≤ ·)) :
    ∃ f, ts.inferFreqRobust = .ok f ∧ IsMajorityGap sorted f := by
  have hlen : ¬ ts.rows.length ≤ 1 := by omega
  have hl : 2 ≤ sorted.length := by rw [hp.length_eq, List.length_map]; exact h2
  obtain ⟨f, h1, hm⟩ := majority_of_modeMin sorted hl
  refine ⟨f, ?_, hm⟩
  unfold TSD.inferFreqRobust
  rw [if_neg hlen]
  have key : (if ts.sort_by_time = true then ts.rows.map (·.1)
      else (ts.rows.map (·.1)).mergeSort (fun a b => decide (a ≤ b))) = sorted := by
    split
    · rename_i hb
      exact hp.symm.eq_of_pairwise (fun a b _ _ => le_antisymm)
        (List.pairwise_map.2 (hs hb)) ho
    · exact ((List.mergeSort_perm _ _).trans hp.symm).eq_of_pairwise
        (fun a b _ _ => le_antisymm) (int_mergeSort_sorted _) ho
  dsimp only
  rw [key, h1]

/-- C08: fewer than two points raise `ValueError`. -/
theorem C08_too_short {V : Type} (ts : TSD V) (h : ts.rows.length ≤ 1) :
    ts.inferFreqRobust = .error .valueError := by simp [TSD.inferFreqRobust, h]

/-- C08: for a series built with `sort_by_time=False` the order of the rows does not matter. -/
theorem C08_order_irrelevant {V : Type} (r1 r2 : List (Row V)) (h : r1.Perm r2) :
    (TSD.mk r1 false).inferFreqRobust = (TSD.mk r2 false).inferFreqRobust := by
  unfold TSD.inferFreqRobust
  dsimp only
  rw [h.length_eq]
  have : (r1.map (·.1)).mergeSort (fun a b => decide (a ≤ b))
      = (r2.map (·.1)).mergeSort (fun a b => decide (a ≤ b)) :=
    (((List.mergeSort_perm _ _).trans (h.map _)).trans (List.mergeSort_perm _ _).symm
      ).eq_of_pairwise (fun a b _ _ => le_antisymm) (int_mergeSort_sorted _)
      (int_mergeSort_sorted _)
  simp only [this, if_false, Bool.false_eq_true]

/-- C08 is violated for a sorted series extended by earlier points: the gap found is negative and
is not a gap of the ordered times. -/
theorem C08_after_extend_violated :
    ∃ (ts other : TSD Nat) (f : Int),
      ts.rows.Pairwise (fun a b => a.1 ≤ b.1) ∧ other.rows.Pairwise (fun a b => a.1 ≤ b.1)
      ∧ (ts.extend (fun _ => true) other true).1.inferFreqRobust = .ok f ∧ f < 0 :=
  ⟨⟨[(10, 0)], true⟩, ⟨[(3, 0)], true⟩, -7, by decide⟩

example : (TSD.mk [(0, ()), (1, ()), (2, ()), (5, ())] true).inferFreqRobust = .ok 1 := by decide

end Kats
