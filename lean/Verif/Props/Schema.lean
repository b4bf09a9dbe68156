import Verif.Model.OneSample
import Mathlib.Tactic.Linarith
import Mathlib.Tactic.NormNum

/-!
# Properties of the checks of the interval detectors (C161)
-/

namespace Kats

noncomputable section
open Classical

theorem schGet_ok {df : List SchCol} (hn : (df.map fun c => c.name).Nodup) {c : SchCol} (hc : c ∈ df) :
    schGet df c.name = .ok c := by
  unfold schGet
  have : df.find? (fun d => d.name == c.name) = some c := by
    induction df with
    | nil => cases hc
    | cons d ds ih =>
      rw [List.map_cons, List.nodup_cons] at hn
      rw [List.find?_cons]
      rcases List.mem_cons.1 hc with rfl | h
      · simp
      · have : (d.name == c.name) = false := by
          rw [beq_eq_false_iff_ne]
          exact fun e => hn.1 (e ▸ List.mem_map_of_mem h)
        rw [this]
        exact ih hn.2 h
  rw [this]

theorem schLoop_ok {bad : SchCol → Bool} {df : List SchCol} (hn : (df.map fun c => c.name).Nodup) :
    ∀ ns : List String, (∀ n ∈ ns, n ∈ df.map fun c => c.name) →
      (schLoop bad df ns = .ok () ↔ ∀ c ∈ df, c.name ∈ ns → bad c = false) ∧
      (schLoop bad df ns = .ok () ∨ schLoop bad df ns = .error .valueError) := by
  intro ns
  induction ns with
  | nil => intro _; simp [schLoop]
  | cons n ns ih =>
    intro h
    obtain ⟨c, hc, rfl⟩ := List.mem_map.1 (h n (by simp))
    obtain ⟨i1, i2⟩ := ih fun m hm => h m (List.mem_cons_of_mem _ hm)
    unfold schLoop
    rw [schGet_ok hn hc]
    dsimp only
    cases hb : bad c with
    | true =>
      rw [if_pos rfl]
      refine ⟨⟨fun h => (by cases h), fun h => ?_⟩, Or.inr rfl⟩
      have := h c hc (by simp)
      rw [hb] at this
      cases this
    | false =>
      rw [if_neg (by simp)]
      refine ⟨?_, i2⟩
      rw [i1]
      constructor
      · intro h d hd hdn
        rcases List.mem_cons.1 hdn with e | hm
        · have := schGet_ok hn hd
          rw [e, schGet_ok hn hc] at this
          injection this with this
          rw [← this, hb]
        · exact h d hd hm
      · exact fun h d hd hm => h d hd (List.mem_cons_of_mem _ hm)

theorem schAny_false {p : ℝ → Prop} {c : SchCol} :
    schAny p c = false ↔ ∀ x, some x ∈ c.vals → ¬ p x := by
  unfold schAny
  rw [List.any_eq_false]
  constructor
  · intro h x hx
    simpa using h (some x) hx
  · intro h v hv
    cases v with
    | none => simp
    | some x => simpa using h x hv

/-- What a valid frame is: every column of the schema is there, nothing is null, counts are positive
whole numbers and variances are not negative. -/
def SchValid (s : SchSpec) (df : List SchCol) : Prop :=
  (∀ n ∈ s.names, ∃ c ∈ df, c.name = n) ∧ (∀ c ∈ df, none ∉ c.vals) ∧
  (∀ c ∈ df, c.name ∈ s.positive → ∀ x, some x ∈ c.vals → 0 < x) ∧
  (∀ c ∈ df, c.name ∈ s.nonNegative → ∀ x, some x ∈ c.vals → 0 ≤ x) ∧
  (∀ c ∈ df, c.name ∈ s.integer → c.int = true)

theorem schNames_ok {names : List String} {df : List SchCol} :
    (schNames names df = .ok () ↔ ∀ n ∈ names, ∃ c ∈ df, c.name = n) ∧
    (schNames names df = .ok () ∨ schNames names df = .error .valueError) := by
  unfold schNames
  split
  · rename_i h
    simp only [List.all_eq_true, List.any_eq_true, beq_iff_eq] at h
    exact ⟨⟨fun _ => h, fun _ => rfl⟩, Or.inl rfl⟩
  · rename_i h
    simp only [List.all_eq_true, List.any_eq_true, beq_iff_eq] at h
    exact ⟨⟨fun e => (by cases e), fun e => absurd e h⟩, Or.inr rfl⟩

theorem schNull_ok {df : List SchCol} :
    (schNull df = .ok () ↔ ∀ c ∈ df, none ∉ c.vals) ∧
    (schNull df = .ok () ∨ schNull df = .error .valueError) := by
  unfold schNull
  split
  · rename_i h
    refine ⟨⟨fun e => (by cases e), fun e => ?_⟩, Or.inr rfl⟩
    simp only [List.any_eq_true, Option.isNone_iff_eq_none] at h
    obtain ⟨c, hc, v, hv, rfl⟩ := h
    exact absurd hv (e c hc)
  · rename_i h
    simp only [List.any_eq_true, Option.isNone_iff_eq_none, not_exists, not_and] at h
    exact ⟨⟨fun _ c hc hv => h c hc none hv rfl, fun _ => rfl⟩, Or.inl rfl⟩

/-- C161: the data are accepted exactly when they are valid, and refused with a ValueError otherwise;
a missing column never shows up as a KeyError. -/
theorem C161_data {s : SchSpec} (hs : s = schOne ∨ s = schTwo) {df : List SchCol}
    (hn : (df.map fun c => c.name).Nodup) :
    (SchValid s df → schData s df = .ok ()) ∧ (¬ SchValid s df → schData s df = .error .valueError) := by
  have hsub : (∀ n ∈ s.positive, n ∈ s.names) ∧ (∀ n ∈ s.nonNegative, n ∈ s.names) ∧
      (∀ n ∈ s.integer, n ∈ s.names) := by
    rcases hs with rfl | rfl <;> simp [schOne, schTwo]
  obtain ⟨a1, a2⟩ := schNames_ok (names := s.names) (df := df)
  obtain ⟨b1, b2⟩ := schNull_ok (df := df)
  unfold schData SchValid
  rcases a2 with ha | ha
  · have hnames := a1.1 ha
    have hin : ∀ n ∈ s.names, n ∈ df.map fun c => c.name := fun n h => by
      obtain ⟨c, hc, e⟩ := hnames n h
      exact List.mem_map.2 ⟨c, hc, e⟩
    obtain ⟨c1, c2⟩ := schLoop_ok (bad := schAny fun x => x ≤ 0) hn s.positive
      fun n h => hin n (hsub.1 n h)
    obtain ⟨d1, d2⟩ := schLoop_ok (bad := schAny fun x => x < 0) hn s.nonNegative
      fun n h => hin n (hsub.2.1 n h)
    obtain ⟨e1, e2⟩ := schLoop_ok (bad := fun c => !c.int) hn s.integer
      fun n h => hin n (hsub.2.2 n h)
    have hp : schPositive df s.positive = schLoop (schAny fun x => x ≤ 0) df s.positive := rfl
    have hq : schNonNeg df s.nonNegative = schLoop (schAny fun x => x < 0) df s.nonNegative := rfl
    have hr : schCount df s.integer = schLoop (fun c => !c.int) df s.integer := rfl
    rw [hp, hq, hr, ha]
    have c1' : schLoop (schAny fun x => x ≤ 0) df s.positive = .ok () ↔
        ∀ c ∈ df, c.name ∈ s.positive → ∀ x, some x ∈ c.vals → 0 < x := by
      rw [c1]
      simp only [schAny_false, not_le]
    have d1' : schLoop (schAny fun x => x < 0) df s.nonNegative = .ok () ↔
        ∀ c ∈ df, c.name ∈ s.nonNegative → ∀ x, some x ∈ c.vals → 0 ≤ x := by
      rw [d1]
      simp only [schAny_false, not_lt]
    have e1' : schLoop (fun c => !c.int) df s.integer = .ok () ↔
        ∀ c ∈ df, c.name ∈ s.integer → c.int = true := by
      rw [e1]
      simp
    rw [← a1, ← b1, ← c1', ← d1', ← e1']
    rcases b2 with hb | hb <;> rcases c2 with hc | hc <;> rcases d2 with hd | hd <;>
      rcases e2 with he | he <;> simp [ha, hb, hc, hd, he, bind, Except.bind]
  · rw [ha]
    refine ⟨fun h => ?_, fun _ => rfl⟩
    have := a1.2 h.1
    rw [ha] at this
    cases this

example : SchValid schOne [⟨"value", false, [some (1 / 2)]⟩, ⟨"variance", true, [some 1]⟩,
    ⟨"sample_count", true, [some 1000]⟩, ⟨"effect_size", false, [some (1 / 2)]⟩] ∧
    ([⟨"value", false, [some (1 / 2)]⟩, ⟨"variance", true, [some 1]⟩,
    ⟨"sample_count", true, [some 1000]⟩, ⟨"effect_size", false, [some (1 / 2)]⟩].map
      fun c : SchCol => c.name).Nodup := by
  constructor
  · simp [SchValid, schOne]
  · simp

/-- C161, with the columns by their names: the data of one sample, and of two, are accepted exactly when all columns are
there, nothing is null, the counts are positive whole numbers and the variances are not negative. -/
theorem C161_columns {df : List SchCol} (hn : (df.map fun c => c.name).Nodup) :
    (schData schOne df = .ok () ↔
      (∀ n ∈ ["value", "variance", "sample_count", "effect_size"], ∃ c ∈ df, c.name = n) ∧
      (∀ c ∈ df, none ∉ c.vals) ∧
      (∀ c ∈ df, c.name = "sample_count" → c.int = true ∧ ∀ x, some x ∈ c.vals → 0 < x) ∧
      (∀ c ∈ df, c.name = "variance" → ∀ x, some x ∈ c.vals → 0 ≤ x)) ∧
    (schData schTwo df = .ok () ↔
      (∀ n ∈ ["value_a", "value_b", "variance_a", "variance_b", "sample_count_a", "sample_count_b", "effect_size"],
        ∃ c ∈ df, c.name = n) ∧
      (∀ c ∈ df, none ∉ c.vals) ∧
      (∀ c ∈ df, c.name = "sample_count_a" ∨ c.name = "sample_count_b" →
        c.int = true ∧ ∀ x, some x ∈ c.vals → 0 < x) ∧
      (∀ c ∈ df, c.name = "variance_a" ∨ c.name = "variance_b" → ∀ x, some x ∈ c.vals → 0 ≤ x)) := by
  have key : ∀ s, s = schOne ∨ s = schTwo → (schData s df = .ok () ↔ SchValid s df) := by
    intro s hs
    refine ⟨fun h => ?_, (C161_data hs hn).1⟩
    by_contra hv
    rw [(C161_data hs hn).2 hv] at h
    cases h
  constructor
  · rw [key _ (Or.inl rfl)]
    unfold SchValid
    constructor
    · rintro ⟨h1, h2, h3, h4, h5⟩
      exact ⟨h1, h2, fun c hc e => ⟨h5 c hc (by simp [schOne, e]), h3 c hc (by simp [schOne, e])⟩,
        fun c hc e => h4 c hc (by simp [schOne, e])⟩
    · rintro ⟨h1, h2, h3, h4⟩
      exact ⟨h1, h2, fun c hc e => (h3 c hc (by simpa [schOne] using e)).2,
        fun c hc e => h4 c hc (by simpa [schOne] using e), fun c hc e => (h3 c hc (by simpa [schOne] using e)).1⟩
  · rw [key _ (Or.inr rfl)]
    unfold SchValid
    constructor
    · rintro ⟨h1, h2, h3, h4, h5⟩
      exact ⟨h1, h2, fun c hc e => ⟨h5 c hc (by simpa [schTwo] using e), h3 c hc (by simpa [schTwo] using e)⟩,
        fun c hc e => h4 c hc (by simpa [schTwo] using e)⟩
    · rintro ⟨h1, h2, h3, h4⟩
      exact ⟨h1, h2, fun c hc e => (h3 c hc (by simpa [schTwo] using e)).2,
        fun c hc e => h4 c hc (by simpa [schTwo] using e), fun c hc e => (h3 c hc (by simpa [schTwo] using e)).1⟩

/-- A negative variance of one sample. -/
example : schData schOne [⟨"value", false, [some (1 / 2)]⟩, ⟨"variance", true, [some (-1)]⟩,
    ⟨"sample_count", true, [some 1000]⟩, ⟨"effect_size", false, [some (1 / 2)]⟩] ≠ .ok () := by
  rw [Ne, (C161_columns (by simp)).1]
  rintro ⟨-, -, -, h⟩
  have := h ⟨"variance", true, [some (-1)]⟩ (by simp) rfl (-1) (by simp)
  norm_num at this

/-- C161: the checks of the single classes on valid data: proportions lie between 0 and 1, counts are
whole numbers, arrival times are positive; otherwise ValueError. -/
theorem C161_hooks {df : List SchCol} (hn : (df.map fun c => c.name).Nodup) :
    (SchValid schTwo df →
      (schHookTwo .realValued df = .ok ()) ∧
      (schHookTwo .proportion df = .ok () ↔ ∀ c ∈ df, c.name = "value_a" ∨ c.name = "value_b" →
        ∀ x, some x ∈ c.vals → 0 ≤ x ∧ x ≤ 1) ∧
      (schHookTwo .count df = .ok () ↔ ∀ c ∈ df, c.name = "value_a" ∨ c.name = "value_b" →
        c.int = true) ∧
      (schHookTwo .arrivalTime df = .ok () ↔ ∀ c ∈ df, c.name = "value_a" ∨ c.name = "value_b" →
        ∀ x, some x ∈ c.vals → 0 < x) ∧
      (∀ k, schHookTwo k df = .ok () ∨ schHookTwo k df = .error .valueError)) ∧
    (SchValid schOne df →
      (schHookOne df = .ok () ↔ ∀ c ∈ df, c.name = "value" ∨ c.name = "effect_size" →
        ∀ x, some x ∈ c.vals → 0 ≤ x ∧ x ≤ 1) ∧
      (schHookOne df = .ok () ∨ schHookOne df = .error .valueError)) := by
  have prop : ∀ ns : List String, (∀ n ∈ ns, n ∈ df.map fun c => c.name) →
      (schProportion df ns = .ok () ↔ ∀ c ∈ df, c.name ∈ ns → ∀ x, some x ∈ c.vals → 0 ≤ x ∧ x ≤ 1) ∧
      (schProportion df ns = .ok () ∨ schProportion df ns = .error .valueError) := by
    intro ns h
    obtain ⟨p1, p2⟩ := schLoop_ok
      (bad := fun c => schAny (fun x => x < 0) c || schAny (fun x => 1 < x) c) hn ns h
    refine ⟨?_, p2⟩
    unfold schProportion
    rw [p1]
    simp only [Bool.or_eq_false_iff, schAny_false, not_lt]
    exact ⟨fun h c hc hm x hx => ⟨(h c hc hm).1 x hx, (h c hc hm).2 x hx⟩,
      fun h c hc hm => ⟨fun x hx => (h c hc hm x hx).1, fun x hx => (h c hc hm x hx).2⟩⟩
  constructor
  · intro hv
    have hin : ∀ n ∈ ["value_a", "value_b"], n ∈ df.map fun c => c.name := by
      intro n h
      obtain ⟨c, hc, e⟩ := hv.1 n (by
        simp only [schTwo, List.mem_cons, List.not_mem_nil, or_false] at h ⊢
        tauto)
      exact List.mem_map.2 ⟨c, hc, e⟩
    have mem : ∀ n : String, n ∈ ["value_a", "value_b"] ↔ n = "value_a" ∨ n = "value_b" := by simp
    obtain ⟨p1, p2⟩ := prop _ hin
    obtain ⟨c1, c2⟩ := schLoop_ok (bad := fun c => !c.int) hn _ hin
    obtain ⟨a1, a2⟩ := schLoop_ok (bad := schAny fun x => x ≤ 0) hn _ hin
    simp only [mem] at p1 c1 a1
    refine ⟨rfl, p1, ?_, ?_, fun k => ?_⟩
    · refine c1.trans ?_
      simp
    · refine a1.trans ?_
      simp only [schAny_false, not_le]
    · cases k
      · exact Or.inl rfl
      · exact p2
      · exact c2
      · exact a2
  · intro hv
    obtain ⟨p1, p2⟩ := prop ["value", "effect_size"] (by
      intro n h
      obtain ⟨c, hc, e⟩ := hv.1 n (by
        simp only [schOne, List.mem_cons, List.not_mem_nil, or_false] at h ⊢
        tauto)
      exact List.mem_map.2 ⟨c, hc, e⟩)
    refine ⟨?_, p2⟩
    refine p1.trans ?_
    simp

/-- A frame of two-sample data with one row; `i` tells whether the values have dtype `int64`. -/
def schFrame (i : Bool) (a b : Option ℝ) : List SchCol :=
  [⟨"value_a", i, [a]⟩, ⟨"value_b", i, [b]⟩, ⟨"variance_a", false, [some 1]⟩,
    ⟨"variance_b", false, [some 1]⟩, ⟨"sample_count_a", true, [some 10]⟩,
    ⟨"sample_count_b", true, [some 10]⟩, ⟨"effect_size", false, [some 0]⟩]

theorem schFrame_nodup (i : Bool) (a b : Option ℝ) : ((schFrame i a b).map fun c => c.name).Nodup := by
  simp [schFrame]

theorem schFrame_valid (i : Bool) (x y : ℝ) : SchValid schTwo (schFrame i (some x) (some y)) := by
  simp [SchValid, schTwo, schFrame]

example : SchValid schTwo (schFrame true (some 3) (some 4)) ∧
    ((schFrame true (some 3) (some 4)).map fun c => c.name).Nodup := ⟨schFrame_valid true 3 4, schFrame_nodup _ _ _⟩

/-- C161 is violated: negative counts pass both checks of the class for counts, although the value is
then used as a variance. -/
theorem C161_count_violated (x y : ℝ) (hx : x < 0) :
    schData schTwo (schFrame true (some x) (some y)) = .ok () ∧
      schHookTwo .count (schFrame true (some x) (some y)) = .ok () ∧
      (getVariance .count ⟨0, x, y, 1, 1, 10, 10, 0⟩).1 < 0 := by
  refine ⟨(C161_data (Or.inr rfl) (schFrame_nodup _ _ _)).1 (schFrame_valid true x y), ?_, ?_⟩
  · refine (((C161_hooks (schFrame_nodup _ _ _)).1 (schFrame_valid true x y)).2.2.1).2 ?_
    simp [schFrame]
  · show x / ((10 : Int) : ℝ) < 0
    exact div_neg_of_neg_of_pos hx (by norm_num)

example : (-1 : ℝ) < 0 := by norm_num

/-- C161 is violated: a null in a column the detector never reads makes it refuse the data, while the
hooks, which alone see the history, accept nulls in the columns it does read. -/
theorem C161_null_violated {s : SchSpec} (hs : s = schOne ∨ s = schTwo) {df : List SchCol}
    (hv : SchValid s df) (hn : (df.map fun c => c.name).Nodup) (name : String)
    (hname : name ∉ df.map fun c => c.name) :
    schData s df = .ok () ∧ schData s (⟨name, false, [none]⟩ :: df) = .error .valueError ∧
    ∀ k, k ≠ .count → schHookTwo k (schFrame false none none) = .ok () := by
  refine ⟨(C161_data hs hn).1 hv, (C161_data hs ?_).2 ?_, fun k hk => ?_⟩
  · rw [List.map_cons, List.nodup_cons]
    exact ⟨hname, hn⟩
  · exact fun h => h.2.1 ⟨name, false, [none]⟩ (by simp) (by simp)
  · cases k <;> first
      | exact absurd rfl hk
      | simp [schHookTwo, schFrame, schTwo, schProportion, schCount, schPositive, schLoop, schGet, schAny]

example : "comment" ∉ (schFrame true (some 3) (some 4)).map fun c => c.name := by simp [schFrame]

end

end Kats
