import Verif.Model.CpEq
import Mathlib.Tactic.Linarith
import Mathlib.Tactic.NormNum
import Mathlib.Tactic.Ring
import Mathlib.Tactic.FieldSimp
import Mathlib.Tactic.Positivity

/-!
# Properties of the equality of change points (C169)
-/

namespace Kats

variable {F : Type} [DecidableEq F]

theorem cpFeq_iff (x y : Option F) : cpFeq x y = true ↔ ∃ v, x = some v ∧ y = some v := by
  cases x <;> cases y <;> simp [cpFeq]
  exact eq_comm

/-- A change point of a class that does not define `__eq__`. -/
def CpPlain (o : CpObj F) (b : CpBase F) : Prop := o = .base b ∨ ∃ e, o = .sub b e

/-- Two change points agree in time and confidence, which are numbers. -/
def CpAgree (a b : CpBase F) : Prop :=
  a.start = b.start ∧ a.stop = b.stop ∧ ∃ v, a.confidence = some v ∧ b.confidence = some v

theorem cpBaseEq_iff (a b : CpBase F) : cpBaseEq a b = true ↔ CpAgree a b := by
  unfold cpBaseEq CpAgree
  rw [Bool.and_eq_true, Bool.and_eq_true, decide_eq_true_iff, decide_eq_true_iff, cpFeq_iff, and_assoc]

omit [DecidableEq F] in
theorem cpAgree_symm (a b : CpBase F) (h : CpAgree a b) : CpAgree b a := by
  obtain ⟨h1, h2, v, h3, h4⟩ := h
  exact ⟨h1.symm, h2.symm, v, h4, h3⟩

/-- C169: two change points of classes other than CUSUM are equal exactly if start, end and confidence are; this is
symmetric and transitive, and reflexive unless the confidence is NaN. Equal ones have the same hash. They differ
from objects of other types. -/
theorem C169_plain (o p : CpObj F) (a b : CpBase F) (ho : CpPlain o a) (hp : CpPlain p b) (text : ℤ) (n : ℕ) :
    (∃ r, cpEq o p = .ok r ∧ cpEq p o = .ok r ∧ (r = true ↔ CpAgree a b)) ∧
    (CpAgree a a ↔ a.confidence ≠ none) ∧ (∀ c, CpAgree a b → CpAgree b c → CpAgree a c) ∧
    (CpAgree a b → cpHash text o = cpHash text p) ∧
    cpEq o (.other n) = .ok false ∧ cpEq (.other n) o = .ok false := by
  have hs : cpBaseEq a b = cpBaseEq b a := by
    rw [Bool.eq_iff_iff, cpBaseEq_iff, cpBaseEq_iff]
    exact ⟨cpAgree_symm a b, cpAgree_symm b a⟩
  refine ⟨⟨cpBaseEq a b, ?_, ?_, cpBaseEq_iff a b⟩, ?_, ?_, ?_, ?_, ?_⟩
  · rcases ho with rfl | ⟨e, rfl⟩ <;> rcases hp with rfl | ⟨f, rfl⟩ <;> simp [cpEq, hs]
  · rcases ho with rfl | ⟨e, rfl⟩ <;> rcases hp with rfl | ⟨f, rfl⟩ <;> simp [cpEq, hs]
  · unfold CpAgree
    cases a.confidence <;> simp
  · rintro c ⟨h1, h2, v, h3, h4⟩ ⟨h5, h6, w, h7, h8⟩
    rw [h4] at h7
    cases h7
    exact ⟨h1.trans h5, h2.trans h6, v, h3, h8⟩
  · intro _
    rcases ho with rfl | ⟨e, rfl⟩ <;> rcases hp with rfl | ⟨f, rfl⟩ <;> rfl
  · rcases ho with rfl | ⟨e, rfl⟩ <;> rfl
  · rcases ho with rfl | ⟨e, rfl⟩ <;> rfl

example : CpPlain (.sub ⟨1, 2, some (3 : ℚ)⟩ "BOCPD, y") ⟨1, 2, some 3⟩ ∧
    CpAgree (⟨1, 2, some (3 : ℚ)⟩ : CpBase ℚ) ⟨1, 2, some 3⟩ :=
  ⟨Or.inr ⟨_, rfl⟩, rfl, rfl, 3, rfl, rfl⟩

/-- C169: change points that differ in their class, model or series are equal, and the hash of all change points of
these classes is the same. -/
theorem C169_fields_violated (a : CpBase F) (h : a.confidence ≠ none) (e f : String) (text : ℤ) :
    cpEq (.sub a e) (.sub a f) = .ok true ∧
    ∀ (o p : CpObj F) (b c : CpBase F), CpPlain o b → CpPlain p c → cpHash text o = cpHash text p := by
  constructor
  · show Except.ok (cpBaseEq a a) = _
    rw [(cpBaseEq_iff a a).2]
    obtain ⟨v, hv⟩ := Option.ne_none_iff_exists'.1 h
    exact ⟨rfl, rfl, v, hv, hv⟩
  · rintro o p b c (rfl | ⟨e, rfl⟩) (rfl | ⟨f, rfl⟩) <;> rfl

example : (⟨1, 2, some (3 : ℚ)⟩ : CpBase ℚ).confidence ≠ none := by simp

/-- Two means that are the same number. -/
def CpSameNum (x y : CpNum F) : Prop := ∃ v, x = .scalar (some v) ∧ y = .scalar (some v)

/-- A mean that is a number or NaN. -/
def CpScalar (x : CpNum F) : Prop := ∃ v, x = .scalar v

theorem cpNumEq_scalar (x y : CpNum F) (hx : CpScalar x) (hy : CpScalar y) :
    ∃ r, cpNumEq x y = .ok r ∧ (r = true ↔ CpSameNum x y) := by
  obtain ⟨v, rfl⟩ := hx
  obtain ⟨w, rfl⟩ := hy
  refine ⟨_, rfl, ?_⟩
  rw [cpFeq_iff]
  simp [CpSameNum]

omit [DecidableEq F] in
theorem cpAnd_ok (l : List Bool) : cpAnd (l.map Except.ok) = .ok (l.all id) := by
  induction l with
  | nil => rfl
  | cons b l ih => cases b <;> simp [cpAnd, ih]

/-- C169: two CUSUM change points of single series are equal exactly if time, confidence, direction, index, means,
difference, likelihood ratios, flags and p-value are equal numbers (the p-value in the interest window is not
compared). -/
theorem C169_cusum_partial (a b : CpBase F) (c d : CpCusum F) (h1 : CpScalar c.mu0) (h2 : CpScalar c.mu1)
    (h3 : CpScalar c.delta) (h4 : CpScalar d.mu0) (h5 : CpScalar d.mu1) (h6 : CpScalar d.delta) :
    ∃ r, cpEq (.cusum a c) (.cusum b d) = .ok r ∧ (r = true ↔ CpAgree a b ∧ c.direction = d.direction ∧
      c.index = d.index ∧ CpSameNum c.delta d.delta ∧ c.regression = d.regression ∧ c.stable = d.stable ∧
      CpSameNum c.mu0 d.mu0 ∧ CpSameNum c.mu1 d.mu1 ∧ (∃ v, c.llr = some v ∧ d.llr = some v) ∧
      (∃ v, c.llrInt = some v ∧ d.llrInt = some v) ∧ ∃ v, c.pValue = some v ∧ d.pValue = some v) := by
  obtain ⟨r0, e0, i0⟩ := cpNumEq_scalar _ _ h1 h4
  obtain ⟨r1, e1, i1⟩ := cpNumEq_scalar _ _ h2 h5
  obtain ⟨r2, e2, i2⟩ := cpNumEq_scalar _ _ h3 h6
  have := cpAnd_ok [decide (a.start = b.start), decide (a.stop = b.stop), cpFeq a.confidence b.confidence,
    decide (c.direction = d.direction), decide (c.index = d.index), r2, decide (c.regression = d.regression),
    decide (c.stable = d.stable), r0, r1, cpFeq c.llr d.llr, cpFeq c.llrInt d.llrInt, cpFeq c.pValue d.pValue]
  have hc : cpEq (.cusum a c) (.cusum b d) = cpCusumEq a c b d := rfl
  unfold cpCusumEq at hc
  rw [e0, e1, e2] at hc
  have he := hc.trans this
  refine ⟨_, he, ?_⟩
  simp only [List.all_cons, List.all_nil, id, Bool.and_true, Bool.and_eq_true, decide_eq_true_eq, cpFeq_iff,
    i0, i1, i2, CpAgree, and_assoc]

/-- A CUSUM change point. -/
def cpExample (p : Option ℚ) : CpCusum ℚ :=
  ⟨"increase", 5, .scalar (some 1), .scalar (some 2), .scalar (some 1), some 7, some 7, true, true, some 0, p⟩

example : CpScalar (cpExample none).mu0 ∧ cpEq (.cusum ⟨0, 0, some 1⟩ (cpExample none))
    (.cusum ⟨0, 0, some 1⟩ (cpExample none)) = .ok true := ⟨⟨_, rfl⟩, by decide +kernel⟩

/-- C169: change points of different p-values in the interest window are equal. Those of several series at once,
whose means are arrays, cannot be compared, even with themselves. No CUSUM change point has a hash. -/
theorem C169_cusum_violated :
    (∃ (a : CpBase ℚ) (c d : CpCusum ℚ), c.pValueInt ≠ d.pValueInt ∧
      cpEq (.cusum a c) (.cusum a d) = .ok true) ∧
    (∀ (a : CpBase F) (c : CpCusum F) (x y : F) (l : List F), a.confidence ≠ none → c.delta = .array (x :: y :: l) →
      cpEq (.cusum a c) (.cusum a c) = .error .valueError) ∧
    ∀ (a : CpBase F) (c : CpCusum F) (text : ℤ), cpHash text (.cusum a c) = .error .typeError := by
  refine ⟨⟨⟨0, 0, some 1⟩, cpExample (some 0), cpExample (some 1), by simp [cpExample], by decide +kernel⟩, ?_,
    fun _ _ _ => rfl⟩
  intro a c x y l ha hd
  show cpCusumEq a c a c = _
  have hc : cpFeq a.confidence a.confidence = true := by
    obtain ⟨v, hv⟩ := Option.ne_none_iff_exists'.1 ha
    exact (cpFeq_iff _ _).2 ⟨v, hv, hv⟩
  have hn : cpNumEq c.delta c.delta = .error .valueError := by rw [hd]; rfl
  unfold cpCusumEq
  rw [hc, hn]
  simp [cpAnd]

/-- C169: a comparison with a CUSUM change point raises, in both orders, if the other object is none and is a
`TimeSeriesChangePoint` or of an unrelated type; a change point of another class may be equal to it, while it is not
equal to that one but raises. -/
theorem C169_mixed_violated (a b : CpBase F) (c : CpCusum F) (n : ℕ) (e : String) :
    cpEq (.base a) (.cusum b c) = .error .notImplemented ∧ cpEq (.cusum b c) (.base a) = .error .notImplemented ∧
    cpEq (.other n) (.cusum b c) = .error .notImplemented ∧ cpEq (.cusum b c) (.other n) = .error .notImplemented ∧
    cpEq (.cusum b c) (.sub a e) = .error .notImplemented ∧
    (CpAgree a b → cpEq (.sub a e) (.cusum b c) = .ok true) := by
  refine ⟨rfl, rfl, rfl, rfl, rfl, fun h => ?_⟩
  show Except.ok (cpBaseEq a b) = _
  rw [(cpBaseEq_iff a b).2 h]

example : cpEq (.sub ⟨0, 0, some 1⟩ "BOCPD") (.cusum ⟨0, 0, some 1⟩ (cpExample none)) = .ok true ∧
    cpEq (.cusum ⟨0, 0, some 1⟩ (cpExample none)) (.sub ⟨0, 0, some 1⟩ "BOCPD") = .error .notImplemented := by
  decide +kernel

theorem cpHalfEven_near (q : ℚ) : |q - cpHalfEven q| ≤ 1 / 2 := by
  have h1 := Int.floor_le q
  have h2 := Int.lt_floor_add_one q
  unfold cpHalfEven
  rw [abs_le]
  split
  · constructor <;> linarith
  · split
    · push_cast; constructor <;> linarith
    · split
      · constructor <;> linarith
      · push_cast; constructor <;> linarith

theorem cpHalfEven_zero (q : ℚ) (h : 0 ≤ q) : cpHalfEven q = 0 ↔ q ≤ 1 / 2 := by
  constructor
  · intro h0
    have := cpHalfEven_near q
    rw [h0, abs_le] at this
    push_cast at this
    linarith [this.2]
  · intro hq
    have hf : ⌊q⌋ = 0 := Int.floor_eq_zero_iff.2 ⟨h, by linarith⟩
    unfold cpHalfEven
    rw [hf]
    simp only [Int.cast_zero, sub_zero]
    split
    · rfl
    · rw [if_neg (by linarith)]; simp

/-- C169: numbers of which the first is not 0 are almost equal if they differ by at most half a unit of the last
place in relation to the first, and only if they do so or differ by at most a unit of the last place. -/
theorem C169_almost_partial (py : Bool) (r : ℕ) (x y : ℚ) (hx : x ≠ 0) :
    ∃ b, cpAlmost py r x y = .ok b ∧ (|y - x| ≤ |x| / (2 * 10 ^ r) → b = true) ∧
      (b = true → |y - x| ≤ |x| / (2 * 10 ^ r) ∨ |y - x| ≤ 1 / 10 ^ r) := by
  have hp : (0 : ℚ) < 10 ^ r := by positivity
  have hxa : 0 < |x| := abs_pos.2 hx
  have key : cpRound r |(y - x) / x| = 0 ↔ |y - x| ≤ |x| / (2 * 10 ^ r) := by
    unfold cpRound
    rw [cpHalfEven_zero _ (by positivity), abs_div, div_mul_eq_mul_div, div_le_iff₀ hxa,
      le_div_iff₀ (by positivity)]
    constructor <;> intro h <;> linarith
  unfold cpAlmost
  by_cases h1 : x = y
  · rw [if_pos h1]
    subst h1
    exact ⟨true, rfl, fun _ => rfl, fun _ => Or.inl (by rw [sub_self, abs_zero]; positivity)⟩
  · rw [if_neg h1]
    by_cases h2 : cpRound r x = cpRound r y
    · rw [if_pos h2]
      refine ⟨true, rfl, fun _ => rfl, fun _ => Or.inr ?_⟩
      have a1 := abs_le.1 (cpHalfEven_near (x * 10 ^ r))
      have a2 := abs_le.1 (cpHalfEven_near (y * 10 ^ r))
      unfold cpRound at h2
      rw [h2] at a1
      have hm : |y - x| * 10 ^ r = |(y - x) * 10 ^ r| := by rw [abs_mul, abs_of_pos hp]
      rw [le_div_iff₀ hp, hm, abs_le]
      constructor <;> linarith
    · rw [if_neg h2, if_neg hx]
      refine ⟨_, rfl, fun h => decide_eq_true (key.2 h), fun h => Or.inl (key.1 (of_decide_eq_true h))⟩

example : cpAlmost false 1 20 (2095 / 100) = .ok true ∧ cpAlmost false 1 20 (2102 / 100) = .ok false := by decide +kernel

/-- C169: the approximate comparison is not symmetric, and a Python float that is not almost 0 compared with 0
raises or does not by the order. -/
theorem C169_almost_violated :
    (∀ py, ∃ r x y, cpAlmost py r x y = .ok true ∧ cpAlmost py r y x = .ok false) ∧
    ∀ (r : ℕ) (y : ℚ), 1 < |y| → cpAlmost true r 0 y = .error .otherError ∧ ∃ b, cpAlmost true r y 0 = .ok b := by
  refine ⟨fun py => ⟨1, 2102 / 100, 20, by cases py <;> decide +kernel, by cases py <;> decide +kernel⟩, fun r y hy => ⟨?_, ?_⟩⟩
  · have hp : (1 : ℚ) ≤ 10 ^ r := one_le_pow₀ (by norm_num)
    have hy0 : (0 : ℚ) ≠ y := by rintro rfl; norm_num at hy
    unfold cpAlmost
    rw [if_neg hy0, if_neg, if_pos rfl, if_pos rfl]
    intro h
    have a2 := cpHalfEven_near (y * 10 ^ r)
    have h0 : cpRound r 0 = 0 := by
      unfold cpRound
      rw [zero_mul, cpHalfEven_zero 0 le_rfl]; norm_num
    rw [h0] at h
    unfold cpRound at h
    rw [← h, Int.cast_zero, sub_zero, abs_mul, abs_of_pos (by linarith : (0 : ℚ) < 10 ^ r)] at a2
    nlinarith
  · have hy0 : y ≠ 0 := by rintro rfl; norm_num at hy
    obtain ⟨b, hb, _⟩ := C169_almost_partial true r y 0 hy0
    exact ⟨b, hb⟩

example : (1 : ℚ) < |-3| := by norm_num

/-- C169: change points are almost equal exactly if all comparisons hold; a comparison that raises does so even if
another is false. -/
theorem C169_all (py : Bool) (r : ℕ) (exact : List Bool) (pairs : List (ℚ × ℚ)) :
    (cpAlmostAll py r exact pairs = .ok true ↔
      (∀ b ∈ exact, b = true) ∧ ∀ p ∈ pairs, cpAlmost py r p.1 p.2 = .ok true) ∧
    ((∃ e, cpAlmostAll py r exact pairs = .error e) ↔ ∃ p ∈ pairs, ∃ e, cpAlmost py r p.1 p.2 = .error e) := by
  have key : (∃ e, (pairs.mapM fun p => cpAlmost py r p.1 p.2) = .error e ∧ ∃ p ∈ pairs, ∃ e, cpAlmost py r p.1 p.2 = .error e) ∨
      ∃ l, (pairs.mapM fun p => cpAlmost py r p.1 p.2) = .ok l ∧ pairs.map (fun p => cpAlmost py r p.1 p.2) = l.map Except.ok := by
    induction pairs with
    | nil => exact Or.inr ⟨[], rfl, rfl⟩
    | cons p ps ih =>
      rw [List.mapM_cons]
      cases hp : cpAlmost py r p.1 p.2 with
      | error e => exact Or.inl ⟨e, rfl, p, by simp, e, hp⟩
      | ok b =>
        rcases ih with ⟨e, he, q, hq, hqe⟩ | ⟨l, hl, hm⟩
        · rw [he]
          exact Or.inl ⟨e, rfl, q, by simp [hq], hqe⟩
        · rw [hl]
          exact Or.inr ⟨b :: l, rfl, by rw [List.map_cons, hp, hm]; rfl⟩
  unfold cpAlmostAll
  rcases key with ⟨e, he, hex⟩ | ⟨l, hl, hm⟩
  · rw [he]
    refine ⟨⟨fun h => (by cases h), fun h => ?_⟩, ⟨fun _ => hex, fun _ => ⟨e, rfl⟩⟩⟩
    obtain ⟨p, hp, e', he'⟩ := hex
    rw [h.2 p hp] at he'
    cases he'
  · rw [hl]
    have hmem : ∀ p ∈ pairs, ∃ b ∈ l, cpAlmost py r p.1 p.2 = .ok b := fun p hp => by
      have : cpAlmost py r p.1 p.2 ∈ l.map Except.ok := by rw [← hm]; exact List.mem_map.2 ⟨p, hp, rfl⟩
      obtain ⟨b, hb, h⟩ := List.mem_map.1 this
      exact ⟨b, hb, h.symm⟩
    constructor
    · show Except.ok ((exact ++ l).all id) = Except.ok true ↔ _
      rw [Except.ok.injEq, List.all_eq_true]
      constructor
      · intro h
        refine ⟨fun b hb => h b (by simp [hb]), fun p hp => ?_⟩
        obtain ⟨b, hb, he⟩ := hmem p hp
        have : b = true := h b (by simp [hb])
        rw [he, this]
      · rintro ⟨h1, h2⟩ b hb
        rcases List.mem_append.1 hb with hb | hb
        · exact h1 b hb
        · have : (Except.ok b : Except Err Bool) ∈ pairs.map fun p => cpAlmost py r p.1 p.2 := by
            rw [hm]; exact List.mem_map.2 ⟨b, hb, rfl⟩
          obtain ⟨p, hp, he⟩ := List.mem_map.1 this
          rw [h2 p hp] at he
          cases he; rfl
    · refine ⟨fun h => ?_, ?_⟩
      · obtain ⟨e, h⟩ := h
        cases h
      · rintro ⟨p, hp, e, he⟩
        obtain ⟨b, _, hb⟩ := hmem p hp
        rw [hb] at he; cases he

example : cpAlmostAll true 10 [true, true] [(1, 1), (2, 2)] = .ok true ∧
    ∃ e, cpAlmostAll true 10 [false] [(0, 3)] = .error e := ⟨by decide +kernel, .otherError, by decide +kernel⟩

end Kats
