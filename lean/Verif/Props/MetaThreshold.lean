import Verif.Model.MetaPredict
import Verif.Props.MetaTrain

/-!
# C148: the threshold of the classifier for predictability
-/

namespace Kats

section
variable {K : Type} [Field K] [LinearOrder K] [IsStrictOrderedRing K]

/-- Of the rows with a probability of at least `t`, the part with the label 1. -/
def MpPrec (l : List (K × Bool)) (t : K) : K :=
  (((l.filter fun e => decide (t ≤ e.1)).filter fun e => e.2).length : K) / ((l.filter fun e => decide (t ≤ e.1)).length : K)

/-- Of the rows with the label 1, if there are any, the part with a probability of at least `t`. -/
def MpRec (l : List (K × Bool)) (t : K) : K :=
  if (∃ e ∈ l, e.2 = true) then
    (((l.filter fun e => e.2).filter fun e => decide (t ≤ e.1)).length : K) / ((l.filter fun e => e.2).length : K)
  else 1

omit [IsStrictOrderedRing K] in
theorem mp_count (l : List (K × Bool)) (t : K) : mpCount l true t = ((l.filter fun e => decide (t ≤ e.1)).filter fun e => e.2).length ∧
    mpCount l true t = ((l.filter fun e => e.2).filter fun e => decide (t ≤ e.1)).length ∧
    mpCount l true t + mpCount l false t = (l.filter fun e => decide (t ≤ e.1)).length := by
  unfold mpCount
  induction l with
  | nil => simp
  | cons e l ih =>
    obtain ⟨i1, i2, i3⟩ := ih
    rcases e with ⟨v, b⟩
    simp only [List.countP_cons]
    by_cases h : t ≤ v <;> rcases b with _ | _ <;> simp [h, List.filter_cons] at i1 i2 i3 ⊢ <;> omega

omit [IsStrictOrderedRing K] in
theorem mp_precision (l : List (K × Bool)) (t : K) : mpPrecision l t = MpPrec l t := by
  unfold mpPrecision MpPrec
  obtain ⟨h1, _, h3⟩ := mp_count l t
  rw [h3, h1]

omit [IsStrictOrderedRing K] in
theorem mp_recall (l : List (K × Bool)) (t : K) : mpRecall l t = MpRec l t := by
  unfold mpRecall MpRec
  obtain ⟨_, h2, _⟩ := mp_count l t
  rw [h2, List.countP_eq_length_filter]
  simp only []
  by_cases h : ∃ e ∈ l, e.2 = true
  · rw [if_pos h, if_neg]
    obtain ⟨e, he, hb⟩ := h
    intro h0
    have := List.length_eq_zero_iff.1 h0
    have hm : e ∈ l.filter fun e => e.2 := List.mem_filter.2 ⟨he, hb⟩
    rw [this] at hm
    exact absurd hm List.not_mem_nil
  · rw [if_neg h, if_pos]
    rw [List.length_eq_zero_iff, List.filter_eq_nil_iff]
    intro e he hb
    exact h ⟨e, he, hb⟩

theorem mp_prec_le (l : List (K × Bool)) (t : K) : MpPrec l t ≤ 1 := by
  unfold MpPrec
  apply div_le_one_of_le₀
  · exact_mod_cast List.length_filter_le _ _
  · exact_mod_cast Nat.zero_le _

/-- The least probability has full recall. -/
theorem mp_rec_least (l : List (K × Bool)) (t : K) (h : ∀ e ∈ l, t ≤ e.1) : MpRec l t = 1 := by
  unfold MpRec
  by_cases hp : ∃ e ∈ l, e.2 = true
  · rw [if_pos hp]
    have : ((l.filter fun e => e.2).filter fun e => decide (t ≤ e.1)) = l.filter fun e => e.2 := by
      rw [List.filter_eq_self]
      intro e he
      rw [decide_eq_true_eq]
      exact h e (List.mem_filter.1 he).1
    rw [this, div_self]
    obtain ⟨e, he, hb⟩ := hp
    have hm : e ∈ l.filter fun e => e.2 := List.mem_filter.2 ⟨he, hb⟩
    have := List.length_pos_of_mem hm
    exact_mod_cast this.ne'
  · rw [if_neg hp]

omit [Field K] [IsStrictOrderedRing K] in
theorem mp_thresholds (l : List (K × Bool)) : (mpThresholds l).Pairwise (· < ·) ∧ ∀ t, t ∈ mpThresholds l ↔ ∃ e ∈ l, e.1 = t := by
  unfold mpThresholds
  have hp := List.perm_insertionSort (· ≤ ·) ((l.map (·.1)).dedup)
  have hs := List.pairwise_insertionSort (· ≤ ·) ((l.map (·.1)).dedup)
  have hn := hp.nodup_iff.2 (List.nodup_dedup _)
  refine ⟨?_, ?_⟩
  · exact (hs.and hn).imp fun h => lt_of_le_of_ne h.1 h.2
  · intro t
    rw [hp.mem_iff, List.mem_dedup, List.mem_map]

/-- What the choice of the threshold does, for a positive recall. -/
theorem mp_choose (l : List (K × Bool)) (recall : K) (h0 : 0 < recall) (h1 : recall ≤ 1) (hl : l ≠ []) :
    ∃ t0 ∈ mpThresholds l, recall ≤ MpRec l t0 ∧ (∀ t ∈ mpThresholds l, recall ≤ MpRec l t → MpPrec l t ≤ MpPrec l t0) ∧
      (MpPrec l t0 = 1 → mpThreshold l recall = 1 / 2) ∧
      (MpPrec l t0 ≠ 1 → ∃ t ∈ mpThresholds l, mpThreshold l recall = t ∧ MpPrec l t = MpPrec l t0 ∧ t0 ≤ t ∧
        ∀ t' ∈ mpThresholds l, t < t' → MpPrec l t' ≠ MpPrec l t0) := by
  obtain ⟨hs, hm⟩ := mp_thresholds l
  obtain ⟨ts, hts⟩ : ∃ ts, ts = mpThresholds l := ⟨_, rfl⟩
  rw [← hts] at hs hm ⊢
  have hdef : mpThreshold l recall = match ((((ts.map (MpPrec l) ++ [1]).zip (ts.map (MpRec l) ++ [0])).filter
      fun (e : K × K) => decide (recall ≤ e.2)).map (fun e : K × K => e.1)).max? with
    | none => 1 / 2
    | some m =>
      if ((List.range (ts.map (MpPrec l) ++ [1]).length).filter fun i => decide ((ts.map (MpPrec l) ++ [1])[i]? = some m)).any
          fun i => decide (ts.length ≤ i) then 1 / 2
      else (((List.range (ts.map (MpPrec l) ++ [1]).length).filter fun i => decide ((ts.map (MpPrec l) ++ [1])[i]? = some m)).getLast?.bind
          fun i => ts[i]?).getD (1 / 2) := by
    rw [hts]
    have e1 : mpPrecision l = MpPrec l := funext (mp_precision l)
    have e2 : mpRecall l = MpRec l := funext (mp_recall l)
    unfold mpThreshold
    rw [e1, e2]
    rfl
  have hzip : (ts.map (MpPrec l) ++ [1]).zip (ts.map (MpRec l) ++ [0]) = ts.map (fun t => (MpPrec l t, MpRec l t)) ++ [(1, 0)] := by
    rw [List.zip_append (by simp), List.zip_map', List.zip_cons_cons, List.zip_nil_left]
  have hfil : ((ts.map (fun t => (MpPrec l t, MpRec l t)) ++ [((1 : K), (0 : K))]).filter fun e => decide (recall ≤ e.2)).map (fun e => e.1) =
      (ts.filter fun t => decide (recall ≤ MpRec l t)).map (MpPrec l) := by
    rw [List.filter_append, List.filter_map]
    have : ([((1 : K), (0 : K))].filter fun e => decide (recall ≤ e.2)) = [] := by simp [h0]
    rw [this, List.append_nil, List.map_map]
    rfl
  rw [hzip, hfil] at hdef
  -- the least threshold
  obtain ⟨tm, htm, hmin⟩ : ∃ tm ∈ ts, ∀ e ∈ l, tm ≤ e.1 := by
    rcases hc : ts with _ | ⟨a, r⟩
    · obtain ⟨e, he⟩ := List.exists_mem_of_ne_nil l hl
      have := (hm e.1).2 ⟨e, he, rfl⟩
      rw [hc] at this
      exact absurd this List.not_mem_nil
    · refine ⟨a, List.mem_cons_self, ?_⟩
      intro e he
      have := (hm e.1).2 ⟨e, he, rfl⟩
      rw [hc] at this hs
      rcases List.mem_cons.1 this with h | h
      · rw [h]
      · exact ((List.pairwise_cons.1 hs).1 _ h).le
  have hmem : tm ∈ ts.filter fun t => decide (recall ≤ MpRec l t) := by
    rw [List.mem_filter, decide_eq_true_eq, mp_rec_least l tm hmin]
    exact ⟨htm, h1⟩
  rcases hmax : ((ts.filter fun t => decide (recall ≤ MpRec l t)).map (MpPrec l)).max? with _ | m
  · rw [List.max?_eq_none_iff, List.map_eq_nil_iff] at hmax
    rw [hmax] at hmem
    exact absurd hmem List.not_mem_nil
  rw [hmax] at hdef
  simp only [] at hdef
  obtain ⟨k1, k2⟩ := List.max?_eq_some_iff.1 hmax
  obtain ⟨t0, ht0, hpm⟩ := List.mem_map.1 k1
  rw [List.mem_filter, decide_eq_true_eq] at ht0
  have hix : ∀ i, i ∈ (List.range (ts.map (MpPrec l) ++ [1]).length).filter (fun i => decide ((ts.map (MpPrec l) ++ [1])[i]? = some m)) ↔
      (∃ t, ts[i]? = some t ∧ MpPrec l t = m) ∨ (i = ts.length ∧ (1 : K) = m) := by
    intro i
    rw [List.mem_filter, decide_eq_true_eq, List.mem_range, List.length_append, List.length_map, List.length_singleton]
    rcases lt_trichotomy i ts.length with hi | hi | hi
    · rw [List.getElem?_append_left (by simpa using hi), List.getElem?_map, List.getElem?_eq_getElem hi, Option.map_some]
      constructor
      · rintro ⟨_, h⟩
        injection h with h
        exact Or.inl ⟨_, rfl, h⟩
      · rintro (⟨t, ht, h⟩ | h)
        · injection ht with ht
          exact ⟨by omega, by rw [ht, h]⟩
        · omega
    · rw [List.getElem?_append_right (by simp; omega), List.length_map, hi, Nat.sub_self, List.getElem?_cons_zero]
      constructor
      · rintro ⟨_, h⟩
        injection h with h
        exact Or.inr ⟨rfl, h⟩
      · rintro (⟨t, ht, _⟩ | h)
        · rw [List.getElem?_eq_none (le_refl _)] at ht
          cases ht
        · exact ⟨by omega, by rw [h.2]⟩
    · constructor
      · rintro ⟨h, _⟩; omega
      · rintro (⟨t, ht, _⟩ | h)
        · rw [List.getElem?_eq_none hi.le] at ht
          cases ht
        · omega
  obtain ⟨ix, hixd⟩ : ∃ ix, ix = (List.range (ts.map (MpPrec l) ++ [1]).length).filter
    (fun i => decide ((ts.map (MpPrec l) ++ [1])[i]? = some m)) := ⟨_, rfl⟩
  rw [← hixd] at hdef hix
  have hsort : ix.Pairwise (· < ·) := by rw [hixd]; exact List.pairwise_lt_range.filter _
  have hlast : (ix.any fun i => decide (ts.length ≤ i)) = true ↔ (1 : K) = m := by
    rw [List.any_eq_true]
    constructor
    · rintro ⟨i, hi, h⟩
      rw [decide_eq_true_eq] at h
      rcases (hix i).1 hi with ⟨t, ht, _⟩ | h'
      · rw [List.getElem?_eq_none h] at ht
        cases ht
      · exact h'.2
    · intro h
      exact ⟨ts.length, (hix _).2 (Or.inr ⟨rfl, h⟩), by simp⟩
  refine ⟨t0, ht0.1, ht0.2, ?_, ?_, ?_⟩
  · intro t ht hr
    rw [hpm]
    exact k2 _ (List.mem_map.2 ⟨t, List.mem_filter.2 ⟨ht, by rw [decide_eq_true_eq]; exact hr⟩, rfl⟩)
  · intro h
    rw [hdef, if_pos]
    exact hlast.2 (by rw [← hpm, h])
  · intro h
    have hne : ¬ (ix.any fun i => decide (ts.length ≤ i)) = true := by
      rw [hlast]
      intro h'
      exact h (by rw [hpm, ← h'])
    rw [if_neg hne] at hdef
    obtain ⟨i0, hi0⟩ := List.getElem?_of_mem ht0.1
    have hi0m : i0 ∈ ix := (hix i0).2 (Or.inl ⟨t0, hi0, hpm⟩)
    rcases hgl : ix.getLast? with _ | i
    · rw [List.getLast?_eq_none_iff] at hgl
      rw [hgl] at hi0m
      exact absurd hi0m List.not_mem_nil
    have him : i ∈ ix := List.mem_of_getLast? hgl
    have hge : ∀ j ∈ ix, j ≤ i := by
      intro j hj
      obtain ⟨pre, hpre⟩ := List.getLast?_eq_some_iff.1 hgl
      rw [hpre] at hj hsort
      rw [List.pairwise_append] at hsort
      rcases List.mem_append.1 hj with hj | hj
      · exact (hsort.2.2 j hj i (by simp)).le
      · rw [List.mem_singleton] at hj
        exact hj.le
    rcases (hix i).1 him with ⟨t, ht, hpt⟩ | h'
    · rw [hgl, Option.bind_some, ht, Option.getD_some] at hdef
      have hmono : ∀ (a b : Nat) (x y : K), ts[a]? = some x → ts[b]? = some y → a ≤ b → x ≤ y := by
        intro a b x y ha hb hab
        obtain ⟨ha', ha⟩ := List.getElem?_eq_some_iff.1 ha
        obtain ⟨hb', hb⟩ := List.getElem?_eq_some_iff.1 hb
        rcases Nat.eq_or_lt_of_le hab with h | h
        · subst h
          rw [← ha, ← hb]
        · rw [← ha, ← hb]
          exact (List.pairwise_iff_getElem.1 hs a b ha' hb' h).le
      refine ⟨t, List.mem_of_getElem? ht, hdef, by rw [hpt, hpm], hmono i0 i t0 t hi0 ht (hge i0 hi0m), ?_⟩
      intro t' ht' hlt hpe
      obtain ⟨j, hj⟩ := List.getElem?_of_mem ht'
      have hjm : j ∈ ix := (hix j).2 (Or.inl ⟨t', hj, by rw [hpe, hpm]⟩)
      exact absurd (hmono j i t' t hj ht (hge j hjm)) (not_le.2 hlt)
    · exact absurd (by rw [hpm]; exact h'.2.symm) h

/-- C148, the part that holds: the threshold is one of the probabilities of the validation set, its precision is the greatest of all thresholds with the
recall asked for, and it is the greatest threshold with this precision; it has the recall itself if no greater threshold than one with the recall has the same precision.  This needs
that no threshold with the recall has the precision one. -/
theorem C148_threshold_partial (l : List (K × Bool)) (recall : K) (h0 : 0 < recall) (h1 : recall ≤ 1) (hl : l ≠ [])
    (hp : ∀ e ∈ l, recall ≤ MpRec l e.1 → MpPrec l e.1 ≠ 1) : ∃ e ∈ l, mpThreshold l recall = e.1 ∧
      (∀ e' ∈ l, recall ≤ MpRec l e'.1 → MpPrec l e'.1 ≤ MpPrec l e.1) ∧
      (∃ e' ∈ l, recall ≤ MpRec l e'.1 ∧ MpPrec l e'.1 = MpPrec l e.1 ∧ e'.1 ≤ e.1) ∧
      (∀ e' ∈ l, e.1 < e'.1 → MpPrec l e'.1 ≠ MpPrec l e.1) ∧
      ((∀ e1 ∈ l, ∀ e2 ∈ l, recall ≤ MpRec l e1.1 → MpRec l e2.1 < recall → MpPrec l e1.1 ≠ MpPrec l e2.1) → recall ≤ MpRec l e.1) := by
  obtain ⟨_, hm⟩ := mp_thresholds l
  obtain ⟨t0, ht0, hr0, hmax, _, hc⟩ := mp_choose l recall h0 h1 hl
  obtain ⟨e0, he0, rfl⟩ := (hm t0).1 ht0
  obtain ⟨t, ht, hth, hpe, hle, hgr⟩ := hc (hp e0 he0 hr0)
  obtain ⟨e, he, rfl⟩ := (hm t).1 ht
  refine ⟨e, he, hth, ?_, ⟨e0, he0, hr0, hpe.symm, hle⟩, ?_, ?_⟩
  · intro e' he' hr
    rw [hpe]
    exact hmax _ ((hm _).2 ⟨e', he', rfl⟩) hr
  · intro e' he' hlt
    rw [hpe]
    exact hgr _ ((hm _).2 ⟨e', he', rfl⟩) hlt
  · intro hdist
    by_contra hlt
    exact hdist e0 he0 e he hr0 (not_le.1 hlt) hpe.symm

/-- C148 violated: the best precision for the recall asked for should be found.  If a threshold has the recall and the precision one, the search fails and a half is used,
whatever the probabilities are: if they are all less, nothing is unpredictable and the recall is zero. -/
theorem C148_perfect_violated (l : List (K × Bool)) (recall : K) (h0 : 0 < recall) (h1 : recall ≤ 1) (e : K × Bool) (he : e ∈ l)
    (hr : recall ≤ MpRec l e.1) (hp : MpPrec l e.1 = 1) : mpThreshold l recall = 1 / 2 ∧
      ((∃ e' ∈ l, e'.2 = true) → (∀ e' ∈ l, e'.1 < 1 / 2) → MpRec l (mpThreshold l recall) = 0) := by
  obtain ⟨_, hm⟩ := mp_thresholds l
  obtain ⟨t0, ht0, hr0, hmax, hh, _⟩ := mp_choose l recall h0 h1 (List.ne_nil_of_mem he)
  have h2 : MpPrec l t0 = 1 := by
    apply le_antisymm (mp_prec_le l t0)
    rw [← hp]
    exact hmax _ ((hm _).2 ⟨e, he, rfl⟩) hr
  have hth := hh h2
  refine ⟨hth, ?_⟩
  intro hpos hlt
  rw [hth]
  unfold MpRec
  rw [if_pos hpos]
  have : ((l.filter fun e => e.2).filter fun e => decide (1 / 2 ≤ e.1)) = [] := by
    rw [List.filter_eq_nil_iff]
    intro e' he' hc
    rw [decide_eq_true_eq] at hc
    exact absurd hc (not_le.2 (hlt e' (List.mem_filter.1 he').1))
  rw [this, List.length_nil, Nat.cast_zero, zero_div]

end

/-- C148 violated: the recall should be at least the one asked for.  The last threshold with the best precision is taken, whether or not it has the recall:
here a half instead of seven tenths. -/
theorem C148_recall_violated : ∃ l : List (Rat × Bool), (∃ e ∈ l, (7 / 10 : Rat) ≤ MpRec l e.1 ∧ MpPrec l e.1 = MpPrec l (mpThreshold l (7 / 10))) ∧
    MpRec l (mpThreshold l (7 / 10)) = 1 / 2 :=
  ⟨[(9 / 10, true), (9 / 10, false), (1 / 10, true), (1 / 10, false)], by decide +kernel, by decide +kernel⟩

/-- Five rows: the threshold 3/10 has the best precision of those with the recall 7/10. -/
example : let l : List (Rat × Bool) := [(9 / 10, false), (6 / 10, true), (3 / 10, true), (2 / 10, false), (1 / 10, false)]
    (∀ e ∈ l, (7 / 10 : Rat) ≤ MpRec l e.1 → MpPrec l e.1 ≠ 1) ∧ mpThreshold l (7 / 10) = 3 / 10 ∧ MpPrec l (3 / 10) = 2 / 3 := by
  decide +kernel

example : let l : List (Rat × Bool) := [(4 / 10, true), (3 / 10, true), (2 / 10, false)]
    MpRec l (3 / 10) = 1 ∧ MpPrec l (3 / 10) = 1 ∧ mpThreshold l (7 / 10) = 1 / 2 := by decide +kernel

end Kats
