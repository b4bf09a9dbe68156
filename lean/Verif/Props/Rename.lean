import Verif.Model.Rename
import Mathlib.Data.List.Nodup

/-!
# Theorems about `rename_columns_by_prefix` (C50)
-/

namespace Kats

/-- Column number `i` is not the time column and its name starts with `pre`. -/
def ColMatch (cols : List String) (timeCol pre : String) (i : Nat) : Prop :=
  ∃ c, cols[i]? = some c ∧ c ≠ timeCol ∧ pre.toList <+: c.toList

theorem startsWith_iff (c p : String) : pyStartsWith c p = true ↔ p.toList <+: c.toList := by
  unfold pyStartsWith
  rw [List.isPrefixOf_iff_prefix]

/-- The test of one column. -/
def colTest (timeCol pre c : String) : Bool := !decide (c = timeCol) && pyStartsWith c pre

theorem colTest_iff (timeCol pre c : String) :
    colTest timeCol pre c = true ↔ c ≠ timeCol ∧ pre.toList <+: c.toList := by
  unfold colTest
  simp [startsWith_iff]

theorem matched_single {cols : List String} {timeCol pre c : String}
    (h : matchedCols cols timeCol pre = [c]) :
    ∃ l1 l2, cols = l1 ++ c :: l2 ∧ (∀ x ∈ l1, colTest timeCol pre x = false)
      ∧ colTest timeCol pre c = true ∧ (∀ x ∈ l2, colTest timeCol pre x = false) := by
  change cols.filter (colTest timeCol pre) = [c] at h
  rw [List.filter_eq_cons_iff] at h
  obtain ⟨l1, l2, e, h1, h2, h3⟩ := h
  rw [List.filter_eq_nil_iff] at h3
  exact ⟨l1, l2, e, fun x hx => by simpa using h1 x hx, h2, fun x hx => by simpa using h3 x hx⟩

theorem colMatch_iff_of_split {l1 l2 : List String} {timeCol pre c : String}
    (h1 : ∀ x ∈ l1, colTest timeCol pre x = false) (hc : colTest timeCol pre c = true)
    (h2 : ∀ x ∈ l2, colTest timeCol pre x = false) (i : Nat) :
    ColMatch (l1 ++ c :: l2) timeCol pre i ↔ i = l1.length := by
  unfold ColMatch
  constructor
  · rintro ⟨d, hd, hd'⟩
    rw [← colTest_iff] at hd'
    rcases Nat.lt_trichotomy i l1.length with h | h | h
    · rw [List.getElem?_append_left h] at hd
      rw [h1 d (List.mem_of_getElem? hd)] at hd'
      cases hd'
    · exact h
    · rw [List.getElem?_append_right (Nat.le_of_lt h)] at hd
      obtain ⟨k, hk⟩ : ∃ k, i - l1.length = k + 1 := ⟨i - l1.length - 1, by omega⟩
      rw [hk, List.getElem?_cons_succ] at hd
      rw [h2 d (List.mem_of_getElem? hd)] at hd'
      cases hd'
  · rintro rfl
    refine ⟨c, by simp, ?_⟩
    rwa [← colTest_iff]

theorem matched_single_iff (cols : List String) (timeCol pre : String) :
    (∃ c, matchedCols cols timeCol pre = [c]) ↔ ∃! i, ColMatch cols timeCol pre i := by
  constructor
  · rintro ⟨c, h⟩
    obtain ⟨l1, l2, rfl, h1, hc, h2⟩ := matched_single h
    exact ⟨l1.length, (colMatch_iff_of_split h1 hc h2 _).2 rfl,
      fun y hy => (colMatch_iff_of_split h1 hc h2 _).1 hy⟩
  · rintro ⟨i, ⟨c, hc, hc'⟩, hu⟩
    refine ⟨c, ?_⟩
    obtain ⟨hi, hci⟩ := List.getElem?_eq_some_iff.1 hc
    have hsplit : cols = cols.take i ++ c :: cols.drop (i + 1) := by
      rw [← hci, List.getElem_cons_drop, List.take_append_drop]
    have hno : ∀ j, j ≠ i → ∀ d, cols[j]? = some d → colTest timeCol pre d = false := by
      intro j hj d hd
      by_contra hcon
      rw [Bool.not_eq_false, colTest_iff] at hcon
      exact hj (hu j ⟨d, hd, hcon⟩)
    change cols.filter (colTest timeCol pre) = [c]
    rw [hsplit, List.filter_append, List.filter_cons, if_pos ((colTest_iff _ _ _).2 hc')]
    have e1 : (cols.take i).filter (colTest timeCol pre) = [] := by
      rw [List.filter_eq_nil_iff]
      intro x hx
      obtain ⟨j, hj, rfl⟩ := List.mem_iff_getElem.1 hx
      have hj' : j < i := by
        have := hj; rw [List.length_take] at this; omega
      rw [hno j (by omega) _ (by rw [List.getElem_take]; exact List.getElem?_eq_getElem _)]
      simp
    have e2 : (cols.drop (i + 1)).filter (colTest timeCol pre) = [] := by
      rw [List.filter_eq_nil_iff]
      intro x hx
      obtain ⟨j, hj, rfl⟩ := List.mem_iff_getElem.1 hx
      rw [hno (i + 1 + j) (by omega) _ (by rw [List.getElem_drop]; exact List.getElem?_eq_getElem _)]
      simp
    rw [e1, e2]
    rfl

/-- The column found for a prefix. -/
def colFor (cols : List String) (timeCol pre : String) : String :=
  (matchedCols cols timeCol pre).headD ""

/-- The whole loop in one formula. -/
theorem buildRename_eq (cols : List String) (timeCol : String) :
    ∀ (pm acc : List (String × String)), (acc.map (·.1)).Nodup →
    (((∀ e ∈ pm, ∃ c, matchedCols cols timeCol e.1 = [c])
        ∧ (acc.map (·.1) ++ pm.map fun e => colFor cols timeCol e.1).Nodup) →
      buildRename cols timeCol acc pm
        = .ok (acc ++ pm.map fun e => (colFor cols timeCol e.1, e.2)))
    ∧ (¬ ((∀ e ∈ pm, ∃ c, matchedCols cols timeCol e.1 = [c])
        ∧ (acc.map (·.1) ++ pm.map fun e => colFor cols timeCol e.1).Nodup) →
      buildRename cols timeCol acc pm = .error .valueError)
  | [], acc, hacc => by
    refine ⟨fun _ => by simp [buildRename], fun h => absurd ⟨by simp, by simpa using hacc⟩ h⟩
  | (pre, new) :: rest, acc, hacc => by
    rw [buildRename.eq_def]
    dsimp only
    rcases hm : matchedCols cols timeCol pre with _ | ⟨c, _ | ⟨d, l⟩⟩
    · dsimp only
      refine ⟨fun ⟨h, _⟩ => ?_, fun _ => rfl⟩
      obtain ⟨c, hc⟩ := h (pre, new) (List.mem_cons_self ..)
      rw [hm] at hc
      cases hc
    · dsimp only
      have hcf : colFor cols timeCol pre = c := by unfold colFor; rw [hm]; rfl
      have hany : (acc.any fun e => decide (e.1 = c)) = true ↔ c ∈ acc.map (·.1) := by
        rw [List.any_eq_true, List.mem_map]
        constructor
        · rintro ⟨x, hx, hx'⟩
          exact ⟨x, hx, by simpa using hx'⟩
        · rintro ⟨x, hx, hx'⟩
          exact ⟨x, hx, by simpa using hx'⟩
      by_cases hin : c ∈ acc.map (·.1)
      · rw [if_pos (hany.2 hin)]
        refine ⟨fun ⟨_, h⟩ => ?_, fun _ => rfl⟩
        rw [List.map_cons, hcf, List.nodup_append] at h
        exact absurd rfl (h.2.2 c hin c (List.mem_cons_self ..))
      · rw [if_neg (fun h => hin (hany.1 h))]
        have hacc' : ((acc ++ [(c, new)]).map (·.1)).Nodup := by
          rw [List.map_append, List.nodup_append]
          refine ⟨hacc, by simp, ?_⟩
          intro a ha b hb
          simp at hb
          subst hb
          rintro rfl
          exact hin ha
        obtain ⟨ih1, ih2⟩ := buildRename_eq cols timeCol rest (acc ++ [(c, new)]) hacc'
        have hiff : ((∀ e ∈ rest, ∃ c, matchedCols cols timeCol e.1 = [c])
            ∧ ((acc ++ [(c, new)]).map (·.1) ++ rest.map fun e => colFor cols timeCol e.1).Nodup)
            ↔ ((∀ e ∈ (pre, new) :: rest, ∃ c, matchedCols cols timeCol e.1 = [c])
            ∧ (acc.map (·.1) ++ ((pre, new) :: rest).map fun e => colFor cols timeCol e.1).Nodup) := by
          rw [List.map_cons, hcf, List.map_append, List.append_assoc]
          simp only [List.map_cons, List.map_nil, List.singleton_append, List.mem_cons,
            forall_eq_or_imp]
          constructor
          · rintro ⟨a, b⟩
            exact ⟨⟨⟨c, hm⟩, a⟩, b⟩
          · rintro ⟨⟨_, a⟩, b⟩
            exact ⟨a, b⟩
        rw [hiff] at ih1 ih2
        refine ⟨fun h => ?_, ih2⟩
        rw [ih1 h, List.map_cons, hcf]
        simp
    · dsimp only
      refine ⟨fun ⟨h, _⟩ => ?_, fun _ => rfl⟩
      obtain ⟨c', hc⟩ := h (pre, new) (List.mem_cons_self ..)
      rw [hm] at hc
      cases hc

/-- Two prefixes with a unique column each find different columns exactly when no column matches
both. -/
theorem colFor_ne_iff {cols : List String} {timeCol p q : String}
    (hp : ∃ c, matchedCols cols timeCol p = [c]) (hq : ∃ c, matchedCols cols timeCol q = [c]) :
    colFor cols timeCol p ≠ colFor cols timeCol q
      ↔ ∀ i, ¬ (ColMatch cols timeCol p i ∧ ColMatch cols timeCol q i) := by
  obtain ⟨c, hc⟩ := hp
  obtain ⟨d, hd⟩ := hq
  have ec : colFor cols timeCol p = c := by unfold colFor; rw [hc]; rfl
  have ed : colFor cols timeCol q = d := by unfold colFor; rw [hd]; rfl
  rw [ec, ed]
  obtain ⟨l1, l2, e1, a1, a2, a3⟩ := matched_single hc
  obtain ⟨m1, m2, e2, b1, b2, b3⟩ := matched_single hd
  constructor
  · rintro hne i ⟨h1, h2⟩
    rw [e1] at h1
    have hi := (colMatch_iff_of_split a1 a2 a3 i).1 h1
    rw [e2] at h2
    have hi2 := (colMatch_iff_of_split b1 b2 b3 i).1 h2
    have g1 : cols[i]? = some c := by rw [e1, hi]; simp
    have g2 : cols[i]? = some d := by rw [e2, hi2]; simp
    rw [g1] at g2
    exact hne (Option.some.inj g2)
  · rintro h rfl
    refine h l1.length ⟨?_, ?_⟩
    · rw [e1]; exact (colMatch_iff_of_split a1 a2 a3 _).2 rfl
    · refine ⟨c, by rw [e1]; simp, ?_⟩
      rwa [← colTest_iff]

/-- C50 (acceptance): the call succeeds exactly when every prefix matches exactly one non-time column
and no column is matched by two of the prefixes; otherwise it raises ValueError. -/
theorem C50_accept (cols : List String) (pm : List (String × String)) (timeCol : String) :
    (((∀ e ∈ pm, ∃! i, ColMatch cols timeCol e.1 i)
        ∧ pm.Pairwise (fun e f => ∀ i, ¬ (ColMatch cols timeCol e.1 i ∧ ColMatch cols timeCol f.1 i)))
      ↔ ∃ out, renameByPrefix cols pm timeCol = .ok out)
    ∧ ∀ e, renameByPrefix cols pm timeCol = .error e → e = .valueError := by
  obtain ⟨h1, h2⟩ := buildRename_eq cols timeCol pm [] (by simp)
  have hiff : ((∀ e ∈ pm, ∃! i, ColMatch cols timeCol e.1 i)
        ∧ pm.Pairwise (fun e f => ∀ i, ¬ (ColMatch cols timeCol e.1 i ∧ ColMatch cols timeCol f.1 i)))
      ↔ ((∀ e ∈ pm, ∃ c, matchedCols cols timeCol e.1 = [c])
        ∧ (([] : List (String × String)).map (·.1) ++ pm.map fun e => colFor cols timeCol e.1).Nodup) := by
    simp only [← matched_single_iff]
    apply and_congr_right
    intro hs
    rw [List.map_nil, List.nil_append, List.nodup_iff_pairwise_ne, List.pairwise_map]
    apply List.Pairwise.iff_of_mem
    intro a b ha hb
    exact (colFor_ne_iff (hs a ha) (hs b hb)).symm
  rw [hiff]
  constructor
  · constructor
    · intro h
      exact ⟨_, by unfold renameByPrefix; rw [h1 h]; rfl⟩
    · rintro ⟨out, ho⟩
      by_contra hcon
      unfold renameByPrefix at ho
      rw [h2 hcon] at ho
      cases ho
  · intro e he
    by_cases hc : ((∀ e ∈ pm, ∃ c, matchedCols cols timeCol e.1 = [c])
        ∧ (([] : List (String × String)).map (·.1) ++ pm.map fun e => colFor cols timeCol e.1).Nodup)
    · unfold renameByPrefix at he
      rw [h1 hc] at he
      cases he
    · unfold renameByPrefix at he
      rw [h2 hc] at he
      cases he
      rfl

example : renameByPrefix ["time", "test_a", "control_a", "x"] [("test_", "t"), ("control_", "c")]
    = .ok ["time", "t", "c", "x"] := by decide +kernel
example : renameByPrefix ["time", "test_a", "test_b"] [("test_", "t")] = .error .valueError := by
  decide +kernel

theorem find_unique {l : List (String × String)} {e : String × String} (he : e ∈ l)
    (hn : (l.map (·.1)).Nodup) : l.find? (fun x => decide (x.1 = e.1)) = some e := by
  induction l with
  | nil => simp at he
  | cons x l ih =>
    rw [List.map_cons, List.nodup_cons] at hn
    rw [List.find?_cons]
    rcases List.mem_cons.1 he with rfl | hm
    · simp
    · have : x.1 ≠ e.1 := by
        intro h
        exact hn.1 (h ▸ List.mem_map_of_mem hm)
      simp only [this, decide_false]
      exact ih hm hn.2

/-- C50 (result): on success the number and order of the columns is kept, the column matched by a
prefix gets that prefix's new name, and every column matched by no prefix (in particular the time
column) keeps its name. -/
theorem C50_result (cols : List String) (pm : List (String × String)) (timeCol : String)
    (out : List String) (h : renameByPrefix cols pm timeCol = .ok out) :
    out.length = cols.length
    ∧ (∀ e ∈ pm, ∀ i, ColMatch cols timeCol e.1 i → out[i]? = some e.2)
    ∧ (∀ i, (∀ e ∈ pm, ¬ ColMatch cols timeCol e.1 i) → out[i]? = cols[i]?)
    ∧ (∀ i : Nat, cols[i]? = some timeCol → out[i]? = some timeCol) := by
  obtain ⟨h1, h2⟩ := buildRename_eq cols timeCol pm [] (by simp)
  have hc : ((∀ e ∈ pm, ∃ c, matchedCols cols timeCol e.1 = [c])
        ∧ (([] : List (String × String)).map (·.1) ++ pm.map fun e => colFor cols timeCol e.1).Nodup) := by
    by_contra hcon
    unfold renameByPrefix at h
    rw [h2 hcon] at h
    cases h
  have hout : out = cols.map (applyRename (pm.map fun e => (colFor cols timeCol e.1, e.2))) := by
    unfold renameByPrefix at h
    rw [h1 hc] at h
    exact (Except.ok.inj h).symm
  obtain ⟨hs, hn⟩ := hc
  have hkeep : ∀ i, (∀ e ∈ pm, ¬ ColMatch cols timeCol e.1 i) → out[i]? = cols[i]? := by
    intro i hi
    rw [hout, List.getElem?_map]
    rcases hci : cols[i]? with _ | c
    · rfl
    · rw [Option.map_some]
      congr 1
      unfold applyRename
      rw [List.find?_eq_none.2]
      intro x hx
      obtain ⟨e, he, rfl⟩ := List.mem_map.1 hx
      simp only [decide_eq_true_eq]
      rintro rfl
      obtain ⟨d, hd⟩ := hs e he
      have ed : colFor cols timeCol e.1 = d := by unfold colFor; rw [hd]; rfl
      obtain ⟨l1, l2, e1, a1, a2, a3⟩ := matched_single hd
      apply hi e he
      refine ⟨_, hci, ?_⟩
      rw [← colTest_iff, ed]
      exact a2
  refine ⟨by rw [hout, List.length_map], ?_, hkeep, ?_⟩
  · intro e he i hi
    obtain ⟨d, hd⟩ := hs e he
    have ed : colFor cols timeCol e.1 = d := by unfold colFor; rw [hd]; rfl
    obtain ⟨l1, l2, e1, a1, a2, a3⟩ := matched_single hd
    have hi' : cols[i]? = some d := by
      rw [e1] at hi ⊢
      rw [(colMatch_iff_of_split a1 a2 a3 i).1 hi]
      simp
    rw [hout, List.getElem?_map, hi', Option.map_some]
    congr 1
    unfold applyRename
    have := find_unique (l := pm.map fun e => (colFor cols timeCol e.1, e.2)) (e := (d, e.2))
      (by rw [← ed]; exact List.mem_map.2 ⟨e, he, rfl⟩)
      (by rw [List.map_map]; simpa [Function.comp_def] using hn)
    dsimp only at this
    rw [this]
  · intro i hi
    rw [hkeep i, hi]
    rintro e he ⟨c, hc, hne, -⟩
    rw [hi] at hc
    exact hne (Option.some.inj hc).symm

example : ColMatch ["time", "test_a"] "time" "test_" 1 := ⟨"test_a", rfl, by decide, by decide⟩

/-- C50 (distinct names), the part that holds: distinct columns stay distinct when the new names are
distinct and none of them is the name of a column that is kept. -/
theorem C50_distinct_partial (cols : List String) (pm : List (String × String)) (timeCol : String)
    (out : List String) (h : renameByPrefix cols pm timeCol = .ok out) (hcols : cols.Nodup)
    (hnew : (pm.map (·.2)).Nodup)
    (hfresh : ∀ (i : Nat) c, cols[i]? = some c → (∀ e ∈ pm, ¬ ColMatch cols timeCol e.1 i) → c ∉ pm.map (·.2)) :
    out.Nodup := by
  obtain ⟨hl, hr, hk, -⟩ := C50_result cols pm timeCol out h
  rw [List.nodup_iff_pairwise_ne, List.pairwise_iff_getElem]
  intro i j hi hj hij heq
  have ei : out[i]? = some out[i] := List.getElem?_eq_getElem hi
  have ej : out[j]? = some out[j] := List.getElem?_eq_getElem hj
  by_cases mi : ∃ e ∈ pm, ColMatch cols timeCol e.1 i
  · obtain ⟨e, he, hei⟩ := mi
    have ge := hr e he i hei
    rw [ei] at ge
    by_cases mj : ∃ e ∈ pm, ColMatch cols timeCol e.1 j
    · obtain ⟨f, hf, hfj⟩ := mj
      have gf := hr f hf j hfj
      rw [ej] at gf
      have hef : e.2 = f.2 := by
        rw [← Option.some.inj ge, ← Option.some.inj gf, heq]
      have : e = f := List.inj_on_of_nodup_map hnew he hf hef
      subst this
      have hu := ((C50_accept cols pm timeCol).1.2 ⟨out, h⟩).1 e he
      have := hu.unique hei hfj
      omega
    · push Not at mj
      have gj := hk j mj
      rw [ej] at gj
      apply hfresh j out[j] gj.symm mj
      rw [← heq, Option.some.inj ge]
      exact List.mem_map_of_mem he
  · push Not at mi
    have gi := hk i mi
    rw [ei] at gi
    by_cases mj : ∃ e ∈ pm, ColMatch cols timeCol e.1 j
    · obtain ⟨f, hf, hfj⟩ := mj
      have gf := hr f hf j hfj
      rw [ej] at gf
      apply hfresh i out[i] gi.symm mi
      rw [heq, Option.some.inj gf]
      exact List.mem_map_of_mem hf
    · push Not at mj
      have gj := hk j mj
      rw [ej] at gj
      have hic : i < cols.length := by omega
      have hjc : j < cols.length := by omega
      have a1 : cols[i] = out[i] := by
        have := gi.symm; rw [List.getElem?_eq_getElem hic] at this; exact Option.some.inj this
      have a2 : cols[j] = out[j] := by
        have := gj.symm; rw [List.getElem?_eq_getElem hjc] at this; exact Option.some.inj this
      have := (List.Nodup.getElem_inj_iff hcols).1 (a1.trans (heq.trans a2.symm))
      omega

example : ["time", "test_a", "control_a", "x"].Nodup
    ∧ ([("test_", "t"), ("control_", "c")].map (·.2)).Nodup := by decide

/-- C50 (violated): the call can return two columns of the same name, even two called `time`. -/
theorem C50_distinct_violated :
    renameByPrefix ["time", "a_1", "b"] [("a_", "b")] = .ok ["time", "b", "b"]
    ∧ renameByPrefix ["time", "a_1"] [("a_", "time")] = .ok ["time", "time"]
    ∧ renameByPrefix ["time", "a_1", "b_1"] [("a_", "x"), ("b_", "x")] = .ok ["time", "x", "x"] := by
  decide +kernel

end Kats
