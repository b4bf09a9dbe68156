import Verif.Model.Repivot
import Mathlib.Tactic.Linarith
import Mathlib.Order.Lattice

/-!
# Properties of the new form of the table of scores (C167)
-/

namespace Kats

variable {κ μ V P : Type}

theorem rpInsert_mem {α : Type} [LinearOrder α] (a x : α) (l : List α) : x ∈ rpInsert a l ↔ x = a ∨ x ∈ l := by
  induction l with
  | nil => simp [rpInsert]
  | cons b l ih =>
    unfold rpInsert
    split
    · simp
    · split
      · rename_i h; subst h; simp
      · simp only [List.mem_cons, ih]; tauto

theorem rpInsert_sorted {α : Type} [LinearOrder α] (a : α) (l : List α) (h : l.Pairwise (· < ·)) :
    (rpInsert a l).Pairwise (· < ·) := by
  induction l with
  | nil => simp [rpInsert]
  | cons b l ih =>
    rw [List.pairwise_cons] at h
    unfold rpInsert
    split
    · rename_i hab
      rw [List.pairwise_cons]
      refine ⟨fun x hx => ?_, List.pairwise_cons.2 h⟩
      rcases List.mem_cons.1 hx with rfl | hx
      · exact hab
      · exact hab.trans (h.1 x hx)
    · split
      · exact List.pairwise_cons.2 h
      · rename_i h1 h2
        rw [List.pairwise_cons]
        refine ⟨fun x hx => ?_, ih h.2⟩
        rcases (rpInsert_mem a x l).1 hx with rfl | hx
        · exact lt_of_le_of_ne (not_lt.1 h1) (Ne.symm h2)
        · exact h.1 x hx

theorem rpUniq_mem {α : Type} [LinearOrder α] (x : α) (l : List α) : x ∈ rpUniq l ↔ x ∈ l := by
  induction l with
  | nil => simp [rpUniq]
  | cons a l ih =>
    show x ∈ rpInsert a (rpUniq l) ↔ _
    rw [rpInsert_mem, ih, List.mem_cons]

theorem rpUniq_sorted {α : Type} [LinearOrder α] (l : List α) : (rpUniq l).Pairwise (· < ·) := by
  induction l with
  | nil => simp [rpUniq]
  | cons a l ih => exact rpInsert_sorted a _ ih

/-- No pair of key and metric occurs twice. -/
def RpOnce (rows : List (RpRow κ μ V P)) : Prop :=
  rows.Pairwise fun r s => ¬ (r.key = s.key ∧ r.metric = s.metric)

theorem rpOnce_iff (rows : List (RpRow κ μ V P)) : (rows.map fun r => (r.key, r.metric)).Nodup ↔ RpOnce rows := by
  unfold RpOnce List.Nodup
  rw [List.pairwise_map]
  simp

theorem rpFind_iff [DecidableEq κ] [DecidableEq μ] (rows : List (RpRow κ μ V P)) (h : RpOnce rows) (k : κ) (m : μ)
    (r : RpRow κ μ V P) : rpFind rows k m = some r ↔ r ∈ rows ∧ r.key = k ∧ r.metric = m := by
  induction rows with
  | nil => simp [rpFind]
  | cons s rows ih =>
    rw [RpOnce, List.pairwise_cons] at h
    unfold rpFind at ih ⊢
    by_cases hs : s.key = k ∧ s.metric = m
    · rw [List.find?_cons_of_pos (by simp [hs])]
      constructor
      · intro h'; cases h'; exact ⟨by simp, hs⟩
      · rintro ⟨hr, hk, hm⟩
        rcases List.mem_cons.1 hr with rfl | hr
        · rfl
        · exact absurd ⟨hs.1.trans hk.symm, hs.2.trans hm.symm⟩ (h.1 r hr)
    · rw [List.find?_cons_of_neg (by simpa using hs), ih h.2]
      constructor
      · rintro ⟨a, b⟩; exact ⟨List.mem_cons_of_mem _ a, b⟩
      · rintro ⟨a, b, c⟩
        rcases List.mem_cons.1 a with rfl | a
        · exact absurd ⟨b, c⟩ hs
        · exact ⟨a, b, c⟩

theorem rpFind_none [DecidableEq κ] [DecidableEq μ] (rows : List (RpRow κ μ V P)) (k : κ) (m : μ) :
    rpFind rows k m = none ↔ ∀ r ∈ rows, ¬ (r.key = k ∧ r.metric = m) := by
  unfold rpFind
  rw [List.find?_eq_none]
  simp

theorem rpFlat_mem (n : ℕ) (ms : List μ) (c : ℕ) (m : μ) : (c, m) ∈ rpFlat n ms ↔ c < n ∧ m ∈ ms := by
  unfold rpFlat
  simp only [List.mem_flatMap, List.mem_range, List.mem_map, Prod.mk.injEq]
  constructor
  · rintro ⟨a, h, b, hb, rfl, rfl⟩; exact ⟨h, hb⟩
  · rintro ⟨h, hm⟩; exact ⟨c, h, m, hm, rfl, rfl⟩

theorem rpNames (special : μ) [DecidableEq μ] (n : ℕ) (ms : List μ) :
    ((rpFlat n ms).filter fun cm => decide (cm.2 ≠ special)).length = (rpFlat n ms).length ↔
      n = 0 ∨ special ∉ ms := by
  rw [List.length_filter_eq_length_iff]
  constructor
  · intro h
    by_contra hc
    push Not at hc
    have := h (0, special) ((rpFlat_mem n ms 0 special).2 ⟨Nat.pos_of_ne_zero hc.1, hc.2⟩)
    simp at this
  · rintro h ⟨c, m⟩ hm
    rw [rpFlat_mem] at hm
    rcases h with rfl | h
    · omega
    · simp only [decide_eq_true_eq]
      rintro rfl
      exact h hm.2

variable [LinearOrder κ] [LinearOrder μ]

/-- C167: the table exists exactly if there are rows, no arm has a metric twice in a trial, and no metric is
called "parameters" unless there are no columns. -/
theorem C167_exists (special : μ) (n : ℕ) (rows : List (RpRow κ μ V P)) :
    (∃ t, rpPivot special n rows = .ok t) ↔
      rows ≠ [] ∧ RpOnce rows ∧ (n = 0 ∨ ∀ r ∈ rows, r.metric ≠ special) := by
  unfold rpPivot
  by_cases h : (rows.map fun r => (r.key, r.metric)).Nodup
  · rw [if_neg (by simpa using h)]
    rw [rpOnce_iff] at h
    cases hms : rpUniq (rows.map fun r => r.metric) with
    | nil =>
      have : rows = [] := by
        cases rows with
        | nil => rfl
        | cons r rs =>
          have : r.metric ∈ rpUniq ((r :: rs).map fun r => r.metric) := (rpUniq_mem _ _).2 (by simp)
          rw [hms] at this; simp at this
      simp [this]
    | cons first rest =>
      have hne : rows ≠ [] := by rintro rfl; simp [rpUniq] at hms
      have hsp : special ∉ first :: rest ↔ ∀ r ∈ rows, r.metric ≠ special := by
        rw [← hms, rpUniq_mem]
        simp
      have hn := rpNames special n (first :: rest)
      simp only
      by_cases hl : n = 0 ∨ special ∉ first :: rest
      · rw [if_neg (by rw [hn.2 hl]; simp)]
        rw [hsp] at hl
        simp [hne, h, hl]
      · rw [if_pos (fun h' => hl (hn.1 h'))]
        rw [hsp] at hl
        simp [hl]
  · rw [if_pos h]
    rw [rpOnce_iff] at h
    simp [h]

example : RpOnce [(⟨(0 : ℕ), (0 : ℕ), [1], ()⟩ : RpRow ℕ ℕ ℚ Unit), ⟨0, 1, [2], ()⟩, ⟨1, 0, [3], ()⟩] := by
  simp [RpOnce]

theorem rpPivot_ok (special : μ) (n : ℕ) (rows : List (RpRow κ μ V P)) (names : List (ℕ × μ))
    (out : List (RpOut κ V P)) (h : rpPivot special n rows = .ok (names, out)) :
    RpOnce rows ∧ ∃ first rest, rpUniq (rows.map fun r => r.metric) = first :: rest ∧
      names = rpFlat n (first :: rest) ∧
      out = (rpUniq (rows.map fun r => r.key)).map fun k =>
        { key := k
          cells := names.map fun cm => (rpFind rows k cm.2).bind fun r => r.vals[cm.1]?
          params := (rpFind rows k first).map fun r => r.params } := by
  unfold rpPivot at h
  by_cases hd : (rows.map fun r => (r.key, r.metric)).Nodup
  · rw [if_neg (by simpa using hd)] at h
    refine ⟨(rpOnce_iff rows).1 hd, ?_⟩
    cases hms : rpUniq (rows.map fun r => r.metric) with
    | nil => rw [hms] at h; simp at h
    | cons first rest =>
      rw [hms] at h
      simp only at h
      by_cases hl : ((rpFlat n (first :: rest)).filter fun cm => decide (cm.2 ≠ special)).length
          = (rpFlat n (first :: rest)).length
      · rw [if_neg (not_not.2 hl)] at h
        have hf : (rpFlat n (first :: rest)).filter (fun cm => decide (cm.2 ≠ special)) =
            rpFlat n (first :: rest) := List.length_filter_eq_length_iff.1 hl |> List.filter_eq_self.2
        rw [hf] at h
        injection h with h
        injection h with h1 h2
        subst h1
        exact ⟨first, rest, rfl, rfl, h2.symm⟩
      · rw [if_pos hl] at h; simp at h
  · rw [if_pos hd] at h; simp at h

/-- C167: the columns are the pairs of a column and a metric of the raw table, by columns and then by metrics in
order; the rows are the pairs of trial and arm, once each and in order; a cell holds the value of the row of its
arm and metric and nothing if there is no such row. -/
theorem C167_cells (special : μ) (n : ℕ) (rows : List (RpRow κ μ V P)) (names : List (ℕ × μ))
    (out : List (RpOut κ V P)) (h : rpPivot special n rows = .ok (names, out)) :
    (∀ c m, (c, m) ∈ names ↔ c < n ∧ ∃ r ∈ rows, r.metric = m) ∧
    names.Pairwise (fun a b => a.1 < b.1 ∨ a.1 = b.1 ∧ a.2 < b.2) ∧
    (out.map fun o => o.key).Pairwise (· < ·) ∧ (∀ k, k ∈ out.map (fun o => o.key) ↔ ∃ r ∈ rows, r.key = k) ∧
    ∀ o ∈ out, o.cells.length = names.length ∧ ∀ (i c : ℕ) (m : μ), names[i]? = some (c, m) →
      (∀ r ∈ rows, r.key = o.key → r.metric = m → o.cells[i]? = some r.vals[c]?) ∧
      ((∀ r ∈ rows, r.key = o.key → r.metric ≠ m) → o.cells[i]? = some none) := by
  obtain ⟨honce, first, rest, hms, hnames, hout⟩ := rpPivot_ok special n rows names out h
  have hkeys : out.map (fun o => o.key) = rpUniq (rows.map fun r => r.key) := by
    rw [hout, List.map_map]
    conv_rhs => rw [← List.map_id (rpUniq _)]
    rfl
  refine ⟨fun c m => ?_, ?_, ?_, fun k => ?_, ?_⟩
  · rw [hnames, rpFlat_mem, ← hms, rpUniq_mem]
    simp
  · rw [hnames, ← hms]
    unfold rpFlat
    rw [List.flatMap_def, List.pairwise_flatten]
    constructor
    · intro l hl
      obtain ⟨c, _, rfl⟩ := List.mem_map.1 hl
      rw [List.pairwise_map]
      exact (rpUniq_sorted _).imp fun h => Or.inr ⟨rfl, h⟩
    · rw [List.pairwise_map]
      refine List.pairwise_lt_range.imp ?_
      intro a b hab x hx y hy
      obtain ⟨_, _, rfl⟩ := List.mem_map.1 hx
      obtain ⟨_, _, rfl⟩ := List.mem_map.1 hy
      exact Or.inl hab
  · rw [hkeys]; exact rpUniq_sorted _
  · rw [hkeys, rpUniq_mem]; simp
  · intro o ho
    rw [hout] at ho
    obtain ⟨k, _, rfl⟩ := List.mem_map.1 ho
    refine ⟨by simp, fun i c m hi => ⟨fun r hr hk hm => ?_, fun hn => ?_⟩⟩
    · simp only [List.getElem?_map, hi, Option.map_some]
      rw [(rpFind_iff rows honce k m r).2 ⟨hr, hk, hm⟩]
      rfl
    · simp only [List.getElem?_map, hi, Option.map_some]
      rw [(rpFind_none rows k m).2 fun r hr hc => hn r hr hc.1 hc.2]
      rfl

/-- C167: an arm that has the least metric of the table keeps the parameters of that row; so if every arm has
every metric, and rows of the same arm have the same parameters, every arm has its parameters. -/
theorem C167_parameters_partial (special : μ) (n : ℕ) (rows : List (RpRow κ μ V P)) (names : List (ℕ × μ))
    (out : List (RpOut κ V P)) (h : rpPivot special n rows = .ok (names, out))
    (hp : ∀ r ∈ rows, ∀ s ∈ rows, r.key = s.key → r.params = s.params) (o : RpOut κ V P) (ho : o ∈ out)
    (hall : ∀ r ∈ rows, ∃ s ∈ rows, s.key = o.key ∧ s.metric = r.metric) (r : RpRow κ μ V P) (hr : r ∈ rows)
    (hk : r.key = o.key) : o.params = some r.params := by
  obtain ⟨honce, first, rest, hms, hnames, hout⟩ := rpPivot_ok special n rows names out h
  rw [hout] at ho
  obtain ⟨k, _, rfl⟩ := List.mem_map.1 ho
  have hf : first ∈ rows.map fun r => r.metric := by
    rw [← rpUniq_mem, hms]; simp
  obtain ⟨r0, hr0, hm0⟩ := List.mem_map.1 hf
  obtain ⟨s, hs, hsk, hsm⟩ := hall r0 hr0
  simp only
  rw [(rpFind_iff rows honce k first s).2 ⟨hs, hsk, hsm.trans hm0⟩]
  simp only [Option.map_some]
  rw [hp s hs r hr (hsk.trans hk.symm)]

example : ∃ t, rpPivot (9 : ℕ) 1 [(⟨(1 : ℕ), (0 : ℕ), [1], "a"⟩ : RpRow ℕ ℕ ℚ String), ⟨1, 1, [2], "a"⟩,
    ⟨0, 1, [3], "b"⟩, ⟨0, 0, [4], "b"⟩] = .ok t := by
  rw [C167_exists]
  simp [RpOnce]

/-- C167: an arm without the least metric of the table loses its parameters, though its rows have them. -/
theorem C167_parameters_violated (special : μ) (n : ℕ) (rows : List (RpRow κ μ V P)) (names : List (ℕ × μ))
    (out : List (RpOut κ V P)) (h : rpPivot special n rows = .ok (names, out)) (r : RpRow κ μ V P)
    (hr : r ∈ rows) (hleast : ∀ s ∈ rows, r.metric ≤ s.metric) (o : RpOut κ V P) (ho : o ∈ out)
    (hno : ∀ s ∈ rows, s.key = o.key → s.metric ≠ r.metric) : o.params = none := by
  obtain ⟨honce, first, rest, hms, hnames, hout⟩ := rpPivot_ok special n rows names out h
  rw [hout] at ho
  obtain ⟨k, _, rfl⟩ := List.mem_map.1 ho
  have hf : first ∈ rows.map fun r => r.metric := by
    rw [← rpUniq_mem, hms]; simp
  obtain ⟨r0, hr0, hm0⟩ := List.mem_map.1 hf
  have hfr : first = r.metric := by
    have hsort := rpUniq_sorted (rows.map fun r => r.metric)
    have hin : r.metric ∈ rpUniq (rows.map fun r => r.metric) :=
      (rpUniq_mem _ _).2 (List.mem_map.2 ⟨r, hr, rfl⟩)
    rw [hms] at hsort hin
    rw [List.pairwise_cons] at hsort
    rcases List.mem_cons.1 hin with h' | h'
    · exact h'.symm
    · have h1 := hsort.1 _ h'
      have h2 := hleast r0 hr0
      rw [hm0] at h2
      exact absurd h1 (not_lt.2 h2)
  simp only
  rw [(rpFind_none rows k first).2 fun s hs hc => hno s hs hc.1 (hc.2.trans hfr)]
  rfl

example : ∃ names o1 o2, rpPivot (9 : ℕ) 1 [(⟨(0 : ℕ), (0 : ℕ), [1], "a"⟩ : RpRow ℕ ℕ ℕ String), ⟨1, 1, [3], "b"⟩]
    = .ok (names, [o1, o2]) ∧ o2.key = 1 ∧ o2.cells = [none, some 3] ∧ o2.params = none :=
  ⟨[(0, 0), (0, 1)], ⟨0, [some 1, none], some "a"⟩, ⟨1, [none, some 3], none⟩, rfl, rfl, rfl, rfl⟩

/-- C167: if no arm is left, as when none meets the constraints, the call raises instead of giving an empty
table; so it does if a metric is called "parameters". -/
theorem C167_raises_violated (special : μ) (n : ℕ) :
    (∃ e, rpPivot special n ([] : List (RpRow κ μ V P)) = .error e) ∧
    ∀ rows : List (RpRow κ μ V P), n ≠ 0 → (∃ r ∈ rows, r.metric = special) →
      ∃ e, rpPivot special n rows = .error e := by
  refine ⟨⟨_, rfl⟩, fun rows hn hr => ?_⟩
  cases h : rpPivot special n rows with
  | error e => exact ⟨e, rfl⟩
  | ok t =>
    have := ((C167_exists special n rows).1 ⟨t, h⟩).2.2
    obtain ⟨r, hr, hm⟩ := hr
    rcases this with h' | h'
    · exact absurd h' hn
    · exact absurd hm (h' r hr)

end Kats
