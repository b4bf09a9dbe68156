import Verif.Model.MlArCat
import Mathlib.Tactic.Linarith
import Mathlib.Data.List.Nodup
import Mathlib.Algebra.BigOperators.Group.List.Basic

/-!
# Properties of categorical columns in ML-AR (C171)
-/

namespace Kats

variable {L : Type} [DecidableEq L]

theorem mcUnique_mem {A : Type} [DecidableEq A] (x : A) : ∀ l : List A, x ∈ mcUnique l ↔ x ∈ l
  | [] => by simp [mcUnique]
  | y :: l => by
    simp only [mcUnique, List.mem_cons, List.mem_filter, mcUnique_mem x l, decide_eq_true_eq]
    by_cases h : x = y <;> simp [h]

theorem mcUnique_nodup {A : Type} [DecidableEq A] : ∀ l : List A, (mcUnique l).Nodup
  | [] => by simp [mcUnique]
  | y :: l => by
    simp only [mcUnique, List.nodup_cons, List.mem_filter, decide_eq_true_eq]
    exact ⟨fun h => h.2 rfl, (mcUnique_nodup l).filter _⟩

/-- Column `j` of the series has the label `v` in all its rows. -/
def McConst (s : McSeries L) (j : ℕ) (v : L) : Prop := ∀ t, s.start ≤ t → t < s.start + s.len → s.cat j t = some v

/-- The labels that column `j` has in the first rows. -/
theorem mcLabels_ok (all : List (McSeries L)) (j : ℕ) (h : ∀ s ∈ all, 0 < s.len → s.cat j s.start ≠ none) :
    ∃ ls, mcLabels all j = .ok ls ∧ ls.Nodup ∧ ∀ v, v ∈ ls ↔ ∃ s ∈ all, 0 < s.len ∧ s.cat j s.start = some v := by
  have hn : none ∉ mcUnique (all.flatMap fun s => if s.len = 0 then [] else [s.cat j s.start]) := by
    rw [mcUnique_mem, List.mem_flatMap]
    rintro ⟨s, hs, hm⟩
    split at hm
    · simp at hm
    · exact h s hs (by omega) (List.mem_singleton.1 hm).symm
  refine ⟨_, by unfold mcLabels; rw [if_neg hn], ?_, fun v => ?_⟩
  · exact (mcUnique_nodup _).filterMap (by rintro a a' b hb hb'; simp at hb hb'; rw [hb, hb'])
  · rw [List.mem_filterMap]
    constructor
    · rintro ⟨a, ha, hv⟩
      rw [mcUnique_mem, List.mem_flatMap] at ha
      obtain ⟨s, hs, hm⟩ := ha
      split at hm
      · simp at hm
      · exact ⟨s, hs, by omega, by rw [← List.mem_singleton.1 hm]; exact hv⟩
    · rintro ⟨s, hs, hl, hv⟩
      refine ⟨some v, ?_, rfl⟩
      rw [mcUnique_mem, List.mem_flatMap]
      exact ⟨s, hs, by rw [if_neg (by omega), hv]; simp⟩

theorem mcMapM (f : ℕ → Except Err (List L)) : ∀ l : List ℕ, (∀ j ∈ l, ∃ ls, f j = .ok ls) →
    ∃ r, l.mapM f = .ok r ∧ r.length = l.length ∧ ∀ i (h : i < l.length), f l[i] = .ok (r.getD i [])
  | [], _ => ⟨[], rfl, rfl, by simp⟩
  | j :: l, h => by
    obtain ⟨x, hx⟩ := h j (by simp)
    obtain ⟨r, hr, hl, hi⟩ := mcMapM f l fun j hj => h j (by simp [hj])
    refine ⟨x :: r, by rw [List.mapM_cons, hx, hr]; rfl, by simp [hl], fun i hi' => ?_⟩
    cases i with
    | zero => simpa using hx
    | succ i => simpa using hi i (by simpa using hi')

theorem mcMapM_congr (f g : ℕ → Except Err (List L)) : ∀ l : List ℕ, (∀ j ∈ l, f j = g j) → l.mapM f = l.mapM g
  | [], _ => rfl
  | j :: l, h => by
    rw [List.mapM_cons, List.mapM_cons, h j (by simp), mcMapM_congr f g l fun j hj => h j (by simp [hj])]

theorem mcAll_ok (all : List (McSeries L)) (k : ℕ) (h : ∀ j < k, ∀ s ∈ all, 0 < s.len → s.cat j s.start ≠ none) :
    ∃ r, mcAll all k = .ok r ∧ r.length = k ∧ ∀ j < k, (r.getD j []).Nodup ∧
      ∀ v, v ∈ r.getD j [] ↔ ∃ s ∈ all, 0 < s.len ∧ s.cat j s.start = some v := by
  obtain ⟨r, hr, hl, hi⟩ := mcMapM (mcLabels all) (List.range k) fun j hj => by
    obtain ⟨ls, h1, _⟩ := mcLabels_ok all j (h j (List.mem_range.1 hj))
    exact ⟨ls, h1⟩
  refine ⟨r, hr, by simpa using hl, fun j hj => ?_⟩
  obtain ⟨ls, h1, h2, h3⟩ := mcLabels_ok all j (h j hj)
  have := hi j (by simpa using hj)
  rw [List.getElem_range, h1] at this
  cases this
  exact ⟨h2, h3⟩

/-- The indicators of `v` among the labels. -/
def McBlock (ls : List L) (v : Option L) : List (McCell L) := ls.map fun c => .num (if v = some c then 1 else 0)

theorem mcRow_oneHot (labels : List (List L)) (s : McSeries L) (t : ℤ) :
    mcRow true labels s t = labels.zipIdx.flatMap fun p => McBlock p.1 (s.cat p.2 t) := rfl

theorem mcFlat_eq (f g : ℕ → Option L) : ∀ (labels : List (List L)) (n : ℕ),
    (labels.zipIdx n).flatMap (fun p => McBlock p.1 (f p.2)) = (labels.zipIdx n).flatMap (fun p => McBlock p.1 (g p.2)) ↔
      ∀ j < labels.length, McBlock (labels.getD j []) (f (n + j)) = McBlock (labels.getD j []) (g (n + j))
  | [], n => by simp
  | ls :: labels, n => by
    rw [List.zipIdx_cons, List.flatMap_cons, List.flatMap_cons]
    constructor
    · intro h j hj
      obtain ⟨h1, h2⟩ := List.append_inj h (by simp [McBlock])
      cases j with
      | zero => exact h1
      | succ j =>
        have := (mcFlat_eq f g labels (n + 1)).1 h2 j (by simpa using hj)
        rw [show n + (j + 1) = n + 1 + j by omega]
        exact this
    · intro h
      have h0 := h 0 (by simp)
      have h2 := (mcFlat_eq f g labels (n + 1)).2 fun j hj => by
        have := h (j + 1) (by simpa using hj)
        rw [show n + (j + 1) = n + 1 + j by omega] at this
        exact this
      rw [h2]
      exact congrArg (· ++ _) h0

theorem mcBlock_inj (ls : List L) (v w : L) (hv : v ∈ ls) (h : McBlock ls (some v) = McBlock ls (some w)) : v = w := by
  unfold McBlock at h
  have := List.map_inj_left.1 h v hv
  by_contra hne
  simp [Ne.symm hne] at this

theorem mcBlock_count (ls : List L) (hn : ls.Nodup) (v : L) (hv : v ∈ ls) :
    (McBlock ls (some v)).count (.num 1) = 1 := by
  unfold McBlock
  rw [List.count, List.countP_map]
  refine Eq.trans ?_ (List.count_eq_one_of_mem hn hv)
  apply List.countP_congr
  intro c _
  by_cases h : v = c
  · simp [h]
  · simp [h, Ne.symm h]

theorem mcFlat_count (f : ℕ → Option L) : ∀ (labels : List (List L)) (n : ℕ),
    (∀ j < labels.length, (McBlock (labels.getD j []) (f (n + j))).count (.num 1) = 1) →
    ((labels.zipIdx n).flatMap fun p => McBlock p.1 (f p.2)).count (.num 1) = labels.length
  | [], n, _ => by simp
  | ls :: labels, n, h => by
    rw [List.zipIdx_cons, List.flatMap_cons, List.count_append, mcFlat_count f labels (n + 1) fun j hj => by
      have := h (j + 1) (by simpa using hj)
      rw [show n + (j + 1) = n + 1 + j by omega] at this
      exact this]
    have := h 0 (by simp)
    rw [List.getD_cons_zero, Nat.add_zero] at this
    rw [this, List.length_cons, Nat.add_comm]

/-- C171: if every series has one label in each categorical column, all rows can be encoded by indicators, of which one
for each column is 1, and two rows, of the same or of different series, are encoded in the same way exactly if the series
have the same labels. -/
theorem C171_training_partial (maxLags k : ℕ) (hm : 0 < maxLags) (all : List (McSeries L)) (v : McSeries L → ℕ → L)
    (hc : ∀ s ∈ all, ∀ j < k, McConst s j (v s j)) (s : McSeries L) (hs : s ∈ all) (s' : McSeries L) (hs' : s' ∈ all)
    (last last' : ℤ) (h1 : last < s.start + s.len) (h2 : last' < s'.start + s'.len) :
    ∃ rows rows', mcEmbed true maxLags k all s last = .ok rows ∧ mcEmbed true maxLags k all s' last' = .ok rows' ∧
      rows.length = (last + 1 - (s.start + (maxLags - 1))).toNat ∧
      (∀ r ∈ rows, r.count (.num 1) = k ∧ ∀ c ∈ r, c = .num 0 ∨ c = .num 1) ∧
      ∀ r ∈ rows, ∀ r' ∈ rows', r = r' ↔ ∀ j < k, v s j = v s' j := by
  have hf : ∀ s ∈ all, ∀ j < k, 0 < s.len → s.cat j s.start = some (v s j) := fun s hs j hj hl =>
    hc s hs j hj s.start le_rfl (by omega)
  obtain ⟨labels, hl, hlen, hlab⟩ := mcAll_ok all k fun j hj s hs hp => by rw [hf s hs j hj hp]; simp
  refine ⟨_, _, by unfold mcEmbed; rw [hl]; rfl, by unfold mcEmbed; rw [hl]; rfl, by simp, ?_, ?_⟩
  · intro r hr
    rw [List.mem_map] at hr
    obtain ⟨i, hi, rfl⟩ := hr
    rw [List.mem_range] at hi
    rw [mcRow_oneHot]
    constructor
    · rw [mcFlat_count (fun j => s.cat j (s.start + (maxLags - 1) + i)) labels 0, hlen]
      intro j hj
      rw [hlen] at hj
      rw [Nat.zero_add, hc s hs j hj _ (by omega) (by omega)]
      exact mcBlock_count _ (hlab j hj).1 _ (((hlab j hj).2 _).2 ⟨s, hs, by omega, hf s hs j hj (by omega)⟩)
    · intro c hcm
      obtain ⟨p, _, hp⟩ := List.mem_flatMap.1 hcm
      obtain ⟨x, _, rfl⟩ := List.mem_map.1 hp
      split
      · exact Or.inr rfl
      · exact Or.inl rfl
  intro r hr r' hr'
  rw [List.mem_map] at hr hr'
  obtain ⟨i, hi, rfl⟩ := hr
  obtain ⟨i', hi', rfl⟩ := hr'
  rw [List.mem_range] at hi hi'
  have e1 : ∀ j < k, s.cat j (s.start + (maxLags - 1) + i) = some (v s j) := fun j hj =>
    hc s hs j hj _ (by omega) (by omega)
  have e2 : ∀ j < k, s'.cat j (s'.start + (maxLags - 1) + i') = some (v s' j) := fun j hj =>
    hc s' hs' j hj _ (by omega) (by omega)
  rw [mcRow_oneHot, mcRow_oneHot, mcFlat_eq (fun j => s.cat j (s.start + (maxLags - 1) + i))
    (fun j => s'.cat j (s'.start + (maxLags - 1) + i')) labels 0, hlen]
  constructor
  · intro h j hj
    have := h j hj
    rw [Nat.zero_add, e1 j hj, e2 j hj] at this
    exact mcBlock_inj _ _ _ (((hlab j hj).2 _).2 ⟨s, hs, by omega, hf s hs j hj (by omega)⟩) this
  · intro h j hj
    rw [Nat.zero_add, e1 j hj, e2 j hj, h j hj]

/-- Two series of different categories. -/
def mcExample (v : String) : McSeries String := ⟨0, 4, fun _ _ => some v⟩

example : McConst (mcExample "a") 0 "a" ∧
    mcEmbed true 3 1 [mcExample "a", mcExample "b"] (mcExample "b") 3 =
      .ok [[.num 0, .num 1], [.num 0, .num 1]] := ⟨fun _ _ _ => rfl, by decide +kernel⟩

/-- C171: in a forecast from an origin within the data of each series, the labels are those of training, and the row
is one that training gave to the series. -/
theorem C171_forecast_partial (maxLags k : ℕ) (hm : 0 < maxLags) (all : List (McSeries L × ℤ))
    (v : McSeries L → ℕ → L) (hc : ∀ p ∈ all, ∀ j < k, McConst p.1 j (v p.1 j))
    (ho : ∀ p ∈ all, p.1.start + (maxLags - 1) ≤ p.2 ∧ p.2 < p.1.start + p.1.len) (s : McSeries L) (o : ℤ)
    (hs : (s, o) ∈ all) :
    ∃ row rows, mcForecast true maxLags k all s o = .ok [row] ∧
      mcEmbed true maxLags k (all.map Prod.fst) s o = .ok rows ∧ row ∈ rows := by
  have hl : mcAll (all.map fun p => mcWindow maxLags p.2 p.1) k = mcAll (all.map Prod.fst) k := by
    unfold mcAll
    have : ∀ j ∈ List.range k, mcLabels (all.map fun p => mcWindow maxLags p.2 p.1) j =
        mcLabels (all.map Prod.fst) j := by
      intro j hj
      unfold mcLabels
      rw [List.flatMap_map, List.flatMap_map]
      have : ∀ p ∈ all, (if (mcWindow maxLags p.2 p.1).len = 0 then []
          else [(mcWindow maxLags p.2 p.1).cat j (mcWindow maxLags p.2 p.1).start]) =
          if p.1.len = 0 then [] else [p.1.cat j p.1.start] := by
        intro p hp
        obtain ⟨h1, h2⟩ := ho p hp
        have hcc := hc p hp j (List.mem_range.1 hj)
        rw [if_neg (show ¬ (mcWindow maxLags p.2 p.1).len = 0 by simp only [mcWindow]; omega),
          if_neg (show ¬ p.1.len = 0 by omega)]
        simp only [mcWindow]
        rw [if_pos (by omega), hcc _ (by omega) (by omega), hcc _ le_rfl (by omega)]
      rw [List.flatMap_congr this]
    exact mcMapM_congr _ _ _ this
  have hw : ∀ j < k, ∀ t ∈ (all.map Prod.fst), 0 < t.len → t.cat j t.start ≠ none := by
    intro j hj t ht hp
    obtain ⟨p, hp', rfl⟩ := List.mem_map.1 ht
    rw [hc p hp' j hj _ le_rfl (by omega)]
    simp
  obtain ⟨labels, hlab, _, _⟩ := mcAll_ok (all.map Prod.fst) k hw
  obtain ⟨h1, h2⟩ := ho (s, o) hs
  simp only at h1 h2
  have hn : (o + 1 - ((mcWindow maxLags o s).start + (maxLags - 1))).toNat = 1 := by simp only [mcWindow]; omega
  refine ⟨mcRow true labels s o, _, ?_, by unfold mcEmbed; rw [hlab]; rfl, ?_⟩
  · unfold mcForecast mcEmbed
    rw [hl, hlab, hn]
    show Except.ok [mcRow true labels (mcWindow maxLags o s) _] = _
    congr 2
    have ht : (mcWindow maxLags o s).start + (maxLags - 1) + ((0 : ℕ) : ℤ) = o := by simp only [mcWindow]; omega
    rw [ht]
    have hcat : ∀ j, (mcWindow maxLags o s).cat j o = s.cat j o := fun j => if_pos ⟨by omega, h2⟩
    rw [mcRow_oneHot, mcRow_oneHot]
    simp only [hcat]
  · rw [List.mem_map]
    refine ⟨(o - (s.start + (maxLags - 1))).toNat, by rw [List.mem_range]; omega, ?_⟩
    congr 1
    omega

example : mcForecast true 3 1 [(mcExample "a", 3), (mcExample "b", 3)] (mcExample "b") 3 =
    .ok [[.num 0, .num 1]] := by decide +kernel

/-- C171: in a forecast from forecasts, beyond the data of the series, all indicators are 0, as if it were of no
category; if the window of one series begins after its data, every forecast fails. -/
theorem C171_iterated_violated (maxLags k : ℕ) (hm : 0 < maxLags) (all : List (McSeries L × ℤ))
    (v : McSeries L → ℕ → L) (hc : ∀ p ∈ all, ∀ j < k, McConst p.1 j (v p.1 j)) (s : McSeries L) (o : ℤ)
    (hs : (s, o) ∈ all) (hl : 0 < s.len) :
    ((∀ p ∈ all, p.1.start + (maxLags - 1) ≤ p.2 ∧ p.2 < p.1.start + p.1.len + (maxLags - 1)) → s.start + s.len ≤ o →
      ∃ row, mcForecast true maxLags k all s o = .ok [row] ∧ ∀ c ∈ row, c = .num 0) ∧
    (0 < k → s.start + s.len + (maxLags - 1) ≤ o → ∀ s' o', mcForecast true maxLags k all s' o' = .error .valueError) := by
  constructor
  · intro ho he
    have hw : ∀ j < k, ∀ t ∈ (all.map fun p => mcWindow maxLags p.2 p.1), 0 < t.len → t.cat j t.start ≠ none := by
      intro j hj t ht _
      obtain ⟨p, hp, rfl⟩ := List.mem_map.1 ht
      obtain ⟨h1, h2⟩ := ho p hp
      simp only [mcWindow]
      rw [if_pos (by omega), hc p hp j hj _ (by omega) (by omega)]
      simp
    obtain ⟨labels, hlab, _, _⟩ := mcAll_ok _ k hw
    have hn : (o + 1 - ((mcWindow maxLags o s).start + (maxLags - 1))).toNat = 1 := by simp only [mcWindow]; omega
    have ht : (mcWindow maxLags o s).start + (maxLags - 1) + ((0 : ℕ) : ℤ) = o := by simp only [mcWindow]; omega
    refine ⟨mcRow true labels (mcWindow maxLags o s) o, ?_, ?_⟩
    · unfold mcForecast mcEmbed
      rw [hlab, hn]
      show Except.ok [mcRow true labels (mcWindow maxLags o s) _] = _
      rw [ht]
    · intro c h
      rw [mcRow_oneHot, List.mem_flatMap] at h
      obtain ⟨p, _, h⟩ := h
      unfold McBlock at h
      obtain ⟨x, _, rfl⟩ := List.mem_map.1 h
      have hcat : (mcWindow maxLags o s).cat p.2 o = none := if_neg (by omega)
      simp [hcat]
  · intro hk he s' o'
    have h0 : mcLabels (all.map fun p => mcWindow maxLags p.2 p.1) 0 = .error .valueError := by
      unfold mcLabels
      rw [if_pos]
      rw [mcUnique_mem, List.mem_flatMap]
      refine ⟨mcWindow maxLags o s, List.mem_map.2 ⟨(s, o), hs, rfl⟩, ?_⟩
      rw [if_neg (show ¬ (mcWindow maxLags o s).len = 0 by simp only [mcWindow]; omega)]
      simp only [mcWindow]
      rw [if_neg (by omega)]
      simp
    obtain ⟨k, rfl⟩ : ∃ n, k = n + 1 := ⟨k - 1, by omega⟩
    unfold mcForecast mcEmbed mcAll
    rw [List.range_succ_eq_map, List.mapM_cons, h0]
    rfl

example : mcForecast true 3 1 [(mcExample "a", 4), (mcExample "b", 4)] (mcExample "b") 4 = .ok [[.num 0, .num 0]] ∧
    mcForecast true 3 1 [(mcExample "a", 6), (mcExample "b", 6)] (mcExample "b") 6 = .error .valueError := by
  decide +kernel

/-- C171: a category that a series only has later is encoded as none, if no series begins with it. Without one-hot
encoding, which is to give numbers, the features are the labels themselves. -/
theorem C171_labels_violated :
    (∃ (all : List (McSeries String)) (s : McSeries String) (rows : List (List (McCell String))), s ∈ all ∧
      mcEmbed true 1 1 all s (s.start + 1) = .ok rows ∧ s.len = 2 ∧ s.cat 0 (s.start + 1) = some "b" ∧
      rows = [[.num 1], [.num 0]]) ∧
    ∀ (maxLags k : ℕ) (all : List (McSeries L)) (s : McSeries L) (last : ℤ) (rows : List (List (McCell L))),
      mcEmbed false maxLags k all s last = .ok rows → ∀ r ∈ rows, ∀ c ∈ r, ∃ v, c = .label v := by
  refine ⟨⟨[⟨0, 2, fun _ t => if t = 0 then some "a" else some "b"⟩], ⟨0, 2, fun _ t => if t = 0 then some "a" else some "b"⟩,
    _, by simp, rfl, rfl, rfl, by decide +kernel⟩, ?_⟩
  intro maxLags k all s last rows h r hr c hcm
  unfold mcEmbed at h
  cases hl : mcAll all k with
  | error e => rw [hl] at h; cases h
  | ok labels =>
    rw [hl] at h
    cases h
    obtain ⟨i, _, rfl⟩ := List.mem_map.1 hr
    unfold mcRow at hcm
    obtain ⟨p, _, hp⟩ := List.mem_flatMap.1 hcm
    exact ⟨_, List.mem_singleton.1 hp⟩

example : mcEmbed false 3 1 [mcExample "a"] (mcExample "a") 2 = .ok [[.label (some "a")]] := by decide +kernel

end Kats
