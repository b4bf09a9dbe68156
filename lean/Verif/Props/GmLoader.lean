import Verif.Model.GmBatch
import Verif.Props.GmSplit
import Mathlib.Tactic.Linarith
import Mathlib.Tactic.Positivity

/-!
# C136: the batches of series of a global model
-/

namespace Kats

/-! ## The order -/

/-- The loader holds the lengths of a data set, and has a magnitude if it has test series. -/
structure GmHolds (l : GmLoader) (data : List (GmKey × Nat)) : Prop where
  keys : l.keys = data.map (·.1)
  lengths : l.lengths = data.map (·.2)
  nodup : (data.map (·.1)).Nodup
  ne : data ≠ []
  test : l.testLengths = none ∨ l.magnitude ≠ none

/-- The random numbers are what numpy makes. -/
structure GmRandOk (R : GmRand) : Prop where
  unit : ∀ k i, 0 ≤ R.uniform k i ∧ R.uniform k i < 1
  perm : ∀ k rows, (R.shuffle k rows).Perm rows

theorem newOrder_sorted (l : GmLoader) (u : Nat → Rat) (hu : ∀ i, 0 ≤ u i ∧ u i < 1)
    (ht : l.testLengths = none ∨ l.magnitude ≠ none) :
    ∃ o, gmNewOrder l u = .ok o ∧ o.Perm (List.range l.keys.length) ∧
      o.Pairwise fun i j => l.lengths.getD i 0 ≤ l.lengths.getD j 0 := by
  unfold gmNewOrder
  rcases htl : l.testLengths with _ | t
  · refine ⟨_, rfl, List.mergeSort_perm _ _, ?_⟩
    have hs := List.pairwise_mergeSort (l := List.range l.keys.length)
      (le := fun i j => decide ((l.lengths.getD i 0 : Rat) + u i ≤ (l.lengths.getD j 0 : Rat) + u j))
      (by intro a b c h1 h2; rw [decide_eq_true_eq] at *; exact le_trans h1 h2)
      (by
        intro a b
        rw [Bool.or_eq_true, decide_eq_true_eq, decide_eq_true_eq]
        exact le_total _ _)
    refine hs.imp fun {i j} h => ?_
    rw [decide_eq_true_eq] at h
    by_contra hlt
    have h1 : (l.lengths.getD j 0 : Rat) + 1 ≤ (l.lengths.getD i 0 : Rat) := by
      exact_mod_cast (by omega : l.lengths.getD j 0 + 1 ≤ l.lengths.getD i 0)
    linarith [(hu i).1, (hu j).2]
  · rcases hm : l.magnitude with _ | m
    · rw [htl, hm] at ht; simp at ht
    · refine ⟨_, rfl, List.mergeSort_perm _ _, ?_⟩
      have hs := List.pairwise_mergeSort (l := List.range l.keys.length)
        (le := fun i j => decide (l.lengths.getD i 0 < l.lengths.getD j 0 ∨
          (l.lengths.getD i 0 = l.lengths.getD j 0 ∧
            (t.getD i 0 : Rat) + u i * m ≤ (t.getD j 0 : Rat) + u j * m)))
        (by
          intro a b c h1 h2
          rw [decide_eq_true_eq] at *
          rcases h1 with h1 | ⟨h1, h3⟩ <;> rcases h2 with h2 | ⟨h2, h4⟩
          · exact Or.inl (by omega)
          · exact Or.inl (by omega)
          · exact Or.inl (by omega)
          · exact Or.inr ⟨by omega, le_trans h3 h4⟩)
        (by
          intro a b
          rw [Bool.or_eq_true, decide_eq_true_eq, decide_eq_true_eq]
          rcases Nat.lt_trichotomy (l.lengths.getD a 0) (l.lengths.getD b 0) with h | h | h
          · exact Or.inl (Or.inl h)
          · rcases le_total ((t.getD a 0 : Rat) + u a * m) ((t.getD b 0 : Rat) + u b * m) with h2 | h2
            · exact Or.inl (Or.inr ⟨h, h2⟩)
            · exact Or.inr (Or.inr ⟨h.symm, h2⟩)
          · exact Or.inr (Or.inl h))
      refine hs.imp fun {i j} h => ?_
      rw [decide_eq_true_eq] at h
      omega

/-! ## One epoch -/

/-- `n` calls of `get_batch(size)`. -/
def gmRun (R : GmRand) (size : Int) : Nat → GmLoader → GmLoader × List (Except Err (List GmKey))
  | 0, l => (l, [])
  | n + 1, l =>
    let r := gmGet R l size
    let q := gmRun R size n r.1
    (q.1, r.2 :: q.2)

/-- An epoch of batches of size `b`: every key once; as many batches as needed, all full but the last
one; any two batches are ordered by the lengths of their series; the one that is not full has the
longest. -/
structure GmEpoch (data : List (GmKey × Nat)) (b : Nat) (E : List (List GmKey)) : Prop where
  all : E.flatten.Perm (data.map (·.1))
  number : E.length = (data.length + b - 1) / b
  size : ∀ (i : Nat) B, E[i]? = some B → B.length = min b (data.length - i * b)
  grouped : E.Pairwise fun B B' =>
    (∀ x ∈ data, ∀ y ∈ data, x.1 ∈ B → y.1 ∈ B' → x.2 ≤ y.2) ∨
    (∀ x ∈ data, ∀ y ∈ data, x.1 ∈ B → y.1 ∈ B' → y.2 ≤ x.2)
  rest : ∀ B ∈ E, ∀ L ∈ E, B.length = b → L.length < b →
    ∀ x ∈ data, ∀ y ∈ data, x.1 ∈ B → y.1 ∈ L → x.2 ≤ y.2

theorem rows_flatten {α : Type} (ks : List α) (b m : Nat) :
    ((List.range m).map fun i => (ks.drop (i * b)).take b).flatten = ks.take (m * b) := by
  have := gmCuts_flatten ks (fun i => i * b) (by simp) (fun i => Nat.mul_le_mul_right _ (by omega)) m
  rw [← this]
  congr 1
  apply List.map_congr_left
  intro i _
  rw [List.take_drop, show i * b + b = (i + 1) * b by ring]

/-- What a shuffling leaves: the batches, full ones and the rest, make an epoch. -/
theorem shuffle_epoch (R : GmRand) (hR : GmRandOk R) (l : GmLoader) (data : List (GmKey × Nat))
    (h : GmHolds l data) (b : Nat) (hb : 1 ≤ b) :
    ∃ l', gmShuffle R l b = .ok l' ∧ GmHolds l' data ∧ l'.batchSize = b ∧ l'.idx = -1 ∧
      l'.batchNum = (l'.batches.length : Int) ∧ GmEpoch data b (l'.batches ++ l'.lastBatch.toList) := by
  obtain ⟨o, ho, hperm, hsort⟩ := newOrder_sorted l (R.uniform l.draws) (hR.unit _) h.test
  unfold gmShuffle
  rw [if_neg (by omega), ho]
  obtain ⟨ks, hks⟩ : ∃ ks, ks = o.map fun i => l.keys.getD i (.int 0) := ⟨_, rfl⟩
  have hn : l.keys.length = data.length := by rw [h.keys, List.length_map]
  have hko : ks.length = data.length := by
    rw [hks, List.length_map, hperm.length_eq, List.length_range, hn]
  have hkp : ks.Perm (data.map (·.1)) := by
    rw [hks]
    refine (hperm.map _).trans ?_
    rw [h.keys]
    apply List.Perm.of_eq
    apply List.ext_getElem?
    intro i
    rw [List.getElem?_map]
    by_cases hi : i < data.length
    · rw [List.getElem?_range (by simpa using hi), List.getElem?_map, List.getElem?_eq_getElem hi]
      simp [List.getD_eq_getElem?_getD, hi]
    · rw [List.getElem?_eq_none (by simpa using hi), List.getElem?_eq_none (by simpa using hi)]
      rfl
  have hinj : ∀ x ∈ data, ∀ y ∈ data, x.1 = y.1 → x = y := fun x hx y hy he =>
    List.inj_on_of_nodup_map h.nodup hx hy he
  have hkpair : ks.Pairwise fun k k' => ∀ x ∈ data, ∀ y ∈ data, x.1 = k → y.1 = k' → x.2 ≤ y.2 := by
    rw [hks, List.pairwise_map]
    have hmem : ∀ i ∈ o, i < data.length := fun i hi => by
      have := List.mem_range.1 (hperm.mem_iff.1 hi)
      omega
    refine List.Pairwise.imp_of_mem ?_ hsort
    intro i j hi hj hle x hx y hy hxk hyk
    have e : ∀ i, i < data.length → ∀ x ∈ data, x.1 = l.keys.getD i (.int 0) →
        l.lengths.getD i 0 = x.2 := by
      intro i hi x hx hxk
      rw [h.keys, List.getD_eq_getElem?_getD, List.getElem?_map, List.getElem?_eq_getElem hi] at hxk
      have := hinj x hx data[i] (List.getElem_mem hi) hxk
      rw [h.lengths, List.getD_eq_getElem?_getD, List.getElem?_map, List.getElem?_eq_getElem hi, this]
      rfl
    rw [← e i (hmem i hi) x hx hxk, ← e j (hmem j hj) y hy hyk]
    exact hle
  obtain ⟨m, hm⟩ : ∃ m, m = data.length / b := ⟨_, rfl⟩
  have hmb : m * b ≤ data.length := by rw [hm]; exact Nat.div_mul_le_self _ _
  have hmb2 : data.length < m * b + b := by
    have := Nat.lt_div_mul_add (a := data.length) hb
    rw [← hm] at this
    exact this
  obtain ⟨rows, hrows⟩ : ∃ rows, rows = (List.range m).map fun i => (ks.drop (i * b)).take b := ⟨_, rfl⟩
  have hrl : rows.length = m := by rw [hrows]; simp
  have hrlen : ∀ B ∈ rows, B.length = b := by
    intro B hB
    rw [hrows, List.mem_map] at hB
    obtain ⟨i, hi, rfl⟩ := hB
    rw [List.mem_range] at hi
    have : (i + 1) * b ≤ m * b := Nat.mul_le_mul_right _ (by omega)
    have e : (i + 1) * b = i * b + b := by ring
    rw [List.length_take, List.length_drop, hko]
    omega
  obtain ⟨last, hlast⟩ : ∃ last, last = if m * b < data.length then some (ks.drop (m * b)) else none :=
    ⟨_, rfl⟩
  have hsp := hR.perm l.draws rows
  obtain ⟨S, hS⟩ : ∃ S, S = R.shuffle l.draws rows := ⟨_, rfl⟩
  have hSl : S.length = m := by rw [hS, hsp.length_eq, hrl]
  rw [← hS] at hsp
  have hSlen : ∀ B ∈ S, B.length = b := fun B hB => hrlen B (hsp.mem_iff.1 hB)
  have hE0 : (rows ++ last.toList).flatten = ks := by
    rw [List.flatten_append, hrows, rows_flatten, hlast]
    split
    · simp
    · simp only [Option.toList_none, List.flatten_nil, List.append_nil]
      exact List.take_of_length_le (by omega)
  have hEp : (S ++ last.toList).Perm (rows ++ last.toList) := hsp.append_right _
  have hpair : (rows ++ last.toList).Pairwise fun B B' =>
      ∀ x ∈ data, ∀ y ∈ data, x.1 ∈ B → y.1 ∈ B' → x.2 ≤ y.2 := by
    rw [← hE0, List.pairwise_flatten] at hkpair
    exact hkpair.2.imp fun {B B'} hBB x hx y hy h1 h2 => hBB x.1 h1 y.1 h2 x hx y hy rfl rfl
  refine ⟨_, rfl, ⟨h.keys, h.lengths, h.nodup, h.ne, h.test⟩, rfl, rfl, ?_, ?_⟩
  · show (((l.keys.length / (b : Int).toNat : Nat)) : Int) =
      ((R.shuffle l.draws ((List.range (l.keys.length / (b : Int).toNat)).map fun i =>
        ((o.map fun i => l.keys.getD i (.int 0)).drop (i * (b : Int).toNat)).take
          (b : Int).toNat)).length : Int)
    rw [Int.toNat_natCast, hn, ← hm, ← hks, ← hrows, ← hS, hSl]
  · show GmEpoch data b (R.shuffle l.draws ((List.range (l.keys.length / (b : Int).toNat)).map fun i =>
        ((o.map fun i => l.keys.getD i (.int 0)).drop (i * (b : Int).toNat)).take (b : Int).toNat) ++
      (if l.keys.length / (b : Int).toNat * (b : Int).toNat < l.keys.length then
        some ((o.map fun i => l.keys.getD i (.int 0)).drop
          (l.keys.length / (b : Int).toNat * (b : Int).toNat)) else none).toList)
    rw [Int.toNat_natCast, hn, ← hm, ← hks, ← hrows, ← hS, ← hlast]
    have hlastlen : ∀ L, last = some L → L.length = data.length - m * b ∧ m * b < data.length := by
      intro L hL
      rw [hlast] at hL
      split at hL
      · injection hL with hL
        rw [← hL, List.length_drop, hko]
        exact ⟨rfl, by assumption⟩
      · cases hL
    refine ⟨?_, ?_, ?_, ?_, ?_⟩
    · refine (hEp.flatten).trans ?_
      rw [hE0]
      exact hkp
    · rw [List.length_append, hSl, hlast]
      have hdiv : (data.length + b - 1) / b = if m * b < data.length then m + 1 else m := by
        split
        · rw [Nat.div_eq_of_lt_le]
          · have e : (m + 1) * b = m * b + b := by ring
            omega
          · have e : (m + 1 + 1) * b = m * b + b + b := by ring
            omega
        · rw [Nat.div_eq_of_lt_le]
          · omega
          · have e : (m + 1) * b = m * b + b := by ring
            omega
      rw [hdiv]
      split <;> simp
    · intro i B hB
      by_cases hi : i < m
      · rw [List.getElem?_append_left (by omega)] at hB
        rw [hSlen B (List.mem_of_getElem? hB)]
        have : (i + 1) * b ≤ m * b := Nat.mul_le_mul_right _ (by omega)
        have e : (i + 1) * b = i * b + b := by ring
        omega
      · rw [List.getElem?_append_right (by omega), hSl] at hB
        rcases hl : last with _ | L
        · rw [hl] at hB; simp at hB
        · rw [hl] at hB
          have hi0 : i - m = 0 := by
            by_contra h0
            rw [List.getElem?_eq_none (by simp; omega)] at hB
            cases hB
          rw [hi0] at hB
          simp only [Option.toList_some, List.getElem?_cons_zero, Option.some.injEq] at hB
          have him : i = m := by omega
          rw [← hB, (hlastlen L hl).1, him]
          omega
    · refine (hEp.pairwise_iff ?_).2 (hpair.imp fun hh => Or.inl hh)
      intro B B' hh
      rcases hh with hh | hh
      · exact Or.inr fun x hx y hy h1 h2 => hh y hy x hx h2 h1
      · exact Or.inl fun x hx y hy h1 h2 => hh y hy x hx h2 h1
    · intro B hB L hL hBl hLl
      have hLlast : last = some L := by
        rcases List.mem_append.1 hL with hL | hL
        · have := hSlen L hL; omega
        · rcases hl : last with _ | L'
          · rw [hl] at hL; simp at hL
          · rw [hl] at hL; simp at hL; rw [hL]
      have hBrow : B ∈ rows := by
        rcases List.mem_append.1 hB with hB | hB
        · exact hsp.mem_iff.1 hB
        · rw [hLlast] at hB
          simp at hB
          rw [hB] at hBl
          omega
      rw [hLlast] at hpair
      exact (List.pairwise_append.1 hpair).2.2 B hBrow L (by simp)

/-- The calls after the first one of an epoch. -/
theorem run_rest (R : GmRand) (b : Nat) (E : List (List GmKey)) : ∀ (k j : Nat) (l : GmLoader),
    l.batchSize = b → l.batchNum = (l.batches.length : Int) → E = l.batches ++ l.lastBatch.toList →
    l.idx = j → j + k + 1 ≤ E.length →
    gmRun R b k l = ({ l with idx := ((j + k : Nat) : Int) }, ((E.drop (j + 1)).take k).map .ok) := by
  intro k
  induction k with
  | zero =>
    intro j l _ _ _ h4 _
    simp only [gmRun, List.take_zero, List.map_nil, Nat.add_zero, ← h4]
  | succ k ih =>
    intro j l h1 h2 h3 h4 h5
    have hj : j + 1 < E.length := by omega
    have hat : gmAt { l with idx := l.idx + 1 } b = some E[j + 1] := by
      unfold gmAt
      simp only []
      rw [if_pos h1.symm, h4, h2]
      by_cases hlt : j + 1 < l.batches.length
      · rw [if_pos (by omega)]
        have : ((j : Int) + 1).toNat = j + 1 := by omega
        rw [this, List.getD_eq_getElem?_getD, List.getElem?_eq_getElem hlt]
        simp only [h3, List.getElem_append_left hlt, Option.getD_some]
      · rw [if_neg (by omega)]
        have hEl : E.length = l.batches.length + l.lastBatch.toList.length := by
          rw [h3, List.length_append]
        rcases hl : l.lastBatch with _ | L
        · rw [hl] at hEl; simp at hEl; omega
        · rw [hl] at hEl
          simp at hEl
          rw [if_pos (by omega)]
          congr 1
          have h0 : E[j + 1]? = some L := by
            rw [h3, List.getElem?_append_right (by omega), hl]
            have : j + 1 - l.batches.length = 0 := by omega
            rw [this]; rfl
          rw [List.getElem?_eq_getElem hj] at h0
          exact (Option.some.inj h0).symm
    have hget : gmGet R l b = ({ l with idx := l.idx + 1 }, .ok E[j + 1]) := by
      unfold gmGet
      simp only []
      rw [hat]
    have hrest := ih (j + 1) { l with idx := l.idx + 1 } h1 h2 h3 (by simp only [h4]; push_cast; rfl) (by omega)
    unfold gmRun
    simp only [hget, hrest]
    refine Prod.ext ?_ ?_
    · simp only []
      congr 1
      push_cast
      ring
    · simp only []
      rw [List.drop_eq_getElem_cons hj, List.take_succ_cons, List.map_cons]

/-- The next call for batches of size `b` makes new ones. -/
def GmFresh (l : GmLoader) (b : Nat) : Prop := gmAt { l with idx := l.idx + 1 } b = none

/-- C136: if the next call makes new batches, as many calls as there are batches make an epoch; and
the call after them makes new ones again. -/
theorem C136_epoch (R : GmRand) (hR : GmRandOk R) (l : GmLoader) (data : List (GmKey × Nat))
    (h : GmHolds l data) (b : Nat) (hb : 1 ≤ b) (hf : GmFresh l b) :
    ∃ E, (gmRun R b ((data.length + b - 1) / b) l).2 = E.map .ok ∧ GmEpoch data b E ∧
      GmHolds (gmRun R b ((data.length + b - 1) / b) l).1 data ∧
      GmFresh (gmRun R b ((data.length + b - 1) / b) l).1 b := by
  obtain ⟨l', h1, h2, h3, h4, h5, h6⟩ := shuffle_epoch R hR { l with idx := l.idx + 1 } data
    ⟨h.keys, h.lengths, h.nodup, h.ne, h.test⟩ b hb
  obtain ⟨E, hE⟩ : ∃ E, E = l'.batches ++ l'.lastBatch.toList := ⟨_, rfl⟩
  rw [← hE] at h6
  have hn0 : 0 < data.length := List.length_pos_iff.2 h.ne
  have hpos : 0 < (data.length + b - 1) / b := Nat.div_pos (by omega) (by omega)
  obtain ⟨k, hk⟩ : ∃ k, (data.length + b - 1) / b = k + 1 := ⟨(data.length + b - 1) / b - 1, by omega⟩
  have hEl : E.length = k + 1 := by rw [h6.number, hk]
  have hat : gmAt { l' with idx := l'.idx + 1 } b = some E[0] := by
    unfold gmAt
    simp only []
    rw [if_pos h3.symm, h4, h5]
    by_cases hlt : 0 < l'.batches.length
    · rw [if_pos (by omega)]
      have : ((-1 : Int) + 1).toNat = 0 := by norm_num
      rw [this, List.getD_eq_getElem?_getD, List.getElem?_eq_getElem hlt]
      simp only [hE, List.getElem_append_left hlt, Option.getD_some]
    · rw [if_neg (by omega), if_pos (by omega)]
      have hb0 : l'.batches = [] := List.length_eq_zero_iff.1 (by omega)
      rcases hl : l'.lastBatch with _ | L
      · rw [hb0, hl] at hE
        rw [hE] at hEl
        simp at hEl
      · congr 1
        have h0 : E[0]? = some L := by rw [hE, hb0, hl]; rfl
        rw [List.getElem?_eq_getElem (by omega)] at h0
        exact (Option.some.inj h0).symm
  have hget : gmGet R l b = ({ l' with idx := l'.idx + 1 }, .ok E[0]) := by
    unfold gmGet
    have hf' : gmAt { l with idx := l.idx + 1 } (b : Int) = none := hf
    simp only []
    rw [hf', h1]
    simp only []
    rw [hat]
  have hrest := run_rest R b E k 0 { l' with idx := l'.idx + 1 } h3 h5 hE (by simp only [h4]; rfl)
    (by omega)
  have hrun : gmRun R b ((data.length + b - 1) / b) l =
      ({ l' with idx := ((0 + k : Nat) : Int) }, E.map .ok) := by
    rw [hk]
    unfold gmRun
    simp only [hget, hrest]
    refine Prod.ext rfl ?_
    simp only []
    rw [← List.map_cons, List.take_of_length_le (by simp; omega), ← List.drop_eq_getElem_cons (by omega),
      List.drop_zero]
  rw [hrun]
  refine ⟨E, rfl, h6, ⟨h2.keys, h2.lengths, h2.nodup, h2.ne, h2.test⟩, ?_⟩
  unfold GmFresh gmAt
  simp only []
  rw [if_pos h3.symm, h5]
  have hEl2 : E.length = l'.batches.length + l'.lastBatch.toList.length := by
    rw [hE, List.length_append]
  rcases hl : l'.lastBatch with _ | L
  · rw [hl] at hEl2
    simp at hEl2
    rw [if_neg (by omega)]
    split <;> rfl
  · rw [hl] at hEl2
    simp at hEl2
    rw [if_neg (by omega), if_neg (by omega)]

/-- C136: so every epoch is one, and series are seen equally often. -/
theorem C136_epochs (R : GmRand) (hR : GmRandOk R) (data : List (GmKey × Nat)) (b : Nat) (hb : 1 ≤ b) :
    ∀ (e : Nat) (l : GmLoader), GmHolds l data → GmFresh l b →
    ∃ Es : List (List (List GmKey)), Es.length = e ∧ (∀ E ∈ Es, GmEpoch data b E) ∧
      (gmRun R b (e * ((data.length + b - 1) / b)) l).2 = Es.flatten.map .ok := by
  have hsucc : ∀ (n : Nat) (l : GmLoader), gmRun R b (n + 1) l =
      ((gmRun R b n (gmGet R l b).1).1, (gmGet R l b).2 :: (gmRun R b n (gmGet R l b).1).2) :=
    fun _ _ => rfl
  have happ : ∀ (n m : Nat) (l : GmLoader), gmRun R b (n + m) l =
      ((gmRun R b m (gmRun R b n l).1).1, (gmRun R b n l).2 ++ (gmRun R b m (gmRun R b n l).1).2) := by
    intro n m
    induction n with
    | zero => intro l; rw [Nat.zero_add]; rfl
    | succ n ih =>
      intro l
      rw [show n + 1 + m = (n + m) + 1 by omega, hsucc, ih, hsucc]
      rfl
  intro e
  induction e with
  | zero => intro l _ _; exact ⟨[], rfl, by simp, by rw [Nat.zero_mul]; rfl⟩
  | succ e ih =>
    intro l h hf
    obtain ⟨E, h1, h2, h3, h4⟩ := C136_epoch R hR l data h b hb hf
    obtain ⟨Es, g1, g2, g3⟩ := ih _ h3 h4
    refine ⟨E :: Es, by simp [g1], ?_, ?_⟩
    · intro E' hE'
      rcases List.mem_cons.1 hE' with rfl | hE'
      · exact h2
      · exact g2 E' hE'
    · rw [Nat.succ_mul, Nat.add_comm (e * _), happ]
      simp only []
      rw [h1, g3, List.flatten_cons, List.map_append]

/-! ## Construction -/

theorem gmValid_ok (data : List (GmKey × Nat)) (hne : data ≠ [])
    (hplain : gmNpKeys (data.map (·.1)) = data.map (·.1)) (hd : (data.map (·.1)).Nodup) :
    gmValid data = .ok (data.map (·.1), data.map (·.2)) := by
  unfold gmValid
  have hlen : 0 < data.length := List.length_pos_iff.2 hne
  rw [if_neg (by omega), hplain]
  have : (data.map (·.1)).mapM (gmLookup data) = .ok (data.map (·.2)) := by
    have key : ∀ l : List (GmKey × Nat), (∀ x ∈ l, x ∈ data) →
        (l.map (·.1)).mapM (gmLookup data) = .ok (l.map (·.2)) := by
      intro l hl
      induction l with
      | nil => rfl
      | cons x l ih =>
        rw [List.map_cons, List.mapM_cons, gmLookup_mem data hd x (hl x (by simp)),
          ih fun y hy => hl y (by simp [hy])]
        rfl
    exact key data fun _ hx => hx
  simp only []
  rw [this]
  rfl

/-- C136, the part that holds: for keys of one kind and a positive magnitude (or no test series), the
new loader holds the data, and its first call makes new batches whatever their size. -/
theorem C136_init_partial (data : List (GmKey × Nat)) (hne : data ≠ [])
    (hplain : gmNpKeys (data.map (·.1)) = data.map (·.1)) (hd : (data.map (·.1)).Nodup)
    (test : Option (List (GmKey × Nat)))
    (ht : ∀ t, test = some t → (t.map (·.1)).Perm (data.map (·.1)) ∧
      gmNpKeys (t.map (·.1)) = t.map (·.1)) (magnitude : Rat) (hm : 0 < magnitude ∨ test = none) :
    ∃ l, gmLoaderInit data test magnitude = .ok l ∧ GmHolds l data ∧ ∀ b, 1 ≤ b → GmFresh l b := by
  have htl : ∃ tl, gmTestLengths (data.map (·.1)) test = .ok tl ∧ (test = none → tl = none) := by
    rcases test with _ | t
    · exact ⟨none, rfl, fun _ => rfl⟩
    · obtain ⟨h1, h2⟩ := ht t rfl
      have hv := gmValid_ok t (by
        rintro rfl
        have := h1.length_eq
        simp at this
        exact hne (List.length_eq_zero_iff.1 this.symm)) h2 (h1.nodup_iff.2 hd)
      refine ⟨some (t.map (·.2)), ?_, fun h => by cases h⟩
      unfold gmTestLengths
      simp only []
      rw [hv]
      show (if _ then _ else _) = _
      rw [if_neg]
      rintro (h | h)
      · exact h h1.length_eq.symm
      · apply h
        rw [List.filter_eq_self.2]
        intro k hk
        rw [decide_eq_true_eq]
        exact h1.mem_iff.2 hk
  obtain ⟨tl, h1, h2⟩ := htl
  unfold gmLoaderInit
  rw [gmValid_ok data hne hplain hd]
  show ∃ l, (gmTestLengths (data.map (·.1)) test >>= _) = _ ∧ _
  rw [h1]
  refine ⟨_, rfl, ⟨rfl, rfl, hd, hne, ?_⟩, ?_⟩
  · rcases hm with hm | hm
    · right
      show (if 0 < magnitude then some magnitude else none) ≠ none
      rw [if_pos hm]
      simp
    · exact Or.inl (h2 hm)
  · intro b hb
    unfold GmFresh gmAt
    simp only []
    rw [if_neg (by omega)]

/-- C136: asking for another size makes new batches. -/
theorem C136_resize (l : GmLoader) (b : Nat) (h : l.batchSize ≠ b) : GmFresh l b := by
  unfold GmFresh gmAt
  simp only []
  rw [if_neg (by omega)]

/-- Random numbers for the examples. -/
def gmExRand : GmRand := ⟨fun _ _ => 1 / 2, fun _ rows => rows.reverse⟩

theorem gmExRand_ok : GmRandOk gmExRand :=
  ⟨fun _ _ => by constructor <;> (show _ ; norm_num [gmExRand]), fun _ rows => List.reverse_perm rows⟩

/-- Three series in batches of two: two calls for an epoch. -/
example : ∃ l E, gmLoaderInit [(.str "a", 9), (.str "b", 5), (.str "c", 7)] none 5 = .ok l ∧
    (gmRun gmExRand (2 : Nat) 2 l).2 = E.map .ok ∧
    GmEpoch [(.str "a", 9), (.str "b", 5), (.str "c", 7)] 2 E := by
  obtain ⟨l, h1, h2, h3⟩ := C136_init_partial [(.str "a", 9), (.str "b", 5), (.str "c", 7)] (by simp)
    (by decide) (by decide) none (by simp) 5 (Or.inr rfl)
  obtain ⟨E, g1, g2, _⟩ := C136_epoch gmExRand gmExRand_ok l _ h2 2 (by omega) (h3 2 (by omega))
  exact ⟨l, E, h1, g1, g2⟩

/-! ## What does not hold -/

/-- C136 violated: with test series and a magnitude that is not positive, no batch is made. -/
theorem C136_magnitude_violated (R : GmRand) (data test : List (GmKey × Nat)) (magnitude : Rat)
    (hm : magnitude ≤ 0) (l : GmLoader) (h : gmLoaderInit data (some test) magnitude = .ok l) (b : Nat)
    (hb : 1 ≤ b) : (gmGet R l b).2 = .error .attributeError := by
  unfold gmLoaderInit at h
  rcases h1 : gmValid data with e | a
  · rw [h1] at h; cases h
  · rw [h1] at h
    have h : (gmTestLengths a.1 (some test) >>= fun tl => Except.ok (GmLoader.mk a.1 a.2 tl
        (if 0 < magnitude then some magnitude else none) [] (-1) (-1) none (-1) 0)) = .ok l := h
    rcases h2 : gmTestLengths a.1 (some test) with e | tl
    · rw [h2] at h; cases h
    · rw [h2] at h
      have hs : ∃ t, tl = some t := by
        unfold gmTestLengths at h2
        simp only [] at h2
        rcases h3 : gmValid test with e | c
        · rw [h3] at h2; cases h2
        · rw [h3] at h2
          have h2 : (if a.1.length ≠ c.1.length ∨ (a.1.filter fun k => decide (k ∈ c.1)).length ≠ a.1.length
            then Except.error Err.valueError else Except.ok (some c.2)) = Except.ok tl := h2
          split at h2
          · cases h2
          · injection h2 with h2; exact ⟨_, h2.symm⟩
      obtain ⟨t, rfl⟩ := hs
      injection h with h
      subst h
      unfold gmGet gmAt gmShuffle gmNewOrder
      simp only []
      rw [if_neg (show ¬ (b : Int) = -1 by omega)]
      simp only []
      rw [if_neg (show ¬ (b : Int) < 1 by omega), if_neg (show ¬ 0 < magnitude by linarith)]
      rfl

example : ∃ l, gmLoaderInit [(.int 0, 3)] (some [(.int 0, 2)]) 0 = .ok l := ⟨_, rfl⟩

/-- C136 violated: a call with a wrong size in the middle of an epoch skips a batch: it fails, and the
next one returns the batch after the one that was due. -/
theorem C136_rejected_violated (R : GmRand) (b : Nat) (hb : 1 ≤ b) (l : GmLoader)
    (E : List (List GmKey)) (j : Nat) (h1 : l.batchSize = b) (h2 : l.batchNum = (l.batches.length : Int))
    (h3 : E = l.batches ++ l.lastBatch.toList) (h4 : l.idx = j) (B C : List GmKey)
    (hB : E[j + 1]? = some B) (hC : E[j + 2]? = some C) :
    (gmGet R l b).2 = .ok B ∧ (gmGet R l 0).2 = .error .valueError ∧
      (gmGet R (gmGet R l 0).1 b).2 = .ok C := by
  have hlen : j + 2 < E.length := by
    by_contra hn
    rw [List.getElem?_eq_none (by omega)] at hC
    cases hC
  have hz : gmGet R l 0 = ({ l with idx := l.idx + 1 }, .error .valueError) := by
    unfold gmGet gmAt gmShuffle
    simp only []
    rw [if_neg (by omega), if_pos (by norm_num)]
  have key : ∀ (j : Nat) (l : GmLoader) (B : List GmKey), l.batchSize = b →
      l.batchNum = (l.batches.length : Int) → E = l.batches ++ l.lastBatch.toList → l.idx = j →
      E[j + 1]? = some B → (gmGet R l b).2 = .ok B := by
    intro j l B h1 h2 h3 h4 hB
    have hl : j + 1 < E.length := by
      by_contra hn
      rw [List.getElem?_eq_none (by omega)] at hB
      cases hB
    have hr := congrArg Prod.snd (run_rest R b E 1 j l h1 h2 h3 h4 (by omega))
    have hr : [(gmGet R l b).2] = ((E.drop (j + 1)).take 1).map .ok := hr
    rw [List.drop_eq_getElem_cons hl] at hr
    rw [List.getElem?_eq_getElem hl] at hB
    injection hB with hB
    rw [hB] at hr
    simpa using hr
  refine ⟨key j l B h1 h2 h3 h4 hB, by rw [hz], ?_⟩
  rw [hz]
  exact key (j + 1) { l with idx := l.idx + 1 } C h1 h2 h3 (by simp only [h4]; push_cast; rfl) hC

/-- After the first of three batches. -/
example : ∃ l : GmLoader, l.batchSize = (1 : Nat) ∧ l.batchNum = (l.batches.length : Int) ∧ l.idx = (0 : Nat) ∧
    (l.batches ++ l.lastBatch.toList)[1]? = some [.int 4] ∧
    (l.batches ++ l.lastBatch.toList)[2]? = some [.int 5] :=
  ⟨⟨[.int 3, .int 4, .int 5], [1, 1, 1], none, none, [[.int 3], [.int 4], [.int 5]], 1, 3, none, 0, 1⟩,
    rfl, rfl, rfl, rfl, rfl⟩

/-- C136 violated: a dictionary with keys of both kinds is refused with a KeyError. -/
theorem C136_mixed_keys_violated (n m : Nat) (test : Option (List (GmKey × Nat))) (magnitude : Rat) :
    gmLoaderInit [(.str "a", n), (.int 1, m)] test magnitude = .error .keyError := rfl

/-- C136 violated: the test lengths are taken in the order of the test series; if that is another one,
series of one length are not grouped by their test lengths.  Here `a` has 9 test rows and `b` has 1,
but `a` is put before `b` for every small magnitude. -/
theorem C136_test_order_violated (u : Nat → Rat) (hu : ∀ i, 0 ≤ u i ∧ u i < 1) (m : Rat) (hm0 : 0 < m)
    (hm : m ≤ 8) : ∃ l, gmLoaderInit [(.str "a", 5), (.str "b", 5)]
      (some [(.str "b", 1), (.str "a", 9)]) m = .ok l ∧ gmNewOrder l u = .ok [0, 1] := by
  refine ⟨_, rfl, ?_⟩
  unfold gmNewOrder
  show (match (if 0 < m then some m else none) with | none => _ | some m => _) = _
  rw [if_pos hm0]
  show Except.ok _ = Except.ok _
  congr 1
  have hlt : u 0 * m < 8 := by nlinarith [(hu 0).1, (hu 0).2]
  have h1 : 0 ≤ u 1 * m := mul_nonneg (hu 1).1 hm0.le
  apply List.mergeSort_of_pairwise
  simp only [List.length_map, List.length_cons, List.length_nil]
  show List.Pairwise _ [0, 1]
  rw [List.pairwise_pair, decide_eq_true_eq]
  right
  refine ⟨rfl, ?_⟩
  show ((1 : Nat) : Rat) + u 0 * m ≤ ((9 : Nat) : Rat) + u 1 * m
  push_cast
  linarith

end Kats
