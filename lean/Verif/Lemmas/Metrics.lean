import Verif.Model.Metrics
import Mathlib.Tactic.Linarith
import Mathlib.Tactic.Ring
import Mathlib.Tactic.FieldSimp
import Mathlib.Tactic.Positivity
import Mathlib.Algebra.Order.BigOperators.Group.List
import Mathlib.Data.Rat.Cast.Order

/-! Lemmas about means, medians and NaN-aware arithmetic. -/

namespace Kats

/-- The arithmetic mean. -/
def meanQ (l : List Rat) : Rat := l.sum / l.length

theorem nanmean_eq (l : List Val) :
    nanmean l = if l.filterMap id = [] then none else some (meanQ (l.filterMap id)) := by
  unfold nanmean meanQ
  by_cases h : l.filterMap id = [] <;> simp [h]

theorem filterMap_some {α : Type} (l : List α) : (l.map some).filterMap id = l := by
  induction l with
  | nil => rfl
  | cons a l ih => simp

theorem nanmean_some (l : List Rat) (h : l ≠ []) : nanmean (l.map some) = some (meanQ l) := by
  rw [nanmean_eq, filterMap_some, if_neg h]

theorem len_pos {α : Type} {l : List α} (h : l ≠ []) : (0 : Rat) < l.length := by
  exact_mod_cast List.length_pos_iff.2 h

theorem sum_le_mul (l : List Rat) (hi : Rat) (h : ∀ x ∈ l, x ≤ hi) : l.sum ≤ hi * l.length := by
  induction l with
  | nil => simp
  | cons a l ih =>
    have := ih (fun x hx => h x (by simp [hx]))
    have := h a (by simp)
    rw [List.sum_cons, List.length_cons]; push_cast; linarith

theorem mul_le_sum (l : List Rat) (lo : Rat) (h : ∀ x ∈ l, lo ≤ x) : lo * l.length ≤ l.sum := by
  induction l with
  | nil => simp
  | cons a l ih =>
    have := ih (fun x hx => h x (by simp [hx]))
    have := h a (by simp)
    rw [List.sum_cons, List.length_cons]; push_cast; linarith

theorem meanQ_le {l : List Rat} (hne : l ≠ []) {hi : Rat} (h : ∀ x ∈ l, x ≤ hi) : meanQ l ≤ hi := by
  unfold meanQ
  rw [div_le_iff₀ (len_pos hne)]
  exact sum_le_mul l hi h

theorem le_meanQ {l : List Rat} (hne : l ≠ []) {lo : Rat} (h : ∀ x ∈ l, lo ≤ x) : lo ≤ meanQ l := by
  unfold meanQ
  rw [le_div_iff₀ (len_pos hne)]
  exact mul_le_sum l lo h

theorem meanQ_nonneg {l : List Rat} (h : ∀ x ∈ l, 0 ≤ x) : 0 ≤ meanQ l := by
  unfold meanQ
  have := mul_le_sum l 0 h
  rw [zero_mul] at this
  positivity

theorem sum_eq_zero_of_nonneg (l : List Rat) (h : ∀ x ∈ l, 0 ≤ x) (hs : l.sum = 0) :
    ∀ x ∈ l, x = 0 := by
  induction l with
  | nil => simp
  | cons a l ih =>
    have h1 : 0 ≤ l.sum := by
      have := mul_le_sum l 0 (fun x hx => h x (by simp [hx]))
      simpa using this
    have h2 := h a (by simp)
    rw [List.sum_cons] at hs
    have ha : a = 0 := by linarith
    have hl : l.sum = 0 := by linarith
    intro x hx
    rcases List.mem_cons.1 hx with rfl | hx
    · exact ha
    · exact ih (fun x hx => h x (by simp [hx])) hl x hx

theorem meanQ_eq_zero {l : List Rat} (hne : l ≠ []) (h : ∀ x ∈ l, 0 ≤ x) :
    meanQ l = 0 ↔ ∀ x ∈ l, x = 0 := by
  constructor
  · intro hm
    unfold meanQ at hm
    rcases div_eq_zero_iff.1 hm with h0 | h0
    · exact sum_eq_zero_of_nonneg l h h0
    · exact absurd h0 (ne_of_gt (len_pos hne))
  · intro hz
    unfold meanQ
    have : l.sum = 0 := List.sum_eq_zero hz
    rw [this, zero_div]

theorem sum_map_mul (l : List Rat) (c : Rat) : (l.map (· * c)).sum = l.sum * c := by
  induction l with
  | nil => simp
  | cons a l ih => simp only [List.map_cons, List.sum_cons, ih]; ring

theorem abs_sum_le (l : List Rat) : |l.sum| ≤ (l.map fun x => |x|).sum := by
  induction l with
  | nil => simp
  | cons a l ih =>
    rw [List.sum_cons, List.map_cons, List.sum_cons]
    exact le_trans (abs_add_le _ _) (by linarith)

theorem abs_meanQ_le (l : List Rat) : |meanQ l| ≤ meanQ (l.map fun x => |x|) := by
  unfold meanQ
  rw [abs_div, List.length_map, Nat.abs_cast]
  exact div_le_div_of_nonneg_right (abs_sum_le l) (by positivity)

theorem sum_sq_sub (l : List Rat) (m : Rat) :
    (l.map fun x => (x - m) ^ 2).sum
      = (l.map fun x => x ^ 2).sum - 2 * m * l.sum + l.length * m ^ 2 := by
  induction l with
  | nil => simp
  | cons a l ih =>
    simp only [List.map_cons, List.sum_cons, List.length_cons, ih]; push_cast; ring

theorem sq_meanQ_le (l : List Rat) : (meanQ l) ^ 2 ≤ meanQ (l.map fun x => x ^ 2) := by
  by_cases hne : l = []
  · subst hne; simp [meanQ]
  · have hp := len_pos hne
    have h0 : 0 ≤ (l.map fun x => (x - meanQ l) ^ 2).sum := by
      have := mul_le_sum (l.map fun x => (x - meanQ l) ^ 2) 0 (by
        intro x hx
        obtain ⟨y, _, rfl⟩ := List.mem_map.1 hx
        positivity)
      simpa using this
    rw [sum_sq_sub] at h0
    have hs : l.sum = l.length * meanQ l := by unfold meanQ; field_simp
    rw [hs] at h0
    have hd : meanQ (l.map fun x => x ^ 2) = (l.map fun x => x ^ 2).sum / l.length := by
      unfold meanQ; rw [List.length_map]
    rw [hd, le_div_iff₀ hp]
    nlinarith

/-! ### Medians -/

theorem getD_lt {α : Type} {l : List α} {d : α} {i : Nat} (h : i < l.length) :
    l.getD i d = l[i] := by simp [h]


theorem insertionSort_sorted (l : List Rat) : (l.insertionSort (· ≤ ·)).Pairwise (· ≤ ·) :=
  List.pairwise_insertionSort (· ≤ ·) l

theorem insertionSort_perm_eq {l l' : List Rat} (h : l.Perm l') :
    l.insertionSort (· ≤ ·) = l'.insertionSort (· ≤ ·) :=
  List.Perm.eq_of_pairwise (le := (· ≤ ·)) (fun _ _ _ _ h1 h2 => le_antisymm h1 h2)
    (insertionSort_sorted l) (insertionSort_sorted l')
    ((List.perm_insertionSort _ l).trans (h.trans (List.perm_insertionSort _ l').symm))

theorem medianQ_perm {l l' : List Rat} (h : l.Perm l') : medianQ l = medianQ l' := by
  unfold medianQ
  rw [insertionSort_perm_eq h]

theorem medianQ_bounds {l : List Rat} (hne : l ≠ []) {lo hi : Rat}
    (h : ∀ x ∈ l, lo ≤ x ∧ x ≤ hi) : lo ≤ medianQ l ∧ medianQ l ≤ hi := by
  unfold medianQ
  dsimp only
  set s := l.insertionSort (· ≤ ·) with hs
  have hl : s.length = l.length := List.length_insertionSort _ l
  have hp : 0 < s.length := by rw [hl]; exact List.length_pos_iff.2 hne
  have hb : ∀ i, i < s.length → lo ≤ s.getD i 0 ∧ s.getD i 0 ≤ hi := by
    intro i hi
    rw [getD_lt hi]
    exact h _ ((List.perm_insertionSort _ l).mem_iff.1 (List.getElem_mem hi))
  split
  · exact hb _ (by omega)
  · have h1 := hb (s.length / 2 - 1) (by omega)
    have h2 := hb (s.length / 2) (by omega)
    constructor
    · rw [le_div_iff₀ (by norm_num)]; linarith
    · rw [div_le_iff₀ (by norm_num)]; linarith

/-- In a sorted list the first `k` entries are below any `m` that is above entry `k-1`. -/
theorem count_le_of_sorted {s : List Rat} (hs : s.Pairwise (· ≤ ·)) (m : Rat) (k : Nat)
    (hk : k ≤ s.length) (h : ∀ i (hi : i < s.length), i + 1 = k → s[i] ≤ m) :
    k ≤ s.countP (fun x => decide (x ≤ m)) := by
  have h1 : (s.take k).countP (fun x => decide (x ≤ m)) = (s.take k).length := by
    rw [List.countP_eq_length]
    intro x hx
    obtain ⟨i, hi, rfl⟩ := List.getElem_of_mem hx
    rw [List.length_take] at hi
    have hi' : i < k ∧ i < s.length := by omega
    rw [List.getElem_take]
    have hk1 : k - 1 < s.length := by omega
    have h2 := h (k - 1) hk1 (by omega)
    have h3 : s[i] ≤ s[k - 1] := by
      rcases Nat.lt_or_ge i (k - 1) with hlt | hge
      · exact List.pairwise_iff_getElem.1 hs i (k - 1) hi'.2 hk1 hlt
      · have : i = k - 1 := by omega
        simp [this]
    simpa using le_trans h3 h2
  calc k = (s.take k).length := by rw [List.length_take]; omega
    _ = _ := h1.symm
    _ ≤ _ := List.Sublist.countP_le (List.take_sublist k s)

theorem count_ge_of_sorted {s : List Rat} (hs : s.Pairwise (· ≤ ·)) (m : Rat) (k : Nat)
    (hk : k ≤ s.length) (h : ∀ hi : k < s.length, m ≤ s[k]) :
    s.length - k ≤ s.countP (fun x => decide (m ≤ x)) := by
  have h1 : (s.drop k).countP (fun x => decide (m ≤ x)) = (s.drop k).length := by
    rw [List.countP_eq_length]
    intro x hx
    obtain ⟨i, hi, rfl⟩ := List.getElem_of_mem hx
    rw [List.length_drop] at hi
    rw [List.getElem_drop]
    have hk1 : k < s.length := by omega
    have h2 := h hk1
    have h3 : s[k] ≤ s[k + i] := by
      rcases Nat.eq_zero_or_pos i with h0 | h0
      · simp [h0]
      · exact List.pairwise_iff_getElem.1 hs k (k + i) hk1 (by omega) (by omega)
    simpa using le_trans h2 h3
  calc s.length - k = (s.drop k).length := by rw [List.length_drop]
    _ = _ := h1.symm
    _ ≤ _ := List.Sublist.countP_le (List.drop_sublist k s)

/-- The median splits the data in halves. -/
theorem medianQ_halves {l : List Rat} (hne : l ≠ []) :
    l.length ≤ 2 * l.countP (fun x => decide (x ≤ medianQ l))
    ∧ l.length ≤ 2 * l.countP (fun x => decide (medianQ l ≤ x)) := by
  set m := medianQ l with hm
  unfold medianQ at hm
  dsimp only at hm
  set s := l.insertionSort (· ≤ ·) with hs
  have hl : s.length = l.length := List.length_insertionSort _ l
  have hp : 0 < s.length := by rw [hl]; exact List.length_pos_iff.2 hne
  have hsort := insertionSort_sorted l
  rw [← hs] at hsort
  rw [← (List.perm_insertionSort (· ≤ ·) l).countP_eq,
    ← (List.perm_insertionSort (· ≤ ·) l).countP_eq, ← hs, ← hl]
  split at hm
  · rename_i hodd
    have hi : s.length / 2 < s.length := by omega
    rw [getD_lt hi] at hm
    have c1 := count_le_of_sorted hsort m (s.length / 2 + 1) (by omega) (by
      intro i hi' e
      have : i = s.length / 2 := by omega
      subst this
      exact le_of_eq hm.symm)
    have c2 := count_ge_of_sorted hsort m (s.length / 2) (by omega) (fun _ => le_of_eq hm)
    omega
  · rename_i heven
    have hi : s.length / 2 < s.length := by omega
    have hi' : s.length / 2 - 1 < s.length := by omega
    rw [getD_lt hi, getD_lt hi'] at hm
    have hle : s[s.length / 2 - 1] ≤ s[s.length / 2] :=
      List.pairwise_iff_getElem.1 hsort _ _ hi' hi (by omega)
    have hma : s[s.length / 2 - 1] ≤ m := by rw [hm, le_div_iff₀ (by norm_num)]; linarith
    have hmb : m ≤ s[s.length / 2] := by rw [hm, div_le_iff₀ (by norm_num)]; linarith
    have c1 := count_le_of_sorted hsort m (s.length / 2) (by omega) (by
      intro i hi'' e
      have : i = s.length / 2 - 1 := by omega
      subst this
      exact hma)
    have c2 := count_ge_of_sorted hsort m (s.length / 2) (by omega) (fun _ => hmb)
    omega

/-! ### Arrays -/

theorem arraysOk2 (t p : List Val) : arraysOk [some t, some p]
    = if p.length = t.length then .ok () else .error .valueError := by
  unfold arraysOk; simp

theorem arraysOk3 (t p w : List Val) : arraysOk [some t, some p, some w]
    = if p.length = t.length ∧ w.length = t.length then .ok () else .error .valueError := by
  unfold arraysOk; simp

theorem arraysOk3n (t p : List Val) : arraysOk [some t, some p, none]
    = if p.length = t.length then .ok () else .error .valueError := by
  unfold arraysOk; simp

/-- The pairs of positions where both values are present. -/
def avail : List Val → List Val → List (Rat × Rat)
  | some a :: t, some b :: p => (a, b) :: avail t p
  | _ :: t, _ :: p => avail t p
  | _, _ => []

theorem avail_some (t p : List Rat) : avail (t.map some) (p.map some) = List.zip t p := by
  induction t generalizing p with
  | nil => rfl
  | cons a t ih =>
    cases p with
    | nil => rfl
    | cons b p => simp [avail, ih]

theorem zipWith_avail (f : Val → Val → Val) (g : Rat → Rat → Rat)
    (h1 : ∀ a b, f (some a) (some b) = some (g a b)) (h2 : ∀ b, f none b = none)
    (h3 : ∀ a, f a none = none) :
    ∀ t p : List Val, (List.zipWith f t p).filterMap id = (avail t p).map fun x => g x.1 x.2
  | [], _ => by simp [avail]
  | _ :: _, [] => by simp [avail]
  | some a :: t, some b :: p => by
    have ih := zipWith_avail f g h1 h2 h3 t p
    rw [List.zipWith_cons_cons, h1, avail, List.map_cons, ← ih]; rfl
  | none :: t, b :: p => by
    have : avail (none :: t) (b :: p) = avail t p := by cases b <;> rfl
    have ih := zipWith_avail f g h1 h2 h3 t p
    rw [List.zipWith_cons_cons, h2, this, ← ih]; rfl
  | some a :: t, none :: p => by
    have ih := zipWith_avail f g h1 h2 h3 t p
    rw [List.zipWith_cons_cons, h3, avail, ← ih]
    · rfl
    · simp

theorem vsub_avail (t p : List Val) :
    (List.zipWith vsub t p).filterMap id = (avail t p).map fun x => x.1 - x.2 :=
  zipWith_avail vsub _ (fun _ _ => rfl) (fun _ => rfl) (fun a => by cases a <;> rfl) t p

theorem absErr_avail (t p : List Val) :
    (absErr_ t p none).filterMap id = (avail t p).map fun x => |x.1 - x.2| := by
  unfold absErr_
  dsimp only
  rw [List.map_zipWith]
  exact zipWith_avail _ (fun a b => |a - b|) (fun _ _ => rfl) (fun _ => rfl)
    (fun a => by cases a <;> rfl) t p

end Kats
