import Verif.Model.TimeSeries
import Mathlib.Algebra.Order.Ring.Rat
import Mathlib.Tactic.Linarith

namespace Kats

/-- `List.mergeSort` is an instance of the abstract time sort. -/
def mergeTimeSort (V : Type) : TimeSort V where
  run l := l.mergeSort (fun a b => decide (a.1 ≤ b.1))
  perm l := List.mergeSort_perm l _
  sorted l := by
    have h := List.pairwise_mergeSort (le := fun a b : Row V => decide (a.1 ≤ b.1))
      (by intro a b c; simp only [decide_eq_true_eq]; exact fun h1 h2 => le_trans h1 h2)
      (by intro a b; simp only [Bool.or_eq_true, decide_eq_true_eq]; exact le_total _ _) l
    exact h.imp (by intro a b; simp)

theorem dropDup_filter {V : Type} (t : Int) : ∀ (rows : List (Row V)) (seen : List Int),
    (dropDupTime seen rows).filter (fun r => r.1 == t) =
      if t ∈ seen then [] else (rows.filter (fun r => r.1 == t)).take 1
  | [], seen => by simp [dropDupTime]
  | r :: rs, seen => by
    rw [dropDupTime]
    by_cases h : r.1 ∈ seen
    · rw [if_pos h, dropDup_filter t rs seen]
      by_cases ht : t ∈ seen
      · simp [ht]
      · have : r.1 ≠ t := fun e => ht (e ▸ h)
        simp [ht, this]
    · rw [if_neg h, List.filter_cons, dropDup_filter t rs (r.1 :: seen)]
      by_cases hr : r.1 = t
      · subst hr; simp [h]
      · have hr' : t ≠ r.1 := fun e => hr e.symm
        by_cases ht : t ∈ seen <;> simp [hr, hr', ht]

theorem dropDup_sub {V : Type} : ∀ (rows : List (Row V)) (seen : List Int),
    ∀ r ∈ dropDupTime seen rows, r.1 ∉ seen
  | [], seen => by simp [dropDupTime]
  | r :: rs, seen => by
    intro x hx
    rw [dropDupTime] at hx
    by_cases h : r.1 ∈ seen
    · rw [if_pos h] at hx; exact dropDup_sub rs seen x hx
    · rw [if_neg h] at hx
      rcases List.mem_cons.1 hx with rfl | hx
      · exact h
      · intro hs; exact dropDup_sub rs (r.1 :: seen) x hx (List.mem_cons_of_mem _ hs)

theorem dropDup_nodup {V : Type} : ∀ (rows : List (Row V)) (seen : List Int),
    (dropDupTime seen rows).Pairwise (fun a b => a.1 ≠ b.1)
  | [], seen => by simp [dropDupTime]
  | r :: rs, seen => by
    rw [dropDupTime]
    by_cases h : r.1 ∈ seen
    · rw [if_pos h]; exact dropDup_nodup rs seen
    · rw [if_neg h, List.pairwise_cons]
      refine ⟨fun x hx => ?_, dropDup_nodup rs _⟩
      have := dropDup_sub rs (r.1 :: seen) x hx
      simp at this
      exact fun e => this.1 e.symm

/-- A list sorted strictly by time is left alone by any time sort. -/
theorem TimeSort.run_eq_self {V : Type} (srt : TimeSort V) (l : List (Row V))
    (h : l.Pairwise (fun a b => a.1 < b.1)) : srt.run l = l := by
  have hp := srt.perm l
  have hs := srt.sorted l
  have hne : (srt.run l).Pairwise (fun a b => a.1 ≠ b.1) :=
    (hp.pairwise_iff (fun {a b} hab => hab.symm)).2 (h.imp (fun {a b} hab => ne_of_lt hab))
  have hlt : (srt.run l).Pairwise (fun a b => a.1 < b.1) :=
    (hs.and hne).imp (fun {a b} hab => lt_of_le_of_ne hab.1 hab.2)
  exact hp.eq_of_pairwise (fun a b _ _ h1 h2 => absurd h1 (not_lt.2 (le_of_lt h2))) hlt h

theorem nanExt_none (better : Rat → Rat → Bool) : ∀ l, nanExt better l = none ↔ ∀ x ∈ l, x = none
  | [] => by simp [nanExt]
  | none :: l => by simp [nanExt, nanExt_none better l]
  | some x :: l => by
    simp only [nanExt]
    cases nanExt better l with
    | none => simp
    | some m => by_cases h : better m x <;> simp [h]

theorem nanMin_spec : ∀ (l : List (Option Rat)) (m : Rat),
    nanExt (fun a b => decide (a < b)) l = some m → some m ∈ l ∧ ∀ x, some x ∈ l → m ≤ x
  | [], m => by simp [nanExt]
  | none :: l, m => by
    intro h
    have := nanMin_spec l m (by simpa [nanExt] using h)
    simpa using this
  | some y :: l, m => by
    intro h
    simp only [nanExt] at h
    cases hl : nanExt (fun a b => decide (a < b)) l with
    | none =>
      rw [hl] at h
      have hn := (nanExt_none _ l).1 hl
      injection h with h; subst h
      refine ⟨by simp, fun x hx => ?_⟩
      rcases List.mem_cons.1 hx with e | e
      · injection e with e; rw [e]
      · exact absurd (hn _ e) (by simp)
    | some k =>
      rw [hl] at h
      have ih := nanMin_spec l k hl
      by_cases hk : k < y
      · simp [hk] at h; subst h
        refine ⟨List.mem_cons_of_mem _ ih.1, fun x hx => ?_⟩
        rcases List.mem_cons.1 hx with e | e
        · injection e with e; rw [e]; exact le_of_lt hk
        · exact ih.2 x e
      · simp [hk] at h; subst h
        refine ⟨by simp, fun x hx => ?_⟩
        rcases List.mem_cons.1 hx with e | e
        · injection e with e; rw [e]
        · exact le_trans (not_lt.1 hk) (ih.2 x e)

theorem nanMax_spec : ∀ (l : List (Option Rat)) (m : Rat),
    nanExt (fun a b => decide (b < a)) l = some m → some m ∈ l ∧ ∀ x, some x ∈ l → x ≤ m
  | [], m => by simp [nanExt]
  | none :: l, m => by
    intro h
    have := nanMax_spec l m (by simpa [nanExt] using h)
    simpa using this
  | some y :: l, m => by
    intro h
    simp only [nanExt] at h
    cases hl : nanExt (fun a b => decide (b < a)) l with
    | none =>
      rw [hl] at h
      have hn := (nanExt_none _ l).1 hl
      injection h with h; subst h
      refine ⟨by simp, fun x hx => ?_⟩
      rcases List.mem_cons.1 hx with e | e
      · injection e with e; rw [e]
      · exact absurd (hn _ e) (by simp)
    | some k =>
      rw [hl] at h
      have ih := nanMax_spec l k hl
      by_cases hk : y < k
      · simp [hk] at h; subst h
        refine ⟨List.mem_cons_of_mem _ ih.1, fun x hx => ?_⟩
        rcases List.mem_cons.1 hx with e | e
        · injection e with e; rw [e]; exact le_of_lt hk
        · exact ih.2 x e
      · simp [hk] at h; subst h
        refine ⟨by simp, fun x hx => ?_⟩
        rcases List.mem_cons.1 hx with e | e
        · injection e with e; rw [e]
        · exact le_trans (ih.2 x e) (not_lt.1 hk)

/-- What the scan for the mode maintains. -/
theorem modeFold (l : List Int) : ∀ (s : List Int) (b : Int),
    ∃ f, s.foldl (fun best x =>
        match best with
        | none => some x
        | some b =>
          if l.count b < l.count x || (l.count b == l.count x && x < b) then some x else some b)
        (some b) = some f
      ∧ (f = b ∨ f ∈ s)
      ∧ ∀ g, (g = b ∨ g ∈ s) → l.count g ≤ l.count f ∧ (l.count g = l.count f → f ≤ g)
  | [], b => ⟨b, by simp⟩
  | x :: s, b => by
    simp only [List.foldl_cons]
    by_cases h : (l.count b < l.count x || (l.count b == l.count x && decide (x < b))) = true
    · rw [if_pos h]
      obtain ⟨f, h1, h2, h3⟩ := modeFold l s x
      refine ⟨f, h1, ?_, ?_⟩
      · rcases h2 with h2 | h2
        · right; simp [h2]
        · right; simp [h2]
      · intro g hg
        simp at h
        rcases hg with rfl | hg
        · have hx := h3 x (Or.inl rfl)
          rcases h with h | ⟨h, h'⟩
          · constructor
            · omega
            · intro e; omega
          · refine ⟨by omega, fun e => ?_⟩
            exact le_trans (hx.2 (by omega)) (le_of_lt h')
        · rcases List.mem_cons.1 hg with rfl | hg
          · exact h3 _ (Or.inl rfl)
          · exact h3 g (Or.inr hg)
    · rw [if_neg h]
      obtain ⟨f, h1, h2, h3⟩ := modeFold l s b
      refine ⟨f, h1, ?_, ?_⟩
      · rcases h2 with h2 | h2
        · left; exact h2
        · right; simp [h2]
      · intro g hg
        simp at h
        rcases hg with rfl | hg
        · exact h3 _ (Or.inl rfl)
        · rcases List.mem_cons.1 hg with rfl | hg
          · have hb := h3 b (Or.inl rfl)
            refine ⟨by omega, fun e => ?_⟩
            have : l.count b = l.count g := by omega
            exact le_trans (hb.2 (by omega)) (h.2 this)
          · exact h3 g (Or.inr hg)

theorem modeMin_spec (l : List Int) (hl : l ≠ []) :
    ∃ f, modeMin l = some f ∧ f ∈ l ∧
      ∀ g ∈ l, l.count g ≤ l.count f ∧ (l.count g = l.count f → f ≤ g) := by
  cases l with
  | nil => exact absurd rfl hl
  | cons a s =>
    obtain ⟨f, h1, h2, h3⟩ := modeFold (a :: s) s a
    exact ⟨f, h1, by simpa using h2, fun g hg => h3 g (by simpa using hg)⟩

theorem diffs_eq_zip : ∀ t : List Int, diffs t = (t.zip t.tail).map (fun p => p.2 - p.1)
  | [] => rfl
  | [_] => rfl
  | a :: b :: l => by simp [diffs, diffs_eq_zip (b :: l)]

theorem diffs_ne_nil (t : List Int) (h : 2 ≤ t.length) : diffs t ≠ [] := by
  match t, h with
  | a :: b :: l, _ => simp [diffs]

theorem mem_outerJoin {A B : Type} (l : List (Row A)) (r : List (Row B)) (x : Row A) (y : Row B)
    (hx : x ∈ l) (hy : y ∈ r) (h : x.1 = y.1) : (x.1, some x.2, some y.2) ∈ outerJoin l r := by
  unfold outerJoin
  refine List.mem_append_left _ (List.mem_append_left _ (List.mem_flatMap.2 ⟨x, hx, ?_⟩))
  exact List.mem_map.2 ⟨y, List.mem_filter.2 ⟨hy, by simp [h]⟩, rfl⟩

/-- For equal time columns no row is unmatched. -/
theorem outerJoin_matched {A B : Type} (l : List (Row A)) (r : List (Row B))
    (h : ∀ t, t ∈ l.map (·.1) ↔ t ∈ r.map (·.1)) :
    outerJoin l r =
      l.flatMap fun x => (r.filter fun y => y.1 == x.1).map fun y => (x.1, some x.2, some y.2) := by
  unfold outerJoin
  have h1 : (l.filter fun x => !(r.any fun y => y.1 == x.1)) = [] := by
    rw [List.filter_eq_nil_iff]
    intro x hx
    have : x.1 ∈ r.map (·.1) := (h x.1).1 (List.mem_map_of_mem hx)
    obtain ⟨y, hy, e⟩ := List.mem_map.1 this
    simp only [Bool.not_eq_true, Bool.not_eq_false', List.any_eq_true]
    exact ⟨y, hy, by simpa using e⟩
  have h2 : (r.filter fun y => !(l.any fun x => x.1 == y.1)) = [] := by
    rw [List.filter_eq_nil_iff]
    intro y hy
    have : y.1 ∈ l.map (·.1) := (h y.1).2 (List.mem_map_of_mem hy)
    obtain ⟨x, hx, e⟩ := List.mem_map.1 this
    simp only [Bool.not_eq_true, Bool.not_eq_false', List.any_eq_true]
    exact ⟨x, hx, by simpa using e⟩
  rw [h1, h2]; simp

/-- With distinct times on the right, each left time is matched exactly once. -/
theorem outerJoin_times {A B : Type} (l : List (Row A)) (r : List (Row B))
    (h : ∀ t, t ∈ l.map (·.1) ↔ t ∈ r.map (·.1)) (hd : (r.map (·.1)).Nodup) :
    (outerJoin l r).map (·.1) = l.map (·.1) := by
  rw [outerJoin_matched l r h]
  have key : ∀ x ∈ l, ((r.filter fun y => y.1 == x.1).map
      fun y => ((x.1, some x.2, some y.2) : Row (Option A × Option B))).map (·.1) = [x.1] := by
    intro x hx
    have hm : x.1 ∈ r.map (·.1) := (h x.1).1 (List.mem_map_of_mem hx)
    have hc : (r.map (·.1)).count x.1 = 1 := List.count_eq_one_of_mem hd hm
    rw [List.map_map]
    have : (r.filter fun y => y.1 == x.1).length = 1 := by
      rw [List.count_eq_countP, List.countP_map] at hc
      rw [← List.countP_eq_length_filter]; exact hc
    obtain ⟨z, hz⟩ := List.length_eq_one_iff.1 this
    rw [hz]; simp
  clear h hd
  induction l with
  | nil => rfl
  | cons a l ih =>
    simp only [List.flatMap_cons, List.map_append, List.map_cons]
    rw [key a (by simp), ih (fun x hx => key x (List.mem_cons_of_mem _ hx))]
    rfl

end Kats
