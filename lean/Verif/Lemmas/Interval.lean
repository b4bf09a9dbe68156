import Verif.Model.Interval
import Verif.Spec.Interval
import Verif.Lemmas.RunProb

/-!
# Helper lemmas: runs of `True`
-/

namespace Kats

theorem nonzero_cons (b : Bool) (l : List Bool) :
    nonzero (b :: l) = (if b then [0] else []) ++ (nonzero l).map (· + 1) := by
  unfold nonzero
  rw [List.length_cons, List.range_succ_eq_map, List.filter_cons, List.filter_map]
  cases b <;> simp [Function.comp_def]

theorem maskSelect_eq {α : Type} (d : α) : ∀ (xs : List α) (mask : List Bool),
    xs.length = mask.length → maskSelect xs mask = (nonzero mask).map fun i => xs.getD i d
  | [], [], _ => rfl
  | x :: xs, b :: mask, h => by
    have ih := maskSelect_eq d xs mask (by simpa using h)
    rw [nonzero_cons]
    unfold maskSelect at ih ⊢
    cases b
    · simpa [List.map_map, Function.comp_def] using ih
    · simpa [List.map_map, Function.comp_def] using ih
  | [], _ :: _, h => by simp at h
  | _ :: _, [], h => by simp at h

theorem maskSelect_map {α β : Type} (f : α → β) (v : α → Bool) (l : List α) :
    maskSelect (l.map f) (l.map v) = (l.filter v).map f := by
  unfold maskSelect
  induction l with
  | nil => rfl
  | cons a l ih =>
    cases h : v a <;> simp [h, ih]

/-- Consecutive pairs of a list, the last one paired with `n`. -/
def consec (n : Nat) (l : List Nat) : List (Nat × Nat) := l.zip (l.tail ++ [n])

theorem consec_cons (n a b : Nat) (l : List Nat) :
    consec n (a :: b :: l) = (a, b) :: consec n (b :: l) := by
  simp [consec]

theorem consec_fst (n : Nat) : ∀ l, (consec n l).map (·.1) = l
  | [] => rfl
  | [a] => rfl
  | a :: b :: l => by rw [consec_cons, List.map_cons, consec_fst n (b :: l)]

theorem mem_consec {n : Nat} : ∀ {l : List Nat}, l.Pairwise (· < ·) → (∀ c ∈ l, c < n) →
    ∀ a b, (a, b) ∈ consec n l ↔
      a ∈ l ∧ a < b ∧ (b ∈ l ∨ b = n) ∧ ∀ c ∈ l, ¬ (a < c ∧ c < b)
  | [], _, _, a, b => by simp [consec]
  | [u], _, hn, a, b => by
    have := hn u (by simp)
    simp only [consec, List.tail_cons, List.nil_append, List.zip_cons_cons, List.zip_nil_left,
      List.mem_singleton, Prod.mk.injEq]
    constructor
    · rintro ⟨rfl, rfl⟩
      exact ⟨rfl, this, Or.inr rfl, fun c hc => by subst hc; omega⟩
    · rintro ⟨rfl, h1, h2, _⟩
      exact ⟨rfl, by omega⟩
  | u :: w :: l, hp, hn, a, b => by
    rw [List.pairwise_cons] at hp
    have ih := mem_consec hp.2 (fun c hc => hn c (List.mem_cons_of_mem _ hc)) a b
    rw [consec_cons, List.mem_cons, ih]
    have huw := hp.1 w (by simp)
    have hw := (List.pairwise_cons.1 hp.2).1
    constructor
    · rintro (h | ⟨h1, h2, h3, h4⟩)
      · injection h with e1 e2
        subst e1 e2
        refine ⟨by simp, huw, Or.inl (by simp), ?_⟩
        intro c hc
        rcases List.mem_cons.1 hc with rfl | hc
        · omega
        · rcases List.mem_cons.1 hc with rfl | hc
          · omega
          · have := hw c hc; omega
      · refine ⟨List.mem_cons_of_mem _ h1, h2, h3.imp_left (List.mem_cons_of_mem _), ?_⟩
        intro c hc
        rcases List.mem_cons.1 hc with rfl | hc
        · have := hp.1 a h1; omega
        · exact h4 c hc
    · rintro ⟨h1, h2, h3, h4⟩
      rcases List.mem_cons.1 h1 with rfl | h1
      · left
        have hb : ¬ (a < w ∧ w < b) := h4 w (by simp)
        rcases h3 with h3 | rfl
        · rcases List.mem_cons.1 h3 with rfl | h3
          · omega
          · rcases List.mem_cons.1 h3 with rfl | h3
            · rfl
            · have := hw b h3; omega
        · have := hn w (by simp); omega
      · right
        refine ⟨h1, h2, ?_, fun c hc => h4 c (List.mem_cons_of_mem _ hc)⟩
        rcases h3 with h3 | h3
        · rcases List.mem_cons.1 h3 with h3 | h3
          · have := hp.1 a h1; omega
          · exact Or.inl h3
        · exact Or.inr h3

theorem consec_pairwise {n : Nat} : ∀ {l : List Nat}, l.Pairwise (· < ·) → (∀ c ∈ l, c < n) →
    (consec n l).Pairwise fun p q => p.2 ≤ q.1
  | [], _, _ => by simp [consec]
  | [u], _, _ => by simp [consec]
  | u :: w :: l, hp, hn => by
    rw [List.pairwise_cons] at hp
    rw [consec_cons, List.pairwise_cons]
    refine ⟨?_, consec_pairwise hp.2 (fun c hc => hn c (List.mem_cons_of_mem _ hc))⟩
    intro q hq
    have : q.1 ∈ w :: l := by
      rw [← consec_fst n (w :: l)]; exact List.mem_map_of_mem (f := Prod.fst) hq
    rcases List.mem_cons.1 this with h | h
    · rw [h]
    · exact ((List.pairwise_cons.1 hp.2).1 _ h).le

theorem diffN_consec (n : Nat) (l : List Nat) :
    diffN (l ++ [n]) = (consec n l).map fun q => q.2 - q.1 := by
  unfold diffN
  cases l with
  | nil => rfl
  | cons a l =>
    rw [List.cons_append, List.tail_cons]
    induction l generalizing a with
    | nil => rfl
    | cons b l ih => rw [List.cons_append, List.zipWith_cons_cons, ih, consec_cons, List.map_cons]

theorem ends_consec (n : Nat) (l : List Nat) :
    List.zipWith (fun s l => s + l - 1) l (diffN (l ++ [n]))
      = (consec n l).map fun q => q.1 + (q.2 - q.1) - 1 := by
  rw [diffN_consec]
  conv_lhs => rw [← consec_fst n l, consec_fst n l]
  conv_lhs => arg 2; rw [← consec_fst n l]
  rw [List.zipWith_map]
  simp [List.zipWith_self]

theorem locRunStart_length {x : List Bool} (h : x ≠ []) : (locRunStart x).length = x.length := by
  unfold locRunStart
  have := List.length_pos_iff.2 h
  simp; omega

theorem locRunStart_get {x : List Bool} {i : Nat} (h : i < x.length) :
    (locRunStart x).getD i false = true ↔ (i = 0 ∨ x[i - 1]? ≠ x[i]?) := by
  unfold locRunStart
  cases i with
  | zero => simp
  | succ i =>
    simp only [List.getD_eq_getElem?_getD, List.getElem?_cons_succ, List.getElem?_zipWith,
      List.getElem?_dropLast, Nat.succ_ne_zero, false_or, Nat.add_sub_cancel]
    rw [if_pos (by omega), List.getElem?_tail, List.getElem?_eq_getElem (by omega : i < x.length),
      List.getElem?_eq_getElem h]
    simp

/-- The starts of all blocks of equal entries. -/
def blockStarts (x : List Bool) : List Nat := nonzero (locRunStart x)

theorem mem_blockStarts {x : List Bool} (hx : x ≠ []) (i : Nat) :
    i ∈ blockStarts x ↔ i < x.length ∧ (i = 0 ∨ x[i - 1]? ≠ x[i]?) := by
  unfold blockStarts nonzero
  rw [List.mem_filter, List.mem_range, locRunStart_length hx]
  constructor
  · rintro ⟨h1, h2⟩; exact ⟨h1, (locRunStart_get h1).1 h2⟩
  · rintro ⟨h1, h2⟩; exact ⟨h1, (locRunStart_get h1).2 h2⟩

theorem blockStarts_sorted (x : List Bool) : (blockStarts x).Pairwise (· < ·) :=
  List.Pairwise.filter _ List.pairwise_lt_range

/-- Closed form of the run extraction. -/
theorem trueRunIndices_eq {x : List Bool} (hx : x ≠ []) :
    trueRunIndices x = .ok
      (((consec x.length (blockStarts x)).filter fun q => x.getD q.1 false).map fun q => q.1,
       ((consec x.length (blockStarts x)).filter fun q => x.getD q.1 false).map
          fun q => q.1 + (q.2 - q.1) - 1) := by
  unfold trueRunIndices
  rw [if_neg (by simpa using hx)]
  dsimp only
  rw [maskSelect_eq false x (locRunStart x) (locRunStart_length hx).symm]
  change Except.ok (maskSelect (blockStarts x) _, maskSelect (List.zipWith _ (blockStarts x)
    (diffN (blockStarts x ++ _))) _) = _
  rw [ends_consec]
  have e : (nonzero (locRunStart x)).map (fun i => x.getD i false)
      = (consec x.length (blockStarts x)).map fun q => x.getD q.1 false := by
    conv_lhs => rw [show nonzero (locRunStart x) = blockStarts x from rfl,
      ← consec_fst x.length (blockStarts x)]
    rw [List.map_map]; rfl
  rw [e, maskSelect_map]
  conv_lhs => arg 1; arg 1; arg 1; rw [← consec_fst x.length (blockStarts x)]
  rw [maskSelect_map]

theorem const_on {x : List Bool} (hx : x ≠ []) {s t : Nat} (hn : t ≤ x.length)
    (h : ∀ c ∈ blockStarts x, ¬ (s < c ∧ c < t)) : ∀ i, s ≤ i → i < t → x[i]? = x[s]? := by
  intro i hi
  induction i, hi using Nat.le_induction with
  | base => intro _; rfl
  | succ i hi ih =>
    intro hlt
    rw [← ih (by omega)]
    by_contra hne
    refine h (i + 1) ?_ ⟨by omega, hlt⟩
    rw [mem_blockStarts hx]
    exact ⟨by omega, Or.inr (fun e => hne (by simpa using e.symm))⟩

theorem consec_maximal {x : List Bool} (hx : x ≠ []) (s t : Nat) :
    ((s, t) ∈ consec x.length (blockStarts x) ∧ x.getD s false = true) ↔
      (s < t ∧ MaximalRun x true s (t - 1)) := by
  have hlt : ∀ c ∈ blockStarts x, c < x.length := fun c hc => ((mem_blockStarts hx c).1 hc).1
  rw [mem_consec (blockStarts_sorted x) hlt]
  constructor
  · rintro ⟨⟨h1, h2, h3, h4⟩, h5⟩
    have hs := (mem_blockStarts hx s).1 h1
    have ht : t ≤ x.length := by
      rcases h3 with h3 | h3
      · exact (hlt t h3).le
      · omega
    have hxs : x[s]? = some true := by
      rw [List.getD_eq_getElem?_getD, List.getElem?_eq_getElem hs.1] at h5
      rw [List.getElem?_eq_getElem hs.1]; simpa using h5
    have hc := const_on hx ht h4
    refine ⟨h2, by omega, by omega, ?_, ?_, ?_⟩
    · intro i hi1 hi2; rw [hc i hi1 (by omega), hxs]
    · intro i hi hxi
      rcases hs.2 with h0 | h0
      · omega
      · apply h0; rw [hxs, ← hxi]; congr 1; omega
    · rw [show t - 1 + 1 = t by omega]
      rcases h3 with h3 | rfl
      · rcases ((mem_blockStarts hx t).1 h3).2 with h0 | h0
        · omega
        · rw [hc (t - 1) (by omega) (by omega), hxs] at h0
          exact fun h => h0 h.symm
      · simp
  · rintro ⟨h1, h2, h3, h4, h5, h6⟩
    have hxs : x[s]? = some true := h4 s le_rfl h2
    have hsl : s < x.length := by omega
    refine ⟨⟨?_, h1, ?_, ?_⟩, ?_⟩
    · rw [mem_blockStarts hx]
      refine ⟨hsl, ?_⟩
      by_cases h0 : s = 0
      · exact Or.inl h0
      · right; rw [hxs]; exact h5 (s - 1) (by omega)
    · by_cases htl : t = x.length
      · exact Or.inr htl
      · left
        rw [mem_blockStarts hx]
        refine ⟨by omega, Or.inr ?_⟩
        rw [h4 (t - 1) (by omega) le_rfl]
        rw [show t - 1 + 1 = t by omega] at h6
        exact fun h => h6 h.symm
    · rintro c hc ⟨h7, h8⟩
      rcases ((mem_blockStarts hx c).1 hc).2 with h0 | h0
      · omega
      · apply h0; rw [h4 c (by omega) (by omega), h4 (c - 1) (by omega) (by omega)]
    · rw [List.getD_eq_getElem?_getD, hxs]; rfl

end Kats
