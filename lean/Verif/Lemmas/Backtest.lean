import Verif.Model.Backtest
import Verif.Lemmas.Partition

namespace Kats

theorem accOffsets_closed (P : Nat → Nat) (f : Nat → Nat) (h : ∀ i, f i + P i = P (i + 1)) :
    ∀ (m s : Nat), accOffsets (P s : Nat) ((List.range' s m).map f)
      = (List.range' (s + 1) m).map (fun i => ((P i : Nat) : Int))
  | 0, s => rfl
  | m + 1, s => by
    rw [List.range'_succ, List.range'_succ, List.map_cons, List.map_cons, accOffsets]
    have e : ((f s : Nat) : Int) + ((P s : Nat) : Int) = ((P (s + 1) : Nat) : Int) := by
      rw [← h s]; push_cast; rfl
    rw [e, accOffsets_closed P f h m (s + 1)]

/-- Closed form of the fold offsets. -/
def offsetAt (n k i : Nat) : Nat := i * (n / k) + min i (n % k)

theorem foldOffsets_closed (start stop : Int) (k : Nat) (hk : 1 ≤ k) :
    foldOffsets start stop ((k + 1 : Nat) : Int)
      = .ok ((List.range (k + 1)).map fun i => ((offsetAt (stop - start).toNat k i : Nat) : Int)) := by
  unfold foldOffsets
  rw [if_neg (by omega)]
  congr 1
  have hk' : (((k + 1 : Nat) : Int) - 1).toNat = k := by omega
  rw [hk']
  set n := (stop - start).toNat
  have := accOffsets_closed (offsetAt n k) (fun i => n / k + if i < n % k then 1 else 0) (by
    intro i
    unfold offsetAt
    rw [Nat.add_mul, Nat.one_mul]
    split <;> omega) k 0
  unfold arraySplitSizes
  rw [List.range_eq_range', List.range_eq_range', List.range'_succ, List.map_cons]
  have h0 : offsetAt n k 0 = 0 := by simp [offsetAt]
  rw [h0] at this ⊢
  rw [← this]
  rfl

theorem offsetAt_mono (n k : Nat) {i j : Nat} (h : i ≤ j) : offsetAt n k i ≤ offsetAt n k j := by
  unfold offsetAt
  have := Nat.mul_le_mul_right (n / k) h
  omega

theorem offsetAt_last (n k : Nat) (hk : 1 ≤ k) : offsetAt n k k = n := by
  unfold offsetAt
  have h1 : n % k < k := Nat.mod_lt _ (by omega)
  rw [Nat.min_eq_right (le_of_lt h1)]
  exact Nat.div_add_mod n k

theorem offsetAt_step (n k i : Nat) :
    offsetAt n k (i + 1) = offsetAt n k i + n / k ∨ offsetAt n k (i + 1) = offsetAt n k i + n / k + 1 := by
  unfold offsetAt
  rw [Nat.add_mul, Nat.one_mul]
  omega

theorem checkPct_ok (p : Rat) : checkPct p = .ok () ↔ 0 < p ∧ p ≤ 100 := by
  unfold checkPct
  split_ifs with h1 h2
  · simp [h1]
  · simp; intro _; exact h2
  · simp; exact ⟨not_le.1 h1, not_lt.1 h2⟩

theorem checkPct_err (p : Rat) : checkPct p = .ok () ∨ checkPct p = .error .valueError := by
  unfold checkPct; split_ifs <;> simp

theorem checkSize_ok (s : Int) (n : Nat) : checkSize s n = .ok () ↔ 0 < s ∧ s < n := by
  unfold checkSize
  split_ifs with h1
  · simp; omega
  · simp; omega

theorem checkSize_err (s : Int) (n : Nat) :
    checkSize s n = .ok () ∨ checkSize s n = .error .valueError := by
  unfold checkSize; split_ifs <;> simp

theorem mapM_forall₂ {A B : Type} (P : A → B → Prop) (f : A → Except Err B)
    (h : ∀ a b, f a = .ok b → P a b) :
    ∀ (l : List A) (res : List B), l.mapM f = .ok res → List.Forall₂ P l res
  | [], res, e => by
    simp only [List.mapM_nil, pure, Except.pure] at e
    injection e with e
    subst e
    exact List.Forall₂.nil
  | a :: l, res, e => by
    rw [List.mapM_cons] at e
    cases ha : f a with
    | error x => rw [ha] at e; simp [bind, Except.bind] at e
    | ok b =>
      rw [ha] at e
      simp only [bind, Except.bind] at e
      cases hl : l.mapM f with
      | error x => rw [hl] at e; simp at e
      | ok bs =>
        rw [hl] at e
        simp only [pure, Except.pure] at e
        injection e with e
        subst e
        exact List.Forall₂.cons (h a b ha) (mapM_forall₂ P f h l bs hl)

end Kats
