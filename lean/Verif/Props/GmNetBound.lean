import Verif.Props.GmNetPast
import Mathlib.Algebra.Order.Field.Basic
import Mathlib.Algebra.Order.Group.Unbundled.Abs
import Mathlib.Algebra.Order.Ring.Abs
import Mathlib.Tactic.Linarith

/-!
# C144: the outputs of a network are bounded
-/

namespace Kats

section
variable {K : Type} [Field K] [LinearOrder K] [IsStrictOrderedRing K]

/-- All values are between `-1` and `1`. -/
def GmUnit (l : List K) : Prop := ∀ v ∈ l, |v| ≤ 1

/-- What the sigmoid and `tanh` do. -/
structure GmActOk (A : GmAct K) : Prop where
  low : ∀ v, 0 ≤ A.sigmoid v
  high : ∀ v, A.sigmoid v ≤ 1
  tanh : ∀ v, |A.tanh v| ≤ 1

theorem mul_unit (s v : K) (h0 : 0 ≤ s) (h1 : s ≤ 1) (hv : |v| ≤ 1) : |s * v| ≤ 1 := by
  rw [abs_mul, abs_of_nonneg h0]
  exact mul_le_one₀ h1 (abs_nonneg v) hv

theorem zipMul_unit (s l : List K) (h0 : ∀ v ∈ s, 0 ≤ v ∧ v ≤ 1) (hl : GmUnit l) : GmUnit (List.zipWith (· * ·) s l) := by
  intro v hv
  obtain ⟨i, hi, rfl⟩ := List.getElem_of_mem hv
  rw [List.getElem_zipWith]
  rw [List.length_zipWith] at hi
  obtain ⟨h1, h2⟩ := h0 _ (List.getElem_mem (show i < s.length by omega))
  exact mul_unit _ _ h1 h2 (hl _ (List.getElem_mem _))

theorem mix_unit (s a b : List K) (h0 : ∀ v ∈ s, 0 ≤ v ∧ v ≤ 1) (ha : GmUnit a) (hb : GmUnit b) :
    GmUnit (List.zipWith (· + ·) (List.zipWith (· * ·) s a) (List.zipWith (fun f v => (1 - f) * v) s b)) := by
  intro v hv
  obtain ⟨i, hi, rfl⟩ := List.getElem_of_mem hv
  simp only [List.length_zipWith] at hi
  rw [List.getElem_zipWith, List.getElem_zipWith, List.getElem_zipWith]
  obtain ⟨h1, h2⟩ := h0 _ (List.getElem_mem (show i < s.length by omega))
  have h3 := abs_le.1 (ha _ (List.getElem_mem (show i < a.length by omega)))
  have h4 := abs_le.1 (hb _ (List.getElem_mem (show i < b.length by omega)))
  rw [abs_le]
  constructor <;> nlinarith [mul_nonneg h1 (sub_nonneg.2 h3.1), mul_nonneg h1 (sub_nonneg.2 h3.2),
    mul_nonneg (sub_nonneg.2 h2) (sub_nonneg.2 h4.1), mul_nonneg (sub_nonneg.2 h2) (sub_nonneg.2 h4.2)]

theorem sig_range (A : GmAct K) (hA : GmActOk A) (f : K → K) (l : List K) :
    ∀ v ∈ l.map (fun v => A.sigmoid (f v)), 0 ≤ v ∧ v ≤ 1 := by
  intro v hv
  obtain ⟨x, _, rfl⟩ := List.mem_map.1 hv
  exact ⟨hA.low _, hA.high _⟩

theorem tanh_unit (A : GmAct K) (hA : GmActOk A) (l : List K) : GmUnit (l.map A.tanh) := by
  intro v hv
  obtain ⟨x, _, rfl⟩ := List.mem_map.1 hv
  exact hA.tanh _

theorem split_unit (out h : Nat) (whole : List K) (hw : GmUnit whole) (r) (hr : gmSplitOut out h whole = .ok r) :
    GmUnit r.1 ∧ GmUnit r.2 := by
  unfold gmSplitOut at hr
  split at hr
  · injection hr with hr
    subst hr
    exact ⟨fun v hv => hw v (List.mem_of_mem_take hv), fun v hv => hw v (List.mem_of_mem_drop hv)⟩
  · cases hr

theorem sameLen_eq (c d : List K) (size : Nat) (h : gmSameLen c size = .ok d) : d = c := by
  unfold gmSameLen at h
  split at h
  · injection h with h
    exact h.symm
  · cases h

/-- For `S2Cell` the states are between `-1` and `1`. -/
def GmStateUnit (kind : GmCellKind) (s : Option (List K × List K)) : Prop := kind = .s2 → ∀ p, s = some p → GmUnit p.2

theorem s2State_unit (A : GmAct K) (hA : GmActOk A) (size : Nat) (gates : List K) (prev delayed : Option (List K × List K))
    (hp : ∀ p, prev = some p → GmUnit p.2) (hd : ∀ p, delayed = some p → GmUnit p.2) (s : List K)
    (h : gmS2State A size gates prev delayed = .ok s) : GmUnit s := by
  unfold gmS2State at h
  rcases prev with _ | p
  · injection h with h
    rw [← h]
    exact tanh_unit A hA _
  · simp only [] at h
    rcases hc : gmS2Carry A size gates p delayed with e | c
    · rw [hc] at h; cases h
    · rw [hc] at h
      injection h with h
      rw [← h]
      refine mix_unit _ _ _ (sig_range A hA _ _) ?_ (tanh_unit A hA _)
      rcases delayed with _ | d
      · rw [sameLen_eq _ _ _ hc]
        exact hp p rfl
      · unfold gmS2Carry at hc
        simp only [] at hc
        obtain ⟨x, hx, hc⟩ := (gm_bind_ok _ _ _).1 hc
        obtain ⟨y, hy, hc⟩ := (gm_bind_ok _ _ _).1 hc
        injection hc with hc
        rw [← hc, sameLen_eq _ _ _ hx, sameLen_eq _ _ _ hy]
        exact mix_unit _ _ _ (sig_range A hA id _) (hp p rfl) (hd d rfl)

theorem cell_unit (kind : GmCellKind) (A : GmAct K) (hA : GmActOk A) (size : Nat) (h : Int) (cell : GmCell K) (x : List K)
    (prev delayed : Option (List K × List K)) (hp : GmStateUnit kind prev) (hd : GmStateUnit kind delayed)
    (r) (hr : gmCellRow kind A size h cell x prev delayed = .ok r) :
    GmUnit r.1 ∧ GmUnit r.2.1 ∧ (kind = .s2 → GmUnit r.2.2) := by
  unfold gmCellRow at hr
  rcases kind with _ | _ | _
  · simp only [] at hr
    split at hr
    · cases hr
    · unfold gmLstm2 at hr
      obtain ⟨g, _, hr⟩ := (gm_bind_ok _ _ _).1 hr
      obtain ⟨s, _, hr⟩ := (gm_bind_ok _ _ _).1 hr
      obtain ⟨o, ho, hr⟩ := (gm_bind_ok _ _ _).1 hr
      injection hr with hr
      subst hr
      obtain ⟨h1, h2⟩ := split_unit _ _ _ (zipMul_unit _ _ (sig_range A hA id _) (tanh_unit A hA _)) o ho
      exact ⟨h1, h2, fun h => by cases h⟩
  · simp only [] at hr
    split at hr
    · cases hr
    · unfold gmS2 at hr
      obtain ⟨g, _, hr⟩ := (gm_bind_ok _ _ _).1 hr
      obtain ⟨s, hs, hr⟩ := (gm_bind_ok _ _ _).1 hr
      obtain ⟨o, ho, hr⟩ := (gm_bind_ok _ _ _).1 hr
      injection hr with hr
      subst hr
      have hsu := s2State_unit A hA size g prev delayed (hp rfl) (hd rfl) s hs
      obtain ⟨h1, h2⟩ := split_unit _ _ _ (zipMul_unit _ _ (sig_range A hA id _) hsu) o ho
      exact ⟨h1, h2, fun _ => hsu⟩
  · simp only [] at hr
    unfold gmLstm at hr
    obtain ⟨g, _, hr⟩ := (gm_bind_ok _ _ _).1 hr
    obtain ⟨s, _, hr⟩ := (gm_bind_ok _ _ _).1 hr
    obtain ⟨o, _, hr⟩ := (gm_bind_ok _ _ _).1 hr
    injection hr with hr
    subst hr
    refine ⟨?_, ?_, fun h => by cases h⟩
    · exact zipMul_unit _ _ (sig_range A hA id _) (tanh_unit A hA _)
    · exact zipMul_unit _ _ (sig_range A hA id _) (tanh_unit A hA _)

/-- The states of a layer: `h` between `-1` and `1`, and for `S2Cell` also `c`. -/
def GmLayerUnit (kind : GmCellKind) (s : List (List K × List K)) : Prop :=
  ∀ p ∈ s, GmUnit p.1 ∧ (kind = .s2 → GmUnit p.2)

/-- For `S2Cell` the states `c` are between `-1` and `1`. -/
def GmStoreUnit (kind : GmCellKind) (store : GmStore K) : Prop :=
  kind = .s2 → ∀ l ∈ store, ∀ s ∈ l, ∀ p ∈ s, GmUnit p.2

theorem storeAt_mem (store : GmStore K) (t layer : Nat) (s) (h : gmStoreAt store t layer = .ok s) : ∃ l ∈ store, s ∈ l := by
  unfold gmStoreAt at h
  rcases hl : store[t]? with _ | l
  · rw [hl] at h; cases h
  · rw [hl] at h
    simp only [] at h
    rcases hl2 : l[layer]? with _ | q
    · rw [hl2] at h; cases h
    · rw [hl2] at h
      injection h with h
      rw [← h]
      exact ⟨l, List.mem_of_getElem? hl, List.mem_of_getElem? hl2⟩

theorem delayed_mem (kind : GmCellKind) (store : GmStore K) (layer : Nat) (d : Int) (r)
    (h : gmDelayed kind store layer d = .ok r) :
    (∀ s, r.1 = some s → ∃ l ∈ store, s ∈ l) ∧ ∀ s, r.2 = some s → ∃ l ∈ store, s ∈ l := by
  unfold gmDelayed at h
  simp only [] at h
  split at h
  · split at h
    · cases h
    · split at h
      · obtain ⟨e, he, h⟩ := (gm_bind_ok _ _ _).1 h
        injection h with h
        subst h
        exact ⟨(fun s hs => by cases hs), fun s hs => by injection hs with hs; rw [← hs]; exact storeAt_mem _ _ _ _ he⟩
      · obtain ⟨p, hp, h⟩ := (gm_bind_ok _ _ _).1 h
        obtain ⟨e, he, h⟩ := (gm_bind_ok _ _ _).1 h
        injection h with h
        subst h
        exact ⟨(fun s hs => by injection hs with hs; rw [← hs]; exact storeAt_mem _ _ _ _ hp),
          fun s hs => by injection hs with hs; rw [← hs]; exact storeAt_mem _ _ _ _ he⟩
  · split at h
    · obtain ⟨p, hp, h⟩ := (gm_bind_ok _ _ _).1 h
      injection h with h
      subst h
      exact ⟨(fun s hs => by injection hs with hs; rw [← hs]; exact storeAt_mem _ _ _ _ hp), fun s hs => by cases hs⟩
    · injection h with h
      subst h
      exact ⟨(fun s hs => by cases hs), fun s hs => by cases hs⟩

theorem layer_unit (N : GmStack K) (hA : GmActOk N.act) (store : GmStore K) (hs : GmStoreUnit N.kind store)
    (st r : List (List (List K × List K)) × List (List K)) (d : Int) (h1 : ∀ s ∈ st.1, GmLayerUnit N.kind s)
    (h : gmLayer N store st d = .ok r) : (∀ s ∈ r.1, GmLayerUnit N.kind s) ∧ ∀ x ∈ r.2, GmUnit x := by
  unfold gmLayer at h
  obtain ⟨s, hsd, h⟩ := (gm_bind_ok _ _ _).1 h
  obtain ⟨cell, _, h⟩ := (gm_bind_ok _ _ _).1 h
  obtain ⟨x, hx, h⟩ := (gm_bind_ok _ _ _).1 h
  injection h with h
  subst h
  obtain ⟨d1, d2⟩ := delayed_mem _ _ _ _ _ hsd
  have key : ∀ y ∈ x, GmUnit y.1 ∧ GmUnit y.2.1 ∧ (N.kind = .s2 → GmUnit y.2.2) := by
    intro y hy
    unfold gmCellAll at hx
    split at hx
    · rename_i hl
      rw [Bool.and_eq_true] at hl
      obtain ⟨i, hi, hf⟩ := (mapM_ok_mem _ _ _ hx).2 y hy
      have hi' := List.mem_range.1 hi
      refine cell_unit N.kind N.act hA N.size N.h cell _ _ _ ?_ ?_ y hf
      · intro hk p hp
        rcases hs1 : s.1 with _ | q
        · rw [hs1] at hp; cases hp
        · rw [hs1] at hp hl
          have hlen : q.length = st.2.length := by simpa using hl.1
          injection hp with hp
          obtain ⟨l, hl', hq⟩ := d1 q hs1
          rw [← hp]
          exact hs hk l hl' q hq _ (gm_getD_mem q i (by omega) _)
      · intro hk p hp
        rcases hs1 : s.2 with _ | q
        · rw [hs1] at hp; cases hp
        · rw [hs1] at hp hl
          have hlen : q.length = st.2.length := by simpa using hl.2
          injection hp with hp
          obtain ⟨l, hl', hq⟩ := d2 q hs1
          rw [← hp]
          exact hs hk l hl' q hq _ (gm_getD_mem q i (by omega) _)
    · cases hx
  constructor
  · intro q hq
    rcases List.mem_append.1 hq with hq | hq
    · exact h1 q hq
    · rw [List.mem_singleton.1 hq]
      intro p hp
      obtain ⟨y, hy, rfl⟩ := List.mem_map.1 hp
      exact (key y hy).2
  · intro v hv
    obtain ⟨y, hy, rfl⟩ := List.mem_map.1 hv
    exact (key y hy).1

theorem layers_unit (N : GmStack K) (hA : GmActOk N.act) (store : GmStore K) (hs : GmStoreUnit N.kind store) :
    ∀ (ds : List Int) (st r : List (List (List K × List K)) × List (List K)), ds ≠ [] →
      (∀ s ∈ st.1, GmLayerUnit N.kind s) → ds.foldlM (gmLayer N store) st = .ok r →
      (∀ s ∈ r.1, GmLayerUnit N.kind s) ∧ ∀ x ∈ r.2, GmUnit x := by
  intro ds
  induction ds with
  | nil => intro st r h; exact absurd rfl h
  | cons d ds ih =>
    intro st r _ h1 h
    rw [List.foldlM_cons] at h
    obtain ⟨x, hx, h⟩ := (gm_bind_ok _ _ _).1 h
    obtain ⟨h2, h3⟩ := layer_unit N hA store hs st x d h1 hx
    by_cases hne : ds = []
    · subst hne
      injection h with h
      subst h
      exact ⟨h2, h3⟩
    · exact ih x r hne h2 h

theorem blocks_unit (N : GmStack K) (hA : GmActOk N.act) (store : GmStore K) (hs : GmStoreUnit N.kind store) :
    ∀ (bs : List (List Int)) (st r : List (List (List K × List K)) × List (List K) × List (List K)) (B : K),
      (∀ b ∈ bs, b ≠ []) → (∀ s ∈ st.1, GmLayerUnit N.kind s) → (∀ x ∈ st.2.2, ∀ v ∈ x, |v| ≤ B) →
      bs.foldlM (gmBlock N store) st = .ok r →
      (∀ s ∈ r.1, GmLayerUnit N.kind s) ∧ ∀ x ∈ r.2.2, ∀ v ∈ x, |v| ≤ B + bs.length := by
  intro bs
  induction bs with
  | nil =>
    intro st r B _ h1 h2 h
    injection h with h
    subst h
    refine ⟨h1, fun x hx v hv => ?_⟩
    have := h2 x hx v hv
    simpa using this
  | cons b bs ih =>
    intro st r B hne h1 h2 h
    rw [List.foldlM_cons] at h
    obtain ⟨x, hx, h⟩ := (gm_bind_ok _ _ _).1 h
    unfold gmBlock at hx
    obtain ⟨y, hy, hx⟩ := (gm_bind_ok _ _ _).1 hx
    injection hx with hx
    subst hx
    obtain ⟨h3, h4⟩ := layers_unit N hA store hs b _ y (hne b (List.mem_cons_self ..)) h1 hy
    obtain ⟨h5, h6⟩ := ih _ r (B + 1) (fun b hb => hne b (List.mem_cons_of_mem _ hb)) h3 (by
      intro q hq v hv
      simp only [gmAddRows] at hq
      obtain ⟨i, hi, rfl⟩ := List.getElem_of_mem hq
      rw [List.length_zipWith] at hi
      rw [List.getElem_zipWith] at hv
      obtain ⟨j, hj, rfl⟩ := List.getElem_of_mem hv
      rw [List.length_zipWith] at hj
      rw [List.getElem_zipWith]
      have e1 := h4 _ (List.getElem_mem (show i < y.2.length by omega)) _ (List.getElem_mem (show j < _ by omega))
      have e2 := h2 _ (List.getElem_mem (show i < st.2.2.length by omega)) _ (List.getElem_mem (show j < _ by omega))
      have e3 := abs_add_le (y.2[i][j]) (st.2.2[i][j])
      linarith) h
    refine ⟨h5, fun q hq v hv => ?_⟩
    have := h6 q hq v hv
    rw [List.length_cons]
    push_cast
    linarith

/-- C144: with a sigmoid between 0 and 1 and a `tanh` between -1 and 1, all states `h`, and with `S2Cell` all states `c`,
are between -1 and 1, and without an adaptor no output is larger than the number of blocks, whatever the weights and the
inputs are. -/
theorem C144_bounded (N : GmStack K) (hA : GmActOk N.act) (hne : ∀ b ∈ N.blocks, b ≠ []) (store store' : GmStore K)
    (hs : ∀ l ∈ store, ∀ s ∈ l, GmLayerUnit N.kind s) (inp o : List (List K))
    (h : gmNetForward N store inp = .ok (store', o)) :
    (∀ l ∈ store', ∀ s ∈ l, GmLayerUnit N.kind s) ∧
    (N.adaptor = none → ∀ x ∈ o, ∀ v ∈ x, |v| ≤ N.blocks.length) := by
  unfold gmNetForward at h
  simp only [] at h
  obtain ⟨r, hr, h⟩ := (gm_bind_ok _ _ _).1 h
  obtain ⟨q, hq, h⟩ := (gm_bind_ok _ _ _).1 h
  injection h with h
  injection h with h3 h4
  subst h3 h4
  obtain ⟨h1, h2⟩ := blocks_unit N hA store (fun hk l hl s hs' p hp => (hs l hl s hs' p hp).2 hk) N.blocks _ r 0 hne
    (fun s hs => by cases hs) (by
      intro x hx v hv
      obtain ⟨_, _, rfl⟩ := List.mem_map.1 hx
      rw [(List.mem_replicate.1 hv).2, abs_zero]) hr
  constructor
  · intro l hl s hs'
    rcases List.mem_append.1 hl with hl | hl
    · exact hs l hl s hs'
    · rw [List.mem_singleton.1 hl] at hs'
      exact h1 s hs'
  · intro ha x hx v hv
    rw [ha] at hq
    injection hq with hq
    rw [← hq] at hx
    have := h2 x hx v hv
    rwa [zero_add] at this

end
end Kats
