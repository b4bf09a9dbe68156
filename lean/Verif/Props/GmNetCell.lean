import Verif.Props.GmNet
import Verif.Lemmas.MapM

/-!
# C144: what the cells compute
-/

namespace Kats

section
variable {K : Type} [Field K]

/-- The value `j` of the gate `k`: the row `k * size + j` of the matrix and of the bias. -/
def gateVal (w : List (List K × K)) (size k j : Nat) (y : List K) : K :=
  gmDot (w.getD (k * size + j) ([], 0)).1 y + (w.getD (k * size + j) ([], 0)).2

theorem gate_get (w : List (List K × K)) (size k j : Nat) (y : List K) (hw : w.length = 4 * size) (hk : k < 4)
    (hj : j < size) : (gmGate size k (w.map fun r => gmDot r.1 y + r.2))[j]? = some (gateVal w size k j y) := by
  have : k * size + j < w.length := by
    have : k * size ≤ 3 * size := Nat.mul_le_mul_right _ (by omega)
    omega
  unfold gmGate gateVal
  rw [List.getElem?_take_of_lt hj, List.getElem?_drop, List.getElem?_map, List.getElem?_eq_getElem this,
    List.getD_eq_getElem?_getD, List.getElem?_eq_getElem this]
  rfl

theorem zip_get {α β γ : Type} (f : α → β → γ) (a : List α) (b : List β) (j : Nat) (u : α) (v : β) (ha : a[j]? = some u)
    (hb : b[j]? = some v) : (List.zipWith f a b)[j]? = some (f u v) := by
  rw [List.getElem?_zipWith, ha, hb]

theorem map_get {α β : Type} (f : α → β) (a : List α) (j : Nat) (u : α) (ha : a[j]? = some u) :
    (a.map f)[j]? = some (f u) := by
  rw [List.getElem?_map, ha]; rfl

theorem linear_val (w : List (List K × K)) (x y : List K) (h : gmLinear w x = .ok y) :
    y = w.map fun r => gmDot r.1 x + r.2 := by
  unfold gmLinear at h
  split at h
  · injection h with h
    exact h.symm
  · cases h

theorem sameLen_val (c d : List K) (size : Nat) (h : gmSameLen c size = .ok d) : d = c ∧ c.length = size := by
  unfold gmSameLen at h
  split at h
  · rename_i hl
    injection h with h
    exact ⟨h.symm, hl⟩
  · cases h

theorem split_val (out h : Nat) (whole : List K) (r : List K × List K) (hr : gmSplitOut out h whole = .ok r) :
    r.1 ++ r.2 = whole ∧ r.1.length = out ∧ r.2.length = h := by
  unfold gmSplitOut at hr
  split at hr
  · rename_i hl
    injection hr with hr
    subst hr
    refine ⟨List.take_append_drop _ _, ?_, ?_⟩
    · rw [List.length_take]; omega
    · rw [List.length_drop]; omega
  · cases hr

/-- What a cell is given besides the input: zeros at the first time, the previous state twice as long as there is no
delayed one, then both. -/
def CellInput (h : Nat) (x : List K) (prev delayed : Option (List K × List K)) (y : List K) : Prop :=
  (prev = none ∧ y = x ++ List.replicate (2 * h) 0) ∨
  (∃ p, prev = some p ∧ delayed = none ∧ y = x ++ p.1 ++ p.1) ∨
  ∃ p d, prev = some p ∧ delayed = some d ∧ y = x ++ p.1 ++ d.1

theorem cellIn_val (h : Nat) (x : List K) (prev delayed : Option (List K × List K)) (y : List K)
    (hy : CellInput h x prev delayed y) : gmCellIn h x prev delayed = y := by
  rcases hy with ⟨rfl, rfl⟩ | ⟨p, rfl, rfl, rfl⟩ | ⟨p, d, rfl, rfl, rfl⟩ <;> rfl

/-- C144: `LSTM2Cell`: the state is the sum of the delayed state (the previous one if there is none) times the forget gate,
which has one more in its argument, and the new value times the input gate; the output and the state `h` are the first
and the last values of `tanh` of the state times the output gate. -/
theorem C144_lstm2 (A : GmAct K) (size h : Nat) (cell : GmCell K) (hc : cell.lxh.length = 4 * size) (x y : List K)
    (prev delayed : Option (List K × List K)) (hy : CellInput h x prev delayed y) (r : List K × List K × List K)
    (hr : gmLstm2 A size h cell x prev delayed = .ok r) :
    r.1.length = size - h ∧ r.2.1.length = h ∧ ∀ j, j < size → ∃ s, r.2.2[j]? = some s ∧
      (r.1 ++ r.2.1)[j]? = some (A.sigmoid (gateVal cell.lxh size 2 j y) * A.tanh s) ∧
      (prev = none → s = A.tanh (gateVal cell.lxh size 3 j y)) ∧
      (∀ p, prev = some p → ∀ v, (delayed = none ∧ p.2[j]? = some v) ∨ (∃ d, delayed = some d ∧ d.2[j]? = some v) →
        s = A.sigmoid (gateVal cell.lxh size 0 j y + 1) * v +
          A.sigmoid (gateVal cell.lxh size 1 j y) * A.tanh (gateVal cell.lxh size 3 j y)) := by
  unfold gmLstm2 at hr
  rw [cellIn_val h x prev delayed y hy] at hr
  obtain ⟨g, hg, hr⟩ := (gm_bind_ok _ _ _).1 hr
  have hg := linear_val _ _ _ hg
  obtain ⟨s, hs, hr⟩ := (gm_bind_ok _ _ _).1 hr
  obtain ⟨o, ho, hr⟩ := (gm_bind_ok _ _ _).1 hr
  injection hr with hr
  subst hr
  obtain ⟨o1, o2, o3⟩ := split_val _ _ _ _ ho
  refine ⟨o2, o3, ?_⟩
  intro j hj
  have G := fun k hk => gate_get cell.lxh size k j y hc hk hj
  rw [← hg] at G
  show ∃ v, s[j]? = some v ∧ (o.1 ++ o.2)[j]? = _ ∧ _
  rw [o1]
  unfold gmLstm2State at hs
  rcases prev with _ | p
  · injection hs with hs
    have hv : s[j]? = some (A.tanh (gateVal cell.lxh size 3 j y)) := by rw [← hs]; exact map_get _ _ _ _ (G 3 (by omega))
    refine ⟨_, hv, zip_get _ _ _ _ _ _ (map_get _ _ _ _ (G 2 (by omega))) (map_get _ _ _ _ hv), fun _ => rfl, ?_⟩
    intro p hp
    cases hp
  · simp only [] at hs
    rcases hq : gmSameLen (gmLstm2Carry p delayed) size with e | c
    · rw [hq] at hs; cases hs
    · rw [hq] at hs
      injection hs with hs
      obtain ⟨q1, q2⟩ := sameLen_val _ _ _ hq
      obtain ⟨v, hcv⟩ : ∃ v, c[j]? = some v := ⟨_, List.getElem?_eq_getElem (by rw [q1, q2]; exact hj)⟩
      have hv : s[j]? = some (A.sigmoid (gateVal cell.lxh size 0 j y + 1) * v +
          A.sigmoid (gateVal cell.lxh size 1 j y) * A.tanh (gateVal cell.lxh size 3 j y)) := by
        rw [← hs]
        exact zip_get _ _ _ _ _ _ (zip_get _ _ _ _ _ _ (map_get _ _ _ _ (G 0 (by omega))) hcv)
          (zip_get _ _ _ _ _ _ (map_get _ _ _ _ (G 1 (by omega))) (map_get _ _ _ _ (G 3 (by omega))))
      refine ⟨_, hv, zip_get _ _ _ _ _ _ (map_get _ _ _ _ (G 2 (by omega))) (map_get _ _ _ _ hv), (fun h => by cases h), ?_⟩
      intro p' hp v' hv'
      injection hp with hp
      subst hp
      have : v' = v := by
        rw [q1] at hcv
        rcases hv' with ⟨rfl, h2⟩ | ⟨d, rfl, h2⟩
        · replace hcv : p.2[j]? = some v := hcv
          rw [hcv] at h2; injection h2 with h2; exact h2.symm
        · replace hcv : d.2[j]? = some v := hcv
          rw [hcv] at h2; injection h2 with h2; exact h2.symm
      rw [this]

/-- C144: `S2Cell`: the state carried on is the previous one, mixed with the delayed one by the gate for it if there is one;
the new state mixes it with the new value by the forget gate; the output and `h` are the first and the last values of
the new state times the output gate. -/
theorem C144_s2 (A : GmAct K) (size h : Nat) (cell : GmCell K) (hc : cell.lxh.length = 4 * size) (x y : List K)
    (prev delayed : Option (List K × List K)) (hy : CellInput h x prev delayed y) (r : List K × List K × List K)
    (hr : gmS2 A size h cell x prev delayed = .ok r) :
    r.1.length = size - h ∧ r.2.1.length = h ∧ ∀ j, j < size → ∃ s, r.2.2[j]? = some s ∧
      (r.1 ++ r.2.1)[j]? = some (A.sigmoid (gateVal cell.lxh size 3 j y) * s) ∧
      (prev = none → s = A.tanh (gateVal cell.lxh size 1 j y)) ∧
      (∀ p, prev = some p → delayed = none → ∀ v, p.2[j]? = some v →
        s = A.sigmoid (gateVal cell.lxh size 0 j y + 1) * v +
          (1 - A.sigmoid (gateVal cell.lxh size 0 j y + 1)) * A.tanh (gateVal cell.lxh size 1 j y)) ∧
      (∀ p, prev = some p → ∀ d, delayed = some d → ∀ v, p.2[j]? = some v → ∀ u, d.2[j]? = some u →
        s = A.sigmoid (gateVal cell.lxh size 0 j y + 1) * (A.sigmoid (gateVal cell.lxh size 2 j y) * v +
            (1 - A.sigmoid (gateVal cell.lxh size 2 j y)) * u) +
          (1 - A.sigmoid (gateVal cell.lxh size 0 j y + 1)) * A.tanh (gateVal cell.lxh size 1 j y)) := by
  unfold gmS2 at hr
  rw [cellIn_val h x prev delayed y hy] at hr
  obtain ⟨g, hg, hr⟩ := (gm_bind_ok _ _ _).1 hr
  have hg := linear_val _ _ _ hg
  obtain ⟨s, hs, hr⟩ := (gm_bind_ok _ _ _).1 hr
  obtain ⟨o, ho, hr⟩ := (gm_bind_ok _ _ _).1 hr
  injection hr with hr
  subst hr
  obtain ⟨o1, o2, o3⟩ := split_val _ _ _ _ ho
  refine ⟨o2, o3, ?_⟩
  intro j hj
  have G := fun k hk => gate_get cell.lxh size k j y hc hk hj
  rw [← hg] at G
  show ∃ v, s[j]? = some v ∧ (o.1 ++ o.2)[j]? = _ ∧ _
  rw [o1]
  unfold gmS2State at hs
  rcases prev with _ | p
  · injection hs with hs
    have hv : s[j]? = some (A.tanh (gateVal cell.lxh size 1 j y)) := by rw [← hs]; exact map_get _ _ _ _ (G 1 (by omega))
    exact ⟨_, hv, zip_get _ _ _ _ _ _ (map_get _ _ _ _ (G 3 (by omega))) hv, (fun _ => rfl), (fun p hp => by cases hp),
      fun p hp => by cases hp⟩
  · simp only [] at hs
    rcases hq : gmS2Carry A size g p delayed with e | c
    · rw [hq] at hs; cases hs
    · rw [hq] at hs
      injection hs with hs
      have step : ∀ v, c[j]? = some v → s[j]? = some (A.sigmoid (gateVal cell.lxh size 0 j y + 1) * v +
          (1 - A.sigmoid (gateVal cell.lxh size 0 j y + 1)) * A.tanh (gateVal cell.lxh size 1 j y)) := by
        intro v hcv
        rw [← hs]
        exact zip_get _ _ _ _ _ _ (zip_get _ _ _ _ _ _ (map_get _ _ _ _ (G 0 (by omega))) hcv)
          (zip_get (fun f v => (1 - f) * v) _ _ _ _ _ (map_get _ _ _ _ (G 0 (by omega))) (map_get _ _ _ _ (G 1 (by omega))))
      rcases delayed with _ | d
      · obtain ⟨q1, q2⟩ := sameLen_val _ _ _ hq
        obtain ⟨v, hcv⟩ : ∃ v, c[j]? = some v := ⟨_, List.getElem?_eq_getElem (by rw [q1, q2]; exact hj)⟩
        refine ⟨_, step v hcv, zip_get _ _ _ _ _ _ (map_get _ _ _ _ (G 3 (by omega))) (step v hcv), (fun h => by cases h), ?_,
          fun p' hp d hd => by cases hd⟩
        intro p' hp _ v' hv'
        injection hp with hp
        subst hp
        rw [q1, hv'] at hcv
        injection hcv with hcv
        rw [hcv]
      · unfold gmS2Carry at hq
        simp only [] at hq
        obtain ⟨c1, h1, hq⟩ := (gm_bind_ok _ _ _).1 hq
        obtain ⟨c2, h2, hq⟩ := (gm_bind_ok _ _ _).1 hq
        injection hq with hq
        obtain ⟨q1, q2⟩ := sameLen_val _ _ _ h1
        obtain ⟨w1, w2⟩ := sameLen_val _ _ _ h2
        obtain ⟨v, hv⟩ : ∃ v, p.2[j]? = some v := ⟨_, List.getElem?_eq_getElem (by rw [q2]; exact hj)⟩
        obtain ⟨u, hu⟩ : ∃ u, d.2[j]? = some u := ⟨_, List.getElem?_eq_getElem (by rw [w2]; exact hj)⟩
        have hcv : c[j]? = some (A.sigmoid (gateVal cell.lxh size 2 j y) * v +
            (1 - A.sigmoid (gateVal cell.lxh size 2 j y)) * u) := by
          rw [← hq, q1, w1]
          exact zip_get _ _ _ _ _ _ (zip_get _ _ _ _ _ _ (map_get _ _ _ _ (G 2 (by omega))) hv)
            (zip_get (fun a v => (1 - a) * v) _ _ _ _ _ (map_get _ _ _ _ (G 2 (by omega))) hu)
        refine ⟨_, step _ hcv, zip_get _ _ _ _ _ _ (map_get _ _ _ _ (G 3 (by omega))) (step _ hcv), (fun h => by cases h),
          (fun p' hp hd => by cases hd), ?_⟩
        intro p' hp d' hd v' hv' u' hu'
        injection hp with hp
        injection hd with hd
        subst hp hd
        rw [hv] at hv'
        rw [hu] at hu'
        injection hv' with hv'
        injection hu' with hu'
        rw [hv', hu']

/-- C144: the cell of torch: with the delayed states if there are any, otherwise the previous ones or zeros, the state is the
sum of the carried state times the forget gate and the new value times the input gate, and the output, which is also
the state `h`, is `tanh` of the state times the output gate. -/
theorem C144_lstm (A : GmAct K) (size : Nat) (cell : GmCell K) (hc : cell.lxh.length = 4 * size)
    (hh : cell.hh.length = 4 * size) (x : List K)
    (prev delayed : Option (List K × List K)) (q : List K × List K)
    (hq : delayed = some q ∨ (delayed = none ∧ prev = some q) ∨
      (delayed = none ∧ prev = none ∧ q = (List.replicate size 0, List.replicate size 0))) (r : List K × List K × List K)
    (hr : gmLstm A size cell x prev delayed = .ok r) :
    r.2.1 = r.1 ∧ ∀ j, j < size → ∀ v, q.2[j]? = some v → ∃ s, r.2.2[j]? = some s ∧
      s = A.sigmoid (gateVal cell.lxh size 1 j x + gateVal cell.hh size 1 j q.1) * v +
        A.sigmoid (gateVal cell.lxh size 0 j x + gateVal cell.hh size 0 j q.1) *
          A.tanh (gateVal cell.lxh size 2 j x + gateVal cell.hh size 2 j q.1) ∧
      r.1[j]? = some (A.sigmoid (gateVal cell.lxh size 3 j x + gateVal cell.hh size 3 j q.1) * A.tanh s) := by
  have hcar : gmLstmCarry size prev delayed = q := by
    rcases hq with rfl | ⟨rfl, rfl⟩ | ⟨rfl, rfl, rfl⟩ <;> rfl
  unfold gmLstm at hr
  rw [hcar] at hr
  obtain ⟨a, ha, hr⟩ := (gm_bind_ok _ _ _).1 hr
  obtain ⟨b, hb, hr⟩ := (gm_bind_ok _ _ _).1 hr
  obtain ⟨c, hcc, hr⟩ := (gm_bind_ok _ _ _).1 hr
  obtain ⟨c1, c2⟩ := sameLen_val _ _ _ hcc
  injection hr with hr
  subst hr
  refine ⟨rfl, ?_⟩
  intro j hj v hv
  have ha := linear_val _ _ _ ha
  have hb := linear_val _ _ _ hb
  have G : ∀ k, k < 4 → (gmGate size k (List.zipWith (· + ·) a b))[j]? =
      some (gateVal cell.lxh size k j x + gateVal cell.hh size k j q.1) := by
    intro k hk
    have g1 := gate_get cell.lxh size k j x hc hk hj
    have g2 := gate_get cell.hh size k j q.1 hh hk hj
    rw [← ha] at g1
    rw [← hb] at g2
    unfold gmGate at g1 g2 ⊢
    rw [List.getElem?_take_of_lt hj, List.getElem?_drop] at g1 g2 ⊢
    exact zip_get _ _ _ _ _ _ g1 g2
  have hs : (gmLstmState A size (List.zipWith (· + ·) a b) c)[j]? =
      some (A.sigmoid (gateVal cell.lxh size 1 j x + gateVal cell.hh size 1 j q.1) * v +
        A.sigmoid (gateVal cell.lxh size 0 j x + gateVal cell.hh size 0 j q.1) *
          A.tanh (gateVal cell.lxh size 2 j x + gateVal cell.hh size 2 j q.1)) := by
    unfold gmLstmState
    exact zip_get _ _ _ _ _ _ (zip_get _ _ _ _ _ _ (map_get _ _ _ _ (G 1 (by omega))) (by rw [c1]; exact hv))
      (zip_get _ _ _ _ _ _ (map_get _ _ _ _ (G 0 (by omega))) (map_get _ _ _ _ (G 2 (by omega))))
  exact ⟨_, hs, rfl, zip_get _ _ _ _ _ _ (map_get _ _ _ _ (G 3 (by omega))) (map_get _ _ _ _ hs)⟩

/-- C144: which states a layer is given: before there are any, none; as long as the dilation is larger than the number of times
before, the previous ones; afterwards the previous ones and those `d` times before, of which the cell of torch is
given only the latter. -/
theorem C144_states (kind : GmCellKind) (store : GmStore K) (layer d : Nat) (hd : 1 ≤ d) :
    (store = [] → gmDelayed kind store layer d = .ok (none, none)) ∧
    (∀ l, l ∈ store.getLast? → ∀ p, l[layer]? = some p → (store.length < d → gmDelayed kind store layer d = .ok (some p, none)) ∧
      (d ≤ store.length → ∀ l', store[store.length - d]? = some l' → ∀ e, l'[layer]? = some e →
        gmDelayed kind store layer d = .ok (if kind = .lstm then none else some p, some e))) := by
  constructor
  · rintro rfl
    unfold gmDelayed
    simp only [List.length_nil]
    rw [if_neg (show ¬ (0 : Int) ≤ ((0 : Nat) : Int) - (d : Int) by omega), if_neg (by omega)]
  · intro l hl p hp
    rw [Option.mem_def, List.getLast?_eq_getElem?] at hl
    have hlen : 0 < store.length := by
      have := (List.getElem?_eq_some_iff.1 hl).1
      omega
    have hprev : gmStoreAt store (store.length - 1) layer = .ok p := by
      unfold gmStoreAt
      rw [hl]
      simp only []
      rw [hp]
    constructor
    · intro hlt
      unfold gmDelayed
      simp only []
      rw [if_neg (show ¬ (0 : Int) ≤ (store.length : Int) - (d : Int) by omega), if_pos hlen, hprev]
      rfl
    · intro hle l' hl' e he
      have hdel : gmStoreAt store (store.length - d) layer = .ok e := by
        unfold gmStoreAt
        rw [hl']
        simp only []
        rw [he]
      unfold gmDelayed
      simp only []
      rw [if_pos (show (0 : Int) ≤ (store.length : Int) - (d : Int) by omega), if_neg (show ¬ (d : Int) ≤ 0 by omega),
        show ((store.length : Int) - (d : Int)).toNat = store.length - d by omega, hdel, hprev]
      by_cases hk : kind = .lstm
      · rw [if_pos hk, if_pos hk]; rfl
      · rw [if_neg hk, if_neg hk]; rfl

theorem layers_without (N : GmStack K) (bs : List (List Int)) (store : GmStore K) :
    gmLayer { N with blocks := bs } store = gmLayer N store := rfl

theorem blocks_without (N : GmStack K) (bs : List (List Int)) (store : GmStore K) :
    gmBlock { N with blocks := bs } store = gmBlock N store := rfl

theorem addRows_get (a b : List (List K)) (i j : Nat) (u v : K) (ra rb : List K) (ha : a[i]? = some ra) (hb : b[i]? = some rb)
    (hu : ra[j]? = some u) (hv : rb[j]? = some v) : ∃ r, (gmAddRows a b)[i]? = some r ∧ r[j]? = some (u + v) :=
  ⟨_, zip_get _ _ _ _ _ _ ha hb, zip_get _ _ _ _ _ _ hu hv⟩

/-- C144: a block after others is given their output, and its own output is added to it. -/
theorem C144_residual (N : GmStack K) (hN : N.adaptor = none) (bs : List (List Int)) (b : List Int) (hne : bs ≠ [])
    (hb : N.blocks = bs ++ [b]) (store store' : GmStore K) (inp o : List (List K))
    (h : gmNetForward N store inp = .ok (store', o)) :
    ∃ l o' l' y, gmNetForward { N with blocks := bs } store inp = .ok (store ++ [l], o') ∧
      b.foldlM (gmLayer N store) (l, o') = .ok (l', y) ∧ store' = store ++ [l'] ∧
      ∀ (i j : Nat) ra rb u v, y[i]? = some ra → o'[i]? = some rb → ra[j]? = some u → rb[j]? = some v →
        ∃ r, o[i]? = some r ∧ r[j]? = some (u + v) := by
  unfold gmNetForward at h
  simp only [] at h
  obtain ⟨r, hr, h⟩ := (gm_bind_ok _ _ _).1 h
  obtain ⟨q, hq, h⟩ := (gm_bind_ok _ _ _).1 h
  injection h with h
  injection h with h1 h2
  rw [hb, List.foldlM_append] at hr
  obtain ⟨m, hm, hr⟩ := (gm_bind_ok _ _ _).1 hr
  rw [List.foldlM_cons] at hr
  obtain ⟨z, hz, hr⟩ := (gm_bind_ok _ _ _).1 hr
  injection hr with hr
  subst hr
  unfold gmBlock at hz
  obtain ⟨y, hy, hz⟩ := (gm_bind_ok _ _ _).1 hz
  injection hz with hz
  have hsame : m.2.1 = m.2.2 := by
    rw [← List.dropLast_append_getLast hne, List.foldlM_append] at hm
    obtain ⟨m', _, hm⟩ := (gm_bind_ok _ _ _).1 hm
    rw [List.foldlM_cons] at hm
    obtain ⟨m2, hm2, hm⟩ := (gm_bind_ok _ _ _).1 hm
    injection hm with hm
    subst hm
    unfold gmBlock at hm2
    obtain ⟨_, _, hm2⟩ := (gm_bind_ok _ _ _).1 hm2
    injection hm2 with hm2
    rw [← hm2]
  refine ⟨m.1, m.2.2, y.1, y.2, ?_, ?_, ?_, ?_⟩
  · unfold gmNetForward
    simp only []
    show (List.foldlM (gmBlock N store) ([], inp, inp.map fun _ => List.replicate N.out 0) bs >>= fun r => _) = _
    rw [hm]
    show (gmAdapt N.adaptor m.2.2 >>= fun o => _) = _
    rw [hN]
    rfl
  · rw [← hsame]
    exact hy
  · rw [← h1, ← hz]
  · intro i j ra rb u v e1 e2 e3 e4
    rw [hN] at hq
    injection hq with hq
    rw [← h2, ← hq, ← hz]
    exact addRows_get _ _ i j u v ra rb e1 e2 e3 e4

/-- C144: with one block and no adaptor, the output is that of its last layer. -/
theorem C144_one_block (N : GmStack K) (hN : N.adaptor = none) (b : List Int) (hb : N.blocks = [b])
    (store store' : GmStore K) (inp o : List (List K)) (h : gmNetForward N store inp = .ok (store', o)) :
    ∃ l y, b.foldlM (gmLayer N store) ([], inp) = .ok (l, y) ∧ store' = store ++ [l] ∧
      (y.length = inp.length → (∀ r ∈ y, r.length = N.out) → o = y) := by
  unfold gmNetForward at h
  simp only [] at h
  obtain ⟨r, hr, h⟩ := (gm_bind_ok _ _ _).1 h
  obtain ⟨q, hq, h⟩ := (gm_bind_ok _ _ _).1 h
  injection h with h
  injection h with h1 h2
  rw [hb, List.foldlM_cons] at hr
  obtain ⟨z, hz, hr⟩ := (gm_bind_ok _ _ _).1 hr
  injection hr with hr
  subst hr
  unfold gmBlock at hz
  obtain ⟨y, hy, hz⟩ := (gm_bind_ok _ _ _).1 hz
  injection hz with hz
  refine ⟨y.1, y.2, hy, by rw [← h1, ← hz], ?_⟩
  intro hl hw
  rw [hN] at hq
  injection hq with hq
  rw [← h2, ← hq, ← hz]
  show gmAddRows y.2 (inp.map fun _ => List.replicate N.out 0) = y.2
  apply List.ext_getElem
  · simp [gmAddRows, hl]
  · intro i h1 h2
    simp only [gmAddRows, List.getElem_zipWith, List.getElem_map]
    apply List.ext_getElem
    · simp [hw _ (List.getElem_mem h2)]
    · intro j h3 h4
      simp

/-- C144: the adaptor is put on top of the network without one, for each row. -/
theorem C144_adaptor (N : GmStack K) (w : List (List K × K)) (hN : N.adaptor = some w) (store store' : GmStore K)
    (inp o : List (List K)) (h : gmNetForward N store inp = .ok (store', o)) :
    ∃ o', gmNetForward { N with adaptor := none } store inp = .ok (store', o') ∧
      List.Forall₂ (fun x y => y = w.map fun r => gmDot r.1 x + r.2) o' o := by
  unfold gmNetForward at h
  simp only [] at h
  obtain ⟨r, hr, h⟩ := (gm_bind_ok _ _ _).1 h
  obtain ⟨q, hq, h⟩ := (gm_bind_ok _ _ _).1 h
  injection h with h
  injection h with h1 h2
  refine ⟨r.2.2, ?_, ?_⟩
  · unfold gmNetForward
    simp only []
    show (List.foldlM (gmBlock N store) ([], inp, inp.map fun _ => List.replicate N.out 0) N.blocks >>= fun r => _) = _
    rw [hr, ← h1]
    rfl
  · rw [hN] at hq
    rw [← h2]
    exact (mapM_forall2 _ _ _ hq).imp fun x y hxy => linear_val _ _ _ hxy

end
end Kats
