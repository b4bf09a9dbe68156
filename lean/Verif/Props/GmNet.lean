import Verif.Model.GmNet
import Verif.Props.GmRun
import Verif.Props.EnsembleInterval
import Mathlib.Algebra.Order.Field.Basic
import Mathlib.Algebra.Order.Group.Unbundled.Abs

/-!
# C144: the networks of global models
-/

namespace Kats

section
variable {K : Type} [Field K]

theorem linear_ok (w : List (List K × K)) (x : List K) (h : ∀ r ∈ w, r.1.length = x.length) :
    gmLinear w x = .ok (w.map fun r => gmDot r.1 x + r.2) := by
  unfold gmLinear
  rw [if_pos]
  rw [List.all_eq_true]
  intro r hr
  exact decide_eq_true (h r hr)

theorem linear_len (w : List (List K × K)) (x y : List K) (h : gmLinear w x = .ok y) : y.length = w.length := by
  unfold gmLinear at h
  split at h
  · injection h with h
    rw [← h, List.length_map]
  · cases h

theorem gate_len (size i : Nat) (gates : List K) (h : gates.length = 4 * size) (hi : i < 4) :
    (gmGate size i gates).length = size := by
  unfold gmGate
  rw [List.length_take, List.length_drop, h]
  have : i * size ≤ 3 * size := Nat.mul_le_mul_right _ (by omega)
  omega

theorem sameLen_ok (c : List K) (size : Nat) (h : c.length = size) : gmSameLen c size = .ok c := if_pos h

/-- The size of the state `h` of a row. -/
def GmStack.hs (N : GmStack K) : Nat := match N.kind with | .lstm => N.size | _ => N.h.toNat

/-- A row of states has the right sizes. -/
def GmRowOk (N : GmStack K) (p : List K × List K) : Prop := p.1.length = N.hs ∧ p.2.length = N.size

/-- The states of a layer: `n` rows. -/
def GmLayerOk (N : GmStack K) (n : Nat) (s : List (List K × List K)) : Prop := s.length = n ∧ ∀ p ∈ s, GmRowOk N p

/-- The states of the times before: at least as many layers as the network has, with `n` rows each. -/
def GmStoreOk (N : GmStack K) (n : Nat) (store : GmStore K) : Prop :=
  ∀ l ∈ store, N.blocks.flatten.length ≤ l.length ∧ ∀ s ∈ l, GmLayerOk N n s

/-- The maps of a cell with `input` inputs have the right sizes. -/
def GmCellOk (N : GmStack K) (input : Nat) (cell : GmCell K) : Prop :=
  cell.lxh.length = 4 * N.size ∧
  match N.kind with
  | .lstm => (∀ r ∈ cell.lxh, r.1.length = input) ∧ cell.hh.length = 4 * N.size ∧ ∀ r ∈ cell.hh, r.1.length = N.size
  | _ => ∀ r ∈ cell.lxh, r.1.length = input + 2 * N.h.toNat

/-- A network with `input` inputs: positive dilations, sizes that fit. -/
structure GmNetWf (N : GmStack K) (input : Nat) : Prop where
  h : N.kind ≠ .lstm → 0 ≤ N.h ∧ N.h < N.size
  some : N.blocks ≠ []
  block : ∀ b ∈ N.blocks, b ≠ []
  dilation : ∀ b ∈ N.blocks, ∀ d ∈ b, 1 ≤ d
  count : N.cells.length = N.blocks.flatten.length
  cells : ∀ (i : Nat) cell, N.cells[i]? = .some cell → GmCellOk N (if i = 0 then input else N.out) cell
  adaptor : ∀ w, N.adaptor = .some w → ∀ r ∈ w, r.1.length = N.out

theorem splitOut_ok (out h : Nat) (whole : List K) (hl : whole.length = out + h) :
    gmSplitOut out h whole = .ok (whole.take out, whole.drop out) := if_pos hl

theorem cellIn_len (N : GmStack K) (hk : N.kind ≠ .lstm) (input : Nat) (x : List K) (hx : x.length = input)
    (prev delayed : Option (List K × List K)) (hp : ∀ p, prev = some p → GmRowOk N p)
    (hd : ∀ p, delayed = some p → GmRowOk N p) : (gmCellIn N.h.toNat x prev delayed).length = input + 2 * N.h.toNat := by
  have hs : N.hs = N.h.toNat := by
    unfold GmStack.hs
    rcases h : N.kind <;> first | rfl | exact absurd h hk
  unfold gmCellIn
  rcases prev with _ | p
  · simp [hx]
  · have h1 := (hp p rfl).1
    rcases delayed with _ | d
    · simp [hx, h1, hs]; omega
    · have h2 := (hd d rfl).1
      simp [hx, h1, h2, hs]; omega

theorem net_hs (N : GmStack K) (hk : N.kind ≠ .lstm) : N.hs = N.h.toNat := by
  unfold GmStack.hs
  rcases h : N.kind <;> first | rfl | exact absurd h hk

theorem net_out (N : GmStack K) (hk : N.kind ≠ .lstm) (h0 : 0 ≤ N.h) : N.out = N.size - N.h.toNat := by
  unfold GmStack.out
  rcases h : N.kind <;> first | (simp only []; omega) | exact absurd h hk

theorem net_cell (N : GmStack K) (hk : N.kind ≠ .lstm) (input : Nat) (cell : GmCell K) (hc : GmCellOk N input cell) :
    cell.lxh.length = 4 * N.size ∧ ∀ r ∈ cell.lxh, r.1.length = input + 2 * N.h.toNat := by
  unfold GmCellOk at hc
  rcases h : N.kind <;> rw [h] at hc <;> first | exact hc | exact absurd h hk

theorem split_row (N : GmStack K) (hk : N.kind ≠ .lstm) (h0 : 0 ≤ N.h) (h1 : N.h < N.size) (whole state : List K)
    (hw : whole.length = N.size) (hst : state.length = N.size) :
    ∃ r, (gmSplitOut (N.size - N.h.toNat) N.h.toNat whole >>=
      fun r => (.ok (r.1, r.2, state) : Except Err (List K × List K × List K))) = .ok r ∧
      r.1.length = N.out ∧ GmRowOk N r.2 := by
  rw [splitOut_ok _ _ _ (by rw [hw]; omega)]
  refine ⟨_, rfl, ?_, ?_, hst⟩
  · rw [net_out N hk h0, List.length_take, hw]; omega
  · rw [net_hs N hk, List.length_drop, hw]; omega

theorem lstm2State_ok (N : GmStack K) (gates : List K) (hg : gates.length = 4 * N.size)
    (prev delayed : Option (List K × List K))
    (hp : ∀ p, prev = some p → GmRowOk N p) (hd : ∀ p, delayed = some p → GmRowOk N p) :
    ∃ s, gmLstm2State N.act N.size gates prev delayed = .ok s ∧ s.length = N.size := by
  unfold gmLstm2State
  rcases prev with _ | p
  · exact ⟨_, rfl, by simp [gate_len N.size 3 gates hg (by omega)]⟩
  · have hcl : (gmLstm2Carry p delayed).length = N.size := by
      rcases delayed with _ | d
      · exact (hp p rfl).2
      · exact (hd d rfl).2
    simp only []
    rw [sameLen_ok _ _ hcl]
    exact ⟨_, rfl, by simp [gate_len N.size 3 gates hg (by omega), gate_len N.size 0 gates hg (by omega),
      gate_len N.size 1 gates hg (by omega), hcl]⟩

theorem s2Carry_ok (N : GmStack K) (gates : List K) (hg : gates.length = 4 * N.size) (p : List K × List K)
    (delayed : Option (List K × List K)) (hp : GmRowOk N p) (hd : ∀ p, delayed = some p → GmRowOk N p) :
    ∃ s, gmS2Carry N.act N.size gates p delayed = .ok s ∧ s.length = N.size := by
  rcases delayed with _ | d
  · exact ⟨_, sameLen_ok _ _ hp.2, hp.2⟩
  · have h2 := (hd d rfl).2
    unfold gmS2Carry
    simp only []
    rw [sameLen_ok _ _ hp.2, sameLen_ok _ _ h2]
    exact ⟨_, rfl, by simp [gate_len N.size 2 gates hg (by omega), hp.2, h2]⟩

theorem s2State_ok (N : GmStack K) (gates : List K) (hg : gates.length = 4 * N.size)
    (prev delayed : Option (List K × List K))
    (hp : ∀ p, prev = some p → GmRowOk N p) (hd : ∀ p, delayed = some p → GmRowOk N p) :
    ∃ s, gmS2State N.act N.size gates prev delayed = .ok s ∧ s.length = N.size := by
  unfold gmS2State
  rcases prev with _ | p
  · exact ⟨_, rfl, by simp [gate_len N.size 1 gates hg (by omega)]⟩
  · obtain ⟨c, c1, c2⟩ := s2Carry_ok N gates hg p delayed (hp p rfl) hd
    simp only []
    rw [c1]
    exact ⟨_, rfl, by simp [gate_len N.size 0 gates hg (by omega), gate_len N.size 1 gates hg (by omega), c2]⟩

/-- A cell gives an output and states of the right sizes. -/
theorem cell_ok (N : GmStack K) (hh : N.kind ≠ .lstm → 0 ≤ N.h ∧ N.h < N.size) (input : Nat) (cell : GmCell K)
    (hc : GmCellOk N input cell) (x : List K) (hx : x.length = input) (prev delayed : Option (List K × List K))
    (hp : ∀ p, prev = some p → GmRowOk N p) (hd : ∀ p, delayed = some p → GmRowOk N p) :
    ∃ r, gmCellRow N.kind N.act N.size N.h cell x prev delayed = .ok r ∧ r.1.length = N.out ∧ GmRowOk N r.2 := by
  rcases hk : N.kind with _ | _ | _
  · obtain ⟨h0, h1⟩ := hh (by rw [hk]; decide)
    have hk' : N.kind ≠ .lstm := by rw [hk]; decide
    obtain ⟨c1, c2⟩ := net_cell N hk' input cell hc
    have hl := cellIn_len N hk' input x hx prev delayed hp hd
    show ∃ r, (if N.h < 0 then Except.error Err.otherError else gmLstm2 N.act N.size N.h.toNat cell x prev delayed) = _ ∧ _
    rw [if_neg (by omega)]
    unfold gmLstm2
    rw [linear_ok _ _ (fun r hr => by rw [c2 r hr, hl])]
    have hg : (cell.lxh.map fun r => gmDot r.1 (gmCellIn N.h.toNat x prev delayed) + r.2).length = 4 * N.size := by
      rw [List.length_map, c1]
    obtain ⟨s, s1, s2⟩ := lstm2State_ok N _ hg prev delayed hp hd
    show ∃ r, (gmLstm2State _ _ _ _ _ >>= fun state => gmSplitOut _ _ _ >>= fun r => pure _) = _ ∧ _
    rw [s1]
    exact split_row N hk' h0 h1 _ s (by simp [gate_len N.size 2 _ hg (by omega), s2]) s2
  · obtain ⟨h0, h1⟩ := hh (by rw [hk]; decide)
    have hk' : N.kind ≠ .lstm := by rw [hk]; decide
    obtain ⟨c1, c2⟩ := net_cell N hk' input cell hc
    have hl := cellIn_len N hk' input x hx prev delayed hp hd
    show ∃ r, (if N.h < 0 then Except.error Err.otherError else gmS2 N.act N.size N.h.toNat cell x prev delayed) = _ ∧ _
    rw [if_neg (by omega)]
    unfold gmS2
    rw [linear_ok _ _ (fun r hr => by rw [c2 r hr, hl])]
    have hg : (cell.lxh.map fun r => gmDot r.1 (gmCellIn N.h.toNat x prev delayed) + r.2).length = 4 * N.size := by
      rw [List.length_map, c1]
    obtain ⟨s, s1, s2⟩ := s2State_ok N _ hg prev delayed hp hd
    show ∃ r, (gmS2State _ _ _ _ _ >>= fun state => gmSplitOut _ _ _ >>= fun r => pure _) = _ ∧ _
    rw [s1]
    exact split_row N hk' h0 h1 _ s (by simp [gate_len N.size 3 _ hg (by omega), s2]) s2
  · have hs : N.hs = N.size := by unfold GmStack.hs; rw [hk]
    have ho : N.out = N.size := by unfold GmStack.out; rw [hk]
    unfold GmCellOk at hc
    rw [hk] at hc
    obtain ⟨c1, c2, c3, c4⟩ := hc
    have hcar : (gmLstmCarry N.size prev delayed).1.length = N.size ∧ (gmLstmCarry N.size prev delayed).2.length = N.size := by
      unfold gmLstmCarry
      rcases delayed with _ | d
      · rcases prev with _ | p
        · simp
        · have := hp p rfl
          unfold GmRowOk at this
          rwa [hs] at this
      · have := hd d rfl
        unfold GmRowOk at this
        rwa [hs] at this
    show ∃ r, gmLstm N.act N.size cell x prev delayed = _ ∧ _
    unfold gmLstm
    rw [linear_ok _ _ (fun r hr => by rw [c2 r hr, hx]), linear_ok _ _ (fun r hr => by rw [c4 r hr, hcar.1]),
      sameLen_ok _ _ hcar.2]
    obtain ⟨g, hg⟩ : ∃ g, g = List.zipWith (· + ·) (cell.lxh.map fun r => gmDot r.1 x + r.2)
      (cell.hh.map fun r => gmDot r.1 (gmLstmCarry N.size prev delayed).1 + r.2) := ⟨_, rfl⟩
    have hgl : g.length = 4 * N.size := by rw [hg]; simp [c1, c3]
    have hst : (gmLstmState N.act N.size g (gmLstmCarry N.size prev delayed).2).length = N.size := by
      unfold gmLstmState
      simp [gate_len N.size 0 g hgl (by omega), gate_len N.size 1 g hgl (by omega), gate_len N.size 2 g hgl (by omega), hcar.2]
    refine ⟨_, rfl, ?_, ?_, ?_⟩
    · show (List.zipWith _ _ _).length = _
      rw [← hg, ho]
      simp [gate_len N.size 3 g hgl (by omega), hst]
    · show (List.zipWith _ _ _).length = _
      rw [← hg, hs]
      simp [gate_len N.size 3 g hgl (by omega), hst]
    · show (gmLstmState _ _ _ _).length = _
      rw [← hg]
      exact hst

theorem stateRow_ok (N : GmStack K) (n i : Nat) (hi : i < n) (s : Option (List (List K × List K)))
    (h : ∀ p, s = some p → GmLayerOk N n p) (p : List K × List K) (hp : gmStateRow s i = some p) : GmRowOk N p := by
  rcases s with _ | s
  · cases hp
  · obtain ⟨h1, h2⟩ := h s rfl
    injection hp with hp
    rw [← hp]
    exact h2 _ (gm_getD_mem s i (by omega) _)

theorem cellAll_ok (N : GmStack K) (hh : N.kind ≠ .lstm → 0 ≤ N.h ∧ N.h < N.size) (input n : Nat) (cell : GmCell K)
    (hc : GmCellOk N input cell) (inp : List (List K)) (hn : inp.length = n) (hx : ∀ x ∈ inp, x.length = input)
    (prev delayed : Option (List (List K × List K)))
    (hp : ∀ p, prev = some p → GmLayerOk N n p) (hd : ∀ p, delayed = some p → GmLayerOk N n p) :
    ∃ r, gmCellAll (gmCellRow N.kind N.act N.size N.h cell) inp prev delayed = .ok r ∧ r.length = n ∧
      (∀ x ∈ r, x.1.length = N.out ∧ GmRowOk N x.2) := by
  have h1 : prev.all (fun s => decide (s.length = inp.length)) = true := by
    rcases prev with _ | p
    · rfl
    · simpa [hn] using (hp p rfl).1
  have h2 : delayed.all (fun s => decide (s.length = inp.length)) = true := by
    rcases delayed with _ | p
    · rfl
    · simpa [hn] using (hd p rfl).1
  unfold gmCellAll
  rw [if_pos (by rw [h1, h2]; rfl)]
  obtain ⟨r, r1, r2, r3⟩ := mapM_exists (fun i => gmCellRow N.kind N.act N.size N.h cell (inp.getD i [])
    (gmStateRow prev i) (gmStateRow delayed i)) (fun _ x => x.1.length = N.out ∧ GmRowOk N x.2) inp.length (by
      intro i hi
      exact cell_ok N hh input cell hc _ (hx _ (gm_getD_mem inp i hi _)) _ _
        (fun p hp' => stateRow_ok N n i (by omega) prev hp p hp')
        (fun p hp' => stateRow_ok N n i (by omega) delayed hd p hp'))
  refine ⟨r, r1, by rw [r2, hn], ?_⟩
  intro x hx
  obtain ⟨i, hi, rfl⟩ := List.getElem_of_mem hx
  exact (r3 i _ (List.getElem?_eq_getElem hi)).2

theorem storeAt_ok (N : GmStack K) (n : Nat) (store : GmStore K) (hs : GmStoreOk N n store) (t layer : Nat)
    (ht : t < store.length) (hl : layer < N.blocks.flatten.length) :
    ∃ s, gmStoreAt store t layer = .ok s ∧ GmLayerOk N n s := by
  obtain ⟨h1, h2⟩ := hs store[t] (List.getElem_mem ht)
  refine ⟨store[t][layer]'(by omega), ?_, h2 _ (List.getElem_mem _)⟩
  unfold gmStoreAt
  rw [List.getElem?_eq_getElem ht]
  simp only []
  rw [List.getElem?_eq_getElem (by omega)]

/-- The states that a layer is given: none at first; the previous ones as long as the delayed ones are not there; then
the delayed ones, and for two of the kinds the previous ones too. -/
theorem delayed_ok (N : GmStack K) (n : Nat) (store : GmStore K) (hs : GmStoreOk N n store) (layer : Nat)
    (hl : layer < N.blocks.flatten.length) (d : Int) (hd : 1 ≤ d) :
    ∃ p e, gmDelayed N.kind store layer d = .ok (p, e) ∧ (∀ s, p = some s → GmLayerOk N n s) ∧
      ∀ s, e = some s → GmLayerOk N n s := by
  unfold gmDelayed
  simp only []
  by_cases h : 0 ≤ (store.length : Int) - d
  · rw [if_pos h, if_neg (by omega)]
    obtain ⟨e, e1, e2⟩ := storeAt_ok N n store hs ((store.length : Int) - d).toNat layer (by omega) hl
    by_cases hk : N.kind = .lstm
    · rw [if_pos hk, e1]
      exact ⟨none, some e, rfl, (fun s hs => by cases hs), fun s hs => by injection hs with hs; rw [← hs]; exact e2⟩
    · rw [if_neg hk]
      obtain ⟨p, p1, p2⟩ := storeAt_ok N n store hs (store.length - 1) layer (by omega) hl
      rw [e1, p1]
      exact ⟨some p, some e, rfl, (fun s hs => by injection hs with hs; rw [← hs]; exact p2),
        fun s hs => by injection hs with hs; rw [← hs]; exact e2⟩
  · rw [if_neg h]
    by_cases h0 : 0 < store.length
    · obtain ⟨p, p1, p2⟩ := storeAt_ok N n store hs (store.length - 1) layer (by omega) hl
      rw [if_pos h0, p1]
      exact ⟨some p, none, rfl, (fun s hs => by injection hs with hs; rw [← hs]; exact p2), fun s hs => by cases hs⟩
    · rw [if_neg h0]
      exact ⟨none, none, rfl, (fun s hs => by cases hs), fun s hs => by cases hs⟩

theorem layer_ok (N : GmStack K) (input n : Nat) (hN : GmNetWf N input) (store : GmStore K) (hs : GmStoreOk N n store)
    (st : List (List (List K × List K)) × List (List K)) (hl : st.1.length < N.blocks.flatten.length)
    (h1 : ∀ s ∈ st.1, GmLayerOk N n s) (h2 : st.2.length = n)
    (h3 : ∀ x ∈ st.2, x.length = if st.1.length = 0 then input else N.out) (d : Int) (hd : 1 ≤ d) :
    ∃ r, gmLayer N store st d = .ok r ∧ r.1.length = st.1.length + 1 ∧ (∀ s ∈ r.1, GmLayerOk N n s) ∧ r.2.length = n ∧
      ∀ x ∈ r.2, x.length = N.out := by
  obtain ⟨p, e, e1, e2, e3⟩ := delayed_ok N n store hs st.1.length hl d hd
  have hc : N.cells[st.1.length]? = some (N.cells[st.1.length]'(by rw [hN.count]; exact hl)) :=
    List.getElem?_eq_getElem _
  obtain ⟨r, r1, r2, r3⟩ := cellAll_ok N hN.h _ n _ (hN.cells _ _ hc) st.2 h2 h3 p e e2 e3
  unfold gmLayer
  rw [e1]
  show ∃ r, (gmCellAt N st.1.length >>= fun cell => _) = _ ∧ _
  unfold gmCellAt
  rw [hc]
  show ∃ r', (gmCellAll (gmCellRow N.kind N.act N.size N.h _) st.2 p e >>= fun r => _) = Except.ok r' ∧ _
  rw [r1]
  refine ⟨_, rfl, by simp, ?_, by simp [r2], ?_⟩
  · intro s hs'
    rw [List.mem_append, List.mem_singleton] at hs'
    rcases hs' with hs' | rfl
    · exact h1 s hs'
    · refine ⟨by simp [r2], ?_⟩
      intro q hq
      obtain ⟨x, hx, rfl⟩ := List.mem_map.1 hq
      exact (r3 x hx).2
  · intro x hx
    obtain ⟨y, hy, rfl⟩ := List.mem_map.1 hx
    exact (r3 y hy).1

theorem layers_ok (N : GmStack K) (input n : Nat) (hN : GmNetWf N input) (store : GmStore K) (hs : GmStoreOk N n store) :
    ∀ (ds : List Int) (st : List (List (List K × List K)) × List (List K)), (∀ d ∈ ds, 1 ≤ d) → ds ≠ [] →
      st.1.length + ds.length ≤ N.blocks.flatten.length → (∀ s ∈ st.1, GmLayerOk N n s) → st.2.length = n →
      (∀ x ∈ st.2, x.length = if st.1.length = 0 then input else N.out) →
      ∃ r, ds.foldlM (gmLayer N store) st = .ok r ∧ r.1.length = st.1.length + ds.length ∧
        (∀ s ∈ r.1, GmLayerOk N n s) ∧ r.2.length = n ∧ ∀ x ∈ r.2, x.length = N.out := by
  intro ds
  induction ds with
  | nil => intro st _ h; exact absurd rfl h
  | cons d ds ih =>
    intro st hd _ hl h1 h2 h3
    simp only [List.length_cons] at hl
    obtain ⟨r, r1, r2, r3, r4, r5⟩ := layer_ok N input n hN store hs st (by omega) h1 h2 h3 d (hd d List.mem_cons_self)
    rw [List.foldlM_cons, r1]
    by_cases hds : ds = []
    · subst hds
      exact ⟨r, rfl, by simp [r2], r3, r4, r5⟩
    · obtain ⟨q, q1, q2, q3⟩ := ih r (fun e he => hd e (List.mem_cons_of_mem _ he)) hds (by omega) r3 r4 (by
        intro x hx
        rw [if_neg (by omega)]
        exact r5 x hx)
      exact ⟨q, q1, by simp only [List.length_cons]; omega, q3⟩

theorem addRows_len (a b : List (List K)) (n m : Nat) (ha : a.length = n) (hb : b.length = n)
    (ha' : ∀ x ∈ a, x.length = m) (hb' : ∀ x ∈ b, x.length = m) :
    (gmAddRows a b).length = n ∧ ∀ x ∈ gmAddRows a b, x.length = m := by
  unfold gmAddRows
  refine ⟨by simp [ha, hb], ?_⟩
  intro x hx
  obtain ⟨i, hi, rfl⟩ := List.getElem_of_mem hx
  simp only [List.length_zipWith] at hi
  rw [List.getElem_zipWith, List.length_zipWith, ha' _ (List.getElem_mem _), hb' _ (List.getElem_mem _), Nat.min_self]

theorem blocks_ok (N : GmStack K) (input n : Nat) (hN : GmNetWf N input) (store : GmStore K) (hs : GmStoreOk N n store) :
    ∀ (bs : List (List Int)) (st : List (List (List K × List K)) × List (List K) × List (List K)),
      (∀ b ∈ bs, b ≠ [] ∧ ∀ d ∈ b, 1 ≤ d) → st.1.length + bs.flatten.length ≤ N.blocks.flatten.length →
      (∀ s ∈ st.1, GmLayerOk N n s) → st.2.1.length = n →
      (∀ x ∈ st.2.1, x.length = if st.1.length = 0 then input else N.out) →
      st.2.2.length = n → (∀ x ∈ st.2.2, x.length = N.out) →
      ∃ r, bs.foldlM (gmBlock N store) st = .ok r ∧ r.1.length = st.1.length + bs.flatten.length ∧
        (∀ s ∈ r.1, GmLayerOk N n s) ∧ r.2.2.length = n ∧ ∀ x ∈ r.2.2, x.length = N.out := by
  intro bs
  induction bs with
  | nil =>
    intro st _ _ h1 _ _ h4 h5
    exact ⟨st, rfl, by simp, h1, h4, h5⟩
  | cons b bs ih =>
    intro st hb hl h1 h2 h3 h4 h5
    rw [List.flatten_cons, List.length_append] at hl
    obtain ⟨hb1, hb2⟩ := hb b List.mem_cons_self
    obtain ⟨r, r1, r2, r3, r4, r5⟩ := layers_ok N input n hN store hs b (st.1, st.2.1) hb2 hb1 (by simp only []; omega) h1 h2 h3
    obtain ⟨a1, a2⟩ := addRows_len r.2 st.2.2 n N.out r4 h4 r5 h5
    have hblock : gmBlock N store st b = .ok (r.1, gmAddRows r.2 st.2.2, gmAddRows r.2 st.2.2) := by
      unfold gmBlock
      rw [r1]
      rfl
    rw [List.foldlM_cons, hblock]
    have hpos : 0 < b.length := List.length_pos_iff.2 hb1
    obtain ⟨q, q1, q2, q3⟩ := ih (r.1, gmAddRows r.2 st.2.2, gmAddRows r.2 st.2.2)
      (fun e he => hb e (List.mem_cons_of_mem _ he)) (by simp only [] at r2 ⊢; omega) r3 a1 (by
        intro x hx
        simp only [] at r2 ⊢
        rw [if_neg (by omega)]
        exact a2 x hx) a1 a2
    refine ⟨q, q1, ?_, q3⟩
    rw [List.flatten_cons, List.length_append]
    simp only [] at q2 r2
    omega

/-- The number of columns of the output. -/
def GmStack.cols (N : GmStack K) : Nat := match N.adaptor with | some w => w.length | none => N.out

/-- C144: a network whose parts fit together gives, for rows of the size of its input and states of the times before,
one row for each row with as many columns as the adaptor has (without one, as a layer gives), and the states of
this time are kept after the others. -/
theorem C144_forward (N : GmStack K) (input n : Nat) (hN : GmNetWf N input) (store : GmStore K)
    (hs : GmStoreOk N n store) (inp : List (List K)) (hn : inp.length = n) (hi : ∀ x ∈ inp, x.length = input) :
    ∃ l o, gmNetForward N store inp = .ok (store ++ [l], o) ∧ l.length = N.blocks.flatten.length ∧
      GmStoreOk N n (store ++ [l]) ∧ o.length = n ∧ ∀ x ∈ o, x.length = N.cols := by
  obtain ⟨r, r1, r2, r3, r4, r5⟩ := blocks_ok N input n hN store hs N.blocks
    ([], inp, inp.map fun _ => List.replicate N.out 0) (fun b hb => ⟨hN.block b hb, hN.dilation b hb⟩)
    (by simp) (by simp) hn (by simpa using hi) (by simpa using hn) (by simp)
  have hl : r.1.length = N.blocks.flatten.length := by simpa using r2
  have hA : ∃ o, gmAdapt N.adaptor r.2.2 = .ok o ∧ o.length = n ∧ ∀ x ∈ o, x.length = N.cols := by
    unfold gmAdapt GmStack.cols
    rcases hw : N.adaptor with _ | w
    · exact ⟨r.2.2, rfl, r4, r5⟩
    · have hm := mapM_eq_map (gmLinear w) (fun x => w.map fun r => gmDot r.1 x + r.2) r.2.2 (fun x hx =>
        linear_ok w x (fun q hq => by rw [hN.adaptor w hw q hq, r5 x hx]))
      refine ⟨_, hm, by simp [r4], ?_⟩
      intro x hx
      obtain ⟨y, _, rfl⟩ := List.mem_map.1 hx
      simp
  obtain ⟨o, o1, o2, o3⟩ := hA
  refine ⟨r.1, o, ?_, hl, ?_, o2, o3⟩
  · unfold gmNetForward
    simp only []
    rw [r1]
    show (gmAdapt N.adaptor r.2.2 >>= fun o => _) = _
    rw [o1]
    rfl
  · intro l hl'
    rw [List.mem_append, List.mem_singleton] at hl'
    rcases hl' with hl' | rfl
    · exact hs l hl'
    · exact ⟨by omega, r3⟩

end
end Kats
