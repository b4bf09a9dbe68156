import Verif.Props.GmNetRows

/-!
# C144: the past that a network looks at
-/

namespace Kats

section
variable {K : Type} [Field K]

theorem net_foldlM_congr {σ δ : Type} (F G : σ → δ → Except Err σ) : ∀ (l : List δ), (∀ s, ∀ d ∈ l, F s d = G s d) →
    ∀ s, l.foldlM F s = l.foldlM G s := by
  intro l
  induction l with
  | nil => intro _ _; rfl
  | cons d l ih =>
    intro h s
    rw [List.foldlM_cons, List.foldlM_cons, h s d (List.mem_cons_self ..)]
    congr 1
    funext x
    exact ih (fun s d hd => h s d (List.mem_cons_of_mem _ hd)) x

/-- What `forward` computes: the states of this time, and the output. -/
def gmStep (N : GmStack K) (store : GmStore K) (inp : List (List K)) :
    Except Err (List (List (List K × List K)) × List (List K)) := do
  let r ← N.blocks.foldlM (gmBlock N store) ([], inp, inp.map fun _ => List.replicate N.out 0)
  let o ← gmAdapt N.adaptor r.2.2
  return (r.1, o)

theorem forward_step (N : GmStack K) (store : GmStore K) (inp : List (List K)) :
    gmNetForward N store inp = (gmStep N store inp).map fun r => (store ++ [r.1], r.2) := by
  unfold gmNetForward gmStep
  simp only []
  rcases N.blocks.foldlM (gmBlock N store) ([], inp, inp.map fun _ => List.replicate N.out 0) with e | r
  · rfl
  · show (gmAdapt N.adaptor r.2.2 >>= fun o => _) = (gmAdapt N.adaptor r.2.2 >>= fun o => _).map _
    rcases gmAdapt N.adaptor r.2.2 with e | o
    · rfl
    · rfl

theorem step_congr (N : GmStack K) (a b : GmStore K) (inp : List (List K))
    (h : ∀ layer, ∀ blk ∈ N.blocks, ∀ d ∈ blk, gmDelayed N.kind a layer d = gmDelayed N.kind b layer d) :
    gmStep N a inp = gmStep N b inp := by
  unfold gmStep
  rw [net_foldlM_congr (gmBlock N a) (gmBlock N b)]
  intro s blk hb
  unfold gmBlock
  rw [net_foldlM_congr (gmLayer N a) (gmLayer N b)]
  intro s d hd
  unfold gmLayer
  rw [h s.1.length blk hb d hd]

theorem storeAt_congr (a b : GmStore K) (i j layer : Nat) (h : a[i]? = b[j]?) :
    gmStoreAt a i layer = gmStoreAt b j layer := by
  unfold gmStoreAt
  rw [h]

/-- C144: of the past only the states of the previous time and of the times that the dilations name are looked at, and the
cells of torch do not look at the previous time once the delayed states are there. -/
theorem C144_depends (N : GmStack K) (a b : GmStore K) (inp : List (List K)) (hl : a.length = b.length)
    (hd : ∀ blk ∈ N.blocks, ∀ d ∈ blk, 1 ≤ d → d ≤ a.length →
      a[((a.length : Int) - d).toNat]? = b[((a.length : Int) - d).toNat]?)
    (hp : (N.kind = .lstm ∧ ∀ blk ∈ N.blocks, ∀ d ∈ blk, d ≤ a.length) ∨ a[a.length - 1]? = b[a.length - 1]?) :
    (gmNetForward N a inp).map (fun r => (r.1.getLast?, r.2)) = (gmNetForward N b inp).map fun r => (r.1.getLast?, r.2) := by
  have : gmStep N a inp = gmStep N b inp := by
    apply step_congr
    intro layer blk hb d hdm
    unfold gmDelayed
    simp only []
    rw [← hl]
    by_cases h0 : 0 ≤ (a.length : Int) - d
    · rw [if_pos h0, if_pos h0]
      by_cases h1 : d ≤ 0
      · rw [if_pos h1, if_pos h1]
      · rw [if_neg h1, if_neg h1]
        have e := storeAt_congr a b _ _ layer (hd blk hb d hdm (by omega) (by omega))
        by_cases hk : N.kind = .lstm
        · rw [if_pos hk, if_pos hk, e]
        · rw [if_neg hk, if_neg hk, e]
          rcases hp with hp | hp
          · exact absurd hp.1 hk
          · rw [storeAt_congr a b _ _ layer hp]
    · rw [if_neg h0, if_neg h0]
      rcases hp with hp | hp
      · have := hp.2 blk hb d hdm
        omega
      · rw [storeAt_congr a b _ _ layer hp]
  rw [forward_step, forward_step, this]
  rcases gmStep N b inp with e | r
  · rfl
  · show Except.ok _ = Except.ok _
    simp

/-! ## The decoder -/

theorem delayed_suffix (kind : GmCellKind) (x s : GmStore K) (layer : Nat) (d : Int) (h1 : 1 ≤ d) (h2 : d ≤ s.length) :
    gmDelayed kind (x ++ s) layer d = gmDelayed kind s layer d := by
  unfold gmDelayed
  simp only [List.length_append]
  have e1 : gmStoreAt (x ++ s) (((x.length + s.length : Nat) : Int) - d).toNat layer =
      gmStoreAt s ((s.length : Int) - d).toNat layer := by
    apply storeAt_congr
    rw [List.getElem?_append_right (by omega)]
    congr 1
    omega
  have e2 : gmStoreAt (x ++ s) (x.length + s.length - 1) layer = gmStoreAt s (s.length - 1) layer := by
    apply storeAt_congr
    rw [List.getElem?_append_right (by omega)]
    congr 1
    omega
  rw [if_pos (show 0 ≤ ((x.length + s.length : Nat) : Int) - d by omega), if_pos (show 0 ≤ (s.length : Int) - d by omega),
    if_neg (show ¬ d ≤ 0 by omega), if_neg (show ¬ d ≤ 0 by omega), e1, e2]

theorem prepare_eq (m : Nat) (hm : 1 ≤ m) (store : GmStore K) : gmPrepare m store = store.drop (store.length - m) := by
  unfold gmPrepare pyFrom pyIdx
  rw [if_pos (by omega)]
  congr 1
  omega

/-- C144: a decoder whose dilations are at most the largest one of the encoder, which is given the last states of the
encoder, computes what it would compute with all of them. -/
theorem C144_decoder (N : GmStack K) (m : Nat) (hm : 1 ≤ m) (hd : ∀ blk ∈ N.blocks, ∀ d ∈ blk, 1 ≤ d ∧ d ≤ m)
    (store news : GmStore K) (inp : List (List K)) :
    gmStep N (gmPrepare m store ++ news) inp = gmStep N (store ++ news) inp ∧
    (gmNetForward N (gmPrepare m store ++ news) inp).map (fun r => (r.1.getLast?, r.2)) =
      (gmNetForward N (store ++ news) inp).map fun r => (r.1.getLast?, r.2) := by
  have : gmStep N (gmPrepare m store ++ news) inp = gmStep N (store ++ news) inp := by
    rw [prepare_eq m hm]
    by_cases h : store.length ≤ m
    · rw [show store.length - m = 0 by omega, List.drop_zero]
    · apply step_congr
      intro layer blk hb d hdm
      obtain ⟨h1, h2⟩ := hd blk hb d hdm
      conv_rhs => rw [← List.take_append_drop (store.length - m) store, List.append_assoc]
      exact (delayed_suffix _ _ (store.drop (store.length - m) ++ news) _ _ h1
        (by rw [List.length_append, List.length_drop]; omega)).symm
  refine ⟨this, ?_⟩
  rw [forward_step, forward_step, this]
  rcases gmStep N (store ++ news) inp with e | r
  · rfl
  · show Except.ok _ = Except.ok _
    simp

theorem delayed_layers (kind : GmCellKind) (store : GmStore K) (k : Nat) (hne : store ≠ []) (hk : ∀ l ∈ store, l.length = k)
    (layer : Nat) (d : Int) (r) (h : gmDelayed kind store layer d = .ok r) : layer < k := by
  have key : ∀ t s, gmStoreAt store t layer = .ok s → layer < k := by
    intro t s hs
    unfold gmStoreAt at hs
    rcases hl : store[t]? with _ | l
    · rw [hl] at hs; cases hs
    · rw [hl] at hs
      simp only [] at hs
      rcases hl2 : l[layer]? with _ | q
      · rw [hl2] at hs; cases hs
      · have := (List.getElem?_eq_some_iff.1 hl2).1
        rw [← hk l (List.mem_of_getElem? hl)]
        exact this
  have h0 : 0 < store.length := List.length_pos_iff.2 hne
  unfold gmDelayed at h
  simp only [] at h
  split at h
  · split at h
    · cases h
    · split at h
      · obtain ⟨e, he, h⟩ := (gm_bind_ok _ _ _).1 h
        exact key _ _ he
      · obtain ⟨e, he, h⟩ := (gm_bind_ok _ _ _).1 h
        exact key _ _ he
  · obtain ⟨e, he, h⟩ := (gm_bind_ok _ _ _).1 h
    exact key _ _ he

theorem layers_need (N : GmStack K) (store : GmStore K) (k : Nat) (hne : store ≠ []) (hk : ∀ l ∈ store, l.length = k) :
    ∀ (ds : List Int) st r, st.1.length ≤ k → ds.foldlM (gmLayer N store) st = .ok r →
      r.1.length = st.1.length + ds.length ∧ r.1.length ≤ k := by
  intro ds
  induction ds with
  | nil =>
    intro st r hst h
    injection h with h
    subst h
    exact ⟨rfl, hst⟩
  | cons d ds ih =>
    intro st r hst h
    rw [List.foldlM_cons] at h
    obtain ⟨x, hx, h⟩ := (gm_bind_ok _ _ _).1 h
    unfold gmLayer at hx
    obtain ⟨s, hs, hx⟩ := (gm_bind_ok _ _ _).1 hx
    have hlt := delayed_layers N.kind store k hne hk _ d s hs
    obtain ⟨cell, _, hx⟩ := (gm_bind_ok _ _ _).1 hx
    obtain ⟨y, _, hx⟩ := (gm_bind_ok _ _ _).1 hx
    injection hx with hx
    have hl : x.1.length = st.1.length + 1 := by rw [← hx]; simp
    obtain ⟨h1, h2⟩ := ih x r (by omega) h
    exact ⟨by rw [h1, hl, List.length_cons]; omega, h2⟩

theorem blocks_need (N : GmStack K) (store : GmStore K) (k : Nat) (hne : store ≠ []) (hk : ∀ l ∈ store, l.length = k) :
    ∀ (bs : List (List Int)) st r, st.1.length ≤ k → bs.foldlM (gmBlock N store) st = .ok r →
      r.1.length = st.1.length + bs.flatten.length ∧ r.1.length ≤ k := by
  intro bs
  induction bs with
  | nil =>
    intro st r hst h
    injection h with h
    subst h
    exact ⟨rfl, hst⟩
  | cons b bs ih =>
    intro st r hst h
    rw [List.foldlM_cons] at h
    obtain ⟨x, hx, h⟩ := (gm_bind_ok _ _ _).1 h
    unfold gmBlock at hx
    obtain ⟨y, hy, hx⟩ := (gm_bind_ok _ _ _).1 hx
    injection hx with hx
    obtain ⟨h1, h2⟩ := layers_need N store k hne hk b _ y hst hy
    have hl : x.1 = y.1 := by rw [← hx]
    obtain ⟨h3, h4⟩ := ih x r (by rw [hl]; exact h2) h
    refine ⟨?_, h4⟩
    rw [h3, hl, h1, List.flatten_cons, List.length_append]
    simp only []
    omega

/-- C144: a decoder with more layers than the encoder finds no states for them, and fails for every input. -/
theorem C144_decoder_layers_violated (N : GmStack K) (store : GmStore K) (hne : store ≠ []) (k : Nat)
    (hk : ∀ l ∈ store, l.length = k) (hlt : k < N.blocks.flatten.length) (inp : List (List K)) (r) :
    gmNetForward N store inp ≠ .ok r := by
  intro h
  unfold gmNetForward at h
  simp only [] at h
  obtain ⟨x, hx, _⟩ := (gm_bind_ok _ _ _).1 h
  have := blocks_need N store k hne hk N.blocks _ x (Nat.zero_le _) hx
  simp only [List.length_nil] at this
  omega

/-- C144: with a larger dilation, a layer of the decoder is at first not given the delayed states though the encoder had
computed them. -/
theorem C144_decoder_violated (kind : GmCellKind) (store : GmStore K) (m : Nat) (hm : 1 ≤ m) (d layer : Nat) (hd : m < d)
    (hs : d ≤ store.length) (hl : ∀ l ∈ store, layer < l.length) :
    (∃ p e, gmDelayed kind store layer d = .ok (p, some e) ∧ gmStoreAt store (store.length - d) layer = .ok e) ∧
    ∃ p, gmDelayed kind (gmPrepare m store) layer d = .ok (some p, none) ∧ gmStoreAt store (store.length - 1) layer = .ok p := by
  have key : ∀ t, t < store.length → ∃ s, gmStoreAt store t layer = .ok s := by
    intro t ht
    refine ⟨store[t][layer]'(hl _ (List.getElem_mem ht)), ?_⟩
    unfold gmStoreAt
    rw [List.getElem?_eq_getElem ht]
    simp only []
    rw [List.getElem?_eq_getElem (hl _ (List.getElem_mem ht))]
  obtain ⟨p, hp⟩ := key (store.length - 1) (by omega)
  obtain ⟨e, he⟩ := key (store.length - d) (by omega)
  refine ⟨?_, p, ?_, hp⟩
  · unfold gmDelayed
    simp only []
    rw [if_pos (show 0 ≤ (store.length : Int) - (d : Int) by omega), if_neg (show ¬ (d : Int) ≤ 0 by omega), show ((store.length : Int) - (d : Int)).toNat = store.length - d by omega, hp, he]
    by_cases hk : kind = .lstm
    · rw [if_pos hk]; exact ⟨none, e, rfl, rfl⟩
    · rw [if_neg hk]; exact ⟨some p, e, rfl, rfl⟩
  · rw [prepare_eq m hm]
    unfold gmDelayed
    simp only [List.length_drop]
    rw [if_neg (show ¬ 0 ≤ ((store.length - (store.length - m) : Nat) : Int) - (d : Int) by omega),
      if_pos (show 0 < store.length - (store.length - m) by omega), storeAt_congr (store.drop (store.length - m)) store _ (store.length - 1) layer
      (by rw [List.getElem?_drop]; congr 1; omega), hp]
    rfl

end
end Kats
