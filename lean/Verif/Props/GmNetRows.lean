import Verif.Props.GmNet
import Verif.Lemmas.MapM
import Verif.Props.GmAdjust

/-!
# C144: what the output of a network depends on
-/

namespace Kats

section
variable {K : Type} [Field K]

/-! ## The rows -/

/-- The states of one row of a layer. -/
def pickLayer (i : Nat) (s : List (List K × List K)) : List (List K × List K) := [s.getD i ([], [])]

/-- The states of one row. -/
def pickStore (i : Nat) (store : GmStore K) : GmStore K := store.map fun l => l.map (pickLayer i)

theorem storeAt_pick (i : Nat) (store : GmStore K) (t layer : Nat) (s : List (List K × List K))
    (h : gmStoreAt store t layer = .ok s) : gmStoreAt (pickStore i store) t layer = .ok (pickLayer i s) := by
  unfold gmStoreAt at h ⊢
  unfold pickStore
  rw [List.getElem?_map]
  rcases h1 : store[t]? with _ | l
  · rw [h1] at h; cases h
  · rw [h1] at h
    simp only [Option.map_some] at h ⊢
    rw [List.getElem?_map]
    rcases h2 : l[layer]? with _ | x
    · rw [h2] at h; cases h
    · rw [h2] at h
      simp only [Option.map_some] at h ⊢
      injection h with h
      rw [h]

theorem delayed_pick (i : Nat) (kind : GmCellKind) (store : GmStore K) (layer : Nat) (d : Int)
    (p e : Option (List (List K × List K))) (h : gmDelayed kind store layer d = .ok (p, e)) :
    gmDelayed kind (pickStore i store) layer d = .ok (p.map (pickLayer i), e.map (pickLayer i)) := by
  have hl : (pickStore i store).length = store.length := List.length_map _
  unfold gmDelayed at h ⊢
  simp only [] at h ⊢
  rw [hl]
  split at h
  · rename_i h0
    rw [if_pos h0]
    split at h
    · cases h
    · rename_i h1
      rw [if_neg h1]
      split at h
      · rename_i h2
        rw [if_pos h2]
        obtain ⟨a, ha, h⟩ := (gm_bind_ok _ _ _).1 h
        injection h with h
        injection h with h3 h4
        subst h3 h4
        rw [storeAt_pick i store _ _ a ha]
        rfl
      · rename_i h2
        rw [if_neg h2]
        obtain ⟨a, ha, h⟩ := (gm_bind_ok _ _ _).1 h
        obtain ⟨b, hb, h⟩ := (gm_bind_ok _ _ _).1 h
        injection h with h
        injection h with h3 h4
        subst h3 h4
        rw [storeAt_pick i store _ _ a ha, storeAt_pick i store _ _ b hb]
        rfl
  · rename_i h0
    rw [if_neg h0]
    split at h
    · rename_i h1
      rw [if_pos h1]
      obtain ⟨a, ha, h⟩ := (gm_bind_ok _ _ _).1 h
      injection h with h
      injection h with h3 h4
      subst h3 h4
      rw [storeAt_pick i store _ _ a ha]
      rfl
    · rename_i h1
      rw [if_neg h1]
      injection h with h
      injection h with h3 h4
      subst h3 h4
      rfl

theorem stateRow_pick (i : Nat) (s : Option (List (List K × List K))) :
    gmStateRow (s.map (pickLayer i)) 0 = gmStateRow s i := by
  rcases s with _ | s <;> rfl

theorem cellAll_pick (f : List K → Option (List K × List K) → Option (List K × List K) → Except Err (List K × List K × List K))
    (inp : List (List K)) (prev delayed : Option (List (List K × List K))) (r : List (List K × List K × List K))
    (h : gmCellAll f inp prev delayed = .ok r) (i : Nat) (hi : i < inp.length) :
    r.length = inp.length ∧
    gmCellAll f [inp.getD i []] (prev.map (pickLayer i)) (delayed.map (pickLayer i)) = .ok [r.getD i ([], [], [])] := by
  unfold gmCellAll at h
  split at h
  · obtain ⟨h1, h2⟩ := mapM_range_get _ _ _ h
    refine ⟨h1, ?_⟩
    have h3 := h2 i hi
    unfold gmCellAll
    have ha : ∀ o : Option (List (List K × List K)),
        (o.map (pickLayer i)).all (fun s => decide (s.length = [inp.getD i []].length)) = true := by
      intro o
      rcases o with _ | o <;> simp [pickLayer]
    rw [if_pos (by rw [ha, ha]; rfl)]
    show (List.range 1).mapM _ = _
    have hone : List.range 1 = [0] := rfl
    rw [hone, List.mapM_cons]
    rw [stateRow_pick, stateRow_pick]
    have h4 : [inp.getD i []].getD 0 [] = inp.getD i [] := rfl
    rw [h4]
    obtain ⟨y, hy1, hy2⟩ := h3
    rw [hy2]
    show (.ok [y] : Except Err _) = _
    rw [List.getD_eq_getElem?_getD, hy1]
    rfl
  · cases h

theorem foldlM_sim {σ τ δ : Type} (F : σ → δ → Except Err σ) (G : τ → δ → Except Err τ) (φ : σ → τ) (Inv : σ → Prop)
    (h : ∀ st d r, Inv st → F st d = .ok r → Inv r ∧ G (φ st) d = .ok (φ r)) : ∀ (ds : List δ) st r, Inv st →
      ds.foldlM F st = .ok r → Inv r ∧ ds.foldlM G (φ st) = .ok (φ r) := by
  intro ds
  induction ds with
  | nil =>
    intro st r hi hr
    injection hr with hr
    subst hr
    exact ⟨hi, rfl⟩
  | cons d ds ih =>
    intro st r hi hr
    rw [List.foldlM_cons] at hr ⊢
    obtain ⟨a, ha, hr⟩ := (gm_bind_ok _ _ _).1 hr
    obtain ⟨h1, h2⟩ := h st d a hi ha
    rw [h2]
    exact ih a r h1 hr

theorem getD_map_pick {α β : Type} (f : α → β) (l : List α) (i : Nat) (d : α) : (l.map f).getD i (f d) = f (l.getD i d) := by
  rw [List.getD_eq_getElem?_getD, List.getD_eq_getElem?_getD, List.getElem?_map]
  cases l[i]? <;> rfl

theorem layer_pick (N : GmStack K) (n i : Nat) (hi : i < n) (store : GmStore K)
    (st r : List (List (List K × List K)) × List (List K)) (d : Int) (hn : st.2.length = n)
    (h : gmLayer N store st d = .ok r) : r.2.length = n ∧
      gmLayer N (pickStore i store) (st.1.map (pickLayer i), [st.2.getD i []]) d =
        .ok (r.1.map (pickLayer i), [r.2.getD i []]) := by
  unfold gmLayer at h ⊢
  obtain ⟨s, hs, h⟩ := (gm_bind_ok _ _ _).1 h
  obtain ⟨cell, hc, h⟩ := (gm_bind_ok _ _ _).1 h
  obtain ⟨x, hx, h⟩ := (gm_bind_ok _ _ _).1 h
  injection h with h
  subst h
  obtain ⟨h1, h2⟩ := cellAll_pick _ st.2 s.1 s.2 x hx i (by omega)
  refine ⟨by simp [h1, hn], ?_⟩
  simp only [List.length_map]
  rw [delayed_pick i N.kind store _ d s.1 s.2 hs, hc]
  show (gmCellAll _ _ _ _ >>= fun r => _) = _
  rw [h2]
  show Except.ok _ = _
  congr 1
  have e1 : (x.map (·.1)).getD i [] = (x.getD i ([], [], [])).1 := getD_map_pick _ x i ([], [], [])
  have e2 : (x.map (·.2)).getD i ([], []) = (x.getD i ([], [], [])).2 := getD_map_pick _ x i ([], [], [])
  simp only [List.map_append, List.map_cons, List.map_nil, pickLayer]
  rw [e1, e2]

theorem addRows_pick (a b : List (List K)) (i : Nat) (ha : i < a.length) (hb : i < b.length) :
    gmAddRows [a.getD i []] [b.getD i []] = [(gmAddRows a b).getD i []] := by
  unfold gmAddRows
  have : (List.zipWith (List.zipWith (· + ·)) a b).getD i [] = List.zipWith (· + ·) (a.getD i []) (b.getD i []) := by
    simp only [List.getD_eq_getElem?_getD, List.getElem?_zipWith, List.getElem?_eq_getElem ha,
      List.getElem?_eq_getElem hb, Option.getD_some]
  rw [this]
  rfl

theorem block_pick (N : GmStack K) (n i : Nat) (hi : i < n) (store : GmStore K)
    (st r : List (List (List K × List K)) × List (List K) × List (List K)) (ds : List Int)
    (hn : st.2.1.length = n ∧ st.2.2.length = n)
    (h : gmBlock N store st ds = .ok r) : (r.2.1.length = n ∧ r.2.2.length = n) ∧
      gmBlock N (pickStore i store) (st.1.map (pickLayer i), [st.2.1.getD i []], [st.2.2.getD i []]) ds =
        .ok (r.1.map (pickLayer i), [r.2.1.getD i []], [r.2.2.getD i []]) := by
  unfold gmBlock at h ⊢
  obtain ⟨x, hx, h⟩ := (gm_bind_ok _ _ _).1 h
  injection h with h
  subst h
  obtain ⟨h1, h2⟩ := foldlM_sim (gmLayer N store) (gmLayer N (pickStore i store))
    (fun st => (st.1.map (pickLayer i), [st.2.getD i []])) (fun st => st.2.length = n)
    (fun st d r hn h => layer_pick N n i hi store st r d hn h) ds (st.1, st.2.1) x hn.1 hx
  have hl : (gmAddRows x.2 st.2.2).length = n := by
    unfold gmAddRows
    rw [List.length_zipWith, h1, hn.2, Nat.min_self]
  refine ⟨⟨hl, hl⟩, ?_⟩
  simp only [] at h2 ⊢
  rw [h2]
  show Except.ok _ = _
  congr 1
  simp only []
  rw [addRows_pick _ _ i (by omega) (by omega)]

theorem mapM_pick {α β : Type} (f : α → Except Err β) (l : List α) (r : List β) (a : α) (b : β) (i : Nat) (hi : i < l.length)
    (h : l.mapM f = .ok r) : r.length = l.length ∧ [l.getD i a].mapM f = .ok [r.getD i b] := by
  have h2 := mapM_forall2 f l r h
  have hl := h2.length_eq
  refine ⟨hl.symm, ?_⟩
  have h3 := (List.forall₂_iff_get.1 h2).2 i hi (by omega)
  rw [List.mapM_cons, gmp_getD _ i _ hi, gmp_getD _ i _ (by omega)]
  simp only [List.get_eq_getElem] at h3
  rw [h3]
  rfl

/-- C144: the rows of a batch do not influence each other: each row of the output, and its states, are those that the
network gives for that row alone. -/
theorem C144_rows (N : GmStack K) (store store' : GmStore K) (inp o : List (List K))
    (h : gmNetForward N store inp = .ok (store', o)) (i : Nat) (hi : i < inp.length) :
    o.length = inp.length ∧
    gmNetForward N (pickStore i store) [inp.getD i []] = .ok (pickStore i store', [o.getD i []]) := by
  unfold gmNetForward at h ⊢
  simp only [] at h ⊢
  obtain ⟨r, hr, h⟩ := (gm_bind_ok _ _ _).1 h
  obtain ⟨q, hq, h⟩ := (gm_bind_ok _ _ _).1 h
  injection h with h
  injection h with h3 h4
  subst h3 h4
  obtain ⟨⟨h1, h1'⟩, h2⟩ := foldlM_sim (gmBlock N store) (gmBlock N (pickStore i store))
    (fun st => (st.1.map (pickLayer i), [st.2.1.getD i []], [st.2.2.getD i []]))
    (fun st => st.2.1.length = inp.length ∧ st.2.2.length = inp.length)
    (fun st d r hn h => block_pick N inp.length i hi store st r d hn h) N.blocks _ r ⟨rfl, by simp⟩ hr
  have hz : (inp.map fun _ => List.replicate N.out (0 : K)).getD i [] = List.replicate N.out 0 := by
    rw [gmp_getD _ i _ (by simpa using hi), List.getElem_map]
  simp only [hz, List.map_nil] at h2
  simp only [List.map_cons, List.map_nil]
  rw [h2]
  show q.length = _ ∧ (gmAdapt N.adaptor _ >>= fun o => _) = _
  unfold gmAdapt at hq ⊢
  rcases hw : N.adaptor with _ | w
  · rw [hw] at hq
    simp only [] at hq ⊢
    injection hq with hq
    rw [← hq]
    refine ⟨h1', ?_⟩
    show Except.ok _ = _
    unfold pickStore
    simp
  · rw [hw] at hq
    simp only [] at hq ⊢
    obtain ⟨m1, m2⟩ := mapM_pick (gmLinear w) r.2.2 q [] [] i (by omega) hq
    rw [m2]
    refine ⟨by omega, ?_⟩
    show Except.ok _ = _
    unfold pickStore
    simp

end
end Kats
