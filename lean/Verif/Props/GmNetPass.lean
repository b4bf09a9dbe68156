import Verif.Props.GmNetBuild

/-!
# C144: a pass with a network
-/

namespace Kats

section
variable {K : Type} [Field K] [LinearOrder K] [IsStrictOrderedRing K]

/-- A network as a total function, with zeros where it fails. -/
def gmNetTotal (N : GmStack K) (cols : Nat) (s : GmStore K) (inp : List (List K)) : GmStore K × List (List K) :=
  match gmNetForward N s inp with
  | .ok r => r
  | .error _ => (s, inp.map fun _ => List.replicate cols 0)

/-- The turn of the loop with a network that can fail. -/
def gmTurnNet (E : GmEnv K (GmStore K)) (N : GmStack K) (x : List (List (Option K))) (st : GmLoop K (GmStore K))
    (step cur : Nat) : Except Err (GmLoop K (GmStore K) × List (List K)) := do
  let ps ← (List.range x.length).mapM (gmRowProc E x st cur)
  let out ← gmNetForward N st.net (ps.mapIdx fun i p => gmInput E step st.prev cur i p.2)
  let fcst ← (List.range x.length).mapM (gmRowFcst E out.2 ps)
  return ({ tracks := ps.map (·.1)
            ls := out.2.map fun o => E.sigmoid (o.getD 0 0)
            ss := if 1 < E.period then out.2.map fun o => E.sigmoid (o.getD 1 0) else st.ss
            net := out.1
            prev := cur }, fcst)

/-- The loop over given steps with a network that can fail. -/
def gmTurnsNet (E : GmEnv K (GmStore K)) (N : GmStack K) (x : List (List (Option K))) :
    List (Nat × Nat) → GmLoop K (GmStore K) → Except Err (List (Nat × List (List K)))
  | [], _ => .ok []
  | s :: r, st => do
    let a ← gmTurnNet E N x st s.1 s.2
    let b ← gmTurnsNet E N x r a.1
    return (s.2, a.2) :: b

theorem adapt_rows (w : List (List K × K)) (x o : List (List K)) (h : x.mapM (gmLinear w) = .ok o) :
    o.length = x.length ∧ ∀ r ∈ o, r.length = w.length := by
  refine ⟨(mapM_forall2 _ _ _ h).length_eq.symm, ?_⟩
  intro r hr
  obtain ⟨y, _, hy⟩ := (mapM_ok_mem _ _ _ h).2 r hr
  exact linear_len w y r hy

theorem forward_rows (N : GmStack K) (s s' : GmStore K) (inp o : List (List K)) (h : gmNetForward N s inp = .ok (s', o))
    : o.length = inp.length := by
  by_cases hi : 0 < inp.length
  · exact (C144_rows N s s' inp o h 0 hi).1
  · have h0 : inp = [] := List.length_eq_zero_iff.1 (by omega)
    subst h0
    unfold gmNetForward at h
    simp only [] at h
    obtain ⟨r, hr, h⟩ := (gm_bind_ok _ _ _).1 h
    obtain ⟨q, hq, h⟩ := (gm_bind_ok _ _ _).1 h
    injection h with h
    injection h with _ h
    subst h
    have hz : ∀ (bs : List (List Int)) st r, bs.foldlM (gmBlock N s) st = .ok r → st.2.2 = [] → r.2.2 = [] := by
      intro bs
      induction bs with
      | nil => intro st r h h2; injection h with h; rw [← h]; exact h2
      | cons b bs ih =>
        intro st r h h2
        rw [List.foldlM_cons] at h
        obtain ⟨y, hy, h⟩ := (gm_bind_ok _ _ _).1 h
        refine ih y r h ?_
        unfold gmBlock at hy
        obtain ⟨z, _, hy⟩ := (gm_bind_ok _ _ _).1 hy
        injection hy with hy
        rw [← hy]
        simp [gmAddRows, h2]
    have hr2 := hz N.blocks _ r hr rfl
    rw [hr2] at hq
    unfold gmAdapt at hq
    rcases hw : N.adaptor with _ | w
    · rw [hw] at hq
      injection hq with hq
      rw [← hq]
    · rw [hw] at hq
      exact (adapt_rows w [] q hq).1

/-- C144: a network with an adaptor of the right size meets what C139 and C141 require of a network. -/
theorem C144_net_ok (E : GmEnv K (GmStore K)) (N : GmStack K) (w : List (List K × K)) (hw : N.adaptor = some w)
    (hn : E.net = gmNetTotal N w.length) (hc : w.length = gmCol E + E.fw * E.quantiles) :
    (∀ s inp, (E.net s inp).2.length = inp.length) ∧
    ∀ s inp, ∀ o ∈ (E.net s inp).2, o.length = gmCol E + E.fw * E.quantiles := by
  rw [hn, ← hc]
  constructor
  · intro s inp
    unfold gmNetTotal
    rcases h : gmNetForward N s inp with e | ⟨s', o⟩
    · simp
    · exact forward_rows N s s' inp o h
  · intro s inp o ho
    unfold gmNetTotal at ho
    rcases h : gmNetForward N s inp with e | ⟨s', o'⟩
    · rw [h] at ho
      obtain ⟨_, _, rfl⟩ := List.mem_map.1 ho
      exact List.length_replicate
    · rw [h] at ho
      unfold gmNetForward at h
      simp only [] at h
      obtain ⟨r, _, h⟩ := (gm_bind_ok _ _ _).1 h
      obtain ⟨q, hq, h⟩ := (gm_bind_ok _ _ _).1 h
      injection h with h
      injection h with _ h
      subst h
      unfold gmAdapt at hq
      rw [hw] at hq
      exact (adapt_rows w _ q hq).2 o ho

/-- The rows that a pass gives the network have `input` columns. -/
def GmInputOk (E : GmEnv K (GmStore K)) (n input : Nat) : Prop :=
  ∃ nf, input = E.iw + nf + 2 + (if 1 < E.period then 2 * E.period else 0) ∧
    match E.features with
    | some f => ∀ cur row, row < n → ((f (cur - E.iw) cur).getD row []).length = nf
    | none => nf = 0

theorem process_view (period iw fw : Nat) (x : List (Option K)) (ls ss : K) (t : GmTrack K) (prev cur : Nat)
    (p : GmTrack K × GmView K) (h : gmProcess period iw fw x ls ss t prev cur = .ok p) :
    gmView period iw fw p.1 cur = .ok p.2 := by
  unfold gmProcess at h
  obtain ⟨t1, _, h⟩ := (gm_bind_ok _ _ _).1 h
  obtain ⟨v, hv, h⟩ := (gm_bind_ok _ _ _).1 h
  injection h with h
  rw [← h]
  exact hv

theorem turnNet_ok (E : GmEnv K (GmStore K)) (hE : GmNetOk E) (N : GmStack K) (input cols : Nat) (hN : GmNetWf N input)
    (hnet : E.net = gmNetTotal N cols) (x : List (List (Option K))) (hin : GmInputOk E x.length input)
    (hx : ∀ r ∈ x, GmRowPos r)
    (st : GmLoop K (GmStore K)) (hst : GmLoopOk E x.length st) (hstore : GmStoreOk N x.length st.net) (step cur : Nat)
    (hpc : st.prev < cur) (hc : ∀ r ∈ x, cur ≤ r.length) (hic : E.iw ≤ cur) :
    gmTurnNet E N x st step cur = gmTurn E x st step cur ∧
    ∀ a, gmTurn E x st step cur = .ok a → GmStoreOk N x.length a.1.net ∧ a.1.net.length = st.net.length + 1 := by
  obtain ⟨ps, h1, h2, h3⟩ := turn_rows E hE x hx st hst cur hpc hc hic
  obtain ⟨nf, e1, e2⟩ := hin
  have hrows : ∀ r ∈ ps.mapIdx fun i p => gmInput E step st.prev cur i p.2, r.length = input := by
    intro r hr
    obtain ⟨i, hi, rfl⟩ := List.getElem_of_mem hr
    rw [List.getElem_mapIdx]
    rw [List.length_mapIdx] at hi
    obtain ⟨⟨t, _, hp⟩, ht, -, -, -⟩ := h3 i ps[i] (List.getElem?_eq_getElem hi)
    have hv := process_view _ _ _ _ _ _ _ _ _ _ hp
    rw [e1]
    apply input_len
    · by_cases hp' : 1 < E.period
      · obtain ⟨v, l, q, _, _, q3, _⟩ := C139_view_partial E.period E.iw E.fw cur hp' (hE.long hp') hic _ ht
        rw [hv] at q
        injection q with q
        rw [q]; exact q3
      · have hp1 : E.period = 1 := by have := hE.period; omega
        rw [hp1] at ht hv
        obtain ⟨v, l, q, _, _, q3, _⟩ := C139_view_level E.iw E.fw cur hE.iw hic _ ht
        rw [hv] at q
        injection q with q
        rw [q]; exact q3
    · intro hp'
      obtain ⟨v, l, q, _, _, q3, q4, q5, _⟩ := C139_view_partial E.period E.iw E.fw cur hp' (hE.long hp') hic _ ht
      rw [hv] at q
      injection q with q
      rw [q]; exact ⟨q4, q5⟩
    · rcases hf : E.features with _ | f
      · rw [hf] at e2; exact e2
      · rw [hf] at e2; exact e2 cur i (by omega)
  obtain ⟨l, o, hf, _, hs, _, _⟩ := C144_forward N input x.length hN st.net hstore
    (ps.mapIdx fun i p => gmInput E step st.prev cur i p.2) (by rw [List.length_mapIdx, h2]) hrows
  have ht : E.net st.net (ps.mapIdx fun i p => gmInput E step st.prev cur i p.2) = (st.net ++ [l], o) := by
    rw [hnet]
    unfold gmNetTotal
    rw [hf]
  constructor
  · unfold gmTurnNet gmTurn
    rw [h1]
    simp only [bind, Except.bind, hf, ht]
  · intro a ha
    unfold gmTurn at ha
    rw [h1] at ha
    simp only [bind, Except.bind, ht] at ha
    split at ha
    · cases ha
    · injection ha with ha
      rw [← ha]
      exact ⟨hs, by simp⟩

/-- C144: in a pass over a batch that C139 covers, a network whose input has as many columns as the rows of the pass never
fails: the loop with the network that can fail is the loop of C139 with the total one, and ends with a forecast for each
step. -/
theorem C144_pass (E : GmEnv K (GmStore K)) (hE : GmNetOk E) (N : GmStack K) (input cols : Nat) (hN : GmNetWf N input)
    (hnet : E.net = gmNetTotal N cols) (x : List (List (Option K))) (hin : GmInputOk E x.length input)
    (hx : ∀ r ∈ x, GmRowPos r) :
    ∀ (steps : List (Nat × Nat)) (st : GmLoop K (GmStore K)), GmLoopOk E x.length st → GmStoreOk N x.length st.net →
    (steps.map (·.2)).Pairwise (· < ·) → (∀ s ∈ steps, st.prev < s.2 ∧ E.iw ≤ s.2 ∧ ∀ r ∈ x, s.2 ≤ r.length) →
    ∃ rs, gmTurnsNet E N x steps st = .ok rs ∧ gmTurns E x steps st = .ok rs ∧ rs.map (·.1) = steps.map (·.2) ∧
      ∀ r ∈ rs, r.2.length = x.length ∧ ∀ row ∈ r.2, row.length = E.fw * E.quantiles := by
  intro steps st hst hstore hsort hs
  obtain ⟨rs, r1, r2, r3⟩ := turns_ok E hE x hx steps st hst hsort hs
  refine ⟨rs, ?_, r1, r2, r3⟩
  rw [← r1]
  clear r1 r2 r3
  induction steps generalizing st with
  | nil => rfl
  | cons s steps ih =>
    obtain ⟨h1, h2, h3⟩ := hs s List.mem_cons_self
    obtain ⟨q1, q2⟩ := turnNet_ok E hE N input cols hN hnet x hin hx st hst hstore s.1 s.2 h1 h3 h2
    obtain ⟨st', f, e, g1, g2, g3, g4⟩ := turn_ok E hE x hx st hst s.1 s.2 h1 h3 h2
    rw [List.map_cons, List.pairwise_cons] at hsort
    have := ih st' g1 (q2 _ e).1 hsort.2 (by
      intro s' hs'
      obtain ⟨_, h5, h6⟩ := hs s' (List.mem_cons_of_mem _ hs')
      exact ⟨by rw [g2]; exact hsort.1 s'.2 (List.mem_map_of_mem hs'), h5, h6⟩)
    unfold gmTurnsNet gmTurns
    rw [q1, e]
    show (gmTurnsNet E N x steps st' >>= fun b => _) = (gmTurns E x steps st' >>= fun b => _)
    rw [this]

end
end Kats
