import Verif.Props.MetaHptNet
import Verif.Props.MetaPredTrain

/-!
# C149: the recommendations
-/

namespace Kats

section
variable {V K : Type} [DecidableEq V] [Field K] [LinearOrder K]

/-- A name and the classes of its place. -/
theorem hp_zip_lookup {α : Type} (c : List String) (hc : c.Nodup) (l : List α) (i : Nat) (n : String) (v : α) (hn : c[i]? = some n) (hv : l[i]? = some v) :
    (c.zip l).lookup n = some v := by
  induction c generalizing l i with
  | nil => simp at hn
  | cons a c ih =>
    rcases l with _ | ⟨b, l⟩
    · simp at hv
    rw [List.zip_cons_cons, List.lookup_cons]
    rw [List.nodup_cons] at hc
    rcases i with _ | i
    · simp only [List.getElem?_cons_zero, Option.some.injEq] at hn hv
      subst hn hv
      simp
    · rw [List.getElem?_cons_succ] at hn hv
      have : n ≠ a := fun h => hc.1 (h ▸ List.mem_of_getElem? hn)
      rw [beq_eq_false_iff_ne.2 this]
      exact ih hc.2 l i hn hv

/-- C149, the part that holds: with different names and a value for each categorical parameter, a network of the right sizes recommends, for each row of features, for each categorical
parameter the first class with the greatest output, which is a value of the data, and for each numerical one its output; nothing else. -/
theorem hp_answer (fx : List String × List (List (Option K))) (fy : List (String × List (Option V))) (c names : List String) (s : Hp V K)
    (hs : HpData fx fy c (some names) s) (hnd : (c ++ names).Nodup) (hv : ∀ n ∈ c, ∀ col, fy.lookup n = some col → ∃ v, some v ∈ col)
    (shared : List Nat) (cats : List (List Nat)) (nums : List Nat) (net : HpNet K) (hnet : HpSized s shared cats nums net) (x : List K) (hx : x.length = s.dim) :
    ∃ (o : Option (List (List K)) × Option (List K)) (d : List (String × (V ⊕ K))), hpForward net x = .ok o ∧ hpAnswer s net x = .ok d ∧ d.map (·.1) = c ++ names ∧
      (∀ (j : Nat) (n : String), c[j]? = some n → ∃ (y : List K) (cl : List V) (k : Nat) (m : K) (v : V) (col : List (Option V)),
        (o.1.getD [])[j]? = some y ∧ s.classes[j]? = some cl ∧ y[k]? = some m ∧
        (∀ w ∈ y, w ≤ m) ∧ (∀ (i : Nat) (w : K), i < k → y[i]? = some w → w < m) ∧ cl[k]? = some v ∧ fy.lookup n = some col ∧ some v ∈ col ∧ d[j]? = some (n, Sum.inl v)) ∧
      ∀ (j : Nat) (n : String), names[j]? = some n → ∃ q, (o.2.getD [])[j]? = some q ∧ d[c.length + j]? = some (n, Sum.inr q) := by
  obtain ⟨e1, e2, e3, e4, e5, e6, e7, e8, e9⟩ := hs
  obtain ⟨o, q, ho, hol, hql⟩ := C149_forward s shared cats nums net hnet x hx
  have hcl : s.classes.length = c.length := e5.length_eq.symm
  have hon : o.length = c.length := by rw [← hol.length_eq, e6, List.length_map, hcl]
  have hget : (if s.nCat = [] then none else some o : Option (List (List K))).getD [] = o := by
    by_cases h : s.nCat = []
    · rw [if_pos h]
      have : o.length = 0 := by rw [← hol.length_eq, h]; rfl
      rw [List.length_eq_zero_iff] at this
      rw [this]
      rfl
    · rw [if_neg h]
      rfl
  have hqn : q.length = names.length := by rw [hql]; exact e9.length_eq.symm
  have hgetq : (if s.target = [] then none else some q : Option (List K)).getD [] = q := by
    by_cases h : s.target = []
    · rw [if_pos h]
      have : q.length = 0 := by rw [hql, h]; rfl
      rw [List.length_eq_zero_iff] at this
      rw [this]
      rfl
    · rw [if_neg h]
      rfl
  have hcat := hp_mapM_exists (fun (e : String × Nat) => (do
      let y ← match o[e.2]? with | some y => Except.ok y | none => .error .indexError
      if y = [] then .error .indexError
      else do
        let cc ← needKey ((c.zip s.classes).lookup e.1)
        let v ← needKey cc[argmaxIdx y]?
        return (e.1, (Sum.inl v : V ⊕ K)) : Except Err (String × (V ⊕ K))))
    (fun e r => ∃ (y : List K) (cl : List V) (k : Nat) (m : K) (v : V) (col : List (Option V)), o[e.2]? = some y ∧ s.classes[e.2]? = some cl ∧ y[k]? = some m ∧
        (∀ w ∈ y, w ≤ m) ∧ (∀ (i : Nat) (w : K), i < k → y[i]? = some w → w < m) ∧ cl[k]? = some v ∧ fy.lookup e.1 = some col ∧ some v ∈ col ∧ r = (e.1, Sum.inl v))
    c.zipIdx (by
      intro e he
      rw [List.mem_zipIdx_iff_getElem?] at he
      obtain ⟨n, j⟩ := e
      simp only [] at he ⊢
      have hj : j < c.length := (List.getElem?_eq_some_iff.1 he).1
      have hjo : j < o.length := by omega
      have hjc : j < s.classes.length := by omega
      have hn : c[j] = n := (List.getElem?_eq_some_iff.1 he).2
      obtain ⟨col, hcol, hnod, _, hmem⟩ := (List.forall₂_iff_get.1 e5).2 j hj hjc
      simp only [List.get_eq_getElem] at hcol hnod hmem
      rw [hn] at hcol
      have hyl : o[j].length = s.classes[j].length := by
        have := (List.forall₂_iff_get.1 hol).2 j (by rw [e6, List.length_map]; omega) hjo
        simp only [List.get_eq_getElem] at this
        rw [this]
        simp [e6]
      have hne : s.classes[j] ≠ [] := by
        obtain ⟨v, hvv⟩ := hv n (List.mem_of_getElem? he) col hcol
        exact List.ne_nil_of_mem ((hmem v).2 hvv)
      have hne' : o[j] ≠ [] := by
        intro h
        rw [h] at hyl
        exact hne (List.length_eq_zero_iff.1 hyl.symm)
      obtain ⟨hlt, hmax, hfirst⟩ := argmaxIdx_spec o[j] hne'
      have hlt' : argmaxIdx o[j] < s.classes[j].length := by omega
      refine ⟨(n, Sum.inl s.classes[j][argmaxIdx o[j]]), ?_, o[j], s.classes[j], argmaxIdx o[j], o[j][argmaxIdx o[j]], s.classes[j][argmaxIdx o[j]], col,
        List.getElem?_eq_getElem hjo, List.getElem?_eq_getElem hjc, List.getElem?_eq_getElem hlt, hmax, ?_, List.getElem?_eq_getElem hlt', hcol, ?_, rfl⟩
      · rw [List.getElem?_eq_getElem hjo]
        show (if o[j] = [] then _ else _) = _
        rw [if_neg hne', hp_zip_lookup c (List.nodup_append.1 hnd).1 s.classes j n s.classes[j] he (List.getElem?_eq_getElem hjc)]
        show (needKey (s.classes[j][argmaxIdx o[j]]?) >>= _) = _
        rw [List.getElem?_eq_getElem hlt']
        rfl
      · intro i w hi hw
        obtain ⟨hil, hw⟩ := List.getElem?_eq_some_iff.1 hw
        rw [← hw]
        exact hfirst i hi
      · exact (hmem _).1 (List.getElem_mem hlt'))
  obtain ⟨r, hr, hrq⟩ := hcat
  have hnum := hp_mapM_exists (fun (e : String × Nat) => (match q[e.2]? with
      | some v => Except.ok (e.1, (Sum.inr v : V ⊕ K))
      | none => .error .indexError : Except Err (String × (V ⊕ K))))
    (fun e r => ∃ v, q[e.2]? = some v ∧ r = (e.1, Sum.inr v)) names.zipIdx (by
      intro e he
      rw [List.mem_zipIdx_iff_getElem?] at he
      obtain ⟨n, j⟩ := e
      simp only [] at he ⊢
      have hj : j < names.length := (List.getElem?_eq_some_iff.1 he).1
      have hjq : j < q.length := by omega
      refine ⟨(n, Sum.inr q[j]), ?_, q[j], List.getElem?_eq_getElem hjq, rfl⟩
      rw [List.getElem?_eq_getElem hjq])
  obtain ⟨t, ht, htq⟩ := hnum
  have hk1 : r.map (·.1) = c := by
    apply List.ext_getElem?
    intro i
    rw [List.getElem?_map]
    by_cases hi : i < c.length
    · have h1 : i < c.zipIdx.length := by simpa using hi
      have h2 : i < r.length := by rw [← hrq.length_eq]; exact h1
      obtain ⟨_, _, _, _, v, _, _, _, _, _, _, _, _, _, he⟩ := (List.forall₂_iff_get.1 hrq).2 i h1 h2
      simp only [List.get_eq_getElem, List.getElem_zipIdx] at he
      rw [List.getElem?_eq_getElem h2, he, List.getElem?_eq_getElem hi]
      rfl
    · have h2 : r.length ≤ i := by rw [← hrq.length_eq, List.length_zipIdx]; omega
      rw [List.getElem?_eq_none h2, List.getElem?_eq_none (by omega)]
      rfl
  have hk2 : t.map (·.1) = names := by
    apply List.ext_getElem?
    intro i
    rw [List.getElem?_map]
    by_cases hi : i < names.length
    · have h1 : i < names.zipIdx.length := by simpa using hi
      have h2 : i < t.length := by rw [← htq.length_eq]; exact h1
      obtain ⟨v, _, he⟩ := (List.forall₂_iff_get.1 htq).2 i h1 h2
      simp only [List.get_eq_getElem, List.getElem_zipIdx] at he
      rw [List.getElem?_eq_getElem h2, he, List.getElem?_eq_getElem hi]
      rfl
    · have h2 : t.length ≤ i := by rw [← htq.length_eq, List.length_zipIdx]; omega
      rw [List.getElem?_eq_none h2, List.getElem?_eq_none (by omega)]
      rfl
  have hkeys : (r ++ t).map (·.1) = c ++ names := by rw [List.map_append, hk1, hk2]
  have hrl : r.length = c.length := by rw [← hrq.length_eq, List.length_zipIdx]
  refine ⟨_, r ++ t, ho, ?_, hkeys, ?_, ?_⟩
  · unfold hpAnswer
    refine (gm_bind_ok _ _ _).2 ⟨_, ho, ?_⟩
    simp only [hget, hgetq, e1, e2]
    refine (gm_bind_ok _ _ _).2 ⟨r, hr, ?_⟩
    refine (gm_bind_ok _ _ _).2 ⟨t, ht, ?_⟩
    show Except.ok (gmUpdate [] (r ++ t)) = _
    rw [update_fresh (r ++ t) [] (by rw [hkeys]; exact hnd)]
    rfl
  · intro j n hj
    simp only [hget]
    have hjl : j < c.length := (List.getElem?_eq_some_iff.1 hj).1
    have h1 : j < c.zipIdx.length := by simpa using hjl
    have h2 : j < r.length := by omega
    obtain ⟨y, cl, k, m, v, col, g1, g2, g3, g4, g5, g6, g7, g8, g9⟩ := (List.forall₂_iff_get.1 hrq).2 j h1 h2
    have hn : c[j] = n := (List.getElem?_eq_some_iff.1 hj).2
    simp only [List.get_eq_getElem, List.getElem_zipIdx, Nat.zero_add, hn] at g1 g2 g7 g9
    refine ⟨y, cl, k, m, v, col, g1, g2, g3, g4, g5, g6, g7, g8, ?_⟩
    rw [List.getElem?_append_left h2, List.getElem?_eq_getElem h2, g9]
  · intro j n hj
    simp only [hgetq]
    have hjl : j < names.length := (List.getElem?_eq_some_iff.1 hj).1
    have h1 : j < names.zipIdx.length := by simpa using hjl
    have h2 : j < t.length := by rw [← htq.length_eq]; exact h1
    obtain ⟨v, g1, g2⟩ := (List.forall₂_iff_get.1 htq).2 j h1 h2
    have hn : names[j] = n := (List.getElem?_eq_some_iff.1 hj).2
    simp only [List.get_eq_getElem, List.getElem_zipIdx, Nat.zero_add, hn] at g1 g2
    refine ⟨v, g1, ?_⟩
    rw [List.getElem?_append_right (by omega), hrl, Nat.add_sub_cancel_left, List.getElem?_eq_getElem h2, g2]

theorem hp_rows (x : HpInput K) (rows : List (List (Option K))) (n : Nat)
    (hx : x = .list rows ∨ (∃ cols, x = .frame cols rows) ∨ x = .array rows) (hne : rows ≠ []) (hlen : ∀ r ∈ rows, r.length = n) : x.rows = .ok rows := by
  rcases hx with rfl | ⟨cols, rfl⟩ | rfl
  · unfold HpInput.rows
    simp only []
    rw [if_neg]
    rintro (h | h)
    · exact hne h
    · apply h
      intro r hr
      rw [hlen r hr]
      rcases rows with _ | ⟨a, rows⟩
      · exact absurd rfl hne
      · exact (hlen a List.mem_cons_self).symm
  · rfl
  · rfl

/-- One row, scaled or not. -/
theorem hp_scale_row (s : Hp V K) (hsc : ∀ m, s.scale = some m → m.1.length = s.dim ∧ m.2.length = s.dim) (r : List (Option K)) (hr : r.length = s.dim) :
    ∃ y, hpScaleRow s r = .ok y ∧ y.length = s.dim := by
  unfold hpScaleRow
  simp only []
  rcases h : s.scale with _ | m
  · exact ⟨_, rfl, by rw [List.length_map, hr]⟩
  · obtain ⟨h1, h2⟩ := hsc m h
    simp only []
    rw [if_pos (show (r.map fun v => v.getD 0).length = m.1.length by rw [List.length_map, hr, h1])]
    refine ⟨_, rfl, ?_⟩
    simp [hr, h1, h2]

/-- C149, the part that holds: whatever the rows are given as, with different names for the parameters, a list (perhaps empty) of numerical ones and a value for each categorical
one, a network of the right sizes gives one recommendation for each row, with all parameters and nothing else; a categorical parameter has a value it has in the data. -/
theorem C149_pred_partial (fx : List String × List (List (Option K))) (fy : List (String × List (Option V))) (c names : List String) (s : Hp V K)
    (hs : HpData fx fy c (some names) s) (hnd : (c ++ names).Nodup) (hv : ∀ n ∈ c, ∀ col, fy.lookup n = some col → ∃ v, some v ∈ col)
    (hsc : ∀ m, s.scale = some m → m.1.length = s.dim ∧ m.2.length = s.dim)
    (shared : List Nat) (cats : List (List Nat)) (nums : List Nat) (net : HpNet K) (hnet : HpSized s shared cats nums net) (path : List ((K × K) × (K × K)))
    (x : HpInput K) (rows : List (List (Option K))) (hx : x = .list rows ∨ (∃ cols, x = .frame cols rows) ∨ x = .array rows) (hne : rows ≠ [])
    (hlen : ∀ r ∈ rows, r.length = fx.1.length) :
    ∃ ans, hpPredBy (some (s, some net, path)) x = .ok ans ∧ ans.length = rows.length ∧ ∀ d ∈ ans, d.map (·.1) = c ++ names ∧
      (∀ n ∈ c, ∃ v col, (n, Sum.inl v) ∈ d ∧ fy.lookup n = some col ∧ some v ∈ col) ∧ ∀ n ∈ names, ∃ q, (n, Sum.inr q) ∈ d := by
  have hdim : s.dim = fx.1.length := hs.2.2.1
  obtain ⟨l, hl, hll⟩ := hp_mapM_exists (hpScaleRow s) (fun _ y => y.length = s.dim) rows
    (fun r hr => hp_scale_row s hsc r (by rw [hlen r hr, hdim]))
  have hly : ∀ y ∈ l, y.length = s.dim := by
    intro y hy
    obtain ⟨i, hi, rfl⟩ := List.mem_iff_getElem.1 hy
    exact (List.forall₂_iff_get.1 hll).2 i (by rw [hll.length_eq]; exact hi) hi
  obtain ⟨ans, ha, hall⟩ := hp_mapM_exists (hpAnswer s net) (fun _ d => d.map (·.1) = c ++ names ∧
      (∀ n ∈ c, ∃ v col, (n, Sum.inl v) ∈ d ∧ fy.lookup n = some col ∧ some v ∈ col) ∧ ∀ n ∈ names, ∃ q, (n, Sum.inr q) ∈ d) l (by
    intro y hy
    obtain ⟨o, d, _, hd, hk, h1, h2⟩ := hp_answer fx fy c names s hs hnd hv shared cats nums net hnet y (hly y hy)
    refine ⟨d, hd, hk, ?_, ?_⟩
    · intro n hn
      obtain ⟨j, hj, rfl⟩ := List.mem_iff_getElem.1 hn
      obtain ⟨_, _, _, _, v, col, _, _, _, _, _, _, g1, g2, g3⟩ := h1 j _ (List.getElem?_eq_getElem hj)
      exact ⟨v, col, List.mem_of_getElem? g3, g1, g2⟩
    · intro n hn
      obtain ⟨j, hj, rfl⟩ := List.mem_iff_getElem.1 hn
      obtain ⟨q, _, g3⟩ := h2 j _ (List.getElem?_eq_getElem hj)
      exact ⟨q, List.mem_of_getElem? g3⟩)
  refine ⟨ans, ?_, by rw [← hall.length_eq, ← hll.length_eq], ?_⟩
  · unfold hpPredBy
    refine (gm_bind_ok _ _ _).2 ⟨(s, net), rfl, ?_⟩
    refine (gm_bind_ok _ _ _).2 ⟨rows, hp_rows x rows _ hx hne hlen, ?_⟩
    refine (gm_bind_ok _ _ _).2 ⟨l, hl, ?_⟩
    refine (gm_bind_ok _ _ _).2 ⟨ans, ha, ?_⟩
    rw [if_neg (by simp [hs.2.1])]
    rfl
  · intro d hd
    obtain ⟨i, hi, rfl⟩ := List.mem_iff_getElem.1 hd
    exact (List.forall₂_iff_get.1 hall).2 i (by rw [hall.length_eq]; exact hi) hi

/-- C149: the recommendation for one row, in detail: the first class with the greatest output for each categorical parameter, the output itself for each numerical one. -/
theorem C149_best (fx : List String × List (List (Option K))) (fy : List (String × List (Option V))) (c names : List String) (s : Hp V K)
    (hs : HpData fx fy c (some names) s) (hnd : (c ++ names).Nodup) (hv : ∀ n ∈ c, ∀ col, fy.lookup n = some col → ∃ v, some v ∈ col)
    (hsc : s.scale = none) (shared : List Nat) (cats : List (List Nat)) (nums : List Nat) (net : HpNet K) (hnet : HpSized s shared cats nums net)
    (path : List ((K × K) × (K × K))) (x : List K) (hx : x.length = fx.1.length) :
    ∃ (o : Option (List (List K)) × Option (List K)) (d : List (String × (V ⊕ K))), hpForward net x = .ok o ∧
      hpPredBy (some (s, some net, path)) (.list [x.map some]) = .ok [d] ∧
      (∀ (j : Nat) (n : String), c[j]? = some n → ∃ (y : List K) (cl : List V) (k : Nat) (m : K) (v : V),
        (o.1.getD [])[j]? = some y ∧ s.classes[j]? = some cl ∧ y[k]? = some m ∧
        (∀ w ∈ y, w ≤ m) ∧ (∀ (i : Nat) (w : K), i < k → y[i]? = some w → w < m) ∧ cl[k]? = some v ∧ d[j]? = some (n, Sum.inl v)) ∧
      ∀ (j : Nat) (n : String), names[j]? = some n → ∃ q, (o.2.getD [])[j]? = some q ∧ d[c.length + j]? = some (n, Sum.inr q) := by
  obtain ⟨o, d, ho, hd, _, h1, h2⟩ := hp_answer fx fy c names s hs hnd hv shared cats nums net hnet x (by rw [hx, hs.2.2.1])
  refine ⟨o, d, ho, ?_, ?_, h2⟩
  · unfold hpPredBy
    refine (gm_bind_ok _ _ _).2 ⟨(s, net), rfl, ?_⟩
    refine (gm_bind_ok _ _ _).2 ⟨[x.map some], hp_rows _ _ x.length (Or.inl rfl) (by simp) (by simp), ?_⟩
    have hrow : hpScaleRow s (x.map some) = .ok x := by
      unfold hpScaleRow
      rw [hsc, List.map_map]
      show Except.ok (x.map _) = _
      congr 1
      exact List.map_id' _
    refine (gm_bind_ok _ _ _).2 ⟨[x], by rw [List.mapM_cons, List.mapM_nil, hrow]; rfl, ?_⟩
    refine (gm_bind_ok _ _ _).2 ⟨[d], by rw [List.mapM_cons, List.mapM_nil, hd]; rfl, ?_⟩
    rw [if_neg (by simp [hs.2.1])]
    rfl
  · intro j n hj
    obtain ⟨y, cl, k, m, v, _, g1, g2, g3, g4, g5, g6, _, _, g7⟩ := h1 j n hj
    exact ⟨y, cl, k, m, v, g1, g2, g3, g4, g5, g6, g7⟩

/-- C149 violated: an object that has not been trained should refuse to recommend.  After `build_network` alone, all rows get a recommendation, of random weights. -/
theorem C149_untrained_violated (fx : List String × List (List (Option K))) (fy : List (String × List (Option V))) (c names : List String) (s : Hp V K)
    (hs : HpData fx fy c (some names) s) (hnd : (c ++ names).Nodup) (hv : ∀ n ∈ c, ∀ col, fy.lookup n = some col → ∃ v, some v ∈ col)
    (hsc : ∀ m, s.scale = some m → m.1.length = s.dim ∧ m.2.length = s.dim) (hd : s.default = none)
    (init : List Nat → Nat → Nat → HpLayer K) (hinit : ∀ p i o, HpShape i o (init p i o)) (shared : List Nat) (cats : List (List Nat)) (hc : cats.length = c.length)
    (nums : List Nat) (rows : List (List (Option K))) (hne : rows ≠ []) (hlen : ∀ r ∈ rows, r.length = fx.1.length) :
    ∃ net ans, hpBuild init s (some shared) (some cats) (some nums) = .ok net ∧ hpPredBy (some (s, some net, [])) (.list rows) = .ok ans ∧ ans.length = rows.length := by
  obtain ⟨h1, h2⟩ := C149_network init hinit s hd (some shared) (some cats) (some nums)
  have hnc : s.nCat.length = c.length := by rw [hs.2.2.2.2.2.1, List.length_map]; exact hs.2.2.2.2.1.length_eq.symm
  obtain ⟨net, hnet⟩ := h1.2 ⟨by simp, by simp, cats, rfl, by rw [hnc, hc]⟩
  obtain ⟨ans, ha, hl, _⟩ := C149_pred_partial fx fy c names s hs hnd hv hsc _ _ _ net (h2 net hnet) [] (.list rows) rows (Or.inl rfl) hne hlen
  exact ⟨net, ans, hnet, ha, hl⟩

/-- C149 violated: there should be no need of a numerical parameter.  If `numerical_idx` is missing, as it is by default, data are accepted as with an empty list and networks
built and trained, but no row ever gets a recommendation. -/
theorem C149_categorical_violated (sort : List V → List V) (hsort : ∀ l, (sort l).Perm l) (std : List K → K) (a : HpArgs V K)
    (fx : List String × List (List (Option K))) (fy : List (String × List (Option V))) (hx : a.dataX = some fx) (hy : a.dataY = some fy)
    (hl : a.load = false) (hd : a.default = none) (c : List String) (hc : a.cat = some c) (hn : a.num = none) :
    ((∃ s, hpInit sort std a = .ok (some s)) ↔ ∃ s, hpInit sort std { a with num := some [] } = .ok (some s)) ∧
    ∀ s, hpInit sort std a = .ok (some s) → ∀ net path x ans, hpPredBy (some (s, net, path)) x ≠ .ok ans := by
  obtain ⟨h1, h2⟩ := C149_init_partial sort hsort std a fx fy hx hy hl hd c hc
  obtain ⟨h3, _⟩ := C149_init_partial sort hsort std { a with num := some [] } fx fy hx hy hl hd c hc
  refine ⟨?_, ?_⟩
  · rw [h1, h3, hn]
    rfl
  · intro s hs net path x ans h
    have hnum : s.num = none := by rw [(h2 s hs).1.2.1, hn]
    unfold hpPredBy at h
    obtain ⟨m, hm, h⟩ := (gm_bind_ok _ _ _).1 h
    have hms : m.1 = s := by
      rcases net with _ | net
      · cases hm
      · injection hm with hm
        rw [← hm]
    obtain ⟨_, _, h⟩ := (gm_bind_ok _ _ _).1 h
    obtain ⟨_, _, h⟩ := (gm_bind_ok _ _ _).1 h
    obtain ⟨_, _, h⟩ := (gm_bind_ok _ _ _).1 h
    rw [hms, hnum] at h
    cases h

/-- C149 violated: a feature of a frame should be read by its name, a series may have any time column, and an object made to be loaded should tell that it has no
network.  The columns of a frame are not looked at; a series whose time column is not named "time" is refused; there is an `AttributeError`. -/
theorem C149_refused_violated (sort : List V → List V) (std : List K → K) (a : HpArgs V K) (ha : a.load = true) (obj : HpObj V K) (cols cols' : List String)
    (rows : List (List (Option K))) (x : HpInput K) (features : List GmFlt → List (String × Option K)) (timeCol : String) (ht : timeCol ≠ "time")
    (values : List GmFlt) (tsScale : Bool) (s : Hp V K) (path : List ((K × K) × (K × K))) :
    hpPredBy obj (.frame cols rows) = hpPredBy obj (.frame cols' rows) ∧ hpPred features obj timeCol values tsScale = .error .valueError ∧
      hpInit sort std a = .ok none ∧ hpPredBy (none : HpObj V K) x = .error .attributeError ∧ hpPredBy (some (s, none, path)) x = .error .valueError := by
  refine ⟨rfl, ?_, ?_, rfl, rfl⟩
  · unfold hpPred
    rw [if_pos ht]
  · unfold hpInit
    rw [ha]
    rfl

/-- C149: the recommendation for a series is that for the row of its features, computed after dividing by the greatest value if asked for. -/
theorem C149_series (features : List GmFlt → List (String × Option K)) (obj : HpObj V K) (values : List GmFlt) (tsScale : Bool) (d : List (String × (V ⊕ K))) :
    hpPred features obj "time" values tsScale = .ok d ↔
      hpPredBy obj (.list [(features (if tsScale then mdScale values else values)).map (·.2)]) = .ok [d] := by
  obtain ⟨r, hr⟩ : ∃ r, r = (features (if tsScale then mdScale values else values)).map (·.2) := ⟨_, rfl⟩
  have hpred : hpPred features obj "time" values tsScale = (do
      let _ ← hpModel obj
      let r ← hpPredBy obj (.list [r])
      match r.head? with
      | some d => return d
      | none => .error .indexError) := by
    unfold hpPred
    rw [if_neg (by simp), hr]
    rfl
  rw [hpred, ← hr]
  constructor
  · intro h
    obtain ⟨m, hm, h⟩ := (gm_bind_ok _ _ _).1 h
    obtain ⟨ans, ha, h⟩ := (gm_bind_ok _ _ _).1 h
    have hlen : ans.length = 1 := by
      unfold hpPredBy at ha
      obtain ⟨m', _, ha⟩ := (gm_bind_ok _ _ _).1 ha
      obtain ⟨rows, h1, ha⟩ := (gm_bind_ok _ _ _).1 ha
      obtain ⟨l, h2, ha⟩ := (gm_bind_ok _ _ _).1 ha
      obtain ⟨t, h3, ha⟩ := (gm_bind_ok _ _ _).1 ha
      split at ha
      · cases ha
      injection ha with ha
      subst ha
      rw [← (mapM_forall2 _ _ _ h3).length_eq, ← (mapM_forall2 _ _ _ h2).length_eq]
      rw [hp_rows (.list [r]) [r] r.length (Or.inl rfl) (by simp) (by simp)] at h1
      injection h1 with h1
      rw [← h1]
      rfl
    rcases ans with _ | ⟨b, _ | ⟨b', ans⟩⟩
    · cases hlen
    · injection h with h
      rw [ha, ← h]
    · cases hlen
  · intro h
    rcases hm : hpModel obj with e | m
    · unfold hpPredBy at h
      rw [hm] at h
      cases h
    · refine (gm_bind_ok _ _ _).2 ⟨m, rfl, ?_⟩
      exact (gm_bind_ok _ _ _).2 ⟨[d], h, rfl⟩

/-! ## The scaling -/

/-- The features as for the choice of models. -/
def hpAsMs (std : List K → K) (fx : List String × List (List (Option K))) : Ms K :=
  let x := fx.2.map fun r => r.map fun v => v.getD 0
  ⟨fx.1, List.replicate x.length [], x, List.replicate x.length "", msMean fx.1.length x, msStd std fx.1.length x, false⟩

theorem hp_as_stats (std : List K → K) (fx : List String × List (List (Option K))) (hlen : ∀ r ∈ fx.2, r.length = fx.1.length) : MsStats std (hpAsMs std fx) := by
  refine ⟨?_, rfl, ?_, by simp [hpAsMs], by simp [hpAsMs]⟩
  · simp only [hpAsMs]
    rw [ms_mean_eq]
  · intro r hr
    simp only [hpAsMs] at hr ⊢
    obtain ⟨r', hr', rfl⟩ := List.mem_map.1 hr
    rw [List.length_map, hlen r' hr']

theorem hp_as_pre (std : List K → K) (fx : List String × List (List (Option K))) : (msPreprocess std (fun _ _ _ => []) false true (hpAsMs std fx)).x =
    (hpAsMs std fx).x.map fun r => List.zipWith (fun a b => a / b) (List.zipWith (fun a b => a - b) r (hpAsMs std fx).mean) (hpAsMs std fx).std := rfl

/-- C149: with scaling, every column of the features that the network is trained with has the mean zero and, if it is not constant, the variance one; a constant one
becomes zero. -/
theorem C149_scale [IsStrictOrderedRing K] (sort : List V → List V) (std : List K → K)
    (hstd : ∀ l : List K, l ≠ [] → std l * std l = (l.map fun v => (v - l.sum / l.length) * (v - l.sum / l.length)).sum / l.length)
    (a : HpArgs V K) (fx : List String × List (List (Option K))) (hx : a.dataX = some fx) (hsc : a.scale = true)
    (hlen : ∀ r ∈ fx.2, r.length = fx.1.length) (s : Hp V K) (h : hpInit sort std a = .ok (some s)) (j : Nat) (hj : j < fx.1.length)
    (col : List K) (hcol : col = s.x.map fun r => r.getD j 0) : col.length = fx.2.length ∧ col.sum = 0 ∧
      ((∃ r ∈ fx.2, ∃ r' ∈ fx.2, (r.getD j none).getD 0 ≠ (r'.getD j none).getD 0) → (col.map fun v => v * v).sum / (col.length : K) = 1) ∧
      ((∀ r ∈ fx.2, ∀ r' ∈ fx.2, (r.getD j none).getD 0 = (r'.getD j none).getD 0) → ∀ v ∈ col, v = 0) := by
  rcases hl : a.load with _ | _
  swap
  · unfold hpInit at h
    simp only [hl, if_true] at h
    cases h
  rcases hy : a.dataY with _ | fy
  · unfold hpInit at h
    simp only [hl, hx, hy] at h
    cases h
  obtain ⟨names, target, cols, c', hn, hne, ht, hcols, hv, e⟩ := (hp_init_ok sort std a fx fy hx hy hl _).1 h
  injection e with e
  have hsx : s.x = (msPreprocess std (fun _ _ _ => []) false true (hpAsMs std fx)).x := by
    rw [e, hp_as_pre]
    simp only [hsc, if_true]
    rfl
  obtain ⟨_, _, _, h3⟩ := (hp_validate _ _ _ _ _ _).1 hv
  have hne' : (hpAsMs std fx).x ≠ [] := by
    intro h0
    have := congrArg List.length h0
    simp only [hpAsMs, List.length_map, List.length_nil] at this
    omega
  obtain ⟨_, g2, g3, g4⟩ := C147_scale std hstd (fun _ _ _ => []) (hpAsMs std fx) (hp_as_stats std fx hlen) hne' j hj col (by rw [hcol, hsx])
  have hval : ∀ r : List (Option K), (r.map fun v => v.getD 0).getD j 0 = (r.getD j none).getD 0 := by
    intro r
    rw [List.getD_eq_getElem?_getD, List.getD_eq_getElem?_getD, List.getElem?_map]
    rcases r[j]? with _ | v <;> rfl
  refine ⟨?_, g2, ?_, ?_⟩
  · rw [hcol, hsx, hp_as_pre]
    simp [hpAsMs]
  · rintro ⟨r, hr, r', hr', hd⟩
    apply g3
    refine ⟨_, List.mem_map.2 ⟨r, hr, rfl⟩, _, List.mem_map.2 ⟨r', hr', rfl⟩, ?_⟩
    rw [hval, hval]
    exact hd
  · intro hall
    apply g4
    intro r hr r' hr'
    obtain ⟨r1, h1, rfl⟩ := List.mem_map.1 hr
    obtain ⟨r2, h2, rfl⟩ := List.mem_map.1 hr'
    rw [hval, hval]
    exact hall r1 h1 r2 h2

/-- C149: the network gets for the features of a row of the data, with missing values or not, scaled or not, the row it was trained with. -/
theorem C149_same (sort : List V → List V) (std : List K → K) (a : HpArgs V K) (fx : List String × List (List (Option K))) (hx : a.dataX = some fx)
    (hlen : ∀ r ∈ fx.2, r.length = fx.1.length) (s : Hp V K) (h : hpInit sort std a = .ok (some s)) (i : Nat) (r : List (Option K)) (hr : fx.2[i]? = some r) :
    ∃ row, s.x[i]? = some row ∧ hpScaleRow s r = .ok row := by
  rcases hl : a.load with _ | _
  swap
  · unfold hpInit at h
    simp only [hl, if_true] at h
    cases h
  rcases hy : a.dataY with _ | fy
  · unfold hpInit at h
    simp only [hl, hx, hy] at h
    cases h
  obtain ⟨names, target, cols, c', hn, hne, ht, hcols, hv, e⟩ := (hp_init_ok sort std a fx fy hx hy hl _).1 h
  injection e with e
  rcases hsc : a.scale with _ | _
  · refine ⟨r.map fun v => v.getD 0, ?_, ?_⟩
    · rw [e]
      simp only [hsc, Bool.false_eq_true, if_false]
      rw [List.getElem?_map, hr]
      rfl
    · unfold hpScaleRow
      rw [e]
      simp only [hsc, Bool.false_eq_true, if_false]
  · refine ⟨List.zipWith (fun a b => a / b) (List.zipWith (fun a b => a - b) (r.map fun v => v.getD 0)
      (msMean fx.1.length (fx.2.map fun r => r.map fun v => v.getD 0))) (msStd std fx.1.length (fx.2.map fun r => r.map fun v => v.getD 0)), ?_, ?_⟩
    · rw [e]
      simp only [hsc, if_true]
      rw [List.getElem?_map, List.getElem?_map, hr]
      rfl
    · unfold hpScaleRow
      rw [e]
      simp only [hsc, if_true]
      rw [if_pos]
      rw [List.length_map, hlen r (List.mem_of_getElem? hr)]
      simp [msMean]

end

end Kats
