import Verif.Props.GmSingle

/-!
# C141: `evaluate`, the validation function, the schedule and the networks
-/

namespace Kats

/-! ## `evaluate` -/

/-- C141: a window of the actual values has the length of a forecast window: the values of the window where there
are any, and missing values after the end. -/
theorem C141_window (fw : Nat) (hfw : 1 ≤ fw) (valid : GmTs) (j : Nat) (hj : j < gmStepNum valid.length fw) :
    (gmWindow fw valid j).length = fw ∧
    ∀ k, k < fw → (gmWindow fw valid j)[k]? = some ((valid[j * fw + k]?.map (·.2)).getD none) := by
  obtain ⟨s1, s2, s3, s4⟩ := stepNum_spec valid.length fw hfw
  have h1 : (j + 1) * fw ≤ gmStepNum valid.length fw * fw := Nat.mul_le_mul_right _ hj
  rw [Nat.add_mul, Nat.one_mul] at h1
  unfold gmWindow
  simp only []
  constructor
  · rw [List.length_take, List.length_drop, List.length_append, List.length_map, List.length_replicate]
    omega
  · intro k hk
    rw [List.getElem?_take_of_lt hk, List.getElem?_drop, List.getElem?_append]
    by_cases hlt : j * fw + k < valid.length
    · rw [if_pos (by simpa using hlt), List.getElem?_map, List.getElem?_eq_getElem hlt]
      rfl
    · rw [if_neg (by simpa using hlt), List.length_map, List.getElem?_replicate, if_pos (by omega),
        List.getElem?_eq_none (by omega)]
      rfl

example : gmWindow 3 [(0, some 5), (1, none), (2, some 7), (3, some 8)] 1 = [some 8, none, none] ∧
    1 < gmStepNum 4 3 := by decide +kernel

section
variable {K : Type} [Field K] {V : Type}

theorem stepNum_mono (a b fw : Nat) (hfw : 1 ≤ fw) (h : a ≤ b) : gmStepNum a fw ≤ gmStepNum b fw := by
  rw [(stepNum_spec a fw hfw).1, (stepNum_spec b fw hfw).1]
  exact Nat.div_le_div_right (by omega)

theorem evalKey_ok (fw : Nat) (judge : List K → List (Option Rat) → V) (valid : List (GmKey × Bool × GmTs))
    (fcst : List (GmKey × List (List K))) (k : GmKey) (v : Bool × GmTs) (w : List (List K))
    (h1 : gmLookup valid k = .ok v) (h2 : gmLookup fcst k = .ok w) (h3 : gmStepNum v.2.length fw ≤ w.length) :
    gmEvalKey fw judge valid fcst k = .ok ((List.range (gmStepNum v.2.length fw)).map fun j =>
      (judge (w.getD j []) (gmWindow fw v.2 j), j, k)) := by
  unfold gmEvalKey
  rw [h1]
  show (gmLookup fcst k >>= fun f => _) = _
  rw [h2]
  show (List.range (gmStepNum v.2.length fw)).mapM (gmEvalOne fw judge k v.2 w) = _
  apply mapM_eq_map
  intro j hj
  rw [List.mem_range] at hj
  unfold gmEvalOne
  rw [List.getElem?_eq_getElem (by omega), gmp_getD _ j _ (by omega)]

/-- C141: `evaluate` on collections of one kind with the same keys predicts as many steps as the longest of the
evaluated series has, and gives for every series, in order, one row for each of its windows: the judgement of the
forecast of that window with the actual values of that window. -/
theorem C141_evaluate (R : GmRand) (hR : GmRandOk R) (P : GmPredictor K) (hp : GmPredOk P.p) (hq : P.quantile ≠ [])
    (hS : ∀ n, 1 ≤ n → GmSingleOk P n) (judge : List K → List (Option Rat) → V) (train valid : GmColl)
    (hkind : gmSameKind train valid = true) (hlen : train.entries.length = valid.entries.length)
    (hne : train.entries ≠ []) (hd : (train.entries.map (·.1)).Nodup)
    (hplain : gmNpKeys (train.entries.map (·.1)) = train.entries.map (·.1))
    (hs : ∀ e ∈ train.entries, GmSeriesOk P.p e.2) (hd' : (valid.entries.map (·.1)).Nodup)
    (T : GmKey → Bool × GmTs) (hT : ∀ e ∈ train.entries, (e.1, T e.1) ∈ valid.entries)
    (hpos : ∃ e ∈ train.entries, 1 ≤ (T e.1).2.length) :
    ∃ res raw steps, gmEvaluate R P judge train valid = .ok res ∧
      (∃ e ∈ train.entries, steps = (T e.1).2.length) ∧ (∀ e ∈ train.entries, (T e.1).2.length ≤ steps) ∧
      gmPredictRaw R P train.entries steps 500 = .ok raw ∧
      res.map (fun r => (r.2.2, r.2.1)) = train.entries.flatMap (fun e =>
        (List.range (((T e.1).2.length + P.p.fcstWindow - 1) / P.p.fcstWindow)).map fun j => (e.1, j)) ∧
      ∀ r ∈ res, ∃ w f, (r.2.2, w) ∈ raw ∧ w[r.2.1]? = some f ∧
        r.1 = judge f (gmWindow P.p.fcstWindow (T r.2.2).2 r.2.1) := by
  have hfw := hp.wf.fw
  obtain ⟨lens, hlens⟩ : ∃ lens, lens = train.entries.map fun e => (T e.1).2.length := ⟨_, rfl⟩
  obtain ⟨steps, hst⟩ : ∃ s, lens.max? = some s := by
    rcases hm : lens.max? with _ | s
    · rw [List.max?_eq_none_iff, hlens, List.map_eq_nil_iff] at hm
      exact absurd hm hne
    · exact ⟨s, rfl⟩
  obtain ⟨m1, m2⟩ := List.max?_eq_some_iff.1 hst
  have hmax : ∀ e ∈ train.entries, (T e.1).2.length ≤ steps := by
    intro e he
    exact m2 _ (by rw [hlens]; exact List.mem_map.2 ⟨e, he, rfl⟩)
  have hsteps : 1 ≤ steps := by
    obtain ⟨e, he, h⟩ := hpos
    exact le_trans h (hmax e he)
  obtain ⟨s1, s2, s3, s4⟩ := stepNum_spec steps P.p.fcstWindow hfw
  obtain ⟨out, raw, p1, p2, p3, p4, p5, p6⟩ := C141_predict R hR P hp hq steps hsteps (hS _ (s4 hsteps)) train.entries hne
    hd hplain hs 500 (by omega)
  have hrawd : (raw.map (·.1)).Nodup := by rw [p4]; exact p3.nodup_iff.2 hd
  have hw : ∀ k, ∃ w, k ∈ train.entries.map (·.1) → (k, w) ∈ raw := by
    intro k
    by_cases h : k ∈ train.entries.map (·.1)
    · have : k ∈ raw.map (·.1) := by rw [p4]; exact p3.mem_iff.2 h
      obtain ⟨e, he, rfl⟩ := List.mem_map.1 this
      exact ⟨e.2, fun _ => he⟩
    · exact ⟨[], fun h' => absurd h' h⟩
  choose W hW using hw
  obtain ⟨row, hrow⟩ : ∃ row : GmKey → List (V × Nat × GmKey), row = fun k =>
    (List.range (gmStepNum (T k).2.length P.p.fcstWindow)).map fun j =>
      (judge ((W k).getD j []) (gmWindow P.p.fcstWindow (T k).2 j), j, k) := ⟨_, rfl⟩
  have hkey : ∀ k ∈ train.entries.map (·.1), gmLookup valid.entries k = .ok (T k) ∧ (T k).2.length ≤ steps ∧
      gmStepNum (T k).2.length P.p.fcstWindow ≤ (W k).length ∧
      gmEvalKey P.p.fcstWindow judge valid.entries raw k = .ok (row k) := by
    intro k hk
    obtain ⟨e, he, hek⟩ := List.mem_map.1 hk
    have h1 := gm_lookup_of_mem valid.entries hd' k (T k) (by rw [← hek]; exact hT e he)
    have h2 := gm_lookup_of_mem raw hrawd k (W k) (hW k hk)
    have h3 : gmStepNum (T k).2.length P.p.fcstWindow ≤ (W k).length := by
      rw [(p5 k (W k) (hW k hk)).1, ← s1]
      exact stepNum_mono _ _ _ hfw (by rw [← hek]; exact hmax e he)
    refine ⟨h1, by rw [← hek]; exact hmax e he, h3, ?_⟩
    rw [hrow]
    exact evalKey_ok _ judge _ _ k (T k) (W k) h1 h2 h3
  have hres : gmEvaluate R P judge train valid = .ok ((train.entries.map (·.1)).map row).flatten := by
    unfold gmEvaluate
    rw [if_neg (by rw [hkind]; simp), if_neg (by simpa using hlen), if_neg (by simpa using hne)]
    simp only []
    rw [mapM_eq_map _ (fun k => (T k).2.length) (train.entries.map (·.1)) (by
      intro k hk
      rw [(hkey k hk).1]
      rfl)]
    have e1 : (train.entries.map (·.1)).map (fun k => (T k).2.length) = lens := by
      rw [List.map_map, hlens]; rfl
    rw [e1]
    show (gmPredictRaw R P train.entries (lens.max?.getD 0) 500 >>= fun fcst => _) = _
    rw [hst, Option.getD_some, p2]
    show ((train.entries.map (·.1)).mapM (gmEvalKey P.p.fcstWindow judge valid.entries raw) >>= fun rows => _) = _
    rw [mapM_eq_map _ row _ fun k hk => (hkey k hk).2.2.2]
    rfl
  refine ⟨_, raw, steps, hres, ?_, hmax, p2, ?_, ?_⟩
  · rw [hlens] at m1
    obtain ⟨e, he, h⟩ := List.mem_map.1 m1
    exact ⟨e, he, h.symm⟩
  · rw [List.map_flatten, List.map_map, List.map_map, List.flatMap_def]
    congr 1
    apply List.map_congr_left
    intro e he
    rw [hrow]
    simp only [Function.comp_apply, List.map_map]
    rw [(stepNum_spec (T e.1).2.length P.p.fcstWindow hfw).1]
    rfl
  · intro r hr
    obtain ⟨l, hl, hrl⟩ := List.mem_flatten.1 hr
    obtain ⟨k, hk, rfl⟩ := List.mem_map.1 hl
    rw [hrow] at hrl
    obtain ⟨j, hj, rfl⟩ := List.mem_map.1 hrl
    rw [List.mem_range] at hj
    have := (hkey k hk).2.2.1
    exact ⟨W k, (W k).getD j [], hW k hk, by
      have hj' : j < (W k).length := by omega
      rw [gmp_getD _ j _ hj']
      exact List.getElem?_eq_getElem hj', rfl⟩

/-- C141: the training and the validation series are of the same kind exactly if both are one series, both are lists or both are dictionaries. -/
theorem C141_kinds (a b : GmColl) : gmSameKind a b = true ↔ (∃ x y, a = .one x ∧ b = .one y) ∨ (∃ x y, a = .list x ∧ b = .list y) ∨
    ∃ x y, a = .dict x ∧ b = .dict y := by
  rcases a with _ | _ | _ <;> rcases b with _ | _ | _ <;> simp [gmSameKind]

/-- C141: what `evaluate` refuses. -/
theorem C141_evaluate_refused (R : GmRand) (P : GmPredictor K) (judge : List K → List (Option Rat) → V)
    (train valid : GmColl) (h : gmSameKind train valid = false ∨ train.entries.length ≠ valid.entries.length ∨
      train.entries = []) : gmEvaluate R P judge train valid = .error .valueError := by
  unfold gmEvaluate
  by_cases h1 : gmSameKind train valid = false
  · rw [if_pos h1]
  rw [if_neg h1]
  by_cases h2 : train.entries.length ≠ valid.entries.length
  · rw [if_pos h2]
  rw [if_neg h2]
  rcases h with h | h | h
  · exact absurd h h1
  · exact absurd h h2
  · rw [if_pos (by rw [h]; rfl)]

end

/-- Two series with three and one values to evaluate, in windows of two steps: three rows. -/
example : ∃ res : List (Nat × Nat × GmKey), gmEvaluate gmExRand gmPredX (fun f a => f.length + a.length)
      (.list [gmPredTs 9, gmPredTs 5]) (.list [gmPredTs 3, gmPredTs 1]) = .ok res ∧
    res.map (fun r => (r.2.2, r.2.1)) = [(.int 0, 0), (.int 0, 1), (.int 1, 0)] := by
  obtain ⟨res, raw, steps, h1, _, _, _, h5, _⟩ := C141_evaluate gmExRand gmExRand_ok gmPredX gmPredP_ok (by decide)
    (fun n hn => gmPredX_ok n hn) (fun f a => f.length + a.length) (.list [gmPredTs 9, gmPredTs 5])
    (.list [gmPredTs 3, gmPredTs 1]) rfl rfl (by simp [GmColl.entries]) (by decide) (by decide) (by
      intro e he
      simp only [GmColl.entries, List.mapIdx_cons, List.mapIdx_nil, List.mem_cons, List.not_mem_nil, or_false] at he
      rcases he with rfl | rfl
      · exact gmPredTs_ok 9 (by omega)
      · exact gmPredTs_ok 5 (by omega)) (by decide) (fun k => if k = .int 0 then gmPredTs 3 else gmPredTs 1) (by
      intro e he
      simp only [GmColl.entries, List.mapIdx_cons, List.mapIdx_nil, List.mem_cons, List.not_mem_nil, or_false] at he
      rcases he with rfl | rfl <;> simp [GmColl.entries]) ⟨(.int 0, gmPredTs 9), by simp [GmColl.entries], by decide⟩
  exact ⟨res, h1, h5.trans (by decide)⟩

example : gmSameKind (.one (gmPredTs 9)) (.list [gmPredTs 3]) = false ∧
    (GmColl.list [gmPredTs 9]).entries.length ≠ (GmColl.list []).entries.length := by decide

/-! ## The validation function -/

theorem lookup_if {β : Type} (a : String × β) (l : List (String × β)) (k : String) :
    (a :: l).lookup k = if k = a.1 then some a.2 else l.lookup k := by
  obtain ⟨x, y⟩ := a
  rw [List.lookup_cons]
  by_cases h : k = x
  · have : (k == x) = true := by simpa using h
    simp only [this]
    rw [if_pos h]
  · have : (k == x) = false := by simpa using h
    simp only [this, h, if_false]

theorem put_lookup {β : Type} (d : List (String × β)) (e : String × β) (k : String) :
    (gmPut d e).lookup k = if k = e.1 then some e.2 else d.lookup k := by
  have happ : ∀ d : List (String × β), e.1 ∉ d.map (·.1) → (d ++ [e]).lookup k = if k = e.1 then some e.2 else d.lookup k := by
    intro d
    induction d with
    | nil => intro _; rw [List.nil_append, lookup_if]
    | cons a d ih =>
      intro h
      rw [List.map_cons, List.mem_cons, not_or] at h
      rw [List.cons_append, lookup_if, lookup_if, ih h.2]
      by_cases hk : k = a.1
      · rw [if_pos hk, if_pos hk, if_neg (by rw [hk]; exact fun h' => h.1 h'.symm)]
      · rw [if_neg hk, if_neg hk]
  have hmap : ∀ d : List (String × β), (d.map fun x => if x.1 = e.1 then e else x).lookup k =
      if k = e.1 then (if e.1 ∈ d.map (·.1) then some e.2 else none) else d.lookup k := by
    intro d
    induction d with
    | nil => simp
    | cons a d ih =>
      rw [List.map_cons, lookup_if, lookup_if, ih]
      by_cases ha : a.1 = e.1
      · rw [if_pos ha]
        by_cases hk : k = e.1
        · rw [if_pos hk, if_pos hk, if_pos (by simp [ha])]
        · rw [if_neg hk, if_neg hk, if_neg hk, if_neg (by rw [ha]; exact hk)]
      · rw [if_neg ha]
        by_cases hk : k = a.1
        · rw [if_pos hk, if_neg (by rw [hk]; exact ha), if_pos hk]
        · rw [if_neg hk, if_neg hk]
          have : e.1 ∈ (a :: d).map (·.1) ↔ e.1 ∈ d.map (·.1) := by
            rw [List.map_cons, List.mem_cons]
            exact ⟨fun h => h.resolve_left fun h => ha h.symm, Or.inr⟩
          simp only [this]
  unfold gmPut
  by_cases hm : e.1 ∈ d.map (·.1)
  · rw [if_pos hm, hmap, if_pos hm]
  · rw [if_neg hm, happ d hm]

theorem update_lookup {β : Type} (l : List (String × β)) : ∀ (d : List (String × β)) (k : String),
    (l.map (·.1)).Nodup → (gmUpdate d l).lookup k = (l.lookup k).or (d.lookup k) := by
  induction l with
  | nil => intro d k _; simp [gmUpdate]
  | cons e l ih =>
    intro d k hn
    rw [List.map_cons, List.nodup_cons] at hn
    show (gmUpdate (gmPut d e) l).lookup k = _
    rw [ih _ k hn.2, put_lookup, lookup_if]
    by_cases hk : k = e.1
    · have h2 : l.lookup k = none := by
        rw [List.lookup_eq_none_iff]
        intro p hp
        have : e.1 ≠ p.1 := fun h => hn.1 (by rw [h]; exact List.mem_map.2 ⟨p, hp, rfl⟩)
        simpa [hk] using this
      rw [h2, if_pos hk, if_pos hk]
      rfl
    · rw [if_neg hk, if_neg hk]

theorem exceed_head (s : String) : "exceed_" ++ s ≠ "smape" ∧ "exceed_" ++ s ≠ "sbias" := by
  constructor <;> intro h <;> have := congrArg (fun t => t.toList.head?) h <;> simp at this

section
variable {K : Type} [Field K]

/-- C141: the validation function gives `smape` and `sbias` of the first quantile if they are asked for, and for
every other quantile what is exceeded if that is asked for and there are three quantiles or more; nothing else. -/
theorem C141_metrics (M : GmMetrics K) (names quantile : List String) (hq : quantile.Nodup) (fcst : List (List K))
    (target : List (List (Option K))) :
    (gmValidFn M names quantile fcst target).lookup "smape" = (if "smape" ∈ names then
      some (M.smape target (fcst.map (·.take (target.headD []).length))) else none) ∧
    (gmValidFn M names quantile fcst target).lookup "sbias" = (if "sbias" ∈ names then
      some (M.sbias target (fcst.map (·.take (target.headD []).length))) else none) ∧
    (∀ (i : Nat) s, quantile[i + 1]? = some s → (gmValidFn M names quantile fcst target).lookup ("exceed_" ++ s) =
      (if "exceed" ∈ names ∧ 3 ≤ quantile.length then
        some ((M.exceed target (fcst.map (·.drop (target.headD []).length)) quantile.tail).getD i none) else none)) ∧
    ∀ k, k ≠ "smape" → k ≠ "sbias" → (∀ i s, quantile[i + 1]? = some s → k ≠ "exceed_" ++ s) →
      (gmValidFn M names quantile fcst target).lookup k = none := by
  obtain ⟨d, hd⟩ : ∃ d, d = (target.headD []).length := ⟨_, rfl⟩
  obtain ⟨L, hL⟩ : ∃ L : List (String × Option K), L = quantile.tail.mapIdx fun i s =>
        ("exceed_" ++ s, (M.exceed target (fcst.map (·.drop d)) quantile.tail).getD i none) := ⟨_, rfl⟩
  have htn : quantile.tail.Nodup := hq.sublist (List.tail_sublist _)
  have hinj : Function.Injective fun s : String => "exceed_" ++ s := by
    intro a b h
    have h1 := congrArg String.toList h
    simp only [String.toList_append] at h1
    exact String.toList_inj.1 (List.append_cancel_left h1)
  have hkeys : L.map (·.1) = quantile.tail.map fun s => "exceed_" ++ s := by
    rw [hL]
    apply List.ext_getElem?
    intro i
    rw [List.getElem?_map, List.getElem?_mapIdx, List.getElem?_map]
    cases quantile.tail[i]? <;> rfl
  have hLn : (L.map (·.1)).Nodup := by rw [hkeys]; exact htn.map hinj
  have hLL : gmUpdate [] L = L := by rw [update_fresh L [] (by simpa using hLn)]; rfl
  have hlook : ∀ (l : List (String × Option K)), (l.map (·.1)).Nodup → ∀ (i : Nat) e, l[i]? = some e →
      l.lookup e.1 = some e.2 := by
    intro l
    induction l with
    | nil => intro _ i e h; simp at h
    | cons a l ih =>
      intro hn i e h
      rw [List.map_cons, List.nodup_cons] at hn
      rcases i with _ | i
      · simp only [List.getElem?_cons_zero, Option.some.injEq] at h
        subst h
        rw [lookup_if, if_pos rfl]
      · rw [List.getElem?_cons_succ] at h
        have hne : e.1 ≠ a.1 := by
          intro he
          exact hn.1 (by rw [← he]; exact List.mem_map.2 ⟨e, List.mem_of_getElem? h, rfl⟩)
        rw [lookup_if, if_neg hne]
        exact ih hn.2 i e h
  have hLi : ∀ (i : Nat) s, quantile[i + 1]? = some s →
      L.lookup ("exceed_" ++ s) = some ((M.exceed target (fcst.map (·.drop d)) quantile.tail).getD i none) := by
    intro i s hs
    have ht : quantile.tail[i]? = some s := by rw [List.getElem?_tail]; exact hs
    refine hlook L hLn i ("exceed_" ++ s, (M.exceed target (fcst.map (·.drop d)) quantile.tail).getD i none) ?_
    rw [hL, List.getElem?_mapIdx, ht]
    rfl
  have hLn2 : ∀ k, (∀ i s, quantile[i + 1]? = some s → k ≠ "exceed_" ++ s) → L.lookup k = none := by
    intro k hk
    rw [List.lookup_eq_none_iff]
    intro p hp
    have : p.1 ∈ quantile.tail.map fun s => "exceed_" ++ s := by rw [← hkeys]; exact List.mem_map.2 ⟨p, hp, rfl⟩
    obtain ⟨s, hs, hps⟩ := List.mem_map.1 this
    obtain ⟨i, hi, hie⟩ := List.getElem_of_mem hs
    have := hk i s (by rw [← List.getElem?_tail, List.getElem?_eq_getElem hi, hie])
    rw [← hps]
    simpa using this
  have hlen3 : 1 < quantile.tail.length ↔ 3 ≤ quantile.length := by rw [List.length_tail]; omega
  have hsm : L.lookup "smape" = none := hLn2 _ fun _ s _ => (exceed_head s).1.symm
  have hsb : L.lookup "sbias" = none := hLn2 _ fun _ s _ => (exceed_head s).2.symm
  have key : ∀ (ns : List String) (acc : List (String × Option K)) (k : String),
      (ns.foldl (fun ans name =>
        if name = "smape" then gmPut ans ("smape", M.smape target (fcst.map (·.take d)))
        else if name = "sbias" then gmPut ans ("sbias", M.sbias target (fcst.map (·.take d)))
        else if name = "exceed" ∧ 1 < quantile.tail.length then gmUpdate ans (gmUpdate [] L)
        else ans) acc).lookup k =
      if k = "smape" then (if "smape" ∈ ns then some (M.smape target (fcst.map (·.take d))) else acc.lookup k)
      else if k = "sbias" then (if "sbias" ∈ ns then some (M.sbias target (fcst.map (·.take d))) else acc.lookup k)
      else if "exceed" ∈ ns ∧ 3 ≤ quantile.length then (L.lookup k).or (acc.lookup k) else acc.lookup k := by
    intro ns
    induction ns with
    | nil => intro acc k; simp
    | cons name ns ih =>
      intro acc k
      rw [List.foldl_cons, ih]
      by_cases n1 : name = "smape"
      · rw [if_pos n1, put_lookup, n1]
        by_cases k1 : k = "smape"
        · simp [k1]
        · simp [k1]
      · rw [if_neg n1]
        by_cases n2 : name = "sbias"
        · rw [if_pos n2, put_lookup, n2]
          by_cases k1 : k = "smape"
          · simp [k1]
          · by_cases k2 : k = "sbias"
            · simp [k2]
            · simp [k1, k2]
        · rw [if_neg n2]
          by_cases n3 : name = "exceed" ∧ 1 < quantile.tail.length
          · rw [if_pos n3, hLL, update_lookup L acc k hLn, n3.1]
            have h3 : 3 ≤ quantile.length := hlen3.1 n3.2
            by_cases k1 : k = "smape"
            · simp [k1, hsm]
            · by_cases k2 : k = "sbias"
              · simp [k2, hsb]
              · rw [if_neg k1, if_neg k2, if_neg k1, if_neg k2]
                rw [if_pos (show "exceed" ∈ "exceed" :: ns ∧ 3 ≤ quantile.length from ⟨by simp, h3⟩)]
                split
                · cases L.lookup k <;> simp
                · rfl
          · rw [if_neg n3]
            have e1 : ("smape" ∈ name :: ns) ↔ "smape" ∈ ns := by
              rw [List.mem_cons]
              exact ⟨fun h => h.resolve_left fun h => n1 h.symm, Or.inr⟩
            have e2 : ("sbias" ∈ name :: ns) ↔ "sbias" ∈ ns := by
              rw [List.mem_cons]
              exact ⟨fun h => h.resolve_left fun h => n2 h.symm, Or.inr⟩
            have e3 : ("exceed" ∈ name :: ns ∧ 3 ≤ quantile.length) ↔ ("exceed" ∈ ns ∧ 3 ≤ quantile.length) := by
              rw [List.mem_cons]
              constructor
              · rintro ⟨h | h, h3⟩
                · exact absurd ⟨h.symm, hlen3.2 h3⟩ n3
                · exact ⟨h, h3⟩
              · rintro ⟨h, h3⟩
                exact ⟨Or.inr h, h3⟩
            simp only [e1, e2, e3]
  have hfn : ∀ k, (gmValidFn M names quantile fcst target).lookup k =
      if k = "smape" then (if "smape" ∈ names then some (M.smape target (fcst.map (·.take d))) else none)
      else if k = "sbias" then (if "sbias" ∈ names then some (M.sbias target (fcst.map (·.take d))) else none)
      else if "exceed" ∈ names ∧ 3 ≤ quantile.length then (L.lookup k).or none else none := by
    intro k
    unfold gmValidFn
    simp only []
    rw [← hd, ← hL]
    exact key names [] k
  refine ⟨?_, ?_, ?_, ?_⟩
  · rw [hfn, if_pos rfl, ← hd]
  · rw [hfn, if_neg (by decide), if_pos rfl, ← hd]
  · intro i s hs
    rw [hfn, if_neg (exceed_head s).1, if_neg (exceed_head s).2, hLi i s hs, ← hd]
    simp
  · intro k k1 k2 k3
    rw [hfn, if_neg k1, if_neg k2, hLn2 k k3]
    simp

/-- C141 violated: with two quantiles nothing is given for the second, though it is asked for. -/
theorem C141_two_quantiles_violated (M : GmMetrics K) (a b : String) (fcst : List (List K))
    (target : List (List (Option K))) : gmValidFn M ["exceed"] [a, b] fcst target = [] := rfl

end

example : ["0.5", "0.05", "0.95"].Nodup ∧
    gmValidFn (⟨fun _ f => (f.headD []).head?, fun _ _ => some 3, fun _ f _ => (f.headD []).map some⟩ : GmMetrics Rat)
      ["exceed", "smape"] ["0.5", "0.05", "0.95"] [[10, 20, 30]] [[some 1]] =
      [("exceed_0.05", some 20), ("exceed_0.95", some 30), ("smape", some 10)] := by decide +kernel

/-! ## The schedule -/

/-- C141: with a value for epoch 0, every epoch uses the value of the last epoch up to it that has one. -/
theorem C141_schedule {α : Type} (d : List (Nat × α)) (v : α) (h : d.lookup 0 = some v) (epochs : Nat) :
    ∃ l, gmSchedule d epochs = .ok l ∧ l.length = epochs ∧
      ∀ (e : Nat) x, l[e]? = some x → ∃ k, k ≤ e ∧ d.lookup k = some x ∧ ∀ j, k < j → j ≤ e → d.lookup j = none := by
  have key : ∀ n, ∃ l y, (List.range n).foldl (fun (s : List α × α) e =>
      let v := (d.lookup e).getD s.2
      (s.1 ++ [v], v)) (([] : List α), v) = (l, y) ∧ l.length = n ∧
      (∀ (e : Nat) x, l[e]? = some x → ∃ k, k ≤ e ∧ d.lookup k = some x ∧ ∀ j, k < j → j ≤ e → d.lookup j = none) ∧
      ∃ k, (k < n ∨ k = 0) ∧ d.lookup k = some y ∧ ∀ j, k < j → j < n → d.lookup j = none := by
    intro n
    induction n with
    | zero => exact ⟨[], v, rfl, rfl, by simp, 0, Or.inr rfl, h, by omega⟩
    | succ n ih =>
      obtain ⟨l, y, h1, h2, h3, k, k1, k2, k3⟩ := ih
      rw [List.range_succ, List.foldl_append, h1]
      have hnew : ∃ k, k ≤ n ∧ d.lookup k = some ((d.lookup n).getD y) ∧ ∀ j, k < j → j ≤ n → d.lookup j = none := by
        rcases hn : d.lookup n with _ | z
        · refine ⟨k, by omega, k2, ?_⟩
          intro j hj hjn
          rcases Nat.lt_or_ge j n with hlt | hge
          · exact k3 j hj hlt
          · have : j = n := by omega
            rw [this, hn]
        · exact ⟨n, le_refl n, hn, by omega⟩
      obtain ⟨k', k1', k2', k3'⟩ := hnew
      refine ⟨_, _, rfl, by simp [h2], ?_, k', Or.inl (by omega), k2', fun j hj hjn => k3' j hj (by omega)⟩
      intro e x hx
      rw [append_get _ _ n e h2] at hx
      by_cases he : e < n
      · rw [if_pos he] at hx
        exact h3 e x hx
      · rw [if_neg he] at hx
        by_cases he2 : e = n
        · rw [if_pos he2] at hx
          injection hx with hx
          subst hx he2
          exact ⟨k', k1', k2', k3'⟩
        · rw [if_neg he2] at hx; cases hx
  obtain ⟨l, y, h1, h2, h3, _⟩ := key epochs
  refine ⟨l, ?_, h2, h3⟩
  unfold gmSchedule
  rw [h]
  simp only [h1]

/-- C141 violated: without a value for epoch 0 nothing is trained. -/
theorem C141_schedule_violated {α : Type} (d : List (Nat × α)) (h : d.lookup 0 = none) (epochs : Nat) :
    gmSchedule d epochs = .error .keyError := by
  unfold gmSchedule
  rw [h]

example : (gmSchedule [(0, 10), (2, 30), (3, 40)] 5).toOption = some [10, 10, 30, 40, 40] ∧
    (gmSchedule [(1, 10)] 5).toOption = none := by decide

/-- C141: without test series all epochs are trained in training mode. -/
theorem C141_modes (n : Nat) : gmEpochModes false n true = List.replicate n true := by
  induction n with
  | zero => rfl
  | succ n ih => rw [gmEpochModes, List.replicate_succ]; simp [ih]

/-- C141 violated: with test series all epochs but the first are trained in the mode for forecasts. -/
theorem C141_modes_violated (n : Nat) : gmEpochModes true (n + 1) true = true :: List.replicate n false := by
  have : ∀ n, gmEpochModes true n false = List.replicate n false := by
    intro n
    induction n with
    | zero => rfl
    | succ n ih => rw [gmEpochModes, List.replicate_succ]; simp [ih]
  rw [gmEpochModes]
  simp [this]

/-! ## The networks -/

section
variable {W H : Type}

/-- C141: a new model of a known type can neither forecast nor be saved; after `_initiate_nn` it can do both. -/
theorem C141_untrained (kind : String) (hk : kind = "rnn" ∨ kind = "s2s") (build : String → W) :
    gmSetMode false (⟨kind, none, none, none⟩ : GmNets W H) = .error .attributeError ∧
    gmSave (⟨kind, none, none, none⟩ : GmNets W H) = .error .attributeError ∧
    ∃ m, gmInitiate build (⟨kind, none, none, none⟩ : GmNets W H) = .ok m ∧
      (∃ m', gmSetMode false m = .ok m') ∧ (∃ s, gmSave m = .ok s) := by
  rcases hk with rfl | rfl
  · exact ⟨rfl, rfl, _, rfl, ⟨_, rfl⟩, ⟨_, rfl⟩⟩
  · exact ⟨rfl, rfl, _, rfl, ⟨_, rfl⟩, ⟨_, rfl⟩⟩

/-- C141: whatever networks a model has, after `_initiate_nn` all of its type are there, those that were all there before unchanged. -/
theorem C141_initiate (build : String → W) (m : GmNets W H) : (m.kind = "rnn" → ∃ m' n, gmInitiate build m = .ok m' ∧ m'.rnn = some n ∧
      (∀ k, m.rnn = some k → n = k)) ∧
    (m.kind = "s2s" → ∃ m' e d, gmInitiate build m = .ok m' ∧ m'.encoder = some e ∧ m'.decoder = some d ∧
      (∀ e' d', m.encoder = some e' → m.decoder = some d' → e = e' ∧ d = d')) := by
  obtain ⟨kind, rnn, dec, enc⟩ := m
  unfold gmInitiate
  refine ⟨?_, ?_⟩
  · intro hk
    simp only [] at hk ⊢
    rw [if_pos hk]
    rcases rnn with _ | n
    · exact ⟨_, _, rfl, rfl, fun k h => by cases h⟩
    · exact ⟨_, n, rfl, rfl, fun k h => by injection h⟩
  · intro hk
    simp only [] at hk ⊢
    rw [if_neg (by rw [hk]; decide), if_pos hk]
    rcases dec with _ | d
    · exact ⟨_, _, _, rfl, rfl, rfl, fun _ _ _ h => by cases h⟩
    · rcases enc with _ | e
      · exact ⟨_, _, _, rfl, rfl, rfl, fun _ _ h _ => by cases h⟩
      · exact ⟨_, e, d, rfl, rfl, rfl, fun _ _ h h' => ⟨by injection h, by injection h'⟩⟩

/-- C141: the mode is that of all networks of the type, of which nothing else changes. -/
theorem C141_mode (training : Bool) (m m' : GmNets W H) (h : gmSetMode training m = .ok m') : m'.kind = m.kind ∧
    (m.kind = "rnn" → ∃ n, m.rnn = some n ∧ m'.rnn = some { n with training := training }) ∧
    (m.kind = "s2s" → ∃ e d, m.encoder = some e ∧ m.decoder = some d ∧ m'.encoder = some { e with training := training } ∧
      m'.decoder = some { d with training := training }) := by
  obtain ⟨kind, rnn, dec, enc⟩ := m
  unfold gmSetMode at h
  simp only [] at h ⊢
  by_cases h1 : kind = "rnn"
  · subst h1
    rw [if_pos rfl] at h
    rcases rnn with _ | n
    · cases h
    · injection h with h
      subst h
      exact ⟨rfl, fun _ => ⟨n, rfl, rfl⟩, fun h => absurd h (by decide)⟩
  · rw [if_neg h1] at h
    by_cases h2 : kind = "s2s"
    · subst h2
      rw [if_pos rfl] at h
      rcases enc with _ | e
      · cases h
      rcases dec with _ | d
      · cases h
      injection h with h
      subst h
      exact ⟨rfl, fun h => absurd h (by decide), fun _ => ⟨e, d, rfl, rfl, rfl, rfl⟩⟩
    · rw [if_neg h2] at h
      cases h

/-- C141: a model that is saved and loaded has the same type and the networks of that type with the same weights,
without hidden states. -/
theorem C141_saved (m : GmNets W H) (s : GmSaved W) (h : gmSave m = .ok s) (fits : String → W → Bool)
    (hf : ∀ n, (m.rnn = some n → fits "rnn" n.weights = true) ∧ (m.encoder = some n → fits "encoder" n.weights = true) ∧
      (m.decoder = some n → fits "decoder" n.weights = true)) :
    ∃ m' : GmNets W H, gmLoad fits s = .ok m' ∧ m'.kind = m.kind ∧
      (m.kind = "rnn" → ∃ n, m.rnn = some n ∧ m'.rnn = some ⟨n.weights, true, none⟩) ∧
      (m.kind = "s2s" → ∃ e d, m.encoder = some e ∧ m.decoder = some d ∧
        m'.encoder = some ⟨e.weights, true, none⟩ ∧ m'.decoder = some ⟨d.weights, true, none⟩) ∧
      (m.kind = "rnn" ∨ m.kind = "s2s") := by
  obtain ⟨kind, rnn, dec, enc⟩ := m
  unfold gmSave gmReset at h
  simp only [] at h hf ⊢
  by_cases h1 : kind = "rnn"
  · subst h1
    rcases rnn with _ | n
    · cases h
    · have h' : Except.ok (GmSaved.mk "rnn" (some n.weights) (enc.map (·.weights)) (dec.map (·.weights))) = Except.ok s := h
      injection h' with h'
      subst h'
      refine ⟨⟨"rnn", some ⟨n.weights, true, none⟩, none, none⟩, ?_, rfl, fun _ => ⟨n, rfl, rfl⟩, ?_, Or.inl rfl⟩
      · unfold gmLoad gmLoadWeights
        simp only [if_pos]
        rw [if_pos ((hf n).1 rfl)]
        rfl
      · intro h2
        exact absurd h2 (by decide)
  · rw [if_neg h1] at h
    by_cases h2 : kind = "s2s"
    · subst h2
      rcases enc with _ | e
      · cases h
      · rcases dec with _ | d
        · cases h
        · have h' : Except.ok (GmSaved.mk "s2s" (rnn.map (·.weights)) (some e.weights) (some d.weights)) = Except.ok s := h
          injection h' with h'
          subst h'
          refine ⟨⟨"s2s", none, some ⟨d.weights, true, none⟩, some ⟨e.weights, true, none⟩⟩, ?_, rfl, ?_,
            fun _ => ⟨e, d, rfl, rfl, rfl, rfl⟩, Or.inr rfl⟩
          · unfold gmLoad gmLoadWeights
            rw [if_neg (show ("s2s" : String) ≠ "rnn" by decide), if_pos rfl]
            show ((if fits "encoder" e.weights = true then _ else _) >>= fun x =>
              ((if fits "decoder" d.weights = true then _ else _) >>= fun y => _)) = _
            rw [if_pos ((hf e).2.1 rfl), if_pos ((hf d).2.2 rfl)]
            rfl
          · intro h3
            exact absurd h3 (by decide)
    · rw [if_neg h2] at h
      cases h

/-- C141: what is loaded must have been saved by a model with networks: otherwise it is a ValueError. -/
theorem C141_load_refused (fits : String → W → Bool) (s : GmSaved W)
    (h : (s.kind = "rnn" ∧ s.state = none) ∨ (s.kind = "s2s" ∧ (s.encoder = none ∨ s.decoder = none))) :
    gmLoad fits s = (.error .valueError : Except Err (GmNets W H)) := by
  obtain ⟨kind, st, en, de⟩ := s
  simp only [] at h
  unfold gmLoad gmLoadWeights
  rcases h with ⟨rfl, rfl⟩ | ⟨rfl, rfl | rfl⟩
  · rfl
  · rfl
  · rw [if_neg (show ("s2s" : String) ≠ "rnn" by decide), if_pos rfl]
    rcases en with _ | e
    · rfl
    · show ((if fits "encoder" e = true then _ else _) >>= fun x => _) = _
      split <;> rfl

end

example : (gmSave (⟨"s2s", none, some ⟨2, true, some 7⟩, some ⟨1, true, none⟩⟩ : GmNets Nat Nat)).toOption.map
    (fun s => (s.encoder, s.decoder)) = some (some 1, some 2) := by decide

end Kats
