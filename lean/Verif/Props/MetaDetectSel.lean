import Verif.Props.MetaDetect

/-!
# C150: the readers of meta data and the selection of a detector
-/

namespace Kats

section
variable {K : Type} [Field K] [LinearOrder K]

/-! ## Another algorithm -/

/-- Seconds made days. -/
def meDay (p : MeParam K) : MeParam K := match p with
  | .inl v => .inl (v / 86400)
  | .inr s => .inr s

theorem me_down_param (down : List String) (ps qs : List (String × MeParam K)) (h : List.Forall₂ (MeDown down) ps qs) :
    qs.map (·.1) = ps.map (·.1) ∧ ∀ c, qs.lookup c = (ps.lookup c).map fun p => if c ∈ down then meDay p else p := by
  induction h with
  | nil => exact ⟨rfl, fun _ => rfl⟩
  | @cons p q ps qs hpq h ih =>
    obtain ⟨g1, g2, g3⟩ := hpq
    refine ⟨by rw [List.map_cons, List.map_cons, ih.1, g1], ?_⟩
    intro c
    rw [lookup_if, lookup_if, g1, ih.2 c]
    by_cases hc : c = p.1
    · rw [if_pos hc, if_pos hc]
      by_cases hk : c ∈ down
      · obtain ⟨v, e1, e2⟩ := g2 (by rw [← hc]; exact hk)
        rw [e1, e2, Option.map_some, if_pos hk]
        rfl
      · rw [g3 (by rw [← hc]; exact hk), Option.map_some, if_neg hk]
    · rw [if_neg hc, if_neg hc]

theorem me_down_lookup (down : List String) (h h' : MeHpt K) (hd : MeDownAll down h h') (a : String) (p : List (String × MeParam K) × K) (hp : h.lookup a = some p) :
    ∃ p', h'.lookup a = some p' ∧ List.Forall₂ (MeDown down) p.1 p'.1 := by
  unfold MeDownAll at hd
  induction hd with
  | nil => cases hp
  | @cons x y h h' hxy hd ih =>
    rw [lookup_if] at hp ⊢
    rw [hxy.1]
    by_cases hc : a = x.1
    · rw [if_pos hc] at hp ⊢
      injection hp with hp
      subst hp
      exact ⟨y.2, rfl, hxy.2.2⟩
    · rw [if_neg hc] at hp ⊢
      exact ih hp

/-- C150 violated: what is read for an algorithm should not depend on what was read before.  After reading the data for one algorithm, the same frame gives for each algorithm the windows in days, divided by 86400 once
more. -/
theorem C150_other_violated [IsStrictOrderedRing K] (down : List String) (rows : List (MeRow K)) (a b : String) (r : (List String × List (List (Option K))) × List (String × List (Option (MeParam K))))
    (rows' rows'' : List (MeRow K)) (x : List String × List (List (Option K))) (y : List (String × List (Option (MeParam K))))
    (h1 : meReader down rows a = .ok (r, rows')) (h2 : meReader down rows b = .ok ((x, y), rows'')) :
    ∃ rows3, meReader down rows' b = .ok ((x, y.map fun e => (e.1, if e.1 ∈ down then e.2.map fun v => v.map meDay else e.2)), rows3) := by
  unfold meReader at h1 h2 ⊢
  obtain ⟨t, ht, h1⟩ := (gm_bind_ok _ _ _).1 h1
  obtain ⟨_, _, h1⟩ := (gm_bind_ok _ _ _).1 h1
  injection h1 with h1
  injection h1 with _ h1
  rw [ht] at h2
  obtain ⟨_, e, h2⟩ := (gm_bind_ok _ _ _).1 h2
  injection e with e
  subst e
  obtain ⟨l, hl, h2⟩ := (gm_bind_ok _ _ _).1 h2
  injection h2 with h2
  injection h2 with h2 _
  injection h2 with h2 h3
  obtain ⟨t', ht', hd, _⟩ := C150_twice_violated down rows t ht
  have hf : List.Forall₂ (fun (e : MeHpt K × List (String × Option K) × String) p => e.1.lookup b = some p) t l :=
    (mapM_forall2 _ _ _ hl).imp fun _ _ h => (ms_needKey _ _).1 h
  have hl' : ∃ l', List.Forall₂ (fun (e : MeHpt K × List (String × Option K) × String) p => e.1.lookup b = some p) t' l' ∧
      List.Forall₂ (fun (p p' : List (String × MeParam K) × K) => List.Forall₂ (MeDown down) p.1 p'.1) l l' := by
    clear * - hd hf
    induction hd generalizing l with
    | nil =>
      cases hf
      exact ⟨[], .nil, .nil⟩
    | @cons e e' t t' hee hd ih =>
      rcases hf with _ | ⟨hep, hf⟩
      obtain ⟨l', g1, g2⟩ := ih _ hf
      obtain ⟨p', k1, k2⟩ := me_down_lookup down e.1 e'.1 hee.1 b _ hep
      exact ⟨p' :: l', .cons k1 g1, .cons k2 g2⟩
  obtain ⟨l', hf', hll⟩ := hl'
  have hm' : (t'.mapM fun r => needKey (r.1.lookup b)) = .ok l' := (me_mapM_iff _ _ _).2 (hf'.imp fun _ _ h => (ms_needKey _ _).2 h)
  have hfe : t'.map (·.2.1) = t.map (·.2.1) := by
    clear * - hd
    induction hd with
    | nil => rfl
    | @cons e e' t t' hee hd ih => rw [List.map_cons, List.map_cons, ih, hee.2]
  have hcols : meCols (l'.map (·.1)) = meCols (l.map (·.1)) := by
    unfold meCols
    congr 1
    clear * - hll
    induction hll with
    | nil => rfl
    | @cons p p' l l' hpp hll ih => rw [List.map_cons, List.map_cons, List.flatMap_cons, List.flatMap_cons, ih, (me_down_param down _ _ hpp).1]
  have hcell : ∀ c, (l'.map (·.1)).map (fun d => d.lookup c) = if c ∈ down then ((l.map (·.1)).map fun d => d.lookup c).map (fun v => v.map meDay) else
      (l.map (·.1)).map fun d => d.lookup c := by
    intro c
    clear * - hll
    induction hll with
    | nil => split <;> rfl
    | @cons p p' l l' hpp hll ih =>
      simp only [List.map_cons]
      rw [(me_down_param down _ _ hpp).2 c]
      by_cases hc : c ∈ down
      · rw [if_pos hc] at ih ⊢
        rw [ih]
        simp only [hc, if_true]
      · rw [if_neg hc] at ih ⊢
        rw [ih]
        simp only [hc, if_false, Option.map_id']
  rw [← h1]
  refine ⟨t'.map meRow, (gm_bind_ok _ _ _).2 ⟨t', ht', (gm_bind_ok _ _ _).2 ⟨l', hm', ?_⟩⟩⟩
  show Except.ok _ = Except.ok _
  rw [hfe, h2, hcols, ← h3, List.map_map]
  congr 4
  funext c
  simp only [Function.comp_apply]
  rw [hcell c]

/-! ## The synthetic data -/

/-- A row of the file as a row of raw data. -/
def meSynthRow (r : MeHpt K × List (String × Except Err (Option K))) : MeRow K := ⟨.dict r.1, .dict (r.2.map fun e => (e.1, .text e.2)), ""⟩

/-- C150, the part that holds: the tables of the synthetic data are those of the reader, if the same parameters are scaled. -/
theorem C150_synth_partial (rows : List (MeHpt K × List (String × Except Err (Option K)))) (hnd : ∀ r ∈ rows, (r.1.map (·.1)).Nodup) (a : String)
    (d : (List String × List (List (Option K))) × List (String × List (Option (MeParam K)))) (h : meSynth rows a = .ok d) :
    ∃ rows', meReader meSynthDown (rows.map meSynthRow) a = .ok (d, rows') := by
  unfold meSynth at h
  obtain ⟨f, hf, h⟩ := (gm_bind_ok _ _ _).1 h
  obtain ⟨y, hy, h⟩ := (gm_bind_ok _ _ _).1 h
  obtain ⟨p, hp, h⟩ := (gm_bind_ok _ _ _).1 h
  injection h with h
  have hyf := mapM_forall2 _ _ _ hy
  have hone : ∀ n q, meSynthOne meSynthDown (rows.map (·.1)) n = .ok q → q.1 = n ∧ List.Forall₂ (fun r ps => ∃ z, r.1.lookup n = some z ∧
      List.Forall₂ (MeDown meSynthDown) z.1 ps) rows q.2 := by
    intro n q hq
    unfold meSynthOne at hq
    obtain ⟨l, hl, hq⟩ := (gm_bind_ok _ _ _).1 hq
    injection hq with hq
    subst hq
    refine ⟨rfl, ?_⟩
    have := mapM_forall2 _ _ _ hl
    rw [List.forall₂_map_left_iff] at this
    refine this.imp ?_
    intro r ps hr
    obtain ⟨z, hz, hr⟩ := (gm_bind_ok _ _ _).1 hr
    refine ⟨z, (ms_needKey _ _).1 hz, ?_⟩
    exact ((me_mapM_iff _ _ _).1 hr).imp fun _ _ h => (me_scale _ _ _).1 h
  have hnames : ∀ n, (∃ r ∈ rows, n ∈ r.1.map (·.1)) → ∃ q : String × List (List (String × MeParam K)), meSynthOne meSynthDown (rows.map (·.1)) n = .ok q := by
    rintro n ⟨r, hr, hn⟩
    have hmem : n ∈ msClasses (rows.flatMap fun r => r.1.map (·.1)) := ((ms_classes _).2 n).2 (List.mem_flatMap.2 ⟨r, hr, hn⟩)
    obtain ⟨i, hi, rfl⟩ := List.mem_iff_getElem.1 hmem
    exact ⟨_, (List.forall₂_iff_get.1 hyf).2 i hi (by rw [← hyf.length_eq]; exact hi)⟩
  have hpa : meSynthOne meSynthDown (rows.map (·.1)) a = .ok (a, p) := by
    have hp' := (ms_needKey _ _).1 hp
    obtain ⟨ns, hns⟩ : ∃ ns, ns = msClasses (rows.flatMap fun r => r.1.map (·.1)) := ⟨_, rfl⟩
    rw [← hns] at hyf
    clear * - hp' hyf hone
    induction hyf with
    | nil => cases hp'
    | @cons n q ns qs hnq hyf ih =>
      rw [lookup_if] at hp'
      by_cases hc : a = q.1
      · rw [if_pos hc] at hp'
        injection hp' with hp'
        have := (hone n q hnq).1
        rw [hc, this, ← hp', hnq]
        congr 1
        exact Prod.ext this rfl
      · rw [if_neg hc] at hp'
        exact ih hp'
  have hap := (hone a _ hpa).2
  -- the table
  have hrow : ∀ r ∈ rows, ∃ h', MeDownAll meSynthDown r.1 h' := by
    intro r hr
    apply me_down_exists
    intro e he q hq hk
    obtain ⟨z, hz⟩ := hnames e.1 ⟨r, hr, List.mem_map.2 ⟨e, he, rfl⟩⟩
    obtain ⟨i, hi, rfl⟩ := List.mem_iff_getElem.1 hr
    have hzf := (hone _ _ hz).2
    obtain ⟨w, hw, hwd⟩ := (List.forall₂_iff_get.1 hzf).2 i hi (by rw [← hzf.length_eq]; exact hi)
    simp only [List.get_eq_getElem] at hw
    have hl : ∀ (l : List (String × List (String × MeParam K) × K)), (l.map (·.1)).Nodup → e ∈ l → l.lookup e.1 = some e.2 := by
      intro l
      induction l with
      | nil => intro _ h; cases h
      | cons x l ih =>
        intro hn hm
        rw [lookup_if]
        rw [List.map_cons, List.nodup_cons] at hn
        rcases List.mem_cons.1 hm with rfl | hm
        · rw [if_pos rfl]
        · rw [if_neg, ih hn.2 hm]
          intro h
          exact hn.1 (List.mem_map.2 ⟨e, hm, h⟩)
    rw [hl _ (hnd _ hr) he] at hw
    injection hw with hw
    subst hw
    obtain ⟨j, hj, rfl⟩ := List.mem_iff_getElem.1 hq
    have := (List.forall₂_iff_get.1 hwd).2 j hj (by rw [← hwd.length_eq]; exact hj)
    obtain ⟨v, hv, _⟩ := this.2.1 hk
    exact ⟨v, hv⟩
  have hff := mapM_forall2 _ _ _ hf
  have hex : ∃ t : List (MeHpt K × List (String × Option K) × String), List.Forall₂ (fun (r : MeHpt K × List (String × Except Err (Option K))) e =>
      MeDownAll meSynthDown r.1 e.1 ∧ e.2.2 = "") rows t ∧ t.map (·.2.1) = f := by
    clear * - hrow hff
    induction hff with
    | nil => exact ⟨[], .nil, rfl⟩
    | @cons r g rows f hrg hff ih =>
      obtain ⟨t, k1, k2⟩ := ih fun x hx => hrow x (List.mem_cons_of_mem _ hx)
      obtain ⟨h', hh⟩ := hrow r List.mem_cons_self
      exact ⟨(h', g, "") :: t, .cons ⟨hh, rfl⟩ k1, by rw [List.map_cons, k2]⟩
  obtain ⟨t, ht, htf⟩ := hex
  have hpre : mePre meSynthDown (rows.map meSynthRow) = .ok t := by
    rw [C150_pre, List.forall₂_map_left_iff]
    subst htf
    rw [List.forall₂_map_right_iff] at hff
    clear * - ht hff
    induction ht with
    | nil => exact .nil
    | @cons r e rows t hre ht ih =>
      rcases hff with _ | ⟨hrg, hff⟩
      refine .cons ⟨⟨r.1, Or.inl rfl, hre.1⟩, ⟨_, Or.inl rfl, ?_⟩, hre.2⟩ (ih hff)
      rw [List.forall₂_map_left_iff]
      refine (mapM_forall2 _ _ _ hrg).imp ?_
      intro x z hz
      obtain ⟨v, hv, hz⟩ := (gm_bind_ok _ _ _).1 hz
      injection hz with hz
      subst hz
      exact ⟨rfl, Or.inr (by rw [hv])⟩
  have hl : ∃ l : List (List (String × MeParam K) × K), List.Forall₂ (fun (e : MeHpt K × List (String × Option K) × String) q => e.1.lookup a = some q) t l ∧ l.map (·.1) = p := by
    clear * - ht hap
    simp only at hap
    induction ht generalizing p with
    | nil =>
      cases hap
      exact ⟨[], .nil, rfl⟩
    | @cons r e rows t hre ht ih =>
      rcases hap with _ | ⟨hrp, hap⟩
      obtain ⟨l, k1, k2⟩ := ih _ hap
      obtain ⟨z, hz, hzd⟩ := hrp
      obtain ⟨p', k3, k4⟩ := me_down_lookup _ _ _ hre.1 a z hz
      refine ⟨p' :: l, .cons k3 k1, ?_⟩
      rw [List.map_cons, k2]
      congr 1
      have u1 := (me_mapM_iff (meScale meSynthDown) _ _).2 (k4.imp fun _ _ h => (me_scale _ _ _).2 h)
      have u2 := (me_mapM_iff (meScale meSynthDown) _ _).2 (hzd.imp fun _ _ h => (me_scale _ _ _).2 h)
      rw [u1] at u2
      injection u2
  obtain ⟨l, hl1, hl2⟩ := hl
  have hm : (t.mapM fun r => needKey (r.1.lookup a)) = .ok l := (me_mapM_iff _ _ _).2 (hl1.imp fun _ _ h => (ms_needKey _ _).2 h)
  unfold meReader
  refine ⟨t.map meRow, (gm_bind_ok _ _ _).2 ⟨t, hpre, (gm_bind_ok _ _ _).2 ⟨l, hm, ?_⟩⟩⟩
  show Except.ok _ = Except.ok _
  rw [htf, hl2, h]

/-- C150 violated: the data of an algorithm should be there if all rows have it.  If some other algorithm is in one row and not in another, the synthetic data give none for any algorithm, unlike the reader. -/
theorem C150_synth_violated (rows : List (MeHpt K × List (String × Except Err (Option K)))) (n : String) (r r' : MeHpt K × List (String × Except Err (Option K)))
    (hr : r ∈ rows) (hr' : r' ∈ rows) (hn : n ∈ r.1.map (·.1)) (hn' : r'.1.lookup n = none) (a : String)
    (d : (List String × List (List (Option K))) × List (String × List (Option (MeParam K)))) : meSynth rows a ≠ .ok d := by
  intro h
  unfold meSynth at h
  obtain ⟨f, hf, h⟩ := (gm_bind_ok _ _ _).1 h
  obtain ⟨y, hy, h⟩ := (gm_bind_ok _ _ _).1 h
  have hyf := mapM_forall2 _ _ _ hy
  have hmem : n ∈ msClasses (rows.flatMap fun r => r.1.map (·.1)) := ((ms_classes _).2 n).2 (List.mem_flatMap.2 ⟨r, hr, hn⟩)
  obtain ⟨i, hi, rfl⟩ := List.mem_iff_getElem.1 hmem
  have hq := (List.forall₂_iff_get.1 hyf).2 i hi (by rw [← hyf.length_eq]; exact hi)
  simp only [List.get_eq_getElem] at hq
  unfold meSynthOne at hq
  obtain ⟨l, hl, hq⟩ := (gm_bind_ok _ _ _).1 hq
  have := mapM_forall2 _ _ _ hl
  rw [List.forall₂_map_left_iff] at this
  obtain ⟨j, hj, rfl⟩ := List.mem_iff_getElem.1 hr'
  have := (List.forall₂_iff_get.1 this).2 j hj (by rw [← this.length_eq]; exact hj)
  simp only [List.get_eq_getElem] at this
  rw [hn'] at this
  cases this

/-- C150 violated: the two readers should give the same parameters.  The synthetic data have `n_control` and `n_test` in days, the reader as it is by default has them as they were. -/
theorem C150_windows_violated : ∃ rows : List (MeHpt Rat × List (String × Except Err (Option Rat))),
    ((meSynth rows "statsig").toOption.map (·.2)) = some [("n_control", [some (Sum.inl 7)])] ∧
    ((meReader meDown (rows.map meSynthRow) "statsig").toOption.map (·.1.2)) = some [("n_control", [some (Sum.inl 604800)])] := by
  refine ⟨[([("statsig", [("n_control", Sum.inl 604800)], 1)], [])], ?_, ?_⟩ <;> decide +kernel

/-! ## The selection -/

/-- C150: meta data are accepted exactly if they are a frame with more than 30 rows and the three columns. -/
theorem C150_init (df : Option (MeFrame K)) (down : List String) : (∃ o, meInit df down = .ok o) ↔
    ∃ f, df = some f ∧ 30 < f.rows.length ∧ "hpt_res" ∈ f.cols ∧ "features" ∈ f.cols ∧ "best_model" ∈ f.cols := by
  unfold meInit
  rcases df with _ | f
  · simp
  · simp only [Option.some.injEq, exists_eq_left']
    by_cases h : f.rows.length ≤ 30
    · rw [if_pos h]
      constructor
      · rintro ⟨o, h⟩
        cases h
      · rintro ⟨h', _⟩
        omega
    · rw [if_neg h]
      constructor
      · rintro ⟨o, ho⟩
        split at ho
        · cases ho
        · rename_i hc
          rw [not_not] at hc
          exact ⟨by omega, hc _ (by simp), hc _ (by simp), hc _ (by simp)⟩
      · rintro ⟨_, h1, h2, h3⟩
        rw [if_neg]
        · exact ⟨_, rfl⟩
        · rw [not_not]
          intro c hc
          simp only [List.mem_cons, List.not_mem_nil, or_false] at hc
          rcases hc with rfl | rfl | rfl <;> assumption

/-- C150: after a successful training there are the classifier and the results of `MetaLearnModelSelect` for the table; its labels are the best models, its errors those of the searches, its rows the features. -/
theorem C150_train (std : List K → K) (fit : String → List (List K) → List String → Except Err (MsClf K)) (perm : List Nat) (o o' : MeSel K) (method evalMethod : String)
    (testSize : Rat) (rep : MsReport K) (h : meTrain std fit perm o method evalMethod testSize = (o', .ok rep)) :
    ∃ t s clf, mePre o.down o.df.rows = .ok t ∧ o' = ⟨⟨o.df.cols, t.map meRow⟩, some rep, some (some (s, some clf)), o.down⟩ ∧
      msInit std (some (t.map meEntry)) false = .ok (some s) ∧ msTrain fit perm s method evalMethod testSize = .ok (clf, rep) ∧
      s.y = t.map (·.2.2) ∧ s.hpt = t.map (fun e => e.1.map fun a => (a.1, a.2.2)) ∧ s.scale = false ∧
      ∃ e0, t.head? = some e0 ∧ (∀ e ∈ t, e.2.1.length ≤ e0.2.1.length) ∧
        s.x = t.map fun e => (List.range e0.2.1.length).map fun j => ((e.2.1.map (·.2))[j]?.join).getD 0 := by
  unfold meTrain at h
  rcases hp : mePre o.down o.df.rows with e | t
  · rw [hp] at h
    injection h with _ h
    cases h
  rw [hp] at h
  simp only [] at h
  rcases hi : msInit std (some (t.map meEntry)) false with e | s
  · rw [hi] at h
    injection h with _ h
    cases h
  rw [hi] at h
  rcases s with _ | s
  · injection h with _ h
    cases h
  simp only [] at h
  rcases ht : msTrain fit perm s method evalMethod testSize with e | r
  · rw [ht] at h
    injection h with _ h
    cases h
  rw [ht] at h
  injection h with h1 h2
  injection h2 with h2
  subst h2
  obtain ⟨_, rows, f0, hr, ⟨e0, he0, hf0⟩, hmax, _, _, hh, hy, hsc, hx, _⟩ := (C147_init std _ s).1 hi
  have hrows : rows = t.map fun e => (e.1.map (fun a => (a.1, a.2.2)), e.2.1, e.2.2) := by
    rw [List.forall₂_map_left_iff] at hr
    clear * - hr
    induction hr with
    | nil => rfl
    | @cons e r t rows her hr ih =>
      rw [List.map_cons, ih]
      congr 1
      obtain ⟨a, b, c⟩ := her
      simp only [meEntry, Option.some.injEq, MsRaw.dict.injEq, reduceCtorEq, or_false] at a b c
      exact Prod.ext a.symm (Prod.ext b.symm c.symm)
  rw [List.head?_map] at he0
  obtain ⟨e1, he1, he2⟩ := Option.map_eq_some_iff.1 he0
  have hfe : e1.2.1 = f0 := by
    rw [← he2] at hf0
    simpa [meEntry] using hf0
  refine ⟨t, s, r.1, rfl, h1.symm, hi, ht, ?_, ?_, hsc, e1, he1, ?_, ?_⟩
  · rw [hy, hrows, List.map_map]
    rfl
  · rw [hh, hrows, List.map_map]
    rfl
  · intro e he
    rw [hfe]
    have := hmax (e.1.map (fun a => (a.1, a.2.2)), e.2.1, e.2.2) (by rw [hrows]; exact List.mem_map.2 ⟨e, he, rfl⟩)
    exact this
  · rw [hx, hrows, List.map_map, hfe]
    rfl

/-- Rows of a frame whose dictionaries have the same names in the same order. -/
theorem me_rows_same (l : List (List (String × Option K))) (hl : l ≠ []) (names : List String) (hn : names.Nodup) (hs : ∀ d ∈ l, d.map (·.1) = names) :
    meRows l = l.map fun d => d.map (·.2) := by
  have hc : meCols l = names := by
    unfold meCols
    have : (l.flatMap fun d => d.map (·.1)) = (List.replicate (l.length - 1 + 1) names).flatten := by
      rw [Nat.sub_add_cancel (List.length_pos_iff.2 hl)]
      clear hl
      induction l with
      | nil => rfl
      | cons d l ih =>
        rw [List.flatMap_cons, ih fun x hx => hs x (List.mem_cons_of_mem _ hx), hs d List.mem_cons_self, List.length_cons, List.replicate_succ, List.flatten_cons]
    rw [this]
    exact ms_classes_same names hn _
  unfold meRows
  rw [hc]
  apply List.map_congr_left
  intro d hd
  have h1 := hs d hd
  rw [← h1] at hn ⊢
  clear * - hn
  rw [List.map_map]
  have key : ∀ (d d' : List (String × Option K)), (d'.map (·.1)).Nodup → d <+: d' ∨ d.Sublist d' → ∀ e ∈ d, (d'.lookup e.1) = some e.2 := by
    intro d d' hn hsub e he
    have he' : e ∈ d' := by
      rcases hsub with h | h
      · exact h.subset he
      · exact h.subset he
    clear hsub he
    induction d' with
    | nil => cases he'
    | cons x l ih =>
      rw [List.map_cons, List.nodup_cons] at hn
      rw [lookup_if]
      rcases List.mem_cons.1 he' with rfl | hm
      · rw [if_pos rfl]
      · rw [if_neg, ih hn.2 hm]
        intro h
        exact hn.1 (List.mem_map.2 ⟨e, hm, h⟩)
  apply List.map_congr_left
  intro e he
  simp only [Function.comp_apply]
  rw [key d d hn (Or.inr (List.Sublist.refl _)) e he]
  rfl

theorem me_pred_rows (s : Ms K) (hs : s.scale = false) (clf : MsClf K) (l : List (List (Option K))) (hl : l ≠ []) (n : Nat) (hn : ∀ r ∈ l, r.length = n) :
    (do let r ← msPredBy (some (s, some clf)) (.rows l) 1
        meNames r) = (l.map fun r => r.map fun v => v.getD 0).mapM clf.predict := by
  have hsc : l.mapM (msScaleRow s) = .ok l := by
    rw [me_mapM_iff]
    refine List.forall₂_same.2 ?_
    intro r _
    unfold msScaleRow
    rw [hs]
    rfl
  have hc : ¬ (l = [] ∨ ¬ ∀ r ∈ l, r.length = (l.headD []).length) := by
    rw [not_or, not_not]
    refine ⟨hl, fun r hr => ?_⟩
    rw [hn r hr]
    rcases l with _ | ⟨a, l⟩
    · exact absurd rfl hl
    · exact (hn a List.mem_cons_self).symm
  have he : msPredBy (some (s, some clf)) (.rows l) 1 = ((l.map fun r => r.map fun v => v.getD 0).mapM clf.predict).map Sum.inl := by
    unfold msPredBy
    show (if l = [] ∨ ¬ (∀ r ∈ l, r.length = (l.headD []).length) then Except.error Err.valueError else _) = _
    rw [if_neg hc]
    simp only [hsc]
    show ((l.map fun r => r.map fun v => v.getD 0).mapM clf.predict >>= _) = _
    rcases (l.map fun r => r.map fun v => v.getD 0).mapM clf.predict with e | p
    · rfl
    · rfl
  rw [he]
  obtain ⟨z, hz⟩ : ∃ z, z = (l.map fun r => r.map fun v => v.getD 0).mapM clf.predict := ⟨_, rfl⟩
  rw [← hz]
  rcases z with e | p
  · rfl
  · rfl

/-- Features of the table are read as they are. -/
theorem me_features (t : List (MeHpt K × List (String × Option K) × String)) : meFeatures ((t.map meRow).map (·.features)) = .ok (meRows (t.map (·.2.1))) := by
  have h1 : ((t.map meRow).map (·.features)).mapM MeCell.read = .ok (t.map fun e => some (e.2.1.map fun a => (a.1, MeVal.num a.2))) := by
    rw [me_mapM_iff, List.map_map, List.forall₂_map_left_iff, List.forall₂_map_right_iff]
    exact List.forall₂_same.2 fun e _ => rfl
  have h2 : (t.map fun e => some (e.2.1.map fun a => (a.1, MeVal.num a.2))).mapM meFloats = .ok (t.map (·.2.1)) := by
    rw [me_mapM_iff, List.forall₂_map_left_iff, List.forall₂_map_right_iff]
    refine List.forall₂_same.2 ?_
    intro e _
    rw [me_floats]
    refine ⟨_, rfl, ?_⟩
    rw [List.forall₂_map_left_iff]
    exact List.forall₂_same.2 fun a _ => ⟨rfl, Or.inl rfl⟩
  unfold meFeatures
  exact (gm_bind_ok _ _ _).2 ⟨_, h1, (gm_bind_ok _ _ _).2 ⟨_, h2, rfl⟩⟩

/-- C150, the part that holds: if the features of all rows have the same names in the same order, the fitted labels are those of the classifier for the rows it was trained or tested with; `pred_by_feature` gives the same for them. -/
theorem C150_fit_partial (std : List K → K) (fit : String → List (List K) → List String → Except Err (MsClf K)) (perm : List Nat) (o o' : MeSel K) (method evalMethod : String)
    (testSize : Rat) (rep : MsReport K) (h : meTrain std fit perm o method evalMethod testSize = (o', .ok rep)) (names : List String) (hn : names.Nodup)
    (hs : ∀ t, mePre o.down o.df.rows = .ok t → ∀ e ∈ t, e.2.1.map (·.1) = names) :
    ∃ s clf, o'.mlms = some (some (s, some clf)) ∧ meFit o' = s.x.mapM clf.predict ∧ mePredBy o' (o'.df.rows.map (·.features)) = s.x.mapM clf.predict := by
  obtain ⟨t, s, clf, ht, ho, hi, _, hy, _, hsc, e0, he0, _, hx⟩ := C150_train std fit perm o o' method evalMethod testSize rep h
  have hs' := hs t ht
  have hne : t ≠ [] := by
    intro h
    rw [h] at he0
    cases he0
  have hlen : ∀ e ∈ t, (e.2.1.map (·.2)).length = names.length := by
    intro e he
    rw [List.length_map, ← hs' e he, List.length_map]
  have hrows : meRows (t.map (·.2.1)) = t.map fun e => e.2.1.map (·.2) := by
    rw [me_rows_same (t.map (·.2.1)) (by simpa using hne) names hn (fun d hd => by
      obtain ⟨e, he, rfl⟩ := List.mem_map.1 hd
      exact hs' e he), List.map_map]
    rfl
  have hxx : (meRows (t.map (·.2.1))).map (fun r => r.map fun v => v.getD 0) = s.x := by
    rw [hrows, hx, List.map_map]
    apply List.map_congr_left
    intro e he
    have hl0 : e0.2.1.length = (e.2.1.map (·.2)).length := by
      rw [hlen e he, ← hs' e0 (List.mem_of_mem_head? he0), List.length_map]
    rw [hl0]
    simp only [Function.comp_apply]
    apply List.ext_getElem
    · simp
    · intro j h1 h2
      simp only [List.getElem_map, List.getElem_range]
      rw [List.getElem?_eq_getElem (by simpa using h1)]
      simp
  have hp := me_pred_rows s hsc clf (meRows (t.map (·.2.1))) (by rw [hrows]; simpa using hne) names.length (by
    rw [hrows]
    intro r hr
    obtain ⟨e, he, rfl⟩ := List.mem_map.1 hr
    exact hlen e he)
  rw [hxx] at hp
  subst ho
  refine ⟨s, clf, rfl, ?_, ?_⟩
  · unfold meFit
    simp only [me_features]
    exact hp
  · unfold mePredBy
    simp only [me_features]
    exact hp

/-- C150: a series gets the label of the classifier for the row of its features, rounded, zero for what is missing. -/
theorem C150_predict (round : K → K) (features : List GmFlt → List (String × Option K)) (o : MeSel K) (s : Ms K) (hs : s.scale = false) (clf : MsClf K) (ho : o.mlms = some (some (s, some clf)))
    (values : List GmFlt) (hn : ((features values).map (·.1)).Nodup) (c : String) : mePredict round features o values = .ok c ↔
      clf.predict ((features values).map fun e => (e.2.map round).getD 0) = .ok c := by
  obtain ⟨f, hf⟩ : ∃ f, f = (features values).map fun e => (e.1, e.2.map round) := ⟨_, rfl⟩
  have hr : meRows [f] = [f.map (·.2)] := by
    rw [me_rows_same [f] (by simp) (f.map (·.1)) (by
      rw [hf, List.map_map]
      exact hn) (by simp)]
    rfl
  have hp := me_pred_rows s hs clf (meRows [f]) (by rw [hr]; simp) f.length (by rw [hr]; simp)
  unfold mePredict
  simp only [ho, ← hf]
  have hrow : (meRows [f]).map (fun r => r.map fun v => v.getD 0) = [(features values).map fun e => (e.2.map round).getD 0] := by
    rw [hr, hf]
    simp
  rw [hrow] at hp
  rw [List.mapM_cons, List.mapM_nil] at hp
  obtain ⟨z, hz⟩ : ∃ z, z = clf.predict ((features values).map fun e => (e.2.map round).getD 0) := ⟨_, rfl⟩
  rw [← hz] at hp ⊢
  obtain ⟨r, hm⟩ : ∃ r, r = msPredBy (some (s, some clf)) (.rows (meRows [f])) 1 := ⟨_, rfl⟩
  rw [← hm] at hp ⊢
  clear hm hz
  rcases r with e | r
  · rcases z with e' | p
    · exact ⟨fun h => (by cases h), fun h => (by cases h)⟩
    · cases hp
  · have hp : meNames r = _ := hp
    show (meNames r >>= _) = _ ↔ _
    rw [hp]
    rcases z with e' | p
    · exact ⟨fun h => (by cases h), fun h => (by cases h)⟩
    · exact Iff.rfl

/-- C150 violated: without results the report should train first.  The results are an empty dictionary, never None, so there is a `KeyError`. -/
theorem C150_report_violated (df : Option (MeFrame K)) (down : List String) (o : MeSel K) (h : meInit df down = .ok o) : meReport o = .error .keyError := by
  unfold meInit at h
  rcases df with _ | f
  · cases h
  · simp only [] at h
    split at h
    · cases h
    split at h
    · cases h
    injection h with h
    subst h
    rfl

/-- C150: after a successful training the report has the errors on the two parts; on an object without training there are no labels, and `meInit` has refused other data with a `ValueError`. -/
theorem C150_report (std : List K → K) (fit : String → List (List K) → List String → Except Err (MsClf K)) (perm : List Nat) (o o' : MeSel K) (method evalMethod : String)
    (testSize : Rat) (rep : MsReport K) (h : meTrain std fit perm o method evalMethod testSize = (o', .ok rep)) (df : Option (MeFrame K)) (down : List String) :
    meReport o' = .ok [("fit_error", rep.fit), ("pred_error", rep.pred)] ∧
    (∀ e, meInit df down = .error e → e = .valueError) ∧
    ∀ o, meInit df down = .ok o → df = some o.df ∧ o.down = down ∧ ∀ (round : K → K) (features : List GmFlt → List (String × Option K)) (values : List GmFlt) (l : List (MeCell (List (String × MeVal K)))) (c : String) (r : List String),
      mePredict round features o values = .error .valueError ∧ mePredict round features o values ≠ .ok c ∧ meFit o ≠ .ok r ∧ mePredBy o l ≠ .ok r := by
  obtain ⟨_, _, _, _, ho, _⟩ := C150_train std fit perm o o' method evalMethod testSize rep h
  refine ⟨by rw [ho]; rfl, ?_, ?_⟩
  · intro e h
    unfold meInit at h
    split at h
    · injection h with h
      exact h.symm
    split at h
    · injection h with h
      exact h.symm
    split at h
    · injection h with h
      exact h.symm
    cases h
  · intro o h
    unfold meInit at h
    split at h
    · cases h
    split at h
    · cases h
    split at h
    · cases h
    injection h with h
    subst h
    refine ⟨rfl, rfl, fun round features values l c r => ⟨rfl, (fun h => by cases h), fun h => ?_, fun h => ?_⟩⟩
    · obtain ⟨_, _, h⟩ := (gm_bind_ok _ _ _).1 h
      cases h
    · obtain ⟨_, _, h⟩ := (gm_bind_ok _ _ _).1 h
      cases h

/-- C150: training again with the same arguments gives the same results, though the windows in the frame are divided once more. -/
theorem C150_retrain [IsStrictOrderedRing K] (std : List K → K) (fit : String → List (List K) → List String → Except Err (MsClf K)) (perm : List Nat) (o o' : MeSel K) (method evalMethod : String)
    (testSize : Rat) (rep : MsReport K) (h : meTrain std fit perm o method evalMethod testSize = (o', .ok rep)) :
    ∃ o'' t t', meTrain std fit perm o' method evalMethod testSize = (o'', .ok rep) ∧ o''.mlms = o'.mlms ∧ o'.df.rows = t.map meRow ∧ o''.df.rows = t'.map meRow ∧
      List.Forall₂ (fun e e' => MeDownAll o.down e.1 e'.1 ∧ e'.2 = e.2) t t' := by
  obtain ⟨t, s, clf, ht, ho, hi, htr, _⟩ := C150_train std fit perm o o' method evalMethod testSize rep h
  obtain ⟨t', ht', hd, _⟩ := C150_twice_violated o.down o.df.rows t ht
  have hen : t'.map meEntry = t.map meEntry := by
    clear * - hd
    induction hd with
    | nil => rfl
    | @cons e e' t t' hee hd ih =>
      rw [List.map_cons, List.map_cons, ih]
      congr 1
      unfold meEntry
      rw [hee.2]
      congr 3
      have := hee.1
      unfold MeDownAll at this
      obtain ⟨e1, e2⟩ := e
      obtain ⟨e1', e2'⟩ := e'
      simp only at this ⊢
      clear * - this
      induction this with
      | nil => rfl
      | @cons a b h h' hab hd ih => rw [List.map_cons, List.map_cons, ih, hab.1, hab.2.1]
  subst ho
  refine ⟨⟨⟨o.df.cols, t'.map meRow⟩, some rep, some (some (s, some clf)), o.down⟩, t, t', ?_, rfl, rfl, rfl, hd⟩
  unfold meTrain
  simp only [ht', hen, hi, htr]

end

/-- Two rows with the features in different orders, and the windows in seconds; the others for the number. -/
def meDemo : List (MeRow Rat) :=
  ⟨.dict [("cusum", [("scan_window", .inl 86400), ("score_func", .inr "change")], 1), ("statsig", [("n_control", .inl 7)], 3)],
    .dict [("level", .num (some 1)), ("trend", .text (.ok (some 2)))], "cusum"⟩ ::
  ⟨.text (some [("cusum", [("scan_window", .inl 172800), ("score_func", .inr "level")], 4), ("statsig", [("n_control", .inl 9)], 2)]),
    .dict [("trend", .num (some 2)), ("level", .num (some 1))], "statsig"⟩ ::
  List.replicate 29 ⟨.dict [("cusum", [("scan_window", .inl 86400), ("score_func", .inr "change")], 1), ("statsig", [("n_control", .inl 7)], 3)],
    .dict [("level", .num (some 1)), ("trend", .num none)], "cusum"⟩

/-- A classifier that looks at the first number. -/
def meDemoFit : String → List (List Rat) → List String → Except Err (MsClf Rat) :=
  fun _ _ _ => .ok ⟨fun r => .ok (if r.getD 0 0 = 1 then "cusum" else "statsig"), fun _ => .ok [], [], none⟩

/-- The object after training with the rows above. -/
def meDemoTrained : MeSel Rat × Except Err (MsReport Rat) :=
  meTrain (fun _ => 1) meDemoFit (List.range 31) ⟨⟨["hpt_res", "features", "best_model"], meDemo⟩, none, none, meDown⟩ "KNN" "mean" (1 / 5)

/-- C150 violated: the fitted labels should be those of the rows that were trained or tested with.  Those rows have the features in the order of each dictionary, the fitted ones have them by their names: the second row, right in
training, gets the wrong label. -/
theorem C150_fit_violated : meDemoTrained.2.toOption.isSome = true ∧
    (meDemoTrained.1.mlms.map fun m => m.map fun e => e.1.y.take 3) = some (some ["cusum", "statsig", "cusum"]) ∧
    (meDemoTrained.1.mlms.map fun m => m.map fun e => e.2.map fun c => ((e.1.x.take 3).mapM c.predict).toOption) = some (some (some (some ["cusum", "statsig", "cusum"]))) ∧
    ((meFit meDemoTrained.1).toOption.map fun l => l.take 3) = some ["cusum", "cusum", "cusum"] := by
  refine ⟨?_, ?_, ?_, ?_⟩ <;> decide +kernel

/-- The first read of an algorithm is as it should be; after it the windows are divided twice. -/
example : ((meReader meDown (meDemo.take 2) "cusum").toOption.map fun r => r.1.1) = some (["level", "trend"], [[some 1, some 2], [some 1, some 2]]) ∧
    ((meReader meDown (meDemo.take 2) "cusum").toOption.map fun r => r.1.2) =
      some [("scan_window", [some (Sum.inl 1), some (Sum.inl 2)]), ("score_func", [some (Sum.inr "change"), some (Sum.inr "level")])] ∧
    ((meReader meDown (meDemo.take 2) "statsig").toOption.bind fun r => (meReader meDown r.2 "cusum").toOption.map fun r => r.1.2.head?) =
      some (some ("scan_window", [some (Sum.inl (1 / 86400)), some (Sum.inl (2 / 86400))])) := by
  refine ⟨?_, ?_, ?_⟩ <;> decide +kernel

/-- Synthetic data with the parameters of one algorithm in all rows; and with another in one row only. -/
example : ((meSynth [([("cusum", [("scan_window", .inl 86400)], (1 : Rat))], [("level", .ok (some 1))]), ([("cusum", [("scan_window", .inl 172800)], 1)], [("level", .ok none)])]
      "cusum").toOption.map (·.2) = some [("scan_window", [some (.inl 1), some (.inl 2)])]) ∧
    ((meSynth [([("cusum", [("scan_window", .inl 86400)], (1 : Rat)), ("statsig", [], 1)], [("level", .ok (some 1))]), ([("cusum", [("scan_window", .inl 172800)], 1)], [("level", .ok none)])]
      "cusum").toOption.isNone = true) := by
  refine ⟨?_, ?_⟩ <;> decide +kernel

/-- Rows that are accepted, and those with equal names that the fitted labels are right for. -/
example : (∃ o, meInit (some ⟨["hpt_res", "features", "best_model"], meDemo⟩) meDown = .ok o) ∧
    ((meTrain (fun _ => 1) meDemoFit (List.range 31) ⟨⟨["hpt_res", "features", "best_model"], meDemo.map fun r => { r with features := .dict [("level", .num (some (if r.best = "cusum" then 1 else 2)))] }⟩,
      none, none, meDown⟩ "KNN" "mean" (1 / 5)).2.toOption.map (·.pred)) = some [("meta-learn", 8 / 7), ("cusum", 10 / 7), ("statsig", 20 / 7)] := by
  refine ⟨(C150_init _ _).2 ⟨_, rfl, by decide +kernel, by decide, by decide, by decide⟩, ?_⟩
  decide +kernel

end Kats
