import Verif.Props.GmBtEval

/-!
# C145: the run of a backtest of global models
-/

namespace Kats

theorem bt_lookup_if {β : Type} (x : Int) (y : β) (d : List (Int × β)) (k : Int) :
    ((x, y) :: d).lookup k = if k = x then some y else d.lookup k := by
  rw [List.lookup_cons]
  by_cases h : k = x
  · have : (k == x) = true := by simpa using h
    rw [if_pos h]
    simp only [this]
  · have : (k == x) = false := by simpa using h
    simp only [this, h, if_false]

theorem bt_put_lookup {β : Type} (d : List (Int × β)) (e : Int × β) (k : Int) :
    (gmPut d e).lookup k = if k = e.1 then some e.2 else d.lookup k := by
  have happ : ∀ d : List (Int × β), e.1 ∉ d.map (·.1) → (d ++ [e]).lookup k = if k = e.1 then some e.2 else d.lookup k := by
    intro d
    induction d with
    | nil => intro _; rw [List.nil_append, bt_lookup_if]
    | cons a d ih =>
      intro h
      rw [List.map_cons, List.mem_cons, not_or] at h
      rw [List.cons_append, bt_lookup_if, bt_lookup_if, ih h.2]
      by_cases hk : k = a.1
      · rw [if_pos hk, if_pos hk, if_neg (by rw [hk]; exact fun h' => h.1 h'.symm)]
      · rw [if_neg hk, if_neg hk]
  have hmap : ∀ d : List (Int × β), (d.map fun x => if x.1 = e.1 then e else x).lookup k =
      if k = e.1 then (if e.1 ∈ d.map (·.1) then some e.2 else none) else d.lookup k := by
    intro d
    induction d with
    | nil => simp
    | cons a d ih =>
      rw [List.map_cons, bt_lookup_if a.1 a.2]
      by_cases ha : a.1 = e.1
      · rw [if_pos ha, bt_lookup_if, ih]
        by_cases hk : k = e.1
        · rw [if_pos hk, if_pos hk, if_pos (by simp [ha])]
        · rw [if_neg hk, if_neg hk, if_neg hk, if_neg (by rw [ha]; exact hk)]
      · rw [if_neg ha, bt_lookup_if a.1 a.2, ih]
        by_cases hk : k = a.1
        · rw [if_pos hk, if_neg (by rw [hk]; exact ha), if_pos hk]
        · rw [if_neg hk, if_neg hk]
          have : e.1 ∈ (a :: d).map (·.1) ↔ e.1 ∈ d.map (·.1) := by
            rw [List.map_cons, List.mem_cons]
            exact ⟨fun h => h.resolve_left fun h => ha h.symm, Or.inr⟩
          simp only [this]
  unfold gmPut
  by_cases hm : e.1 ∈ d.map (·.1)
  · rw [if_pos hm, hmap, if_pos hm]
  · rw [if_neg hm, happ d hm]

theorem bt_fresh_lookup (B : GmBt) (bt : Int) (h : bt ∈ B.times) :
    (gmBtFresh B).lookup bt = some (List.replicate (B.replicate * B.splits) []) := by
  unfold gmBtFresh
  obtain ⟨c, hc⟩ : ∃ c : List (List GmSet), c = List.replicate (B.replicate * B.splits) [] := ⟨_, rfl⟩
  rw [← hc]
  have : ∀ (l : List Int) (d : List (Int × List (List GmSet))), (bt ∈ l ∨ d.lookup bt = some c) →
      (gmUpdate d (l.map fun t => (t, c))).lookup bt = some c := by
    intro l
    induction l with
    | nil =>
      intro d hd
      rcases hd with hd | hd
      · simp at hd
      · exact hd
    | cons a l ih =>
      intro d hd
      show (gmUpdate (gmPut d (a, c)) (l.map fun t => (t, c))).lookup bt = some c
      apply ih
      rw [bt_put_lookup]
      by_cases ha : bt = a
      · right; rw [if_pos ha]
      · rcases hd with hd | hd
        · left
          exact (List.mem_cons.1 hd).resolve_left ha
        · right; rw [if_neg ha]; exact hd
  exact this _ _ (Or.inl h)

section
variable {K V : Type} [Field K] [LinearOrder K]

/-- What happens in a turn of the loop. -/
def GmBtTurn (B : GmBt) (fit : Nat → List GmSet → Except Err (GmRand × GmPredictor K))
    (judge : List K → List (Option Rat) → V) (train test : List (GmKey × GmTs)) (bt : Int) (h0 h1 : List (List GmSet))
    (rows : List (GmBtRow V)) : Prop :=
  ∃ a b parts jobs models, gmBtFilter B.p true bt train = .ok a ∧ gmBtFilter B.p false bt test = .ok b ∧
    gmSplit B.splits B.overlap a.1 (some a.2) = .ok parts ∧
    gmEnsJobs B.multi B.splits B.replicate (B.replicate * B.splits) parts = .ok jobs ∧
    h1 = h0.mapIdx (gmBtTrained jobs) ∧
    (List.range h1.length).mapM (fun i => fit i (h1.getD i [])) = .ok models ∧
    gmBtEvaluate B.p.fcstWindow judge bt models b.1 b.2 = .ok rows

theorem bt_step (B : GmBt) (fit : Nat → List GmSet → Except Err (GmRand × GmPredictor K))
    (judge : List K → List (Option Rat) → V) (train test : List (GmKey × GmTs))
    (st st' : List (Int × List (List GmSet)) × List (GmBtRow V)) (bt : Int)
    (h : gmBtStep B fit judge train test st bt = .ok st') : ∃ h1 rows,
      GmBtTurn B fit judge train test bt ((st.1.lookup bt).getD []) h1 rows ∧ st' = (gmPut st.1 (bt, h1), st.2 ++ rows) := by
  unfold gmBtStep at h
  obtain ⟨a, q1, h⟩ := (gm_bind_ok _ _ _).1 h
  obtain ⟨b, q2, h⟩ := (gm_bind_ok _ _ _).1 h
  obtain ⟨parts, q3, h⟩ := (gm_bind_ok _ _ _).1 h
  obtain ⟨jobs, q4, h⟩ := (gm_bind_ok _ _ _).1 h
  obtain ⟨models, q5, h⟩ := (gm_bind_ok _ _ _).1 h
  obtain ⟨rows, q6, h⟩ := (gm_bind_ok _ _ _).1 h
  injection h with h
  exact ⟨_, rows, ⟨a, b, parts, jobs, models, q1, q2, q3, q4, rfl, q5, q6⟩, h.symm⟩

theorem bt_fold (B : GmBt) (fit : Nat → List GmSet → Except Err (GmRand × GmPredictor K))
    (judge : List K → List (Option Rat) → V) (train test : List (GmKey × GmTs)) : ∀ (l : List Int), l.Nodup →
    ∀ (st st' : List (Int × List (List GmSet)) × List (GmBtRow V)),
      l.foldlM (gmBtStep B fit judge train test) st = .ok st' →
      (∀ bt, bt ∉ l → st'.1.lookup bt = st.1.lookup bt) ∧
      ∃ F : Int → List (GmBtRow V), st'.2 = st.2 ++ l.flatMap F ∧ ∀ bt ∈ l, ∃ h1, st'.1.lookup bt = some h1 ∧
        GmBtTurn B fit judge train test bt ((st.1.lookup bt).getD []) h1 (F bt) := by
  intro l
  induction l with
  | nil =>
    intro _ st st' h
    injection h with h
    subst h
    exact ⟨fun _ _ => rfl, fun _ => [], by simp, by simp⟩
  | cons a l ih =>
    intro hn st st' h
    rw [List.nodup_cons] at hn
    rw [List.foldlM_cons] at h
    obtain ⟨s1, q1, h⟩ := (gm_bind_ok _ _ _).1 h
    obtain ⟨h1, rows, q2, q3⟩ := bt_step B fit judge train test st s1 a q1
    obtain ⟨i1, F, i2, i3⟩ := ih hn.2 s1 st' h
    subst q3
    refine ⟨?_, fun bt => if bt = a then rows else F bt, ?_, ?_⟩
    · intro bt hbt
      rw [List.mem_cons, not_or] at hbt
      rw [i1 bt hbt.2, bt_put_lookup, if_neg hbt.1]
    · rw [i2, List.flatMap_cons, if_pos rfl, List.append_assoc]
      congr 2
      rw [List.flatMap_def, List.flatMap_def]
      congr 1
      apply List.map_congr_left
      intro x hx
      rw [if_neg (fun hxa => hn.1 (by rw [← hxa]; exact hx))]
    · intro bt hbt
      rcases List.mem_cons.1 hbt with rfl | hbt
      · refine ⟨h1, ?_, ?_⟩
        · rw [i1 _ hn.1, bt_put_lookup, if_pos rfl]
        · beta_reduce
          rw [if_pos rfl]
          exact q2
      · have hne : bt ≠ a := fun hxa => hn.1 (by rw [← hxa]; exact hbt)
        obtain ⟨h1', r1, r2⟩ := i3 bt hbt
        refine ⟨h1', r1, ?_⟩
        beta_reduce
        rw [if_neg hne]
        rw [bt_put_lookup, if_neg hne] at r2
        exact r2

/-- What is known of a backtest: the parameters, and keys of one kind without repetition. -/
structure GmBtOk (B : GmBt) : Prop where
  wf : GmWf B.p
  freq : 0 ≤ B.p.freq
  splits : 1 ≤ B.splits
  size : B.testSize ≤ B.data.length
  nodup : (B.data.map (·.1)).Nodup
  plain : gmNpKeys (B.data.map (·.1)) = B.data.map (·.1)

theorem bt_split (B : GmBt) (hB : GmBtOk B) (shuffle : List GmKey → List GmKey) (hsh : ∀ l, (shuffle l).Perm l) :
    ∃ t r : List (GmKey × GmTs), (t ++ r).Perm B.data ∧ t.length = B.testSize ∧ ((t ++ r).map (·.1)).Nodup ∧
      ∀ (fit : Nat → List GmSet → Except Err (GmRand × GmPredictor K)) (judge : List K → List (Option Rat) → V) st,
        gmBtRun B shuffle fit judge st =
          (B.times.foldlM (gmBtStep B fit judge r t) (st, []) >>= fun x => .ok ⟨x.1, t.map (·.1), x.2⟩) := by
  obtain ⟨keys, hkeys⟩ : ∃ keys, keys = shuffle (gmNpKeys (B.data.map (·.1))) := ⟨_, rfl⟩
  have hperm : keys.Perm (B.data.map (·.1)) := by rw [hkeys, hB.plain]; exact hsh _
  obtain ⟨T, t1, t2, t3⟩ := take_all B.data hB.nodup keys fun k hk => hperm.mem_iff.1 hk
  have hTd : T.Perm B.data := perm_of_keys T B.data hB.nodup (by rw [t1]; exact hperm) t2
  have hTn : (T.map (·.1)).Nodup := by rw [t1]; exact hperm.nodup_iff.2 hB.nodup
  have hlen := hTd.length_eq
  have hsz := hB.size
  have e1 : (List.range B.testSize).mapM (gmEnsTake keys B.data) = .ok (T.take B.testSize) := by
    apply mapM_of_get
    · rw [List.length_take]; omega
    · intro i x hx
      rw [List.getElem?_take] at hx
      split at hx
      · obtain ⟨hi, hxi⟩ := List.getElem?_eq_some_iff.1 hx
        rw [t3 i hi, hxi]
      · cases hx
  have e2 : (List.range' B.testSize (B.data.length - B.testSize)).mapM (gmEnsTake keys B.data) = .ok (T.drop B.testSize) := by
    have : List.range' B.testSize (B.data.length - B.testSize) =
        (List.range (B.data.length - B.testSize)).map (B.testSize + ·) := by rw [List.range'_eq_map_range]
    rw [this, List.mapM_map]
    apply mapM_of_get
    · rw [List.length_drop]; omega
    · intro i x hx
      rw [List.getElem?_drop] at hx
      obtain ⟨hi, hxi⟩ := List.getElem?_eq_some_iff.1 hx
      show gmEnsTake keys B.data (B.testSize + i) = .ok x
      rw [t3 _ hi, hxi]
  have hd1 : (((T.take B.testSize)).map (·.1)).Nodup := hTn.sublist ((List.take_sublist _ _).map _)
  have hd2 : (((T.drop B.testSize)).map (·.1)).Nodup := hTn.sublist ((List.drop_sublist _ _).map _)
  refine ⟨T.take B.testSize, T.drop B.testSize, by rw [List.take_append_drop]; exact hTd, ?_, ?_, ?_⟩
  · rw [List.length_take]; omega
  · rw [List.take_append_drop]; exact hTn
  · intro fit judge st
    unfold gmBtRun
    simp only []
    rw [← hkeys, e1]
    show ((List.range' B.testSize (B.data.length - B.testSize)).mapM (gmEnsTake keys B.data) >>= fun train => _) = _
    rw [e2]
    show (B.times.foldlM (gmBtStep B fit judge (gmUpdate [] (T.drop B.testSize)) (gmUpdate [] (T.take B.testSize))) (st, []) >>=
      fun r => _) = _
    rw [update_fresh _ _ (by simpa using hd2), update_fresh _ _ (by simpa using hd1), List.nil_append, List.nil_append,
      ← t1, List.map_take]
    rfl

/-- C145 violated: a part of the series for the test is accepted even if it is less than one series (as the default, a tenth
of fewer than ten series), but then every run fails. -/
theorem C145_small_violated (cores : Nat) (hc : 1 ≤ cores) (p : GmParams) (hp : GmWf p) (hf : 0 ≤ p.freq)
    (timeCol : GmKey → String) (data : List (GmKey × GmTs)) (hd : (data.map (·.1)).Nodup)
    (hplain : gmNpKeys (data.map (·.1)) = data.map (·.1)) (times : List Int) (a : GmBtArgs) (q : Rat)
    (hq : a.testSize = .flt (.fin q)) (hq0 : (data.length : Rat) * q < 1) (B : GmBt)
    (hB : gmBtInit cores p timeCol data times a = .ok B) (shuffle : List GmKey → List GmKey) (hsh : ∀ l, (shuffle l).Perm l)
    (fit : Nat → List GmSet → Except Err (GmRand × GmPredictor K)) (judge : List K → List (Option Rat) → V)
    (st : List (Int × List (List GmSet))) : gmBtRun B shuffle fit judge st = .error .valueError := by
  obtain ⟨i1, i2⟩ := C145_init cores hc p timeCol data times a
  obtain ⟨f1, f2, _, f4, _, _, _, _, _, _, f11, _, _, _, f15⟩ := i2 B hB
  have hne : times ≠ [] := (i1.1 ⟨B, hB⟩).1
  have h0 : B.testSize = 0 := by
    rw [f11 q hq]
    have h1 := Rat.floor_le ((data.length : Rat) * q)
    have h2 : ((((data.length : Rat) * q).floor : Int) : Rat) < ((1 : Int) : Rat) := by
      push_cast
      exact lt_of_le_of_lt h1 hq0
    have h3 : ((data.length : Rat) * q).floor < 1 := by exact_mod_cast h2
    omega
  have hkeys : B.data.map (·.1) = data.map (·.1) := by
    generalize B.data = d at f15 ⊢
    clear * - f15
    induction f15 with
    | nil => rfl
    | cons h _ ih => rw [List.map_cons, List.map_cons, ih, h.1]
  obtain ⟨t, r, _, t2, _, t4⟩ := bt_split (K := K) (V := V) B ⟨by rw [f1]; exact hp, by rw [f1]; exact hf, f4, by omega,
    by rw [hkeys]; exact hd, by rw [hkeys]; exact hplain⟩ shuffle hsh
  rw [h0, List.length_eq_zero_iff] at t2
  subst t2
  rw [t4, f2]
  obtain ⟨bt, l, rfl⟩ := List.exists_cons_of_ne_nil hne
  rw [List.foldlM_cons]
  have hstep : gmBtStep B fit judge r [] (st, []) bt = .error .valueError := by
    unfold gmBtStep
    have h2 : gmBtFilter B.p false bt [] = .error .valueError := rfl
    rcases h1 : gmBtFilter B.p true bt r with err | x
    · have : err = .valueError := by
        unfold gmBtFilter at h1
        simp only [if_true] at h1
        split at h1
        · injection h1 with h1; exact h1.symm
        · cases h1
      rw [this]; rfl
    · rw [h2]; rfl
  rw [hstep]
  rfl

theorem jobs_lookup (jobs : List (Nat × GmSet)) (hget : ∀ (m : Nat) y, jobs[m]? = some y → y.1 = m) (i : Nat)
    (hij : i < jobs.length) : jobs.lookup i = some jobs[i].2 := by
  have : ∀ (l : List (Nat × GmSet)) (o : Nat), (∀ (m : Nat) y, l[m]? = some y → y.1 = o + m) → ∀ i (hi : i < l.length),
      l.lookup (o + i) = some l[i].2 := by
    intro l
    induction l with
    | nil => intro o _ i hi; simp at hi
    | cons a l ih =>
      intro o hl i hi
      have ha : a.1 = o := hl 0 a rfl
      rw [List.lookup_cons]
      rcases i with _ | i
      · simp [ha]
      · have : (o + (i + 1) == a.1) = false := by rw [ha]; simp
        rw [this]
        have := ih (o + 1) (fun m y hy => by rw [hl (m + 1) y hy]; omega) i (by simpa using hi)
        rw [show o + (i + 1) = o + 1 + i by omega]
        simpa using this
  simpa using this jobs 0 (fun m y hy => by rw [hget m y hy]; omega) i hij

/-- C145: a first run.  The test series are as many as asked for.  At every timestamp the models are trained once, the model `i`
with the part `i` modulo the number of parts of those training series that are long enough, cut at the timestamp; no test
series is among them.  They are then evaluated with the test series that are long enough. -/
theorem C145_run (B : GmBt) (hB : GmBtOk B) (ht : B.times.Nodup) (shuffle : List GmKey → List GmKey)
    (hsh : ∀ l, (shuffle l).Perm l) (fit : Nat → List GmSet → Except Err (GmRand × GmPredictor K))
    (judge : List K → List (Option Rat) → V) (run : GmBtRun V)
    (h : gmBtRun B shuffle fit judge (gmBtFresh B) = .ok run) :
    run.testIds.length = B.testSize ∧ run.testIds.Nodup ∧ (∀ k ∈ run.testIds, k ∈ B.data.map (·.1)) ∧
    ∃ F : Int → List (GmBtRow V), run.rows = B.times.flatMap F ∧
    ∀ bt ∈ B.times, ∀ last, last = bt + 3 * ((B.p.validSteps : Int) * B.p.fcstWindow) * B.p.freq →
      ∃ (tr te : List (GmKey × GmTs)) (parts : List GmSet) (hist : List (List GmSet))
        (models : List (GmRand × GmPredictor K)),
        tr.Perm (B.data.filter fun e => decide (e.1 ∉ run.testIds ∧ GmBtKept
          (B.p.inputWindow + B.p.fcstWindow + B.p.minTrainNum * B.p.minTrainLen) B.p.fcstWindow bt last e.2)) ∧
        te.Perm (B.data.filter fun e => decide (e.1 ∈ run.testIds ∧ GmBtKept
          (B.p.warmUp * B.p.minTrainLen + B.p.inputWindow) 0 bt last e.2)) ∧
        gmSplit B.splits B.overlap (tr.map fun e => (e.1, e.2.filter fun r => decide (r.1 < bt)))
          (some (tr.map fun e => (e.1, e.2.filter fun r => decide (bt ≤ r.1 ∧ r.1 ≤ last)))) = .ok parts ∧
        parts.length = B.splits ∧
        (∀ d ∈ parts, (∀ x ∈ d.1, x.1 ∉ run.testIds ∧ ∀ r ∈ x.2, r.1 < bt) ∧
          ∀ w, d.2 = some w → ∀ x ∈ w, x.1 ∉ run.testIds ∧ ∀ r ∈ x.2, bt ≤ r.1 ∧ r.1 ≤ last) ∧
        run.models.lookup bt = some hist ∧ hist.length = B.replicate * B.splits ∧
        (∀ i < B.replicate * B.splits, ∃ d, parts[i % B.splits]? = some d ∧ hist[i]? = some [d]) ∧
        (List.range (B.replicate * B.splits)).mapM (fun i => fit i (hist.getD i [])) = .ok models ∧
        gmBtEvaluate B.p.fcstWindow judge bt models (te.map fun e => (e.1, e.2.filter fun r => decide (r.1 < bt)))
          (te.map fun e => (e.1, e.2.filter fun r => decide (bt ≤ r.1 ∧ r.1 ≤ last))) = .ok (F bt) := by
  obtain ⟨t, r, s1, s2, s3, s4⟩ := bt_split (K := K) (V := V) B hB shuffle hsh
  rw [s4] at h
  obtain ⟨x, hx, h⟩ := (gm_bind_ok _ _ _).1 h
  injection h with h
  subst h
  obtain ⟨_, F, i2, i3⟩ := bt_fold B fit judge r t B.times ht _ _ hx
  rw [List.map_append, List.nodup_append] at s3
  obtain ⟨n1, n2, n3⟩ := s3
  have hsplit : (∀ e ∈ t, e.1 ∈ t.map (·.1)) ∧ ∀ e ∈ r, e.1 ∉ t.map (·.1) :=
    ⟨fun e he => List.mem_map.2 ⟨e, he, rfl⟩, fun e he hc => n3 _ hc _ (List.mem_map.2 ⟨e, he, rfl⟩) rfl⟩
  refine ⟨by rw [List.length_map]; exact s2, n1, ?_, F, by simpa using i2, ?_⟩
  · intro k hk
    have := (s1.map (·.1)).mem_iff (a := k)
    rw [List.map_append, List.mem_append] at this
    exact this.1 (Or.inl hk)
  intro bt hbt last hlast
  obtain ⟨hist, q1, a, b, parts, jobs, models, q2, q3, q4, q5, q6, q7, q8⟩ := i3 bt hbt
  rw [bt_fresh_lookup B bt hbt, Option.getD_some] at q6
  have hperm : ∀ (Q : GmTs → Prop) [DecidablePred Q],
      (r.filter fun e => decide (Q e.2)).Perm (B.data.filter fun e => decide (e.1 ∉ t.map (·.1) ∧ Q e.2)) ∧
      (t.filter fun e => decide (Q e.2)).Perm (B.data.filter fun e => decide (e.1 ∈ t.map (·.1) ∧ Q e.2)) := by
    intro Q _
    constructor
    · refine List.Perm.trans (List.Perm.of_eq ?_) (s1.filter fun e => decide (e.1 ∉ t.map (·.1) ∧ Q e.2))
      rw [List.filter_append]
      have e1 : t.filter (fun e => decide (e.1 ∉ t.map (·.1) ∧ Q e.2)) = [] := by
        rw [List.filter_eq_nil_iff]
        intro e he hc
        rw [decide_eq_true_eq] at hc
        exact hc.1 (hsplit.1 e he)
      rw [e1, List.nil_append]
      apply List.filter_congr
      intro e he
      rw [decide_eq_decide]
      exact ⟨fun hq => ⟨hsplit.2 e he, hq⟩, fun hq => hq.2⟩
    · refine List.Perm.trans (List.Perm.of_eq ?_) (s1.filter fun e => decide (e.1 ∈ t.map (·.1) ∧ Q e.2))
      rw [List.filter_append]
      have e1 : r.filter (fun e => decide (e.1 ∈ t.map (·.1) ∧ Q e.2)) = [] := by
        rw [List.filter_eq_nil_iff]
        intro e he hc
        rw [decide_eq_true_eq] at hc
        exact hsplit.2 e he hc.1
      rw [e1, List.append_nil]
      apply List.filter_congr
      intro e he
      rw [decide_eq_decide]
      exact ⟨fun hq => ⟨hsplit.1 e he, hq⟩, fun hq => hq.2⟩
  rw [C145_filter B.p hB.wf hB.freq true bt r _ _ last rfl rfl hlast] at q2
  rw [C145_filter B.p hB.wf hB.freq false bt t _ _ last rfl rfl hlast] at q3
  simp only [if_true, Bool.false_eq_true, if_false] at q2 q3
  split at q2
  · cases q2
  split at q3
  · cases q3
  injection q2 with q2
  injection q3 with q3
  subst q2 q3
  simp only [] at q4 q8
  obtain ⟨p1, p2⟩ := split_mem _ hB.splits _ _ _ _ q4
  have hpne : parts ≠ [] := by
    have := hB.splits
    rintro rfl
    simp at p1
    omega
  obtain ⟨l, j1, j2, j3, _⟩ := C142_jobs parts hpne B.replicate B.multi
  rw [p1, q5] at j1
  injection j1 with j1
  subst j1
  rw [p1] at j2
  have hhl : hist.length = B.replicate * B.splits := by rw [q6, List.length_mapIdx, List.length_replicate]
  rw [hhl] at q7
  refine ⟨_, _, parts, hist, models, (hperm _).1, (hperm _).2, q4, p1, ?_, q1, hhl, ?_, q7, q8⟩
  · intro d hd
    obtain ⟨m1, m2⟩ := p2 d hd
    constructor
    · intro x hx
      obtain ⟨e, he, rfl⟩ := List.mem_map.1 (m1 x hx)
      refine ⟨hsplit.2 e (List.mem_filter.1 he).1, ?_⟩
      intro y hy
      simpa using (List.mem_filter.1 hy).2
    · intro w hw x hx
      obtain ⟨v, hv, hsub⟩ := m2 w hw
      injection hv with hv
      subst hv
      obtain ⟨e, he, rfl⟩ := List.mem_map.1 (hsub x hx)
      refine ⟨hsplit.2 e (List.mem_filter.1 he).1, ?_⟩
      intro y hy
      simpa using (List.mem_filter.1 hy).2
  · intro i hi
    have hij : i < jobs.length := by omega
    obtain ⟨k1, k2⟩ := j3 i _ (List.getElem?_eq_getElem hij)
    rw [p1] at k2
    refine ⟨_, k2, ?_⟩
    rw [q6, List.getElem?_mapIdx, List.getElem?_replicate, if_pos hi]
    show some (gmBtTrained jobs i []) = some [jobs[i].2]
    have hlook := jobs_lookup jobs (fun m y hy => (j3 m y hy).1) i hij
    unfold gmBtTrained
    rw [hlook]
    rfl

/-- C145: a second run of the same backtest goes on with the models of the first: each has been trained twice. -/
theorem C145_again (B : GmBt) (hB : GmBtOk B) (ht : B.times.Nodup) (shuffle shuffle' : List GmKey → List GmKey)
    (hsh : ∀ l, (shuffle l).Perm l) (hsh' : ∀ l, (shuffle' l).Perm l)
    (fit fit' : Nat → List GmSet → Except Err (GmRand × GmPredictor K))
    (judge : List K → List (Option Rat) → V) (run run' : GmBtRun V)
    (h : gmBtRun B shuffle fit judge (gmBtFresh B) = .ok run) (h' : gmBtRun B shuffle' fit' judge run.models = .ok run')
    (bt : Int) (hbt : bt ∈ B.times) (i : Nat) (hi : i < B.replicate * B.splits) :
    ∃ hist hist' d d', run.models.lookup bt = some hist ∧ run'.models.lookup bt = some hist' ∧
      hist[i]? = some [d] ∧ hist'[i]? = some [d, d'] ∧ (∀ x ∈ d'.1, x.1 ∉ run'.testIds) := by
  obtain ⟨_, _, _, F, _, g⟩ := C145_run B hB ht shuffle hsh fit judge run h
  obtain ⟨_, _, parts, hist, _, _, _, _, _, _, g6, g7, g8, _⟩ := g bt hbt _ rfl
  obtain ⟨d, _, hd⟩ := g8 i hi
  obtain ⟨t, r, s1, s2, s3, s4⟩ := bt_split (K := K) (V := V) B hB shuffle' hsh'
  rw [s4] at h'
  obtain ⟨x, hx, h'⟩ := (gm_bind_ok _ _ _).1 h'
  injection h' with h'
  subst h'
  obtain ⟨_, F', _, i3⟩ := bt_fold B fit' judge r t B.times ht _ _ hx
  rw [List.map_append, List.nodup_append] at s3
  obtain ⟨_, _, n3⟩ := s3
  obtain ⟨hist', q1, a, b, parts', jobs, models, q2, q3, q4, q5, q6, q7, q8⟩ := i3 bt hbt
  simp only [g6, Option.getD_some] at q6
  obtain ⟨p1, p2⟩ := split_mem _ hB.splits _ _ _ _ q4
  have hpne : parts' ≠ [] := by
    have := hB.splits
    rintro rfl
    simp at p1
    omega
  obtain ⟨l, j1, j2, j3, _⟩ := C142_jobs parts' hpne B.replicate B.multi
  rw [p1, q5] at j1
  injection j1 with j1
  subst j1
  rw [p1] at j2
  have hij : i < jobs.length := by omega
  have hlook := jobs_lookup jobs (fun m y hy => (j3 m y hy).1) i hij
  refine ⟨hist, hist', d, jobs[i].2, g6, q1, hd, ?_, ?_⟩
  · rw [q6, List.getElem?_mapIdx, hd]
    show some (gmBtTrained jobs i [d]) = some [d, jobs[i].2]
    unfold gmBtTrained
    rw [hlook]
    rfl
  · intro x hx hc
    have hpart := (j3 i _ (List.getElem?_eq_getElem hij)).2
    have hxa := (p2 jobs[i].2 (List.mem_of_getElem? hpart)).1 x hx
    rw [C145_filter B.p hB.wf hB.freq true bt r _ _ _ rfl rfl rfl] at q2
    simp only [if_true] at q2
    split at q2
    · cases q2
    injection q2 with q2
    subst q2
    obtain ⟨e, he, rfl⟩ := List.mem_map.1 hxa
    exact n3 _ hc _ (List.mem_map.2 ⟨e, (List.mem_filter.1 he).1, rfl⟩) rfl

end

/-! ## An example -/

/-- A predictor of zeros. -/
def gmBtZero : GmPredictor Rat :=
  { p := gmBtP, quantile := ["0.5"],
    single := fun p _ rows => .ok (List.replicate p.fcstSteps (List.replicate rows.length (List.replicate p.fcstWindow 0))) }

/-- The backtest of two series with one model. -/
def gmBtB : GmBt :=
  { p := gmBtP, times := [6], splits := 1, overlap := true, replicate := 1, multi := false, testSize := 1, maxCore := 1,
    data := gmBtData.take 2 }

theorem gmBtB_ok : GmBtOk gmBtB :=
  ⟨gmBtP_ok, by decide, by decide, by decide, by decide, by decide⟩

/-- The sum of the actual values. -/
def gmBtSum (_ : List Rat) (a : List (Option Rat)) : Rat := (a.filterMap id).sum

/-- The first run. -/
def gmBtOne : Except Err (GmBtRun Rat) :=
  gmBtRun gmBtB id (fun _ _ => .ok (⟨fun _ _ => 0, fun _ l => l⟩, gmBtZero)) gmBtSum (gmBtFresh gmBtB)

/-- The second run. -/
def gmBtTwo (st : List (Int × List (List GmSet))) : Except Err (GmBtRun Rat) :=
  gmBtRun gmBtB List.reverse (fun _ _ => .ok (⟨fun _ _ => 0, fun _ l => l⟩, gmBtZero)) gmBtSum st

example : (gmBtOne.toOption.map fun r => (r.testIds, r.rows.map fun x => (x.res, x.model, x.step))) =
    some ([.int 0], [(15, some 0, 0), (15, none, 0), (19, some 0, 1), (19, none, 1), (23, some 0, 2), (23, none, 2),
      (13, some 0, 3), (13, none, 3)]) := by decide +kernel

example : ((gmBtEvaluate 2 gmBtSum 6 (List.replicate 2 (⟨fun _ _ => 0, fun _ l => l⟩, gmBtZero))
    [(.int 4, (List.range 5).map fun (i : Nat) => ((i : Int), some 1))] [(.int 4, [(5, some 1), (6, none), (7, some 4)])]).toOption.map
    fun l => l.map fun x => (x.res, x.model, x.step)) = some [(1, some 0, 0), (1, some 1, 0), (1, none, 0), (4, some 0, 1), (4, some 1, 1),
      (4, none, 1)] := by decide +kernel

/-- C145 violated: the test series should not be among those with which the evaluated models were trained.  In the second run of the
same backtest they are: the models are those of the first run, with other test series. -/
theorem C145_again_violated : ∃ (B : GmBt) (shuffle shuffle' : List GmKey → List GmKey)
    (fit : Nat → List GmSet → Except Err (GmRand × GmPredictor Rat)) (judge : List Rat → List (Option Rat) → Rat)
    (run run' : GmBtRun Rat) (hist : List (List GmSet)) (d d' : GmSet) (k : GmKey), GmBtOk B ∧
      gmBtRun B shuffle fit judge (gmBtFresh B) = .ok run ∧ gmBtRun B shuffle' fit judge run.models = .ok run' ∧
      run'.models.lookup 6 = some hist ∧ hist = [[d, d']] ∧ k ∈ d.1.map (·.1) ∧ k ∈ run'.testIds ∧
      k ∈ run'.rows.map (·.key) := by
  have h0 : (gmBtOne.toOption.bind fun r => (gmBtTwo r.models).toOption.map fun r' => r'.testIds ++ r'.rows.map (·.key)) =
      some (List.replicate 9 (.int 1)) := by decide +kernel
  have h1 : (gmBtOne.toOption.bind fun r => (gmBtTwo r.models).toOption.bind fun r' =>
      (r'.models.lookup 6).map fun h => h.map fun x => x.map fun d => d.1.map (·.1)) =
      some [[[.int 1], [.int 0]]] := by decide +kernel
  have h5 : (gmBtOne.toOption.bind fun r => (gmBtTwo r.models).toOption.map fun r' => r'.testIds.length) = some 1 := by
    decide +kernel
  rcases e1 : gmBtOne with err | run
  · rw [e1] at h1; simp [Except.toOption] at h1
  rw [e1] at h0 h1 h5
  rcases e2 : gmBtTwo run.models with err | run'
  · simp [Except.toOption, e2] at h1
  have f0 : (Except.ok run : Except Err (GmBtRun Rat)).toOption = some run := rfl
  have f1 : (Except.ok run' : Except Err (GmBtRun Rat)).toOption = some run' := rfl
  rw [f0, Option.bind_some, e2, f1] at h0 h1 h5
  rw [Option.map_some, Option.some.injEq] at h0 h5
  rw [Option.bind_some] at h1
  have h2 : run'.testIds = [.int 1] ∧ run'.rows.map (·.key) = List.replicate 8 (.int 1) := by
    obtain ⟨k, hk⟩ := List.length_eq_one_iff.1 h5
    rw [hk, List.singleton_append, List.replicate_succ, List.cons.injEq] at h0
    exact ⟨by rw [hk, h0.1], h0.2⟩
  obtain ⟨h2, h3⟩ := h2
  have h4 := h1
  rcases e3 : run'.models.lookup 6 with _ | hist
  · rw [e3] at h4; cases h4
  rw [e3, Option.map_some, Option.some.injEq] at h4
  rcases hist with _ | ⟨x, hist⟩
  · simp at h4
  rcases hist with _ | ⟨y, hist⟩
  swap
  · simp at h4
  rcases x with _ | ⟨d, x⟩
  · simp at h4
  rcases x with _ | ⟨d', x⟩
  · simp at h4
  rcases x with _ | ⟨z, x⟩
  swap
  · simp at h4
  simp only [List.map_cons, List.map_nil, List.cons.injEq, and_true] at h4
  refine ⟨gmBtB, id, List.reverse, _, gmBtSum, run, run', _, d, d', .int 1, gmBtB_ok, e1, e2, e3, rfl, ?_, ?_, ?_⟩
  · rw [h4.1]; simp
  · rw [h2]; simp
  · rw [h3]; simp

end Kats
