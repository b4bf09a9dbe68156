import Verif.Props.MetaHptPred

/-!
# C149: the training of the recommendations
-/

namespace Kats

section
variable {V K S : Type} [DecidableEq V] [Field K] [LinearOrder K]

/-! ## Batches -/

theorem hp_chunks (b : Nat) (perm : List Nat) (m : Nat) :
    ((List.range m).map fun i => (perm.drop (i * b)).take b).flatten = perm.take (m * b) := by
  induction m with
  | zero => simp
  | succ m ih =>
    rw [List.range_succ, List.map_append, List.flatten_append, ih]
    simp only [List.map_cons, List.map_nil, List.flatten_cons, List.flatten_nil, List.append_nil]
    rw [Nat.succ_mul, List.take_add]

/-- The batches of an epoch: together all rows in the random order, none empty, none too large. -/
theorem hp_batches (n : Nat) (batch : Int) (hb : 0 < batch) (perm : List Nat) (hp : perm.length = n) : ∃ bs, hpBatches n batch perm = .ok bs ∧
    bs.flatten = perm ∧ ∀ b ∈ bs, b ≠ [] ∧ (b.length : Int) ≤ batch := by
  obtain ⟨k, rfl⟩ : ∃ k : Nat, batch = (k : Int) := ⟨batch.toNat, by omega⟩
  have hk : 0 < k := by omega
  unfold hpBatches
  rw [if_neg (by omega), if_neg (by omega)]
  simp only [Int.toNat_natCast]
  refine ⟨_, rfl, ?_, ?_⟩
  · rw [hp_chunks, List.take_of_length_le]
    rw [hp]
    have := Nat.div_add_mod (n + k - 1) k
    have h2 := Nat.mod_lt (n + k - 1) hk
    rw [Nat.mul_comm] at this
    omega
  · intro b hb
    obtain ⟨i, hi, rfl⟩ := List.mem_map.1 hb
    rw [List.mem_range] at hi
    have hlt : i * k < n := by
      have h1 : (i + 1) * k ≤ n + k - 1 := (Nat.le_div_iff_mul_le hk).1 hi
      rw [Nat.succ_mul] at h1
      omega
    have hlen : ((perm.drop (i * k)).take k).length = min k (n - i * k) := by rw [List.length_take, List.length_drop, hp]
    refine ⟨?_, ?_⟩
    · intro h0
      rw [h0, List.length_nil] at hlen
      omega
    · rw [hlen]
      omega

/-- The loop over the batches. -/
theorem hp_fold (ce : List K → Nat → K) (step : S → HpNet K → List (HpRow K) → S × HpNet K) (f : List Nat → List (HpRow K)) (bs : List (List Nat)) :
    ∀ (st : S × HpNet K) (l0 : Option (K × K)) (r : (S × HpNet K) × Option (K × K)),
    bs.foldlM (fun (acc : (S × HpNet K) × Option (K × K)) b => (do
      let l ← hpLoss ce acc.1.2 (f b)
      return (step acc.1.1 acc.1.2 (f b), some l) : Except Err _)) (st, l0) = .ok r →
    r.1 = bs.foldl (fun (st : S × HpNet K) b => step st.1 st.2 (f b)) st ∧
      (bs = [] ∧ r.2 = l0 ∨ ∃ b ∈ bs.getLast?, ∃ net l, hpLoss ce net (f b) = .ok l ∧ r.2 = some l) ∧
      ∀ (pre suf : List (List Nat)) b, bs = pre ++ b :: suf → ∃ l, hpLoss ce (pre.foldl (fun (st : S × HpNet K) b => step st.1 st.2 (f b)) st).2 (f b) = .ok l := by
  induction bs with
  | nil =>
    intro st l0 r h
    injection h with h
    subst h
    exact ⟨rfl, Or.inl ⟨rfl, rfl⟩, fun pre suf b h => by simp at h⟩
  | cons b bs ih =>
    intro st l0 r h
    rw [List.foldlM_cons] at h
    obtain ⟨acc, hacc, h⟩ := (gm_bind_ok _ _ _).1 h
    obtain ⟨l, hl, hacc⟩ := (gm_bind_ok _ _ _).1 hacc
    injection hacc with hacc
    subst hacc
    obtain ⟨h1, h2, h3⟩ := ih _ _ _ h
    refine ⟨h1, Or.inr ?_, ?_⟩
    · rcases h2 with ⟨rfl, h2⟩ | ⟨b', hb', net, l', hl', h2⟩
      · exact ⟨b, by simp, st.2, l, hl, h2⟩
      · refine ⟨b', ?_, net, l', hl', h2⟩
        rw [List.getLast?_cons]
        rw [Option.mem_def] at hb' ⊢
        rw [hb']
        rfl
    · intro pre suf b' he
      rcases pre with _ | ⟨a, pre⟩
      · injection he with e1 e2
        subst e1
        exact ⟨l, hl⟩
      · injection he with e1 e2
        subst e1
        exact h3 pre suf b' e2

/-- C149: in an epoch the optimizer makes one step for each batch, and the batches have all rows for training, each once, in the random order. -/
theorem C149_epoch (ce : List K → Nat → K) (step : S → HpNet K → List (HpRow K) → S × HpNet K) (train : List (HpRow K)) (batch : Int) (hb : 0 < batch)
    (perm : List Nat) (hp : perm.Perm (List.range train.length)) (st st' : S × HpNet K) (l : K × K) (h : hpEpoch ce step train batch perm st = .ok (st', l)) :
    ∃ bs : List (List (HpRow K)), bs.flatten.Perm train ∧ (∀ b ∈ bs, b ≠ [] ∧ (b.length : Int) ≤ batch) ∧
      st' = bs.foldl (fun (st : S × HpNet K) b => step st.1 st.2 b) st ∧
      (∃ b ∈ bs.getLast?, ∃ net, hpLoss ce net b = .ok l) ∧
      ∀ (pre suf : List (List (HpRow K))) b, bs = pre ++ b :: suf → ∃ l, hpLoss ce (pre.foldl (fun (st : S × HpNet K) b => step st.1 st.2 b) st).2 b = .ok l := by
  obtain ⟨bs, hbs, hflat, hsz⟩ := hp_batches train.length batch hb perm (by rw [hp.length_eq, List.length_range])
  unfold hpEpoch at h
  rw [hbs] at h
  obtain ⟨_, e, h⟩ := (gm_bind_ok _ _ _).1 h
  injection e with e
  subst e
  obtain ⟨r, hr, h⟩ := (gm_bind_ok _ _ _).1 h
  obtain ⟨h1, h2, h3⟩ := hp_fold ce step (fun b => b.filterMap fun i => train[i]?) bs st none r hr
  have hin : ∀ b ∈ bs, ∀ i ∈ b, i < train.length := by
    intro b hb i hi
    have : i ∈ bs.flatten := List.mem_flatten.2 ⟨b, hb, hi⟩
    rw [hflat] at this
    exact List.mem_range.1 (hp.mem_iff.1 this)
  have hlen : ∀ b : List Nat, (∀ i ∈ b, i < train.length) → (b.filterMap fun i => train[i]?).length = b.length := by
    intro b
    induction b with
    | nil => intro _; rfl
    | cons i b ih =>
      intro hb
      rw [List.filterMap_cons, List.getElem?_eq_getElem (hb i List.mem_cons_self)]
      simp only [List.length_cons]
      rw [ih fun j hj => hb j (List.mem_cons_of_mem _ hj)]
  refine ⟨bs.map fun b => b.filterMap fun i => train[i]?, ?_, ?_, ?_, ?_, ?_⟩
  · have : (bs.map fun b => b.filterMap fun i => train[i]?).flatten = perm.filterMap fun i => train[i]? := by
      rw [← hflat]
      clear * -
      induction bs with
      | nil => rfl
      | cons b bs ih => rw [List.map_cons, List.flatten_cons, ih, List.flatten_cons, List.filterMap_append]
    rw [this]
    refine (hp.filterMap _).trans ?_
    have : (List.range train.length).filterMap (fun i => train[i]?) = train := by
      clear * -
      induction train using List.reverseRecOn with
      | nil => rfl
      | append_singleton l a ih =>
        rw [List.length_append, List.length_singleton, List.range_succ, List.filterMap_append]
        congr 1
        · conv_rhs => rw [← ih]
          apply List.filterMap_congr
          intro i hi
          rw [List.mem_range] at hi
          rw [List.getElem?_append_left hi]
        · simp
    rw [this]
  · intro b hb
    obtain ⟨b', hb', rfl⟩ := List.mem_map.1 hb
    have hl := hlen b' (hin b' hb')
    obtain ⟨s1, s2⟩ := hsz b' hb'
    refine ⟨?_, by rw [hl]; exact s2⟩
    intro h0
    rw [h0, List.length_nil] at hl
    exact s1 (List.length_eq_zero_iff.1 hl.symm)
  · rcases hr2 : r.2 with _ | l'
    · rw [hr2] at h
      cases h
    · rw [hr2] at h
      injection h with h
      injection h with e1 e2
      rw [← e1, h1, List.foldl_map]
  · rcases hr2 : r.2 with _ | l'
    · rw [hr2] at h
      cases h
    · rw [hr2] at h
      injection h with h
      injection h with e1 e2
      rcases h2 with ⟨_, h2⟩ | ⟨b, hb, net, l'', hl, h2⟩
      · rw [hr2] at h2
        cases h2
      · rw [hr2] at h2
        injection h2 with h2
        refine ⟨_, ?_, net, by rw [← e2, h2]; exact hl⟩
        rw [List.getLast?_map]
        rw [Option.mem_def] at hb ⊢
        rw [hb]
        rfl
  · intro pre suf b he
    obtain ⟨pre', t, he1, he2, he3⟩ := List.map_eq_append_iff.1 he
    obtain ⟨b', suf', he4, he5, he6⟩ := List.map_eq_cons_iff.1 he3
    obtain ⟨l, hl⟩ := h3 pre' suf' b' (by rw [he1, he4])
    refine ⟨l, ?_⟩
    rw [← he2, ← he5, List.foldl_map]
    exact hl

/-! ## Early stopping -/

/-- After so many epochs, 22 or more, the least loss of the validation is as many epochs old as asked for. -/
def HpStopAt (stop : Option Rat) (vs : List K) (m : Nat) : Prop :=
  22 ≤ m ∧ ∃ k, stop = some k ∧ ∃ (i : Nat) (v : K), i < m ∧ vs[i]? = some v ∧
    (∀ (j : Nat) (w : K), j < m → vs[j]? = some w → v ≤ w ∧ (j < i → v < w)) ∧ k ≤ ((m - 1 - i : Nat) : Rat)

/-- The least loss of some epochs and the epochs since. -/
def HpTrack (vs : List K) (best : Option K) (bad : Nat) : Prop :=
  (vs = [] ∧ best = none ∧ bad = 0) ∨ ∃ (i : Nat) (v : K), vs[i]? = some v ∧ best = some v ∧
    (∀ (j : Nat) (w : K), vs[j]? = some w → v ≤ w ∧ (j < i → v < w)) ∧ bad = vs.length - 1 - i

theorem hp_track (stop : Option Rat) (vs : List K) (best : Option K) (bad : Nat) (h : HpTrack vs best bad) (v : K) :
    HpTrack (vs ++ [v]) (hpStop stop vs.length v best bad).1.1 (hpStop stop vs.length v best bad).1.2 := by
  unfold hpStop
  simp only []
  rcases h with ⟨rfl, rfl, rfl⟩ | ⟨i, m, hi, rfl, hm, rfl⟩
  · right
    refine ⟨0, v, rfl, rfl, ?_, rfl⟩
    intro j w hj
    rcases j with _ | j
    · simp at hj
      rw [hj]
      exact ⟨le_refl _, fun h => absurd h (lt_irrefl _)⟩
    · simp at hj
  · have hil : i < vs.length := (List.getElem?_eq_some_iff.1 hi).1
    have hget : ∀ (j : Nat) (w : K), (vs ++ [v])[j]? = some w → vs[j]? = some w ∨ (j = vs.length ∧ w = v) := by
      intro j w hj
      rcases lt_trichotomy j vs.length with h | h | h
      · rw [List.getElem?_append_left h] at hj
        exact Or.inl hj
      · rw [h, List.getElem?_append_right (le_refl _), Nat.sub_self] at hj
        simp at hj
        exact Or.inr ⟨h, hj.symm⟩
      · rw [List.getElem?_eq_none (by rw [List.length_append, List.length_singleton]; omega)] at hj
        cases hj
    right
    by_cases hlt : v < m
    · refine ⟨vs.length, v, ?_, ?_, ?_, ?_⟩
      · rw [List.getElem?_append_right (le_refl _), Nat.sub_self]
        rfl
      · simp [hlt]
      · intro j w hj
        rcases hget j w hj with h | ⟨h1, h2⟩
        · have := lt_of_lt_of_le hlt (hm j w h).1
          exact ⟨this.le, fun _ => this⟩
        · rw [h1, h2]
          exact ⟨le_refl _, fun h => absurd h (lt_irrefl _)⟩
      · simp [hlt]
    · refine ⟨i, m, ?_, ?_, ?_, ?_⟩
      · rw [List.getElem?_append_left hil]
        exact hi
      · simp [hlt]
      · intro j w hj
        rcases hget j w hj with h | ⟨h1, h2⟩
        · exact hm j w h
        · rw [h1, h2]
          exact ⟨not_lt.1 hlt, fun h => by omega⟩
      · simp only [Option.all_some, decide_eq_true_eq, hlt, if_false, List.length_append, List.length_singleton]
        omega

theorem hp_stop_iff (stop : Option Rat) (vs : List K) (best : Option K) (bad : Nat) (h : HpTrack vs best bad) (v : K) :
    (hpStop stop vs.length v best bad).2 = true ↔ HpStopAt stop (vs ++ [v]) (vs.length + 1) := by
  have ht := hp_track stop vs best bad h v
  have hu : (hpStop stop vs.length v best bad).2 = (decide (20 < vs.length) && stop.any fun k =>
      decide (k ≤ (((hpStop stop vs.length v best bad).1.2 : Nat) : Rat))) := rfl
  rw [hu]
  rcases ht with ⟨h0, _, _⟩ | ⟨i, m, hi, _, hm, hb⟩
  · simp at h0
  rw [hb]
  have hil : i < (vs ++ [v]).length := (List.getElem?_eq_some_iff.1 hi).1
  rw [List.length_append, List.length_singleton] at hil hb ⊢
  unfold HpStopAt
  rw [Bool.and_eq_true, decide_eq_true_eq]
  constructor
  · rintro ⟨h1, h2⟩
    rcases stop with _ | k
    · cases h2
    · refine ⟨by omega, k, rfl, i, m, hil, hi, fun j w _ => hm j w, ?_⟩
      simpa using h2
  · rintro ⟨h1, k, hk, i', m', hi', hv', hm', hk'⟩
    refine ⟨by omega, ?_⟩
    rw [hk]
    have : i = i' := by
      rcases lt_trichotomy i i' with h | h | h
      · have a1 := (hm' i m hil hi).2 h
        have a2 := (hm i' m' hv').1
        exact absurd a1 (not_lt.2 a2)
      · exact h
      · have a1 := (hm i' m' hv').2 h
        have a2 := (hm' i m hil hi).1
        exact absurd a1 (not_lt.2 a2)
    rw [this]
    simpa using hk'

theorem hp_loop (ce : List K → Nat → K) (step : S → HpNet K → List (HpRow K) → S × HpNet K) (perms : Nat → List Nat)
    (train val : List (HpRow K)) (a : HpTrain K) : ∀ (k : Nat) (vs : List K) (st st' : HpState S K), HpTrack vs st.best st.bad →
    hpLoop ce step perms train val a k vs.length st = .ok st' → ∃ new : List ((K × K) × (K × K)), st'.path = st.path ++ new ∧ new.length ≤ k ∧
      (new.length < k → HpStopAt a.stop (vs ++ new.map fun e => e.2.1 + e.2.2 / a.lossScale) (vs.length + new.length)) ∧
      ∀ m, vs.length < m → m < vs.length + new.length → ¬ HpStopAt a.stop (vs ++ new.map fun e => e.2.1 + e.2.2 / a.lossScale) m := by
  intro k
  induction k with
  | zero =>
    intro vs st st' _ h
    unfold hpLoop at h
    injection h with h
    subst h
    exact ⟨[], by simp, le_refl _, fun h => absurd h (lt_irrefl _), fun m h1 h2 => by simp at h2; omega⟩
  | succ k ih =>
    intro vs st st' ht h
    unfold hpLoop at h
    obtain ⟨r, hr, h⟩ := (gm_bind_ok _ _ _).1 h
    obtain ⟨v, hv, h⟩ := (gm_bind_ok _ _ _).1 h
    simp only [] at h
    have hiff := hp_stop_iff a.stop vs st.best st.bad ht (v.1 + v.2 / a.lossScale)
    have htr := hp_track a.stop vs st.best st.bad ht (v.1 + v.2 / a.lossScale)
    split at h
    · rename_i hs
      injection h with h
      subst h
      refine ⟨[(r.2, v)], rfl, by simp, fun _ => hiff.1 hs, ?_⟩
      intro m h1 h2
      simp at h2
      omega
    · rename_i hs
      have hl : vs.length + 1 = (vs ++ [v.1 + v.2 / a.lossScale]).length := by simp
      rw [hl] at h
      obtain ⟨new, h1, h2, h3, h4⟩ := ih (vs ++ [v.1 + v.2 / a.lossScale]) _ st' htr h
      refine ⟨(r.2, v) :: new, ?_, by simpa using h2, ?_, ?_⟩
      · rw [h1]
        simp
      · intro hlt
        have := h3 (by simpa using hlt)
        rw [List.append_assoc, ← hl] at this
        rw [List.length_cons, Nat.add_comm new.length 1, ← Nat.add_assoc]
        exact this
      · intro m hm1 hm2
        rw [List.length_cons] at hm2
        by_cases hm : m = vs.length + 1
        · subst hm
          intro hst
          apply hs
          rw [hiff]
          obtain ⟨g1, q, g2, i, w, g3, g4, g5, g6⟩ := hst
          have hpre : ∀ j, j < vs.length + 1 → (vs ++ ((r.2, v) :: new).map fun e => e.2.1 + e.2.2 / a.lossScale)[j]? = (vs ++ [v.1 + v.2 / a.lossScale])[j]? := by
            intro j hj
            rw [List.map_cons, show vs ++ (v.1 + v.2 / a.lossScale) :: new.map (fun e => e.2.1 + e.2.2 / a.lossScale) =
              (vs ++ [v.1 + v.2 / a.lossScale]) ++ new.map (fun e => e.2.1 + e.2.2 / a.lossScale) by simp]
            rw [List.getElem?_append_left (by rw [← hl]; exact hj)]
          refine ⟨g1, q, g2, i, w, g3, by rw [← hpre i g3]; exact g4, ?_, g6⟩
          intro j u hj hu
          exact g5 j u hj (by rw [hpre j hj]; exact hu)
        · have := h4 m (by rw [← hl]; omega) (by rw [← hl]; omega)
          rw [List.append_assoc] at this
          exact this

/-! ## `train` -/

/-- A successful training, step by step. -/
theorem hp_train_ok (num : Option V → Except Err K) (ce : List K → Nat → K) (opt : String → S) (step : S → HpNet K → List (HpRow K) → S × HpNet K)
    (perm : List Nat) (perms : Nat → List Nat) (s : Hp V K) (net : HpNet K) (path : List ((K × K) × (K × K))) (a : HpTrain K) (obj : HpObj V K)
    (h : hpTrain num ce opt step perm perms (some (s, some net, path)) a = .ok obj) :
    (a.method = "SGD" ∨ a.method = "Adam") ∧ 0 < a.valSize ∧ a.valSize < 1 ∧ ∃ (it iv : List Nat) (train val : List (HpRow K)) (st : HpState S K),
      msSplit s.x.length a.valSize perm = .ok (it, iv) ∧ it.mapM (hpRow num s) = .ok train ∧ iv.mapM (hpRow num s) = .ok val ∧ a.batch < train.length ∧
      hpLoop ce step perms train val a a.epochs 0 ⟨opt a.method, net, path, none, 0⟩ = .ok st ∧ obj = some (s, some st.net, st.path) := by
  unfold hpTrain at h
  obtain ⟨m, hm, h⟩ := (gm_bind_ok _ _ _).1 h
  injection hm with hm
  subst hm
  split at h
  · cases h
  rename_i h1
  split at h
  · cases h
  rename_i h2
  push Not at h2
  obtain ⟨ix, hix, h⟩ := (gm_bind_ok _ _ _).1 h
  obtain ⟨train, htr, h⟩ := (gm_bind_ok _ _ _).1 h
  obtain ⟨val, hva, h⟩ := (gm_bind_ok _ _ _).1 h
  split at h
  · cases h
  rename_i h3
  obtain ⟨st, hst, h⟩ := (gm_bind_ok _ _ _).1 h
  injection h with h
  refine ⟨?_, h2.1, h2.2, ix.1, ix.2, train, val, st, hix, htr, hva, by omega, hst, h.symm⟩
  by_contra hc
  push Not at hc
  exact h1 hc

/-- C149: the losses of one training are added to those recorded before, one entry for each epoch; there are as many epochs as asked for, unless the training stops
early; it stops after the first epoch from the 22nd on for which the least loss of the validation is `n_epochs_stop` or more epochs old. -/
theorem C149_stop (num : Option V → Except Err K) (ce : List K → Nat → K) (opt : String → S) (step : S → HpNet K → List (HpRow K) → S × HpNet K)
    (perm : List Nat) (perms : Nat → List Nat) (s : Hp V K) (net : HpNet K) (path : List ((K × K) × (K × K))) (a : HpTrain K) (obj : HpObj V K)
    (h : hpTrain num ce opt step perm perms (some (s, some net, path)) a = .ok obj) :
    ∃ net' new, obj = some (s, some net', path ++ new) ∧ new.length ≤ a.epochs ∧
      (new.length < a.epochs → HpStopAt a.stop (new.map fun e => e.2.1 + e.2.2 / a.lossScale) new.length) ∧
      ∀ m, m < new.length → ¬ HpStopAt a.stop (new.map fun e => e.2.1 + e.2.2 / a.lossScale) m := by
  obtain ⟨_, _, _, it, iv, train, val, st, _, _, _, _, hst, ho⟩ := hp_train_ok num ce opt step perm perms s net path a obj h
  obtain ⟨new, h1, h2, h3, h4⟩ := hp_loop ce step perms train val a a.epochs [] _ st (Or.inl ⟨rfl, rfl, rfl⟩) hst
  rw [List.length_nil, Nat.zero_add, List.nil_append] at h3
  refine ⟨st.net, new, by rw [ho, h1], h2, h3, ?_⟩
  intro m hm hs
  have hpos : 0 < m := by
    obtain ⟨g, _⟩ := hs
    omega
  exact h4 m hpos (by rw [List.length_nil, Nat.zero_add]; exact hm) (by rw [List.nil_append]; exact hs)

/-- C149 violated: training should stop if there was no improvement for `n_epochs_stop` epochs.  There are never fewer than 22 epochs, if so many are asked for, whatever
`n_epochs_stop` and the losses are. -/
theorem C149_stop_violated (num : Option V → Except Err K) (ce : List K → Nat → K) (opt : String → S) (step : S → HpNet K → List (HpRow K) → S × HpNet K)
    (perm : List Nat) (perms : Nat → List Nat) (s : Hp V K) (net : HpNet K) (a : HpTrain K) (he : 22 ≤ a.epochs) (obj : HpObj V K)
    (h : hpTrain num ce opt step perm perms (some (s, some net, [])) a = .ok obj) :
    ∃ net' path, obj = some (s, some net', path) ∧ 22 ≤ path.length := by
  obtain ⟨net', new, h1, h2, h3, _⟩ := C149_stop num ce opt step perm perms s net [] a obj h
  refine ⟨net', new, by rw [h1, List.nil_append], ?_⟩
  by_contra hc
  have := (h3 (by omega)).1
  omega

/-- C149: training and validation have no row in common and together all; the validation has the part asked for, rounded up; a row has the features and the parameters of the
same number. -/
theorem C149_split (num : Option V → Except Err K) (ce : List K → Nat → K) (opt : String → S) (step : S → HpNet K → List (HpRow K) → S × HpNet K)
    (perm : List Nat) (perms : Nat → List Nat) (s : Hp V K) (hp : perm.Perm (List.range s.x.length)) (net : HpNet K) (path : List ((K × K) × (K × K)))
    (a : HpTrain K) (obj : HpObj V K) (h : hpTrain num ce opt step perm perms (some (s, some net, path)) a = .ok obj) :
    (a.method = "SGD" ∨ a.method = "Adam") ∧ 0 < a.valSize ∧ a.valSize < 1 ∧ ∃ (it iv : List Nat) (train val : List (HpRow K)) (st : HpState S K),
      (it ++ iv).Perm (List.range s.x.length) ∧ (iv.length : Int) = ⌈(s.x.length : Rat) * a.valSize⌉ ∧ a.batch < it.length ∧
      List.Forall₂ (fun i (r : HpRow K) => s.x[i]? = some r.x ∧ List.Forall₂ (fun (c : List (Option Nat)) v => c[i]? = some v) s.codes r.cat ∧
        List.Forall₂ (fun (c : List (Option V)) q => ∃ v, c[i]? = some v ∧ num v = .ok q) s.target r.num) (it ++ iv) (train ++ val) ∧
      train.length = it.length ∧
      hpLoop ce step perms train val a a.epochs 0 ⟨opt a.method, net, path, none, 0⟩ = .ok st ∧ obj = some (s, some st.net, st.path) := by
  obtain ⟨h1, h2, h3, it, iv, train, val, st, h4, h5, h6, h7, h8, h9⟩ := hp_train_ok num ce opt step perm perms s net path a obj h
  have hrow : ∀ i r, hpRow num s i = .ok r → s.x[i]? = some r.x ∧ List.Forall₂ (fun (c : List (Option Nat)) v => c[i]? = some v) s.codes r.cat ∧
        List.Forall₂ (fun (c : List (Option V)) q => ∃ v, c[i]? = some v ∧ num v = .ok q) s.target r.num := by
    intro i r hr
    unfold hpRow at hr
    rcases he : s.x[i]? with _ | y
    · rw [he] at hr
      cases hr
    rw [he] at hr
    simp only [] at hr
    obtain ⟨x, hx, hr⟩ := (gm_bind_ok _ _ _).1 hr
    injection hx with hx
    subst hx
    obtain ⟨c, hc, hr⟩ := (gm_bind_ok _ _ _).1 hr
    obtain ⟨t, ht, hr⟩ := (gm_bind_ok _ _ _).1 hr
    injection hr with hr
    subst hr
    refine ⟨rfl, ?_, ?_⟩
    · refine (mapM_forall2 _ _ _ hc).imp ?_
      intro col v hv
      rcases he : col[i]? with _ | y
      · rw [he] at hv
        cases hv
      · rw [he] at hv
        injection hv with hv
        rw [hv]
    · refine (mapM_forall2 _ _ _ ht).imp ?_
      intro col v hv
      rcases he : col[i]? with _ | y
      · rw [he] at hv
        cases hv
      · rw [he] at hv
        exact ⟨y, rfl, hv⟩
  have f1 := (mapM_forall2 _ _ _ h5).imp hrow
  have f2 := (mapM_forall2 _ _ _ h6).imp hrow
  have hlen := (mapM_forall2 _ _ _ h5).length_eq
  have hce : ∀ q : Rat, Rat.ceil q = ⌈q⌉ := fun q => by rw [Rat.ceil_eq_neg_floor_neg]; rfl
  unfold msSplit at h4
  simp only [] at h4
  rw [hce] at h4
  split at h4
  · cases h4
  rename_i hpos
  injection h4 with h4
  injection h4 with e1 e2
  obtain ⟨t, ht⟩ : ∃ t, t = ⌈(s.x.length : Rat) * a.valSize⌉.toNat := ⟨_, rfl⟩
  rw [← ht] at e1 e2 hpos
  have hpl : perm.length = s.x.length := by rw [hp.length_eq, List.length_range]
  have hnn : 0 ≤ ⌈(s.x.length : Rat) * a.valSize⌉ := Int.ceil_nonneg (mul_nonneg (by exact_mod_cast Nat.zero_le _) h2.le)
  refine ⟨h1, h2, h3, it, iv, train, val, st, ?_, ?_, by rw [hlen]; exact h7, List.rel_append f1 f2, hlen.symm, h8, h9⟩
  · rw [← e1, ← e2]
    refine List.Perm.trans List.perm_append_comm ?_
    rw [List.take_append_drop]
    exact hp
  · rw [← e2, List.length_take, hpl, min_eq_left (by omega), ht, Int.toNat_of_nonneg hnn]

/-- C149 violated: data that are accepted should be enough for training.  With the arguments of `train` as they are by default, up to 143 rows are refused. -/
theorem C149_small_violated (num : Option V → Except Err K) (ce : List K → Nat → K) (opt : String → S) (step : S → HpNet K → List (HpRow K) → S × HpNet K)
    (perm : List Nat) (perms : Nat → List Nat) (s : Hp V K) (hp : perm.Perm (List.range s.x.length)) (hn : s.x.length ≤ 143) (net : HpNet K)
    (path : List ((K × K) × (K × K))) (obj : HpObj V K) :
    hpTrain num ce opt step perm perms (some (s, some net, path)) ⟨1, 1000, 128, "SGD", 1 / 10, some 20⟩ ≠ .ok obj := by
  intro h
  obtain ⟨_, _, _, it, iv, _, _, _, h1, h2, h3, _⟩ := C149_split num ce opt step perm perms s hp net path _ obj h
  have hl := h1.length_eq
  rw [List.length_append, List.length_range] at hl
  have hq : ((s.x.length : Rat) * (1 / 10)) ≤ ((iv.length : Int) : Rat) := by
    rw [h2]
    exact Int.le_ceil _
  have h3' : (128 : Int) < it.length := h3
  have e : (iv.length : Rat) = (s.x.length : Rat) - (it.length : Rat) := by
    rw [← hl]
    push_cast
    ring
  have hq' : ((s.x.length : Rat) * (1 / 10)) ≤ (s.x.length : Rat) - (it.length : Rat) := by
    rw [← e]
    exact_mod_cast hq
  have hx : (s.x.length : Rat) ≤ 143 := by exact_mod_cast hn
  have hi : (129 : Rat) ≤ (it.length : Rat) := by
    have : 129 ≤ it.length := by omega
    exact_mod_cast this
  linarith

/-- C149 violated: features and parameters should have as many rows.  If there are fewer rows of parameters, the data are accepted as others (see `C149_init_partial`), but no training
succeeds. -/
theorem C149_rows_violated (num : Option V → Except Err K) (ce : List K → Nat → K) (opt : String → S) (step : S → HpNet K → List (HpRow K) → S × HpNet K)
    (perm : List Nat) (perms : Nat → List Nat) (s : Hp V K) (hp : perm.Perm (List.range s.x.length)) (net : HpNet K) (path : List ((K × K) × (K × K)))
    (hshort : (∃ c ∈ s.codes, c.length < s.x.length) ∨ ∃ c ∈ s.target, c.length < s.x.length) (a : HpTrain K) (obj : HpObj V K) :
    hpTrain num ce opt step perm perms (some (s, some net, path)) a ≠ .ok obj := by
  intro h
  obtain ⟨_, _, _, it, iv, train, val, _, h1, _, _, h4, _⟩ := C149_split num ce opt step perm perms s hp net path a obj h
  have key : ∀ n < s.x.length, ∃ r : HpRow K, List.Forall₂ (fun (c : List (Option Nat)) v => c[n]? = some v) s.codes r.cat ∧
      List.Forall₂ (fun (c : List (Option V)) q => ∃ v, c[n]? = some v ∧ num v = .ok q) s.target r.num := by
    intro n hn
    obtain ⟨i, hi, hin⟩ := List.mem_iff_getElem.1 (h1.mem_iff.2 (List.mem_range.2 hn))
    have hi' : i < (train ++ val).length := by rw [← h4.length_eq]; exact hi
    obtain ⟨_, g1, g2⟩ := (List.forall₂_iff_get.1 h4).2 i hi hi'
    simp only [List.get_eq_getElem, hin] at g1 g2
    exact ⟨_, g1, g2⟩
  rcases hshort with ⟨c, hc, hl⟩ | ⟨c, hc, hl⟩
  · obtain ⟨r, g1, _⟩ := key _ hl
    obtain ⟨j, hj, rfl⟩ := List.mem_iff_getElem.1 hc
    have := (List.forall₂_iff_get.1 g1).2 j hj (by rw [← g1.length_eq]; exact hj)
    simp only [List.get_eq_getElem] at this
    rw [List.getElem?_eq_none (le_refl _)] at this
    cases this
  · obtain ⟨r, _, g1⟩ := key _ hl
    obtain ⟨j, hj, rfl⟩ := List.mem_iff_getElem.1 hc
    obtain ⟨v, this, _⟩ := (List.forall₂_iff_get.1 g1).2 j hj (by rw [← g1.length_eq]; exact hj)
    simp only [List.get_eq_getElem] at this
    rw [List.getElem?_eq_none (le_refl _)] at this
    cases this

/-! ## Missing values -/

theorem hp_forward_cats (net : HpNet K) (x : List K) (o : Option (List (List K)) × Option (List K)) (h : hpForward net x = .ok o) :
    (o.1.getD []).length = net.cats.length := by
  unfold hpForward at h
  obtain ⟨y, _, h⟩ := (gm_bind_ok _ _ _).1 h
  obtain ⟨cats, hc, h⟩ := (gm_bind_ok _ _ _).1 h
  have hl := (mapM_forall2 _ _ _ hc).length_eq
  have key : ((if net.cats.isEmpty then none else some cats).getD []).length = net.cats.length := by
    rcases hn : net.cats with _ | ⟨a, l⟩
    · rfl
    · rw [hn] at hl
      exact hl.symm
  split at h
  · injection h with h
    subst h
    exact key
  · obtain ⟨nums, _, h⟩ := (gm_bind_ok _ _ _).1 h
    injection h with h
    subst h
    exact key

theorem hp_loss_row (ce : List K → Nat → K) (net : HpNet K) (rows : List (HpRow K)) (l : K × K) (h : hpLoss ce net rows = .ok l) (r : HpRow K) (hr : r ∈ rows)
    (j : Nat) (hj : j < net.cats.length) : r.cat[j]? ≠ some none := by
  unfold hpLoss at h
  obtain ⟨out, ho, h⟩ := (gm_bind_ok _ _ _).1 h
  obtain ⟨c, hc, _⟩ := (gm_bind_ok _ _ _).1 h
  have hf := mapM_forall2 _ _ _ ho
  obtain ⟨i, hi, rfl⟩ := List.mem_iff_getElem.1 hr
  have hi' : i < out.length := by rw [← hf.length_eq]; exact hi
  have hfi := (List.forall₂_iff_get.1 hf).2 i hi hi'
  have hz : i < (out.zip rows).length := by rw [List.length_zip]; omega
  have hcf := mapM_forall2 _ _ _ hc
  have hci := (List.forall₂_iff_get.1 hcf).2 i hz (by rw [← hcf.length_eq]; exact hz)
  simp only [List.get_eq_getElem, List.getElem_zip] at hci hfi
  have hlen := hp_forward_cats net _ _ hfi
  intro hn
  obtain ⟨hjl, hjv⟩ := List.getElem?_eq_some_iff.1 hn
  unfold hpCatRow at hci
  have hrow := mapM_forall2 _ _ _ hci
  have hz2 : j < ((out[i].1.getD []).zip rows[i].cat).length := by rw [List.length_zip]; omega
  have := (List.forall₂_iff_get.1 hrow).2 j hz2 (by rw [← hrow.length_eq]; exact hz2)
  simp only [List.get_eq_getElem, List.getElem_zip, hjv] at this
  cases this

theorem hp_epoch_batch (ce : List K → Nat → K) (step : S → HpNet K → List (HpRow K) → S × HpNet K) (train : List (HpRow K)) (batch : Int) (perm : List Nat)
    (st : S × HpNet K) (r : (S × HpNet K) × K × K) (h : hpEpoch ce step train batch perm st = .ok r) : 0 < batch := by
  by_contra hc
  unfold hpEpoch hpBatches at h
  by_cases h0 : batch = 0
  · rw [if_pos h0] at h
    cases h
  · rw [if_neg h0, if_pos (by omega)] at h
    cases h

/-- A fold of steps keeps what each step keeps. -/
theorem hp_steps {α : Type} (f : HpNet K → α) (step : S → HpNet K → List (HpRow K) → S × HpNet K) (hs : ∀ st n rows, f (step st n rows).2 = f n)
    (bs : List (List (HpRow K))) : ∀ st : S × HpNet K, f (bs.foldl (fun (st : S × HpNet K) b => step st.1 st.2 b) st).2 = f st.2 := by
  induction bs with
  | nil => intro st; rfl
  | cons b bs ih =>
    intro st
    rw [List.foldl_cons, ih, hs]

/-- C149 violated: data that are accepted should do for training.  A missing value of a categorical parameter is accepted, see `C149_init_partial`, but then no training with an epoch or more succeeds. -/
theorem C149_missing_violated (num : Option V → Except Err K) (ce : List K → Nat → K) (opt : String → S) (step : S → HpNet K → List (HpRow K) → S × HpNet K)
    (hs : ∀ st n rows, (step st n rows).2.cats.length = n.cats.length) (perm : List Nat) (perms : Nat → List Nat) (s : Hp V K)
    (hp : perm.Perm (List.range s.x.length)) (net : HpNet K) (path : List ((K × K) × (K × K))) (hn : net.cats.length = s.codes.length) (a : HpTrain K) (he : 0 < a.epochs)
    (hq : ∀ e, (perms e).Perm (List.range (s.x.length - ⌈(s.x.length : Rat) * a.valSize⌉.toNat)))
    (c : List (Option Nat)) (hc : c ∈ s.codes) (i : Nat) (hi : i < s.x.length) (hm : c[i]? = some none) (obj : HpObj V K) :
    hpTrain num ce opt step perm perms (some (s, some net, path)) a ≠ .ok obj := by
  intro h
  obtain ⟨_, _, _, it, iv, train, val, st, h1, h2, _, h4, h5, h6, _⟩ := C149_split num ce opt step perm perms s hp net path a obj h
  obtain ⟨k, hk⟩ : ∃ k, a.epochs = k + 1 := ⟨a.epochs - 1, by omega⟩
  rw [hk] at h6
  unfold hpLoop at h6
  obtain ⟨r, hr, h6⟩ := (gm_bind_ok _ _ _).1 h6
  obtain ⟨v, hv, _⟩ := (gm_bind_ok _ _ _).1 h6
  have hb := hp_epoch_batch ce step train a.batch _ _ r hr
  have hl := h1.length_eq
  rw [List.length_append, List.length_range] at hl
  have hq0 : (perms 0).Perm (List.range train.length) := by
    have e : train.length = s.x.length - ⌈(s.x.length : Rat) * a.valSize⌉.toNat := by
      rw [h5, ← h2]
      omega
    rw [e]
    exact hq 0
  obtain ⟨bs, g1, _, g3, _, g5⟩ := C149_epoch ce step train a.batch hb (perms 0) hq0 _ r.1 r.2 hr
  obtain ⟨j, hj, rfl⟩ := List.mem_iff_getElem.1 hc
  obtain ⟨p, hpl, hpe⟩ := List.mem_iff_getElem.1 (h1.mem_iff.2 (List.mem_range.2 hi))
  have hpl' : p < (train ++ val).length := by rw [← h4.length_eq]; exact hpl
  obtain ⟨_, f1, _⟩ := (List.forall₂_iff_get.1 h4).2 p hpl hpl'
  simp only [List.get_eq_getElem, hpe] at f1
  have hj' : j < ((train ++ val)[p]).cat.length := by rw [← f1.length_eq]; exact hj
  have hcat := (List.forall₂_iff_get.1 f1).2 j hj hj'
  simp only [List.get_eq_getElem] at hcat
  rw [hm] at hcat
  injection hcat with hcat
  have hbad : ((train ++ val)[p]).cat[j]? = some none := by
    rw [List.getElem?_eq_getElem hj', hcat]
  rcases List.mem_append.1 (List.getElem_mem hpl') with hin | hin
  · obtain ⟨b, hbs, hrb⟩ := List.mem_flatten.1 (g1.mem_iff.2 hin)
    obtain ⟨pre, suf, hps⟩ := List.append_of_mem hbs
    obtain ⟨l, hl⟩ := g5 pre suf b hps
    refine hp_loss_row ce _ b l hl _ hrb j ?_ hbad
    rw [hp_steps (fun n => n.cats.length) step hs pre]
    rw [hn]
    exact hj
  · refine hp_loss_row ce _ val v hv _ hin j ?_ hbad
    rw [g3, hp_steps (fun n => n.cats.length) step hs bs]
    rw [hn]
    exact hj

/-! ## The losses -/

/-- C149: the loss of the categorical parameters is the sum of the cross entropies over all rows and parameters, divided by the number of rows; it needs each code to be a class. -/
theorem C149_entropy [IsStrictOrderedRing K] (ce : List K → Nat → K) (net : HpNet K) (rows : List (HpRow K)) (h0 : rows ≠ []) (hc : ∀ r ∈ rows, r.cat.length = net.cats.length)
    (l : K × K) (h : hpLoss ce net rows = .ok l) :
    ∃ es : List (List K), List.Forall₂ (fun (r : HpRow K) e => ∃ o, hpForward net r.x = .ok o ∧ List.Forall₂ (fun (z : List K × Option Nat) q =>
      ∃ k, z.2 = some k ∧ k < z.1.length ∧ q = ce z.1 k) ((o.1.getD []).zip r.cat) e ∧ e.length = net.cats.length) rows es ∧
      l.1 * (rows.length : K) = (es.map List.sum).sum := by
  unfold hpLoss at h
  obtain ⟨out, ho, h⟩ := (gm_bind_ok _ _ _).1 h
  obtain ⟨c, hcc, h⟩ := (gm_bind_ok _ _ _).1 h
  injection h with h
  have hf := mapM_forall2 _ _ _ ho
  have hcf := mapM_forall2 _ _ _ hcc
  have hlen : c.length = rows.length := by rw [← hcf.length_eq, List.length_zip, ← hf.length_eq, Nat.min_self]
  have hrows : List.Forall₂ (fun (r : HpRow K) e => ∃ o, hpForward net r.x = .ok o ∧ List.Forall₂ (fun (z : List K × Option Nat) q =>
      ∃ k, z.2 = some k ∧ k < z.1.length ∧ q = ce z.1 k) ((o.1.getD []).zip r.cat) e ∧ e.length = net.cats.length) rows c := by
    rw [List.forall₂_iff_get]
    refine ⟨hlen.symm, ?_⟩
    intro i hi hi2
    have hi' : i < out.length := by rw [← hf.length_eq]; exact hi
    have hz : i < (out.zip rows).length := by rw [List.length_zip]; omega
    have hfi := (List.forall₂_iff_get.1 hf).2 i hi hi'
    have hci := (List.forall₂_iff_get.1 hcf).2 i hz hi2
    simp only [List.get_eq_getElem, List.getElem_zip] at hci hfi ⊢
    unfold hpCatRow at hci
    have hrow := mapM_forall2 _ _ _ hci
    refine ⟨_, hfi, ?_, ?_⟩
    · refine hrow.imp ?_
      intro z q hq
      rcases hz2 : z.2 with _ | k
      · rw [hz2] at hq
        cases hq
      · rw [hz2] at hq
        simp only [] at hq
        split at hq
        · rename_i hk
          injection hq with hq
          exact ⟨k, rfl, hk, hq.symm⟩
        · cases hq
    · rw [← hrow.length_eq, List.length_zip, hp_forward_cats net _ _ hfi, hc _ (List.getElem_mem hi), Nat.min_self]
  refine ⟨c, hrows, ?_⟩
  have hcl : ∀ e ∈ c, e.length = net.cats.length := by
    intro e he
    obtain ⟨i, hi, rfl⟩ := List.mem_iff_getElem.1 he
    obtain ⟨_, _, _, g⟩ := (List.forall₂_iff_get.1 hrows).2 i (by rw [← hlen]; exact hi) hi
    simpa using g
  rw [← h]
  simp only []
  have hne : (rows.length : K) ≠ 0 := by
    have : rows.length ≠ 0 := fun h => h0 (List.length_eq_zero_iff.1 h)
    exact_mod_cast this
  have hmean : ∀ l : List K, l.length = rows.length → gmEnsMean l * (rows.length : K) = l.sum := by
    intro l hl
    unfold gmEnsMean
    rw [hl]
    field_simp
  rw [← List.sum_map_mul_right]
  have e1 : ((List.range net.cats.length).map fun j => gmEnsMean (c.map fun r => r.getD j 0) * (rows.length : K)) =
      (List.range net.cats.length).map fun j => (c.map fun r => r.getD j 0).sum := by
    apply List.map_congr_left
    intro j _
    rw [hmean]
    rw [List.length_map, hlen]
  rw [e1]
  clear * - hcl
  generalize net.cats.length = n at hcl
  induction c with
  | nil => simp
  | cons e c ih =>
    simp only [List.map_cons, List.sum_cons]
    rw [List.sum_map_add, ih fun x hx => hcl x (List.mem_cons_of_mem _ hx)]
    congr 1
    have := hcl e List.mem_cons_self
    subst this
    congr 1
    apply List.ext_getElem
    · simp
    · intro i h1 h2
      simp only [List.getElem_map, List.getElem_range, List.getD_eq_getElem?_getD]
      rw [List.getElem?_eq_getElem h2]
      rfl

/-- C149: the loss of the numerical parameters is the mean of the squared errors over all rows and parameters: it is not negative, and zero only if all outputs are as wanted. -/
theorem C149_error [IsStrictOrderedRing K] (ce : List K → Nat → K) (net : HpNet K) (rows : List (HpRow K)) (h0 : rows ≠ []) (hn : net.nums ≠ []) (d : Nat) (hd : 0 < d)
    (hr : ∀ r ∈ rows, r.num.length = d ∧ ∀ o, hpForward net r.x = .ok o → ∃ y, o.2 = some y ∧ y.length = d) (l : K × K) (h : hpLoss ce net rows = .ok l) :
    (∃ ys : List (List K), List.Forall₂ (fun (r : HpRow K) y => ∃ o, hpForward net r.x = .ok (o, some y)) rows ys ∧
      l.2 * ((rows.length * d : Nat) : K) = (List.zipWith (fun (r : HpRow K) y => (List.zipWith (fun a b => (b - a) ^ 2) r.num y).sum) rows ys).sum) ∧
    0 ≤ l.2 ∧ (l.2 = 0 ↔ ∀ r ∈ rows, ∃ o, hpForward net r.x = .ok (o, some r.num)) := by
  unfold hpLoss at h
  obtain ⟨out, ho, h⟩ := (gm_bind_ok _ _ _).1 h
  obtain ⟨c, _, h⟩ := (gm_bind_ok _ _ _).1 h
  injection h with h
  have hne : net.nums.isEmpty = false := by
    rcases hx : net.nums with _ | ⟨a, t⟩
    · exact absurd hx hn
    · rfl
  have hf := mapM_forall2 _ _ _ ho
  have hl2 : l.2 = gmEnsMean ((out.zip rows).flatMap fun e => List.zipWith (fun a b => (a - b) * (a - b)) (e.1.2.getD []) e.2.num) := by
    rw [← h]
    simp [hne]
  clear h ho
  obtain ⟨ys, hys⟩ : ∃ ys : List (List K), ys = out.map fun e => e.2.getD [] := ⟨_, rfl⟩
  have hyf : List.Forall₂ (fun (r : HpRow K) y => (∃ o, hpForward net r.x = .ok (o, some y)) ∧ y.length = d ∧ r.num.length = d) rows ys := by
    rw [hys, List.forall₂_map_right_iff]
    clear * - hf hr
    induction hf with
    | nil => exact .nil
    | @cons r o rs os hro hf ih =>
      refine .cons ?_ (ih fun r hr' => hr r (List.mem_cons_of_mem _ hr'))
      obtain ⟨g1, g2⟩ := hr r List.mem_cons_self
      obtain ⟨y, hy, hyl⟩ := g2 o hro
      rw [hy]
      exact ⟨⟨o.1, by rw [hro]; congr 1; exact Prod.ext rfl hy⟩, hyl, g1⟩
  have hq : ((out.zip rows).flatMap fun e => List.zipWith (fun a b => (a - b) * (a - b)) (e.1.2.getD []) e.2.num) =
      (List.zipWith (fun (r : HpRow K) y => List.zipWith (fun a b => (b - a) ^ 2) r.num y) rows ys).flatten := by
    rw [hys]
    clear * -
    induction out generalizing rows with
    | nil => simp
    | cons o out ih =>
      rcases rows with _ | ⟨r, rows⟩
      · rfl
      · simp only [List.zip_cons_cons, List.flatMap_cons, List.map_cons, List.zipWith_cons_cons, List.flatten_cons]
        rw [ih]
        congr 1
        rw [List.zipWith_comm]
        congr 1
        funext a b
        ring
  rw [hq] at hl2
  have hlen : (List.zipWith (fun (r : HpRow K) y => List.zipWith (fun a b => (b - a) ^ 2) r.num y) rows ys).flatten.length = rows.length * d := by
    clear * - hyf
    induction hyf with
    | nil => simp
    | @cons r y rs ys hro hf ih =>
      rw [List.zipWith_cons_cons, List.flatten_cons, List.length_append, ih, List.length_zipWith, hro.2.1, hro.2.2, Nat.min_self, List.length_cons]
      ring
  have hsum : (List.zipWith (fun (r : HpRow K) y => List.zipWith (fun a b => (b - a) ^ 2) r.num y) rows ys).flatten.sum =
      (List.zipWith (fun (r : HpRow K) y => (List.zipWith (fun a b => (b - a) ^ 2) r.num y).sum) rows ys).sum := by
    rw [List.sum_flatten, List.map_zipWith]
  have hpos : (0 : K) < ((rows.length * d : Nat) : K) := by
    have : 0 < rows.length := List.length_pos_iff.2 h0
    exact_mod_cast Nat.mul_pos this hd
  unfold gmEnsMean at hl2
  rw [hlen, hsum] at hl2
  have hsq : ∀ (a b : List K), 0 ≤ (List.zipWith (fun a b => (b - a) ^ 2) a b).sum := by
    intro a b
    apply List.sum_nonneg
    intro x hx
    obtain ⟨i, hi, rfl⟩ := List.mem_iff_getElem.1 hx
    rw [List.getElem_zipWith]
    exact sq_nonneg _
  have hz : ∀ (a b : List K), a.length = b.length → ((List.zipWith (fun a b => (b - a) ^ 2) a b).sum = 0 ↔ b = a) := by
    intro a
    induction a with
    | nil =>
      intro b hb
      rcases b with _ | ⟨_, _⟩
      · simp
      · simp at hb
    | cons x a ih =>
      intro b hb
      rcases b with _ | ⟨y, b⟩
      · simp at hb
      · have hb' : a.length = b.length := by simpa using hb
        rw [List.zipWith_cons_cons, List.sum_cons, add_eq_zero_iff_of_nonneg (sq_nonneg _) (hsq _ _), ih b hb', sq_eq_zero_iff, sub_eq_zero, List.cons_eq_cons]
  have htot : 0 ≤ (List.zipWith (fun (r : HpRow K) y => (List.zipWith (fun a b => (b - a) ^ 2) r.num y).sum) rows ys).sum ∧
      ((List.zipWith (fun (r : HpRow K) y => (List.zipWith (fun a b => (b - a) ^ 2) r.num y).sum) rows ys).sum = 0 ↔
        ∀ r ∈ rows, ∃ o, hpForward net r.x = .ok (o, some r.num)) := by
    clear * - hyf hsq hz
    induction hyf with
    | nil => simp
    | @cons r y rs ys hro hf ih =>
      rw [List.zipWith_cons_cons, List.sum_cons]
      refine ⟨add_nonneg (hsq _ _) ih.1, ?_⟩
      rw [add_eq_zero_iff_of_nonneg (hsq _ _) ih.1, hz _ _ (by rw [hro.2.1, hro.2.2]), ih.2]
      obtain ⟨o, hoo⟩ := hro.1
      constructor
      · rintro ⟨e, hh⟩ r' hr'
        rcases List.mem_cons.1 hr' with rfl | hr'
        · exact ⟨o, by rw [← e]; exact hoo⟩
        · exact hh r' hr'
      · intro hh
        refine ⟨?_, fun r' hr' => hh r' (List.mem_cons_of_mem _ hr')⟩
        obtain ⟨o', ho'⟩ := hh r List.mem_cons_self
        rw [hoo] at ho'
        injection ho' with ho'
        injection ho' with _ e
        injection e
  refine ⟨⟨ys, hyf.imp fun _ _ h => h.1, ?_⟩, ?_, ?_⟩
  · rw [hl2, div_mul_cancel₀ _ hpos.ne']
  · rw [hl2]
    exact div_nonneg htot.1 hpos.le
  · rw [hl2, div_eq_zero_iff, ← htot.2]
    constructor
    · rintro (h | h)
      · exact h
      · exact absurd h hpos.ne'
    · exact Or.inl

/-! ## The network after training -/

theorem hp_loop_keep (P : HpNet K → Prop) (ce : List K → Nat → K) (step : S → HpNet K → List (HpRow K) → S × HpNet K)
    (hs : ∀ st n rows, P n → P (step st n rows).2) (perms : Nat → List Nat) (train val : List (HpRow K)) (a : HpTrain K) : ∀ (k epoch : Nat) (st st' : HpState S K),
    P st.net → hpLoop ce step perms train val a k epoch st = .ok st' → P st'.net := by
  intro k
  induction k with
  | zero =>
    intro epoch st st' hp h
    unfold hpLoop at h
    injection h with h
    subst h
    exact hp
  | succ k ih =>
    intro epoch st st' hp h
    unfold hpLoop at h
    obtain ⟨r, hr, h⟩ := (gm_bind_ok _ _ _).1 h
    obtain ⟨v, hv, h⟩ := (gm_bind_ok _ _ _).1 h
    simp only [] at h
    have hP : P r.1.2 := by
      unfold hpEpoch at hr
      obtain ⟨bs, _, hr⟩ := (gm_bind_ok _ _ _).1 hr
      obtain ⟨q, hq, hr⟩ := (gm_bind_ok _ _ _).1 hr
      obtain ⟨h1, _, _⟩ := hp_fold ce step (fun b => b.filterMap fun i => train[i]?) bs (st.opt, st.net) none q hq
      have hf : ∀ (bs : List (List Nat)) (st : S × HpNet K), P st.2 →
          P (bs.foldl (fun (st : S × HpNet K) b => step st.1 st.2 (b.filterMap fun i => train[i]?)) st).2 := by
        intro bs
        induction bs with
        | nil => intro st h; exact h
        | cons b bs ihb =>
          intro st h
          rw [List.foldl_cons]
          exact ihb _ (hs _ _ _ h)
      have hq1 : P q.1.2 := by
        rw [h1]
        exact hf bs _ hp
      rcases hq2 : q.2 with _ | l'
      · rw [hq2] at hr
        cases hr
      · rw [hq2] at hr
        injection hr with hr
        rw [← hr]
        exact hq1
    split at h
    · injection h with h
      subst h
      exact hP
    · exact ih _ _ st' hP h

/-- C149: after training with steps that keep the sizes of the layers, as those of the optimizers do, there are recommendations as before, for any rows of features. -/
theorem C149_trained (num : Option V → Except Err K) (ce : List K → Nat → K) (opt : String → S) (step : S → HpNet K → List (HpRow K) → S × HpNet K)
    (perm : List Nat) (perms : Nat → List Nat) (fx : List String × List (List (Option K))) (fy : List (String × List (Option V))) (c names : List String) (s : Hp V K)
    (hd : HpData fx fy c (some names) s) (hnd : (c ++ names).Nodup) (hv : ∀ n ∈ c, ∀ col, fy.lookup n = some col → ∃ v, some v ∈ col)
    (hsc : ∀ m, s.scale = some m → m.1.length = s.dim ∧ m.2.length = s.dim) (shared : List Nat) (cats : List (List Nat)) (nums : List Nat)
    (hs : ∀ st n rows, HpSized s shared cats nums n → HpSized s shared cats nums (step st n rows).2)
    (net : HpNet K) (hnet : HpSized s shared cats nums net) (path : List ((K × K) × (K × K))) (a : HpTrain K) (obj : HpObj V K)
    (h : hpTrain num ce opt step perm perms (some (s, some net, path)) a = .ok obj) (rows : List (List (Option K))) (hne : rows ≠ [])
    (hlen : ∀ r ∈ rows, r.length = fx.1.length) :
    ∃ ans, hpPredBy obj (.list rows) = .ok ans ∧ ans.length = rows.length ∧ ∀ d ∈ ans, d.map (·.1) = c ++ names ∧
      (∀ n ∈ c, ∃ v col, (n, Sum.inl v) ∈ d ∧ fy.lookup n = some col ∧ some v ∈ col) ∧ ∀ n ∈ names, ∃ q, (n, Sum.inr q) ∈ d := by
  obtain ⟨_, _, _, it, iv, train, val, st, _, _, _, _, hst, ho⟩ := hp_train_ok num ce opt step perm perms s net path a obj h
  have hsz := hp_loop_keep (HpSized s shared cats nums) ce step hs perms train val a a.epochs 0 _ st hnet hst
  rw [ho]
  exact C149_pred_partial fx fy c names s hd hnd hv hsc shared cats nums st.net hsz st.path (.list rows) rows (Or.inl rfl) hne hlen

end

/-! ## An example of training

33 rows with one feature, one categorical and one numerical parameter; the network is linear, and a step of the optimizer leaves it as it is or adds one to the bias of the
numerical parameter. -/

/-- The cross entropy of the example. -/
def hpExCe (y : List Rat) (k : Nat) : Rat := (y.map fun v => v * v).sum - 2 * y.getD k 0 + 1

/-- The step of the example. -/
def hpExStep (st : Nat) (n : HpNet Rat) (_ : List (HpRow Rat)) : Nat × HpNet Rat :=
  (st + 1, { n with nums := n.nums.map fun l => l.map fun r => (r.1, r.2 + 1) })

/-- The object of the example. -/
def hpExObj (a : HpArgs Rat Rat) : Except Err (HpObj Rat Rat) := do
  let s ← hpInit (List.insertionSort (· ≤ ·)) (fun _ => 1) a
  match s with
  | none => return none
  | some s => do
    let n ← hpBuild hpExInit s (some []) (some [[]]) (some [])
    return some (s, some n, [])

/-- The numbers of epochs, the last losses recorded and the recommendation after training. -/
def hpExTrain (a : HpArgs Rat Rat) (t : HpTrain Rat) (twice : Bool) : Except Err (Nat × Option ((Rat × Rat) × (Rat × Rat)) × List (List (String × (Rat ⊕ Rat)))) := do
  let o ← hpExObj a
  let num : Option Rat → Except Err Rat := fun v => match v with | some q => .ok q | none => .error .valueError
  let o ← hpTrain num hpExCe (fun _ => 0) hpExStep (List.range 33) (fun _ => List.range 29) o t
  let o ← if twice then hpTrain num hpExCe (fun _ => 0) hpExStep (List.range 33) (fun _ => List.range 29) o t else .ok o
  let p ← hpPredBy o (.list [[some 2], [none]])
  return ((o.map fun q => q.2.2.length).getD 0, o.bind fun q => q.2.2.getLast?, p)

example : (hpExTrain hpExArgs ⟨1, 3, 10, "SGD", 1 / 10, some 20⟩ false).toOption.map (fun r => (r.1, r.2.2)) =
    some (3, [[("p", Sum.inl 0), ("q", Sum.inr 11)], [("p", Sum.inl 0), ("q", Sum.inr 9)]]) := by decide +kernel

example : (hpExTrain hpExArgs ⟨1, 3, 10, "SGD", 1 / 10, some 20⟩ true).toOption.map (·.1) = some 6 := by decide +kernel

example : (hpExTrain hpExArgs ⟨1, 30, 28, "Adam", 1 / 10, some 1⟩ false).toOption.map (·.1) = some 22 := by decide +kernel

example : (hpExTrain hpExArgs ⟨1, 30, 29, "Adam", 1 / 10, some 1⟩ false).toOption = none := by decide +kernel

example : (hpExTrain { hpExArgs with dataY := some [("p", (List.range 33).map fun i => if i = 7 then none else some ((i % 2 : Nat) : Rat)),
    ("q", (List.range 33).map fun i => some (i : Rat))] } ⟨1, 3, 10, "SGD", 1 / 10, some 20⟩ false).toOption = none := by decide +kernel

example : (hpExTrain { hpExArgs with dataY := some [("p", (List.range 31).map fun i => some ((i % 2 : Nat) : Rat)),
    ("q", (List.range 31).map fun i => some (i : Rat))] } ⟨1, 3, 10, "SGD", 1 / 10, some 20⟩ false).toOption = none := by decide +kernel

end Kats
