import Verif.Model.AnomalyResponse
import Verif.Lemmas.TimeSeries

/-!
# Theorems about `AnomalyResponse` (C43, C72)
-/

namespace Kats

/-! ## Specification -/

/-- The component series of a response. -/
inductive Slot where
  | scores | lower | upper | predicted | magnitude | statSig
deriving DecidableEq

/-- The component series, if present. -/
def AResponse.part (a : AResponse) : Slot → Option RSeries
  | .scores => some a.scores
  | .lower => a.band.map (·.1)
  | .upper => a.band.map (·.2)
  | .predicted => a.predicted
  | .magnitude => some a.magnitude
  | .statSig => a.statSig

/-- The argument of `update` meant for a component. -/
def AUpdate.val (u : AUpdate) : Slot → ValArg
  | .scores => u.score
  | .lower => u.ciLower
  | .upper => u.ciUpper
  | .predicted => u.pred
  | .magnitude => u.anomMag
  | .statSig => u.statSig

/-- The values of an argument. -/
def ValArg.row : ValArg → List (Option Rat)
  | .scalar x => [x]
  | .array l => l

/-- An argument has the shape that a response with `k` series needs: one value per series, in an
array if there are several. -/
def ValArg.Fits (v : ValArg) (k : Nat) : Prop :=
  v.row.length = k ∧ (k ≠ 1 → ∃ l, v = .array l)

/-- The last `n` entries of a list. -/
def lastEntries {α : Type} (n : Nat) (l : List α) : List α := l.drop (l.length - n)

/-! ## Helpers -/

theorem zip_fst_snd {A B : Type} : ∀ l : List (A × B), (l.map (·.1)).zip (l.map (·.2)) = l
  | [] => rfl
  | x :: l => by simp [zip_fst_snd l]

theorem updateSlice_ok (srt : TimeSort (List (Option Rat))) (k : Nat) (ts : RSeries) (time : Int)
    (v : ValArg) (h : v.Fits k) :
    updateSlice srt k ts time v = .ok (srt.run (ts.drop 1 ++ [(time, v.row)])) := by
  obtain ⟨h1, h2⟩ := h
  have hz : ((ts.drop 1).map (·.1) ++ [time]).zip ((ts.drop 1).map (·.2) ++ [v.row])
      = ts.drop 1 ++ [(time, v.row)] := by
    rw [List.zip_append (by simp), zip_fst_snd]; rfl
  unfold updateSlice
  by_cases hk : k = 1
  · rw [if_pos hk]
    have hv : v.pdSeries = [v.row] := by
      cases v with
      | scalar x => rfl
      | array l =>
        have : l.length = 1 := by rw [← hk, ← h1]; rfl
        obtain ⟨x, rfl⟩ := List.length_eq_one_iff.1 this
        rfl
    rw [hv]
    unfold construct
    dsimp only
    rw [if_neg (by simp), if_neg (by simp), if_neg (by simp), if_neg (by simp), hz]
    simp [buildRows, sortByTime]
  · rw [if_neg hk]
    obtain ⟨l, rfl⟩ := h2 hk
    have hl : l.length = k := h1
    dsimp only
    rw [if_neg (by omega), List.take_of_length_le (by omega)]
    unfold construct
    dsimp only
    rw [if_neg (by simp), if_neg (by simp), if_neg (by simp)]
    simp [buildRows, sortByTime, ValArg.row]

/-- What a single well-shaped `update` does to every component. -/
theorem update_ok (srt : TimeSort (List (Option Rat))) (a : AResponse) (u : AUpdate)
    (h : ∀ s, (u.val s).Fits a.numSeries) :
    ∃ b, a.update srt u = (b, none) ∧ b.numSeries = a.numSeries ∧
      ∀ s, b.part s = (a.part s).map fun ts => srt.run (ts.drop 1 ++ [(u.time, (u.val s).row)]) := by
  have hs : ∀ (s : Slot) (ts : RSeries), updateSlice srt a.numSeries ts u.time (u.val s)
      = .ok (srt.run (ts.drop 1 ++ [(u.time, (u.val s).row)])) :=
    fun s ts => updateSlice_ok srt _ ts _ _ (h s)
  obtain ⟨sc, band, pr, mg, ss, k⟩ := a
  have e1 := hs .scores
  have e2 := hs .lower
  have e3 := hs .upper
  have e4 := hs .predicted
  have e5 := hs .magnitude
  have e6 := hs .statSig
  simp only [AUpdate.val] at e1 e2 e3 e4 e5 e6
  rcases band with _ | ⟨lo, up⟩ <;> rcases pr with _ | pr <;> rcases ss with _ | ss <;>
  · simp only [AResponse.update, updateScores, updateBand, updatePredicted, updateMagnitude,
      updateStatSig, arStage, e1, e2, e3, e4, e5, e6, bind, Except.bind, pure, Except.pure]
    refine ⟨_, rfl, rfl, ?_⟩
    intro s
    cases s <;> rfl

theorem updates_cons (srt : TimeSort (List (Option Rat))) (a b : AResponse) (u : AUpdate)
    (us : List AUpdate) (h : a.update srt u = (b, none)) :
    a.updates srt (u :: us) = b.updates srt us := by
  rw [AResponse.updates, h]

theorem sorted_times_eq {V W : Type} (s1 : TimeSort V) (s2 : TimeSort W) (l1 : List (Row V))
    (l2 : List (Row W)) (h : l1.map (·.1) = l2.map (·.1)) :
    (s1.run l1).map (·.1) = (s2.run l2).map (·.1) := by
  have p : ((s1.run l1).map (·.1)).Perm ((s2.run l2).map (·.1)) := by
    have h1 := (s1.perm l1).map (·.1)
    have h2 := (s2.perm l2).map (·.1)
    rw [h] at h1
    exact h1.trans h2.symm
  refine p.eq_of_pairwise (fun a b _ _ h1 h2 => le_antisymm h1 h2) ?_ ?_
  · exact List.pairwise_map.2 (s1.sorted l1)
  · exact List.pairwise_map.2 (s2.sorted l2)

/-! ## C43 -/

/-- C43 (any times): however the times of the updates are ordered, no update fails, every component
keeps its length, absent components stay absent, and components that had the same times have the
same times afterwards. -/
theorem C43_aligned (srt : TimeSort (List (Option Rat))) (a : AResponse) (us : List AUpdate)
    (hfit : ∀ u ∈ us, ∀ s, (u.val s).Fits a.numSeries)
    (hne : ∀ s ts, a.part s = some ts → ts ≠ [])
    (hal : ∀ s ts s' ts', a.part s = some ts → a.part s' = some ts' →
      ts.map (·.1) = ts'.map (·.1)) :
    ∃ b, a.updates srt us = (b, none)
      ∧ (∀ s, (b.part s).map List.length = (a.part s).map List.length)
      ∧ (∀ s ts s' ts', b.part s = some ts → b.part s' = some ts' →
          ts.map (·.1) = ts'.map (·.1)) := by
  induction us generalizing a with
  | nil => exact ⟨a, rfl, fun _ => rfl, hal⟩
  | cons u us ih =>
    obtain ⟨b, hb, hk, hp⟩ := update_ok srt a u (hfit u (List.mem_cons_self ..))
    have hlen : ∀ s, (b.part s).map List.length = (a.part s).map List.length := by
      intro s
      rw [hp s]
      cases hs : a.part s with
      | none => rfl
      | some ts =>
        have := List.length_pos_of_ne_nil (hne s ts hs)
        simp only [Option.map_some, (srt.perm _).length_eq]
        simp
        omega
    obtain ⟨c, hc, hl, hc'⟩ := ih b (fun v hv s => hk ▸ hfit v (List.mem_cons_of_mem _ hv) s)
      (by
        intro s ts hs he
        have := hlen s
        rw [hs, he] at this
        cases ha : a.part s with
        | none => simp [ha] at this
        | some ts' =>
          rw [ha] at this
          have h0 := List.length_pos_of_ne_nil (hne s ts' ha)
          simp at this
          omega)
      (by
        intro s ts s' ts' h1 h2
        rw [hp s] at h1
        rw [hp s'] at h2
        cases ha : a.part s with
        | none => simp [ha] at h1
        | some t1 =>
          cases hb : a.part s' with
          | none => simp [hb] at h2
          | some t2 =>
            rw [ha] at h1; rw [hb] at h2
            simp only [Option.map_some, Option.some.injEq] at h1 h2
            rw [← h1, ← h2]
            apply sorted_times_eq
            simp only [List.map_append, List.map_drop, hal s t1 s' t2 ha hb]
            rfl)
    exact ⟨c, by rw [updates_cons srt a b u us hb, hc], fun s => (hl s).trans (hlen s), hc'⟩

theorem lastEntries_push {α : Type} (l n : List α) (x : α) (h : l ≠ []) :
    lastEntries (l.drop 1 ++ [x]).length ((l.drop 1 ++ [x]) ++ n)
      = lastEntries l.length (l ++ x :: n) := by
  obtain ⟨y, l, rfl⟩ := List.exists_cons_of_ne_nil h
  unfold lastEntries
  simp only [List.drop_succ_cons, List.drop_zero, List.length_append, List.length_cons,
    List.length_nil, List.append_assoc, List.cons_append, List.nil_append]
  rw [show l.length + (n.length + 1) + 1 - (l.length + 1) = (n.length) + 1 by omega,
    List.drop_succ_cons]
  congr 1
  omega

/-- C43 (increasing times): after any number of updates with increasing times, each component holds
the most recent points of its history, as many as it had initially. -/
theorem C43_window (srt : TimeSort (List (Option Rat))) (a : AResponse) (us : List AUpdate)
    (hfit : ∀ u ∈ us, ∀ s, (u.val s).Fits a.numSeries)
    (hne : ∀ s ts, a.part s = some ts → ts ≠ [])
    (hinc : ∀ s ts, a.part s = some ts →
      (ts.map (·.1) ++ us.map (·.time)).Pairwise (· < ·)) :
    ∃ b, a.updates srt us = (b, none) ∧ ∀ s, b.part s = (a.part s).map fun ts =>
      lastEntries ts.length (ts ++ us.map fun u => (u.time, (u.val s).row)) := by
  induction us generalizing a with
  | nil =>
    refine ⟨a, rfl, fun s => ?_⟩
    cases a.part s with
    | none => rfl
    | some ts => simp [lastEntries]
  | cons u us ih =>
    obtain ⟨b, hb, hk, hp⟩ := update_ok srt a u (hfit u (List.mem_cons_self ..))
    have hp' : ∀ s, b.part s = (a.part s).map fun ts => ts.drop 1 ++ [(u.time, (u.val s).row)] := by
      intro s
      rw [hp s]
      cases hs : a.part s with
      | none => rfl
      | some ts =>
        simp only [Option.map_some, Option.some.injEq]
        apply TimeSort.run_eq_self
        rw [← List.pairwise_map (f := fun r : Row (List (Option Rat)) => r.1) (R := (· < ·))]
        have := hinc s ts hs
        refine this.sublist ?_
        rw [List.map_append]
        apply List.Sublist.append
        · rw [List.map_drop]; exact List.drop_sublist _ _
        · simp
    obtain ⟨c, hc, hc'⟩ := ih b (fun v hv s => hk ▸ hfit v (List.mem_cons_of_mem _ hv) s)
      (by
        intro s ts hs he
        rw [hp' s] at hs
        cases ha : a.part s with
        | none => simp [ha] at hs
        | some t => rw [ha] at hs; subst he; simp at hs)
      (by
        intro s ts hs
        rw [hp' s] at hs
        cases ha : a.part s with
        | none => simp [ha] at hs
        | some t =>
          rw [ha] at hs
          simp only [Option.map_some, Option.some.injEq] at hs
          have := hinc s t ha
          refine this.sublist ?_
          rw [← hs, List.map_append, List.map_drop, List.append_assoc]
          apply List.Sublist.append (List.drop_sublist _ _)
          simp)
    refine ⟨c, by rw [updates_cons srt a b u us hb, hc], fun s => ?_⟩
    rw [hc' s, hp' s]
    cases ha : a.part s with
    | none => rfl
    | some ts =>
      simp only [Option.map_some, Option.some.injEq, List.map_cons]
      exact lastEntries_push ts _ _ (hne s ts ha)

/-- The hypotheses of `C43_window` and `C43_aligned` are met by a response with two points, a band
and no prediction, updated twice. -/
example : ∃ (a : AResponse) (us : List AUpdate), us.length = 2 ∧
    (∀ u ∈ us, ∀ s, (u.val s).Fits a.numSeries) ∧ (∀ s ts, a.part s = some ts → ts ≠ []) ∧
    (∀ s ts, a.part s = some ts → (ts.map (·.1) ++ us.map (·.time)).Pairwise (· < ·)) ∧
    (∀ s ts s' ts', a.part s = some ts → a.part s' = some ts' →
      ts.map (·.1) = ts'.map (·.1)) := by
  let z : RSeries := [(0, [some 1]), (1, [some 2])]
  let v : ValArg := .scalar (some 7)
  refine ⟨⟨z, some (z, z), none, z, none, 1⟩, [⟨2, v, v, v, v, v, v⟩, ⟨3, v, v, v, v, v, v⟩], rfl,
    ?_, ?_, ?_, ?_⟩
  · intro u hu s
    simp at hu
    rcases hu with rfl | rfl <;> cases s <;> exact ⟨rfl, fun h => absurd rfl h⟩
  · intro s ts h
    cases s <;> simp [AResponse.part] at h <;> subst h <;> simp [z]
  · intro s ts h
    cases s <;> simp [AResponse.part] at h <;> subst h <;> simp [z]
  · intro s ts s' ts' h h'
    cases s <;> cases s' <;> simp [AResponse.part] at h h' <;> subst h <;> subst h' <;> rfl

/-! ### get_last_n -/

theorem pyFrom_neg {α : Type} (l : List α) (n : Nat) (h : 0 < n) :
    pyFrom l (-(n : Int)) = lastEntries n l := by
  unfold pyFrom pyIdx lastEntries
  rw [if_pos (by omega)]
  congr 1
  omega

theorem lastSlice_sorted (srt : TimeSort (List (Option Rat))) (n : Nat) (ts : RSeries) (hn : 0 < n)
    (h : ts.Pairwise (fun a b => a.1 < b.1)) : lastSlice srt n ts = lastEntries n ts := by
  unfold lastSlice
  rw [pyFrom_neg _ _ hn]
  simp only [buildRows, sortByTime, if_true]
  exact TimeSort.run_eq_self srt _ (h.sublist (List.drop_sublist _ _))

/-- C43: for `n ≥ 1`, `get_last_n(n)` holds the last `n` points of every component (all of them if
there are fewer). -/
theorem C43_last_n_partial (srt : TimeSort (List (Option Rat))) (a : AResponse) (n : Nat)
    (hn : 1 ≤ n) (hsort : ∀ s ts, a.part s = some ts → ts.Pairwise (fun a b => a.1 < b.1)) :
    ∀ s, (a.getLastN srt n).part s = (a.part s).map (lastEntries n) := by
  intro s
  have key : ∀ ts, a.part s = some ts → lastSlice srt n ts = lastEntries n ts :=
    fun ts h => lastSlice_sorted srt n ts hn (hsort s ts h)
  have h2 : (a.getLastN srt n).part s = (a.part s).map (lastSlice srt n) := by
    cases s <;> simp [AResponse.part, AResponse.getLastN] <;> cases a.band <;> simp
  rw [h2]
  cases hs : a.part s with
  | none => rfl
  | some ts => simp [key ts hs]

/-- C43 fails for `n = 0`: `get_last_n(0)` is the whole response, because `ts[-0:]` is `ts[0:]`.
Missing from `C43_last_n_partial`: exactly this case. -/
theorem C43_last_n_violated (srt : TimeSort (List (Option Rat))) (a : AResponse)
    (hsort : ∀ s ts, a.part s = some ts → ts.Pairwise (fun a b => a.1 < b.1)) :
    (∀ s, (a.getLastN srt 0).part s = a.part s)
    ∧ (a.scores ≠ [] → (a.getLastN srt 0).part .scores ≠ (a.part .scores).map (lastEntries 0)) := by
  have key : ∀ s ts, a.part s = some ts → lastSlice srt 0 ts = ts := by
    intro s ts h
    unfold lastSlice pyFrom pyIdx
    simp only [buildRows, sortByTime, if_true]
    simpa using TimeSort.run_eq_self srt ts (hsort s ts h)
  have h2 : ∀ s, (a.getLastN srt 0).part s = a.part s := by
    intro s
    have h2 : (a.getLastN srt 0).part s = (a.part s).map (lastSlice srt 0) := by
      cases s <;> simp [AResponse.part, AResponse.getLastN] <;> cases a.band <;> simp
    rw [h2]
    cases hs : a.part s with
    | none => rfl
    | some ts => simp [key s ts hs]
  refine ⟨h2, fun hne => ?_⟩
  rw [h2]
  simpa [AResponse.part, lastEntries] using hne

example : ∃ a : AResponse, a.scores ≠ [] ∧
    ∀ s ts, a.part s = some ts → ts.Pairwise (fun a b => a.1 < b.1) := by
  let z : RSeries := [(0, [some 1]), (1, [some 2])]
  refine ⟨⟨z, some (z, z), none, z, none, 1⟩, by simp [z], ?_⟩
  intro s ts h
  cases s <;> simp [AResponse.part] at h <;> subst h <;> simp [z]

/-- C43: `inplace_update` keeps all times, and changes, in every component, exactly the rows at the
given time to the given values. -/
theorem C43_inplace (a : AResponse) (time : Int) (v : Slot → List (Option Rat)) (s : Slot) :
    let b := a.inplaceUpdate time (v .scores) (v .upper) (v .lower) (v .predicted) (v .magnitude)
      (v .statSig)
    ∀ ts, a.part s = some ts → ∃ ts', b.part s = some ts' ∧ ts'.map (·.1) = ts.map (·.1) ∧
      ∀ i (h : i < ts.length) (h' : i < ts'.length),
        (ts[i].1 = time → ts'[i].2 = v s) ∧ (ts[i].1 ≠ time → ts'[i] = ts[i]) := by
  intro b ts hs
  have hb : b.part s = (a.part s).map (inplaceTs time (v s)) := by
    cases s <;> simp [b, AResponse.part, AResponse.inplaceUpdate] <;> cases a.band <;> simp
  rw [hb, hs]
  refine ⟨_, rfl, ?_, ?_⟩
  · simp only [inplaceTs, List.map_map]
    apply List.map_congr_left
    intro r _
    simp only [Function.comp]
    split <;> rfl
  · intro i h h'
    simp only [inplaceTs, List.getElem_map]
    constructor
    · intro e; rw [if_pos e]
    · intro e; rw [if_neg e]

example : ∃ (a : AResponse) (ts : RSeries), a.part .lower = some ts ∧ ts.length = 2 :=
  ⟨⟨[], some ([(0, []), (1, [])], []), none, [], none, 1⟩, _, rfl, rfl⟩

/-! ## C72: combining responses, and failures -/

/-- The two responses have the same components. -/
def SameParts (a b : AResponse) : Prop := ∀ s, (a.part s).isSome = (b.part s).isSome

theorem sameParts_iff (a b : AResponse) : SameParts a b ↔
    a.band.isNone = b.band.isNone ∧ a.predicted.isNone = b.predicted.isNone ∧
      a.statSig.isNone = b.statSig.isNone := by
  obtain ⟨_, ba, pa, _, sa, _⟩ := a
  obtain ⟨_, bb, pb, _, sb, _⟩ := b
  constructor
  · intro h
    have h1 := h .lower
    have h2 := h .predicted
    have h3 := h .statSig
    revert h1 h2 h3
    cases ba <;> cases bb <;> cases pa <;> cases pb <;> cases sa <;> cases sb <;>
      simp [AResponse.part]
  · rintro ⟨h1, h2, h3⟩ s
    revert h1 h2 h3
    cases s <;> cases ba <;> cases bb <;> cases pa <;> cases pb <;> cases sa <;> cases sb <;>
      simp [AResponse.part]

/-- C72: `extend` rejects a response with other components before changing anything; otherwise,
without validation (or if all joined series pass it), every component is extended by the other's. -/
theorem C72_extend (inferFreq : List Int → Bool) (a b : AResponse) (validate : Bool) :
    (¬ SameParts a b → a.extend inferFreq b validate = (a, some .valueError))
    ∧ (SameParts a b →
        (validate = true → ∀ s ta tb, a.part s = some ta → b.part s = some tb →
          inferFreq ((ta ++ tb).map (·.1)) = true) →
        ∃ c, a.extend inferFreq b validate = (c, none) ∧
          ∀ s ta tb, a.part s = some ta → b.part s = some tb → c.part s = some (ta ++ tb)) := by
  rw [sameParts_iff]
  constructor
  · intro h
    unfold AResponse.extend
    by_cases h1 : a.band.isNone = b.band.isNone
    · by_cases h2 : a.predicted.isNone = b.predicted.isNone
      · have h3 : a.statSig.isNone ≠ b.statSig.isNone := fun h3 => h ⟨h1, h2, h3⟩
        rw [if_neg (by simp [h1]), if_neg (by simp [h2]), if_pos (by simpa using h3)]
      · rw [if_neg (by simp [h1]), if_pos (by simpa using h2)]
    · rw [if_pos (by simpa using h1)]
  · rintro ⟨h1, h2, h3⟩ hv
    have ext : ∀ s ta tb, a.part s = some ta → b.part s = some tb →
        extendTs inferFreq validate ta tb = (ta ++ tb, none) := by
      intro s ta tb h h'
      unfold extendTs TSD.extend
      dsimp only
      rw [if_neg]
      cases hval : validate with
      | false => simp
      | true => simp only [Bool.true_and, hv hval s ta tb h h']; simp
    obtain ⟨sa, ba, pa, ma, ga, ka⟩ := a
    obtain ⟨sb, bb, pb, mb, gb, kb⟩ := b
    have e1 := ext .scores sa sb rfl rfl
    have e2 := ext .magnitude ma mb rfl rfl
    have e3 : ∀ x y, ba = some x → bb = some y → extendTs inferFreq validate x.1 y.1 = (x.1 ++ y.1, none) :=
      fun x y hx hy => ext .lower x.1 y.1 (by simp [AResponse.part, hx]) (by simp [AResponse.part, hy])
    have e4 : ∀ x y, ba = some x → bb = some y → extendTs inferFreq validate x.2 y.2 = (x.2 ++ y.2, none) :=
      fun x y hx hy => ext .upper x.2 y.2 (by simp [AResponse.part, hx]) (by simp [AResponse.part, hy])
    have e5 : ∀ x y, pa = some x → pb = some y → extendTs inferFreq validate x y = (x ++ y, none) :=
      fun x y hx hy => ext .predicted x y (by simp [AResponse.part, hx]) (by simp [AResponse.part, hy])
    have e6 : ∀ x y, ga = some x → gb = some y → extendTs inferFreq validate x y = (x ++ y, none) :=
      fun x y hx hy => ext .statSig x y (by simp [AResponse.part, hx]) (by simp [AResponse.part, hy])
    clear ext hv
    unfold AResponse.extend
    rw [if_neg (by simpa using h1), if_neg (by simpa using h2), if_neg (by simpa using h3)]
    rcases ba with _ | ⟨l1, u1⟩ <;> rcases bb with _ | ⟨l2, u2⟩ <;>
      try (exfalso; simp at h1; done)
    all_goals rcases pa with _ | p1 <;> rcases pb with _ | p2 <;>
      try (exfalso; simp at h2; done)
    all_goals rcases ga with _ | g1 <;> rcases gb with _ | g2 <;>
      try (exfalso; simp at h3; done)
    all_goals
      try have e3' := e3 _ _ rfl rfl
      try have e4' := e4 _ _ rfl rfl
      try have e5' := e5 _ _ rfl rfl
      try have e6' := e6 _ _ rfl rfl
      clear e3 e4 e5 e6
      simp only [extendStage, Option.map_some, Option.map_none, *]
      refine ⟨_, rfl, ?_⟩
      intro s ta tb
      cases s <;> simp +contextual [AResponse.part]

example : ∃ a b : AResponse, SameParts a b ∧ ¬ SameParts a { b with band := none } := by
  let z : RSeries := [(0, [some 1]), (1, [some 2])]
  refine ⟨⟨z, some (z, z), none, z, none, 1⟩, ⟨z, some (z, z), none, z, none, 1⟩, fun _ => rfl, ?_⟩
  intro h
  have := h .lower
  simp [AResponse.part] at this

/-- All components have the same times. -/
def AResponse.Aligned (a : AResponse) : Prop :=
  ∀ s ts s' ts', a.part s = some ts → a.part s' = some ts' → ts.map (·.1) = ts'.map (·.1)

/-- C72 is violated by `update`: a rejected update can leave the response changed, with components
of different times.  Witness: the score is fine, the lower bound is an array of two values. -/
theorem C72_update_violated (srt : TimeSort (List (Option Rat))) :
    ∃ (a : AResponse) (u : AUpdate) (e : Err), a.Aligned ∧ (a.update srt u).2 = some e ∧
      (a.update srt u).1 ≠ a ∧ ¬ (a.update srt u).1.Aligned := by
  let z : RSeries := [(0, [some 1]), (1, [some 2])]
  let v : ValArg := .scalar (some 7)
  let a : AResponse := ⟨z, some (z, z), none, z, none, 1⟩
  let u : AUpdate := ⟨2, v, v, .array [none, none], v, v, v⟩
  have h1 : updateSlice srt 1 z 2 v = .ok [(1, [some 2]), (2, [some 7])] := by
    rw [updateSlice_ok srt 1 z 2 v ⟨rfl, fun h => absurd rfl h⟩]
    rw [TimeSort.run_eq_self]
    · rfl
    · simp [z]
  have h2 : updateSlice srt 1 z 2 (.array [none, none]) = .error .valueError := by
    simp [updateSlice, construct, z, ValArg.pdSeries]
  have hu : a.update srt u = ({ a with scores := [(1, [some 2]), (2, [some 7])] }, some .valueError) := by
    simp only [AResponse.update, updateScores, updateBand, updatePredicted, updateMagnitude,
      updateStatSig, arStage, a, u, h1, h2, bind, Except.bind, pure, Except.pure]
  refine ⟨a, u, .valueError, ?_, ?_, ?_, ?_⟩
  · intro s ts s' ts' h h'
    cases s <;> cases s' <;> simp [AResponse.part, a] at h h' <;> subst h <;> subst h' <;> rfl
  · rw [hu]
  · rw [hu]
    intro h
    have := congrArg AResponse.scores h
    simp [a, z] at this
  · rw [hu]
    intro h
    have := h .scores _ .magnitude _ rfl rfl
    simp [a, z] at this

/-- A component after `update`: as before, or moved on by one point. -/
def Slid (srt : TimeSort (List (Option Rat))) (k : Nat) (u : AUpdate) (s : Slot) (a b : AResponse) :
    Prop :=
  b.part s = a.part s ∨ ∃ ts ts', a.part s = some ts ∧ b.part s = some ts' ∧
    updateSlice srt k ts u.time (u.val s) = .ok ts'

theorem arStage_band (f : AResponse → Except Err AResponse)
    (hf : ∀ a b, f a = .ok b → b.band = a.band) (p : AResponse × Option Err) :
    (arStage f p).1.band = p.1.band := by
  unfold arStage
  split
  · rfl
  · split
    · rename_i h; exact hf _ _ h
    · rfl

theorem update_band (srt : TimeSort (List (Option Rat))) (a : AResponse) (u : AUpdate) :
    (a.update srt u).1.band
      = (arStage (updateBand srt u) (arStage (updateScores srt u) (a, none))).1.band := by
  unfold AResponse.update
  rw [arStage_band, arStage_band, arStage_band]
  · intro a b h
    unfold updatePredicted at h
    split at h
    · injection h with h; rw [h]
    · revert h
      simp only [bind, Except.bind, pure, Except.pure]
      split
      · simp
      · intro h; injection h with h; rw [← h]
  · intro a b h
    revert h
    simp only [updateMagnitude, bind, Except.bind, pure, Except.pure]
    split
    · simp
    · intro h; injection h with h; rw [← h]
  · intro a b h
    unfold updateStatSig at h
    split at h
    · injection h with h; rw [h]
    · revert h
      simp only [bind, Except.bind, pure, Except.pure]
      split
      · simp
      · intro h; injection h with h; rw [← h]

/-- C72 (what remains true of a failing `update`): if the score itself is rejected nothing changes;
in general every component is either unchanged or moved on by one point, and the two halves of the
confidence band move together.  Missing: all components move together. -/
theorem C72_update_partial (srt : TimeSort (List (Option Rat))) (a : AResponse) (u : AUpdate) :
    (∀ e, updateSlice srt a.numSeries a.scores u.time u.score = .error e →
      a.update srt u = (a, some e))
    ∧ (∀ s, Slid srt a.numSeries u s a (a.update srt u).1)
    ∧ ((a.update srt u).1.part .lower ≠ a.part .lower →
        ∃ ts ts', a.part .upper = some ts ∧ (a.update srt u).1.part .upper = some ts' ∧
          updateSlice srt a.numSeries ts u.time u.ciUpper = .ok ts') := by
  obtain ⟨sc, band, pr, mg, ss, k⟩ := a
  refine ⟨?_, ?_, ?_⟩
  · intro e he
    simp only at he
    simp only [AResponse.update, updateScores, arStage, he, bind, Except.bind]
  · intro s
    cases h1 : updateSlice srt k sc u.time u.score with
    | error e =>
      left
      simp only [AResponse.update, updateScores, arStage, h1, bind, Except.bind]
    | ok s1 =>
      have f1 : ∀ a, updateScores srt u ⟨sc, a, pr, mg, ss, k⟩ = .ok ⟨s1, a, pr, mg, ss, k⟩ := by
        intro a
        simp only [updateScores, h1, bind, Except.bind, pure, Except.pure]
      cases hb : updateBand srt u ⟨s1, band, pr, mg, ss, k⟩ with
      | error e =>
        simp only [AResponse.update, arStage, f1, hb]
        cases s
        case scores => exact .inr ⟨_, _, rfl, rfl, h1⟩
        all_goals exact .inl rfl
      | ok a2 =>
        have hb' : ∃ band', a2 = ⟨s1, band', pr, mg, ss, k⟩ ∧ (band = none → band' = none) ∧
            ∀ lo up, band = some (lo, up) → ∃ lo' up', band' = some (lo', up') ∧
              updateSlice srt k lo u.time u.ciLower = .ok lo' ∧
              updateSlice srt k up u.time u.ciUpper = .ok up' := by
          rcases band with _ | ⟨lo, up⟩
          · simp only [updateBand] at hb
            injection hb with hb
            exact ⟨none, hb.symm, fun _ => rfl, fun _ _ h => by simp at h⟩
          · simp only [updateBand, bind, Except.bind, pure, Except.pure] at hb
            cases h2 : updateSlice srt k lo u.time u.ciLower with
            | error e => rw [h2] at hb; simp at hb
            | ok lo' =>
              rw [h2] at hb
              cases h3 : updateSlice srt k up u.time u.ciUpper with
              | error e => simp only [h3] at hb; simp at hb
              | ok up' =>
                simp only [h3] at hb
                injection hb with hb
                refine ⟨_, hb.symm, fun h => by simp at h, ?_⟩
                intro l' u' h
                injection h with h
                injection h with h h'
                subst h; subst h'
                exact ⟨lo', up', rfl, h2, h3⟩
        obtain ⟨band', rfl, hn, hs'⟩ := hb'
        have hlo : Slid srt k u .lower ⟨sc, band, pr, mg, ss, k⟩ ⟨s1, band', pr, mg, ss, k⟩ := by
          rcases band with _ | ⟨lo, up⟩
          · rw [hn rfl]; exact .inl rfl
          · obtain ⟨lo', up', rfl, g1, g2⟩ := hs' lo up rfl
            exact .inr ⟨lo, lo', rfl, rfl, g1⟩
        have hup : Slid srt k u .upper ⟨sc, band, pr, mg, ss, k⟩ ⟨s1, band', pr, mg, ss, k⟩ := by
          rcases band with _ | ⟨lo, up⟩
          · rw [hn rfl]; exact .inl rfl
          · obtain ⟨lo', up', rfl, g1, g2⟩ := hs' lo up rfl
            exact .inr ⟨up, up', rfl, rfl, g2⟩
        simp only [AResponse.update, arStage, f1, hb]
        cases hp : updatePredicted srt u ⟨s1, band', pr, mg, ss, k⟩ with
        | error e =>
          cases s
          case scores => exact .inr ⟨_, _, rfl, rfl, h1⟩
          case lower => exact hlo
          case upper => exact hup
          all_goals exact .inl rfl
        | ok a3 =>
          have hp' : ∃ pr', a3 = ⟨s1, band', pr', mg, ss, k⟩ ∧
              Slid srt k u .predicted ⟨sc, band, pr, mg, ss, k⟩ ⟨s1, band', pr', mg, ss, k⟩ := by
            rcases pr with _ | p
            · simp only [updatePredicted] at hp
              injection hp with hp
              exact ⟨none, hp.symm, .inl rfl⟩
            · simp only [updatePredicted, bind, Except.bind, pure, Except.pure] at hp
              cases h2 : updateSlice srt k p u.time u.pred with
              | error e => rw [h2] at hp; simp at hp
              | ok p' =>
                rw [h2] at hp
                injection hp with hp
                exact ⟨some p', hp.symm, .inr ⟨p, p', rfl, rfl, h2⟩⟩
          obtain ⟨pr', rfl, hpr⟩ := hp'
          dsimp only
          cases hm : updateSlice srt k mg u.time u.anomMag with
          | error e =>
            simp only [updateMagnitude, hm, bind, Except.bind]
            cases s
            case scores => exact .inr ⟨_, _, rfl, rfl, h1⟩
            case lower => exact hlo
            case upper => exact hup
            case predicted => exact hpr
            all_goals exact .inl rfl
          | ok m' =>
            simp only [updateMagnitude, hm, bind, Except.bind, pure, Except.pure]
            rcases ss with _ | q
            · simp only [updateStatSig]
              cases s
              case scores => exact .inr ⟨_, _, rfl, rfl, h1⟩
              case lower => exact hlo
              case upper => exact hup
              case predicted => exact hpr
              case magnitude => exact .inr ⟨_, _, rfl, rfl, hm⟩
              all_goals exact .inl rfl
            · cases hq : updateSlice srt k q u.time u.statSig with
              | error e =>
                simp only [updateStatSig, hq, bind, Except.bind]
                cases s
                case scores => exact .inr ⟨_, _, rfl, rfl, h1⟩
                case lower => exact hlo
                case upper => exact hup
                case predicted => exact hpr
                case magnitude => exact .inr ⟨_, _, rfl, rfl, hm⟩
                all_goals exact .inl rfl
              | ok q' =>
                simp only [updateStatSig, hq, bind, Except.bind, pure, Except.pure]
                cases s
                case scores => exact .inr ⟨_, _, rfl, rfl, h1⟩
                case lower => exact hlo
                case upper => exact hup
                case predicted => exact hpr
                case magnitude => exact .inr ⟨_, _, rfl, rfl, hm⟩
                case statSig => exact .inr ⟨_, _, rfl, rfl, hq⟩
  · have hband := update_band srt ⟨sc, band, pr, mg, ss, k⟩ u
    simp only [AResponse.part, hband]
    cases h1 : updateSlice srt k sc u.time u.score with
    | error e =>
      simp only [updateScores, arStage, h1, bind, Except.bind]
      exact fun h => absurd rfl h
    | ok s1 =>
      rcases band with _ | ⟨lo, up⟩
      · simp only [updateScores, updateBand, arStage, h1, bind, Except.bind, pure, Except.pure]
        exact fun h => absurd rfl h
      · cases h2 : updateSlice srt k lo u.time u.ciLower with
        | error e =>
          simp only [updateScores, updateBand, arStage, h1, h2, bind, Except.bind, pure, Except.pure]
          exact fun h => absurd rfl h
        | ok lo' =>
          cases h3 : updateSlice srt k up u.time u.ciUpper with
          | error e =>
            simp only [updateScores, updateBand, arStage, h1, h2, h3, bind, Except.bind, pure,
              Except.pure]
            exact fun h => absurd rfl h
          | ok up' =>
            simp only [updateScores, updateBand, arStage, h1, h2, h3, bind, Except.bind, pure,
              Except.pure]
            exact fun _ => ⟨up, up', rfl, rfl, h3⟩

/-- C72 is violated by `extend` with validation: when the joined scores fail it, `ValueError` is
raised with the scores extended and the other components not. -/
theorem C72_extend_violated : ∃ (inferFreq : List Int → Bool) (a b : AResponse), a.Aligned ∧
    b.Aligned ∧ SameParts a b ∧ (a.extend inferFreq b true).2 = some .valueError ∧
    ¬ (a.extend inferFreq b true).1.Aligned := by
  let z : RSeries := [(0, [some 1]), (1, [some 2])]
  let w : RSeries := [(7, [some 1]), (9, [some 2])]
  let a : AResponse := ⟨z, none, none, z, none, 1⟩
  let b : AResponse := ⟨w, none, none, w, none, 1⟩
  have al : ∀ z : RSeries, (⟨z, none, none, z, none, 1⟩ : AResponse).Aligned := by
    intro z s ts s' ts' h h'
    cases s <;> cases s' <;> simp [AResponse.part] at h h' <;> subst h <;> subst h' <;> rfl
  refine ⟨fun _ => false, a, b, al z, al w, ?_, rfl, ?_⟩
  · intro s; cases s <;> rfl
  · intro h
    have := h .scores (z ++ w) .magnitude z rfl rfl
    simp [z, w] at this

end Kats
