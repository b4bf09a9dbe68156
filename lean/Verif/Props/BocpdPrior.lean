import Verif.Model.BocpdPrior
import Verif.Props.BocpdReg
import Verif.Props.GmEvaluate

/-!
# C159: the priors of BOCPD
-/

namespace Kats

section
variable {K : Type} [Field K] [LinearOrder K]

/-! ## The search -/

/-- What an evaluation of an arm gives, whatever was evaluated before: the score of the model for the parameters of the arm. -/
def BcScore (score : BcModel K → K → Option K) (cols : List (List K)) (p : BcParams K) (arm : BcArm K) (v : Option K) : Prop :=
  ∃ c m, arm "cp_prior" = some c ∧ bcMake (bcSet p arm) cols = .ok m ∧ bcRuns m cols = true ∧ v = score m c

/-- Two objects that differ in what `set_prior` may set for an arm only. -/
def BcSame (p q : BcParams K) : Prop := ∃ u c, q = { p with multiplier := u, cpPrior := c } ∧ (p.kind ≠ .normal → u = p.multiplier)

theorem bc_same_refl (p : BcParams K) : BcSame p p := ⟨p.multiplier, p.cpPrior, rfl, fun _ => rfl⟩

theorem bc_same_set (p q : BcParams K) (h : BcSame p q) (arm : BcArm K) : BcSame p (bcSet q arm) := by
  obtain ⟨u, c, rfl, hu⟩ := h
  refine ⟨_, _, rfl, ?_⟩
  intro hk
  show (if p.kind = .normal then (arm "known_prec_multiplier").getD u else u) = _
  rw [if_neg hk, hu hk]

/-- An arm that has a value for each name that is searched. -/
def BcFull (p : BcParams K) (arm : BcArm K) : Prop := (arm "cp_prior").isSome ∧ (p.kind = .normal → (arm "known_prec_multiplier").isSome)

theorem bc_set_same (p q : BcParams K) (h : BcSame p q) (arm : BcArm K) (hf : BcFull p arm) : bcSet q arm = bcSet p arm := by
  obtain ⟨u, c, rfl, hu⟩ := h
  obtain ⟨h1, h2⟩ := hf
  obtain ⟨cv, hc⟩ := Option.isSome_iff_exists.1 h1
  unfold bcSet
  simp only [hc, Option.getD_some]
  by_cases hk : p.kind = .normal
  · obtain ⟨mv, hm⟩ := Option.isSome_iff_exists.1 (h2 hk)
    simp [hk, hm]
  · simp [hk, hu hk]

theorem bc_eval (score : BcModel K → K → Option K) (cols : List (List K)) (p q : BcParams K) (h : BcSame p q) (arm : BcArm K) :
    BcSame p (bcEval score cols q arm).1 ∧ ∀ v, BcFull p arm → (bcEval score cols q arm).2 = .ok v → BcScore score cols p arm v := by
  unfold bcEval
  cases hc : arm "cp_prior" with
  | none => exact ⟨h, fun v _ hv => by cases hv⟩
  | some c =>
    cases hm : bcMake (bcSet q arm) cols with
    | error e =>
      simp only [hm]
      exact ⟨bc_same_set p q h arm, fun v _ hv => by cases hv⟩
    | ok m =>
      simp only [hm]
      cases hr : bcRuns m cols with
      | false =>
        simp only [Bool.false_eq_true, if_false]
        exact ⟨bc_same_set p q h arm, fun v _ hv => by cases hv⟩
      | true =>
        simp only [if_true]
        refine ⟨bc_same_set p q h arm, fun v hf hv => ?_⟩
        rw [bc_set_same p q h arm hf] at hm
        exact ⟨c, m, hc, hm, hr, (Except.ok.inj hv).symm⟩

theorem bc_round (score : BcModel K → K → Option K) (cols : List (List K)) (p : BcParams K) (arms : List (BcArm K)) : ∀ q, BcSame p q →
    BcSame p (bcRound score cols q arms).1 ∧ ∀ t, (∀ a ∈ arms, BcFull p a) → (bcRound score cols q arms).2 = some t →
      t.map (·.1) = arms ∧ ∀ e ∈ t, BcScore score cols p e.1 e.2 := by
  induction arms with
  | nil =>
    intro q h
    refine ⟨h, fun t _ ht => ?_⟩
    obtain rfl := Option.some.inj ht
    exact ⟨rfl, fun e he => by cases he⟩
  | cons a l ih =>
    intro q h
    obtain ⟨h1, h2⟩ := bc_eval score cols p q h a
    unfold bcRound
    cases hv : (bcEval score cols q a).2 with
    | error e =>
      simp only [hv]
      exact ⟨h1, fun t _ ht => by cases ht⟩
    | ok v =>
      simp only [hv]
      obtain ⟨h3, h4⟩ := ih _ h1
      refine ⟨h3, fun t hf ht => ?_⟩
      obtain ⟨t', ht', rfl⟩ := Option.map_eq_some_iff.1 ht
      obtain ⟨h5, h6⟩ := h4 t' (fun b hb => hf b (List.mem_cons_of_mem _ hb)) ht'
      refine ⟨by rw [List.map_cons, h5], ?_⟩
      intro e he
      rcases List.mem_cons.1 he with rfl | he
      · exact h2 v (hf a (by simp)) hv
      · exact h6 e he

theorem bc_rounds (score : BcModel K → K → Option K) (cols : List (List K)) (strict : Bool) (p : BcParams K) (l : List (List (BcArm K)))
    (hf : ∀ arms ∈ l, ∀ a ∈ arms, BcFull p a) : ∀ q, BcSame p q →
    BcSame p (bcRounds score cols strict q l).1 ∧ ∀ t, (bcRounds score cols strict q l).2 = .ok t →
      (∀ e ∈ t, (∃ arms ∈ l, e.1 ∈ arms) ∧ BcScore score cols p e.1 e.2) ∧ (strict = true → t.map (·.1) = l.flatten) := by
  induction l with
  | nil =>
    intro q h
    refine ⟨h, fun t ht => ?_⟩
    obtain rfl := Except.ok.inj ht
    exact ⟨fun e he => (by cases he), fun _ => rfl⟩
  | cons arms l ih =>
    intro q h
    obtain ⟨h1, h2⟩ := bc_round score cols p arms q h
    obtain ⟨h3, h4⟩ := ih (fun a ha => hf a (List.mem_cons_of_mem _ ha)) _ h1
    unfold bcRounds
    by_cases hs : (strict && (bcRound score cols q arms).2.isNone) = true
    · simp only [hs, if_true]
      exact ⟨h1, fun t ht => by cases ht⟩
    · simp only [hs, Bool.false_eq_true, if_false]
      refine ⟨h3, fun t ht => ?_⟩
      cases hq : (bcRounds score cols strict (bcRound score cols q arms).1 l).2 with
      | error e => rw [hq] at ht; cases ht
      | ok t' =>
        rw [hq] at ht
        obtain rfl := Except.ok.inj ht
        obtain ⟨h5, h6⟩ := h4 t' hq
        have hrow : ∀ e ∈ (bcRound score cols q arms).2.getD [], e.1 ∈ arms ∧ BcScore score cols p e.1 e.2 := by
          intro e he
          cases hr : (bcRound score cols q arms).2 with
          | none => rw [hr] at he; cases he
          | some tr =>
            rw [hr] at he
            obtain ⟨h7, h8⟩ := h2 tr (hf arms (by simp)) hr
            exact ⟨by rw [← h7]; exact List.mem_map_of_mem he, h8 e he⟩
        refine ⟨?_, ?_⟩
        · intro e he
          rcases List.mem_append.1 he with he | he
          · exact ⟨⟨arms, by simp, (hrow e he).1⟩, (hrow e he).2⟩
          · obtain ⟨⟨ar, har, hin⟩, hsc⟩ := h5 e he
            exact ⟨⟨ar, List.mem_cons_of_mem _ har, hin⟩, hsc⟩
        · intro hst
          cases hr : (bcRound score cols q arms).2 with
          | none => rw [hst, hr] at hs; exact absurd rfl hs
          | some tr =>
            rw [List.flatten_cons, Option.getD_some, List.map_append, (h2 tr (hf arms (by simp)) hr).1, h6 hst]

/-- The order of the rows: descending, NaN last. -/
def BcOrd (a b : Option K) : Prop := ∀ y, b = some y → ∃ x, a = some x ∧ y ≤ x

/-- A sort by the score. -/
def BcSorts (S : BcSearch K) : Prop := ∀ t, (S.sort t).Perm t ∧ (S.sort t).Pairwise fun a b => BcOrd a.2 b.2

/-- What the choice gives: an arm that was proposed and whose score no other arm that was evaluated exceeds. -/
theorem bc_choose (S : BcSearch K) (hS : BcSorts S) (score : BcModel K → K → Option K) (cols : List (List K)) (p : BcParams K)
    (hf : ∀ n, ∀ arms ∈ S.propose p.choice p.method n, ∀ a ∈ arms, BcFull p a) (r : K × BcParams K) (h : bcChoose S score cols p = .ok r) :
    ∃ n arm v, ((p.method = "random" ∧ n = 3) ∨ (p.method = "gridsearch" ∧ n = 1))
      ∧ (∃ arms ∈ S.propose p.choice p.method n, arm ∈ arms) ∧ BcScore score cols p arm v
      ∧ arm "cp_prior" = some r.1 ∧ r.2 = bcSet p arm
      ∧ (S.strict = true → ∀ arms ∈ S.propose p.choice p.method n, ∀ a ∈ arms, ∃ w, BcScore score cols p a w ∧ BcOrd v w) := by
  unfold bcChoose at h
  obtain ⟨n, hn, h⟩ := (gm_bind_ok _ _ _).1 h
  by_cases hc : p.choice = []
  · rw [if_pos hc] at h; cases h
  rw [if_neg hc] at h
  obtain ⟨t, ht, h⟩ := (gm_bind_ok _ _ _).1 h
  obtain ⟨hs, hrows⟩ := bc_rounds score cols S.strict p (S.propose p.choice p.method n) (hf n) p (bc_same_refl p)
  obtain ⟨h1, h2⟩ := hrows t ht
  obtain ⟨hperm, hord⟩ := hS t
  cases hsort : S.sort t with
  | nil => rw [hsort] at h; cases h
  | cons b l =>
    rw [hsort] at h
    simp only [] at h
    rw [hsort] at hperm hord
    have hb := h1 b (hperm.subset (by simp))
    obtain ⟨hb1, c, m, hcp, hm, hr, hv⟩ := hb
    rw [hcp] at h
    obtain rfl := Except.ok.inj h
    have hfull : BcFull p b.1 := by
      obtain ⟨arms, ha, hin⟩ := hb1
      exact hf n arms ha b.1 hin
    refine ⟨n, b.1, b.2, ?_, hb1, ⟨c, m, hcp, hm, hr, hv⟩, hcp, bc_set_same p _ hs b.1 hfull, ?_⟩
    · unfold bcCount at hn
      by_cases hm1 : p.method = "random"
      · rw [if_pos hm1] at hn
        exact Or.inl ⟨hm1, (Except.ok.inj hn).symm⟩
      · rw [if_neg hm1] at hn
        by_cases hm2 : p.method = "gridsearch"
        · rw [if_pos hm2] at hn
          exact Or.inr ⟨hm2, (Except.ok.inj hn).symm⟩
        · rw [if_neg hm2] at hn; cases hn
    · intro hst arms ha a hin
      have : a ∈ t.map (·.1) := by
        rw [h2 hst]
        exact List.mem_flatten.2 ⟨arms, ha, hin⟩
      obtain ⟨e, he, rfl⟩ := List.mem_map.1 this
      refine ⟨e.2, (h1 e he).2, ?_⟩
      rcases List.mem_cons.1 (hperm.symm.subset he) with rfl | he'
      · intro y hy
        exact ⟨y, hy, le_refl _⟩
      · exact (List.pairwise_cons.1 hord).1 e he'

/-- C159: the prior that is used is that of the best of all arms proposed in three random rounds or one on the grid, with the
score of the model for exactly the values of the arm; these are set in the parameters and all other parameters stay.  The
prior given as an argument is not used. -/
theorem C159_choice {R : Type} (S : BcSearch K) (hS : BcSorts S) (score : BcModel K → K → Option K) (run : BcModel K → K → R) (cols : List (List K)) (a : BcArgs K)
    (hc : a.choose = true) (p : BcParams K) (hp : p = a.params.getD (bcDefault a.kind))
    (hf : ∀ n, ∀ arms ∈ S.propose p.choice p.method n, ∀ a ∈ arms, BcFull p a) (r : R × BcParams K) (h : bcDetector S score run cols a = .ok r) :
    ∃ n arm v c m m', ((p.method = "random" ∧ n = 3) ∨ (p.method = "gridsearch" ∧ n = 1))
      ∧ (∃ arms ∈ S.propose p.choice p.method n, arm ∈ arms) ∧ arm "cp_prior" = some c ∧ BcScore score cols p arm v
      ∧ (S.strict = true → ∀ arms ∈ S.propose p.choice p.method n, ∀ a ∈ arms, ∃ w, BcScore score cols p a w ∧ BcOrd v w)
      ∧ r.2 = { p with data := true, cpPrior := c, multiplier := if p.kind = .normal then (arm "known_prec_multiplier").getD p.multiplier else p.multiplier }
      ∧ bcMake r.2 cols = .ok m ∧ bcSetup m cols = .ok m' ∧ r.1 = run m' c := by
  unfold bcDetector at h
  rw [← hp] at h
  simp only [] at h
  by_cases hk : p.kind ≠ a.kind
  · rw [if_pos hk] at h; cases h
  rw [if_neg hk] at h
  rw [if_pos hc] at h
  obtain ⟨q, hq, h⟩ := (gm_bind_ok _ _ _).1 h
  by_cases hl : cols.length ≠ 1 ∧ a.kind ≠ .normal
  · rw [if_pos hl] at h; cases h
  rw [if_neg hl] at h
  obtain ⟨m, hm, h⟩ := (gm_bind_ok _ _ _).1 h
  obtain ⟨m', hm', h⟩ := (gm_bind_ok _ _ _).1 h
  by_cases hr : bcRuns m' cols = true
  · rw [if_pos hr] at h
    obtain rfl := Except.ok.inj h
    obtain ⟨n, arm, v, h1, h2, h3, h4, h5, h6⟩ := bc_choose S hS score cols p hf q hq
    refine ⟨n, arm, v, q.1, m, m', h1, h2, h4, h3, h6, ?_, hm, hm', rfl⟩
    show { q.2 with data := true } = _
    rw [h5]
    unfold bcSet
    rw [h4]
    rfl
  · rw [if_neg hr] at h; cases h

/-- C159: without a choice the prior given is used, and the parameters are as given. -/
theorem C159_given {R : Type} (S : BcSearch K) (score : BcModel K → K → Option K) (run : BcModel K → K → R) (cols : List (List K)) (a : BcArgs K)
    (hc : a.choose = false) (p : BcParams K) (hp : p = a.params.getD (bcDefault a.kind)) (r : R × BcParams K) :
    bcDetector S score run cols a = .ok r ↔ p.kind = a.kind ∧ (cols.length = 1 ∨ a.kind = .normal) ∧ r.2 = { p with data := true } ∧
      ∃ m m', bcMake p cols = .ok m ∧ bcSetup m cols = .ok m' ∧ bcRuns m' cols = true ∧ r.1 = run m' a.prior := by
  have hmk : bcMake { p with data := true } cols = bcMake p cols := rfl
  unfold bcDetector
  rw [← hp]
  simp only [hc, Bool.false_eq_true, if_false]
  constructor
  · intro h
    by_cases hk : p.kind ≠ a.kind
    · rw [if_pos hk] at h; cases h
    rw [if_neg hk] at h
    obtain ⟨q, hq, h⟩ := (gm_bind_ok _ _ _).1 h
    obtain rfl := Except.ok.inj hq
    by_cases hl : cols.length ≠ 1 ∧ a.kind ≠ .normal
    · rw [if_pos hl] at h; cases h
    rw [if_neg hl] at h
    obtain ⟨m, hm, h⟩ := (gm_bind_ok _ _ _).1 h
    obtain ⟨m', hm', h⟩ := (gm_bind_ok _ _ _).1 h
    by_cases hr : bcRuns m' cols = true
    · rw [if_pos hr] at h
      obtain rfl := Except.ok.inj h
      refine ⟨not_not.1 hk, ?_, rfl, m, m', hm, hm', hr, rfl⟩
      by_contra hc
      simp only [not_or] at hc
      exact hl hc
    · rw [if_neg hr] at h; cases h
  · rintro ⟨hk, hl, h2, m, m', hm, hm', hr, h1⟩
    rw [if_neg (not_not.2 hk)]
    show (if cols.length ≠ 1 ∧ a.kind ≠ .normal then (Except.error .valueError : Except Err (R × BcParams K)) else do
      let m ← bcMake { p with data := true } cols
      let m ← bcSetup m cols
      if bcRuns m cols = true then return (run m a.prior, { p with data := true }) else .error .otherError) = _
    rw [if_neg (by rintro ⟨x, y⟩; rcases hl with hl | hl <;> contradiction), hmk, hm]
    show (do
      let m ← bcSetup m cols
      if bcRuns m cols = true then return (run m a.prior, { p with data := true }) else Except.error Err.otherError : Except Err (R × BcParams K)) = _
    rw [hm']
    show (if bcRuns m' cols = true then return (run m' a.prior, { p with data := true }) else Except.error Err.otherError : Except Err (R × BcParams K)) = _
    rw [if_pos hr, ← h1, ← h2]
    rfl

/-- C159 violated: the prior of the parameters should be the default of the prior.  It is never read: whatever it is, the result is
the same. -/
theorem C159_default_violated {R : Type} (S : BcSearch K) (score : BcModel K → K → Option K) (run : BcModel K → K → R) (cols : List (List K)) (a : BcArgs K)
    (hc : a.choose = false) (p : BcParams K) (c : K) :
    (bcDetector S score run cols { a with params := some p }).map (·.1)
      = (bcDetector S score run cols { a with params := some { p with cpPrior := c } }).map (·.1) := by
  have e1 : bcMake { p with cpPrior := c, data := true } cols = bcMake { p with data := true } cols := rfl
  unfold bcDetector
  simp only [hc, Bool.false_eq_true, if_false, Option.getD_some]
  split
  · rfl
  · show Except.map _ (if cols.length ≠ 1 ∧ a.kind ≠ .normal then (Except.error .valueError : Except Err (R × BcParams K)) else _)
      = Except.map _ (if cols.length ≠ 1 ∧ a.kind ≠ .normal then (Except.error .valueError : Except Err (R × BcParams K)) else _)
    split
    · rfl
    · show Except.map _ (bcMake { p with data := true } cols >>= _) = Except.map _ (bcMake { p with cpPrior := c, data := true } cols >>= _)
      rw [e1]
      cases bcMake { p with data := true } cols with
      | error e => rfl
      | ok m =>
        show Except.map _ (bcSetup m cols >>= _) = Except.map _ (bcSetup m cols >>= _)
        cases bcSetup m cols with
        | error e => rfl
        | ok m' =>
          show Except.map _ (if bcRuns m' cols = true then _ else _) = Except.map _ (if bcRuns m' cols = true then _ else _)
          split <;> rfl

/-- If no arm can be evaluated, nothing is chosen. -/
theorem bc_fail (S : BcSearch K) (hS : BcSorts S) (score : BcModel K → K → Option K) (cols : List (List K)) (p : BcParams K)
    (hbad : ∀ q arm, BcSame p q → ∃ e, (bcEval score cols q arm).2 = .error e) (r : K × BcParams K) : bcChoose S score cols p ≠ .ok r := by
  have round : ∀ (arms : List (BcArm K)) q, BcSame p q → BcSame p (bcRound score cols q arms).1 ∧ (bcRound score cols q arms).2.getD [] = [] := by
    intro arms q h
    cases arms with
    | nil => exact ⟨h, rfl⟩
    | cons a l =>
      obtain ⟨e, he⟩ := hbad q a h
      have h1 := (bc_eval score cols p q h a).1
      unfold bcRound
      simp only [he]
      exact ⟨h1, rfl⟩
  have rounds : ∀ (l : List (List (BcArm K))) q, BcSame p q → ∀ t, (bcRounds score cols S.strict q l).2 = .ok t → t = [] := by
    intro l
    induction l with
    | nil =>
      intro q _ t ht
      exact (Except.ok.inj ht).symm
    | cons arms l ih =>
      intro q h t ht
      obtain ⟨h1, h2⟩ := round arms q h
      unfold bcRounds at ht
      by_cases hs : (S.strict && (bcRound score cols q arms).2.isNone) = true
      · simp only [hs, if_true] at ht; cases ht
      · simp only [hs, Bool.false_eq_true, if_false] at ht
        cases hq : (bcRounds score cols S.strict (bcRound score cols q arms).1 l).2 with
        | error e => rw [hq] at ht; cases ht
        | ok t' =>
          rw [hq] at ht
          obtain rfl := Except.ok.inj ht
          rw [h2, ih _ h1 t' hq]
          rfl
  intro h
  unfold bcChoose at h
  obtain ⟨n, hn, h⟩ := (gm_bind_ok _ _ _).1 h
  by_cases hc : p.choice = []
  · rw [if_pos hc] at h; cases h
  rw [if_neg hc] at h
  obtain ⟨t, ht, h⟩ := (gm_bind_ok _ _ _).1 h
  have ht0 := rounds _ p (bc_same_refl p) t ht
  have := (hS t).1.length_eq
  rw [ht0] at this h
  rw [List.eq_nil_of_length_eq_zero this] at h
  cases h

/-- C159 violated: priors should be chosen for each model.  For the trend model with two points or more the choice, which is the
default, fails always, whatever the parameters: the evaluation leaves out `setup`. -/
theorem C159_trend_violated {R : Type} (S : BcSearch K) (hS : BcSorts S) (score : BcModel K → K → Option K) (run : BcModel K → K → R) (cols : List (List K))
    (hl : 2 ≤ (cols.headD []).length) (a : BcArgs K) (hk : a.kind = .trend) (hc : a.choose = true) (r : R × BcParams K) :
    bcDetector S score run cols a ≠ .ok r := by
  intro h
  unfold bcDetector at h
  simp only [] at h
  by_cases hne : (a.params.getD (bcDefault a.kind)).kind ≠ a.kind
  · rw [if_pos hne] at h; cases h
  rw [if_neg hne, if_pos hc] at h
  obtain ⟨q, hq, _⟩ := (gm_bind_ok _ _ _).1 h
  refine bc_fail S hS score cols _ ?_ q hq
  rintro q arm ⟨u, c, rfl, _⟩
  have hkind := (not_not.1 hne).trans hk
  unfold bcEval
  cases hcp : arm "cp_prior" with
  | none => exact ⟨_, rfl⟩
  | some c' =>
    have hm : ∀ p : BcParams K, p.kind = .trend → ∃ e, (match bcMake p cols with
        | .error e => (p, (.error e : Except Err (Option K)))
        | .ok m => if bcRuns m cols then (p, .ok (score m c')) else (p, .error .otherError)).2 = .error e := by
      intro p hp
      unfold bcMake
      rw [hp]
      simp only []
      rw [if_neg (by
        unfold bcRuns blrInit
        simp only [Option.isSome_none, Bool.false_or, decide_eq_true_eq]
        omega)]
      exact ⟨_, rfl⟩
    exact hm _ hkind

/-- C159: without `cp_prior` among the values of the arms, with another method of search or with nothing to search, the choice fails. -/
theorem C159_refused (S : BcSearch K) (score : BcModel K → K → Option K) (cols : List (List K)) (p : BcParams K) :
    (p.method ≠ "random" → p.method ≠ "gridsearch" → bcChoose S score cols p = .error .otherError)
    ∧ (p.method = "random" ∨ p.method = "gridsearch" → p.choice = [] → bcChoose S score cols p = .error .valueError)
    ∧ ∀ q arm, arm "cp_prior" = none → (bcEval score cols q arm).2 = .error .keyError := by
  refine ⟨?_, ?_, ?_⟩
  · intro h1 h2
    unfold bcChoose bcCount
    rw [if_neg h1, if_neg h2]
    rfl
  · intro h1 h2
    unfold bcChoose bcCount
    rcases h1 with h1 | h1
    · rw [if_pos h1]
      show (if p.choice = [] then _ else _) = _
      rw [if_pos h2]
    · rw [if_neg (by rw [h1]; decide), if_pos h1]
      show (if p.choice = [] then _ else _) = _
      rw [if_pos h2]
  · intro q arm h
    unfold bcEval
    rw [h]

/-- C159 violated: the multiplier should matter for the normal model.  For priors that are given it does not: arms that differ in it
have the same score. -/
theorem C159_multiplier_violated (score : BcModel K → K → Option K) (cols : List (List K)) (p : BcParams K) (hk : p.kind = .normal) (he : p.empirical = false)
    (arm arm' : BcArm K) (h : arm "cp_prior" = arm' "cp_prior") (v w : Option K) (hv : BcScore score cols p arm v) (hw : BcScore score cols p arm' w) : v = w := by
  obtain ⟨c, m, h1, h2, _, rfl⟩ := hv
  obtain ⟨c', m', h1', h2', _, rfl⟩ := hw
  have hc : c = c' := Option.some.inj (by rw [← h1, h, h1'])
  have hm : ∀ arm : BcArm K, bcMake (bcSet p arm) cols = bcMake p cols := by
    intro arm
    have hk' : (bcSet p arm).kind = .normal := hk
    have he' : (bcSet p arm).empirical = false := he
    unfold bcMake
    rw [hk, hk']
    simp only []
    unfold bcNormal
    rw [he, he']
    rfl
  rw [hm] at h2 h2'
  rw [hc, Except.ok.inj (h2.symm.trans h2')]

/-! ## Empirical priors -/

theorem bc_mean_map (l : List K) (h : (l.length : K) ≠ 0) (c d : K) : bcMean (l.map fun x => c * x + d) = c * bcMean l + d := by
  have : (l.map fun x => c * x + d).sum = c * l.sum + (l.length : K) * d := by
    clear h
    induction l with
    | nil => simp
    | cons x l ih =>
      simp only [List.map_cons, List.sum_cons, List.length_cons, Nat.cast_succ]
      rw [ih]
      ring
  unfold bcMean
  rw [this, List.length_map]
  field_simp

theorem bc_var_map (l : List K) (h : (l.length : K) ≠ 0) (c d : K) : bcVar (l.map fun x => c * x + d) = c ^ 2 * bcVar l := by
  unfold bcVar
  rw [bc_mean_map l h, List.map_map, List.length_map]
  have : ∀ l' : List K, (l'.map ((fun v => (v - (c * bcMean l + d)) * (v - (c * bcMean l + d))) ∘ fun x => c * x + d)).sum
      = c ^ 2 * (l'.map fun v => (v - bcMean l) * (v - bcMean l)).sum := by
    intro l'
    induction l' with
    | nil => simp
    | cons x l' ih =>
      simp only [List.map_cons, List.sum_cons, Function.comp] at ih ⊢
      rw [ih]
      ring
  rw [this, mul_div_assoc]

variable [IsStrictOrderedRing K]

theorem bc_windows_map (l : List K) (c d : K) : bcWindows (l.map fun x => c * x + d) = (bcWindows l).map fun v => c ^ 2 * v := by
  unfold bcWindows
  rw [List.length_map, List.map_map]
  apply List.map_congr_left
  intro i hi
  have hi' := List.mem_range.1 hi
  show bcVar (((l.map fun x => c * x + d).drop i).take 10) = c ^ 2 * bcVar ((l.drop i).take 10)
  rw [← List.map_drop, ← List.map_take, bc_var_map]
  have : ((l.drop i).take 10).length = 10 := by
    rw [List.length_take, List.length_drop]
    omega
  rw [this]
  norm_num

/-- C159: the empirical prior follows the units of the series.  If each value `x` is replaced by `c * x + d`, the expected level
follows, and both precisions are divided by `c ^ 2`; nothing else changes. -/
theorem C159_units (p : BcParams K) (he : p.empirical = true) (cols : List (List K)) (hl : ∀ l ∈ cols, 10 ≤ l.length) (c d : K)
    (pr : List (K × K × K)) (h : bcNormal p cols = .ok (.normal pr)) :
    bcNormal p (cols.map fun l => l.map fun x => c * x + d) = .ok (.normal (pr.map fun e => (c * e.1 + d, e.2.1 / c ^ 2, e.2.2 / c ^ 2))) := by
  unfold bcNormal at h ⊢
  rw [if_pos he] at h ⊢
  by_cases hs : (cols.headD []).length < 10
  · rw [if_pos hs] at h; cases h
  rw [if_neg hs] at h
  have hh : ((cols.map fun l => l.map fun x => c * x + d).headD []).length = (cols.headD []).length := by
    cases cols with
    | nil => rfl
    | cons l t => simp
  rw [if_neg (by rw [hh]; exact hs)]
  obtain rfl := BcModel.normal.inj (Except.ok.inj h)
  congr 2
  rw [List.map_map, List.map_map]
  apply List.map_congr_left
  intro l hm
  have h10 := hl l hm
  have hne : ∀ n : Nat, 0 < n → (n : K) ≠ 0 := fun n hn => by
    have : (0 : K) < n := by exact_mod_cast hn
    exact this.ne'
  have hw : bcMean ((bcWindows l).map fun v => c ^ 2 * v) = c ^ 2 * bcMean (bcWindows l) := by
    have hlen : (((bcWindows l).length : Nat) : K) ≠ 0 := by
      unfold bcWindows
      rw [List.length_map, List.length_range]
      exact hne _ (by omega)
    have := bc_mean_map (bcWindows l) hlen (c ^ 2) 0
    simpa using this
  show (bcMean (l.map fun x => c * x + d), 1 / bcVar (l.map fun x => c * x + d), p.multiplier / bcMean (bcWindows (l.map fun x => c * x + d)))
    = (c * bcMean l + d, 1 / bcVar l / c ^ 2, p.multiplier / bcMean (bcWindows l) / c ^ 2)
  rw [bc_mean_map l (hne _ (by omega)), bc_var_map l (hne _ (by omega)), bc_windows_map, hw, div_div, div_div, mul_comm (c ^ 2), mul_comm (c ^ 2)]

/-- C159: what the empirical prior is.  The level expected is the one from which the sum of squares of the deviations is least, this
sum is the number of points less one over the first precision, and the second precision is the multiplier over the mean variance of
ten points in a row. -/
theorem C159_empirical (p : BcParams K) (he : p.empirical = true) (l : List K) (hl : 10 ≤ l.length) (h0 : bcVar l ≠ 0) :
    ∃ mu q k, bcNormal p [l] = .ok (.normal [(mu, q, k)])
      ∧ (∀ u, (l.map fun v => (v - mu) ^ 2).sum ≤ (l.map fun v => (v - u) ^ 2).sum)
      ∧ q * (l.map fun v => (v - mu) ^ 2).sum = (l.length : K) - 1
      ∧ k = p.multiplier * ((l.length - 9 : Nat) : K) / ((List.range (l.length - 9)).map fun i => bcVar ((l.drop i).take 10)).sum := by
  have hn : (0 : K) < (l.length : K) := by
    have : 0 < l.length := by omega
    exact_mod_cast this
  have hn1 : (0 : K) < (l.length : K) - 1 := by
    have : (10 : K) ≤ (l.length : K) := by exact_mod_cast hl
    linarith
  refine ⟨bcMean l, 1 / bcVar l, p.multiplier / bcMean (bcWindows l), ?_, ?_, ?_, ?_⟩
  · unfold bcNormal
    rw [if_pos he, if_neg (show ¬ (([l] : List (List K)).headD []).length < 10 by simpa using hl)]
    rfl
  · intro u
    have key : ∀ (l' : List K) (w : K), (l'.map fun v => (v - u) ^ 2).sum
        = (l'.map fun v => (v - w) ^ 2).sum + 2 * (w - u) * (l'.sum - (l'.length : K) * w) + (l'.length : K) * (w - u) ^ 2 := by
      intro l' w
      induction l' with
      | nil => simp
      | cons x l' ih =>
        simp only [List.map_cons, List.sum_cons, List.length_cons, Nat.cast_succ]
        rw [ih]
        ring
    rw [key l (bcMean l)]
    have hz : l.sum - (l.length : K) * bcMean l = 0 := by
      unfold bcMean
      rw [mul_div_cancel₀ _ hn.ne', sub_self]
    rw [hz]
    have := mul_nonneg hn.le (sq_nonneg (bcMean l - u))
    linarith
  · have hv : bcVar l * ((l.length : K) - 1) = (l.map fun v => (v - bcMean l) ^ 2).sum := by
      have e : (l.map fun v => (v - bcMean l) ^ 2) = l.map fun v => (v - bcMean l) * (v - bcMean l) :=
        List.map_congr_left fun v _ => by ring
      unfold bcVar
      rw [e, div_mul_cancel₀ _ hn1.ne']
    rw [← hv, ← mul_assoc, one_div, inv_mul_cancel₀ h0, one_mul]
  · unfold bcMean bcWindows
    rw [List.length_map, List.length_range, show l.length + 1 - 10 = l.length - 9 by omega, div_div_eq_mul_div]

/-- C159: fewer than ten points are refused; priors that are given are used for each series, and all three are needed. -/
theorem C159_normal (p : BcParams K) (cols : List (List K)) :
    (p.empirical = true → (cols.headD []).length < 10 → bcNormal p cols = .error .valueError)
    ∧ (p.empirical = false → ∀ m q k, p.mean = some m → p.meanPrec = some q → p.knownPrec = some k →
      bcNormal p cols = .ok (.normal (List.replicate cols.length (m, q, k))))
    ∧ (p.empirical = false → p.mean = none ∨ p.meanPrec = none ∨ p.knownPrec = none → bcNormal p cols = .error .valueError) := by
  refine ⟨?_, ?_, ?_⟩
  · intro h1 h2
    unfold bcNormal
    rw [if_pos h1, if_pos h2]
  · intro h1 m q k hm hq hk
    unfold bcNormal
    rw [h1, hm, hq, hk]
    simp
  · intro h1 h2
    unfold bcNormal
    rw [h1]
    simp only [Bool.false_eq_true, if_false]
    rcases h2 with h2 | h2 | h2
    · rw [h2]
    · rw [h2]
      cases p.mean <;> rfl
    · rw [h2]
      cases p.mean <;> cases p.meanPrec <;> rfl

end

/-! ## Examples -/

/-- An arm with values for both names. -/
def bcArm (u c : Rat) : BcArm Rat := fun k => if k = "known_prec_multiplier" then some u else if k = "cp_prior" then some c else none

/-- A search that proposes three arms in each round, with an insertion sort. -/
def bcSearch : BcSearch Rat where
  propose := fun _ _ n => List.replicate n [bcArm 1 (1 / 100), bcArm 3 (2 / 100), bcArm 2 (5 / 1000)]
  strict := true
  sort := List.insertionSort fun a b => (match b.2 with | none => true | some y => match a.2 with | none => false | some x => decide (y ≤ x)) = true

/-- A sort as it is needed. -/
example : BcSorts bcSearch := by
  have ht : Std.Total fun a b : BcArm Rat × Option Rat => (match b.2 with | none => true | some y => match a.2 with | none => false | some x => decide (y ≤ x)) = true :=
    ⟨fun a b => by
      rcases a with ⟨_, _ | x⟩ <;> rcases b with ⟨_, _ | y⟩ <;> simp [le_total]⟩
  have htr : IsTrans (BcArm Rat × Option Rat) fun a b => (match b.2 with | none => true | some y => match a.2 with | none => false | some x => decide (y ≤ x)) = true :=
    ⟨fun a b c h1 h2 => by
      rcases a with ⟨_, _ | x⟩ <;> rcases b with ⟨_, _ | y⟩ <;> rcases c with ⟨_, _ | z⟩ <;> simp at h1 h2 ⊢
      exact le_trans h2 h1⟩
  intro t
  refine ⟨List.perm_insertionSort _ _, ?_⟩
  refine (List.pairwise_insertionSort _ t).imp ?_
  intro a b h y hy
  rw [hy] at h
  cases ha : a.2 with
  | none => rw [ha] at h; simp at h
  | some x =>
    rw [ha] at h
    exact ⟨x, rfl, by simpa using h⟩

/-- A score that is best for the greatest known precision. -/
def bcScore : BcModel Rat → Rat → Option Rat
  | .normal [(_, _, k)], _ => some k
  | _, c => some c

/-- Ten values. -/
def bcVals : List Rat := [1, 2, 3, 4, 5, 6, 7, 8, 9, 10]

/-- The normal model: the arm with the multiplier three is taken.  The trend model fails. -/
example : ((bcDetector bcSearch bcScore (fun _ c => c) [bcVals] ⟨.normal, none, true, 1 / 2⟩).toOption.map fun r => (r.1, r.2.cpPrior, r.2.multiplier))
      = some (2 / 100, 2 / 100, 3)
    ∧ ((bcDetector bcSearch bcScore (fun _ c => c) [bcVals] ⟨.normal, none, false, 1 / 2⟩).toOption.map fun r => (r.1, r.2.cpPrior, r.2.multiplier))
      = some (1 / 2, 1 / 10, 1)
    ∧ (bcDetector bcSearch bcScore (fun _ c => c) [bcVals] ⟨.trend, none, true, 1 / 2⟩).toOption.isNone
    ∧ (bcDetector bcSearch bcScore (fun _ c => c) [bcVals] ⟨.trend, none, false, 1 / 2⟩).toOption.isSome := by
  decide +kernel

/-- The empirical prior of the ten values. -/
example : bcMean bcVals = 11 / 2 ∧ bcVar bcVals = 55 / 6 ∧ bcWindows bcVals = [55 / 6] := by decide +kernel

/-- C159: before the run the regression has a prior for the line: the one that was given, or the best line through the first
points; without it, and with fewer than two points, it is refused. Other models need none. -/
theorem C159_line {K : Type} [Field K] [LinearOrder K] [IsStrictOrderedRing K] (cols : List (List K)) :
    (∀ a pr l, a.mu = some l → ∃ pr', bcSetup (.trend a pr) cols = .ok (.trend a pr') ∧ pr'.mu = some l)
    ∧ (∀ a pr, a.mu = none → min a.points (cols.headD []).length < 2 → bcSetup (.trend a pr) cols = .error .valueError)
    ∧ (∀ a pr, a.mu = none → 2 ≤ min a.points (cols.headD []).length → ∃ ic sl pr',
      bcSetup (.trend a pr) cols = .ok (.trend a pr') ∧ pr'.mu = some (ic, sl) ∧ bcRuns (.trend a pr') cols = true
      ∧ ∀ u v, (u, v) ≠ (ic, sl) →
        BrErr (cols.headD []) (min a.points (cols.headD []).length) ic sl < BrErr (cols.headD []) (min a.points (cols.headD []).length) u v)
    ∧ ∀ m : BcModel K, (∀ a pr, m ≠ .trend a pr) → bcSetup m cols = .ok m := by
  refine ⟨?_, ?_, ?_, ?_⟩
  · intro a pr l hl
    refine ⟨⟨some l, 1 / 10, 200⟩, ?_, rfl⟩
    · unfold bcSetup
      simp only [(C158_setup a (cols.headD [])).1 l hl]
      rfl
  · intro a pr h1 h2
    unfold bcSetup
    simp only [(C158_setup a (cols.headD [])).2.1 h1 h2]
    rfl
  · intro a pr h1 h2
    obtain ⟨ic, sl, a0, b0, h3, h4, _⟩ := (C158_setup a (cols.headD [])).2.2 h1 h2
    refine ⟨ic, sl, ⟨some (ic, sl), a0, b0⟩, ?_, rfl, rfl, h4⟩
    unfold bcSetup
    simp only [h3]
    rfl
  · intro m hm
    cases m with
    | trend a pr => exact absurd rfl (hm a pr)
    | _ => rfl

example : 2 ≤ min 40 (([bcVals].headD [])).length := by decide +kernel

end Kats
