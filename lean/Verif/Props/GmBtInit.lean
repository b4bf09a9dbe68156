import Verif.Model.GmBacktest
import Verif.Props.GmEnsPredict

/-!
# C145: the arguments of a backtest of global models and its training and test sets
-/

namespace Kats

/-! ## The arguments -/

/-- What is left of a series if it begins at a time. -/
def gmSince (t : Option Int) (ts : GmTs) : GmTs :=
  match t with
  | none => ts
  | some t => ts.filter fun r => decide (t ≤ r.1)

/-- A number of test series: an integer between 1 and the number of series, which it is not, or a part of them. -/
def GmBtSizeOk (n : Nat) (t : GmNum) : Prop :=
  (IsPosInt t ∧ t.toInt < n) ∨ ∃ q, t = .flt (.fin q) ∧ 0 < q ∧ q < 1

theorem intBelow_iff (c : GmNum) (n : Nat) :
    (c.isInt && gmLt (.fin 0) c.val && gmLt c.val (.fin n)) = true ↔ IsPosInt c ∧ c.toInt < n := by
  rcases c with z | b | x
  · simp only [GmNum.isInt, GmNum.val, GmNum.toInt, gmLt, gmLe, IsPosInt, Bool.true_and, Bool.and_eq_true,
      decide_eq_true_eq, Bool.not_eq_true', decide_eq_false_iff_not]
    constructor
    · rintro ⟨⟨h1, h2⟩, h3, h4⟩
      have h5 : (0 : Int) < z := by
        rw [not_le] at h2
        exact_mod_cast h2
      rw [not_le] at h4
      exact ⟨Or.inl ⟨z, by omega, rfl⟩, by exact_mod_cast h4⟩
    · rintro ⟨⟨w, hw, h⟩ | h, h3⟩
      · injection h with h
        subst h
        rw [not_le, not_le]
        have h4 : ((z : Int) : Rat) < (n : Rat) := by exact_mod_cast h3
        have h5 : (0 : Rat) < ((z : Int) : Rat) := by exact_mod_cast (by omega : (0 : Int) < z)
        exact ⟨⟨h5.le, h5⟩, h4.le, h4⟩
      · cases h
  · cases b
    · simp [GmNum.isInt, GmNum.val, GmNum.toInt, gmLt, gmLe, IsPosInt]
    · simp only [GmNum.isInt, GmNum.val, GmNum.toInt, gmLt, gmLe, IsPosInt, Bool.true_and, Bool.and_eq_true,
        decide_eq_true_eq, Bool.not_eq_true', decide_eq_false_iff_not, if_true]
      constructor
      · rintro ⟨_, _, h⟩
        rw [not_le] at h
        exact ⟨Or.inr trivial, by exact_mod_cast h⟩
      · rintro ⟨_, h⟩
        have h' : (1 : Rat) < n := by exact_mod_cast h
        exact ⟨⟨by norm_num, by norm_num⟩, h'.le, not_le.2 h'⟩
  · simp [GmNum.isInt, IsPosInt]

theorem btTestSize_spec (n : Nat) (t : GmNum) :
    ((∃ m, gmBtTestSize n t = .ok m) ↔ GmBtSizeOk n t) ∧
    (∀ err, gmBtTestSize n t = .error err → err = .valueError) ∧
    ∀ m, gmBtTestSize n t = .ok m → (1 ≤ n → m < n) ∧
      (t.isInt = true → (m : Int) = t.toInt ∧ 1 ≤ m) ∧ ∀ q, t = .flt (.fin q) → m = ((n : Rat) * q).floor.toNat := by
  unfold gmBtTestSize
  by_cases h : (t.isInt && gmLt (.fin 0) t.val && gmLt t.val (.fin n)) = true
  · rw [if_pos h]
    have h1 := (intBelow_iff t n).1 h
    have h2 := posInt_toNat _ h1.1
    refine ⟨⟨fun _ => Or.inl h1, fun _ => ⟨_, rfl⟩⟩, fun err he => (by cases he), fun m hm => ?_⟩
    injection hm with hm
    subst hm
    refine ⟨fun _ => by omega, fun _ => ⟨by omega, h2⟩, ?_⟩
    rintro q rfl
    simp [GmNum.isInt] at h
  · rw [if_neg h]
    have hno : ¬ (IsPosInt t ∧ t.toInt < n) := fun hh => h ((intBelow_iff t n).2 hh)
    rcases t with z | b | x
    · refine ⟨⟨fun ⟨m, hm⟩ => (by cases hm), ?_⟩, fun err he => (by injection he with he; exact he.symm),
        fun m hm => by cases hm⟩
      rintro (h1 | ⟨q, hq, _⟩)
      · exact absurd h1 hno
      · cases hq
    · refine ⟨⟨fun ⟨m, hm⟩ => (by cases hm), ?_⟩, fun err he => (by injection he with he; exact he.symm),
        fun m hm => by cases hm⟩
      rintro (h1 | ⟨q, hq, _⟩)
      · exact absurd h1 hno
      · cases hq
    · rcases x with q | _ | _ | _
      · simp only []
        by_cases hq : 0 < q ∧ q < 1
        · rw [if_pos hq]
          refine ⟨⟨fun _ => Or.inr ⟨q, rfl, hq⟩, fun _ => ⟨_, rfl⟩⟩, fun err he => (by cases he), fun m hm => ?_⟩
          injection hm with hm
          subst hm
          refine ⟨fun hn => ?_, fun hi => (by cases hi), ?_⟩
          · have hn' : (1 : Rat) ≤ n := by exact_mod_cast hn
            have h1 : (n : Rat) * q < n := by nlinarith [hq.1, hq.2]
            have h2 := Rat.floor_le ((n : Rat) * q)
            have h3 : ((((n : Rat) * q).floor : Int) : Rat) < ((n : Int) : Rat) := by
              push_cast
              exact lt_of_le_of_lt h2 h1
            have h4 : ((n : Rat) * q).floor < (n : Int) := by exact_mod_cast h3
            omega
          · intro q' hq'
            injection hq' with hq'
            injection hq' with hq'
            subst hq'
            rfl
        · rw [if_neg hq]
          refine ⟨⟨fun ⟨m, hm⟩ => (by cases hm), ?_⟩, fun err he => (by injection he with he; exact he.symm),
            fun m hm => by cases hm⟩
          rintro (h1 | ⟨q', hq', h2⟩)
          · exact absurd h1 hno
          · injection hq' with hq'
            injection hq' with hq'
            subst hq'
            exact absurd h2 hq
      all_goals
        refine ⟨⟨fun ⟨m, hm⟩ => (by cases hm), ?_⟩, fun err he => (by injection he with he; exact he.symm),
          fun m hm => by cases hm⟩
        rintro (h1 | ⟨q, hq, _⟩)
        · exact absurd h1 hno
        · cases hq

theorem btCores_spec (cores : Nat) (hc : 1 ≤ cores) (c : Option GmNum) :
    ((∃ m, gmBtCores cores c = .ok m) ↔ ∀ x, c = some x → IsPosInt x ∧ x.toInt < cores) ∧
    (∀ err, gmBtCores cores c = .error err → err = .valueError) ∧
    ∀ m, gmBtCores cores c = .ok m → 1 ≤ m ∧ m ≤ cores ∧ ∀ x, c = some x → (m : Int) = x.toInt := by
  unfold gmBtCores
  rcases c with _ | c
  · simp only []
    refine ⟨⟨fun _ => (by simp), fun _ => ⟨_, rfl⟩⟩, fun err he => (by cases he), fun m hm => ?_⟩
    injection hm with hm
    subst hm
    exact ⟨by omega, by omega, by simp⟩
  · simp only []
    by_cases h : (c.isInt && gmLt (.fin 0) c.val && gmLt c.val (.fin cores)) = true
    · rw [if_pos h]
      have h1 := (intBelow_iff c cores).1 h
      have h2 := posInt_toNat _ h1.1
      refine ⟨⟨fun _ x hx => (by injection hx with hx; subst hx; exact h1), fun _ => ⟨_, rfl⟩⟩, fun err he => (by cases he),
        fun m hm => ?_⟩
      injection hm with hm
      subst hm
      refine ⟨h2, by omega, fun x hx => ?_⟩
      injection hx with hx
      subst hx
      omega
    · rw [if_neg h]
      refine ⟨⟨fun ⟨m, hm⟩ => (by cases hm), fun hh => absurd ((intBelow_iff c cores).2 (hh c rfl)) h⟩,
        fun err he => (by injection he with he; exact he.symm), fun m hm => by cases hm⟩

theorem btPrepare_ok (p : GmParams) (timeCol : GmKey → String) (t : Option Int) (e : GmKey × GmTs) (r : GmKey × GmTs) :
    gmBtPrepare p timeCol t e = .ok r ↔
      r.1 = e.1 ∧ gmFill (timeCol e.1) (gmSince t e.2) p.seasonality p.freq = .ok r.2 := by
  have h0 : gmBtPrepare p timeCol t e =
      (gmFill (timeCol e.1) (gmSince t e.2) p.seasonality p.freq).map fun f => (e.1, f) := rfl
  rw [h0]
  rcases hf : gmFill (timeCol e.1) (gmSince t e.2) p.seasonality p.freq with err | f
  · constructor
    · intro h; cases h
    · intro h; cases h.2
  · constructor
    · intro h
      have h : Except.ok (e.1, f) = Except.ok r := h
      injection h with h
      subst h
      exact ⟨rfl, rfl⟩
    · rintro ⟨h1, h2⟩
      injection h2 with h2
      show Except.ok (e.1, f) = Except.ok r
      rw [← h1, h2]

/-- C145: a backtest is made if there are timestamps, the numbers of parts and of copies are positive integers, the
series can be filled, the number of test series is an integer below the number of series or a part of them, and the
number of cores, if given, is below that of the computer.  It then has the arguments, the filled series since the earliest
time under their keys, and fewer test series than series. -/
theorem C145_init (cores : Nat) (hc : 1 ≤ cores) (p : GmParams) (timeCol : GmKey → String)
    (data : List (GmKey × GmTs)) (times : List Int) (a : GmBtArgs) :
    ((∃ B, gmBtInit cores p timeCol data times a = .ok B) ↔ times ≠ [] ∧ IsPosInt a.splits ∧ IsPosInt a.replicate ∧
      (∀ e ∈ data, ∃ f, gmFill (timeCol e.1) (gmSince a.earliest e.2) p.seasonality p.freq = .ok f) ∧
      GmBtSizeOk data.length a.testSize ∧ ∀ c, a.maxCore = some c → IsPosInt c ∧ c.toInt < cores) ∧
    ∀ B, gmBtInit cores p timeCol data times a = .ok B → B.p = p ∧ B.times = times ∧
      (B.splits : Int) = a.splits.toInt ∧ 1 ≤ B.splits ∧ (B.replicate : Int) = a.replicate.toInt ∧ 1 ≤ B.replicate ∧
      B.overlap = a.overlap ∧ B.multi = a.multi ∧
      (1 ≤ data.length → B.testSize < data.length) ∧
      (a.testSize.isInt = true → (B.testSize : Int) = a.testSize.toInt ∧ 1 ≤ B.testSize) ∧
      (∀ q, a.testSize = .flt (.fin q) → B.testSize = ((data.length : Rat) * q).floor.toNat) ∧
      1 ≤ B.maxCore ∧ B.maxCore ≤ cores ∧ (∀ c, a.maxCore = some c → (B.maxCore : Int) = c.toInt) ∧
      List.Forall₂ (fun e r => r.1 = e.1 ∧
        gmFill (timeCol e.1) (gmSince a.earliest e.2) p.seasonality p.freq = .ok r.2) data B.data := by
  obtain ⟨s1, s2, s3⟩ := btTestSize_spec data.length a.testSize
  obtain ⟨c1, c2, c3⟩ := btCores_spec cores hc a.maxCore
  unfold gmBtInit
  by_cases h1 : times.isEmpty = true
  · rw [if_pos h1]
    rw [List.isEmpty_iff] at h1
    exact ⟨⟨fun ⟨B, h⟩ => (by cases h), fun h => absurd h1 h.1⟩, fun B h => by cases h⟩
  rw [if_neg h1]
  have h1' : times ≠ [] := by simpa using h1
  by_cases h2 : gmNotPositive a.splits = true
  · rw [if_pos h2]
    refine ⟨⟨fun ⟨B, h⟩ => (by cases h), fun h => ?_⟩, fun B h => by cases h⟩
    have := (notPositive_iff _).2 h.2.1
    rw [h2] at this; cases this
  rw [if_neg h2]
  rw [Bool.not_eq_true] at h2
  have p2 := (notPositive_iff _).1 h2
  by_cases h3 : gmNotPositive a.replicate = true
  · rw [if_pos h3]
    refine ⟨⟨fun ⟨B, h⟩ => (by cases h), fun h => ?_⟩, fun B h => by cases h⟩
    have := (notPositive_iff _).2 h.2.2.1
    rw [h3] at this; cases this
  rw [if_neg h3]
  rw [Bool.not_eq_true] at h3
  have p3 := (notPositive_iff _).1 h3
  have n2 := posInt_toNat _ p2
  have n3 := posInt_toNat _ p3
  constructor
  · constructor
    · rintro ⟨B, h⟩
      obtain ⟨d, hd, h⟩ := (gm_bind_ok _ _ _).1 h
      obtain ⟨t, ht, h⟩ := (gm_bind_ok _ _ _).1 h
      obtain ⟨c, hcr, h⟩ := (gm_bind_ok _ _ _).1 h
      refine ⟨h1', p2, p3, ?_, s1.1 ⟨t, ht⟩, c1.1 ⟨c, hcr⟩⟩
      intro e he
      obtain ⟨r, _, hr⟩ := (mapM_ok_mem _ _ _ hd).1 e he
      exact ⟨r.2, ((btPrepare_ok _ _ _ _ _).1 hr).2⟩
    · rintro ⟨_, _, _, hf, ht, hcr⟩
      obtain ⟨t, ht⟩ := s1.2 ht
      obtain ⟨c, hcr⟩ := c1.2 hcr
      obtain ⟨d, hd⟩ : ∃ d, data.mapM (gmBtPrepare p timeCol a.earliest) = .ok d := by
        have hx : ∀ e, ∃ f, e ∈ data → gmFill (timeCol e.1) (gmSince a.earliest e.2) p.seasonality p.freq = .ok f := by
          intro e
          by_cases he : e ∈ data
          · obtain ⟨f, hf⟩ := hf e he
            exact ⟨f, fun _ => hf⟩
          · exact ⟨[], fun h => absurd h he⟩
        choose F hF using hx
        exact ⟨_, mapM_eq_map _ (fun e => (e.1, F e)) _ fun e he => (btPrepare_ok _ _ _ _ _).2 ⟨rfl, hF e he⟩⟩
      rw [hd, ht, hcr]
      exact ⟨_, rfl⟩
  · intro B h
    obtain ⟨d, hd, h⟩ := (gm_bind_ok _ _ _).1 h
    obtain ⟨t, ht, h⟩ := (gm_bind_ok _ _ _).1 h
    obtain ⟨c, hcr, h⟩ := (gm_bind_ok _ _ _).1 h
    injection h with h
    subst h
    obtain ⟨t1, t2, t3⟩ := s3 t ht
    obtain ⟨k1, k2, k3⟩ := c3 c hcr
    refine ⟨rfl, rfl, ?_, n2, ?_, n3, rfl, rfl, t1, t2, t3, k1, k2, k3, ?_⟩
    · show ((a.splits.toInt.toNat : Nat) : Int) = _
      omega
    · show ((a.replicate.toInt.toNat : Nat) : Int) = _
      omega
    · exact (mapM_forall2 _ _ _ hd).imp fun e r hr => (btPrepare_ok _ _ _ _ _).1 hr

/-- C145 violated: the message says that all cores of the computer may be used, but that number is refused. -/
theorem C145_cores_violated (cores : Nat) (hc : 1 ≤ cores) (p : GmParams) (timeCol : GmKey → String)
    (data : List (GmKey × GmTs)) (times : List Int) (a : GmBtArgs) (h : a.maxCore = some (.int cores)) :
    ∀ B, gmBtInit cores p timeCol data times a ≠ .ok B := by
  intro B hB
  have := (((C145_init cores hc p timeCol data times a).1.1 ⟨B, hB⟩).2.2.2.2.2 _ h).2
  simp [GmNum.toInt] at this

/-! ## The training and the validation part of a series -/

/-- The series that are long enough. -/
def GmBtKept (L V : Nat) (bt last : Int) (ts : GmTs) : Prop :=
  L ≤ (ts.filter fun r => decide (r.1 < bt)).length ∧
    V ≤ (ts.filter fun r => decide (bt ≤ r.1 ∧ r.1 ≤ last)).length

instance (L V : Nat) (bt last : Int) (ts : GmTs) : Decidable (GmBtKept L V bt last ts) :=
  inferInstanceAs (Decidable (_ ∧ _))

theorem btCut_eq (L V : Nat) (hL : 1 ≤ L) (bt last : Int) (hbl : bt ≤ last) (ts : GmTs) :
    gmBtCut L V bt last ts = if GmBtKept L V bt last ts then
      some (ts.filter fun r => decide (r.1 < bt), ts.filter fun r => decide (bt ≤ r.1 ∧ r.1 ≤ last)) else none := by
  have e1 : (ts.filter fun r => decide (r.1 ≤ last)).filter (fun r => decide (r.1 < bt)) =
      ts.filter fun r => decide (r.1 < bt) := by
    rw [List.filter_filter]
    apply List.filter_congr
    intro r _
    by_cases h : r.1 < bt
    · have : r.1 ≤ last := by omega
      simp [h, this]
    · simp [h]
  have e2 : (ts.filter fun r => decide (r.1 ≤ last)).filter (fun r => decide (bt ≤ r.1)) =
      ts.filter fun r => decide (bt ≤ r.1 ∧ r.1 ≤ last) := by
    rw [List.filter_filter]
    apply List.filter_congr
    intro r _
    simp
  have e3 : (ts.filter fun r => decide (r.1 ≤ last)).length =
      (ts.filter fun r => decide (r.1 < bt)).length + (ts.filter fun r => decide (bt ≤ r.1 ∧ r.1 ≤ last)).length := by
    rw [← e1, ← e2]
    have := List.length_eq_length_filter_add (l := ts.filter fun r => decide (r.1 ≤ last)) fun r => decide (r.1 < bt)
    rw [this]
    congr 2
    apply List.filter_congr
    intro r _
    by_cases h : r.1 < bt
    · simp [h]
    · simp [h, not_lt.1 h]
  unfold gmBtCut
  by_cases hk : GmBtKept L V bt last ts
  · rw [if_pos hk]
    have h0 : 0 < ts.length := by
      have := List.length_filter_le (fun r : Int × Option Rat => decide (r.1 < bt)) ts
      have := hk.1
      omega
    rw [if_pos h0]
    simp only []
    rw [e3, if_pos (by have := hk.1; have := hk.2; omega), e1, e2]
    exact if_pos hk
  · rw [if_neg hk]
    split
    · simp only []
      split
      · rw [e1, e2]
        exact if_neg hk
      · rfl
    · rfl

/-- C145: for a timestamp, those series are used that have enough values before it and, for the training, enough values
from it up to three times the length of the validation, in their order; the training part has the values before
the timestamp, the validation part those from it on.  If there is no such series, it is an error. -/
theorem C145_filter (p : GmParams) (hp : GmWf p) (hf : 0 ≤ p.freq) (training : Bool) (bt : Int)
    (data : List (GmKey × GmTs)) (L V : Nat) (last : Int)
    (hL : L = if training then p.inputWindow + p.fcstWindow + p.minTrainNum * p.minTrainLen
      else p.warmUp * p.minTrainLen + p.inputWindow)
    (hV : V = if training then p.fcstWindow else 0)
    (hlast : last = bt + 3 * ((p.validSteps : Int) * p.fcstWindow) * p.freq) :
    gmBtFilter p training bt data =
      if ∀ e ∈ data, ¬ GmBtKept L V bt last e.2 then .error .valueError
      else .ok (((data.filter fun e => decide (GmBtKept L V bt last e.2)).map fun e =>
          (e.1, e.2.filter fun r => decide (r.1 < bt))),
        ((data.filter fun e => decide (GmBtKept L V bt last e.2)).map fun e =>
          (e.1, e.2.filter fun r => decide (bt ≤ r.1 ∧ r.1 ≤ last)))) := by
  have hL1 : 1 ≤ L := by
    have := hp.iw
    rw [hL]
    split <;> omega
  have hl2 : bt + p.freq * p.validSteps * p.fcstWindow * 3 = last := by rw [hlast]; ring
  have hbl : bt ≤ last := by
    rw [hlast]
    have : 0 ≤ 3 * ((p.validSteps : Int) * p.fcstWindow) * p.freq := by positivity
    omega
  have hlist : ∀ d : List (GmKey × GmTs),
      d.filterMap (fun e => (gmBtCut L V bt last e.2).map fun r => (e.1, r)) =
      (d.filter fun e => decide (GmBtKept L V bt last e.2)).map fun e =>
        (e.1, e.2.filter (fun r => decide (r.1 < bt)), e.2.filter fun r => decide (bt ≤ r.1 ∧ r.1 ≤ last)) := by
    intro d
    induction d with
    | nil => rfl
    | cons e d ih =>
      rw [List.filterMap_cons, List.filter_cons]
      rw [btCut_eq L V hL1 bt last hbl]
      by_cases hk : GmBtKept L V bt last e.2
      · rw [if_pos hk, if_pos (by simpa using hk), List.map_cons, ← ih]
        rfl
      · rw [if_neg hk, if_neg (by simpa using hk), ← ih]
        rfl
  unfold gmBtFilter
  simp only []
  rw [← hL, ← hV, hl2, hlist]
  by_cases hall : ∀ e ∈ data, ¬ GmBtKept L V bt last e.2
  · rw [if_pos hall]
    have : (data.filter fun e => decide (GmBtKept L V bt last e.2)) = [] := by
      rw [List.filter_eq_nil_iff]
      intro e he
      simpa using hall e he
    rw [this]
    rfl
  · rw [if_neg hall]
    have : (data.filter fun e => decide (GmBtKept L V bt last e.2)) ≠ [] := by
      rw [Ne, List.filter_eq_nil_iff]
      push Not at hall ⊢
      obtain ⟨e, he, hk⟩ := hall
      exact ⟨e, he, by simpa using hk⟩
    rw [if_neg (by simpa using this), List.map_map, List.map_map]
    rfl

/-- C145: of a series without gaps that goes on for long enough, the validation part has one value more than three times
the length of the validation; so there is one window more, and only its first place has a value. -/
theorem C145_longest (p : GmParams) (hp : GmWf p) (hf : 0 < p.freq) (k n : Nat) (t0 : Int) (v : Nat → Option Rat)
    (m : Nat) (hm : m = 3 * (p.validSteps * p.fcstWindow)) (hn : k + m < n) (valid : GmTs)
    (hv : valid = ((List.range n).map fun (i : Nat) => (t0 + (i : Int) * p.freq, v i)).filter fun r =>
      decide (t0 + (k : Int) * p.freq ≤ r.1 ∧
        r.1 ≤ t0 + (k : Int) * p.freq + 3 * ((p.validSteps : Int) * p.fcstWindow) * p.freq)) :
    valid = (List.range (m + 1)).map (fun i => (t0 + ((k + i : Nat) : Int) * p.freq, v (k + i))) ∧
      gmStepNum valid.length p.fcstWindow = 3 * p.validSteps + 1 ∧
      gmWindow p.fcstWindow valid (3 * p.validSteps) = v (k + m) :: List.replicate (p.fcstWindow - 1) none := by
  have hfw := hp.fw
  have e1 : valid = (List.range (m + 1)).map (fun i => (t0 + ((k + i : Nat) : Int) * p.freq, v (k + i))) := by
    rw [hv, List.filter_map]
    have e0 : (List.range n).filter ((fun r : Int × Option Rat => decide (t0 + (k : Int) * p.freq ≤ r.1 ∧
        r.1 ≤ t0 + (k : Int) * p.freq + 3 * ((p.validSteps : Int) * p.fcstWindow) * p.freq)) ∘
          fun (i : Nat) => (t0 + (i : Int) * p.freq, v i)) =
        (List.range n).filter fun i => decide (k ≤ i ∧ i < k + (m + 1)) := by
      apply List.filter_congr
      intro i _
      simp only [Function.comp_apply, decide_eq_decide]
      have h3 : t0 + (k : Int) * p.freq + 3 * ((p.validSteps : Int) * p.fcstWindow) * p.freq =
          t0 + ((k + m : Nat) : Int) * p.freq := by
        rw [hm]; push_cast; ring
      rw [h3]
      constructor
      · rintro ⟨h1, h2⟩
        have h1 : (k : Int) * p.freq ≤ (i : Int) * p.freq := by linarith
        have h2 : (i : Int) * p.freq ≤ ((k + m : Nat) : Int) * p.freq := by linarith
        have h1 := le_of_mul_le_mul_right h1 hf
        have h2 := le_of_mul_le_mul_right h2 hf
        omega
      · rintro ⟨h1, h2⟩
        have h1 : (k : Int) * p.freq ≤ (i : Int) * p.freq := mul_le_mul_of_nonneg_right (by omega) hf.le
        have h2 : (i : Int) * p.freq ≤ ((k + m : Nat) : Int) * p.freq := mul_le_mul_of_nonneg_right (by omega) hf.le
        constructor <;> linarith
    rw [e0]
    have e2 : (List.range n).filter (fun i => decide (k ≤ i ∧ i < k + (m + 1))) = (List.range (m + 1)).map (k + ·) := by
      have hsplit : n = k + ((m + 1) + (n - k - (m + 1))) := by omega
      rw [hsplit, List.range_add, List.range_add, List.filter_append, List.map_append, List.filter_append]
      have f1 : (List.range k).filter (fun i => decide (k ≤ i ∧ i < k + (m + 1))) = [] := by
        rw [List.filter_eq_nil_iff]; intro i hi; rw [List.mem_range] at hi; simp; omega
      have f2 : ((List.range (m + 1)).map (k + ·)).filter (fun i => decide (k ≤ i ∧ i < k + (m + 1))) =
          (List.range (m + 1)).map (k + ·) := by
        rw [List.filter_eq_self]; intro i hi
        obtain ⟨j, hj, rfl⟩ := List.mem_map.1 hi
        rw [List.mem_range] at hj
        simp; omega
      have f3 : (((List.range (n - k - (m + 1))).map (m + 1 + ·)).map (k + ·)).filter
          (fun i => decide (k ≤ i ∧ i < k + (m + 1))) = [] := by
        rw [List.filter_eq_nil_iff]; intro i hi
        obtain ⟨j, hj, rfl⟩ := List.mem_map.1 hi
        obtain ⟨j', _, rfl⟩ := List.mem_map.1 hj
        simp
        omega
      rw [f1, f2, f3]
      simp
    rw [e2, List.map_map]
    rfl
  have hlen : valid.length = m + 1 := by rw [e1, List.length_map, List.length_range]
  have hmm : m = 3 * p.validSteps * p.fcstWindow := by rw [hm]; ring
  have hst : gmStepNum valid.length p.fcstWindow = 3 * p.validSteps + 1 := by
    rw [(stepNum_spec _ _ hfw).1, hlen, hmm]
    have : 3 * p.validSteps * p.fcstWindow + 1 + p.fcstWindow - 1 = (3 * p.validSteps + 1) * p.fcstWindow := by
      rw [Nat.add_mul, Nat.one_mul]; omega
    rw [this, Nat.mul_div_cancel _ hfw]
  refine ⟨e1, hst, ?_⟩
  unfold gmWindow
  simp only []
  rw [hst, hlen]
  have h1 : (3 * p.validSteps + 1) * p.fcstWindow - (m + 1) = p.fcstWindow - 1 := by
    rw [Nat.add_mul, Nat.one_mul, hmm]; omega
  rw [h1, ← hmm]
  have h2 : valid.map (·.2) = ((List.range m).map fun i => v (k + i)) ++ [v (k + m)] := by
    rw [e1, List.map_map, List.range_succ, List.map_append]
    rfl
  rw [h2, List.append_assoc, List.drop_append, List.drop_of_length_le (by simp)]
  simp only [List.length_map, List.length_range, Nat.sub_self, List.drop_zero, List.nil_append, List.singleton_append]
  rw [List.take_of_length_le]
  simp
  omega

/-! ## An example -/

/-- Parameters: windows of 2, a period of 1, one value a day. -/
def gmBtP : GmParams :=
  { inputWindow := 2, fcstWindow := 2, seasonality := 1, minTrainNum := 1, minTrainLen := 1, validSteps := 1, warmUp := 1,
    fcstSteps := 1, freq := 1, rnn := true, uplift := 2, seasonLow := 0, seasonHigh := 2 }

theorem gmBtP_ok : GmWf gmBtP := by constructor <;> decide

/-- Three series. -/
def gmBtData : List (GmKey × GmTs) :=
  [(.int 0, (List.range 16).map fun i => ((i : Int), some ((i : Rat) + 1))),
    (.int 1, (List.range 14).map fun i => ((i : Int), some ((i : Rat) + 2))),
    (.int 2, (List.range 4).map fun i => ((i : Int), some ((i : Rat) + 3)))]

/-- The arguments. -/
def gmBtA : GmBtArgs := ⟨.int 1, true, .int 2, false, .flt (.fin (1 / 2)), some 1, none⟩

example : ((gmBtInit 4 gmBtP (fun _ => "time") gmBtData [6] gmBtA).toOption.map fun B =>
    (B.testSize, B.maxCore, B.data.map fun e => e.2.length)) = some (1, 1, [15, 13, 3]) := by decide +kernel

example : ∃ a b, gmBtFilter gmBtP true 6 gmBtData = .ok (a, b) ∧ a.map (fun e => (e.1, e.2.length)) =
      [(.int 0, 6), (.int 1, 6)] ∧ b.map (fun e => (e.1, e.2.length)) = [(.int 0, 7), (.int 1, 7)] := by
  refine ⟨_, _, rfl, ?_, ?_⟩ <;> decide +kernel

example : gmStepNum 7 2 = 4 ∧ gmWindow 2 ((List.range 7).map fun i => ((i : Int), some (i : Rat))) 3 = [some 6, none] := by
  decide +kernel

end Kats
