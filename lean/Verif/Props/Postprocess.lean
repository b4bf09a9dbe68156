import Verif.Model.Postprocess
import Mathlib.Tactic.Linarith
import Mathlib.Tactic.FieldSimp
import Mathlib.Tactic.Ring
import Mathlib.Algebra.Order.BigOperators.Group.List

/-!
# Theorems about anomaly post-processing (C41, C77)
-/

namespace Kats

/-! ## Specification -/

/-- The interval `iv` covers a maximal run of alert points: it starts at an alert point `i` that has
no alert before it, all points from `i` up to (excluding) `j` are alerts, and it ends at point `j`,
which is no alert or is the last point. -/
def CoversRun (a : List (Int × Bool)) (iv : Int × Int) : Prop :=
  ∃ i j, ∃ (hij : i < j) (hj : j < a.length),
    a[i].1 = iv.1 ∧ a[j].1 = iv.2
    ∧ (∀ k (hk : k < j), i ≤ k → a[k].2 = true)
    ∧ (∀ k (hk : k < a.length), k + 1 = i → a[k].2 = false)
    ∧ (a[j].2 = false ∨ j + 1 = a.length)

/-! ## Helpers -/

/-- The scan without the constructor check. -/
def pureScan (last : Int) : Option Int → List (Int × Bool) → List (Int × Int)
  | none, [] => []
  | some s, [] => if s < last then [(s, last)] else []
  | none, (t, true) :: l => pureScan last (some t) l
  | none, (_, false) :: l => pureScan last none l
  | some s, (_, true) :: l => pureScan last (some s) l
  | some s, (t, false) :: l => (s, t) :: pureScan last none l

theorem alertScan_pure (last : Int) : ∀ (l : List (Int × Bool)) (cp : Option Int),
    (∀ s ∈ cp, ∀ r ∈ l, s < r.1) → l.Pairwise (fun a b => a.1 < b.1) →
    ∃ r, alertScan cp l = .ok r ∧
      pureScan last cp l = r.1 ++ (match r.2 with
        | none => []
        | some s => if s < last then [(s, last)] else [])
  | [], none, _, _ => ⟨_, rfl, rfl⟩
  | [], some s, _, _ => ⟨_, rfl, by simp [pureScan]⟩
  | (t, true) :: l, none, h, hp => by
    rw [List.pairwise_cons] at hp
    obtain ⟨r, h1, h2⟩ := alertScan_pure last l (some t) (by
      intro s hs q hq
      simp at hs; subst hs
      exact hp.1 q hq) hp.2
    exact ⟨r, by rw [alertScan]; exact h1, by rw [pureScan]; exact h2⟩
  | (t, false) :: l, none, h, hp => by
    rw [List.pairwise_cons] at hp
    obtain ⟨r, h1, h2⟩ := alertScan_pure last l none (by simp) hp.2
    exact ⟨r, by rw [alertScan]; exact h1, by rw [pureScan]; exact h2⟩
  | (t, true) :: l, some s, h, hp => by
    rw [List.pairwise_cons] at hp
    obtain ⟨r, h1, h2⟩ := alertScan_pure last l (some s)
      (fun s hs q hq => h s hs q (List.mem_cons_of_mem _ hq)) hp.2
    exact ⟨r, by rw [alertScan]; exact h1, by rw [pureScan]; exact h2⟩
  | (t, false) :: l, some s, h, hp => by
    rw [List.pairwise_cons] at hp
    obtain ⟨r, h1, h2⟩ := alertScan_pure last l none (by simp) hp.2
    refine ⟨((s, t) :: r.1, r.2), ?_, ?_⟩
    · have hst : s < t := h s rfl (t, false) (List.mem_cons_self ..)
      rw [alertScan, mkIntervalAnomaly, if_neg (not_le.2 hst), h1]
      rfl
    · rw [pureScan, h2]; rfl

theorem alertIntervals_pure (a : List (Int × Bool)) (hp : a.Pairwise (fun a b => a.1 < b.1))
    (ha : a ≠ []) : alertIntervals a = .ok (pureScan (a.getLast ha).1 none a) := by
  obtain ⟨r, h1, h2⟩ := alertScan_pure (a.getLast ha).1 a none (by simp) hp
  unfold alertIntervals
  rw [h1, h2, List.getLast?_eq_some_getLast ha]
  simp only [bind, Except.bind, pure, Except.pure]
  cases r.2 with
  | none => simp
  | some s =>
    dsimp only
    split <;> simp

/-- Covers a run that starts at or after position `lo`. -/
def CoversFrom (a : List (Int × Bool)) (lo : Nat) (iv : Int × Int) : Prop :=
  ∃ i j, ∃ (hij : i < j) (hj : j < a.length), lo ≤ i ∧
    a[i].1 = iv.1 ∧ a[j].1 = iv.2
    ∧ (∀ k (hk : k < j), i ≤ k → a[k].2 = true)
    ∧ (∀ k (hk : k < a.length), k + 1 = i → a[k].2 = false)
    ∧ (a[j].2 = false ∨ j + 1 = a.length)

/-- What the scan guarantees about the part of the list from `lo` on. -/
def ScanOk (a : List (Int × Bool)) (lo : Nat) (ivs : List (Int × Int)) : Prop :=
  (∀ iv ∈ ivs, CoversFrom a lo iv)
  ∧ ivs.Pairwise (fun p q => p.2 < q.1)
  ∧ ∀ k (hk : k < a.length), lo ≤ k → a[k].2 = true →
      (k + 1 < a.length ∨ lo < k ∧ ∀ m (_ : m < a.length), m + 1 = k → a[m].2 = true) →
      ∃ iv ∈ ivs, iv.1 ≤ a[k].1 ∧ (k + 1 < a.length → a[k].1 < iv.2) ∧ a[k].1 ≤ iv.2

theorem times_lt (a : List (Int × Bool)) (hp : a.Pairwise (fun a b => a.1 < b.1)) {i j : Nat}
    (hij : i < j) (hj : j < a.length) : a[i].1 < a[j].1 :=
  List.pairwise_iff_getElem.1 hp i j (by omega) hj hij

theorem times_le (a : List (Int × Bool)) (hp : a.Pairwise (fun a b => a.1 < b.1)) {i j : Nat}
    (hij : i ≤ j) (hj : j < a.length) : a[i].1 ≤ a[j].1 := by
  rcases Nat.lt_or_eq_of_le hij with h | h
  · exact (times_lt a hp h hj).le
  · subst h; exact le_refl _

theorem CoversFrom.mono {a : List (Int × Bool)} {lo lo' : Nat} (h : lo' ≤ lo) {iv : Int × Int}
    (hc : CoversFrom a lo iv) : CoversFrom a lo' iv := by
  obtain ⟨i, j, hij, hj, h0, rest⟩ := hc
  exact ⟨i, j, hij, hj, by omega, rest⟩

theorem scan_ok (a : List (Int × Bool)) (hp : a.Pairwise (fun a b => a.1 < b.1)) (ha : a ≠ []) :
    ∀ (rest pre : List (Int × Bool)), pre ++ rest = a →
      ((∀ k (hk : k < a.length), k + 1 = pre.length → a[k].2 = false) →
        ScanOk a pre.length (pureScan (a.getLast ha).1 none rest))
      ∧ (∀ i (hi : i < pre.length) (hil : i < a.length),
          (∀ k (hk : k < a.length), i ≤ k → k < pre.length → a[k].2 = true) →
          (∀ k (hk : k < a.length), k + 1 = i → a[k].2 = false) →
          ScanOk a i (pureScan (a.getLast ha).1 (some a[i].1) rest))
  | [], pre, hpre => by
    have hl : pre.length = a.length := by rw [← hpre]; simp
    constructor
    · intro _
      refine ⟨by simp [pureScan], by simp [pureScan], ?_⟩
      intro k hk h
      omega
    · intro i hi hil hrun hprev
      have hlast : (a.getLast ha).1 = (a[a.length - 1]'(by omega)).1 := by
        rw [List.getLast_eq_getElem]
      rw [pureScan, hlast]
      by_cases hi2 : i + 1 < a.length
      · have hlt : a[i].1 < a[a.length - 1].1 := times_lt a hp (by omega) (by omega)
        rw [if_pos hlt]
        refine ⟨?_, by simp, ?_⟩
        · intro iv hiv
          simp at hiv
          subst hiv
          exact ⟨i, a.length - 1, by omega, by omega, le_refl _, rfl, rfl,
            fun k hk hik => hrun k (by omega) hik (by omega), hprev, .inr (by omega)⟩
        · intro k hk hik ht _
          refine ⟨_, List.mem_singleton.2 rfl, times_le a hp hik hk, ?_, ?_⟩
          · intro hk1
            exact times_lt a hp (by omega) (by omega)
          · exact times_le a hp (by omega) (by omega)
      · have hi3 : i = a.length - 1 := by omega
        have hno : ¬ a[i].1 < a[a.length - 1].1 := by
          subst hi3; exact lt_irrefl _
        rw [if_neg hno]
        refine ⟨by simp, by simp, ?_⟩
        intro k hk hik ht hor
        exfalso
        rcases hor with h | ⟨h, _⟩ <;> omega
  | (t, b) :: rest, pre, hpre => by
    have hlen : a.length = pre.length + (rest.length + 1) := by rw [← hpre]; simp
    have hget : ∀ h : pre.length < a.length, a[pre.length] = (t, b) := by
      intro h
      simp only [← hpre]
      rw [List.getElem_append_right (le_refl _)]
      simp
    have hlt : pre.length < a.length := by omega
    have hpre' : (pre ++ [(t, b)]) ++ rest = a := by rw [← hpre]; simp
    obtain ⟨ihN, ihS⟩ := scan_ok a hp ha rest (pre ++ [(t, b)]) hpre'
    have hl' : (pre ++ [(t, b)]).length = pre.length + 1 := by simp
    rw [hl'] at ihN ihS
    constructor
    · intro hprev
      cases b with
      | true =>
        rw [pureScan]
        have := ihS pre.length (by omega) hlt
          (by
            intro k hk h1 h2
            have : k = pre.length := by omega
            subst this
            rw [hget])
          hprev
        rwa [hget hlt] at this
      | false =>
        rw [pureScan]
        obtain ⟨h1, h2, h3⟩ := ihN (by
          intro k hk hk1
          have : k = pre.length := by omega
          subst this
          rw [hget])
        refine ⟨fun iv hiv => (h1 iv hiv).mono (by omega), h2, ?_⟩
        intro k hk hlo ht hor
        have hne : k ≠ pre.length := by
          rintro rfl
          rw [hget] at ht
          simp at ht
        apply h3 k hk (by omega) ht
        rcases hor with h | ⟨h, h'⟩
        · exact .inl h
        · by_cases hk1 : k + 1 < a.length
          · exact .inl hk1
          · right
            refine ⟨?_, h'⟩
            by_contra hcon
            have : k = pre.length + 1 := by omega
            have := h' pre.length hlt (by omega)
            rw [hget] at this
            simp at this
    · intro i hi hil hrun hprev
      cases b with
      | true =>
        rw [pureScan]
        exact ihS i (by omega) hil
          (by
            intro k hk h1 h2
            by_cases hkp : k < pre.length
            · exact hrun k hk h1 hkp
            · have : k = pre.length := by omega
              subst this
              rw [hget])
          hprev
      | false =>
        rw [pureScan]
        obtain ⟨h1, h2, h3⟩ := ihN (by
          intro k hk hk1
          have : k = pre.length := by omega
          subst this
          rw [hget])
        have ht : a[pre.length].1 = t := by rw [hget hlt]
        refine ⟨?_, ?_, ?_⟩
        · intro iv hiv
          rcases List.mem_cons.1 hiv with rfl | hiv
          · exact ⟨i, pre.length, hi, hlt, le_refl _, rfl, ht,
              fun k hk hik => hrun k (by omega) hik hk, hprev, .inl (by rw [hget hlt])⟩
          · exact (h1 iv hiv).mono (by omega)
        · rw [List.pairwise_cons]
          refine ⟨?_, h2⟩
          intro q hq
          obtain ⟨i', j', hij, hj, hlo, e1, -⟩ := h1 q hq
          rw [← e1]
          change t < _
          rw [← ht]
          exact times_lt a hp (by omega) (by omega)
        · intro k hk hik hkt hor
          by_cases hkp : k < pre.length
          · refine ⟨_, List.mem_cons_self .., times_le a hp hik hk, ?_, ?_⟩
            · intro _
              change _ < t
              rw [← ht]
              exact times_lt a hp hkp hlt
            · change _ ≤ t
              rw [← ht]
              exact times_le a hp hkp.le hlt
          · have hne : k ≠ pre.length := by
              rintro rfl
              rw [hget] at hkt
              simp at hkt
            obtain ⟨iv, hiv, h⟩ := h3 k hk (by omega) hkt (by
              rcases hor with h | ⟨h, h'⟩
              · exact .inl h
              · by_cases hk1 : k + 1 < a.length
                · exact .inl hk1
                · right
                  refine ⟨?_, h'⟩
                  by_contra hcon
                  have : k = pre.length + 1 := by omega
                  have := h' pre.length hlt (by omega)
                  rw [hget] at this
                  simp at this)
            exact ⟨iv, List.mem_cons_of_mem _ hiv, h⟩

/-! ## C41 -/

/-- C41: for points at increasing times the intervals are ordered and disjoint, each covers a maximal
run of alert points, and every alert point is covered, unless the alert starts on the last point. -/
theorem C41_intervals (a : List (Int × Bool)) (hp : a.Pairwise (fun a b => a.1 < b.1)) (ha : a ≠ []) :
    ∃ ivs, alertIntervals a = .ok ivs
      ∧ (∀ iv ∈ ivs, CoversRun a iv)
      ∧ ivs.Pairwise (fun p q => p.2 < q.1)
      ∧ (∀ k (hk : k < a.length), a[k].2 = true → k + 1 < a.length →
          ∃ iv ∈ ivs, iv.1 ≤ a[k].1 ∧ a[k].1 < iv.2)
      ∧ (∀ k (hk : k + 1 < a.length), k + 2 = a.length → a[k].2 = true → a[k + 1].2 = true →
          ∃ iv ∈ ivs, iv.1 ≤ a[k + 1].1 ∧ a[k + 1].1 ≤ iv.2) := by
  obtain ⟨h1, -⟩ := scan_ok a hp ha a [] rfl
  obtain ⟨h1, h2, h3⟩ := h1 (by intro k hk h; simp at h)
  refine ⟨_, alertIntervals_pure a hp ha, ?_, h2, ?_, ?_⟩
  · intro iv hiv
    obtain ⟨i, j, hij, hj, -, rest⟩ := h1 iv hiv
    exact ⟨i, j, hij, hj, rest⟩
  · intro k hk ht hk1
    obtain ⟨iv, hiv, g1, g2, -⟩ := h3 k hk (by simp) ht (.inl hk1)
    exact ⟨iv, hiv, g1, g2 hk1⟩
  · intro k hk hk2 ht ht'
    obtain ⟨iv, hiv, g1, -, g3⟩ := h3 (k + 1) hk (by simp) ht' (.inr ⟨by simp, by
      intro m hm hmk
      have : m = k := by omega
      subst this
      exact ht⟩)
    exact ⟨iv, hiv, g1, g3⟩

example : alertIntervals [(0, false), (1, true), (2, true), (4, false), (5, true), (9, true)]
    = .ok [(1, 4), (5, 9)] := by decide +kernel

/-- C41 (which points are alerts): with the default window rule, point `i` is an alert exactly when it
is at least one window after the first point and at least the required fraction of the scores in the
window `(t_i - window, t_i]` up to it cross the threshold in the watched direction. -/
theorem C41_alert_points (c : PostCfg) (scores : List (Int × Rat)) (h : scores ≠ []) :
    ∃ al, c.startAlert (scores.map fun r => (r.1, c.crossed r.2)) = .ok al
      ∧ al.map (·.1) = scores.map (·.1)
      ∧ ∀ i (hi : i < scores.length) (hi' : i < al.length),
        (al[i].2 = true ↔
          (scores.head h).1 + c.window * 1000000000 ≤ scores[i].1
          ∧ ∃ w : List (Int × Rat),
              w = (scores.take (i + 1)).filter (fun q => decide (scores[i].1 - c.window * 1000000000 < q.1))
              ∧ c.fraction ≤ ((w.filter fun q =>
                  decide ((c.dir ≠ .decrease ∧ c.high < q.2) ∨ (c.dir ≠ .increase ∧ q.2 < c.low))).length : Rat)
                / w.length) := by
  obtain ⟨r, rs, rfl⟩ := List.exists_cons_of_ne_nil h
  set scores := r :: rs with hs
  have e : c.startAlert (scores.map fun r => (r.1, c.crossed r.2))
      = .ok ((scores.map fun r => (r.1, c.crossed r.2)).mapIdx fun i q =>
          (q.1, c.enough (scores.map fun r => (r.1, c.crossed r.2)) i && !decide (q.1 < r.1 + c.span))) := by
    rw [hs, List.map_cons]; rfl
  refine ⟨_, e, ?_, ?_⟩
  · rw [← hs]
    apply List.ext_getElem
    · simp
    · intro i h1 h2
      simp
  · intro i hi hi'
    have hcr : ∀ x, c.crossed x
        = decide ((c.dir ≠ .decrease ∧ c.high < x) ∨ (c.dir ≠ .increase ∧ x < c.low)) := by
      intro x
      unfold PostCfg.crossed
      cases c.dir <;> simp [Bool.eq_iff_iff, or_comm]
    have hw : rollWindow c.span (scores.map fun r => (r.1, c.crossed r.2)) i
        = ((scores.take (i + 1)).filter (fun q => decide (scores[i].1 - c.window * 1000000000 < q.1))).map
            fun r => (r.1, c.crossed r.2) := by
      unfold rollWindow
      rw [List.getElem?_map, List.getElem?_eq_getElem hi]
      dsimp only [Option.map_some]
      rw [← List.map_take, List.filter_map]
      rfl
    simp only [List.getElem_mapIdx, List.getElem_map, Bool.and_eq_true, Bool.not_eq_true',
      decide_eq_false_iff_not, not_lt, exists_eq_left]
    rw [and_comm]
    apply and_congr
    · rfl
    · unfold PostCfg.enough
      dsimp only
      rw [hw, decide_eq_true_iff, List.countP_map, List.length_map, List.countP_eq_length_filter]
      rw [List.filter_congr (q := fun q : Int × Rat =>
        decide ((c.dir ≠ .decrease ∧ c.high < q.2) ∨ (c.dir ≠ .increase ∧ q.2 < c.low)))]
      intro q _
      exact hcr q.2

example : ∃ c : PostCfg, ∃ scores : List (Int × Rat), scores ≠ [] ∧
    c.startAlert (scores.map fun r => (r.1, c.crossed r.2))
      = .ok [(0, false), (1000000000, true), (2000000000, false)] :=
  ⟨{}, [(0, 5), (1000000000, -3), (2000000000, 1)], by simp, by decide +kernel⟩

/-! ## C77 -/

/-- The rows in `[s, e]` of a table at increasing times are the rows in `[s, e)` and the row at `e`. -/
theorem filter_closed (s : Int) (r : Int × Rat) (hs : s ≤ r.1) : ∀ (l : List (Int × Rat)),
    l.Pairwise (fun a b => a.1 < b.1) → r ∈ l →
    (l.filter fun q => decide (s ≤ q.1) && decide (q.1 ≤ r.1))
      = (l.filter fun q => decide (s ≤ q.1) && decide (q.1 < r.1)) ++ [r]
  | [], _, h => by simp at h
  | x :: l, hp, h => by
    rw [List.pairwise_cons] at hp
    rcases List.mem_cons.1 h with rfl | hm
    · have e1 : (l.filter fun q => decide (s ≤ q.1) && decide (q.1 ≤ r.1)) = [] := by
        rw [List.filter_eq_nil_iff]
        intro q hq
        have := hp.1 q hq
        simp; intro; omega
      have e2 : (l.filter fun q => decide (s ≤ q.1) && decide (q.1 < r.1)) = [] := by
        rw [List.filter_eq_nil_iff]
        intro q hq
        have := hp.1 q hq
        simp; intro; omega
      simp [List.filter_cons, e1, e2, hs]
    · have hx := hp.1 r hm
      rw [List.filter_cons, List.filter_cons, filter_closed s r hs l hp.2 hm]
      by_cases h1 : s ≤ x.1
      · simp [h1, hx, hx.le]
      · simp [h1]

/-- Excess of a score over the threshold(s) watched: how far it lies beyond. -/
def beyond (c : PostCfg) (x : Rat) : Rat :=
  match c.dir with
  | .increase => x - c.high
  | .decrease => c.low - x
  | .both => max 0 (max (x - c.high) (c.low - x))

theorem excess_eq (c : PostCfg) (x : Rat) : c.excess x = beyond c x := by
  unfold PostCfg.excess beyond
  cases c.dir with
  | increase => rfl
  | decrease => ring
  | both =>
    dsimp only
    rw [show -x + c.low = c.low - x by ring, max_max_max_comm, max_self]

theorem sum_map_mul_pp (k : Rat) (l : List Rat) : (l.map fun e => k * e).sum = k * l.sum := by
  induction l with
  | nil => simp
  | cons x l ih => simp [ih, mul_add]

/-- The severity row of one interval between two points of the table. -/
theorem severity_row (c : PostCfg) (scores : List (Int × Rat))
    (hp : scores.Pairwise (fun a b => a.1 < b.1)) (iv : Int × Int) (hlt : iv.1 < iv.2)
    (h1 : ∃ r ∈ scores, r.1 = iv.1) (h2 : ∃ r ∈ scores, r.1 = iv.2) :
    ∃ ex : List Rat,
      ex = ((scores.filter fun r => decide (iv.1 ≤ r.1) && decide (r.1 < iv.2)).map fun r => beyond c r.2)
      ∧ ex ≠ []
      ∧ (c.severity scores iv).interval = iv
      ∧ (c.severity scores iv).seconds = ((iv.2 - iv.1 : Int) : Rat) / 1000000000
      ∧ 0 < (c.severity scores iv).seconds
      ∧ (c.severity scores iv).height = ex.sum / ex.length
      ∧ (c.severity scores iv).volume = (c.severity scores iv).height * (c.severity scores iv).seconds := by
  obtain ⟨r1, m1, e1⟩ := h1
  obtain ⟨r2, m2, e2⟩ := h2
  refine ⟨_, rfl, ?_, rfl, rfl, ?_, ?_⟩
  · intro h
    rw [List.map_eq_nil_iff, List.filter_eq_nil_iff] at h
    have := h r1 m1
    simp [e1, hlt] at this
  · change (0 : Rat) < ((iv.2 - iv.1 : Int) : Rat) / 1000000000
    have : (0 : Rat) < ((iv.2 - iv.1 : Int) : Rat) := by exact_mod_cast (by omega : 0 < iv.2 - iv.1)
    positivity
  · have hx : ((scoresIn scores iv).map c.excess)
        = ((scores.filter fun r => decide (iv.1 ≤ r.1) && decide (r.1 < iv.2)).map fun r => beyond c r.2)
          ++ [beyond c r2.2] := by
      unfold scoresIn
      rw [← e2, filter_closed iv.1 r2 (by omega) scores hp m2]
      simp [excess_eq, Function.comp_def]
    have hne : ((scores.filter fun r => decide (iv.1 ≤ r.1) && decide (r.1 < iv.2)).map fun r => beyond c r.2) ≠ [] := by
      intro h
      rw [List.map_eq_nil_iff, List.filter_eq_nil_iff] at h
      have := h r1 m1
      simp [e1, hlt] at this
    generalize hE : ((scores.filter fun r => decide (iv.1 ≤ r.1) && decide (r.1 < iv.2)).map fun r => beyond c r.2) = ex at *
    have hsec : (0 : Rat) < ((iv.2 - iv.1 : Int) : Rat) / 1000000000 := by
      have : (0 : Rat) < ((iv.2 - iv.1 : Int) : Rat) := by exact_mod_cast (by omega : 0 < iv.2 - iv.1)
      positivity
    have hlen : (ex.length : Rat) ≠ 0 := by
      have := List.length_pos_of_ne_nil hne
      exact_mod_cast (by omega : ex.length ≠ 0)
    have hvol : (c.severity scores iv).volume
        = ((iv.2 - iv.1 : Int) : Rat) / 1000000000 / ex.length * ex.sum := by
      unfold PostCfg.severity
      dsimp only
      rw [hx, sum_map_mul_pp]
      simp
    have hh : (c.severity scores iv).height
        = (c.severity scores iv).volume / (((iv.2 - iv.1 : Int) : Rat) / 1000000000) := by
      change (if ((iv.2 - iv.1 : Int) : Rat) / 1000000000 = 0 then _ else _) = _
      rw [if_neg hsec.ne']
      rfl
    have hs' : (c.severity scores iv).seconds = ((iv.2 - iv.1 : Int) : Rat) / 1000000000 := rfl
    rw [hh, hs', hvol]
    generalize ((iv.2 - iv.1 : Int) : Rat) / 1000000000 = T at *
    constructor
    · field_simp
    · field_simp

/-- The alert points sit at the times of the scores. -/
theorem startAlert_times (c : PostCfg) (scores : List (Int × Rat)) (h : scores ≠ []) :
    ∃ al, c.startAlert (scores.map fun r => (r.1, c.crossed r.2)) = .ok al
      ∧ al.map (·.1) = scores.map (·.1) := by
  obtain ⟨al, h1, h2, -⟩ := C41_alert_points c scores h
  exact ⟨al, h1, h2⟩

theorem pairwise_of_times {α β : Type} {a : List (Int × α)} {b : List (Int × β)}
    (h : a.map (·.1) = b.map (·.1)) (hp : b.Pairwise (fun x y => x.1 < y.1)) :
    a.Pairwise (fun x y => x.1 < y.1) := by
  have : (a.map (·.1)).Pairwise (· < ·) := by
    rw [h]; exact List.pairwise_map.2 hp
  exact List.pairwise_map.1 this

theorem mem_time {α β : Type} {a : List (Int × α)} {b : List (Int × β)}
    (h : a.map (·.1) = b.map (·.1)) {x : Int × α} (hx : x ∈ a) : ∃ y ∈ b, y.1 = x.1 := by
  have : x.1 ∈ b.map (·.1) := by rw [← h]; exact List.mem_map_of_mem hx
  simpa using this

theorem intervals_ok (c : PostCfg) (scores : List (Int × Rat))
    (hp : scores.Pairwise (fun a b => a.1 < b.1)) (h : scores ≠ []) :
    ∃ al ivs, c.startAlert (scores.map fun r => (r.1, c.crossed r.2)) = .ok al
      ∧ al.map (·.1) = scores.map (·.1)
      ∧ c.intervals scores = .ok ivs
      ∧ (∀ iv ∈ ivs, CoversRun al iv) := by
  obtain ⟨al, e1, e2⟩ := startAlert_times c scores h
  have hne : al ≠ [] := by
    rintro rfl
    simp at e2
    exact h (by simpa using e2.symm)
  obtain ⟨ivs, e3, e4, -⟩ := C41_intervals al (pairwise_of_times e2 hp) hne
  refine ⟨al, ivs, e1, e2, ?_, e4⟩
  unfold PostCfg.intervals
  rw [e1]
  exact e3

/-- C77 (each alert): for scores at increasing times the severity table has one row per interval; its
length is the interval's duration, its average height is the mean excess of the scores from the start
up to (excluding) the end, and its volume is average height times duration. -/
theorem C77_rows (c : PostCfg) (scores : List (Int × Rat))
    (hp : scores.Pairwise (fun a b => a.1 < b.1)) (h : scores ≠ []) :
    ∃ ivs t, c.intervals scores = .ok ivs ∧ c.severityTable scores = .ok t
      ∧ t.map (·.interval) = ivs
      ∧ ∀ row ∈ t, ∃ ex : List Rat,
        ex = ((scores.filter fun r =>
          decide (row.interval.1 ≤ r.1) && decide (r.1 < row.interval.2)).map fun r => beyond c r.2)
        ∧ ex ≠ []
        ∧ row.seconds = ((row.interval.2 - row.interval.1 : Int) : Rat) / 1000000000
        ∧ 0 < row.seconds
        ∧ row.height = ex.sum / ex.length
        ∧ row.volume = row.height * row.seconds := by
  obtain ⟨al, ivs, -, e2, e3, e4⟩ := intervals_ok c scores hp h
  refine ⟨ivs, _, e3, by unfold PostCfg.severityTable; rw [e3]; rfl, ?_, ?_⟩
  · rw [List.map_map]
    exact List.map_id' _
  · intro row hrow
    obtain ⟨iv, hiv, rfl⟩ := List.mem_map.1 hrow
    obtain ⟨i, j, hij, hj, g1, g2, -⟩ := e4 iv hiv
    have hal := pairwise_of_times e2 hp
    obtain ⟨y1, m1, n1⟩ := mem_time e2 (List.getElem_mem (l := al) (n := i) (by omega))
    obtain ⟨y2, m2, n2⟩ := mem_time e2 (List.getElem_mem (l := al) (n := j) (by omega))
    obtain ⟨ex, q1, q2, -, q3⟩ := severity_row c scores hp iv
      (by rw [← g1, ← g2]; exact times_lt al hal hij hj)
      ⟨y1, m1, n1.trans g1⟩ ⟨y2, m2, n2.trans g2⟩
    exact ⟨ex, q1, q2, q3⟩

example : (({ dir := .both } : PostCfg).severityTable
      [(0, 0), (1000000000, 5), (3000000000, -4), (4000000000, 0)])
    = .ok [⟨(1000000000, 4000000000), 5 / 2, 15 / 2, 3 / 2, 3⟩] := by decide +kernel

/-- The magnitude of a row is attained: it is the largest excess of a score of the interval, relative
to the threshold. -/
theorem listMax_spec (x : Rat) (l : List Rat) :
    listMax (x :: l) ∈ x :: l ∧ ∀ y ∈ x :: l, y ≤ listMax (x :: l) := by
  change l.foldl max x ∈ x :: l ∧ ∀ y ∈ x :: l, y ≤ l.foldl max x
  induction l generalizing x with
  | nil => simp
  | cons z l ih =>
    obtain ⟨h1, h2⟩ := ih (max x z)
    rw [List.foldl_cons]
    constructor
    · rcases List.mem_cons.1 h1 with h | h
      · rw [h]
        rcases max_choice x z with e | e <;> rw [e] <;> simp
      · exact List.mem_cons_of_mem _ (List.mem_cons_of_mem _ h)
    · intro y hy
      have hm := h2 (max x z) (List.mem_cons_self ..)
      rcases List.mem_cons.1 hy with rfl | hy
      · exact (le_max_left _ _).trans hm
      · rcases List.mem_cons.1 hy with rfl | hy
        · exact (le_max_right _ _).trans hm
        · exact h2 y (List.mem_cons_of_mem _ hy)

/-- The size of a threshold as a unit of magnitude: a zero threshold counts as `10^-8`. -/
def unitOf (x : Rat) : Rat := if x = 0 then 1 / 100000000 else |x|

theorem abs_highDen (c : PostCfg) : |c.highDen| = unitOf c.high := by
  unfold PostCfg.highDen unitOf
  split
  · rename_i h; rw [h]; norm_num [abs_of_pos]
  · rfl

theorem abs_lowDen (c : PostCfg) : |c.lowDen| = unitOf c.low := by
  unfold PostCfg.lowDen unitOf
  split
  · rename_i h; rw [h]; norm_num [abs_of_neg]
  · rfl

theorem listMax_map (f : Rat → Rat) (hf : Monotone f) (xs : List Rat) (m : Rat) (hm : m ∈ xs)
    (hx : ∀ x ∈ xs, x ≤ m) : listMax (xs.map f) = f m := by
  obtain ⟨x, l, rfl⟩ := List.exists_cons_of_ne_nil (List.ne_nil_of_mem hm)
  rw [List.map_cons]
  obtain ⟨h1, h2⟩ := listMax_spec (f x) (l.map f)
  apply le_antisymm
  · rw [← List.map_cons] at h1
    obtain ⟨y, hy, e⟩ := List.mem_map.1 h1
    rw [List.map_cons] at e
    rw [← e]
    exact hf (hx y hy)
  · apply h2
    rw [← List.map_cons]
    exact List.mem_map_of_mem hm

theorem listMax_map_anti (f : Rat → Rat) (hf : Antitone f) (xs : List Rat) (m : Rat) (hm : m ∈ xs)
    (hx : ∀ x ∈ xs, m ≤ x) : listMax (xs.map f) = f m := by
  obtain ⟨x, l, rfl⟩ := List.exists_cons_of_ne_nil (List.ne_nil_of_mem hm)
  rw [List.map_cons]
  obtain ⟨h1, h2⟩ := listMax_spec (f x) (l.map f)
  apply le_antisymm
  · rw [← List.map_cons] at h1
    obtain ⟨y, hy, e⟩ := List.mem_map.1 h1
    rw [List.map_cons] at e
    rw [← e]
    exact hf (hx y hy)
  · apply h2
    rw [← List.map_cons]
    exact List.mem_map_of_mem hm

theorem exists_extremes (xs : List Rat) (h : xs ≠ []) :
    ∃ hi ∈ xs, ∃ lo ∈ xs, ∀ x ∈ xs, lo ≤ x ∧ x ≤ hi := by
  obtain ⟨x, l, rfl⟩ := List.exists_cons_of_ne_nil h
  obtain ⟨h1, h2⟩ := listMax_spec x l
  obtain ⟨g1, g2⟩ := listMax_spec (-x) (l.map fun y => -y)
  rw [← List.map_cons (f := fun y : Rat => -y)] at g1
  obtain ⟨lo, hlo, e⟩ := List.mem_map.1 g1
  refine ⟨_, h1, lo, hlo, fun y hy => ⟨?_, h2 y hy⟩⟩
  have := g2 (-y) (by rw [← List.map_cons (f := fun y : Rat => -y)]; exact List.mem_map_of_mem hy)
  rw [List.map_cons] at e
  linarith

/-- C77 (magnitude): the magnitude of a row is the largest distance beyond the threshold of a score
with a time from the start to the end of the interval, in units of the threshold. -/
theorem C77_magnitude (c : PostCfg) (scores : List (Int × Rat))
    (hp : scores.Pairwise (fun a b => a.1 < b.1)) (h : scores ≠ []) (t : List Severity)
    (ht : c.severityTable scores = .ok t) (row : Severity) (hrow : row ∈ t) :
    ∃ hi ∈ scores, ∃ lo ∈ scores,
      (row.interval.1 ≤ hi.1 ∧ hi.1 ≤ row.interval.2) ∧ (row.interval.1 ≤ lo.1 ∧ lo.1 ≤ row.interval.2)
      ∧ (∀ r ∈ scores, row.interval.1 ≤ r.1 → r.1 ≤ row.interval.2 → lo.2 ≤ r.2 ∧ r.2 ≤ hi.2)
      ∧ (c.dir = .increase → row.magnitude = |hi.2 - c.high| / unitOf c.high)
      ∧ (c.dir = .decrease → row.magnitude = |c.low - lo.2| / unitOf c.low)
      ∧ (c.dir = .both → row.magnitude
          = max (max 0 (hi.2 - c.high) / unitOf c.high) (max 0 (c.low - lo.2) / unitOf c.low)) := by
  obtain ⟨al, ivs, -, e2, e3, e4⟩ := intervals_ok c scores hp h
  unfold PostCfg.severityTable at ht
  rw [e3] at ht
  obtain rfl := Except.ok.inj ht
  obtain ⟨iv, hiv, rfl⟩ := List.mem_map.1 hrow
  obtain ⟨i, j, hij, hj, g1, g2, -⟩ := e4 iv hiv
  have hal := pairwise_of_times e2 hp
  obtain ⟨y1, m1, n1⟩ := mem_time e2 (List.getElem_mem (l := al) (n := i) (by omega))
  have hlt : iv.1 < iv.2 := by rw [← g1, ← g2]; exact times_lt al hal hij hj
  have hmem : ∀ x, x ∈ scoresIn scores iv ↔ ∃ r ∈ scores, (iv.1 ≤ r.1 ∧ r.1 ≤ iv.2) ∧ r.2 = x := by
    intro x
    simp [scoresIn, and_assoc]
  have hne : scoresIn scores iv ≠ [] :=
    List.ne_nil_of_mem ((hmem y1.2).2 ⟨y1, m1, ⟨by omega, by omega⟩, rfl⟩)
  obtain ⟨hi, hhi, lo, hlo, hb⟩ := exists_extremes _ hne
  obtain ⟨r1, p1, q1, rfl⟩ := (hmem hi).1 hhi
  obtain ⟨r2, p2, q2, rfl⟩ := (hmem lo).1 hlo
  refine ⟨r1, p1, r2, p2, q1, q2, fun r hr ha hb' => hb r.2 ((hmem _).2 ⟨r, hr, ⟨ha, hb'⟩, rfl⟩), ?_, ?_, ?_⟩
  all_goals
    intro hd
    change c.magnitude (scoresIn scores iv) = _
    unfold PostCfg.magnitude
    rw [hd]
    dsimp only
  · rw [listMax_map (fun x => x - c.high) (fun a b hab => by dsimp only; linarith) _ _ hhi fun x hx => (hb x hx).2]
    rw [abs_div, abs_highDen]
  · rw [listMax_map_anti (fun x => -x + c.low) (fun a b hab => by dsimp only; linarith) _ _ hlo
      fun x hx => (hb x hx).1]
    rw [abs_div, abs_lowDen, show -r2.2 + c.low = c.low - r2.2 by ring]
  · rw [listMax_map (fun x => max 0 (x - c.high))
      (fun a b hab => max_le_max (le_refl _) (by linarith)) _ _ hhi fun x hx => (hb x hx).2]
    rw [listMax_map_anti (fun x => max 0 (-x + c.low))
      (fun a b hab => max_le_max (le_refl _) (by linarith)) _ _ hlo fun x hx => (hb x hx).1]
    rw [abs_div, abs_div, abs_highDen, abs_lowDen, abs_of_nonneg (le_max_left _ _),
      abs_of_nonneg (le_max_left _ _), show -r2.2 + c.low = c.low - r2.2 by ring]

example : (({ dir := .decrease, low := -2 } : PostCfg).severityTable
      [(0, 0), (1000000000, -5), (3000000000, -4), (4000000000, 0)]).map (fun t => t.map (·.magnitude))
      = .ok [3 / 2] := by decide +kernel

/-- With a zero threshold: the magnitude with a threshold of 0 is measured in units of `10^-8`. -/
example : (({ dir := .increase, high := 0 } : PostCfg).severityTable
      [(0, -1), (1000000000, 1), (2000000000, -4)]).map (fun t => t.map (·.magnitude))
      = .ok [100000000] := by decide +kernel

/-- C77 (kind of an alert): an alert is an individual outlier if and only if fewer than five data
points lie from its start up to (excluding) its end. -/
theorem C77_individual (data : List (Int × Rat)) (hp : data.Pairwise (fun a b => a.1 < b.1))
    (iv : Int × Int) (hle : iv.1 ≤ iv.2) (he : ∃ r ∈ data, r.1 = iv.2) :
    isIndividual data iv = true ↔
      (data.filter fun r => decide (iv.1 ≤ r.1) && decide (r.1 < iv.2)).length < 5 := by
  obtain ⟨r, hr, e⟩ := he
  unfold isIndividual scoresIn
  rw [← e, filter_closed iv.1 r (by omega) data hp hr]
  simp

example : isIndividual [(0, 1), (1, 2), (2, 3), (3, 4), (4, 5), (5, 6)] (1, 5) = true := by decide +kernel

/-- C77 (overall): when there is an alert, the overall figures are the number of alerts, the sum of
the volumes, the sum of the durations, the duration-weighted mean of the heights, and the largest
magnitude. -/
theorem C77_overall_partial (c : PostCfg) (scores : List (Int × Rat)) (t : List Severity)
    (ht : c.severityTable scores = .ok t) (hne : t ≠ []) (hs : ∀ r ∈ t, 0 < r.seconds)
    (hv : ∀ r ∈ t, r.volume = r.height * r.seconds) :
    ∃ o, c.overall scores = .ok o ∧ o.number = t.length
      ∧ o.volume = (t.map (·.volume)).sum
      ∧ o.duration = (t.map (·.seconds)).sum
      ∧ o.height * o.duration = (t.map fun r => r.height * r.seconds).sum
      ∧ (∃ r ∈ t, r.magnitude = o.magnitude) ∧ (∀ r ∈ t, r.magnitude ≤ o.magnitude) := by
  have hpos : 0 < (t.map (·.seconds)).sum := by
    obtain ⟨x, l, rfl⟩ := List.exists_cons_of_ne_nil hne
    rw [List.map_cons, List.sum_cons]
    have : 0 ≤ (l.map (·.seconds)).sum := by
      apply List.sum_nonneg
      intro y hy
      obtain ⟨r, hr, rfl⟩ := List.mem_map.1 hy
      exact (hs r (List.mem_cons_of_mem _ hr)).le
    have := hs x (List.mem_cons_self ..)
    linarith
  refine ⟨_, by
    unfold PostCfg.overall
    rw [ht]
    simp only [bind, Except.bind]
    rw [if_neg (by simpa using hne)], rfl, rfl, rfl, ?_, ?_, ?_⟩
  · dsimp only
    rw [if_neg hpos.ne', div_mul_cancel₀ _ hpos.ne']
    congr 1
    exact List.map_congr_left hv
  · obtain ⟨x, l, rfl⟩ := List.exists_cons_of_ne_nil hne
    have := (listMax_spec x.magnitude (l.map (·.magnitude))).1
    rw [← List.map_cons (f := fun r : Severity => r.magnitude)] at this
    exact List.mem_map.1 this
  · obtain ⟨x, l, rfl⟩ := List.exists_cons_of_ne_nil hne
    intro r hr
    exact (listMax_spec x.magnitude (l.map (·.magnitude))).2 _
      (by rw [← List.map_cons (f := fun r : Severity => r.magnitude)]; exact List.mem_map_of_mem hr)

example : ∃ c : PostCfg, ∃ s t, c.severityTable s = .ok t ∧ t.length = 2
    ∧ (∀ r ∈ t, 0 < r.seconds) ∧ (∀ r ∈ t, r.volume = r.height * r.seconds) :=
  ⟨{}, [(0, 0), (1000000000, 5), (2000000000, 0), (3000000000, -7), (4000000000, -5)],
    [⟨(1000000000, 2000000000), 3, 3, 3 / 2, 1⟩, ⟨(3000000000, 4000000000), 5, 5, 5 / 2, 1⟩],
    by decide +kernel, by decide +kernel, by decide +kernel, by decide +kernel⟩

/-- C77 (violated): with no alert there is no overall score but an error. -/
theorem C77_overall_violated :
    (∀ (c : PostCfg) (scores : List (Int × Rat)), c.severityTable scores = .ok [] →
      c.overall scores = .error .valueError)
    ∧ ∃ (c : PostCfg) (scores : List (Int × Rat)), scores ≠ [] ∧ c.severityTable scores = .ok [] := by
  refine ⟨?_, {}, [(0, 1), (1000000000, 1)], by simp, by decide +kernel⟩
  intro c scores h
  unfold PostCfg.overall
  rw [h]
  rfl

theorem sum_div_nonneg (l : List Rat) (h : ∀ x ∈ l, 0 ≤ x) : 0 ≤ l.sum / l.length := by
  have := List.sum_nonneg h
  positivity

theorem sum_pos' (l : List Rat) (hl : l ≠ []) (h : ∀ x ∈ l, 0 < x) : 0 < l.sum / l.length := by
  obtain ⟨x, l, rfl⟩ := List.exists_cons_of_ne_nil hl
  have h1 := h x (List.mem_cons_self ..)
  have h2 : 0 ≤ l.sum := List.sum_nonneg fun y hy => (h y (List.mem_cons_of_mem _ hy)).le
  rw [List.sum_cons]
  have : 0 < x + l.sum := by linarith
  have : (0 : Rat) < ((x :: l).length : Nat) := by
    rw [List.length_cons]; push_cast; positivity
  positivity

/-- With `fraction ≥ 1` an alert point crosses the threshold itself. -/
theorem alert_crosses (c : PostCfg) (rows : List (Int × Bool)) (i : Nat) (hi : i < rows.length)
    (hf : 1 ≤ c.fraction) (hw : 0 < c.window) (h : c.enough rows i = true) : rows[i].2 = true := by
  unfold PostCfg.enough rollWindow at h
  rw [List.getElem?_eq_getElem hi] at h
  dsimp only at h
  rw [decide_eq_true_iff] at h
  set w := (rows.take (i + 1)).filter fun q => decide (rows[i].1 - c.span < q.1) with hwdef
  have hspan : 0 < c.span := by unfold PostCfg.span; positivity
  have hm : rows[i] ∈ w := by
    rw [hwdef, List.mem_filter]
    refine ⟨?_, by simp; exact hspan⟩
    rw [List.mem_iff_getElem]
    exact ⟨i, by simp; omega, by simp⟩
  have hpos : (0 : Rat) < w.length := by
    exact_mod_cast List.length_pos_of_mem hm
  have h1 : (w.length : Rat) ≤ (w.countP (·.2) : Rat) := by
    have := le_trans hf h
    rwa [le_div_iff₀ hpos, one_mul] at this
  have h2 : w.length ≤ w.countP (·.2) := by exact_mod_cast h1
  have h3 : w.countP (·.2) = w.length := le_antisymm List.countP_le_length h2
  exact List.countP_eq_length.1 h3 _ hm

/-- C77 (sign): watching both directions no volume is negative; when every score of the window must
cross (`fraction = 1`, the default), every volume is positive, whatever the direction. -/
theorem C77_sign_partial (c : PostCfg) (scores : List (Int × Rat))
    (hp : scores.Pairwise (fun a b => a.1 < b.1)) (h : scores ≠ []) (t : List Severity)
    (ht : c.severityTable scores = .ok t) :
    (c.dir = .both → ∀ row ∈ t, 0 ≤ row.volume)
    ∧ (1 ≤ c.fraction → 0 < c.window → ∀ row ∈ t, 0 < row.volume) := by
  obtain ⟨ivs, t', e1, e2, e3, e4⟩ := C77_rows c scores hp h
  rw [ht] at e2
  obtain rfl := Except.ok.inj e2
  constructor
  · intro hd row hrow
    obtain ⟨ex, q1, -, -, q3, q4, q5⟩ := e4 row hrow
    rw [q5, q4]
    apply mul_nonneg _ q3.le
    apply sum_div_nonneg
    intro x hx
    rw [q1] at hx
    obtain ⟨r, -, rfl⟩ := List.mem_map.1 hx
    unfold beyond
    rw [hd]
    exact le_max_left _ _
  · intro hf hw row hrow
    obtain ⟨ex, q1, q2, -, q3, q4, q5⟩ := e4 row hrow
    rw [q5, q4]
    apply mul_pos _ q3
    apply sum_pos' _ q2
    intro x hx
    rw [q1] at hx
    obtain ⟨r, hr, rfl⟩ := List.mem_map.1 hx
    rw [List.mem_filter] at hr
    obtain ⟨hrm, hr2⟩ := hr
    simp only [Bool.and_eq_true, decide_eq_true_eq] at hr2
    obtain ⟨al, ivs', s1, s2, s3, s4⟩ := intervals_ok c scores hp h
    rw [e1] at s3
    obtain rfl := Except.ok.inj s3
    obtain ⟨i, j, hij, hj, g1, g2, g3, -⟩ := s4 row.interval (by rw [← e3]; exact List.mem_map_of_mem hrow)
    have hal := pairwise_of_times s2 hp
    obtain ⟨k, hk, rfl⟩ := List.mem_iff_getElem.1 hrm
    have hlen : al.length = scores.length := by simpa using congrArg List.length s2
    have htime : ∀ n (h1 : n < al.length) (h2 : n < scores.length), al[n].1 = scores[n].1 := by
      intro n h1 h2
      have : (al.map (·.1))[n]'(by simpa using h1) = (scores.map (·.1))[n]'(by simpa using h2) := by
        simp only [s2]
      simpa using this
    have hka : k < al.length := by omega
    rw [← htime k hka hk] at hr2
    have hik : i ≤ k := by
      by_contra hcon
      have := times_lt al hal (show k < i by omega) (by omega)
      omega
    have hkj : k < j := by
      by_contra hcon
      have := times_le al hal (show j ≤ k by omega) (by omega)
      omega
    have halert := g3 k hkj hik
    have hcross : c.crossed scores[k].2 = true := by
      obtain ⟨r0, rs, hrs⟩ := List.exists_cons_of_ne_nil h
      have e : c.startAlert (scores.map fun r => (r.1, c.crossed r.2))
          = .ok ((scores.map fun r => (r.1, c.crossed r.2)).mapIdx fun i q =>
              (q.1, c.enough (scores.map fun r => (r.1, c.crossed r.2)) i
                && !decide (q.1 < r0.1 + c.span))) := by
        rw [hrs, List.map_cons]; rfl
      rw [e] at s1
      have hal' := Except.ok.inj s1
      have : al[k].2 = (c.enough (scores.map fun r => (r.1, c.crossed r.2)) k
          && !decide (scores[k].1 < r0.1 + c.span)) := by
        simp only [← hal', List.getElem_mapIdx, List.getElem_map]
      rw [halert] at this
      have h5 := (Bool.and_eq_true _ _ ▸ this.symm : _ ∧ _).1
      have := alert_crosses c _ k (by simpa using hk) hf hw h5
      simpa using this
    unfold PostCfg.crossed at hcross
    unfold beyond
    revert hcross
    cases c.dir <;> simp
    intro hc hle
    rcases hc with h | h
    · exact h
    · exact absurd h (not_lt.2 hle)

example : ∃ c : PostCfg, c.dir = .decrease ∧ 1 ≤ c.fraction ∧ 0 < c.window
    ∧ c.severityTable [(0, 0), (1000000000, -5), (3000000000, -4), (4000000000, 0)]
      = .ok [⟨(1000000000, 4000000000), 5 / 2, 15 / 2, 3 / 2, 3⟩] :=
  ⟨{ dir := .decrease }, rfl, by norm_num, by norm_num, by decide +kernel⟩

/-- C77 (violated): watching one direction with `fraction < 1` an alert can have a negative volume;
and the volume is not the area of the excess when the scores are unevenly spaced: an excess of 3 for
one second followed by 1 for nine seconds has area 12 but volume 20. -/
theorem C77_sign_violated :
    (∃ c : PostCfg, ∃ scores t, 0 < c.fraction ∧ 0 < c.window
      ∧ scores.Pairwise (fun a b : Int × Rat => a.1 < b.1)
      ∧ c.severityTable scores = .ok t ∧ ∃ row ∈ t, row.volume < 0)
    ∧ (({} : PostCfg).severityTable [(0, 0), (1000000000, 5), (2000000000, 3), (11000000000, 0)]
        = .ok [⟨(1000000000, 11000000000), 2, 20, 3 / 2, 10⟩]) := by
  refine ⟨⟨{ dir := .increase, fraction := 1 / 2, window := 2 },
    [(0, 0), (1000000000, 3), (2000000000, -100), (3000000000, -100)],
    [⟨(2000000000, 3000000000), -102, -102, 51, 1⟩], by norm_num, by norm_num, by decide +kernel,
    by decide +kernel, _, List.mem_cons_self .., by norm_num⟩, by decide +kernel⟩

end Kats
