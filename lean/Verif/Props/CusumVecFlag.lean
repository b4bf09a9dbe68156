import Verif.Props.CusumVec

/-!
# C134: `vectorized=True` does not change the scores of the CUSUM model
-/

namespace Kats

/-- A series moved in time. -/
def shiftT (d : Int) (l : List (Int × Rat)) : List (Int × Rat) := l.map fun p => (p.1 + d, p.2)

/-- A changepoint moved in time. -/
def shiftCp (d : Int) (c : Cp) : Cp := ⟨c.time + d, c.index, c.dir⟩

theorem shiftT_times (d : Int) (l : List (Int × Rat)) : (shiftT d l).map (·.1) = (l.map (·.1)).map (· + d) := by
  unfold shiftT; simp

theorem shiftT_values (d : Int) (l : List (Int × Rat)) : (shiftT d l).map (·.2) = l.map (·.2) := by
  unfold shiftT; simp

theorem shiftT_drop (d : Int) (l : List (Int × Rat)) (n : Nat) : (shiftT d l).drop n = shiftT d (l.drop n) := by
  unfold shiftT; rw [List.map_drop]

theorem shiftT_shift (d e : Int) (l : List (Int × Rat)) : shiftT d (shiftT e l) = shiftT (e + d) l := by
  unfold shiftT
  rw [List.map_map]
  apply List.map_congr_left
  intro p _
  simp [add_assoc]

theorem shiftT_zero (l : List (Int × Rat)) : shiftT 0 l = l := by
  unfold shiftT; simp

theorem shiftT_getLast (d : Int) (l : List (Int × Rat)) : (shiftT d l).getLast? = l.getLast?.map fun p => (p.1 + d, p.2) := by
  unfold shiftT; rw [List.getLast?_map]

theorem shiftT_head (d : Int) (l : List (Int × Rat)) : (shiftT d l).head? = l.head?.map fun p => (p.1 + d, p.2) := by
  unfold shiftT; rw [List.head?_map]

theorem scanStart_shift (cfg : CusumCfg) (l : List (Int × Rat)) (d t : Int) : scanStart cfg (shiftT d l) (t + d) = scanStart cfg l t := by
  unfold scanStart shiftT
  rw [List.findIdx_map]
  congr 1
  funext p
  simp only [Function.comp_apply, decide_eq_decide]
  constructor <;> intro h <;> linarith

theorem earliest_shift (d : Int) (l : List Cp) : earliest (l.map (shiftCp d)) = (earliest l).map (shiftCp d) := by
  induction l with
  | nil => rfl
  | cons c l ih =>
    rw [List.map_cons]
    unfold earliest
    rw [ih]
    cases earliest l with
    | none => rfl
    | some b =>
      simp only [Option.map_some]
      by_cases h : b.time < c.time
      · rw [if_pos h, if_pos (by simp [shiftCp, h])]
        rfl
      · rw [if_neg h, if_neg (by simpa [shiftCp] using h)]
        rfl

/-- What is assumed of the detector: it does not depend on where in time the series is, and its
changepoints are at rows. -/
structure ShiftDetector (detect : List (Int × Rat) → Nat → List Cp) : Prop where
  shift : ∀ d h i, detect (shiftT d h) i = (detect h i).map (shiftCp d)
  rows : ∀ h i, ∀ k ∈ detect h i, ∃ r ∈ h, r.1 = k.time

/-- The windows of whole seconds. -/
def WholeSec (l : List (Int × Rat)) : Prop := ∀ r ∈ l, ∃ s, r.1 = s * nsPerSec

theorem sec_div (s : Int) : s * nsPerSec / nsPerSec = s := Int.mul_ediv_cancel s (by decide)

/-- One column: the state after it is the one after the scalar scan of the window `own`. -/
theorem vecFitRow_spec (cfg : CusumCfg) (std : List Rat → Rat) (detect : List (Int × Rat) → Nat → List Cp) (hdet : ShiftDetector detect)
    (inData inHist : List (Int × Rat)) (k : Int) (hsec : WholeSec (inHist ++ inData)) (st st' : CusumState)
    (h : cusumFit cfg std detect st inData inHist = .ok st') :
    ∃ res, vecFitRow cfg std (shiftT (-(k * nsPerSec)) (inHist ++ inData)) (vecMeta cfg detect (shiftT (-(k * nsPerSec)) (inHist ++ inData)))
        (k * nsPerSec) st = .ok (st', res)
      ∧ ((res = [] ∧ st'.cps = st.cps ∧ (st.alertFired = false → st' = st)
          ∧ (vecMeta cfg detect (shiftT (-(k * nsPerSec)) (inHist ++ inData)) ≠ [] → st.alertFired = true))
        ∨ ∃ x r, r ∈ inHist ++ inData ∧ r.1 = (x + k) * nsPerSec ∧ res = [x] ∧ st'.alertFired = true ∧ st'.cps.getLast? = some (x + k)
          ∧ vecMeta cfg detect (shiftT (-(k * nsPerSec)) (inHist ++ inData)) ≠ []) := by
  unfold cusumFit at h
  simp only at h
  unfold vecFitRow vecMeta
  obtain ⟨own, hown⟩ : ∃ own, own = inHist ++ inData := ⟨_, rfl⟩
  rw [← hown] at h hsec ⊢
  rw [shiftT_getLast]
  cases hl : own.getLast? with
  | none => rw [hl] at h; cases h
  | some last =>
    rw [hl] at h
    simp only [Option.map_some] at h ⊢
    rw [scanStart_shift]
    have hlen : (shiftT (-(k * nsPerSec)) own).length = own.length := by simp [shiftT]
    by_cases ha : st.alertFired = true
    · rw [if_pos ha] at h ⊢
      have e : last.1 + -(k * nsPerSec) + k * nsPerSec = last.1 := by ring
      have hv : fitAlertOff cfg std (shiftT (-(k * nsPerSec)) own) (scanStart cfg own last.1) (last.1 / nsPerSec) st = .ok st' := by
        rw [← h]
        unfold fitAlertOff
        rw [shiftT_values]
      rw [e, hv]
      refine ⟨[], rfl, .inl ⟨rfl, ?_, fun hf => absurd ha (by simp [hf]), fun _ => ha⟩⟩
      unfold fitAlertOff at h
      simp only at h
      rcases hn : ifNormal cfg (adaptBaseline cfg std ((own.map (·.2)).take (scanStart cfg own last.1)) st)
        (mean ((own.map (·.2)).drop (scanStart cfg own last.1))) with e | normal
      · rw [hn] at h; cases h
      · rw [hn] at h
        simp only [bind, Except.bind] at h
        have hab := (adaptBaseline_fields cfg std ((own.map (·.2)).take (scanStart cfg own last.1)) st).1
        have hcn : ∀ s : CusumState, (countNormal s normal).cps = s.cps := by
          intro s
          unfold countNormal CusumState.alertOff
          split_ifs <;> rfl
        unfold expire at h
        rw [hcn, hab] at h
        cases hg : st.cps.getLast? with
        | none => rw [hg] at h; cases h
        | some x =>
          rw [hg] at h
          simp only [Except.ok.injEq] at h
          rw [← h]
          split_ifs
          · simp only [CusumState.alertOff]; rw [hcn, hab]
          · rw [hcn, hab]
    · rw [if_neg ha] at h ⊢
      rw [hlen]
      by_cases hn : own.length - scanStart cfg own last.1 ≤ 1
      · rw [if_pos hn] at h
        rw [if_neg (show ¬ 1 < own.length - scanStart cfg own last.1 by omega)]
        cases h
        exact ⟨[], rfl, .inl ⟨rfl, rfl, fun _ => rfl, fun hf => absurd rfl hf⟩⟩
      · rw [if_neg hn] at h
        rw [if_pos (show 1 < own.length - scanStart cfg own last.1 by omega), hdet.shift, earliest_shift]
        simp only [Except.ok.injEq] at h
        cases he : earliest (detect own (scanStart cfg own last.1)) with
        | none =>
          rw [he] at h
          simp only [fitAlertOn] at h
          subst h
          exact ⟨[], rfl, .inl ⟨rfl, rfl, fun _ => rfl, fun hf => absurd rfl hf⟩⟩
        | some cp =>
          rw [he] at h
          have hmem : cp ∈ detect own (scanStart cfg own last.1) := earliest_mem _ _ he
          obtain ⟨r, hr, hrt⟩ := hdet.rows _ _ cp hmem
          obtain ⟨s, hs⟩ := hsec r hr
          have ht : cp.time = s * nsPerSec := by rw [← hrt, hs]
          have e1 : cp.time + -(k * nsPerSec) + k * nsPerSec = cp.time := by ring
          have e2 : (cp.time + -(k * nsPerSec)) / nsPerSec = s - k := by
            rw [ht, show s * nsPerSec + -(k * nsPerSec) = (s - k) * nsPerSec by ring, sec_div]
          simp only [Option.map_some, Option.toList_some, shiftCp, e1, e2, shiftT_values]
          refine ⟨[s - k], ?_, .inr ⟨s - k, r, hr, ?_, rfl, ?_, ?_, by simp⟩⟩
          · rw [← h]
            rfl
          · rw [hs]; ring
          · rw [← h]; rfl
          · rw [← h]
            simp only [fitAlertOn, CusumState.alertOn]
            rw [getLast_pushCp, ht, sec_div]
            simp

theorem zipIdx_scores1 (data : List (Int × Rat)) (k : Nat) (hk : k < data.length) (f : Rat → Option Rat) :
    (data.zipIdx.map fun r => if decide (r.2 < k + 1) = true then some 0 else f r.1.2)
      = List.replicate (k + 1) (some 0) ++ (data.drop (k + 1)).map fun p => f p.2 := by
  apply List.ext_getElem
  · simp; omega
  · intro j h1 h2
    simp only [List.length_map, List.length_zipIdx] at h1
    rw [List.getElem_map, List.getElem_zipIdx]
    simp only [Nat.zero_add, decide_eq_true_eq]
    by_cases hj : j < k + 1
    · rw [if_pos hj, List.getElem_append_left (by simpa using hj)]
      simp
    · rw [if_neg hj, List.getElem_append_right (by simpa using Nat.le_of_not_lt hj)]
      simp only [List.getElem_map, List.getElem_drop, List.length_replicate]
      have e : k + 1 + (j - (k + 1)) = j := by omega
      simp only [e]

/-- The scores of one column are those of the scalar model for the rows `seg`. -/
theorem vecPredictCol_spec (cfg : CusumCfg) (sg : List (Int × Rat)) (hne : sg ≠ []) (k : Int) (st : CusumState) (res : List Int) (m s : Option Rat)
    (hms : st.alertFired = true → m = st.preMean ∧ s = st.preStd)
    (hres : (res = [] ∧ ∀ y, st.cps.getLast? = some y → ∀ p, sg.head? = some p → y * nsPerSec < p.1)
      ∨ ∃ x, x ≠ 0 ∧ res = [x] ∧ st.alertFired = true ∧ st.cps.getLast? = some (x + k))
    (out : List (Option Rat)) (h : cusumPredict cfg st sg = .ok out) :
    vecPredictCol cfg (shiftT (-(k * nsPerSec)) sg) (m, s, st.alertFired, res) = .ok out := by
  obtain ⟨p0, hp0⟩ : ∃ p0, sg.head? = some p0 := by
    cases sg with
    | nil => exact absurd rfl hne
    | cons p l => exact ⟨p, rfl⟩
  have hall : ∀ f : Rat → Option Rat, ((shiftT (-(k * nsPerSec)) sg).zipIdx.map fun r => f r.1.2) = sg.map fun p => f p.2 := by
    intro f
    apply List.ext_getElem
    · simp [shiftT]
    · intro j h1 h2
      simp [shiftT]
  unfold vecPredictCol
  rw [shiftT_head, hp0]
  simp only [Option.map_some]
  unfold cusumPredict at h
  by_cases ha : st.alertFired = true
  · obtain ⟨rfl, rfl⟩ := hms ha
    rw [if_pos ha, hp0] at h
    rcases hres with ⟨rfl, hlt⟩ | ⟨x, hx0, rfl, -, hx⟩
    · cases hc : st.cps.getLast? with
      | none => rw [hc] at h; cases h
      | some y =>
        rw [hc] at h
        simp only at h
        have := hlt y hc p0 hp0
        rw [if_neg (not_le.2 this)] at h
        have e : vecCpIndex ((shiftT (-(k * nsPerSec)) sg).map (·.1)) (p0.1 + -(k * nsPerSec)) [] = .ok none := rfl
        rw [e]
        simp only [bind, Except.bind, pure, Except.pure, ha, Bool.not_true, Bool.or_false, Bool.false_eq_true, if_false]
        rw [← h, hall fun v => cfg.score v st.preMean st.preStd]
    · rw [hx] at h
      simp only at h
      unfold vecCpIndex
      simp only [List.getLast?_singleton, if_neg hx0]
      have hiff : p0.1 + -(k * nsPerSec) ≤ x * nsPerSec ↔ p0.1 ≤ (x + k) * nsPerSec := by
        constructor <;> intro h <;> linarith [add_mul x k nsPerSec]
      have hfind : ((shiftT (-(k * nsPerSec)) sg).map (·.1)).findIdx? (fun t => decide (t = x * nsPerSec))
          = sg.findIdx? fun p => decide (p.1 = (x + k) * nsPerSec) := by
        unfold shiftT
        rw [List.map_map, List.findIdx?_map]
        congr 1
        funext p
        simp only [Function.comp_apply, decide_eq_decide]
        constructor <;> intro h <;> linarith [add_mul x k nsPerSec]
      rw [hfind]
      by_cases h1 : p0.1 ≤ (x + k) * nsPerSec
      · rw [if_pos h1] at h
        rw [if_pos (hiff.2 h1)]
        cases hf : sg.findIdx? fun p => decide (p.1 = (x + k) * nsPerSec) with
        | none => rw [hf] at h; cases h
        | some j =>
          rw [hf] at h
          simp only [Except.ok.injEq] at h
          simp only [bind, Except.bind, pure, Except.pure, ha, Bool.not_true, Bool.false_or]
          have hj : j < sg.length := by
            obtain ⟨hlt, -⟩ := List.findIdx?_eq_some_iff_getElem.1 hf
            exact hlt
          rw [zipIdx_scores1 _ j (by simpa [shiftT] using hj) fun v => cfg.score v st.preMean st.preStd, ← h, shiftT_drop]
          congr 2
          unfold shiftT
          rw [List.map_map]
          rfl
      · rw [if_neg h1] at h
        rw [if_neg (fun h2 => h1 (hiff.1 h2))]
        simp only [bind, Except.bind, pure, Except.pure, ha, Bool.not_true, Bool.or_false, Bool.false_eq_true, if_false]
        rw [← h, hall fun v => cfg.score v st.preMean st.preStd]
  · have ha' : st.alertFired = false := by simpa using ha
    rw [if_neg ha] at h
    rcases hres with ⟨rfl, -⟩ | ⟨x, -, -, h1, -⟩
    · have e : vecCpIndex ((shiftT (-(k * nsPerSec)) sg).map (·.1)) (p0.1 + -(k * nsPerSec)) [] = .ok none := rfl
      rw [e]
      simp only [bind, Except.bind, pure, Except.pure, ha', Bool.not_false, Bool.true_or, if_true]
      rw [← h, hall fun _ => some 0]
    · exact absurd h1 ha

/-! ## The loop -/

/-- Times of a regular series of whole seconds after the epoch. -/
structure SecGrid (l : List (Int × Rat)) (s0 f : Int) : Prop where
  pos : 0 < f
  start : 0 < s0
  time : ∀ i (h : i < l.length), l[i].1 = (s0 + i * f) * nsPerSec

theorem seg_append (l : List (Int × Rat)) (a b c : Nat) (h1 : a ≤ b) (h2 : b ≤ c) (h3 : c ≤ l.length) : seg l a b ++ seg l b c = seg l a c := by
  unfold seg
  apply List.ext_getElem
  · simp; omega
  · intro j g1 g2
    simp only [List.length_append, List.length_drop, List.length_take] at g1
    by_cases hj : j < b - a
    · rw [List.getElem_append_left (by simp; omega)]
      simp
    · rw [List.getElem_append_right (by simp; omega)]
      simp only [List.getElem_drop, List.getElem_take, List.length_drop, List.length_take]
      congr 1
      omega

theorem seg_length (l : List (Int × Rat)) (a b : Nat) (h : b ≤ l.length) : (seg l a b).length = b - a := by
  unfold seg; simp; omega

theorem seg_getElem (l : List (Int × Rat)) (a b j : Nat) (hb : b ≤ l.length) (hj : j < (seg l a b).length) :
    (seg l a b)[j] = l[a + j]'(by rw [seg_length l a b hb] at hj; omega) := by
  simp only [seg, List.getElem_drop, List.getElem_take]

/-- Window `c` as a column: its values at the times of window 0. -/
def vecRowAt (l : List (Int × Rat)) (b nh ns : Nat) (f : Int) (c : Nat) : List (Int × Rat) :=
  shiftT (-((c * (ns * f)) * nsPerSec)) (seg l (b + c * ns) (b + nh + (c + 1) * ns))

theorem vecLoop_spec (cfg : CusumCfg) (std : List Rat → Rat) (detect : List (Int × Rat) → Nat → List Cp) (hdet : ShiftDetector detect)
    (all smooth : List (Int × Rat)) (s0 f : Int) (hg : SecGrid all s0 f) (hgs : SecGrid smooth s0 f) (hsl : smooth.length = all.length)
    (b nh ns : Nat) (hns : 0 < ns) (isInt : Bool) (m : Nat) : ∀ (c : Nat) (st : CusumState) (sc : List (Option Rat)) (r : CusumState × List (Option Rat)),
    (List.range' c m).foldlM (fun acc c => fitAndScore cfg std detect all smooth (b + c * ns) (b + nh + c * ns) (b + nh + (c + 1) * ns) acc) (st, sc) = .ok r →
    b + nh + (c + m) * ns ≤ all.length →
    (∀ y, st.cps.getLast? = some y → y < s0 + (b + nh + c * ns : Nat) * f) →
    (isInt = false ∨ st.alertFired = false ∧ st.preMean.isSome = true ∧ st.preStd.isSome = true
      ∧ ∀ k ∈ List.range' c m, vecMeta cfg detect (vecRowAt all b nh ns f k) = []) →
    ∃ st' outs scs, vecColumns cfg std isInt (ns * f * nsPerSec) c
        ((List.range' c m).map fun k => (vecRowAt all b nh ns f k, vecMeta cfg detect (vecRowAt all b nh ns f k))) st = .ok (st', outs)
      ∧ (((List.range' c m).map (vecRowAt smooth b nh ns f)).zip outs).mapM (fun q => vecPredictCol cfg (q.1.drop (q.1.length - ns)) q.2) = .ok scs
      ∧ r = (st', sc ++ scs.flatten) := by
  induction m with
  | zero =>
    intro c st sc r h _ _ _
    simp only [List.range'_zero, List.foldlM_nil, pure, Except.pure, Except.ok.injEq] at h
    exact ⟨st, [], [], rfl, rfl, by simp [← h]⟩
  | succ m ih =>
    intro c st sc r h hle hinv hint
    rw [List.range'_succ, List.foldlM_cons] at h
    have hcm : (c + (m + 1)) * ns = (c + 1) * ns + m * ns := by ring
    have hc1 : (c + 1) * ns = c * ns + ns := by ring
    have hse : b + nh + (c + 1) * ns ≤ all.length := by rw [hcm] at hle; omega
    rcases hw : fitAndScore cfg std detect all smooth (b + c * ns) (b + nh + c * ns) (b + nh + (c + 1) * ns) (st, sc) with e | r1
    · rw [hw] at h; cases h
    rw [hw] at h
    simp only [bind, Except.bind] at h
    unfold fitAndScore at hw
    simp only at hw
    rcases hf : cusumFit cfg std detect st (seg all (b + nh + c * ns) (b + nh + (c + 1) * ns)) (seg all (b + c * ns) (b + nh + c * ns)) with e | st1
    · rw [hf] at hw; cases hw
    rw [hf] at hw
    simp only [bind, Except.bind] at hw
    rcases hp : cusumPredict cfg st1 (seg smooth (b + nh + c * ns) (b + nh + (c + 1) * ns)) with e | out
    · rw [hp] at hw; cases hw
    rw [hp] at hw
    simp only [pure, Except.pure, Except.ok.injEq] at hw
    subst hw
    have happ : seg all (b + c * ns) (b + nh + c * ns) ++ seg all (b + nh + c * ns) (b + nh + (c + 1) * ns)
        = seg all (b + c * ns) (b + nh + (c + 1) * ns) := seg_append _ _ _ _ (by omega) (by omega) hse
    have hmem : ∀ q ∈ seg all (b + c * ns) (b + nh + (c + 1) * ns), ∃ i : Nat, i < b + nh + (c + 1) * ns ∧ q.1 = (s0 + i * f) * nsPerSec := by
      intro q hq
      obtain ⟨j, hj, rfl⟩ := List.getElem_of_mem hq
      rw [seg_getElem _ _ _ _ hse]
      rw [seg_length _ _ _ hse] at hj
      exact ⟨b + c * ns + j, by omega, hg.time _ _⟩
    have hsec : WholeSec (seg all (b + c * ns) (b + nh + c * ns) ++ seg all (b + nh + c * ns) (b + nh + (c + 1) * ns)) := by
      rw [happ]
      intro q hq
      obtain ⟨i, -, hi⟩ := hmem q hq
      exact ⟨_, hi⟩
    obtain ⟨res, hrow, hcase⟩ := vecFitRow_spec cfg std detect hdet _ _ (c * (ns * f)) hsec st st1 hf
    rw [happ] at hrow hcase
    have hnspos : (0 : Int) < nsPerSec := by decide
    -- the invariant
    have hinv1 : ∀ y, st1.cps.getLast? = some y → y < s0 + (b + nh + (c + 1) * ns : Nat) * f := by
      intro y hy
      rcases hcase with ⟨-, hcps, -, -⟩ | ⟨x, q, hq, hqt, -, -, hlast, -⟩
      · rw [hcps] at hy
        refine lt_of_lt_of_le (hinv y hy) ?_
        have : ((b + nh + c * ns : Nat) : Int) ≤ (b + nh + (c + 1) * ns : Nat) := by
          exact_mod_cast (by omega)
        nlinarith [hg.pos]
      · rw [hlast] at hy
        cases hy
        obtain ⟨i, hi, hqi⟩ := hmem q hq
        rw [hqi] at hqt
        have : x + c * (ns * f) = s0 + i * f := (mul_right_cancel₀ (ne_of_gt hnspos) hqt).symm
        rw [this]
        have : ((i : Nat) : Int) < (b + nh + (c + 1) * ns : Nat) := by exact_mod_cast hi
        nlinarith [hg.pos]
    have hint1 : isInt = false ∨ st1.alertFired = false ∧ st1.preMean.isSome = true ∧ st1.preStd.isSome = true
        ∧ ∀ k ∈ List.range' (c + 1) m, vecMeta cfg detect (vecRowAt all b nh ns f k) = [] := by
      rcases hint with h | ⟨h1, h2, h3, h4⟩
      · exact .inl h
      · right
        have hst : st1 = st := by
          rcases hcase with ⟨-, -, heq, -⟩ | ⟨x, q, -, -, -, -, -, hne⟩
          · exact heq h1
          · exact absurd (h4 c (by rw [List.range'_succ]; simp)) hne
        rw [hst]
        exact ⟨h1, h2, h3, fun k hk => h4 k (by rw [List.range'_succ]; simp [hk])⟩
    obtain ⟨st', outs, scs, hvc, hmp, hr⟩ := ih (c + 1) st1 (sc ++ out) r h (by
      have : c + 1 + m = c + (m + 1) := by omega
      rw [this]; exact hle) hinv1 hint1
    have hadj : ((c : Nat) : Int) * ((ns : Int) * f * nsPerSec) = (c * (ns * f)) * nsPerSec := by ring
    obtain ⟨mm, ss, hmm, hss, hms⟩ : ∃ mm ss, (if isInt = true then vecTrunc st1.preMean else .ok st1.preMean) = .ok mm
        ∧ (if isInt = true then vecTrunc st1.preStd else .ok st1.preStd) = .ok ss
        ∧ (st1.alertFired = true → mm = st1.preMean ∧ ss = st1.preStd) := by
      rcases hint1 with h | ⟨h1, h2, h3, -⟩
      · rw [h]
        exact ⟨_, _, rfl, rfl, fun _ => ⟨rfl, rfl⟩⟩
      · by_cases hi : isInt = true
        · obtain ⟨v, hv⟩ := Option.isSome_iff_exists.1 h2
          obtain ⟨w, hw⟩ := Option.isSome_iff_exists.1 h3
          rw [if_pos hi, if_pos hi, hv, hw]
          exact ⟨_, _, rfl, rfl, fun h => absurd h (by simp [h1])⟩
        · rw [if_neg hi, if_neg hi]
          exact ⟨_, _, rfl, rfl, fun _ => ⟨rfl, rfl⟩⟩
    refine ⟨st', (mm, ss, st1.alertFired, res) :: outs, out :: scs, ?_, ?_, ?_⟩
    · rw [List.range'_succ, List.map_cons]
      unfold vecColumns
      rw [hadj]
      unfold vecRowAt at hvc ⊢
      simp only
      rw [hrow]
      simp only [bind, Except.bind]
      cases isInt with
      | false =>
        simp only [Bool.false_eq_true, if_false, Except.ok.injEq] at hmm hss ⊢
        rw [hvc, hmm, hss]
        rfl
      | true =>
        simp only [if_true] at hmm hss ⊢
        rw [hmm]
        simp only
        rw [hss]
        simp only
        rw [hvc]
        rfl
    · rw [List.range'_succ, List.map_cons, List.zip_cons_cons, List.mapM_cons, hmp]
      have hdrop : (vecRowAt smooth b nh ns f c).drop ((vecRowAt smooth b nh ns f c).length - ns)
          = shiftT (-((c * (ns * f)) * nsPerSec)) (seg smooth (b + nh + c * ns) (b + nh + (c + 1) * ns)) := by
        have hl : (vecRowAt smooth b nh ns f c).length = nh + ns := by
          unfold vecRowAt shiftT
          rw [List.length_map, seg_length _ _ _ (by omega)]
          omega
        rw [hl]
        unfold vecRowAt
        rw [shiftT_drop]
        congr 1
        unfold seg
        rw [List.drop_drop]
        congr 1
        omega
      have hslen : (seg smooth (b + nh + c * ns) (b + nh + (c + 1) * ns)).length = ns := by
        rw [seg_length _ _ _ (by omega)]; omega
      have hhead : ∀ p, (seg smooth (b + nh + c * ns) (b + nh + (c + 1) * ns)).head? = some p → p.1 = (s0 + (b + nh + c * ns : Nat) * f) * nsPerSec := by
        intro p hp
        rw [List.head?_eq_getElem?, List.getElem?_eq_getElem (by omega)] at hp
        cases hp
        rw [seg_getElem _ _ _ _ (by omega)]
        exact hgs.time _ _
      have hcol := vecPredictCol_spec cfg (seg smooth (b + nh + c * ns) (b + nh + (c + 1) * ns)) (by
          intro e; rw [e] at hslen; simp at hslen; omega) (c * (ns * f)) st1 res mm ss hms ?_ out hp
      · simp only [hdrop]
        rw [hcol]
        rfl
      · rcases hcase with ⟨hres, hcps, -, -⟩ | ⟨x, q, hq, hqt, hres, hal, hlast, -⟩
        · left
          refine ⟨hres, fun y hy p hp => ?_⟩
          rw [hhead p hp]
          rw [hcps] at hy
          exact mul_lt_mul_of_pos_right (hinv y hy) hnspos
        · right
          refine ⟨x, ?_, hres, hal, hlast⟩
          -- the changepoint is in the first window, after the epoch
          obtain ⟨j, hj, rfl⟩ := List.getElem_of_mem hq
          rw [seg_getElem _ _ _ _ hse, hg.time] at hqt
          have h1 : x + c * (ns * f) = s0 + (b + c * ns + j : Nat) * f := (mul_right_cancel₀ (ne_of_gt hnspos) hqt).symm
          have h2 : x = s0 + (b + j : Nat) * f := by
            push_cast at h1 ⊢
            linarith [h1, show ((c : Int) * (ns * f)) = c * ns * f by ring, show ((b : Int) + c * ns + j) * f = (b + j) * f + c * ns * f by ring]
          have h3 : (0 : Int) ≤ ((b + j : Nat) : Int) * f := mul_nonneg (by positivity) (le_of_lt hg.pos)
          have := hg.start
          omega
    · rw [hr, List.flatten_cons, List.append_assoc]

/-! ## Positions on the grid -/

theorem grid_lt (s0 f : Int) (hf : 0 < f) (i j : Nat) : (s0 + i * f) * nsPerSec < (s0 + j * f) * nsPerSec ↔ i < j := by
  have hn : (0 : Int) < nsPerSec := by decide
  rw [mul_lt_mul_iff_left₀ hn, add_lt_add_iff_left, mul_lt_mul_iff_left₀ hf]
  exact Nat.cast_lt

theorem grid_le (s0 f : Int) (hf : 0 < f) (i j : Nat) : (s0 + i * f) * nsPerSec ≤ (s0 + j * f) * nsPerSec ↔ i ≤ j := by
  rw [← not_lt, ← not_lt, grid_lt s0 f hf]

theorem grid_idxRight (l : List (Int × Rat)) (s0 f : Int) (hg : SecGrid l s0 f) (j : Nat) (hj : j < l.length) :
    idxRight l ((s0 + j * f) * nsPerSec) = .ok j := by
  unfold idxRight
  have : (l.findIdx? fun p => decide ((s0 + j * f) * nsPerSec ≤ p.1)) = some j := by
    rw [List.findIdx?_eq_some_iff_getElem]
    refine ⟨hj, by rw [hg.time]; simp, ?_⟩
    intro i hi
    rw [hg.time i (by omega)]
    simp only [decide_eq_true_eq, not_le]
    exact (grid_lt s0 f hg.pos i j).2 hi
  rw [this]

theorem grid_idxLeft (l : List (Int × Rat)) (s0 f : Int) (hg : SecGrid l s0 f) (j : Nat) (hj : j + 1 ≤ l.length) :
    idxLeft l ((s0 + (j + 1 : Nat) * f) * nsPerSec) = .ok j := by
  unfold idxLeft
  have : (List.range l.length).filter (fun i => decide ((l.getD i (0, 0)).1 < (s0 + (j + 1 : Nat) * f) * nsPerSec)) = List.range (j + 1) := by
    have h1 : (List.range l.length).filter (fun i => decide ((l.getD i (0, 0)).1 < (s0 + (j + 1 : Nat) * f) * nsPerSec))
        = (List.range l.length).filter fun i => decide (i < j + 1) := by
      apply List.filter_congr
      intro i hi
      have hi' := List.mem_range.1 hi
      rw [List.getD_eq_getElem?_getD, List.getElem?_eq_getElem hi', Option.getD_some, hg.time]
      simp only [decide_eq_decide]
      exact grid_lt s0 f hg.pos i (j + 1)
    rw [h1]
    obtain ⟨d, hd⟩ := Nat.exists_eq_add_of_le hj
    rw [hd, List.range_add, List.filter_append]
    have h2 : (List.range (j + 1)).filter (fun i => decide (i < j + 1)) = List.range (j + 1) := by
      rw [List.filter_eq_self]
      intro i hi
      simpa using List.mem_range.1 hi
    have h3 : ((List.range d).map (j + 1 + ·)).filter (fun i => decide (i < j + 1)) = [] := by
      rw [List.filter_eq_nil_iff]
      intro i hi
      obtain ⟨q, -, rfl⟩ := List.mem_map.1 hi
      simp
      omega
    rw [h2, h3, List.append_nil]
  rw [this, List.range_succ]
  simp

theorem vecReorganize_eq (l : List (Int × Rat)) (s0 f : Int) (hg : SecGrid l s0 f) (b nh ns dim : Nat) (hns : 0 < ns) (hdim : 0 < dim)
    (hle : b + nh + dim * ns ≤ l.length) :
    vecReorganize (seg l b (b + nh + dim * ns)) (nh + ns) ns = (List.range dim).map (vecRowAt l b nh ns f) := by
  obtain ⟨d, rfl⟩ : ∃ d, dim = d + 1 := ⟨dim - 1, by omega⟩
  unfold vecReorganize
  have hlen : (seg l b (b + nh + (d + 1) * ns)).length = nh + (d + 1) * ns := by
    rw [seg_length _ _ _ hle]; omega
  have hcnt : ((seg l b (b + nh + (d + 1) * ns)).length - (nh + ns) + ns - 1) / ns = d := by
    rw [hlen]
    have : nh + (d + 1) * ns - (nh + ns) + ns - 1 = (ns - 1) + ns * d := by
      have : (d + 1) * ns = ns * d + ns := by ring
      omega
    rw [this, Nat.add_mul_div_left _ _ hns, Nat.div_eq_of_lt (by omega), Nat.zero_add]
  have hst : 0 :: (List.range d).map (fun k => (k + 1) * ns) = (List.range (d + 1)).map fun k => k * ns := by
    rw [List.range_succ_eq_map, List.map_cons, List.map_map]
    simp
  simp only [hcnt, hst]
  rw [List.map_map]
  apply List.map_congr_left
  intro c hc
  have hc' := List.mem_range.1 hc
  have hcd : (c + 1) * ns ≤ (d + 1) * ns := Nat.mul_le_mul_right ns (by omega)
  have hc1 : (c + 1) * ns = c * ns + ns := by ring
  have hd1 : ns ≤ (d + 1) * ns := Nat.le_mul_of_pos_left ns (by omega)
  apply List.ext_getElem
  · simp [vecRowAt, shiftT, seg]
    omega
  · intro j h1 h2
    have hj : j < nh + ns := by
      simp [seg] at h1
      omega
    simp only [Function.comp_apply, List.getElem_zip, List.getElem_map, List.getElem_take, List.getElem_drop, vecRowAt, shiftT]
    rw [seg_getElem _ _ _ _ hle, seg_getElem _ _ _ _ hle, seg_getElem _ _ _ _ (by omega)]
    rw [hg.time]
    have e : b + (c * ns + j) = b + c * ns + j := by omega
    simp only [e]
    rw [hg.time]
    congr 1
    push_cast
    ring

theorem foldlM_congr_mem {α β : Type} (f g : β → α → Except Err β) (l : List α) (h : ∀ a ∈ l, ∀ acc, f acc a = g acc a) (acc : β) :
    l.foldlM f acc = l.foldlM g acc := by
  induction l generalizing acc with
  | nil => rfl
  | cons a l ih =>
    rw [List.foldlM_cons, List.foldlM_cons, h a (by simp)]
    congr 1
    funext acc'
    exact ih (fun b hb => h b (by simp [hb])) acc'

theorem grid_dateRange (s0 f : Int) (hf : 0 < f) (N a ns : Nat) (hns : 0 < ns) (h : a + ns ≤ N) :
    dateRange ((s0 + a * f) * nsPerSec)
      (min ((s0 + (N - 1 : Nat) * f) * nsPerSec + f * nsPerSec - ns * f * nsPerSec) ((s0 + (N - 1 : Nat) * f) * nsPerSec)) (ns * f * nsPerSec)
      = (List.range ((N - a) / ns)).map fun i : Nat => (s0 + (a + i * ns : Nat) * f) * nsPerSec := by
  have hn : (0 : Int) < nsPerSec := by decide
  have hfn : 0 < f * nsPerSec := mul_pos hf hn
  obtain ⟨d, rfl⟩ := Nat.exists_eq_add_of_le h
  have hmin : min ((s0 + (a + ns + d - 1 : Nat) * f) * nsPerSec + f * nsPerSec - ns * f * nsPerSec) ((s0 + (a + ns + d - 1 : Nat) * f) * nsPerSec)
      = (s0 + (a + d : Nat) * f) * nsPerSec := by
    have hc : ((a + ns + d - 1 : Nat) : Int) = a + ns + d - 1 := by
      rw [Nat.cast_sub (by omega)]; push_cast; ring
    rw [hc, min_eq_left]
    · push_cast; ring
    · have : (1 : Int) ≤ ns := by exact_mod_cast hns
      nlinarith
  unfold dateRange
  rw [hmin, if_neg (not_lt.2 ((grid_le s0 f hf a (a + d)).2 (by omega)))]
  have hsub : (s0 + (a + d : Nat) * f) * nsPerSec - (s0 + a * f) * nsPerSec = (d : Int) * (f * nsPerSec) := by push_cast; ring
  have hstep : (ns : Int) * f * nsPerSec = (ns : Int) * (f * nsPerSec) := by ring
  rw [hsub, hstep, Int.mul_ediv_mul_of_pos_left _ _ hfn]
  have hcnt : ((d : Int) / (ns : Int)).toNat + 1 = (a + ns + d - a) / ns := by
    have e : a + ns + d - a = d + ns := by omega
    rw [e, Nat.add_div_right _ hns]
    norm_cast
  rw [hcnt]
  apply List.map_congr_left
  intro i _
  push_cast
  ring

/-- The loop over the windows, in terms of rows. -/
theorem cusumWindow_grid (cfg : CusumCfg) (std : List Rat → Rat) (detect : List (Int × Rat) → Nat → List Cp) (all smooth : List (Int × Rat))
    (s0 f : Int) (hg : SecGrid all s0 f) (b nh ns c : Nat) (hns : 0 < ns) (hh : cfg.histWindow = nh * f * nsPerSec)
    (hle : b + nh + (c + 1) * ns ≤ all.length) (acc : CusumState × List (Option Rat)) :
    cusumWindow cfg std detect all smooth (ns * f * nsPerSec) acc ((s0 + (b + nh + c * ns : Nat) * f) * nsPerSec)
      = fitAndScore cfg std detect all smooth (b + c * ns) (b + nh + c * ns) (b + nh + (c + 1) * ns) acc := by
  have hc1 : (c + 1) * ns = c * ns + ns := by ring
  unfold cusumWindow
  have e1 : (s0 + (b + nh + c * ns : Nat) * f) * nsPerSec - cfg.histWindow = (s0 + (b + c * ns : Nat) * f) * nsPerSec := by
    rw [hh]; push_cast; ring
  have e2 : (s0 + (b + nh + c * ns : Nat) * f) * nsPerSec + ns * f * nsPerSec = (s0 + (b + nh + (c + 1) * ns - 1 + 1 : Nat) * f) * nsPerSec := by
    rw [Nat.sub_add_cancel (by omega)]; push_cast; ring
  rw [e1, e2, grid_idxRight all s0 f hg _ (by omega), grid_idxRight all s0 f hg _ (by omega), grid_idxLeft all s0 f hg _ (by omega)]
  simp only [bind, Except.bind]
  rw [Nat.sub_add_cancel (by omega), if_neg]
  intro e
  have := congrArg List.length e
  rw [seg_length _ _ _ hle] at this
  simp at this
  omega

/-- The loop of `vectorized=True` gives what the loop over the windows gives. -/
theorem vecLoopFlag_eq (cfg : CusumCfg) (std : List Rat → Rat) (detect : List (Int × Rat) → Nat → List Cp) (hdet : ShiftDetector detect)
    (all smooth : List (Int × Rat)) (s0 f : Int) (hg : SecGrid all s0 f) (hgs : SecGrid smooth s0 f) (hsl : smooth.length = all.length)
    (b nh ns dim : Nat) (hns : 0 < ns) (hdim : 0 < dim) (hh : cfg.histWindow = nh * f * nsPerSec) (hle : b + nh + dim * ns ≤ all.length)
    (st : CusumState) (zeros : List (Option Rat)) (r : CusumState × List (Option Rat))
    (hinv : ∀ y, st.cps.getLast? = some y → y < s0 + (b + nh : Nat) * f)
    (hint : (st.alertFired = false ∧ st.preMean.isSome = true ∧ st.preStd.isSome = true)
      ∨ ∃ c < dim, vecMeta cfg detect (vecRowAt all b nh ns f c) ≠ [])
    (h : ((List.range dim).map fun i : Nat => (s0 + (b + nh + i * ns : Nat) * f) * nsPerSec).foldlM
      (cusumWindow cfg std detect all smooth (ns * f * nsPerSec)) (st, zeros) = .ok r) :
    (vecLoopFlag cfg std detect all smooth (b + nh) nh ns dim (ns * f * nsPerSec) st).map (fun q => (q.1, zeros ++ q.2)) = .ok r := by
  rw [List.foldlM_map, foldlM_congr_mem _ (fun acc c => fitAndScore cfg std detect all smooth (b + c * ns) (b + nh + c * ns) (b + nh + (c + 1) * ns) acc)
    (List.range dim) (fun c hc acc => cusumWindow_grid cfg std detect all smooth s0 f hg b nh ns c hns hh (by
      have : (c + 1) * ns ≤ dim * ns := Nat.mul_le_mul_right ns (List.mem_range.1 hc)
      omega) acc), List.range_eq_range'] at h
  unfold vecLoopFlag
  rw [Nat.add_sub_cancel, vecReorganize_eq all s0 f hg b nh ns dim hns hdim hle,
    vecReorganize_eq smooth s0 f hgs b nh ns dim hns hdim (by rw [hsl]; exact hle)]
  obtain ⟨isInt, hI⟩ : ∃ isInt, isInt = (((List.range dim).map (vecRowAt all b nh ns f)).map (vecMeta cfg detect)).all fun l => l.isEmpty := ⟨_, rfl⟩
  have hz : ((List.range dim).map (vecRowAt all b nh ns f)).zip (((List.range dim).map (vecRowAt all b nh ns f)).map (vecMeta cfg detect))
      = (List.range' 0 dim).map fun k => (vecRowAt all b nh ns f k, vecMeta cfg detect (vecRowAt all b nh ns f k)) := by
    rw [List.range_eq_range']
    apply List.ext_getElem
    · simp
    · intro j h1 h2
      simp
  simp only [hz, ← hI]
  obtain ⟨st', outs, scs, h1, h2, h3⟩ := vecLoop_spec cfg std detect hdet all smooth s0 f hg hgs hsl b nh ns hns isInt dim 0 st zeros r h
    (by simpa using hle) (by simpa using hinv) (by
      by_cases hi : isInt = false
      · exact .inl hi
      · right
        have hi' : isInt = true := by simpa using hi
        rw [hI, List.all_eq_true] at hi'
        have hemp : ∀ c < dim, vecMeta cfg detect (vecRowAt all b nh ns f c) = [] := by
          intro c hc
          have := hi' (vecMeta cfg detect (vecRowAt all b nh ns f c))
            (List.mem_map_of_mem (List.mem_map_of_mem (List.mem_range.2 hc)))
          simpa using this
        rcases hint with ⟨g1, g2, g3⟩ | ⟨c, hc, hne⟩
        · refine ⟨g1, g2, g3, fun k hk => hemp k ?_⟩
          simpa using hk
        · exact absurd (hemp c hc) hne)
  rw [h1]
  simp only [bind, Except.bind]
  rw [List.range_eq_range', h2]
  simp only [pure, Except.pure, Except.map]
  rw [h3]

theorem vecMeta_shift (cfg : CusumCfg) (detect : List (Int × Rat) → Nat → List Cp) (hdet : ShiftDetector detect) (d : Int) (l : List (Int × Rat)) :
    vecMeta cfg detect (shiftT d l) = (vecMeta cfg detect l).map (shiftCp d) := by
  unfold vecMeta
  rw [shiftT_getLast]
  cases l.getLast? with
  | none => rfl
  | some last =>
    simp only [Option.map_some]
    rw [scanStart_shift, show (shiftT d l).length = l.length by simp [shiftT], hdet.shift, earliest_shift]
    split_ifs
    · cases earliest (detect l (scanStart cfg l last.1)) <;> rfl
    · rfl

theorem grid_drop (hist data : List (Int × Rat)) (s0 f : Int) (hg : SecGrid (hist ++ data) s0 f) : SecGrid data (s0 + hist.length * f) f := by
  refine ⟨hg.pos, ?_, ?_⟩
  · have : 0 ≤ (hist.length : Int) * f := mul_nonneg (by positivity) (le_of_lt hg.pos)
    linarith [hg.start]
  · intro i hi
    have := hg.time (hist.length + i) (by simp; omega)
    rw [List.getElem_append_right (by omega)] at this
    simp only [Nat.add_sub_cancel_left] at this
    rw [this]
    push_cast
    ring

theorem grid_smoothed (k : Nat) (l : List (Int × Rat)) (s0 f : Int) (hg : SecGrid l s0 f) : SecGrid (smoothed k l) s0 f := by
  have ht := smoothed_times k l
  have hlen : (smoothed k l).length = l.length := by
    have := congrArg List.length ht
    simpa using this
  refine ⟨hg.pos, hg.start, ?_⟩
  intro i hi
  have h1 : ((smoothed k l).map (·.1))[i]'(by simpa using hi) = (l.map (·.1))[i]'(by simp; omega) := by
    simp only [ht]
  simp only [List.getElem_map] at h1
  rw [h1]
  exact hg.time i (by omega)

/-- A window of the loop in which the detector finds a changepoint: `c` counts the windows. -/
def VecHit (cfg : CusumCfg) (detect : List (Int × Rat) → Nat → List Cp) (freq : Int) (data hist : List (Int × Rat)) (c : Nat) : Prop :=
  ∃ d0 l, data.head? = some d0 ∧ data.getLast? = some l ∧
    let nh := (cfg.histWindow / freq).toNat
    let ns := (stepOf cfg freq d0.1 l.1 / freq).toNat
    let a := max hist.length nh
    a + (c + 1) * ns ≤ (hist ++ data).length ∧ vecMeta cfg detect (seg (hist ++ data) (a - nh + c * ns) (a + (c + 1) * ns)) ≠ []

/-- C134: on a regular series of whole seconds after the epoch, with a detector that does not depend
on the position in time, and earlier changepoints before the new data, `vectorized=True` returns the
scores and the state of the loop over the windows, provided that the model has no live alert, or that
some window has a changepoint. Whether or not the windows can be made columns does not matter. -/
theorem C134_fit_predict_partial (cfg : CusumCfg) (std : List Rat → Rat) (detect : List (Int × Rat) → Nat → List Cp) (hdet : ShiftDetector detect)
    (freq : Int) (regular : Bool) (st : CusumState) (data hist : List (Int × Rat)) (s0 f : Int) (hg : SecGrid (hist ++ data) s0 f)
    (hfreq : freq = f * nsPerSec) (hinv : ∀ y p, st.cps.getLast? = some y → data.head? = some p → y * nsPerSec < p.1)
    (hint : (st.alertFired = false ∧ st.preMean.isSome = true ∧ st.preStd.isSome = true) ∨ ∃ c, VecHit cfg detect freq data hist c)
    (r : CusumState × List (Option Rat)) (h : cusumFitPredict cfg std detect freq st data hist = .ok r) :
    cusumFitPredictVec cfg std detect freq regular st data hist = .ok r := by
  have hn : (0 : Int) < nsPerSec := by decide
  have hfn : 0 < freq := by rw [hfreq]; exact mul_pos hg.pos hn
  unfold cusumFitPredict at h
  unfold cusumFitPredictVec
  simp only at h ⊢
  rcases h1 : (hist ++ data).head? with _ | a0
  · rw [h1] at h; cases h
  rcases h2 : data.head? with _ | d0
  · rw [h1, h2] at h; cases h
  rcases h3 : data.getLast? with _ | l
  · rw [h1, h2, h3] at h; cases h
  rw [h1, h2, h3] at h
  simp only at h ⊢
  rcases hcw : checkWindows cfg freq with e | u
  · rw [hcw] at h; cases h
  rw [hcw] at h
  simp only [bind, Except.bind] at h ⊢
  by_cases hs : l.1 < max (a0.1 + cfg.histWindow) d0.1
  · rw [if_pos hs] at h ⊢
    exact h
  rw [if_neg hs] at h ⊢
  unfold cusumScan at h
  unfold cusumScanVec
  rcases hai : idxRight data (max (a0.1 + cfg.histWindow) d0.1) with e | aidx
  · rw [hai] at h; cases h
  rw [hai] at h
  simp only [bind, Except.bind] at h ⊢
  by_cases hsc : l.1 - a0.1 + freq < cfg.scanWindow
  · rw [if_pos hsc] at h ⊢
    exact h
  rw [if_neg hsc] at h ⊢
  obtain ⟨N, hN⟩ : ∃ N, N = (hist ++ data).length := ⟨_, rfl⟩
  have hNl : N = hist.length + data.length := by rw [hN]; simp
  have hdl : 0 < data.length := by
    cases data with
    | nil => cases h2
    | cons p t => simp
  -- the times
  have ha0 : a0.1 = (s0 + (0 : Nat) * f) * nsPerSec := by
    rw [List.head?_eq_getElem?, List.getElem?_eq_getElem (by omega)] at h1
    rw [← Option.some.inj h1]
    exact hg.time 0 _
  have hgd := grid_drop hist data s0 f hg
  have hd0 : d0.1 = (s0 + (hist.length : Nat) * f) * nsPerSec := by
    rw [List.head?_eq_getElem?, List.getElem?_eq_getElem (by omega)] at h2
    rw [← Option.some.inj h2, hgd.time 0 hdl]
    simp
  have hl : l.1 = (s0 + (N - 1 : Nat) * f) * nsPerSec := by
    rw [List.getLast?_eq_getElem?, List.getElem?_eq_getElem (by omega)] at h3
    rw [← Option.some.inj h3, hgd.time (data.length - 1) (by omega)]
    rw [Nat.cast_sub (by omega), Nat.cast_sub (by omega), hNl]
    push_cast
    ring
  obtain ⟨stp, hstp⟩ : ∃ stp, stp = stepOf cfg freq d0.1 l.1 := ⟨_, rfl⟩
  rw [← hstp] at h ⊢
  have hlast : d0.1 ≤ l.1 := by
    rw [hd0, hl]
    exact (grid_le s0 f hg.pos _ _).2 (by omega)
  have hsp : freq ≤ stp := by
    rw [hstp]
    unfold checkWindows at hcw
    unfold stepOf
    cases hw : cfg.stepWindow with
    | none =>
      rw [hw] at hcw
      simp only [Option.any_none, Bool.false_eq_true, if_false] at hcw
      split_ifs at hcw with hc2
      push Not at hc2
      refine le_min ?_ (by omega)
      omega
    | some w =>
      rw [hw] at hcw
      simp only [Option.any_some] at hcw
      split_ifs at hcw with hc1 hc2
      simp at hc1
      exact hc1.2
  -- the flag
  split
  case isFalse hfl => exact h
  case isTrue hfl =>
    unfold vecFlag at hfl
    simp only [Bool.and_eq_true, decide_eq_true_eq] at hfl
    obtain ⟨⟨⟨hm1, hm2⟩, -⟩, hdim⟩ := hfl
    have hhw : 2 * freq ≤ cfg.histWindow := by
      unfold checkWindows at hcw
      split_ifs at hcw with hc1 hc2
      push Not at hc2
      exact hc2.2
    obtain ⟨ns, hns⟩ : ∃ ns : Nat, stp = ns * freq := by
      obtain ⟨q, hq⟩ := Int.dvd_of_emod_eq_zero hm1
      have : 0 ≤ q := by
        by_contra hneg
        push Not at hneg
        have := mul_neg_of_pos_of_neg hfn hneg
        omega
      exact ⟨q.toNat, by rw [Int.toNat_of_nonneg this, hq]; ring⟩
    obtain ⟨nh, hnh⟩ : ∃ nh : Nat, cfg.histWindow = nh * freq := by
      obtain ⟨q, hq⟩ := Int.dvd_of_emod_eq_zero hm2
      have : 0 ≤ q := by
        by_contra hneg
        push Not at hneg
        have := mul_neg_of_pos_of_neg hfn hneg
        omega
      exact ⟨q.toNat, by rw [Int.toNat_of_nonneg this, hq]; ring⟩
    have hfne : freq ≠ 0 := ne_of_gt hfn
    have hnspos : 0 < ns := by
      rcases Nat.eq_zero_or_pos ns with h0 | h0
      · rw [h0] at hns
        simp at hns
        omega
      · exact h0
    have e1 : (-((-cfg.histWindow) / freq)).toNat = nh := by
      rw [hnh, ← neg_mul, Int.mul_ediv_cancel _ hfne]
      simp
    have e2 : (-((-(cfg.histWindow + stp)) / freq)).toNat = nh + ns := by
      rw [hnh, hns, ← add_mul, ← neg_mul, Int.mul_ediv_cancel _ hfne]
      have : -(-((nh : Int) + ns)) = ((nh + ns : Nat) : Int) := by push_cast; ring
      rw [this, Int.toNat_natCast]
    have e3 : nh + ns - nh = ns := by omega
    rw [e1, e2, e3] at hdim ⊢
    have hns' : stp = ns * f * nsPerSec := by rw [hns, hfreq]; ring
    have hnh' : cfg.histWindow = nh * f * nsPerSec := by rw [hnh, hfreq]; ring
    have hast : max (a0.1 + cfg.histWindow) d0.1 = (s0 + (max hist.length nh : Nat) * f) * nsPerSec := by
      have e : a0.1 + cfg.histWindow = (s0 + (nh : Nat) * f) * nsPerSec := by rw [ha0, hnh']; push_cast; ring
      rw [e, hd0]
      rcases le_total hist.length nh with hle | hle
      · rw [max_eq_right hle, max_eq_left ((grid_le s0 f hg.pos _ _).2 hle)]
      · rw [max_eq_left hle, max_eq_right ((grid_le s0 f hg.pos _ _).2 hle)]
    obtain ⟨a, hadef⟩ : ∃ a, a = max hist.length nh := ⟨_, rfl⟩
    rw [← hadef] at hast
    have haN : a ≤ N - 1 := by
      rw [hast, hl, grid_lt s0 f hg.pos] at hs
      omega
    have haidx : aidx = a - hist.length := by
      have hj : a - hist.length < data.length := by omega
      have := grid_idxRight data _ f hgd (a - hist.length) hj
      have e : (s0 + (hist.length : Nat) * f + ((a - hist.length : Nat) : Int) * f) * nsPerSec = (s0 + (a : Nat) * f) * nsPerSec := by
        rw [Nat.cast_sub (by omega)]; ring
      rw [e, ← hast, hai] at this
      exact Except.ok.inj this
    have hsum : aidx + hist.length = a := by omega
    rw [hsum, ← hN] at hdim ⊢
    have hdt : (data.getD aidx (0, 0)).1 = (s0 + (a : Nat) * f) * nsPerSec := by
      rw [List.getD_eq_getElem?_getD, List.getElem?_eq_getElem (by omega), Option.getD_some, hgd.time _ (by omega), haidx,
        Nat.cast_sub (by omega)]
      ring
    have hdm : (N - a) / ns * ns ≤ N - a := Nat.div_mul_le_self _ _
    have hge : a + ns ≤ N := by
      have : 2 * ns ≤ (N - a) / ns * ns := Nat.mul_le_mul_right ns hdim
      omega
    rw [hdt, hns', hl, hfreq, grid_dateRange s0 f hg.pos N a ns hnspos hge] at h
    rcases hfold : List.foldlM (cusumWindow cfg std detect (hist ++ data) (smoothed (cfg.scanWindow / (f * nsPerSec)).toNat (hist ++ data)) (ns * f * nsPerSec))
        (st, List.replicate aidx (some 0)) ((List.range ((N - a) / ns)).map fun i : Nat => (s0 + (a + i * ns : Nat) * f) * nsPerSec) with e | acc
    · rw [hfold] at h; cases h
    rw [hfold] at h
    simp only at h
    have hb : a - nh + nh = a := by omega
    have key := vecLoopFlag_eq cfg std detect hdet (hist ++ data) (smoothed (cfg.scanWindow / (f * nsPerSec)).toNat (hist ++ data)) s0 f hg
      (grid_smoothed _ _ _ _ hg) (by
        have := congrArg List.length (smoothed_times (cfg.scanWindow / (f * nsPerSec)).toNat (hist ++ data))
        simpa using this)
      (a - nh) nh ns ((N - a) / ns) hnspos (by omega) hnh' (by rw [hb, ← hN]; omega) st (List.replicate aidx (some 0)) acc ?_ ?_ (by rw [hb]; exact hfold)
    · rw [hb] at key
      rw [hns', hfreq]
      rcases hv : vecLoopFlag cfg std detect (hist ++ data) (smoothed (cfg.scanWindow / (f * nsPerSec)).toNat (hist ++ data)) a nh ns ((N - a) / ns)
        (ns * f * nsPerSec) st with e | q
      · rw [hv] at key; cases key
      · rw [hv] at key
        simp only [Except.map] at key ⊢
        simp only [Except.ok.injEq] at key
        rw [key]
        exact h
    · intro y hy
      have := hinv y d0 hy h2
      rw [hd0] at this
      have h4 : y < s0 + (hist.length : Nat) * f := lt_of_mul_lt_mul_right this (le_of_lt hn)
      rw [hb]
      refine lt_of_lt_of_le h4 ?_
      have h5 : (hist.length : Int) ≤ (a : Nat) := by exact_mod_cast (by omega)
      have h6 := mul_le_mul_of_nonneg_right h5 (le_of_lt hg.pos)
      linarith
    · rcases hint with hA | ⟨c, d0', l', g2, g3, hB⟩
      · exact .inl hA
      · right
        rw [h2] at g2
        rw [h3] at g3
        cases g2
        cases g3
        rw [← hstp] at hB
        have q1 : (cfg.histWindow / freq).toNat = nh := by
          rw [hnh, Int.mul_ediv_cancel _ hfne, Int.toNat_natCast]
        have q2 : (stp / freq).toNat = ns := by
          rw [hns, Int.mul_ediv_cancel _ hfne, Int.toNat_natCast]
        simp only [q1, q2, ← hadef, ← hN] at hB
        obtain ⟨hB1, hB2⟩ := hB
        refine ⟨c, ?_, ?_⟩
        · rw [Nat.lt_iff_add_one_le, Nat.le_div_iff_mul_le hnspos]
          omega
        · unfold vecRowAt
          rw [hb, vecMeta_shift cfg detect hdet]
          intro e
          exact hB2 (List.map_eq_nil_iff.1 e)

theorem vecExDetect_shift : ShiftDetector vecExDetect := by
  refine ⟨?_, (vecExDetect_rows 0).rows⟩
  intro d h i
  unfold vecExDetect
  rw [shiftT_getLast, shiftT_values]
  have hl : (shiftT d h).length = h.length := by simp [shiftT]
  cases h.getLast? with
  | none => rfl
  | some r =>
    simp only [Option.map_some, hl]
    split_ifs <;> rfl

def vecExSeries : List (Int × Rat) :=
  [(10, 1), (11, 2), (12, 1), (13, 1), (14, 6), (15, 6), (16, 6)].map fun r : Int × Rat => (r.1 * nsPerSec, r.2)

theorem vecExSeries_grid : SecGrid vecExSeries 10 1 := by
  refine ⟨by norm_num, by norm_num, ?_⟩
  intro i hi
  have : i = 0 ∨ i = 1 ∨ i = 2 ∨ i = 3 ∨ i = 4 ∨ i = 5 ∨ i = 6 := by
    simp [vecExSeries] at hi
    omega
  rcases this with rfl | rfl | rfl | rfl | rfl | rfl | rfl <;> simp [vecExSeries]

/-- Four windows as columns, a changepoint in the second, and the scores of the loop. -/
example : ∃ st, cusumFitPredictVec vecExCfg (popStd id) vecExDetect nsPerSec true CusumState.init vecExSeries []
    = .ok (st, [some 0, some 0, some 0, some 0, some 0, some (7 / 2), some (7 / 2)]) ∧ st.cps = [14] := by
  have hb : ((cusumFitPredict vecExCfg (popStd id) vecExDetect nsPerSec CusumState.init vecExSeries []).toOption.map
      fun r => (r.1.cps, r.2)) = some ([14], [some 0, some 0, some 0, some 0, some 0, some (7 / 2), some (7 / 2)]) := by
    decide +kernel
  rcases h : cusumFitPredict vecExCfg (popStd id) vecExDetect nsPerSec CusumState.init vecExSeries [] with e | r
  · rw [h] at hb; cases hb
  · rw [h] at hb
    simp only [Except.toOption, Option.map_some, Option.some.injEq, Prod.mk.injEq] at hb
    refine ⟨r.1, ?_, hb.1⟩
    rw [← hb.2]
    exact C134_fit_predict_partial vecExCfg (popStd id) vecExDetect vecExDetect_shift nsPerSec true CusumState.init vecExSeries [] 10 1
      vecExSeries_grid (by norm_num) (by simp [CusumState.init]) (.inl ⟨rfl, rfl, rfl⟩) r h

/-- A live alert whose baseline is not an integer. -/
def vecExAlert (m : Option Rat) (fired : Bool) (cps : List Int) : CusumState := ⟨cps, fired, m, some 1, 0, some .increase⟩

/-- With a changepoint in some window a live alert keeps its baseline. -/
example : ∃ c, VecHit vecExCfg vecExDetect nsPerSec vecExSeries [] c :=
  ⟨1, _, _, rfl, rfl, by decide +kernel, by decide +kernel⟩

/-- C134: with a live alert and no changepoint in any window, the baseline is cut to an integer, and
the scores are those of another baseline. -/
theorem C134_baseline_violated :
    ((cusumFitPredict vecExCfg (popStd id) (fun _ _ => []) nsPerSec (vecExAlert (some (1 / 2)) true [1]) vecExSeries []).toOption.map (·.2)
      = some [some 0, some 0, some 0, some (1 / 2), some 3, some (11 / 2), some (11 / 2)])
    ∧ ((cusumFitPredictVec vecExCfg (popStd id) (fun _ _ => []) nsPerSec true (vecExAlert (some (1 / 2)) true [1]) vecExSeries []).toOption.map (·.2)
      = some [some 0, some 0, some 0, some 1, some (7 / 2), some 6, some 6]) :=
  ⟨by decide +kernel, by decide +kernel⟩

/-- C134: without an alert, but with a baseline that is NaN, and no changepoint in any window, the
vectorised model fails. -/
theorem C134_nan_violated :
    ((cusumFitPredict vecExCfg (popStd id) (fun _ _ => []) nsPerSec (vecExAlert none false [1]) vecExSeries []).toOption.map (·.2)
      = some [some 0, some 0, some 0, some 0, some 0, some 0, some 0])
    ∧ (cusumFitPredictVec vecExCfg (popStd id) (fun _ _ => []) nsPerSec true (vecExAlert none false [1]) vecExSeries []).toOption.map (·.2) = none :=
  ⟨by decide +kernel, by decide +kernel⟩

/-- C134: an earlier changepoint inside the data is forgotten; the scalar loop scores zero up to it. -/
theorem C134_overlap_violated :
    ((cusumFitPredict vecExCfg (popStd id) (fun _ _ => []) nsPerSec (vecExAlert (some 0) true [13]) vecExSeries []).toOption.map (·.2)
      = some [some 0, some 0, some 0, some 0, some (7 / 2), some 6, some 6])
    ∧ ((cusumFitPredictVec vecExCfg (popStd id) (fun _ _ => []) nsPerSec true (vecExAlert (some 0) true [13]) vecExSeries []).toOption.map (·.2)
      = some [some 0, some 0, some 0, some 1, some (7 / 2), some 6, some 6]) :=
  ⟨by decide +kernel, by decide +kernel⟩

/-- C134: a changepoint at the row of its window that is at the epoch in the first window is not found
again; the scalar loop scores zero at it. -/
theorem C134_epoch_violated :
    ((cusumFitPredict vecExCfg (popStd id) vecExDetect nsPerSec CusumState.init (shiftT (-13 * nsPerSec) vecExSeries) []).toOption.map (·.2)
      = some [some 0, some 0, some 0, some 0, some 0, some (7 / 2), some (7 / 2)])
    ∧ ((cusumFitPredictVec vecExCfg (popStd id) vecExDetect nsPerSec true CusumState.init (shiftT (-13 * nsPerSec) vecExSeries) []).toOption.map (·.2)
      ≠ some [some 0, some 0, some 0, some 0, some 0, some (7 / 2), some (7 / 2)]) :=
  ⟨by decide +kernel, by decide +kernel⟩

end Kats
