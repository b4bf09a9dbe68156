import Verif.Props.Metrics
import Mathlib.Data.Sign.Basic

/-!
# Theorems about `kats/metrics/metrics.py`, continued: weighted errors (C18) and the remaining scalar
metrics (C69)
-/

namespace Kats

/-! ## C18, weighted -/

/-- C18: with weights of non-zero sum, entry `i` is the error times its share `w[i] / Σ w`. -/
theorem C18_weighted (t p w : List Rat) (h : p.length = t.length) (hw : w.length = t.length)
    (hs : w.sum ≠ 0) :
    (∃ out : List Rat, metError (t.map some) (p.map some) (some (w.map some)) = .ok (out.map some)
      ∧ out.length = t.length ∧ ∀ i (h0 : i < out.length) (h1 : i < t.length) (h2 : i < p.length)
        (h3 : i < w.length), out[i] * w.sum = (t[i] - p[i]) * w[i])
    ∧ (∃ out : List Rat, metAbsError (t.map some) (p.map some) (some (w.map some)) = .ok (out.map some)
      ∧ out.length = t.length ∧ ∀ i (h0 : i < out.length) (h1 : i < t.length) (h2 : i < p.length)
        (h3 : i < w.length), out[i] * w.sum = |t[i] - p[i]| * w[i])
    ∧ ((∀ x ∈ t, x ≠ 0) →
      (∃ out : List Rat, metPctError (t.map some) (p.map some) (some (w.map some)) = .ok (out.map some)
        ∧ out.length = t.length ∧ ∀ i (h0 : i < out.length) (h1 : i < t.length) (h2 : i < p.length)
          (h3 : i < w.length), out[i] * w.sum * t[i] = (t[i] - p[i]) * w[i])
      ∧ (∃ out : List Rat, metAbsPctError (t.map some) (p.map some) (some (w.map some))
          = .ok (out.map some)
        ∧ out.length = t.length ∧ ∀ i (h0 : i < out.length) (h1 : i < t.length) (h2 : i < p.length)
          (h3 : i < w.length), out[i] * w.sum * t[i] = |t[i] - p[i]| * w[i])) := by
  have hok : arraysOk [some (t.map some), some (p.map some), some (w.map some)] = .ok () := by
    rw [arraysOk3, if_pos (by simp [h, hw])]
  have hn : nansum (w.map some) = w.sum := by unfold nansum; rw [filterMap_some]
  refine ⟨?_, ?_, fun hz => ⟨?_, ?_⟩⟩
  · refine ⟨(List.zipWith (fun a b => a * b) (List.zipWith (· - ·) t p) w).map (· / w.sum), ?_,
      by simp [h, hw], ?_⟩
    · simp only [metError, hok, bind, Except.bind, pure, Except.pure, err_, hn]
      congr 1
      apply List.ext_getElem
      · simp
      · intro i h1 h2
        simp [vsub, vmul, safeDiv, hs]
    · intro i h0 h1 h2 h3
      simp only [List.getElem_map, List.getElem_zipWith]
      field_simp
  · refine ⟨(List.zipWith (fun a b => a * b) (List.zipWith (fun a b => |a - b|) t p) w).map
      (· / w.sum), ?_, by simp [h, hw], ?_⟩
    · simp only [metAbsError, hok, bind, Except.bind, pure, Except.pure, absErr_, hn]
      congr 1
      apply List.ext_getElem
      · simp
      · intro i h1 h2
        simp [vsub, vmul, vabs, safeDiv, hs]
    · intro i h0 h1 h2 h3
      simp only [List.getElem_map, List.getElem_zipWith]
      field_simp
  · refine ⟨List.zipWith (fun a b => a / b) (List.zipWith (fun a b => a * b)
      (List.zipWith (· - ·) t p) w) (t.map (· * w.sum)), ?_, by simp [h, hw], ?_⟩
    · simp only [metPctError, hok, bind, Except.bind, pure, Except.pure, pctErr_, hn]
      congr 1
      apply List.ext_getElem
      · simp
      · intro i h1 h2
        have h1' : i < t.length := by simp at h1; omega
        have : t[i] ≠ 0 := hz _ (List.getElem_mem _)
        simp [vsub, vmul, safeDiv, hs, this]
    · intro i h0 h1 h2 h3
      have : t[i] ≠ 0 := hz _ (List.getElem_mem _)
      simp only [List.getElem_map, List.getElem_zipWith]
      field_simp
  · refine ⟨List.zipWith (fun a b => a / b) (List.zipWith (fun a b => a * b)
      (List.zipWith (fun a b => |a - b|) t p) w) (t.map (· * w.sum)), ?_, by simp [h, hw], ?_⟩
    · simp only [metAbsPctError, hok, bind, Except.bind, pure, Except.pure, absPctErr_, hn]
      congr 1
      apply List.ext_getElem
      · simp
      · intro i h1 h2
        have h1' : i < t.length := by simp at h1; omega
        have : t[i] ≠ 0 := hz _ (List.getElem_mem _)
        simp [vsub, vmul, vabs, safeDiv, hs, this]
    · intro i h0 h1 h2 h3
      have : t[i] ≠ 0 := hz _ (List.getElem_mem _)
      simp only [List.getElem_map, List.getElem_zipWith]
      field_simp

example : metAbsError [some 1, some 5] [some 4, some 2] (some [some 1, some 3])
    = .ok [some (3 / 4), some (9 / 4)] := by decide +kernel

/-! ## C69 -/

/-- Specification: division where `x / 0` is the sign of `x`. -/
def signDiv (x y : Rat) : Rat := if y = 0 then ((SignType.sign x : SignType) : Rat) else x / y

theorem safeDiv_signDiv (x y : Rat) : safeDiv (some x) (some y) = some (signDiv x y) := by
  unfold safeDiv signDiv
  dsimp only
  by_cases hy : y = 0
  · rw [if_pos hy, if_pos hy]
    rcases lt_trichotomy x 0 with hx | hx | hx
    · rw [if_pos hx, sign_neg hx]; rfl
    · subst hx; simp
    · rw [if_neg (by linarith), if_pos hx, sign_pos hx]; rfl
  · rw [if_neg hy, if_neg hy]

theorem nanmean_zip (f : Rat → Rat → Rat) (t p : List Rat) (h : t.length = p.length) (hne : t ≠ []) :
    nanmean (List.zipWith (fun a b => some (f a b)) t p) = some (pairMean f t p) := by
  have e : List.zipWith (fun a b => some (f a b)) t p = (List.zipWith f t p).map some := by
    rw [List.map_zipWith]
  have hz : List.zipWith f t p ≠ [] := by
    intro h0
    have := congrArg List.length h0
    rw [List.length_zipWith, ← h, Nat.min_self] at this
    exact hne (List.length_eq_zero_iff.1 this)
  rw [e, nanmean_some _ hz, meanQ, pairMean, List.length_zipWith, ← h, Nat.min_self]

/-- C69: on finite non-empty arrays of equal length the percentage metrics are the plain means of
their documented terms (`x / 0` read as the sign of `x`). -/
theorem C69_percentage (t p : List Rat) (h : t.length = p.length) (hne : t ≠ []) :
    mpe (t.map some) (p.map some) = .ok (some (pairMean (fun a b => signDiv (a - b) a) t p))
    ∧ mape (t.map some) (p.map some) = .ok (some (pairMean (fun a b => signDiv |a - b| a) t p))
    ∧ rmspeSq (t.map some) (p.map some)
        = .ok (some (pairMean (fun a b => signDiv (a - b) a ^ 2) t p)) := by
  have hne' : ¬ (t.map some).isEmpty := by simpa using hne
  have e1 : pctErr_ (t.map some) (p.map some) none
      = List.zipWith (fun a b => some (signDiv (a - b) a)) t p := by
    apply List.ext_getElem
    · simp [pctErr_, h]
    · intro i h1 h2
      simp only [pctErr_, List.getElem_zipWith, List.getElem_map, vsub]
      exact safeDiv_signDiv _ _
  have e2 : absPctErr_ (t.map some) (p.map some) none
      = List.zipWith (fun a b => some (signDiv |a - b| a)) t p := by
    apply List.ext_getElem
    · simp [absPctErr_, h]
    · intro i h1 h2
      simp only [absPctErr_, List.getElem_zipWith, List.getElem_map, vsub, vabs, Option.map_some]
      exact safeDiv_signDiv _ _
  refine ⟨?_, ?_, ?_⟩
  · unfold mpe metPctError
    rw [arraysOk3n, if_pos (by simp [h])]
    simp only [bind, Except.bind, pure, Except.pure]
    rw [e1, nanmean_zip _ t p h hne]
  · unfold mape
    rw [arraysOk2, if_pos (by simp [h])]
    simp only [bind, Except.bind, pure, Except.pure]
    rw [if_neg hne', e2, nanmean_zip _ t p h hne]
  · unfold rmspeSq
    rw [if_neg hne', arraysOk2, if_pos (by simp [h])]
    simp only [bind, Except.bind, pure, Except.pure]
    rw [e1, List.map_zipWith]
    have : (fun a b : Rat => vmul (some (signDiv (a - b) a)) (some (signDiv (a - b) a)))
        = fun a b => some (signDiv (a - b) a ^ 2) := by
      funext a b; simp [vmul, sq]
    rw [this, nanmean_zip (fun a b => signDiv (a - b) a ^ 2) t p h hne]

example : mpe [some 2, some 4] [some 1, some 5] = .ok (some (1 / 8)) := by decide +kernel

theorem pairMean_smul (c : Rat) (f : Rat → Rat → Rat) (t p : List Rat) :
    c * pairMean f t p = pairMean (fun a b => c * f a b) t p := by
  have : ∀ t p : List Rat, c * (List.zipWith f t p).sum = (List.zipWith (fun a b => c * f a b) t p).sum := by
    intro t
    induction t with
    | nil => simp
    | cons a t ih => intro p; cases p with
      | nil => simp
      | cons b p => simp [← ih, mul_add]
  unfold pairMean
  rw [← this, mul_div_assoc]

/-- C69: SMAPE and the symmetric bias are the plain means of `2|y - f| / (|y| + |f|)` and
`2(f - y) / (|y| + |f|)`: the bias is positive for a forecast that is too high. -/
theorem C69_symmetric (t p : List Rat) (h : t.length = p.length) (hne : t ≠ []) :
    smape (t.map some) (p.map some)
      = .ok (some (pairMean (fun a b => 2 * signDiv |a - b| (|a| + |b|)) t p))
    ∧ sbias (t.map some) (p.map some)
      = .ok (some (pairMean (fun a b => 2 * signDiv (b - a) (|a| + |b|)) t p)) := by
  have hneg : ∀ x y : Rat, signDiv (-x) y = - signDiv x y := by
    intro x y
    unfold signDiv
    split_ifs
    · rw [Left.sign_neg]; simp
    · rw [neg_div]
  constructor
  · unfold smape scaledSmape metAbsError
    rw [arraysOk3n, if_pos (by simp [h])]
    simp only [bind, Except.bind, pure, Except.pure]
    have e : List.zipWith safeDiv (absErr_ (t.map some) (p.map some) none)
        (List.zipWith vadd ((t.map some).map vabs) ((p.map some).map vabs))
        = List.zipWith (fun a b => some (signDiv |a - b| (|a| + |b|))) t p := by
      apply List.ext_getElem
      · simp [absErr_]
      · intro i h1 h2
        simp only [absErr_, List.getElem_zipWith, List.getElem_map, vsub, vabs, vadd, Option.map_some]
        exact safeDiv_signDiv _ _
    rw [e, nanmean_zip _ t p h hne]
    simp only [Option.map_some]
    rw [pairMean_smul]
  · unfold sbias metError
    rw [arraysOk3n, if_pos (by simp [h])]
    simp only [bind, Except.bind, pure, Except.pure]
    have e : List.zipWith safeDiv (err_ (t.map some) (p.map some) none)
        (List.zipWith vadd ((t.map some).map vabs) ((p.map some).map vabs))
        = List.zipWith (fun a b => some (signDiv (a - b) (|a| + |b|))) t p := by
      apply List.ext_getElem
      · simp [err_]
      · intro i h1 h2
        simp only [err_, List.getElem_zipWith, List.getElem_map, vsub, vabs, vadd, Option.map_some]
        exact safeDiv_signDiv _ _
    rw [e, nanmean_zip _ t p h hne]
    simp only [Option.map_some]
    rw [pairMean_smul]
    have : (fun a b : Rat => -2 * signDiv (a - b) (|a| + |b|))
        = fun a b => 2 * signDiv (b - a) (|a| + |b|) := by
      funext a b
      rw [← neg_sub a b, hneg]; ring
    rw [this]

example : sbias [some 1] [some 3] = .ok (some 1) := by decide +kernel

/-- C69: the frequency of exceeding a relative threshold is the fraction of positions whose true value
is at least `threshold` times the forecast. -/
theorem C69_exceeds (t p : List Rat) (thr : Rat) (h : t.length = p.length) (hne : t ≠ []) :
    freqExceeds (t.map some) (p.map some) thr
      = .ok (some (((List.zip t p).countP (fun x => decide (thr * x.2 ≤ x.1)) : Nat) / t.length)) := by
  unfold freqExceeds
  rw [arraysOk2, if_pos (by simp [h])]
  simp only [bind, Except.bind, pure, Except.pure]
  have e : List.zipWith (fun a b => vle (b.map (thr * ·)) a) (t.map some) (p.map some)
      = (List.zip t p).map fun x => decide (thr * x.2 ≤ x.1) := by
    apply List.ext_getElem
    · simp
    · intro i h1 h2
      simp [vle]
  have hl : ((List.zip t p).map fun x => decide (thr * x.2 ≤ x.1)) ≠ [] := by
    simpa using zip_ne h hne
  rw [e]
  unfold boolMean
  rw [if_neg (by simpa using zip_ne h hne)]
  congr 3
  · rw [List.count, List.countP_map]
    congr 1
    apply List.countP_congr
    intro x _
    simp
  · simp [h]

example : freqExceeds [some 2, some 3, some 1] [some 1, some 2, some 1] (3 / 2)
    = .ok (some (2 / 3)) := by decide +kernel

/-- Specification: the empirical distribution function of a sample. -/
def empirical (sample : List Rat) (x : Rat) : Rat :=
  ((sample.countP (fun y => decide (y ≤ x)) : Nat) : Rat) / sample.length

theorem withPred_some (t p : List Rat) :
    withPred (t.map some) (p.map some) = (List.zip t p).map fun x => (some x.1, some x.2) := by
  unfold withPred
  rw [List.zip_map, List.filter_eq_self.2]
  · rfl
  · intro x hx
    obtain ⟨y, _, rfl⟩ := List.mem_map.1 hx
    rfl

theorem ecdf_some (s : List Rat) (x : Rat) : ecdf (s.map some) (some x) = empirical s x := by
  unfold ecdf empirical
  dsimp only
  rw [List.countP_map, List.length_map]
  rfl

/-- C69: LEPS is the mean distance, and the CRPS variant the mean squared distance, of forecast and
truth on the scale of the empirical distribution function of the true values. -/
theorem C69_probability (t p : List Rat) (h : t.length = p.length) (hne : t ≠ []) :
    leps (t.map some) (p.map some)
      = .ok (some (pairMean (fun a b => |empirical t b - empirical t a|) t p))
    ∧ crps (t.map some) (p.map some)
      = .ok (some (pairMean (fun a b => (empirical t b - empirical t a) ^ 2) t p)) := by
  have hz := zip_ne h hne
  have hq : ((List.zip t p).map fun x => ((some x.1 : Val), (some x.2 : Val))).map (·.1)
      = t.map some := by
    rw [List.map_map]
    apply List.ext_getElem
    · simp [h]
    · intro i h1 h2; simp
  constructor
  · unfold leps
    rw [arraysOk2, if_pos (by simp [h])]
    simp only [bind, Except.bind, pure, Except.pure]
    rw [withPred_some, if_neg (by simpa using hz), hq, List.map_map]
    have e : (List.zip t p).map ((fun x : Val × Val =>
        some |ecdf (t.map some) x.2 - ecdf (t.map some) x.1|) ∘ fun x => ((some x.1 : Val), (some x.2 : Val)))
        = List.zipWith (fun a b => some |empirical t b - empirical t a|) t p := by
      rw [List.zip, List.map_zipWith]
      congr 1
      funext a b
      simp [ecdf_some]
    rw [e, nanmean_zip (fun a b => |empirical t b - empirical t a|) t p h hne]
  · unfold crps
    rw [arraysOk2, if_pos (by simp [h])]
    simp only [bind, Except.bind, pure, Except.pure]
    rw [withPred_some, if_neg (by simpa using hz), hq, List.map_map]
    have e : (List.zip t p).map ((fun x : Val × Val =>
        some ((ecdf (t.map some) x.2 - ecdf (t.map some) x.1) ^ 2)) ∘ fun x => ((some x.1 : Val), (some x.2 : Val)))
        = List.zipWith (fun a b => some ((empirical t b - empirical t a) ^ 2)) t p := by
      rw [List.zip, List.map_zipWith]
      congr 1
      funext a b
      simp [ecdf_some]
    rw [e, nanmean_zip (fun a b => (empirical t b - empirical t a) ^ 2) t p h hne]

example : leps [some 1, some 2] [some 2, some 2] = .ok (some (1 / 4)) := by decide +kernel

end Kats
