import Verif.Model.Lstm
import Verif.Props.Heuristic
import Verif.Lemmas.Partition
import Verif.Props.GmParam
import Mathlib.Tactic.Linarith
import Mathlib.Tactic.FieldSimp
import Mathlib.Tactic.Ring
import Mathlib.Tactic.Positivity

/-!
# C152: forecasts by a recurrent network
-/

namespace Kats

/-! ## The scaler -/

theorem ls_min (l : List Rat) : ∀ x, l.foldl min x ∈ x :: l ∧ ∀ y ∈ x :: l, l.foldl min x ≤ y := by
  induction l with
  | nil => intro x; simp
  | cons a l ih =>
    intro x
    obtain ⟨h1, h2⟩ := ih (min x a)
    rw [List.foldl_cons]
    refine ⟨?_, ?_⟩
    · rcases List.mem_cons.1 h1 with e | e
      · rw [e]
        rcases min_choice x a with m | m <;> rw [m] <;> simp
      · exact List.mem_cons_of_mem _ (List.mem_cons_of_mem _ e)
    · intro y hy
      have h3 := h2 _ (List.mem_cons_self ..)
      rcases List.mem_cons.1 hy with rfl | hy
      · exact h3.trans (min_le_left _ _)
      · rcases List.mem_cons.1 hy with rfl | hy
        · exact h3.trans (min_le_right _ _)
        · exact h2 y (List.mem_cons_of_mem _ hy)

theorem ls_max (l : List Rat) : ∀ x, l.foldl max x ∈ x :: l ∧ ∀ y ∈ x :: l, y ≤ l.foldl max x := by
  induction l with
  | nil => intro x; simp
  | cons a l ih =>
    intro x
    obtain ⟨h1, h2⟩ := ih (max x a)
    rw [List.foldl_cons]
    refine ⟨?_, ?_⟩
    · rcases List.mem_cons.1 h1 with e | e
      · rw [e]
        rcases max_choice x a with m | m <;> rw [m] <;> simp
      · exact List.mem_cons_of_mem _ (List.mem_cons_of_mem _ e)
    · intro y hy
      have h3 := h2 _ (List.mem_cons_self ..)
      rcases List.mem_cons.1 hy with rfl | hy
      · exact (le_max_left _ _).trans h3
      · rcases List.mem_cons.1 hy with rfl | hy
        · exact (le_max_right _ _).trans h3
        · exact h2 y (List.mem_cons_of_mem _ hy)

/-- What the fitted scaler is: from the least and the greatest value. -/
theorem ls_scaler {v : List Rat} (hv : v ≠ []) : ∃ lo ∈ v, ∃ hi ∈ v, (∀ y ∈ v, lo ≤ y ∧ y ≤ hi) ∧
    lstmScaler v = .ok ⟨2 / (if hi - lo = 0 then 1 else hi - lo), -1 - lo * (2 / (if hi - lo = 0 then 1 else hi - lo))⟩ := by
  rcases v with _ | ⟨x, l⟩
  · exact absurd rfl hv
  · exact ⟨_, (ls_min l x).1, _, (ls_max l x).1, fun y hy => ⟨(ls_min l x).2 y hy, (ls_max l x).2 y hy⟩, rfl⟩

/-- C152 (scaling): only an empty series is rejected.  The values are mapped to `[-1, 1]` with their order, the least
to `-1`, and the greatest to `1` unless all values are equal; the inverse map is the inverse. -/
theorem C152_scale (v : List Rat) :
    (lstmScaler v = .error .valueError ↔ v = [])
    ∧ ∀ S, lstmScaler v = .ok S →
      (∀ x ∈ v, -1 ≤ S.transform x ∧ S.transform x ≤ 1)
      ∧ (∀ x y, S.transform x < S.transform y ↔ x < y)
      ∧ (∀ x, S.inverse (S.transform x) = x) ∧ (∀ z, S.transform (S.inverse z) = z)
      ∧ (∃ x ∈ v, S.transform x = -1)
      ∧ ((∃ x ∈ v, S.transform x = 1) ↔ ∃ x ∈ v, ∃ y ∈ v, x ≠ y) := by
  refine ⟨⟨fun h => ?_, fun h => by rw [h]; rfl⟩, ?_⟩
  · by_contra hv
    obtain ⟨lo, _, hi, _, _, e⟩ := ls_scaler hv
    rw [e] at h; cases h
  intro S hS
  have hv : v ≠ [] := by rintro rfl; cases hS
  obtain ⟨lo, hlo, hi, hhi, hb, e⟩ := ls_scaler hv
  obtain ⟨d, hd⟩ : ∃ d, d = (if hi - lo = 0 then 1 else hi - lo) := ⟨_, rfl⟩
  rw [← hd, hS] at e
  injection e with e
  have hle : lo ≤ hi := (hb hi hhi).1
  have hd0 : 0 < d := by
    rw [hd]; split
    · exact one_pos
    · rename_i h; exact lt_of_le_of_ne (by linarith) (Ne.symm h)
  have hdl : hi - lo ≤ d := by
    rw [hd]; split
    · rename_i h; rw [h]; exact zero_le_one
    · exact le_refl _
  have ht : ∀ x, S.transform x = -1 + 2 * (x - lo) / d := by
    intro x; rw [e]; unfold LstmScaler.transform; field_simp; ring
  have hi' : ∀ z, S.inverse z = lo + (z + 1) * d / 2 := by
    intro z; rw [e]; unfold LstmScaler.inverse; field_simp; ring
  refine ⟨?_, ?_, ?_, ?_, ⟨lo, hlo, by rw [ht]; simp⟩, ?_⟩
  · intro x hx
    rw [ht]
    have h1 := hb x hx
    have h2 : 0 ≤ 2 * (x - lo) / d := div_nonneg (by linarith [h1.1]) hd0.le
    have h3 : 2 * (x - lo) / d ≤ 2 := by rw [div_le_iff₀ hd0]; linarith [h1.2]
    constructor <;> linarith
  · intro x y
    rw [ht, ht, add_lt_add_iff_left, div_lt_div_iff_of_pos_right hd0]
    constructor <;> intro h <;> linarith
  · intro x; rw [hi', ht]; field_simp; ring
  · intro z; rw [hi', ht]; field_simp; ring
  · constructor
    · rintro ⟨x, hx, h⟩
      rw [ht] at h
      refine ⟨lo, hlo, x, hx, ?_⟩
      rintro rfl
      simp at h
      norm_num at h
    · rintro ⟨x, hx, y, hy, hne⟩
      have hnz : hi - lo ≠ 0 := by
        intro h0
        have a := hb x hx
        have b := hb y hy
        exact hne (by linarith [a.1, a.2, b.1, b.2])
      refine ⟨hi, hhi, ?_⟩
      rw [ht, hd, if_neg hnz]
      field_simp
      ring

example : lstmScaler [3, 1, 5] = .ok ⟨1 / 2, -3 / 2⟩ ∧ ([3, 1, 5] : List Rat).map (LstmScaler.transform ⟨1 / 2, -3 / 2⟩) = [0, -1, 1]
    ∧ lstmScaler [4, 4] = .ok ⟨2, -9⟩ := by decide +kernel

/-! ## The sequences -/

/-- C152 (sequences): a window of `w` values of a series of `n` gives the `n - w` sequences of `w` values in the order
of time, each with the value that follows it; none if `n ≤ w`. -/
theorem C152_windows (z : List Rat) (w : Nat) :
    (lstmWindows z w).length = z.length - w
    ∧ ∀ i (h : i + w < z.length), (lstmWindows z w)[i]? = some ((z.drop i).take w, [z[i + w]])
        ∧ ((z.drop i).take w).length = w := by
  have hl : ((z.length : Int) - w).toNat = z.length - w := by omega
  refine ⟨by unfold lstmWindows; rw [List.length_map, List.length_range, hl], ?_⟩
  intro i h
  refine ⟨?_, by rw [List.length_take, List.length_drop]; omega⟩
  unfold lstmWindows
  rw [List.getElem?_map, List.getElem?_range (by rw [hl]; omega), Option.map_some, Option.some_inj,
    show ((i : Int) + w) = ((i + w : Nat) : Int) by push_cast; ring,
    show (((i + w : Nat) : Int) + 1) = ((i + w + 1 : Nat) : Int) by push_cast; ring, pySlice_nat, pySlice_nat,
    show i + w - i = w by omega, show i + w + 1 - (i + w) = 1 by omega, List.drop_eq_getElem_cons h, List.take_succ_cons,
    List.take_zero]

example : lstmWindows [1, 2, 3, 4, 5] 3 = [([1, 2, 3], [4]), ([2, 3, 4], [5])] := by decide +kernel

variable {Θ H : Type}

/-! ## Training -/

/-- The weights after one pass over the sequences. -/
def lsPass (N : LstmNet Θ H) (hidden : Int) (ws : List (List Rat × List Rat)) (θ : Θ) : Θ :=
  ws.foldl (fun θ x => N.step θ (N.zero hidden) x.1 x.2) θ

theorem ls_pass (N : LstmNet Θ H) (hidden : Int) (ws : List (List Rat × List Rat))
    (hN : ∀ x ∈ ws, ∀ θ, ∃ r, N.forward θ (N.zero hidden) x.1 = .ok r) : ∀ θ h,
    ∃ h', lstmPass N hidden ws θ h = ((lsPass N hidden ws θ, h'), .ok ()) := by
  induction ws with
  | nil => intro θ h; exact ⟨h, rfl⟩
  | cons x ws ih =>
    intro θ h
    obtain ⟨r, hr⟩ := hN x (List.mem_cons_self ..) θ
    obtain ⟨h', e⟩ := ih (fun y hy => hN y (List.mem_cons_of_mem _ hy)) (N.step θ (N.zero hidden) x.1 x.2) (some r.2)
    refine ⟨h', ?_⟩
    unfold lstmPass
    rw [hr]
    exact e

theorem ls_epochs (N : LstmNet Θ H) (hidden : Int) (ws : List (List Rat × List Rat)) (hw : ws ≠ [])
    (hN : ∀ x ∈ ws, ∀ θ, ∃ r, N.forward θ (N.zero hidden) x.1 = .ok r) : ∀ k i θ h,
    ∃ h', lstmEpochs N hidden ws k i θ h = (((lsPass N hidden ws)^[k] θ, h'), .ok ()) := by
  intro k
  induction k with
  | zero => intro i θ h; exact ⟨h, rfl⟩
  | succ k ih =>
    intro i θ h
    obtain ⟨h1, e1⟩ := ls_pass N hidden ws hN θ h
    obtain ⟨h2, e2⟩ := ih (i + 1) (lsPass N hidden ws θ) h1
    refine ⟨h2, ?_⟩
    unfold lstmEpochs
    rw [e1]
    simp only []
    rw [if_neg (by rintro ⟨_, h⟩; exact hw (List.isEmpty_iff.1 h)), e2, Function.iterate_succ_apply]

/-- C152 (training), the part that holds: for a series longer than the window the weights of a new network are changed
once for each sequence, in the order of time and from the hidden state zero, and this for every epoch; what an earlier
`fit` left plays no part. -/
theorem C152_fit_partial (N : LstmNet Θ H) (M : LstmModel Θ H) (lr : Option Rat) (w : Nat) (hw : M.params.window = w)
    (hw0 : 0 < w) (hn : w < M.values.length)
    (hN : ∀ θ h (s : List Rat), s ≠ [] → ∃ r, N.forward θ h s = .ok r)
    (θ₀ : Θ) (hm : N.make M.params.hidden = .ok θ₀) (ha : N.adam (lr.getD (1 / 1000)) = .ok ()) :
    ∃ S h, lstmScaler M.values = .ok S ∧
      lstmFit N M lr =
        (⟨M.times, M.values, M.params,
          some ((fun θ => ((List.range (M.values.length - w)).map fun i =>
              (((M.values.map S.transform).drop i).take w, ((M.values.map S.transform).drop (i + w)).take 1)).foldl
                (fun θ x => N.step θ (N.zero M.params.hidden) x.1 x.2) θ)^[M.params.epochs] θ₀, h),
          some (M.values.map S.transform), some S⟩, .ok ()) := by
  have hv : M.values ≠ [] := by intro h; rw [h] at hn; simp at hn
  obtain ⟨lo, _, hi, _, _, hS⟩ := ls_scaler hv
  obtain ⟨S, hSe⟩ : ∃ S, lstmScaler M.values = .ok S := ⟨_, hS⟩
  have hwin : lstmWindows (M.values.map S.transform) w = (List.range (M.values.length - w)).map fun i =>
      (((M.values.map S.transform).drop i).take w, ((M.values.map S.transform).drop (i + w)).take 1) := by
    unfold lstmWindows
    rw [List.length_map, show ((M.values.length : Int) - w).toNat = M.values.length - w by omega]
    apply List.map_congr_left
    intro i _
    rw [show ((i : Int) + w) = ((i + w : Nat) : Int) by push_cast; ring,
      show (((i + w : Nat) : Int) + 1) = ((i + w + 1 : Nat) : Int) by push_cast; ring, pySlice_nat, pySlice_nat,
      show i + w - i = w by omega, show i + w + 1 - (i + w) = 1 by omega]
  obtain ⟨ws, hws⟩ : ∃ ws, ws = (List.range (M.values.length - w)).map fun i =>
      (((M.values.map S.transform).drop i).take w, ((M.values.map S.transform).drop (i + w)).take 1) := ⟨_, rfl⟩
  have hne : ws ≠ [] := by
    intro h
    have := congrArg List.length h
    rw [hws, List.length_map, List.length_range, List.length_nil] at this
    omega
  have hfw : ∀ x ∈ ws, ∀ θ, ∃ r, N.forward θ (N.zero M.params.hidden) x.1 = .ok r := by
    intro x hx θ
    apply hN
    rw [hws] at hx
    obtain ⟨i, hi, rfl⟩ := List.mem_map.1 hx
    rw [List.mem_range] at hi
    intro h
    have := congrArg List.length h
    rw [List.length_take, List.length_drop, List.length_map, List.length_nil] at this
    omega
  obtain ⟨h, e⟩ := ls_epochs N M.params.hidden ws hne hfw M.params.epochs 0 θ₀ none
  refine ⟨S, h, hSe, ?_⟩
  rw [← hws] at hwin ⊢
  unfold lstmFit
  rw [hm]
  simp only []
  rw [ha]
  simp only []
  rw [hSe]
  simp only []
  rw [hw, hwin, e]
  rfl

/-! ## Forecasts -/

theorem ls_last (l : List Rat) (w : Nat) (hw : 0 < w) : pyFrom l (-(w : Int)) = l.drop (l.length - w) := by
  unfold pyFrom pyIdx
  rw [if_pos (by omega), show ((l.length : Int) + -(w : Int)).toNat = l.length - w by omega]

theorem ls_from (l : List Rat) (w : Nat) (hw : w ≤ l.length) : pyFrom l (w : Int) = l.drop w := by
  unfold pyFrom pyIdx
  rw [if_neg (by omega), Int.toNat_natCast, min_eq_left hw]

/-- The loop of `predict` adds one forecast for each step, made from the last values. -/
theorem ls_loop (N : LstmNet Θ H) (θ : Θ) (p : LstmParams) (w : Nat) (hw : p.window = w) (hw0 : 0 < w)
    (hN : ∀ (s : List Rat), s ≠ [] → ∃ r, N.forward θ (N.zero p.hidden) s = .ok r) : ∀ k inputs h, inputs ≠ [] →
    ∃ z h', lstmLoop N θ p k inputs h = .ok (inputs ++ z, h') ∧ z.length = k ∧ (k = 0 → h' = h) ∧
      ∀ j (hj : j < z.length), ∃ h'', N.forward θ (N.zero p.hidden)
        ((inputs ++ z.take j).drop (inputs.length + j - w)) = .ok (z[j], h'') ∧ (j + 1 = k → h' = some h'') := by
  intro k
  induction k with
  | zero => intro inputs h _; exact ⟨[], h, by rw [List.append_nil]; rfl, rfl, fun _ => rfl, fun j hj => by simp at hj⟩
  | succ k ih =>
    intro inputs h hne
    have hl : 0 < inputs.length := List.length_pos_iff.2 hne
    obtain ⟨r, hr⟩ := hN (inputs.drop (inputs.length - w)) (by
      intro e
      have := congrArg List.length e
      rw [List.length_drop, List.length_nil] at this
      omega)
    obtain ⟨z, h', e, ez, e0, ej⟩ := ih (inputs ++ [r.1]) (some r.2) (by simp)
    refine ⟨r.1 :: z, h', ?_, by simp [ez], (by intro h; cases h), ?_⟩
    · unfold lstmLoop
      rw [hw, ls_last _ _ hw0, hr]
      show lstmLoop N θ p k (inputs ++ [r.1]) (some r.2) = _
      rw [e]
      simp
    · intro j hj
      rcases j with _ | j
      · refine ⟨r.2, ?_, ?_⟩
        · rw [List.take_zero, List.append_nil, Nat.add_zero, hr]; rfl
        · intro h; exact e0 (by omega)
      · obtain ⟨h'', g1, g2⟩ := ej j (by simpa using hj)
        refine ⟨h'', ?_, fun h => g2 (by omega)⟩
        rw [List.take_succ_cons, List.getElem_cons_succ, ← g1]
        congr 1
        rw [List.append_assoc, List.length_append]
        simp only [List.length_cons, List.length_nil, List.singleton_append]
        congr 1
        omega

/-- `data.time.max()`. -/
abbrev lsLast (times : List Int) : Int := maxTime (times.map fun t => (t, 0))

/-- C152 (forecasts), the part that holds: a fitted network on a series not shorter than the window gives a row for each
step.  The dates are the dates of the frequency after the last one; the forecast of a step is made by the network from
the last `w` of the scaled values and the forecasts before it, always from the hidden state zero, whatever the network
was used for before; and the interval is 5 % to each side. -/
theorem C152_predict_partial (N : LstmNet Θ H) (infer : List Int → Except Err (Option DateFreq)) (M : LstmModel Θ H)
    (steps : Nat) (hs : 0 < steps) (freq : Option (Option DateFreq)) (w : Nat) (hw : M.params.window = w) (hw0 : 0 < w)
    (θ : Θ) (h : Option H) (hm : M.model = some (θ, h)) (z : List Rat) (hz : M.norm = some z) (S : LstmScaler)
    (hS : M.scaler = some S) (hn : w ≤ z.length)
    (hN : ∀ (s : List Rat), s ≠ [] → ∃ r, N.forward θ (N.zero M.params.hidden) s = .ok r)
    (inf : Option DateFreq) (hi : infer M.times = .ok inf)
    (hf : ∀ t, t < ((freq.getD inf).getD daily).next t)
    (hr : ((freq.getD inf).getD daily).roll (lsLast M.times) = lsLast M.times) :
    ∃ (rows : List LstmRow) (h' : Option H) (zz : List Rat), lstmPredict N infer M steps freq = .ok (rows, { M with model := some (θ, h') })
      ∧ rows.length = steps ∧ zz.length = steps
      ∧ ∀ j (hj : j < rows.length) (hj' : j < zz.length),
          rows[j].time = ((freq.getD inf).getD daily).next^[j + 1] (lsLast M.times)
          ∧ rows[j].fcst = S.inverse zz[j]
          ∧ rows[j].lower = rows[j].fcst * (95 / 100) ∧ rows[j].upper = rows[j].fcst * (105 / 100)
          ∧ ∃ h'', N.forward θ (N.zero M.params.hidden) ((z ++ zz.take j).drop (z.length + j - w)) = .ok (zz[j], h'') := by
  have hl : (z.drop (z.length - w)).length = w := by rw [List.length_drop]; omega
  obtain ⟨zz, h', e, ez, -, ej⟩ := ls_loop N θ M.params w hw hw0 hN steps (z.drop (z.length - w)) h (by
    intro e
    rw [e] at hl
    simp at hl
    omega)
  obtain ⟨d1, d2, -, -⟩ := C78_dates_partial ((freq.getD inf).getD daily) hf (lsLast M.times) hr steps
  have hout : pyFrom (z.drop (z.length - w) ++ zz) (w : Int) = zz := by
    rw [ls_from _ _ (by rw [List.length_append, hl]; omega), List.drop_append_of_le_length hl.ge, List.drop_eq_nil_of_le hl.le,
      List.nil_append]
  have hzne : ¬ zz.isEmpty = true := by
    intro h0
    rw [List.isEmpty_iff.1 h0] at ez
    simp at ez
    omega
  have hmk : mkFcst (futureDates ((freq.getD inf).getD daily) (lsLast M.times) steps) (zz.map S.inverse)
      = .ok ((futureDates ((freq.getD inf).getD daily) (lsLast M.times) steps).zip (zz.map S.inverse)) := by
    unfold mkFcst
    rw [if_pos (by rw [d2, List.length_map, ez])]
  refine ⟨((futureDates ((freq.getD inf).getD daily) (lsLast M.times) steps).zip (zz.map S.inverse)).map
      fun r => ⟨r.1, r.2, r.2 * (95 / 100), r.2 * (105 / 100)⟩, h', zz, ?_, ?_, ez, ?_⟩
  · unfold lstmPredict
    rw [hm, hz, hS]
    simp only []
    refine (gm_bind_ok _ _ _).2 ⟨inf, hi, ?_⟩
    refine (gm_bind_ok _ _ _).2 ⟨_, (by rw [hw, ls_last _ _ hw0]; exact e), ?_⟩
    simp only []
    rw [hw, hout, if_neg hzne]
    exact (gm_bind_ok _ _ _).2 ⟨_, hmk, rfl⟩
  · rw [List.length_map, List.length_zip, d2, List.length_map, ez, min_self]
  · intro j hj hj'
    simp only [List.getElem_map, List.getElem_zip]
    refine ⟨?_, trivial, trivial, trivial, ?_⟩
    · simp only [d1, List.getElem_map, List.getElem_range]
    · obtain ⟨h'', g, -⟩ := ej j hj'
      refine ⟨h'', ?_⟩
      rw [← g]
      congr 1
      rw [hl, show w + j - w = j by omega]
      rw [List.drop_append, List.drop_append, List.drop_drop, List.length_drop,
        show z.length - w + j = z.length + j - w by omega,
        show z.length + j - w - z.length = j - (z.length - (z.length - w)) by omega]

/-- The forecasts of a loop are the first ones of a longer loop. -/
theorem ls_loop_take (N : LstmNet Θ H) (θ : Θ) (p : LstmParams) : ∀ k m inputs h g a b, k ≤ m →
    lstmLoop N θ p k inputs h = .ok a → lstmLoop N θ p m inputs g = .ok b →
    a.1 = b.1.take a.1.length ∧ a.1.length = inputs.length + k := by
  intro k
  induction k with
  | zero =>
    intro m inputs h g a b _ ha hb
    injection ha with ha
    rw [← ha]
    refine ⟨?_, by simp⟩
    clear ha
    induction m generalizing inputs g with
    | zero => injection hb with hb; rw [← hb]; simp
    | succ m ih =>
      obtain ⟨r, hr, hb⟩ := (gm_bind_ok _ _ _).1 hb
      have := ih (inputs ++ [r.1]) (some r.2) (Nat.zero_le _) hb
      simp only [] at this ⊢
      have h2 := congrArg (List.take inputs.length) this
      rw [List.take_left, List.take_take, List.length_append, min_eq_left (by omega)] at h2
      exact h2
  | succ k ih =>
    intro m inputs h g a b hkm ha hb
    obtain ⟨m, rfl⟩ : ∃ m', m = m' + 1 := ⟨m - 1, by omega⟩
    obtain ⟨r, hr, ha⟩ := (gm_bind_ok _ _ _).1 ha
    obtain ⟨r', hr', hb⟩ := (gm_bind_ok _ _ _).1 hb
    rw [hr] at hr'
    injection hr' with hr'
    rw [← hr'] at hb
    obtain ⟨h1, h2⟩ := ih m _ _ _ a b (by omega) ha hb
    refine ⟨h1, ?_⟩
    rw [h2]
    simp
    omega

/-- What a forecast that was made consists of. -/
theorem ls_predict_ok (N : LstmNet Θ H) (infer : List Int → Except Err (Option DateFreq)) (M M' : LstmModel Θ H)
    (steps : Nat) (freq : Option (Option DateFreq)) (rows : List LstmRow)
    (h : lstmPredict N infer M steps freq = .ok (rows, M')) :
    ∃ θ g z S inf r, M.model = some (θ, g) ∧ M.norm = some z ∧ M.scaler = some S ∧ infer M.times = .ok inf
      ∧ lstmLoop N θ M.params steps (pyFrom z (-M.params.window)) g = .ok r
      ∧ pyFrom r.1 M.params.window ≠ []
      ∧ (futureDates ((freq.getD inf).getD daily) (lsLast M.times) steps).length = (pyFrom r.1 M.params.window).length
      ∧ rows = ((futureDates ((freq.getD inf).getD daily) (lsLast M.times) steps).zip
          ((pyFrom r.1 M.params.window).map S.inverse)).map (fun r => ⟨r.1, r.2, r.2 * (95 / 100), r.2 * (105 / 100)⟩)
      ∧ M' = { M with model := some (θ, r.2) } := by
  unfold lstmPredict at h
  rcases hm : M.model with _ | ⟨θ, g⟩
  · rw [hm] at h; cases h
  rw [hm] at h
  rcases hz : M.norm with _ | z
  · rw [hz] at h; cases h
  rcases hS : M.scaler with _ | S
  · rw [hz, hS] at h; cases h
  rw [hz, hS] at h
  simp only [] at h
  obtain ⟨inf, hi, h⟩ := (gm_bind_ok _ _ _).1 h
  obtain ⟨r, hr, h⟩ := (gm_bind_ok _ _ _).1 h
  split at h
  · cases h
  rename_i hne
  obtain ⟨q, hq, h⟩ := (gm_bind_ok _ _ _).1 h
  unfold mkFcst at hq
  split at hq
  · rename_i hlen
    injection hq with hq
    injection h with h
    rw [← hq] at h
    rw [List.length_map] at hlen
    exact ⟨θ, g, z, S, inf, r, rfl, rfl, rfl, hi, hr, by simpa using hne, hlen, (congrArg Prod.fst h).symm,
      (congrArg Prod.snd h).symm⟩
  · cases hq

/-- C152 (interval, violated): a row has its forecast between its bounds exactly if the forecast is not negative; for a
negative forecast the lower bound is above the upper one.  A series of negative values is an example. -/
theorem C152_interval_violated :
    (∀ {Θ H : Type} (N : LstmNet Θ H) (infer : List Int → Except Err (Option DateFreq)) (M M' : LstmModel Θ H)
      (steps : Nat) (freq : Option (Option DateFreq)) (rows : List LstmRow),
      lstmPredict N infer M steps freq = .ok (rows, M') → ∀ r ∈ rows,
        ((r.lower ≤ r.fcst ∧ r.fcst ≤ r.upper) ↔ 0 ≤ r.fcst) ∧ (r.fcst < 0 → r.upper < r.lower))
    ∧ (lstmPredict (⟨fun _ => .ok (), fun _ => .ok (), fun _ => (), fun _ _ s => .ok (s.headD 0, ()), fun _ _ _ _ => ()⟩ :
          LstmNet Unit Unit) (fun _ => .ok (some daily))
          (lstmFit ⟨fun _ => .ok (), fun _ => .ok (), fun _ => (), fun _ _ s => .ok (s.headD 0, ()), fun _ _ _ _ => ()⟩
            ⟨[1, 2, 3, 4], [-8, -4, -6, -2], ⟨1, 2, 3⟩, none, none, none⟩ none).1 2 none).map (·.1)
        = .ok [⟨5, -6, -57 / 10, -63 / 10⟩, ⟨6, -2, -19 / 10, -21 / 10⟩] := by
  refine ⟨?_, by decide +kernel⟩
  intro Θ H N infer M M' steps freq rows h r hr
  obtain ⟨θ, g, z, S, inf, o, -, -, -, -, -, -, -, hrows, -⟩ := ls_predict_ok _ _ _ _ _ _ _ h
  rw [hrows] at hr
  obtain ⟨q, -, rfl⟩ := List.mem_map.1 hr
  simp only []
  refine ⟨⟨fun ⟨a, b⟩ => by linarith, fun a => ⟨by linarith, by linarith⟩⟩, fun a => by linarith⟩

/-- C152 (use of the network): a second call of `predict` gives the same frame as the first, and a shorter horizon gives
the first forecasts of a longer one. -/
theorem C152_repeat (N : LstmNet Θ H) (infer : List Int → Except Err (Option DateFreq)) (M M' : LstmModel Θ H)
    (steps : Nat) (freq : Option (Option DateFreq)) (rows : List LstmRow)
    (h : lstmPredict N infer M steps freq = .ok (rows, M')) :
    (lstmPredict N infer M' steps freq).map (·.1) = .ok rows
    ∧ ∀ m rows' M'', steps ≤ m → lstmPredict N infer M' m freq = .ok (rows', M'') →
        0 ≤ M.params.window →
        rows.map (·.fcst) = (rows'.map (·.fcst)).take rows.length := by
  obtain ⟨θ, g, z, S, inf, r, hm, hz, hS, hi, hl, hne, hlen, hrows, rfl⟩ := ls_predict_ok _ _ _ _ _ _ _ h
  have key : ∀ k inputs a b c, 0 < k → lstmLoop N θ M.params k inputs a = .ok c →
      lstmLoop N θ M.params k inputs b = .ok c := by
    intro k inputs a b c hk hc
    obtain ⟨k, rfl⟩ : ∃ k', k = k' + 1 := ⟨k - 1, by omega⟩
    exact hc
  have hf : ∀ rr : List (Int × Rat), (rr.map (fun r => (⟨r.1, r.2, r.2 * (95 / 100), r.2 * (105 / 100)⟩ : LstmRow))).map
      (·.fcst) = rr.map (·.2) := by intro rr; rw [List.map_map]; rfl
  have hz2 : ∀ (d : List Int) (y : List Rat), d.length = y.length → (d.zip y).map (·.2) = y := by
    intro d y e; exact List.map_snd_zip e.ge
  refine ⟨?_, ?_⟩
  · obtain ⟨r', hr', hr1⟩ : ∃ r', lstmLoop N θ M.params steps (pyFrom z (-M.params.window)) r.2 = .ok r' ∧ r'.1 = r.1 := by
      rcases Nat.eq_zero_or_pos steps with rfl | hp
      · injection hl with hl; exact ⟨_, rfl, by rw [← hl]⟩
      · exact ⟨r, key _ _ _ _ _ hp hl, rfl⟩
    have : lstmPredict N infer { M with model := some (θ, r.2) } steps freq =
        .ok (rows, { M with model := some (θ, r'.2) }) := by
      unfold lstmPredict
      simp only [hz, hS]
      refine (gm_bind_ok _ _ _).2 ⟨inf, hi, ?_⟩
      refine (gm_bind_ok _ _ _).2 ⟨_, hr', ?_⟩
      rw [hr1, if_neg (by simpa using hne)]
      refine (gm_bind_ok _ _ _).2 ⟨_, ?_, by rw [hrows]⟩
      unfold mkFcst
      rw [if_pos (by rw [List.length_map]; exact hlen)]
    rw [this]
    rfl
  · intro m rows' M'' hsm h2 hw
    obtain ⟨θ', g', z', S', inf', r', hm', hz', hS', hi', hl', hne', hlen', hrows', -⟩ := ls_predict_ok _ _ _ _ _ _ _ h2
    simp only [] at hm' hz' hS' hi' hl' hne' hlen' hrows'
    injection hm' with hm'
    rw [Prod.mk.injEq] at hm'
    obtain ⟨rfl, rfl⟩ := hm'
    rw [hz] at hz'
    injection hz' with hz'
    rw [hS] at hS'
    injection hS' with hS'
    subst hz' hS'
    obtain ⟨e, -⟩ := ls_loop_take N _ M.params steps m _ _ _ r r' hsm hl hl'
    have h1 : rows.map (·.fcst) = (pyFrom r.1 M.params.window).map S.inverse := by
      rw [hrows, hf, hz2 _ _ (by rw [List.length_map]; exact hlen)]
    have h2 : rows'.map (·.fcst) = (pyFrom r'.1 M.params.window).map S.inverse := by
      rw [hrows', hf, hz2 _ _ (by rw [List.length_map]; exact hlen')]
    have h3 : rows.length = (pyFrom r.1 M.params.window).length := by
      have := congrArg List.length h1
      simpa using this
    rw [h1, h2, h3, ← List.map_take]
    congr 1
    obtain ⟨w, hw⟩ : ∃ w : Nat, M.params.window = w := ⟨_, (Int.toNat_of_nonneg hw).symm⟩
    have hr1 : r.1.length ≤ r'.1.length := by
      have := congrArg List.length e
      rw [List.length_take] at this
      omega
    have hwl : w ≤ r.1.length := by
      by_contra hc
      apply hne
      rw [hw]
      unfold pyFrom pyIdx
      rw [if_neg (by omega), Int.toNat_natCast, min_eq_right (by omega), List.drop_length]
    rw [hw, ls_from _ _ hwl, ls_from _ _ (hwl.trans hr1), List.length_drop]
    conv_lhs => rw [e]
    rw [List.drop_take]

/-- C152 (before `fit`): only a series of one column is taken, and `predict` before `fit` is an error. -/
theorem C152_init (N : LstmNet Θ H) (infer : List Int → Except Err (Option DateFreq)) (times : List Int)
    (columns : List (List Rat)) (p : LstmParams) :
    (columns.length ≠ 1 → (lstmInit times columns p : Except Err (LstmModel Θ H)) = .error .valueError)
    ∧ ∀ v, columns = [v] → ∃ M : LstmModel Θ H, lstmInit times columns p = .ok M
      ∧ M.times = times ∧ M.values = v ∧ M.params = p
      ∧ ∀ steps freq, lstmPredict N infer M steps freq = .error .valueError := by
  refine ⟨?_, ?_⟩
  · intro h
    unfold lstmInit
    split
    · exact absurd rfl h
    · rfl
  · rintro v rfl
    exact ⟨_, rfl, rfl, rfl, rfl, fun _ _ => rfl⟩

/-! ## Scaled series -/

theorem ls_affine_fold (a b : Rat) (ha : 0 < a) (l : List Rat) : ∀ x,
    (l.map fun y => a * y + b).foldl min (a * x + b) = a * l.foldl min x + b
    ∧ (l.map fun y => a * y + b).foldl max (a * x + b) = a * l.foldl max x + b := by
  have hm : Monotone fun y : Rat => a * y + b := by
    intro x y h
    have := mul_le_mul_of_nonneg_left h ha.le
    simp only []
    linarith
  induction l with
  | nil => intro x; exact ⟨rfl, rfl⟩
  | cons y l ih =>
    intro x
    rw [List.map_cons, List.foldl_cons, List.foldl_cons, List.foldl_cons, List.foldl_cons]
    have h1 := hm.map_min (a := x) (b := y)
    have h2 := hm.map_max (a := x) (b := y)
    rw [← h1, ← h2]
    exact ⟨(ih _).1, (ih _).2⟩

theorem ls_affine (a b : Rat) (ha : 0 < a) (v : List Rat) (S : LstmScaler) (hS : lstmScaler v = .ok S)
    (hc : a = 1 ∨ ∃ x ∈ v, ∃ y ∈ v, x ≠ y) :
    ∃ S', lstmScaler (v.map fun y => a * y + b) = .ok S' ∧ (∀ x, S'.transform (a * x + b) = S.transform x)
      ∧ ∀ z, S'.inverse z = a * S.inverse z + b := by
  rcases v with _ | ⟨x, l⟩
  · cases hS
  obtain ⟨e1, e2⟩ := ls_affine_fold a b ha l x
  refine ⟨_, rfl, ?_⟩
  rw [e1, e2]
  injection hS with hS
  have hb := (ls_min l x).2
  have hb' := (ls_max l x).2
  have hle : l.foldl min x ≤ l.foldl max x :=
    (hb x (List.mem_cons_self ..)).trans (hb' x (List.mem_cons_self ..))
  rw [← hS]
  clear hS e1 e2
  generalize l.foldl min x = lo at *
  generalize l.foldl max x = hi at *
  rcases eq_or_ne (hi - lo) 0 with h0 | h0
  · have ha1 : a = 1 := by
      rcases hc with h | ⟨p, hp, q, hq, hne⟩
      · exact h
      · exact absurd (by linarith [hb p hp, hb' p hp, hb q hq, hb' q hq]) hne
    subst ha1
    rw [if_pos (by linarith), if_pos h0]
    unfold LstmScaler.transform LstmScaler.inverse
    refine ⟨fun x => by simp only []; ring, fun z => by simp only []; ring⟩
  · have hd : 0 < hi - lo := lt_of_le_of_ne (by linarith) (Ne.symm h0)
    have ha0 : a ≠ 0 := ha.ne'
    have h1 : a * hi + b - (a * lo + b) = a * (hi - lo) := by ring
    rw [h1, if_neg (mul_ne_zero ha0 h0), if_neg h0]
    unfold LstmScaler.transform LstmScaler.inverse
    refine ⟨fun x => by simp only []; field_simp; ring, fun z => by simp only []; field_simp; ring⟩

/-- C152 (units): if the values are given in another unit (times a positive number, plus a number), the forecasts are
the same in that unit.  The values must not all be equal, or the number be one. -/
theorem C152_units (N : LstmNet Θ H) (infer : List Int → Except Err (Option DateFreq)) (M : LstmModel Θ H)
    (lr : Option Rat) (hfit : (lstmFit N M lr).2 = .ok ()) (a b : Rat) (ha : 0 < a)
    (hc : a = 1 ∨ ∃ x ∈ M.values, ∃ y ∈ M.values, x ≠ y) (steps : Nat) (freq : Option (Option DateFreq)) :
    (lstmFit N { M with values := M.values.map fun y => a * y + b } lr).2 = .ok ()
    ∧ (lstmPredict N infer (lstmFit N { M with values := M.values.map fun y => a * y + b } lr).1 steps freq).map
        (fun r => r.1.map fun q => (q.time, q.fcst))
      = (lstmPredict N infer (lstmFit N M lr).1 steps freq).map (fun r => r.1.map fun q => (q.time, a * q.fcst + b)) := by
  unfold lstmFit at hfit ⊢
  simp only []
  rcases hm : N.make M.params.hidden with e | θ
  · rw [hm] at hfit; cases hfit
  rw [hm] at hfit
  simp only [] at hfit ⊢
  rcases hA : N.adam (lr.getD (1 / 1000)) with e | u
  · rw [hA] at hfit; cases hfit
  rw [hA] at hfit
  simp only [] at hfit ⊢
  rcases hS : lstmScaler M.values with e | S
  · rw [hS] at hfit; cases hfit
  rw [hS] at hfit
  obtain ⟨S', hS', ht, hi⟩ := ls_affine a b ha M.values S hS hc
  rw [hS']
  simp only [] at hfit ⊢
  have hz : ((M.values.map fun y => a * y + b).map S'.transform) = M.values.map S.transform := by
    rw [List.map_map]
    apply List.map_congr_left
    intro x _
    exact ht x
  rw [hz]
  refine ⟨hfit, ?_⟩
  obtain ⟨⟨θ', h'⟩, hr⟩ : ∃ r, (lstmEpochs N M.params.hidden (lstmWindows (M.values.map S.transform) M.params.window)
    M.params.epochs 0 θ none).1 = r := ⟨_, rfl⟩
  rw [hr]
  unfold lstmPredict
  simp only []
  rcases infer M.times with e | inf
  · rfl
  simp only [bind, Except.bind]
  rcases lstmLoop N θ' M.params steps (pyFrom (M.values.map S.transform) (-M.params.window)) h' with e | r
  · rfl
  simp only []
  split
  · rfl
  · unfold mkFcst
    simp only [List.length_map]
    by_cases hq : (futureDates ((freq.getD inf).getD daily) (maxTime (M.times.map fun t => (t, 0))) steps).length
        = (pyFrom r.1 M.params.window).length
    · rw [if_pos hq, if_pos hq]
      simp only [Except.map, List.map_map]
      congr 1
      rw [List.zip_map_right, List.zip_map_right, List.map_map, List.map_map]
      apply List.map_congr_left
      intro q _
      simp only [Function.comp_apply, Prod.map, hi, id_eq]
    · rw [if_neg hq, if_neg hq]
      rfl

example : (∃ x ∈ ([3, 1, 5] : List Rat), ∃ y ∈ ([3, 1, 5] : List Rat), x ≠ y) := ⟨3, by simp, 1, by simp, by norm_num⟩

/-! ## Short series and failures -/

theorem ls_loop_len (N : LstmNet Θ H) (θ : Θ) (p : LstmParams) (k : Nat) (inputs : List Rat) (h : Option H) (r)
    (hr : lstmLoop N θ p k inputs h = .ok r) : r.1.length = inputs.length + k :=
  (ls_loop_take N θ p k k inputs h h r r (le_refl _) hr hr).2

/-- C152 (short series, violated): a series shorter than the window cannot be forecast, though `fit` accepts it if there
is at most one epoch; with two or more epochs `fit` fails with an `UnboundLocalError` for every series not longer than the
window.  With one epoch and a series as long as the window the forecasts come from a network that was not trained. -/
theorem C152_short_violated (N : LstmNet Θ H) (infer : List Int → Except Err (Option DateFreq)) (M : LstmModel Θ H)
    (lr : Option Rat) (w : Nat) (hw : M.params.window = w) (hv : M.values ≠ []) (hn : M.values.length ≤ w)
    (θ₀ : Θ) (hm : N.make M.params.hidden = .ok θ₀) (ha : N.adam (lr.getD (1 / 1000)) = .ok ()) :
    (lstmFit N M lr).2 = (if M.params.epochs ≤ 1 then .ok () else .error .otherError)
    ∧ (lstmFit N M lr).1.model = some (θ₀, none)
    ∧ (M.values.length < w → ∀ steps freq,
        (∀ inf, infer M.times = .ok inf →
          (futureDates ((freq.getD inf).getD daily) (lsLast M.times) steps).length = steps) →
        ∀ out, lstmPredict N infer (lstmFit N M lr).1 steps freq ≠ .ok out) := by
  obtain ⟨lo, _, hi, _, _, hS⟩ := ls_scaler hv
  obtain ⟨S, hSe⟩ : ∃ S, lstmScaler M.values = .ok S := ⟨_, hS⟩
  have hwin : lstmWindows (M.values.map S.transform) w = [] := by
    apply List.length_eq_zero_iff.1
    rw [(C152_windows _ w).1, List.length_map]
    omega
  have hep : lstmEpochs N M.params.hidden [] M.params.epochs 0 θ₀ none
      = ((θ₀, none), if M.params.epochs ≤ 1 then .ok () else .error .otherError) := by
    obtain ⟨k, hk⟩ : ∃ k, M.params.epochs = k := ⟨_, rfl⟩
    rw [hk]
    rcases k with _ | _ | k
    · rfl
    · rfl
    · rw [if_neg (by omega)]; rfl
  have hfit : lstmFit N M lr = (⟨M.times, M.values, M.params, some (θ₀, none), some (M.values.map S.transform), some S⟩,
      if M.params.epochs ≤ 1 then .ok () else .error .otherError) := by
    unfold lstmFit
    rw [hm]
    simp only []
    rw [ha]
    simp only []
    rw [hSe]
    simp only []
    rw [hw, hwin, hep]
  rw [hfit]
  refine ⟨rfl, rfl, ?_⟩
  intro hlt steps freq hd out hout
  obtain ⟨rows, M'⟩ := out
  obtain ⟨θ, g, z, S', inf, r, -, hz, -, hinf, hl, hne, hlen, -, -⟩ := ls_predict_ok _ _ _ _ _ _ _ hout
  injection hz with hz
  subst hz
  have h1 := ls_loop_len _ _ _ _ _ _ _ hl
  simp only [] at h1 hlen hne hinf
  rw [hd inf hinf] at hlen
  rw [hw] at h1 hlen hne
  rw [ls_last _ _ (by omega), List.length_drop, List.length_map] at h1
  have h2 : (pyFrom r.1 (w : Int)).length = r.1.length - min w r.1.length := by
    unfold pyFrom pyIdx
    rw [if_neg (by omega), Int.toNat_natCast, List.length_drop]
  have h3 : 0 < (pyFrom r.1 (w : Int)).length := List.length_pos_iff.2 hne
  omega

/-- C152 (failed `fit`, violated): if the optimizer rejects the rate, `fit` raises, but the trained network has been
replaced by a new one: `predict` then gives the forecasts of a network that was never trained, scaled with the scaler of
before; after a first `fit` that failed in this way `predict` fails with an `AssertionError` instead of the error that
asks for `fit`. -/
theorem C152_refit_violated (N : LstmNet Θ H) (infer : List Int → Except Err (Option DateFreq)) (M : LstmModel Θ H)
    (lr : Option Rat) (e : Err) (θ₀ : Θ) (hm : N.make M.params.hidden = .ok θ₀)
    (ha : N.adam (lr.getD (1 / 1000)) = .error e) :
    (lstmFit N M lr).2 = .error e ∧ (lstmFit N M lr).1 = { M with model := some (θ₀, none) }
    ∧ (M.norm = none → ∀ steps freq, lstmPredict N infer (lstmFit N M lr).1 steps freq = .error .otherError) := by
  have hfit : lstmFit N M lr = ({ M with model := some (θ₀, none) }, .error e) := by
    unfold lstmFit
    rw [hm]
    simp only []
    rw [ha]
  rw [hfit]
  refine ⟨rfl, rfl, ?_⟩
  intro hz steps freq
  unfold lstmPredict
  simp only [hz]

/-- C152 (frequency, violated): the frequency is inferred also if it is given, so where `pd.infer_freq` fails (fewer than
three dates) `predict` fails with any frequency. -/
theorem C152_infer_violated (N : LstmNet Θ H) (infer : List Int → Except Err (Option DateFreq)) (M : LstmModel Θ H)
    (e : Err) (hi : infer M.times = .error e) (hz : M.model.isSome = true → M.norm.isSome = true ∧ M.scaler.isSome = true)
    (steps : Nat) (freq : Option (Option DateFreq)) :
    lstmPredict N infer M steps freq = .error (if M.model.isSome = true then e else .valueError) := by
  unfold lstmPredict
  rcases hm : M.model with _ | ⟨θ, h⟩
  · rfl
  · obtain ⟨h1, h2⟩ := hz (by rw [hm]; rfl)
    obtain ⟨z, h1⟩ := Option.isSome_iff_exists.1 h1
    obtain ⟨S, h2⟩ := Option.isSome_iff_exists.1 h2
    rw [h1, h2]
    simp only []
    rw [hi]
    rfl

/-- C152 (window zero, violated): with a window of zero values, or less, nothing is checked when the parameters are made;
the first sequence is empty and `fit` fails in the network. -/
theorem C152_zero_violated (N : LstmNet Θ H) (M : LstmModel Θ H) (lr : Option Rat) (hw : M.params.window = 0)
    (hv : M.values ≠ []) (he : 0 < M.params.epochs) (hN : ∀ θ h, N.forward θ h [] = .error .otherError)
    (θ₀ : Θ) (hm : N.make M.params.hidden = .ok θ₀) (ha : N.adam (lr.getD (1 / 1000)) = .ok ()) :
    (lstmFit N M lr).2 = .error .otherError := by
  obtain ⟨lo, _, hi, _, _, hS⟩ := ls_scaler hv
  obtain ⟨S, hSe⟩ : ∃ S, lstmScaler M.values = .ok S := ⟨_, hS⟩
  obtain ⟨k, hk⟩ : ∃ k, M.params.epochs = k + 1 := ⟨M.params.epochs - 1, by omega⟩
  have hl : 0 < M.values.length := List.length_pos_iff.2 hv
  obtain ⟨x, ws, hws⟩ : ∃ x ws, lstmWindows (M.values.map S.transform) 0 = (([] : List Rat), x) :: ws := by
    have h := (C152_windows (M.values.map S.transform) 0).2 0 (by rw [List.length_map]; omega)
    rcases hq : lstmWindows (M.values.map S.transform) 0 with _ | ⟨q, ws⟩
    · have := h.1
      rw [show ((0 : Nat) : Int) = 0 from rfl, hq] at this
      cases this
    · have := h.1
      rw [show ((0 : Nat) : Int) = 0 from rfl, hq] at this
      simp only [List.getElem?_cons_zero, Option.some_inj] at this
      exact ⟨q.2, ws, by rw [this]; simp⟩
  unfold lstmFit
  rw [hm]
  simp only []
  rw [ha]
  simp only []
  rw [hSe]
  simp only []
  rw [hw, hws, hk]
  unfold lstmEpochs lstmPass
  rw [hN]

/-! ## An example -/

/-- A network that forecasts the mean of its sequence plus its weight; a step adds the label. -/
def lsToy : LstmNet Rat Rat :=
  ⟨fun s => if s ≤ 0 then .error .otherError else .ok 0, fun r => if r < 0 then .error .valueError else .ok (),
   fun _ => 0, fun θ h s => if s = [] then .error .otherError else .ok (s.sum / s.length + θ + h, 7),
   fun θ _ _ l => θ + l.sum / 10⟩

def lsSeries : LstmModel Rat Rat := ⟨[1, 2, 3, 4], [0, 4, 2, 3], ⟨1, 2, 2⟩, none, none, none⟩

example : (∀ θ h (s : List Rat), s ≠ [] → ∃ r, lsToy.forward θ h s = .ok r) ∧ lsToy.make 1 = .ok 0
    ∧ (lstmFit lsToy lsSeries none).2 = .ok ()
    ∧ (lstmFit lsToy lsSeries none).1.model = some (1 / 10, some 7)
    ∧ ((lstmPredict lsToy (fun _ => .ok (some daily)) (lstmFit lsToy lsSeries none).1 2 none).map
        (fun r => r.1.map fun q => (q.time, q.fcst))) = .ok [(5, 27 / 10), (6, 61 / 20)]
    ∧ (lstmFit lsToy { lsSeries with params := ⟨1, 4, 2⟩ } none).2 = .error .otherError
    ∧ (lstmFit lsToy lsSeries (some (-1))).2 = .error .valueError
    ∧ (lstmFit lsToy { lsSeries with params := ⟨1, 0, 2⟩ } none).2 = .error .otherError := by
  refine ⟨?_, ?_⟩
  · intro θ h s hs
    exact ⟨_, if_neg hs⟩
  · decide +kernel

end Kats
