import Verif.Props.Thm
import Mathlib.LinearAlgebra.Matrix.Notation
import Mathlib.Tactic.FinCases
import Mathlib.Tactic.NormNum

/-!
# More theorems about hierarchical forecasts (C48, C82-C85)
-/

namespace Kats
namespace THM

open Matrix

/-- What a successful prediction consists of. -/
theorem predict_inv {L : LinSolve} {sqrt : Rat → Rat} {t : THM} (hw : WF t) {steps : Nat} {meth : Recon}
    {lv : Option (List Nat)} {p : Pred} (h : t.predict_ L sqrt steps meth lv = .ok p) :
    ∃ os Y, t.origins steps meth = .ok os ∧ t.level1 L sqrt steps meth os = .ok Y ∧ steps ≤ Y.length
      ∧ (∀ k ∈ lv.getD t.levels, 1 ≤ k)
      ∧ p.fcst = (lv.getD t.levels).map (fun k => (k, (List.range (steps / k)).map (levelSum (Y.take steps) k)))
      ∧ p.origin = os.map fun o => (o.1, o.2.take (steps / o.1)) := by
  unfold predict_ at h
  cases ho : t.origins steps meth with
  | error e => rw [ho] at h; cases h
  | ok os =>
    rw [ho] at h
    simp only [bind, Except.bind] at h
    cases hy : t.level1 L sqrt steps meth os with
    | error e => rw [hy] at h; cases h
    | ok y =>
      rw [hy] at h
      dsimp only at h
      have hyl := level1_length hw ho hy
      cases hf : (lv.getD t.levels).mapM (fun k => (aggData y k).map fun l => (k, l.take (steps / k))) with
      | error e => rw [hf] at h; cases h
      | ok f =>
        rw [hf] at h
        obtain rfl := Except.ok.inj h
        have hF := (mapM_except _ _ _).1 hf
        have key : (∀ k ∈ lv.getD t.levels, 1 ≤ k)
            ∧ f = (lv.getD t.levels).map (fun k => (k, (List.range (steps / k)).map (levelSum (y.take steps) k))) := by
          generalize lv.getD t.levels = ks at hF
          clear hf h
          induction hF with
          | nil => simp
          | @cons k e ks f h1 _ ih =>
            cases ha : aggData y k with
            | error e => rw [ha] at h1; cases h1
            | ok r =>
              rw [ha] at h1
              have h1 : (k, r.take (steps / k)) = e := Except.ok.inj h1
              obtain ⟨a1, a2⟩ := aggData_take hyl ha
              refine ⟨?_, ?_⟩
              · intro k' hk'
                rcases List.mem_cons.1 hk' with rfl | hk'
                · exact a1
                · exact ih.1 k' hk'
              · rw [List.map_cons, ← ih.2, ← h1, a2]
        exact ⟨os, y, rfl, hy, hyl, key.1, key.2, rfl⟩

/-! ## C48: padding -/

/-- Two sources of the same level that deliver the same first `N` values. -/
def SrcAgree (N : Nat) (s s' : Src) : Prop :=
  (∃ f, s = .model f ∧ s' = .model f)
  ∨ ∃ a b, s = .given a ∧ s' = .given b ∧ N ≤ a.length ∧ N ≤ b.length ∧ a.take N = b.take N

theorem given_take {t : THM} {steps : Nat} {meth : Recon} {k : Nat} {l a : List Rat}
    (hN : steps / t.m * t.freq k ≤ t.freq k * t.periods steps) (hs : t.src k = .given a)
    (hl : steps / t.m * t.freq k ≤ a.length) (h : t.originOne steps meth k = .ok l) :
    l.take (steps / t.m * t.freq k) = a.take (steps / t.m * t.freq k) := by
  unfold originOne at h
  rw [hs] at h
  dsimp only at h
  split_ifs at h with h1
  · cases hg : a.getLast? with
    | none => rw [hg] at h; cases h
    | some x =>
      rw [hg] at h
      obtain rfl := Except.ok.inj h
      rw [List.take_append_of_le_length hl]
  · obtain rfl := Except.ok.inj h
    rw [List.take_take, Nat.min_eq_left hN]

theorem originOne_agree {t t' : THM} (hm : t'.m = t.m) {steps : Nat} {meth : Recon}
    {k : Nat} {l l' : List Rat}
    (hN : steps / t.m * t.freq k ≤ t.freq k * t.periods steps)
    (ha : SrcAgree (steps / t.m * t.freq k) (t.src k) (t'.src k))
    (h : t.originOne steps meth k = .ok l) (h' : t'.originOne steps meth k = .ok l') :
    l.take (steps / t.m * t.freq k) = l'.take (steps / t.m * t.freq k) := by
  have hf : t'.freq k = t.freq k := by unfold freq; rw [hm]
  have hp : t'.periods steps = t.periods steps := by unfold periods; rw [hm]
  rcases ha with ⟨f, e1, e2⟩ | ⟨a, b, e1, e2, l1, l2, e3⟩
  · unfold originOne at h h'
    rw [e1] at h
    rw [e2, hf, hp] at h'
    rw [← Except.ok.inj h, ← Except.ok.inj h']
  · rw [given_take hN e1 l1 h, e3]
    have := given_take (t := t') (by rw [hf, hp, hm]; exact hN) e2 (by rw [hf, hm]; exact l2) h'
    rw [hf, hm] at this
    exact this.symm

theorem take_getD {l l' : List Rat} {N i : Nat} (h : l.take N = l'.take N) (hi : i < N) :
    l.getD i 0 = l'.getD i 0 := by
  have := congrArg (fun x => x[i]?) h
  simp only [List.getElem?_take_of_lt hi] at this
  rw [List.getD_eq_getElem?_getD, List.getD_eq_getElem?_getD, this]

theorem repeatEach_getD (k : Nat) (hk : 0 < k) : ∀ (l : List Rat) (j : Nat),
    (repeatEach l k).getD j 0 = l.getD (j / k) 0
  | [], j => by simp [repeatEach]
  | x :: l, j => by
    unfold repeatEach
    rw [List.flatMap_cons]
    by_cases hj : j < k
    · rw [List.getD_eq_getElem?_getD, List.getElem?_append_left (by simpa using hj), Nat.div_eq_of_lt hj]
      simp [hj]
    · rw [List.getD_eq_getElem?_getD, List.getElem?_append_right (by simp; omega)]
      have ih := repeatEach_getD k hk l (j - k)
      rw [List.getD_eq_getElem?_getD] at ih
      unfold repeatEach at ih
      rw [List.length_replicate, ih]
      have : j / k = (j - k) / k + 1 := by
        rw [Nat.div_eq_sub_div hk (by omega)]
      rw [this]
      simp

theorem project_map (L : LinSolve) (n m h : Nat) (S : Matrix (Fin n) (Fin m) Rat) (W : WMat)
    (yh : Matrix (Fin n) (Fin h) Rat) :
    project L n m h S W yh = (project L n m n S W 1).map (· * yh) := by
  unfold project
  cases weightT L n m S W with
  | none => rfl
  | some T =>
    simp only [Option.bind_eq_bind, Option.bind_some]
    cases L.solve (T * S) T with
    | none => rfl
    | some G => simp

theorem gather_take {n h h0 m steps : Nat} (h1 : h0 ≤ h) (h2 : h0 * m ≤ steps)
    (P P' : Matrix (Fin n) (Fin h) Rat) (hP : ∀ (r : Fin n) (c : Fin h), (c : Nat) < h0 → P r c = P' r c) :
    (gather m steps P).take (h0 * m) = (gather m steps P').take (h0 * m) := by
  have key : ∀ Q : Matrix (Fin n) (Fin h) Rat, (gather m steps Q).take (h0 * m)
      = (List.range h0).flatMap fun c => (List.range m).map fun i =>
        if hp : n - m + i < n ∧ c < h then some (Q ⟨n - m + i, hp.1⟩ ⟨c, hp.2⟩) else none := by
    intro Q
    unfold gather
    rw [List.take_take, Nat.min_eq_left h2]
    obtain ⟨d, rfl⟩ := Nat.exists_eq_add_of_le h1
    rw [List.range_add, List.flatMap_append, List.take_append_of_le_length]
    · apply List.take_of_length_le
      rw [List.length_flatMap]
      simp
    · rw [List.length_flatMap]
      simp
  rw [key, key]
  apply List.flatMap_congr
  intro c hc
  apply List.map_congr_left
  intro i _
  rw [List.mem_range] at hc
  split_ifs with hp
  · rw [hP _ _ hc]
  · rfl

/-- The projection of a block of base forecasts with weights `W`. -/
def projRun (L : LinSolve) (n m h steps : Nat) (S Y : List (List Rat)) : Option WMat → Except Err (List Val)
  | none => .ok (List.replicate steps none)
  | some W =>
    match project L n m h (matOf n m S) W (matOf n h Y) with
    | none => .error .otherError
    | some P => .ok (gather m steps P)

theorem projected_run (L : LinSolve) (sqrt : Rat → Rat) (t : THM) (steps : Nat) (meth : Recon)
    (os : List (Nat × List Rat)) : projected L sqrt t steps meth os
      = if t.periods steps = 0 then .error .valueError else
        (t.getW sqrt meth).bind (projRun L t.rowIdx.length t.m (t.periods steps) steps t.getS (t.stackY steps os)) := by
  unfold projected
  split_ifs with h0
  · rfl
  · cases t.getW sqrt meth with
    | error e => rfl
    | ok W =>
      cases W with
      | none => rfl
      | some W =>
        unfold projRun
        simp only [bind, Except.bind]
        cases project L t.rowIdx.length t.m (t.periods steps) (matOf t.rowIdx.length t.m t.getS) W
          (matOf t.rowIdx.length (t.periods steps) (t.stackY steps os)) <;> rfl

theorem getW_congr {t t' : THM} (sqrt : Rat → Rat) (meth : Recon) (hl : t'.levels = t.levels)
    (hm : t'.m = t.m) (hr : t'.resid = t.resid) : t'.getW sqrt meth = t.getW sqrt meth := by
  obtain ⟨l1, m1, s1, r1⟩ := t
  obtain ⟨l2, m2, s2, r2⟩ := t'
  dsimp only at hl hm hr
  subst hl hm hr
  cases meth <;> rfl

/-- C48 (padding), the part that holds: the forecasts of complete periods (the first
`steps / m * m` steps) only depend on as many base forecasts as those periods need; models that agree on
these agree on the returned forecasts, whatever else their forecasts contain or are padded with. -/
theorem C48_padding_partial (L : LinSolve) (sqrt : Rat → Rat) (t : THM) (hw : WF t) (src' : Nat → Src)
    (steps : Nat) (meth : Recon) (lv : Option (List Nat))
    (ha : ∀ k ∈ t.levels, SrcAgree (steps / t.m * (t.m / k)) (t.src k) (src' k)) (p p' : Pred)
    (h : t.predict_ L sqrt steps meth lv = .ok p)
    (h' : ({ t with src := src' } : THM).predict_ L sqrt steps meth lv = .ok p')
    (k : Nat) (l l' : List Val) (hl : (k, l) ∈ p.fcst) (hl' : (k, l') ∈ p'.fcst)
    (j : Nat) (hj : (j + 1) * k ≤ steps / t.m * t.m) : l[j]? = l'[j]? := by
  set t' : THM := { t with src := src' } with ht'
  have hw' : WF t' := ⟨hw.last, hw.nodup, hw.pos, hw.dvd, hw.mpos⟩
  obtain ⟨os, Y, ho, hy, hyl, hk1, hf, -⟩ := predict_inv hw h
  obtain ⟨os', Y', ho', hy', hyl', -, hf', -⟩ := predict_inv hw' h'
  set N := steps / t.m with hN
  have hNs : N * t.m ≤ steps := Nat.div_mul_le_self _ _
  have hNp : N ≤ t.periods steps := (periods_le hw steps).2.1
  have one_mem : 1 ∈ t.levels := by
    obtain ⟨ls, e, -⟩ := hw.last
    rw [e]; simp
  have hos : ∀ k ∈ t.levels, (at_ os k).take (N * t.freq k) = (at_ os' k).take (N * t.freq k) := by
    intro k hk
    exact originOne_agree (t := t) (t' := t') rfl (by rw [Nat.mul_comm]; exact Nat.mul_le_mul_left _ hNp)
      (ha k hk) ((origins_at hw ho).1 k hk) ((origins_at hw' ho').1 k hk)
  have hproj : ∀ meth, projected L sqrt t steps meth os = .ok Y →
      projected L sqrt t' steps meth os' = .ok Y' → Y.take (N * t.m) = Y'.take (N * t.m) := by
    intro meth g g'
    rw [projected_run] at g g'
    have hW' : t'.getW sqrt meth = t.getW sqrt meth := getW_congr sqrt meth rfl rfl rfl
    rw [hW'] at g'
    change (if t.periods steps = 0 then Except.error Err.valueError else
      (t.getW sqrt meth).bind (projRun L t.rowIdx.length t.m (t.periods steps) steps t.getS (t'.stackY steps os'))) = Except.ok Y' at g'
    split_ifs at g with h0
    rw [if_neg h0] at g'
    cases hW : t.getW sqrt meth with
    | error e => rw [hW] at g; cases g
    | ok W =>
      rw [hW] at g g'
      simp only [Except.bind] at g g'
      cases W with
      | none =>
        obtain rfl := Except.ok.inj g
        obtain rfl := Except.ok.inj g'
        rfl
      | some W =>
        unfold projRun at g g'
        dsimp only at g g'
        rw [project_map] at g g'
        cases hQ : project L t.rowIdx.length t.m t.rowIdx.length (matOf t.rowIdx.length t.m t.getS) W 1 with
        | none => rw [hQ] at g; cases g
        | some Q =>
          rw [hQ] at g g'
          obtain rfl := Except.ok.inj g
          obtain rfl := Except.ok.inj g'
          apply gather_take hNp hNs
          intro r c hc
          dsimp only
          rw [Matrix.mul_apply, Matrix.mul_apply]
          apply Finset.sum_congr rfl
          intro s _
          congr 1
          have e1 := stackY_apply (t := t) steps os s c
          have e2 := stackY_apply (t := t') steps os' s c
          refine e1.trans (Eq.trans ?_ e2.symm)
          have hms : (t.rowIdx[s]).1 ∈ t.levels ∧ (t.rowIdx[s]).2 < t.freq (t.rowIdx[s]).1 :=
            mem_rowIdx.1 (List.getElem_mem s.2)
          apply take_getD (hos _ hms.1)
          calc (c : Nat) * t.freq (t.rowIdx[s]).1 + (t.rowIdx[s]).2
              < c * t.freq (t.rowIdx[s]).1 + t.freq (t.rowIdx[s]).1 := by omega
            _ = (c + 1) * t.freq (t.rowIdx[s]).1 := by ring
            _ ≤ _ := Nat.mul_le_mul_right _ hc
  have hY : Y.take (N * t.m) = Y'.take (N * t.m) := by
    cases meth with
    | bu =>
      obtain rfl := Except.ok.inj hy
      obtain rfl := Except.ok.inj hy'
      have := hos 1 one_mem
      unfold freq at this
      rw [Nat.div_one] at this
      rw [← List.map_take, ← List.map_take, this]
    | median =>
      obtain rfl := Except.ok.inj hy
      obtain rfl := Except.ok.inj hy'
      rw [← List.map_take, ← List.map_take]
      congr 1
      unfold medianY
      dsimp only
      rw [← List.map_take, ← List.map_take]
      change ((List.range (t.m * t.periods steps)).take (N * t.m)).map _
        = ((List.range (t.m * t.periods steps)).take (N * t.m)).map _
      apply List.map_congr_left
      intro j hj
      rw [List.take_range, List.mem_range] at hj
      congr 1
      rw [List.map_map, List.map_map]
      apply List.map_congr_left
      intro k hk
      have hk0 := hw.pos k hk
      simp only [Function.comp_apply]
      rw [repeatEach_getD k hk0, repeatEach_getD k hk0]
      have hjk : j / k < N * t.freq k := by
        rw [Nat.div_lt_iff_lt_mul hk0, Nat.mul_assoc, hw.freq_mul hk]
        omega
      have hd : ∀ (l : List Rat) (i : Nat), (l.map (· / (k : Rat))).getD i 0 = l.getD i 0 / k := by
        intro l i
        rw [List.getD_eq_getElem?_getD, List.getD_eq_getElem?_getD, List.getElem?_map]
        cases l[i]? <;> simp
      rw [hd, hd, take_getD (hos k hk) hjk]
    | other => cases hy
    | struc => exact hproj _ hy hy'
    | svar => exact hproj _ hy hy'
    | hvar => exact hproj _ hy hy'
    | mintShrink => exact hproj _ hy hy'
    | mintSample => exact hproj _ hy hy'
  rw [hf] at hl
  rw [hf'] at hl'
  obtain ⟨k1, hk, e⟩ := List.mem_map.1 hl
  obtain ⟨rfl, rfl⟩ := Prod.mk.inj e
  obtain ⟨k2, -, e⟩ := List.mem_map.1 hl'
  obtain ⟨rfl, rfl⟩ := Prod.mk.inj e
  have hk0 := hk1 k2 hk
  have hjs : j < steps / k2 := by
    rw [Nat.lt_iff_add_one_le, Nat.le_div_iff_mul_le hk0]
    omega
  rw [List.getElem?_map, List.getElem?_map, List.getElem?_range hjs, Option.map_some, Option.map_some]
  congr 1
  unfold levelSum
  congr 1
  apply List.map_congr_left
  intro i hi
  rw [List.mem_range] at hi
  have hlt : j * k2 + i < N * t.m := by
    have : (j + 1) * k2 = j * k2 + k2 := by ring
    omega
  have := congrArg (fun x => x[j * k2 + i]?) hY
  simp only [List.getElem?_take_of_lt hlt] at this
  rw [List.getD_eq_getElem?_getD, List.getD_eq_getElem?_getD, List.getElem?_take_of_lt (by omega),
    List.getElem?_take_of_lt (by omega), this]

/-- Levels 2 and 1 with given forecasts. -/
def two (a b : List Rat) : THM where
  levels := [2, 1]
  m := 2
  src := fun k => if k = 2 then .given a else .given b
  resid := fun _ => []

theorem two_wf (a b : List Rat) : WF (two a b) :=
  ⟨⟨[2], rfl, by decide⟩, by simp [two], by simp [two], by simp [two], by simp [two]⟩

example : SrcAgree (3 / 2 * (2 / 2)) ((two [2] [1, 1, 1]).src 2) ((two [2, 6] [1, 1, 1]).src 2) :=
  Or.inr ⟨[2], [2, 6], rfl, rfl, by decide, by decide, rfl⟩

def S21 : Matrix (Fin 3) (Fin 2) Rat := !![1, 1; 1, 0; 0, 1]

def G21 : Matrix (Fin 2) (Fin 3) Rat := !![1/4, 3/4, -1/4; 1/4, -1/4, 3/4]

theorem project21 (L : LinSolve) (h : Nat) (Y : Matrix (Fin 3) (Fin h) Rat) :
    project L 3 2 h S21 (.diag [2, 1, 1]) Y = some (S21 * G21 * Y) := by
  have hpd : PD ((WMat.diag [2, 1, 1]).toMatrix 3) :=
    (diag_good (n := 3) rfl (by intro x hx; simp at hx; rcases hx with rfl | rfl <;> norm_num)).2
  have hinj : ∀ v, S21 *ᵥ v = 0 → v = 0 := by
    intro v hv
    have h1 := congrFun hv 1
    have h2 := congrFun hv 2
    simp [S21, Matrix.mulVec, dotProduct, Fin.sum_univ_succ] at h1 h2
    ext i
    fin_cases i
    · exact h1
    · exact h2
  obtain ⟨T, G, h1, h2, h3, h4⟩ := project_ok L S21 (.diag [2, 1, 1]) hpd hinj Y
  rw [h4]
  have hG : G = G21 := by
    have e1 := fun r j => congrFun (congrFun h1 r) j
    have e2 := fun i j => congrFun (congrFun h2 i) j
    have a00 := e1 0 0
    have a01 := e1 0 1
    have a10 := e1 1 0
    have a11 := e1 1 1
    have a20 := e1 2 0
    have a21 := e1 2 1
    have b00 := e2 0 0
    have b01 := e2 0 1
    have b02 := e2 0 2
    have b10 := e2 1 0
    have b11 := e2 1 1
    have b12 := e2 1 2
    simp [WMat.toMatrix, S21, Matrix.diagonal_mul, Matrix.mul_apply, Fin.sum_univ_succ] at a00 a01 a10 a11 a20 a21 b00 b01 b02 b10 b11 b12
    have t00 : T 0 0 = 1 / 2 := by linarith
    have t10 : T 1 0 = 1 / 2 := by linarith
    rw [t00] at b00 b01 b02
    rw [t10] at b10 b11 b12
    rw [a10] at b00 b01 b02
    rw [a20] at b00 b01 b02
    rw [a11] at b10 b11 b12
    rw [a21] at b10 b11 b12
    ext i j
    fin_cases i <;> fin_cases j <;> simp [G21] <;> linarith
  rw [hG]

/-- C48 (violated): (1) a bottom-up forecast of 3 steps from 2 level-1 forecasts returns the padded
value as the third forecast; (2) with enough level-1 forecasts, the third reconciled forecast depends
on the value with which level 2 is padded: padding with 2 gives 1, a real forecast 6 gives 2. -/
theorem C48_padding_violated (L : LinSolve) (sqrt : Rat → Rat) :
    (∃ p, (two [12] [5, 7]).predict_ L sqrt 3 .bu none = .ok p
      ∧ p.fcst = [(2, [some 12]), (1, [some 5, some 7, some 7])])
    ∧ (∃ p, (two [2] [1, 1, 1]).predict_ L sqrt 3 .struc none = .ok p
      ∧ p.fcst = [(2, [some 2]), (1, [some 1, some 1, some 1])])
    ∧ (∃ p, (two [2, 6] [1, 1, 1]).predict_ L sqrt 3 .struc none = .ok p
      ∧ p.fcst = [(2, [some 2]), (1, [some 1, some 1, some 2])]) := by
  refine ⟨⟨_, rfl, by decide +kernel⟩, ?_⟩
  have gen : ∀ (x : Rat) (a : List Rat) (os : List (Nat × List Rat)),
      (two a [1, 1, 1]).origins 3 .struc = .ok os → os = [(2, [2, x]), (1, [1, 1, 1, 1])] →
      ∃ p, (two a [1, 1, 1]).predict_ L sqrt 3 .struc none = .ok p
        ∧ p.fcst = [(2, [some 2]), (1, [some 1, some 1, some (x / 4 + 1 / 2)])] := by
    intro x a os ho e
    have hl : (two a [1, 1, 1]).level1 L sqrt 3 .struc os
        = .ok (gather 2 3 (S21 * G21 * (!![2, x; 1, 1; 1, 1] : Matrix (Fin 3) (Fin 2) Rat))) := by
      change projected L sqrt _ 3 .struc os = _
      rw [projected_run, if_neg (by change ¬ ((3 + 2 - 1) / 2 = 0); decide)]
      have hW : (two a [1, 1, 1]).getW sqrt .struc
          = .ok (some (.diag [((2 : Nat) : Rat), ((1 : Nat) : Rat), ((1 : Nat) : Rat)])) := by
        simp [getW, two, rowIdx, freq, List.range_succ]
      have e1 : (two a [1, 1, 1]).rowIdx.length = 3 := by simp [two, rowIdx, freq]
      have e2 : (two a [1, 1, 1]).periods 3 = 2 := by simp [two, periods]
      rw [hW, e1, e2]
      change projRun L 3 2 2 3 (two a [1, 1, 1]).getS ((two a [1, 1, 1]).stackY 3 os)
        (some (.diag [((2 : Nat) : Rat), ((1 : Nat) : Rat), ((1 : Nat) : Rat)])) = _
      unfold projRun
      dsimp only
      have gS : (two a [1, 1, 1]).getS = [[1, 1], [1, 0], [0, 1]] := by
        simp [two, getS, sRow, rowIdx, freq, List.range_succ]
      have gY : (two a [1, 1, 1]).stackY 3 os = [[2, x], [1, 1], [1, 1]] := by
        subst e
        simp [two, stackY, rowIdx, freq, periods, at_, List.range_succ]
        exact ⟨⟨rfl, rfl⟩, rfl, rfl⟩
      have hS : matOf 3 2 (two a [1, 1, 1]).getS = S21 := by
        rw [gS]
        ext i j
        fin_cases i <;> fin_cases j <;> rfl
      have hY : matOf 3 2 ((two a [1, 1, 1]).stackY 3 os) = !![2, x; 1, 1; 1, 1] := by
        rw [gY]
        ext i j
        fin_cases i <;> fin_cases j <;> rfl
      have hd : WMat.diag [((2 : Nat) : Rat), ((1 : Nat) : Rat), ((1 : Nat) : Rat)] = .diag [2, 1, 1] := by
        norm_num
      rw [hS, hY, hd, project21]
    obtain ⟨p, h1, h2⟩ := predict_of_level1 (two_wf a [1, 1, 1]) ho hl
      (fun i => if i = 2 then x / 4 + 1 / 2 else 1) (by
        unfold gather
        simp [List.range_succ, S21, G21, Matrix.mul_apply, Fin.sum_univ_succ]
        norm_num
        ring)
    refine ⟨p, h1, ?_⟩
    rw [h2]
    simp [two, List.range_succ]
    norm_num
  refine ⟨?_, ?_⟩
  · obtain ⟨p, h1, h2⟩ := gen 2 [2] _ rfl (by decide +kernel)
    exact ⟨p, h1, by rw [h2]; norm_num⟩
  · obtain ⟨p, h1, h2⟩ := gen 6 [2, 6] _ rfl (by decide +kernel)
    exact ⟨p, h1, by rw [h2]; norm_num⟩

/-! ## C82: the closest coherent forecasts -/

/-- C82 (weights): every weight matrix free of NaN is symmetric and positive definite, for all methods
and all residuals, so the weighted distance below is a distance. -/
theorem C82_weights (sqrt : Rat → Rat) (t : THM) (hw : WF t) (meth : Recon) (W : WMat)
    (h : t.getW sqrt meth = .ok (some W)) :
    (∀ i j, W.toMatrix t.rowIdx.length i j = W.toMatrix t.rowIdx.length j i)
    ∧ ∀ v : Fin t.rowIdx.length → Rat, v ≠ 0 → 0 < ∑ i, ∑ j, v i * W.toMatrix t.rowIdx.length i j * v j := by
  obtain ⟨h1, h2⟩ := getW_good hw sqrt meth W h
  refine ⟨fun i j => h1.apply j i, fun v hv => ?_⟩
  have := h2 v hv
  rw [dotProduct] at this
  refine lt_of_lt_of_eq this (Finset.sum_congr rfl fun i _ => ?_)
  rw [Matrix.mulVec, dotProduct, Finset.mul_sum]
  exact Finset.sum_congr rfl fun j _ => by ring

/-- The squared length of `z` with respect to the inverse of `A`. -/
noncomputable def len2 {n : Nat} (A : Matrix (Fin n) (Fin n) Rat) (z : Fin n → Rat) : Rat := z ⬝ᵥ (A⁻¹ *ᵥ z)

theorem closest {n m : Nat} {A : Matrix (Fin n) (Fin n) Rat} (hs : A.IsSymm) (hpd : PD A)
    {S : Matrix (Fin n) (Fin m) Rat} {T G : Matrix (Fin m) (Fin n) Rat} (h1 : A * Tᵀ = S)
    (h2 : (T * S) * G = T) (y : Fin n → Rat) (b : Fin m → Rat) :
    len2 A (y - S *ᵥ (G *ᵥ y)) ≤ len2 A (y - S *ᵥ b) := by
  have hu : IsUnit A.det := isUnit_iff_ne_zero.2 hpd.det_ne
  have hT : Tᵀ = A⁻¹ * S := by rw [← h1, Matrix.nonsing_inv_mul_cancel_left _ _ hu]
  have hAi : (A⁻¹)ᵀ = A⁻¹ := by rw [Matrix.transpose_nonsing_inv, hs.eq]
  have hT' : T = Sᵀ * A⁻¹ := by
    rw [← Matrix.transpose_transpose T, hT, Matrix.transpose_mul, hAi]
  set z := y - S *ᵥ (G *ᵥ y) with hz
  set v := G *ᵥ y - b with hv
  have e : y - S *ᵥ b = z + S *ᵥ v := by
    rw [hz, hv, Matrix.mulVec_sub]; abel
  have hTz : T *ᵥ z = 0 := by
    rw [hz, Matrix.mulVec_sub, Matrix.mulVec_mulVec, Matrix.mulVec_mulVec, h2, sub_self]
  have c1 : (S *ᵥ v) ⬝ᵥ (A⁻¹ *ᵥ z) = 0 := by
    rw [dotProduct_comm, Matrix.dotProduct_mulVec, ← Matrix.mulVec_transpose, Matrix.mulVec_mulVec,
      ← hT', hTz, zero_dotProduct]
  have c2 : z ⬝ᵥ (A⁻¹ *ᵥ (S *ᵥ v)) = 0 := by
    rw [Matrix.dotProduct_mulVec, ← Matrix.mulVec_transpose, hAi, dotProduct_comm, c1]
  have c3 : 0 ≤ (S *ᵥ v) ⬝ᵥ (A⁻¹ *ᵥ (S *ᵥ v)) := by
    have := hpd.nonneg (A⁻¹ *ᵥ (S *ᵥ v))
    rw [Matrix.mulVec_mulVec _ A, Matrix.mul_nonsing_inv _ hu, Matrix.one_mulVec, dotProduct_comm] at this
    exact this
  rw [e]
  unfold len2
  rw [Matrix.mulVec_add, dotProduct_add, add_dotProduct, add_dotProduct, c1, c2]
  linarith

/-- C82 (closest, partial: only if the weights contain no NaN): reconciling any matrix `Y` of base
forecasts succeeds, the result is coherent, and in every column no coherent forecasts are closer to the
base forecasts in the distance given by the weights. -/
theorem C82_closest_partial (L : LinSolve) (sqrt : Rat → Rat) (t : THM) (hw : WF t) (meth : Recon) (W : WMat)
    (hW : t.getW sqrt meth = .ok (some W)) (h : Nat) (Y : Matrix (Fin t.rowIdx.length) (Fin h) Rat) :
    ∃ (P : Matrix (Fin t.rowIdx.length) (Fin h) Rat) (B : Matrix (Fin t.m) (Fin h) Rat),
      project L t.rowIdx.length t.m h (matOf t.rowIdx.length t.m t.getS) W Y = some P
      ∧ P = matOf t.rowIdx.length t.m t.getS * B
      ∧ ∀ (c : Fin h) (b : Fin t.m → Rat),
        len2 (W.toMatrix t.rowIdx.length) ((fun r => Y r c) - fun r => P r c)
          ≤ len2 (W.toMatrix t.rowIdx.length) ((fun r => Y r c) - matOf t.rowIdx.length t.m t.getS *ᵥ b) := by
  obtain ⟨g1, g2⟩ := getW_good hw sqrt meth W hW
  obtain ⟨T, G, h1, h2, -, h4⟩ := project_ok L (matOf t.rowIdx.length t.m t.getS) W g2 (matS_inj hw) Y
  refine ⟨_, G * Y, h4, Matrix.mul_assoc _ _ _, ?_⟩
  intro c b
  have := closest g1 g2 h1 h2 (fun r => Y r c) b
  convert this using 3
  rw [Matrix.mulVec_mulVec]
  rfl

/-- The squared error of the level-1 values `x` in period `c`: over all levels `k` and all positions in
the period, the difference between the base forecast and the block sum of `x`, divided by `k`. -/
def strucCost (t : THM) (o : Nat → Nat → Rat) (c : Nat) (x : Nat → Rat) : Rat :=
  (t.levels.flatMap fun k => (List.range (t.m / k)).map fun i =>
    (o k (c * (t.m / k) + i) - ((List.range k).map fun a => x (c * t.m + i * k + a)).sum) ^ 2 / k).sum

theorem len2_diag {n : Nat} {w : List Rat} (hpd : PD ((WMat.diag w).toMatrix n)) (z : Fin n → Rat) :
    len2 ((WMat.diag w).toMatrix n) z = ∑ r : Fin n, z r ^ 2 / w.getD r 0 := by
  have hu : IsUnit ((WMat.diag w).toMatrix n).det := isUnit_iff_ne_zero.2 hpd.det_ne
  have : ((WMat.diag w).toMatrix n)⁻¹ = Matrix.diagonal fun r : Fin n => (w.getD r 0)⁻¹ := by
    apply Matrix.inv_eq_right_inv
    rw [WMat.toMatrix, Matrix.diagonal_mul_diagonal, ← Matrix.diagonal_one]
    congr 1
    funext r
    exact mul_inv_cancel₀ (hpd.diag_pos r).ne'
  unfold len2
  rw [this, dotProduct]
  apply Finset.sum_congr rfl
  intro r _
  rw [Matrix.mulVec_diagonal]
  ring

theorem struc_weights (t : THM) (r : Fin t.rowIdx.length) :
    (t.levels.flatMap fun k => List.replicate (t.freq k) (k : Rat)).getD r 0 = ((t.rowIdx[r]).1 : Rat) := by
  have : (t.levels.flatMap fun k => List.replicate (t.freq k) (k : Rat)) = t.rowIdx.map fun p => (p.1 : Rat) := by
    unfold rowIdx
    rw [List.map_flatMap]
    apply List.flatMap_congr
    intro k _
    rw [List.map_map]
    simp [Function.comp_def, List.map_const']
  rw [this, List.getD_eq_getElem?_getD, List.getElem?_map, List.getElem?_eq_getElem r.2]
  rfl

/-- C82 (structural scaling): over whole periods the returned level-1 forecasts minimise, period by
period, the squared errors to the returned base forecasts weighted with `1 / k`. -/
theorem C82_struc (L : LinSolve) (sqrt : Rat → Rat) (t : THM) (hw : WF t) (steps : Nat) (hs : 0 < steps)
    (hd : t.m ∣ steps) (p : Pred) (hp : t.predict_ L sqrt steps .struc none = .ok p) :
    ∃ y : Nat → Rat, (1, (List.range steps).map fun i => some (y i)) ∈ p.fcst
      ∧ ∀ c, c < steps / t.m → ∀ z : Nat → Rat,
        strucCost t (fun k j => (at_ p.origin k).getD j 0) c y
          ≤ strucCost t (fun k j => (at_ p.origin k).getD j 0) c z := by
  obtain ⟨os, Y, ho, hy, -, -, hf, hor⟩ := predict_inv hw hp
  have hW : t.getW sqrt .struc
    = .ok (some (.diag (t.levels.flatMap fun k => List.replicate (t.freq k) (k : Rat)))) := rfl
  obtain ⟨T, G, ⟨g1, g2⟩, h1, h2, -, h4⟩ := projected_ok L hw hs os hW
  set S := matOf t.rowIdx.length t.m t.getS with hS
  set Yh := matOf t.rowIdx.length (t.periods steps) (t.stackY steps os) with hYh
  have hper : t.periods steps = steps / t.m := (periods_le hw steps).2.2.1 hd
  have hm := hw.mpos
  let y : Nat → Rat := fun i => if hc : i / t.m < t.periods steps then
    (G * Yh) ⟨i % t.m, Nat.mod_lt _ hm⟩ ⟨i / t.m, hc⟩ else 0
  have hyv : ∀ (i : Fin t.m) (c : Fin (t.periods steps)), y (c * t.m + i) = (G * Yh) i c := by
    intro i c
    have e1 : (c * t.m + i) / t.m = c := by
      rw [Nat.add_comm, Nat.add_mul_div_right _ _ hm, Nat.div_eq_of_lt i.2, Nat.zero_add]
    have e2 : (c * t.m + i) % t.m = i := by
      rw [Nat.add_comm, Nat.add_mul_mod_self_right, Nat.mod_eq_of_lt i.2]
    change (if hc : _ then _ else _) = _
    rw [dif_pos (by rw [e1]; exact c.2)]
    have f1 : (⟨(c * t.m + i) % t.m, Nat.mod_lt _ hm⟩ : Fin t.m) = i := Fin.ext e2
    have f2 : ∀ h, (⟨(c * t.m + i) / t.m, h⟩ : Fin (t.periods steps)) = c := fun _ => Fin.ext e1
    rw [f1, f2]
  have hB : G * Yh = Matrix.of fun (i : Fin t.m) (c : Fin (t.periods steps)) => y (c * t.m + i) := by
    ext i c
    rw [Matrix.of_apply, hyv]
  have one_mem : 1 ∈ t.levels := by
    obtain ⟨ls, e, -⟩ := hw.last
    rw [e]; simp
  have hYl : Y = (List.range steps).map fun i => some (y i) := by
    change projected L sqrt t steps .struc os = .ok Y at hy
    rw [h4] at hy
    rw [← Except.ok.inj hy, Matrix.mul_assoc, hB, gather_coherent hw]
  refine ⟨y, ?_, ?_⟩
  · rw [hf]
    refine List.mem_map.2 ⟨1, one_mem, ?_⟩
    rw [Nat.div_one, hYl]
    congr 1
    apply List.map_congr_left
    intro i hi
    rw [levelSum_one, ← List.map_take, List.take_range, Nat.min_self, List.getD_eq_getElem?_getD,
      List.getElem?_map, List.getElem?_range (List.mem_range.1 hi)]
    rfl
  · intro c hc z
    rw [← hper] at hc
    have key := closest g1 g2 h1 h2 (fun r => Yh r ⟨c, hc⟩) (fun j : Fin t.m => z (c * t.m + j))
    rw [len2_diag g2, len2_diag g2] at key
    have hatk : ∀ k ∈ t.levels, at_ p.origin k = (at_ os k).take (steps / k) := by
      intro k _
      rw [hor]
      unfold at_
      have : ∀ os : List (Nat × List Rat), (os.map fun o => (o.1, o.2.take (steps / o.1))).lookup k
          = (os.lookup k).map fun l => l.take (steps / k) := by
        intro os
        induction os with
        | nil => rfl
        | cons o os ih =>
          rw [List.map_cons, List.lookup_cons, List.lookup_cons, ih]
          by_cases hk : k = o.1
          · subst hk; simp
          · rw [beq_eq_false_iff_ne.2 hk]
      rw [this]
      cases os.lookup k <;> simp
    have cost : ∀ (x : Nat → Rat),
        strucCost t (fun k j => (at_ p.origin k).getD j 0) c x
          = ∑ r : Fin t.rowIdx.length, (((fun r => Yh r ⟨c, hc⟩) - S *ᵥ fun j : Fin t.m => x (c * t.m + j)) r) ^ 2
              / (t.levels.flatMap fun k => List.replicate (t.freq k) (k : Rat)).getD r 0 := by
      intro x
      have e : strucCost t (fun k j => (at_ p.origin k).getD j 0) c x
          = (t.rowIdx.map fun r => ((at_ p.origin r.1).getD (c * t.freq r.1 + r.2) 0
              - ((List.range r.1).map fun a => x (c * t.m + r.2 * r.1 + a)).sum) ^ 2 / (r.1 : Rat)).sum := by
        unfold strucCost rowIdx
        rw [List.map_flatMap]
        simp only [List.map_map]
        rfl
      rw [e, ← Fin.sum_univ_fun_getElem]
      apply Finset.sum_congr rfl
      intro r _
      rw [struc_weights t r, Pi.sub_apply, matS_mulVec hw (fun j => x (c * t.m + j)) r, hYh, stackY_apply]
      have hms : (t.rowIdx[r]).1 ∈ t.levels ∧ (t.rowIdx[r]).2 < t.freq (t.rowIdx[r]).1 :=
        mem_rowIdx.1 (List.getElem_mem r.2)
      have hk0 := hw.pos _ hms.1
      have hlt : c * t.freq (t.rowIdx[r]).1 + (t.rowIdx[r]).2 < steps / (t.rowIdx[r]).1 := by
        have hk := hw.freq_mul hms.1
        have hst : steps = t.periods steps * t.m := by rw [hper, Nat.div_mul_cancel hd]
        have : steps / (t.rowIdx[r]).1 = t.periods steps * t.freq (t.rowIdx[r]).1 := by
          conv_lhs => rw [hst, ← hk, ← Nat.mul_assoc]
          exact Nat.mul_div_cancel _ hk0
        rw [this]
        calc _ < c * t.freq (t.rowIdx[r]).1 + t.freq (t.rowIdx[r]).1 := by omega
          _ = (c + 1) * t.freq (t.rowIdx[r]).1 := by ring
          _ ≤ _ := Nat.mul_le_mul_right _ hc
      have hg : (at_ p.origin (t.rowIdx[r]).1).getD (c * t.freq (t.rowIdx[r]).1 + (t.rowIdx[r]).2) 0
          = (at_ os (t.rowIdx[r]).1).getD (c * t.freq (t.rowIdx[r]).1 + (t.rowIdx[r]).2) 0 := by
        rw [hatk _ hms.1, List.getD_eq_getElem?_getD, List.getD_eq_getElem?_getD, List.getElem?_take_of_lt hlt]
      simp only [Nat.add_assoc] at hg ⊢
      exact congrArg (fun q => (q - _) ^ 2 / _) hg
    rw [cost, cost]
    have : (S *ᵥ (G *ᵥ fun r => Yh r ⟨c, hc⟩)) = S *ᵥ fun j : Fin t.m => y (c * t.m + j) := by
      congr 1
      funext j
      rw [hyv j ⟨c, hc⟩]
      rfl
    rw [this] at key
    exact key

example : WF (two [3, 4] [1, 1, 1, 1]) ∧ 2 ∣ 4 := ⟨two_wf _ _, by decide⟩

/-- C82 (violated): with a single complete period of residuals "mint_sample" and "mint_shrink" return
NaN at every level, whatever the forecasts, although reconciled forecasts exist. -/
theorem C82_closest_violated (L : LinSolve) (sqrt : Rat → Rat) :
    let t : THM := { two [3] [1, 1] with resid := fun k => if k = 2 then [some 1] else [some 1, some 2] }
    (∃ p, t.predict_ L sqrt 2 .mintSample none = .ok p ∧ p.fcst = [(2, [none]), (1, [none, none])])
    ∧ (∃ p, t.predict_ L sqrt 2 .mintShrink none = .ok p ∧ p.fcst = [(2, [none]), (1, [none, none])]) := by
  refine ⟨⟨_, rfl, by decide +kernel⟩, ⟨_, rfl, by decide +kernel⟩⟩

end THM
end Kats
