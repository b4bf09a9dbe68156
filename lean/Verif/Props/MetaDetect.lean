import Verif.Model.MetaDetect
import Verif.Props.MetaPredict
import Verif.Props.MetaTrain

/-!
# C150: the meta data of detectors
-/

namespace Kats

section
variable {K : Type} [Field K] [LinearOrder K]

theorem me_mapM_iff {α β : Type} (f : α → Except Err β) (l : List α) (r : List β) : l.mapM f = .ok r ↔ List.Forall₂ (fun a b => f a = .ok b) l r := by
  refine ⟨mapM_forall2 f l r, ?_⟩
  intro h
  induction h with
  | nil => rfl
  | @cons a b l1 l2 hab h ih =>
    rw [List.mapM_cons, hab, ih]
    rfl

theorem me_mapM_exists {α β : Type} (f : α → Except Err β) (l : List α) (h : ∀ a ∈ l, ∃ b, f a = .ok b) : ∃ r, l.mapM f = .ok r := by
  induction l with
  | nil => exact ⟨[], rfl⟩
  | cons a l ih =>
    obtain ⟨r, hr⟩ := ih fun x hx => h x (List.mem_cons_of_mem _ hx)
    obtain ⟨b, hb⟩ := h a List.mem_cons_self
    refine ⟨b :: r, ?_⟩
    rw [List.mapM_cons, hb, hr]
    rfl

theorem me_comp {α β γ : Type} (P : α → β → Prop) (Q : β → γ → Prop) (l : List α) (r : List γ) :
    (∃ m, List.Forall₂ P l m ∧ List.Forall₂ Q m r) ↔ List.Forall₂ (fun a c => ∃ b, P a b ∧ Q b c) l r := by
  constructor
  · rintro ⟨m, h1, h2⟩
    induction h1 generalizing r with
    | nil =>
      cases h2
      exact .nil
    | @cons a b l m hab h ih =>
      rcases h2 with _ | ⟨hbc, h2⟩
      exact .cons ⟨b, hab, hbc⟩ (ih _ h2)
  · intro h
    induction h with
    | nil => exact ⟨[], .nil, .nil⟩
    | @cons a c l r hac h ih =>
      obtain ⟨b, h1, h2⟩ := hac
      obtain ⟨m, g1, g2⟩ := ih
      exact ⟨b :: m, .cons h1 g1, .cons h2 g2⟩

/-- What is read of a cell. -/
def MeReads {α : Type} (c : MeCell α) (d : α) : Prop := c = .dict d ∨ c = .text (some d)

/-- What a feature is as a number. -/
def MeFloat (v : MeVal K) (x : Option K) : Prop := v = .num x ∨ v = .text (.ok x)

/-- A parameter and what becomes of it: seconds are made days for those to scale. -/
def MeDown (down : List String) (p q : String × MeParam K) : Prop :=
  q.1 = p.1 ∧ (p.1 ∈ down → ∃ v, p.2 = .inl v ∧ q.2 = .inl (v / 86400)) ∧ (p.1 ∉ down → q.2 = p.2)

/-- The results of the searches and what becomes of them. -/
def MeDownAll (down : List String) (h h' : MeHpt K) : Prop :=
  List.Forall₂ (fun a b => b.1 = a.1 ∧ b.2.2 = a.2.2 ∧ List.Forall₂ (MeDown down) a.2.1 b.2.1) h h'

theorem me_scale (down : List String) (p q : String × MeParam K) : meScale down p = .ok q ↔ MeDown down p q := by
  unfold meScale MeDown
  obtain ⟨k, v⟩ := p
  obtain ⟨k', v'⟩ := q
  by_cases hk : k ∈ down
  · rw [if_pos hk]
    rcases v with v | v
    · simp only [Except.ok.injEq, Prod.mk.injEq]
      constructor
      · rintro ⟨rfl, rfl⟩
        exact ⟨rfl, fun _ => ⟨v, rfl, rfl⟩, fun h => absurd hk h⟩
      · rintro ⟨rfl, h, _⟩
        obtain ⟨w, e1, e2⟩ := h hk
        injection e1 with e1
        subst e1
        exact ⟨rfl, e2.symm⟩
    · constructor
      · intro h
        cases h
      · rintro ⟨_, h, _⟩
        obtain ⟨w, e1, _⟩ := h hk
        cases e1
  · rw [if_neg hk]
    simp only [Except.ok.injEq, Prod.mk.injEq]
    constructor
    · rintro ⟨rfl, rfl⟩
      exact ⟨rfl, fun h => absurd h hk, fun _ => rfl⟩
    · rintro ⟨rfl, _, h⟩
      exact ⟨rfl, (h hk).symm⟩

theorem me_scale_row (down : List String) (h : Option (MeHpt K)) (h' : MeHpt K) : meScaleRow down h = .ok h' ↔ ∃ d, h = some d ∧ MeDownAll down d h' := by
  unfold meScaleRow
  rcases h with _ | d
  · simp
  · simp only [Option.some.injEq, exists_eq_left']
    rw [me_mapM_iff]
    unfold MeDownAll
    have key : ∀ (a b : String × List (String × MeParam K) × K), (do
        let p ← a.2.1.mapM (meScale down)
        return (a.1, p, a.2.2) : Except Err _) = .ok b ↔ b.1 = a.1 ∧ b.2.2 = a.2.2 ∧ List.Forall₂ (MeDown down) a.2.1 b.2.1 := by
      intro a b
      have hm : ∀ p, a.2.1.mapM (meScale down) = .ok p ↔ List.Forall₂ (MeDown down) a.2.1 p := by
        intro p
        rw [me_mapM_iff]
        simp only [me_scale]
      constructor
      · intro h
        obtain ⟨p, hp, h⟩ := (gm_bind_ok _ _ _).1 h
        injection h with h
        subst h
        exact ⟨rfl, rfl, (hm p).1 hp⟩
      · rintro ⟨h1, h2, h3⟩
        refine (gm_bind_ok _ _ _).2 ⟨b.2.1, (hm _).2 h3, ?_⟩
        show Except.ok _ = Except.ok _
        rw [← h1, ← h2]
    simp only [key]

theorem me_read {α : Type} (c : MeCell α) (d : α) : c.read = .ok (some d) ↔ MeReads c d := by
  unfold MeReads
  rcases c with d' | r | _
  · simp [MeCell.read]
  · simp [MeCell.read]
  · simp [MeCell.read]

theorem me_floats (d : Option (List (String × MeVal K))) (f : List (String × Option K)) :
    meFloats d = .ok f ↔ ∃ l, d = some l ∧ List.Forall₂ (fun a b => b.1 = a.1 ∧ MeFloat a.2 b.2) l f := by
  unfold meFloats
  rcases d with _ | l
  · simp
  · simp only [Option.some.injEq, exists_eq_left']
    rw [me_mapM_iff]
    have key : ∀ (a : String × MeVal K) (b : String × Option K), (do
        let v ← a.2.float
        return (a.1, v) : Except Err _) = .ok b ↔ b.1 = a.1 ∧ MeFloat a.2 b.2 := by
      intro a b
      obtain ⟨k, v⟩ := a
      obtain ⟨k', w⟩ := b
      unfold MeFloat
      rcases v with v | r
      · constructor
        · intro h
          injection h with h
          injection h with e1 e2
          subst e1 e2
          exact ⟨rfl, Or.inl rfl⟩
        · rintro ⟨rfl, h | h⟩
          · injection h with h
            subst h
            rfl
          · cases h
      · constructor
        · intro h
          obtain ⟨x, hx, h⟩ := (gm_bind_ok _ _ _).1 h
          injection h with h
          injection h with e1 e2
          subst e1 e2
          have hx : r = .ok x := hx
          exact ⟨rfl, Or.inr (by rw [hx])⟩
        · rintro ⟨rfl, h | h⟩
          · cases h
          · injection h with h
            subst h
            rfl
    simp only [key]

/-- C150: the preprocessing succeeds exactly if all cells can be read, all features are numbers and all parameters to scale as well; then the table has the features as numbers, the windows in
days, and everything else as it was. -/
theorem C150_pre (down : List String) (rows : List (MeRow K)) (t : List (MeHpt K × List (String × Option K) × String)) :
    mePre down rows = .ok t ↔ List.Forall₂ (fun r e => (∃ h, MeReads r.hpt h ∧ MeDownAll down h e.1) ∧
      (∃ f, MeReads r.features f ∧ List.Forall₂ (fun a b => b.1 = a.1 ∧ MeFloat a.2 b.2) f e.2.1) ∧ e.2.2 = r.best) rows t := by
  have hF : ∀ f, (∃ f0, (rows.mapM fun r => r.features.read) = .ok f0 ∧ f0.mapM meFloats = .ok f) ↔
      List.Forall₂ (fun r e => ∃ d, MeReads r.features d ∧ List.Forall₂ (fun a b => b.1 = a.1 ∧ MeFloat a.2 b.2) d e) rows f := by
    intro f
    simp only [me_mapM_iff]
    rw [me_comp]
    have : ∀ (r : MeRow K) (e : List (String × Option K)), (∃ b, r.features.read = .ok b ∧ meFloats b = .ok e) ↔
        ∃ d, MeReads r.features d ∧ List.Forall₂ (fun a b => b.1 = a.1 ∧ MeFloat a.2 b.2) d e := by
      intro r e
      constructor
      · rintro ⟨b, h1, h2⟩
        obtain ⟨l, rfl, h3⟩ := (me_floats b e).1 h2
        exact ⟨l, (me_read _ _).1 h1, h3⟩
      · rintro ⟨d, h1, h2⟩
        exact ⟨some d, (me_read _ _).2 h1, (me_floats _ _).2 ⟨d, rfl, h2⟩⟩
    simp only [this]
  have hH : ∀ h, (∃ h0, (rows.mapM fun r => r.hpt.read) = .ok h0 ∧ h0.mapM (meScaleRow down) = .ok h) ↔
      List.Forall₂ (fun r e => ∃ d, MeReads r.hpt d ∧ MeDownAll down d e) rows h := by
    intro h
    simp only [me_mapM_iff]
    rw [me_comp]
    have : ∀ (r : MeRow K) (e : MeHpt K), (∃ b, r.hpt.read = .ok b ∧ meScaleRow down b = .ok e) ↔ ∃ d, MeReads r.hpt d ∧ MeDownAll down d e := by
      intro r e
      constructor
      · rintro ⟨b, h1, h2⟩
        obtain ⟨l, rfl, h3⟩ := (me_scale_row down b e).1 h2
        exact ⟨l, (me_read _ _).1 h1, h3⟩
      · rintro ⟨d, h1, h2⟩
        exact ⟨some d, (me_read _ _).2 h1, (me_scale_row _ _ _).2 ⟨d, rfl, h2⟩⟩
    simp only [this]
  have hz : ∀ (t : List (MeHpt K × List (String × Option K) × String)), (t.map (·.1)).zip ((t.map (·.2.1)).zip (t.map (·.2.2))) = t := by
    intro t
    induction t with
    | nil => rfl
    | cons e t ih => simp only [List.map_cons, List.zip_cons_cons, ih]
  unfold mePre
  constructor
  · intro h
    obtain ⟨f0, h1, h⟩ := (gm_bind_ok _ _ _).1 h
    obtain ⟨f, h2, h⟩ := (gm_bind_ok _ _ _).1 h
    obtain ⟨h0, h3, h⟩ := (gm_bind_ok _ _ _).1 h
    obtain ⟨g, h4, h⟩ := (gm_bind_ok _ _ _).1 h
    injection h with h
    have a1 := (hF f).1 ⟨f0, h1, h2⟩
    have a2 := (hH g).1 ⟨h0, h3, h4⟩
    rw [← h]
    clear * - a1 a2
    induction a1 generalizing g with
    | nil =>
      cases a2
      exact .nil
    | @cons r e rows f hre a1 ih =>
      rcases a2 with _ | ⟨hrg, a2⟩
      exact .cons ⟨hrg, hre, rfl⟩ (ih _ a2)
  · intro h
    have a1 : List.Forall₂ (fun (r : MeRow K) e => ∃ d, MeReads r.features d ∧ List.Forall₂ (fun a b => b.1 = a.1 ∧ MeFloat a.2 b.2) d e) rows (t.map (·.2.1)) := by
      rw [List.forall₂_map_right_iff]
      exact h.imp fun _ _ h => h.2.1
    have a2 : List.Forall₂ (fun (r : MeRow K) e => ∃ d, MeReads r.hpt d ∧ MeDownAll down d e) rows (t.map (·.1)) := by
      rw [List.forall₂_map_right_iff]
      exact h.imp fun _ _ h => h.1
    have a3 : rows.map (·.best) = t.map (·.2.2) := by
      clear * - h
      induction h with
      | nil => rfl
      | @cons r e rows t hre h ih => rw [List.map_cons, List.map_cons, ih, hre.2.2]
    obtain ⟨f0, h1, h2⟩ := (hF _).2 a1
    obtain ⟨h0, h3, h4⟩ := (hH _).2 a2
    refine (gm_bind_ok _ _ _).2 ⟨f0, h1, ?_⟩
    refine (gm_bind_ok _ _ _).2 ⟨_, h2, ?_⟩
    refine (gm_bind_ok _ _ _).2 ⟨h0, h3, ?_⟩
    refine (gm_bind_ok _ _ _).2 ⟨_, h4, ?_⟩
    show Except.ok _ = Except.ok _
    rw [a3, hz]

/-- What becomes of results that can be scaled. -/
theorem me_down_exists (down : List String) (h : MeHpt K) (hn : ∀ a ∈ h, ∀ p ∈ a.2.1, p.1 ∈ down → ∃ v, p.2 = .inl v) : ∃ h', MeDownAll down h h' := by
  have hp : ∀ ps : List (String × MeParam K), (∀ p ∈ ps, p.1 ∈ down → ∃ v, p.2 = .inl v) → ∃ qs, List.Forall₂ (MeDown down) ps qs := by
    intro ps
    induction ps with
    | nil => intro _; exact ⟨[], .nil⟩
    | cons p ps ih =>
      intro hps
      obtain ⟨qs, hqs⟩ := ih fun q hq => hps q (List.mem_cons_of_mem _ hq)
      by_cases hk : p.1 ∈ down
      · obtain ⟨v, hv⟩ := hps p List.mem_cons_self hk
        exact ⟨(p.1, .inl (v / 86400)) :: qs, .cons ⟨rfl, fun _ => ⟨v, hv, rfl⟩, fun h => absurd hk h⟩ hqs⟩
      · exact ⟨p :: qs, .cons ⟨rfl, fun h => absurd h hk, fun _ => rfl⟩ hqs⟩
  induction h with
  | nil => exact ⟨[], .nil⟩
  | cons a h ih =>
    obtain ⟨h', hh⟩ := ih fun b hb => hn b (List.mem_cons_of_mem _ hb)
    obtain ⟨qs, hq⟩ := hp a.2.1 (hn a List.mem_cons_self)
    exact ⟨(a.1, qs, a.2.2) :: h', .cons ⟨rfl, rfl, hq⟩ hh⟩

theorem me_down_num (down : List String) (h h' : MeHpt K) (hd : MeDownAll down h h') : ∀ a ∈ h', ∀ p ∈ a.2.1, p.1 ∈ down → ∃ v, p.2 = .inl v := by
  intro a ha p hp hk
  obtain ⟨i, hi, rfl⟩ := List.mem_iff_getElem.1 ha
  obtain ⟨_, _, g⟩ := (List.forall₂_iff_get.1 hd).2 i (by rw [hd.length_eq]; exact hi) hi
  simp only [List.get_eq_getElem] at g
  obtain ⟨j, hj, rfl⟩ := List.mem_iff_getElem.1 hp
  have g2 := (List.forall₂_iff_get.1 g).2 j (by rw [g.length_eq]; exact hj) hj
  simp only [List.get_eq_getElem] at g2
  obtain ⟨v, _, hv⟩ := g2.2.1 (by rw [← g2.1]; exact hk)
  exact ⟨_, hv⟩

theorem me_day [IsStrictOrderedRing K] (v : K) : v / 86400 = v ↔ v = 0 := by
  constructor
  · intro h
    have h1 : v = v * 86400 := by
      rw [div_eq_iff (by norm_num)] at h
      exact h
    have h2 : v * 86399 = 0 := by linear_combination (-1 : K) * h1
    rcases mul_eq_zero.1 h2 with h | h
    · exact h
    · norm_num at h
  · rintro rfl
    simp

/-- Nothing changes exactly if there is nothing to scale but zeros. -/
theorem me_down_same [IsStrictOrderedRing K] (down : List String) (h h' : MeHpt K) (hd : MeDownAll down h h') :
    h' = h ↔ ∀ a ∈ h, ∀ k v, (k, Sum.inl v) ∈ a.2.1 → k ∈ down → v = 0 := by
  have hp : ∀ ps qs : List (String × MeParam K), List.Forall₂ (MeDown down) ps qs → (qs = ps ↔ ∀ k v, (k, Sum.inl v) ∈ ps → k ∈ down → v = 0) := by
    intro ps qs hf
    induction hf with
    | nil => simp
    | @cons p q ps qs hpq hf ih =>
      rw [List.cons_eq_cons, ih]
      obtain ⟨g1, g2, g3⟩ := hpq
      constructor
      · rintro ⟨rfl, hh⟩ k v hm hk
        rcases List.mem_cons.1 hm with hm | hm
        · subst hm
          obtain ⟨w, e1, e2⟩ := g2 hk
          injection e1 with e1
          injection e2 with e2
          rw [← e1] at e2
          exact (me_day v).1 e2.symm
        · exact hh k v hm hk
      · intro hh
        refine ⟨?_, fun k v hm hk => hh k v (List.mem_cons_of_mem _ hm) hk⟩
        obtain ⟨k, x⟩ := p
        obtain ⟨k', y⟩ := q
        simp only at g1 g2 g3
        subst g1
        by_cases hk : k' ∈ down
        · obtain ⟨w, e1, e2⟩ := g2 hk
          subst e1 e2
          have := hh k' w List.mem_cons_self hk
          rw [this]
          simp
        · rw [g3 hk]
  unfold MeDownAll at hd
  induction hd with
  | nil => simp
  | @cons a b h h' hab hd ih =>
    have ih' : (h' = h ↔ ∀ a ∈ h, ∀ k v, (k, Sum.inl v) ∈ a.2.1 → k ∈ down → v = 0) := ih
    rw [List.cons_eq_cons, ih']
    obtain ⟨g1, g2, g3⟩ := hab
    constructor
    · rintro ⟨rfl, hh⟩ c hc
      rcases List.mem_cons.1 hc with rfl | hc
      · exact (hp _ _ g3).1 rfl
      · exact hh c hc
    · intro hh
      refine ⟨?_, fun c hc => hh c (List.mem_cons_of_mem _ hc)⟩
      have := (hp _ _ g3).2 (hh a List.mem_cons_self)
      obtain ⟨n, p, e⟩ := a
      obtain ⟨n', p', e'⟩ := b
      simp only at g1 g2 this
      rw [g1, g2, this]

theorem me_read_other {α β : Type} (g : β → MeCell α) (rows : List β) (h : ∃ r ∈ rows, g r = .other) :
    (rows.mapM fun r => (g r).read) = .error .valueError := by
  induction rows with
  | nil => obtain ⟨r, hr, _⟩ := h; cases hr
  | cons x xs ih =>
    rw [List.mapM_cons]
    cases hx : g x with
    | other => rfl
    | dict d =>
      have : ∃ r ∈ xs, g r = .other := by
        obtain ⟨r, hr, e⟩ := h
        rcases List.mem_cons.1 hr with rfl | hr
        · rw [hx] at e; cases e
        · exact ⟨r, hr, e⟩
      rw [ih this]
      rfl
    | text d =>
      have : ∃ r ∈ xs, g r = .other := by
        obtain ⟨r, hr, e⟩ := h
        rcases List.mem_cons.1 hr with rfl | hr
        · rw [hx] at e; cases e
        · exact ⟨r, hr, e⟩
      rw [ih this]
      rfl

/-- C150: features that are neither a dictionary nor a text raise a ValueError. -/
theorem C150_refused (down : List String) (rows : List (MeRow K)) (h : ∃ r ∈ rows, r.features = .other) :
    mePre down rows = .error .valueError := by
  unfold mePre
  rw [me_read_other (fun r : MeRow K => r.features) rows h]
  rfl

example : ∃ r ∈ [(⟨.dict [], .dict [], "cusum"⟩ : MeRow Rat), ⟨.dict [], .other, ""⟩], r.features = .other :=
  ⟨⟨.dict [], .other, ""⟩, List.mem_cons_of_mem _ (List.mem_cons_self ..), rfl⟩

/-- C150: by default exactly the two windows of a parameter dictionary are turned from seconds into days, for the
synthetic data the sizes of the control and of the test as well. -/
theorem C150_windows [IsStrictOrderedRing K] (n : String) (v : K) (hv : v ≠ 0) :
    ((meScale meDown (n, .inl v) = .ok (n, .inl (v / 86400)) ↔ n = "historical_window" ∨ n = "scan_window") ∧
      (meScale meDown (n, .inl v) = .ok (n, .inl v) ↔ ¬ (n = "historical_window" ∨ n = "scan_window"))) ∧
    (meScale meSynthDown (n, .inl v) = .ok (n, .inl (v / 86400)) ↔
      n = "n_control" ∨ n = "n_test" ∨ n = "historical_window" ∨ n = "scan_window") := by
  have hne : v / 86400 ≠ v := by
    intro e
    rw [div_eq_iff (by norm_num)] at e
    have : v * (86400 - 1) = 0 := by linear_combination -e
    rcases mul_eq_zero.1 this with h | h
    · exact hv h
    · norm_num at h
  have key : ∀ down : List String,
      (meScale down (n, (.inl v : MeParam K)) = .ok (n, .inl (v / 86400)) ↔ n ∈ down) ∧
      (meScale down (n, (.inl v : MeParam K)) = .ok (n, .inl v) ↔ n ∉ down) := by
    intro down
    unfold meScale
    by_cases h : n ∈ down <;> simp [h, hne, hne.symm]
  refine ⟨⟨(key _).1.trans (by simp [meDown]), (key _).2.trans (by simp [meDown])⟩,
    (key _).1.trans (by simp [meSynthDown])⟩

/-- C150 violated: preprocessing should not depend on how often it is done.  It changes the frame it is given, so the next time, for another algorithm or another training, the windows are divided once more: the
table is another one unless there are only zeros to scale. -/
theorem C150_twice_violated [IsStrictOrderedRing K] (down : List String) (rows : List (MeRow K)) (t : List (MeHpt K × List (String × Option K) × String))
    (h : mePre down rows = .ok t) : ∃ t', mePre down (t.map meRow) = .ok t' ∧ List.Forall₂ (fun e e' => MeDownAll down e.1 e'.1 ∧ e'.2 = e.2) t t' ∧
      (t' = t ↔ ∀ e ∈ t, ∀ a ∈ e.1, ∀ k v, (k, Sum.inl v) ∈ a.2.1 → k ∈ down → v = 0) := by
  have hr := (C150_pre down rows t).1 h
  have hex : ∃ t' : List (MeHpt K × List (String × Option K) × String), List.Forall₂ (fun e e' => MeDownAll down e.1 e'.1 ∧ e'.2 = e.2) t t' := by
    clear h
    induction hr with
    | nil => exact ⟨[], .nil⟩
    | @cons r e rows t hre hr ih =>
      obtain ⟨t', ht'⟩ := ih
      obtain ⟨h, _, hd⟩ := hre.1
      obtain ⟨h', hh'⟩ := me_down_exists down e.1 (me_down_num down h e.1 hd)
      exact ⟨(h', e.2) :: t', .cons ⟨hh', rfl⟩ ht'⟩
  obtain ⟨t', ht'⟩ := hex
  refine ⟨t', (C150_pre _ _ _).2 ?_, ht', ?_⟩
  · rw [List.forall₂_map_left_iff]
    refine ht'.imp ?_
    intro e e' he
    refine ⟨⟨e.1, Or.inl rfl, he.1⟩, ⟨_, Or.inl rfl, ?_⟩, by rw [he.2]; rfl⟩
    rw [he.2, List.forall₂_map_left_iff]
    exact List.forall₂_same.2 fun x _ => ⟨rfl, Or.inl rfl⟩
  · clear h hr
    induction ht' with
    | nil => simp
    | @cons e e' t t' hee ht ih =>
      rw [List.cons_eq_cons, ih]
      have := me_down_same down e.1 e'.1 hee.1
      constructor
      · rintro ⟨rfl, hh⟩ x hx
        rcases List.mem_cons.1 hx with rfl | hx
        · exact this.1 rfl
        · exact hh x hx
      · intro hh
        refine ⟨Prod.ext (this.2 (hh e List.mem_cons_self)) hee.2, fun x hx => hh x (List.mem_cons_of_mem _ hx)⟩

/-! ## The frames -/

/-- C150: the reader gives a frame with a row for each row of the data and a column for each feature that occurs, and the same for the parameters of the algorithm; each value is that of
its name in its row, missing if there is none.  It succeeds exactly if the preprocessing does and each row has the algorithm. -/
theorem C150_reader (down : List String) (rows : List (MeRow K)) (algorithm : String) :
    ((∃ r, meReader down rows algorithm = .ok r) ↔ ∃ t, mePre down rows = .ok t ∧ ∀ e ∈ t, ∃ p, e.1.lookup algorithm = some p) ∧
    ∀ x y rows', meReader down rows algorithm = .ok ((x, y), rows') → ∃ t, mePre down rows = .ok t ∧ t.length = rows.length ∧ rows' = t.map meRow ∧
      x.1.Nodup ∧ (∀ c, c ∈ x.1 ↔ ∃ e ∈ t, c ∈ e.2.1.map (·.1)) ∧
      List.Forall₂ (fun e r => List.Forall₂ (fun c v => v = (e.2.1.lookup c).join) x.1 r) t x.2 ∧
      (y.map (·.1)).Nodup ∧ (∀ c, c ∈ y.map (·.1) ↔ ∃ e ∈ t, ∃ p, e.1.lookup algorithm = some p ∧ c ∈ p.1.map (·.1)) ∧
      ∀ c col, (c, col) ∈ y → List.Forall₂ (fun e v => ∃ p, e.1.lookup algorithm = some p ∧ v = p.1.lookup c) t col := by
  constructor
  · constructor
    · rintro ⟨r, h⟩
      unfold meReader at h
      obtain ⟨t, ht, h⟩ := (gm_bind_ok _ _ _).1 h
      obtain ⟨y, hy, _⟩ := (gm_bind_ok _ _ _).1 h
      refine ⟨t, ht, ?_⟩
      have hf := mapM_forall2 _ _ _ hy
      intro e he
      obtain ⟨i, hi, rfl⟩ := List.mem_iff_getElem.1 he
      have := (List.forall₂_iff_get.1 hf).2 i hi (by rw [← hf.length_eq]; exact hi)
      exact ⟨_, (ms_needKey _ _).1 this⟩
    · rintro ⟨t, ht, ha⟩
      obtain ⟨y, hy⟩ := me_mapM_exists (fun r : MeHpt K × List (String × Option K) × String => needKey (r.1.lookup algorithm)) t (fun e he => by
        obtain ⟨p, hp⟩ := ha e he
        exact ⟨p, (ms_needKey _ _).2 hp⟩)
      exact ⟨_, (gm_bind_ok _ _ _).2 ⟨t, ht, (gm_bind_ok _ _ _).2 ⟨y, hy, rfl⟩⟩⟩
  · intro x y rows' h
    unfold meReader at h
    obtain ⟨t, ht, h⟩ := (gm_bind_ok _ _ _).1 h
    obtain ⟨l, hl, h⟩ := (gm_bind_ok _ _ _).1 h
    injection h with h
    injection h with h1 h2
    injection h1 with h1 h3
    have hf := mapM_forall2 _ _ _ hl
    have hf' : List.Forall₂ (fun (e : MeHpt K × List (String × Option K) × String) p => e.1.lookup algorithm = some p) t l := hf.imp fun _ _ h => (ms_needKey _ _).1 h
    refine ⟨t, ht, (((C150_pre down rows t).1 ht).length_eq).symm, h2.symm, ?_, ?_, ?_, ?_, ?_, ?_⟩
    · rw [← h1]
      exact (ms_classes _).1
    · intro c
      rw [← h1]
      show c ∈ msClasses _ ↔ _
      rw [(ms_classes _).2 c, List.mem_flatMap]
      constructor
      · rintro ⟨d, hd, hc⟩
        obtain ⟨e, he, rfl⟩ := List.mem_map.1 hd
        exact ⟨e, he, hc⟩
      · rintro ⟨e, he, hc⟩
        exact ⟨_, List.mem_map.2 ⟨e, he, rfl⟩, hc⟩
    · rw [← h1]
      show List.Forall₂ _ t (meRows _)
      unfold meRows
      rw [List.map_map, List.forall₂_map_right_iff]
      refine List.forall₂_same.2 ?_
      intro e _
      simp only [Function.comp_apply]
      rw [List.forall₂_map_right_iff]
      exact List.forall₂_same.2 fun c _ => rfl
    · rw [← h3, List.map_map]
      show (List.map (fun c => c) _).Nodup
      rw [List.map_id']
      exact (ms_classes _).1
    · intro c
      rw [← h3, List.map_map]
      show c ∈ List.map (fun c => c) (msClasses _) ↔ _
      rw [List.map_id', (ms_classes _).2 c, List.mem_flatMap]
      constructor
      · rintro ⟨d, hd, hc⟩
        obtain ⟨p, hp, rfl⟩ := List.mem_map.1 hd
        obtain ⟨i, hi, rfl⟩ := List.mem_iff_getElem.1 hp
        have hi' : i < t.length := by rw [hf'.length_eq]; exact hi
        exact ⟨t[i], List.getElem_mem hi', l[i], (List.forall₂_iff_get.1 hf').2 i hi' hi, hc⟩
      · rintro ⟨e, he, p, hp, hc⟩
        obtain ⟨i, hi, rfl⟩ := List.mem_iff_getElem.1 he
        have hi' : i < l.length := by rw [← hf'.length_eq]; exact hi
        have := (List.forall₂_iff_get.1 hf').2 i hi hi'
        simp only [List.get_eq_getElem] at this
        rw [hp] at this
        injection this with this
        subst this
        exact ⟨_, List.mem_map.2 ⟨_, List.getElem_mem hi', rfl⟩, hc⟩
    · intro c col hcol
      rw [← h3] at hcol
      obtain ⟨c', _, e⟩ := List.mem_map.1 hcol
      injection e with e1 e2
      subst e1 e2
      rw [List.map_map, List.forall₂_map_right_iff]
      exact hf'.imp fun _ p hp => ⟨p, hp, rfl⟩

end

end Kats
