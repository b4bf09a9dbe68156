import Verif.Props.GmNetBound
import Verif.Props.GmParam
import Mathlib.Data.Rat.Defs
import Mathlib.Algebra.Order.Ring.Rat
import Mathlib.Algebra.Order.Field.Rat
import Mathlib.Tactic.Ring

/-!
# C144: building the networks
-/

namespace Kats

theorem maxOf_ok (l : List Int) : (∃ m, gmMaxOf l = .ok m) ↔ l ≠ [] := by
  rcases l with _ | ⟨x, l⟩
  · exact ⟨(fun ⟨m, h⟩ => by injection h), fun h => absurd rfl h⟩
  · exact ⟨fun _ => by simp, fun _ => ⟨_, rfl⟩⟩

theorem net_foldl_max (l : List Int) : ∀ x : Int, x ≤ l.foldl max x ∧ (∀ y ∈ l, y ≤ l.foldl max x) ∧
    (l.foldl max x = x ∨ l.foldl max x ∈ l) := by
  induction l with
  | nil => intro x; exact ⟨le_refl _, (fun y hy => by cases hy), Or.inl rfl⟩
  | cons a l ih =>
    intro x
    obtain ⟨h1, h2, h3⟩ := ih (max x a)
    rw [List.foldl_cons]
    refine ⟨le_trans (le_max_left _ _) h1, ?_, ?_⟩
    · intro y hy
      rcases List.mem_cons.1 hy with rfl | hy
      · exact le_trans (le_max_right _ _) h1
      · exact h2 y hy
    · rcases h3 with h3 | h3
      · rw [h3]
        rcases max_choice x a with h | h
        · exact Or.inl h
        · rw [h]; exact Or.inr (List.mem_cons_self ..)
      · exact Or.inr (List.mem_cons_of_mem _ h3)

theorem netMaxOf_spec (l : List Int) (m : Int) (h : gmMaxOf l = .ok m) : m ∈ l ∧ ∀ y ∈ l, y ≤ m := by
  rcases l with _ | ⟨x, l⟩
  · cases h
  · injection h with h
    obtain ⟨h1, h2, h3⟩ := net_foldl_max l x
    rw [h] at h1 h2 h3
    refine ⟨?_, ?_⟩
    · rcases h3 with h3 | h3
      · rw [h3]; exact List.mem_cons_self ..
      · exact List.mem_cons_of_mem _ h3
    · intro y hy
      rcases List.mem_cons.1 hy with rfl | hy
      · exact h1
      · exact h2 y hy

/-- The cells that can be made: the name is known, and for the two own cells `h` is given, smaller than the state. -/
def GmCellArgs (a : GmStackArgs) : Prop :=
  a.cell = "LSTM" ∨ ((a.cell = "LSTM2Cell" ∨ a.cell = "S2Cell") ∧ ∃ h, a.h = some h ∧ h < a.state)

/-- The kind, `h` and the output of a cell. -/
def cellOf (a : GmStackArgs) : GmCellKind × Int × Int :=
  if a.cell = "LSTM" then (.lstm, 0, a.state)
  else (if a.cell = "S2Cell" then .s2 else .lstm2, a.h.getD 0, a.state - a.h.getD 0)

theorem validate_iff (a : GmStackArgs) (v : GmCellKind × Int × Int) :
    gmValidate a.cell a.state a.h = .ok v ↔ GmCellArgs a ∧ v = cellOf a := by
  unfold gmValidate GmCellArgs cellOf
  by_cases h1 : a.cell = "LSTM"
  · rw [if_pos h1, if_pos h1]
    exact ⟨fun h => by injection h with h; exact ⟨Or.inl h1, h.symm⟩, fun h => by rw [h.2]⟩
  · rw [if_neg h1, if_neg h1]
    by_cases h2 : a.cell = "LSTM2Cell" ∨ a.cell = "S2Cell"
    · rw [if_pos h2]
      rcases hh : a.h with _ | h
      · constructor
        · intro h; cases h
        · rintro ⟨h | ⟨_, h, h3, _⟩, _⟩
          · exact absurd h h1
          · cases h3
      · simp only [Option.getD_some]
        by_cases h3 : a.state ≤ h
        · rw [if_pos h3]
          constructor
          · intro h; cases h
          · rintro ⟨h' | ⟨_, h', h4, h5⟩, _⟩
            · exact absurd h' h1
            · injection h4 with h4
              omega
        · rw [if_neg h3]
          constructor
          · intro h'
            injection h' with h'
            exact ⟨Or.inr ⟨h2, h, rfl, by omega⟩, h'.symm⟩
          · rintro ⟨_, h'⟩
            rw [h']
    · rw [if_neg h2]
      constructor
      · intro h; cases h
      · rintro ⟨h' | ⟨h', _⟩, _⟩
        · exact absurd h' h1
        · exact absurd h' h2

theorem sizes_ok (kind : GmCellKind) (state h : Int) (l r : List Int) : l.mapM (gmCellSize kind state h) = .ok r ↔
    r = l ∧ ∀ n ∈ l, 0 ≤ (match kind with | .lstm => n | _ => n + 2 * h) ∧ 0 ≤ state := by
  have hok : ∀ n, (0 ≤ (match kind with | .lstm => n | _ => n + 2 * h) ∧ 0 ≤ state) → gmCellSize kind state h n = .ok n := by
    intro n hn
    unfold gmCellSize
    simp only []
    rw [if_neg]
    rintro (h' | h')
    · exact absurd hn.1 (not_le.2 h')
    · omega
  constructor
  · intro hr
    have hall : ∀ n ∈ l, (0 ≤ (match kind with | .lstm => n | _ => n + 2 * h) ∧ 0 ≤ state) := by
      intro n hn
      obtain ⟨b, _, hb⟩ := (mapM_ok_mem _ _ _ hr).1 n hn
      unfold gmCellSize at hb
      simp only [] at hb
      rcases kind with _ | _ | _ <;> simp only [] at hb ⊢ <;> split at hb <;>
        first | omega | injection hb
    refine ⟨?_, hall⟩
    have := mapM_eq_map (gmCellSize kind state h) id l (fun n hn => hok n (hall n hn))
    rw [this, List.map_id] at hr
    injection hr with hr
    exact hr.symm
  · rintro ⟨rfl, hall⟩
    have := mapM_eq_map (gmCellSize kind state h) id r (fun n hn => hok n (hall n hn))
    rwa [List.map_id] at this

/-- C144: `DilatedRNNStack` is made exactly if there is a block and no block is empty, the cell is known (with `h` smaller
than the state if it is one of the own ones), no layer has a negative size and the size of the output, if given, is
positive.  The first layer is given the input, the others what a layer gives, and `max_dilation` is the largest
dilation. -/
theorem C144_init (a : GmStackArgs) (s : GmStackShape) : gmStackInit a = .ok s ↔
    (a.nn ≠ [] ∧ (∀ b ∈ a.nn, b ≠ []) ∧ GmCellArgs a ∧
      (∀ n ∈ a.input :: List.replicate (a.nn.flatten.length - 1) (cellOf a).2.2,
        0 ≤ (if a.cell = "LSTM" then n else n + 2 * (cellOf a).2.1) ∧ 0 ≤ a.state) ∧ ∀ o, a.output = some o → 0 < o) ∧
    s.kind = (cellOf a).1 ∧ s.inputs = a.input :: List.replicate (a.nn.flatten.length - 1) (cellOf a).2.2 ∧
    s.state = a.state ∧ s.h = (cellOf a).2.1 ∧ s.out = (cellOf a).2.2 ∧ s.output = a.output ∧
    s.maxDilation ∈ a.nn.flatten ∧ ∀ d ∈ a.nn.flatten, d ≤ s.maxDilation := by
  have hkind : ∀ n : Int, (match (cellOf a).1 with | .lstm => n | _ => n + 2 * (cellOf a).2.1) =
      if a.cell = "LSTM" then n else n + 2 * (cellOf a).2.1 := by
    intro n
    unfold cellOf
    by_cases h : a.cell = "LSTM"
    · rw [if_pos h, if_pos h]
    · rw [if_neg h, if_neg h]
      by_cases h2 : a.cell = "S2Cell"
      · rw [if_pos h2]
      · rw [if_neg h2]
  constructor
  · intro h
    unfold gmStackInit at h
    obtain ⟨ms, h1, h⟩ := (gm_bind_ok _ _ _).1 h
    obtain ⟨m, h2, h⟩ := (gm_bind_ok _ _ _).1 h
    obtain ⟨v, h3, h⟩ := (gm_bind_ok _ _ _).1 h
    obtain ⟨hc, rfl⟩ := (validate_iff a v).1 h3
    obtain ⟨inp, h4, h⟩ := (gm_bind_ok _ _ _).1 h
    obtain ⟨rfl, h5⟩ := (sizes_ok _ _ _ _ _).1 h4
    have hne : ms ≠ [] := (maxOf_ok ms).1 ⟨m, h2⟩
    have hl := (mapM_forall2 _ _ _ h1).length_eq
    have hnn : a.nn ≠ [] := by
      intro e
      rw [e] at hl
      exact hne (List.length_eq_zero_iff.1 hl.symm)
    obtain ⟨m1, m2⟩ := netMaxOf_spec ms m h2
    have hb : ∀ b ∈ a.nn, b ≠ [] := by
      intro b hb
      obtain ⟨x, _, hx⟩ := (mapM_ok_mem _ _ _ h1).1 b hb
      exact (maxOf_ok b).1 ⟨x, hx⟩
    have hmem : m ∈ a.nn.flatten := by
      obtain ⟨b, hb, hx⟩ := (mapM_ok_mem _ _ _ h1).2 m m1
      exact List.mem_flatten.2 ⟨b, hb, (netMaxOf_spec b m hx).1⟩
    have hmax : ∀ d ∈ a.nn.flatten, d ≤ m := by
      intro d hd
      obtain ⟨b, hb, hd⟩ := List.mem_flatten.1 hd
      obtain ⟨x, hx, e⟩ := (mapM_ok_mem _ _ _ h1).1 b hb
      exact le_trans ((netMaxOf_spec b x e).2 d hd) (m2 x hx)
    have h6 : ∀ n ∈ a.input :: List.replicate (a.nn.flatten.length - 1) (cellOf a).2.2,
        0 ≤ (if a.cell = "LSTM" then n else n + 2 * (cellOf a).2.1) ∧ 0 ≤ a.state := by
      intro n hn
      rw [← hkind]
      exact h5 n hn
    rcases ho : a.output with _ | o
    · rw [ho] at h
      injection h with h
      subst h
      exact ⟨⟨hnn, hb, hc, h6, fun o h => by cases h⟩, rfl, rfl, rfl, rfl, rfl, rfl, hmem, hmax⟩
    · rw [ho] at h
      simp only [] at h
      split at h
      · rename_i hpos
        injection h with h
        subst h
        exact ⟨⟨hnn, hb, hc, h6, fun o' h => by injection h with h; rw [← h]; exact hpos⟩, rfl, rfl, rfl, rfl, rfl, rfl, hmem, hmax⟩
      · cases h
  · rintro ⟨⟨hnn, hb, hc, h6, ho⟩, e1, e2, e3, e4, e5, e6, e7, e8⟩
    have hmaxes : ∃ ms, a.nn.mapM gmMaxOf = .ok ms ∧ ms.length = a.nn.length ∧
        ∀ x ∈ ms, ∃ b ∈ a.nn, gmMaxOf b = .ok x := by
      have hx : ∀ b ∈ a.nn, ∃ x, gmMaxOf b = .ok x := fun b h => (maxOf_ok b).2 (hb b h)
      choose! f hf using hx
      have := mapM_eq_map gmMaxOf f a.nn hf
      refine ⟨_, this, by simp, ?_⟩
      intro x hx
      obtain ⟨b, hb', rfl⟩ := List.mem_map.1 hx
      exact ⟨b, hb', hf b hb'⟩
    obtain ⟨ms, h1, hl, h2⟩ := hmaxes
    obtain ⟨m, hm⟩ := (maxOf_ok ms).2 (by
      intro e
      rw [e] at hl
      exact hnn (List.length_eq_zero_iff.1 hl.symm))
    obtain ⟨m1, m2⟩ := netMaxOf_spec ms m hm
    have hmem : m ∈ a.nn.flatten := by
      obtain ⟨b, hb, hx⟩ := h2 m m1
      exact List.mem_flatten.2 ⟨b, hb, (netMaxOf_spec b m hx).1⟩
    have hmax : ∀ d ∈ a.nn.flatten, d ≤ m := by
      intro d hd
      obtain ⟨b, hb, hd⟩ := List.mem_flatten.1 hd
      obtain ⟨x, hx, e⟩ := (mapM_ok_mem _ _ _ h1).1 b hb
      exact le_trans ((netMaxOf_spec b x e).2 d hd) (m2 x hx)
    have hmm : m = s.maxDilation := le_antisymm (e8 m hmem) (hmax _ e7)
    have h5 := (sizes_ok (cellOf a).1 a.state (cellOf a).2.1 _ _).2
      ⟨rfl, fun n hn => by rw [hkind]; exact h6 n hn⟩
    unfold gmStackInit
    rw [h1]
    show (gmMaxOf ms >>= fun m => _) = _
    rw [hm]
    show (gmValidate a.cell a.state a.h >>= fun v => _) = _
    rw [(validate_iff a _).2 ⟨hc, rfl⟩]
    show (List.mapM (gmCellSize (cellOf a).1 a.state (cellOf a).2.1) _ >>= fun v => _) = _
    rw [h5]
    have hs : s = ⟨(cellOf a).1, a.input :: List.replicate (a.nn.flatten.length - 1) (cellOf a).2.2, a.state,
        (cellOf a).2.1, (cellOf a).2.2, a.output, m⟩ := by
      rcases s with ⟨s1, s2, s3, s4, s5, s6, s7⟩
      simp only [] at e1 e2 e3 e4 e5 e6 hmm
      rw [e1, e2, e3, e4, e5, e6, hmm]
    rw [hs]
    rcases ho' : a.output with _ | o
    · rfl
    · show (if 0 < o then _ else _) = _
      rw [if_pos (ho o ho')]
      rfl

/-- C144 violated: the text of the error says that `h` must be positive, but zero and negative sizes are accepted;
so are dilations that are not positive. -/
theorem C144_init_violated : (∃ s, gmStackInit ⟨[[1, 3]], "S2Cell", 5, 4, none, some 0⟩ = .ok s ∧ s.h = 0) ∧
    (∃ s, gmStackInit ⟨[[1, 3]], "S2Cell", 5, 4, none, some (-1)⟩ = .ok s ∧ s.h = -1 ∧ s.out = 5) ∧
    (∃ s, gmStackInit ⟨[[0, -2]], "LSTM", 5, 4, none, none⟩ = .ok s ∧ s.maxDilation = 0) := by
  refine ⟨⟨⟨.s2, [5, 4], 4, 0, 4, none, 3⟩, by rfl, rfl⟩, ⟨⟨.s2, [5, 5], 4, -1, 5, none, 3⟩, by rfl, rfl, rfl⟩,
    ⟨⟨.lstm, [5, 4], 4, 0, 4, none, 0⟩, by rfl, rfl⟩⟩

section
variable {K : Type} [Field K]

/-- C144 violated: with a negative `h`, or with a dilation in the first block that is not positive, a network that could be
made fails for every input with a row. -/
theorem C144_forward_violated (N : GmStack K) (store : GmStore K) (inp : List (List K)) (hi : inp ≠ [])
    (d : Int) (ds : List Int) (bs : List (List Int)) (hb : N.blocks = (d :: ds) :: bs)
    (h : (N.kind ≠ .lstm ∧ N.h < 0) ∨ d ≤ 0) (r) : gmNetForward N store inp ≠ .ok r := by
  intro hr
  unfold gmNetForward at hr
  simp only [] at hr
  obtain ⟨x, hx, _⟩ := (gm_bind_ok _ _ _).1 hr
  rw [hb, List.foldlM_cons] at hx
  obtain ⟨y, hy, _⟩ := (gm_bind_ok _ _ _).1 hx
  unfold gmBlock at hy
  obtain ⟨z, hz, _⟩ := (gm_bind_ok _ _ _).1 hy
  rw [List.foldlM_cons] at hz
  obtain ⟨w, hw, _⟩ := (gm_bind_ok _ _ _).1 hz
  unfold gmLayer at hw
  obtain ⟨s, hs, hw⟩ := (gm_bind_ok _ _ _).1 hw
  obtain ⟨cell, _, hw⟩ := (gm_bind_ok _ _ _).1 hw
  obtain ⟨q, hq, _⟩ := (gm_bind_ok _ _ _).1 hw
  rcases h with ⟨hk, hneg⟩ | hd
  · have hrow : ∀ x p e, gmCellRow N.kind N.act N.size N.h cell x p e = .error .otherError := by
      intro x p e
      unfold gmCellRow
      rcases hk' : N.kind <;> simp only [] <;> first | rw [if_pos hneg] | exact absurd hk' hk
    unfold gmCellAll at hq
    split at hq
    · obtain ⟨b, _, hb'⟩ := (mapM_ok_mem _ _ _ hq).1 0 (List.mem_range.2 (List.length_pos_iff.2 hi))
      rw [hrow] at hb'
      cases hb'
    · cases hq
  · unfold gmDelayed at hs
    simp only [] at hs
    rw [if_pos (by omega), if_pos hd] at hs
    cases hs

end

/-! ## `build_rnn` and `build_s2s` -/

/-- The cells of the parameters can be made. -/
structure GmBuildable (o : GmObj (Option GmNum)) : Prop where
  nn : o.nn ≠ [] ∧ ∀ b ∈ o.nn, b ≠ []
  cell : o.cellName = "LSTM" ∨ ((o.cellName = "LSTM2Cell" ∨ o.cellName = "S2Cell") ∧
    ∃ h, o.hSize = some h ∧ 0 ≤ h.toInt ∧ h.toInt < o.stateSize.toInt)

theorem cellOf_nonneg (a : GmStackArgs) (h : a.cell = "LSTM" ∨ ((a.cell = "LSTM2Cell" ∨ a.cell = "S2Cell") ∧
    ∃ h, a.h = some h ∧ 0 ≤ h ∧ h < a.state)) (hs : 0 ≤ a.state) : GmCellArgs a ∧ 0 ≤ (cellOf a).2.1 ∧ 0 ≤ (cellOf a).2.2 := by
  rcases h with h | ⟨h, z, h1, h2, h3⟩
  · refine ⟨Or.inl h, ?_⟩
    unfold cellOf
    rw [if_pos h]
    exact ⟨le_refl _, hs⟩
  · refine ⟨Or.inr ⟨h, z, h1, h3⟩, ?_⟩
    unfold cellOf
    rw [if_neg (by rcases h with h | h <;> rw [h] <;> decide), h1]
    simp only [Option.getD_some]
    omega

theorem stack_ok (a : GmStackArgs) (hn : a.nn ≠ [] ∧ ∀ b ∈ a.nn, b ≠ [])
    (h : a.cell = "LSTM" ∨ ((a.cell = "LSTM2Cell" ∨ a.cell = "S2Cell") ∧ ∃ h, a.h = some h ∧ 0 ≤ h ∧ h < a.state))
    (hs : 0 ≤ a.state) (hi : 0 ≤ a.input) (ho : ∀ o, a.output = some o → 0 < o) :
    ∃ s, gmStackInit a = .ok s ∧ s.inputs = a.input :: List.replicate (a.nn.flatten.length - 1) (cellOf a).2.2 ∧
      s.output = a.output ∧ s.out = (cellOf a).2.2 := by
  obtain ⟨h1, h2, h3⟩ := cellOf_nonneg a h hs
  have hne : ∃ m ∈ a.nn.flatten, ∀ d ∈ a.nn.flatten, d ≤ m := by
    obtain ⟨m, hm⟩ := (maxOf_ok a.nn.flatten).2 (by
      obtain ⟨hn1, hn2⟩ := hn
      intro e
      rw [List.flatten_eq_nil_iff] at e
      obtain ⟨b, hb⟩ := List.exists_mem_of_ne_nil _ hn1
      exact hn2 b hb (e b hb))
    exact ⟨m, netMaxOf_spec _ _ hm⟩
  obtain ⟨m, hm1, hm2⟩ := hne
  refine ⟨⟨(cellOf a).1, a.input :: List.replicate (a.nn.flatten.length - 1) (cellOf a).2.2, a.state,
        (cellOf a).2.1, (cellOf a).2.2, a.output, m⟩, (C144_init a _).2 ⟨⟨hn.1, hn.2, h1, ?_, ho⟩, rfl, rfl, rfl, rfl, rfl, rfl, hm1, hm2⟩, rfl, rfl, rfl⟩
  intro n hn'
  have hn0 : 0 ≤ n := by
    rcases List.mem_cons.1 hn' with rfl | h
    · exact hi
    · rw [(List.mem_replicate.1 h).2]; exact h3
  refine ⟨?_, hs⟩
  split
  · exact hn0
  · omega

theorem toInt_pos' (x : GmNum) (h : IsPosInt x) : 1 ≤ x.toInt := by
  rcases h with ⟨z, hz, rfl⟩ | rfl
  · exact hz
  · exact le_refl _

section
variable {K σ : Type} [Field K] [LinearOrder K] [IsStrictOrderedRing K]

/-- The loop of a pass runs with the parameters `o`; the features have as many columns as the parameters say. -/
structure GmEnvOf (E : GmEnv K σ) (o : GmObj (Option GmNum)) : Prop where
  period : (E.period : Int) = o.seasonality.toInt
  iw : (E.iw : Int) = o.inputWindow.toInt
  fw : (E.fw : Int) = o.fcstWindow.toInt
  quantiles : E.quantiles = o.quantile.length

/-- The number of columns that the features of the input have. -/
def featCols (o : GmObj (Option GmNum)) (w : GmNum) : Nat :=
  match o.gmfeature with | none => 0 | some l => gmFeatureSize l w.toInt.toNat

theorem input_len (E : GmEnv K σ) (step prev cur row : Nat) (v : GmView K) (n : Nat) (hx : v.x.length = E.iw)
    (hs : 1 < E.period → v.next.length = E.period ∧ v.diff.length = E.period)
    (hf : match E.features with | some f => ((f (cur - E.iw) cur).getD row []).length = n | none => n = 0) :
    (gmInput E step prev cur row v).length = E.iw + n + 2 + if 1 < E.period then 2 * E.period else 0 := by
  have key : ∀ l : List K, l.length = n →
      (v.x.map E.log ++ l ++ [E.log ((cur : K) - (prev : K)) / 2, E.log ((step : K) + 1)] ++
        (if 1 < E.period then v.next.map (· - 1) ++ v.diff else [])).length =
      E.iw + n + 2 + if 1 < E.period then 2 * E.period else 0 := by
    intro l hl
    rw [List.length_append, List.length_append, List.length_append, List.length_map, hl, hx]
    simp only [List.length_cons, List.length_nil]
    by_cases hp : 1 < E.period
    · obtain ⟨h1, h2⟩ := hs hp
      rw [if_pos hp, if_pos hp, List.length_append, List.length_map, h1, h2]
      omega
    · rw [if_neg hp, if_neg hp]
      rfl
  unfold gmInput
  rcases hE : E.features with _ | f
  · rw [hE] at hf
    exact key [] hf.symm
  · rw [hE] at hf
    exact key _ hf

/-- C144: for parameters that are accepted and whose blocks and cell can be made, `build_rnn` makes a network; its input is
as large as the rows that a pass gives it, and its output as large as a pass needs. -/
theorem C144_build_rnn (td : String → Option Int) (a : GmArgs) (o : GmObj (Option GmNum)) (h : gmInit td a = .ok o)
    (hb : GmBuildable o) :
    ∃ s, gmBuildRnn o = .ok s ∧ s.inputs.length = o.nn.flatten.length ∧
      ∀ (E : GmEnv K σ), GmEnvOf E o →
        s.output = some ((gmCol E + E.fw * E.quantiles : Nat) : Int) ∧
        ∀ (t : GmTrack K) (cur : Nat), 1 ≤ E.iw → (1 < E.period → E.period ≤ E.iw) → E.iw ≤ cur →
          TrackLen E.period cur t → ∀ (step prev row : Nat),
          (match E.features with
            | some f => ((f (cur - E.iw) cur).getD row []).length = featCols o o.inputWindow
            | none => o.gmfeature = none) →
          ∃ v, gmView E.period E.iw E.fw t cur = .ok v ∧
            s.inputs.head? = some (((gmInput E step prev cur row v).length : Nat) : Int) := by
  obtain ⟨f1, -, -, -, -, -, -, -, -, -, -, ⟨q, hq, -⟩, -⟩ := C138_fields td a o h
  have hiw := toInt_pos' _ (f1 o.inputWindow (by simp))
  have hfw := toInt_pos' _ (f1 o.fcstWindow (by simp))
  have hst := toInt_pos' _ (f1 o.stateSize (by simp))
  have hse := toInt_pos' _ (f1 o.seasonality (by simp))
  have hql : 1 ≤ o.quantile.length := by
    rcases hqq : o.quantile with _ | ⟨x, l⟩
    · rw [hqq] at hq; cases hq
    · simp
  have e : gmSizes o = (o.inputWindow.toInt + featCols o o.inputWindow + 2 +
      (if 1 < o.seasonality.toInt then 2 * o.seasonality.toInt else 0),
      o.fcstWindow.toInt * o.quantile.length + 1 + if 1 < o.seasonality.toInt then 1 else 0) := by
    unfold gmSizes featCols
    rcases o.gmfeature with _ | l <;> simp only [] <;> split <;> simp
  have hm : 0 ≤ o.fcstWindow.toInt * o.quantile.length := by positivity
  obtain ⟨s, s1, s2, s3, s4⟩ := stack_ok ⟨o.nn, o.cellName, (gmSizes o).1, o.stateSize.toInt, some (gmSizes o).2,
    o.hSize.map GmNum.toInt⟩ hb.nn (by
      rcases hb.cell with hc | ⟨hc, z, h1, h2, h3⟩
      · exact Or.inl hc
      · exact Or.inr ⟨hc, z.toInt, by simp only [h1]; rfl, h2, h3⟩)
    (by simp only []; omega) (by simp only [e]; split <;> omega) (by
      intro x hx
      injection hx with hx
      rw [← hx, e]
      simp only []
      split <;> omega)
  refine ⟨s, s1, ?_, ?_⟩
  · rw [s2]
    simp only [List.length_cons, List.length_replicate]
    have : 0 < o.nn.flatten.length := by
      rw [List.length_pos_iff]
      intro e
      rw [List.flatten_eq_nil_iff] at e
      obtain ⟨b, hb'⟩ := List.exists_mem_of_ne_nil _ hb.nn.1
      exact hb.nn.2 b hb' (e b hb')
    omega
  · intro E hE
    have hper : 1 < E.period ↔ 1 < o.seasonality.toInt := by rw [← hE.period]; omega
    refine ⟨?_, ?_⟩
    · rw [s3, e]
      simp only []
      unfold gmCol
      push_cast
      rw [hE.fw, hE.quantiles]
      by_cases hp : 1 < E.period
      · rw [if_pos hp, if_pos (hper.1 hp)]; congr 1; push_cast; ring
      · rw [if_neg hp, if_neg (fun h => hp (hper.2 h))]; congr 1; push_cast; ring
    · intro t cur h1 h2 hc ht step prev row hf
      have hv : ∃ v, gmView E.period E.iw E.fw t cur = .ok v ∧ v.x.length = E.iw ∧
          (1 < E.period → v.next.length = E.period ∧ v.diff.length = E.period) := by
        by_cases hp : 1 < E.period
        · obtain ⟨v, l, e2, _, _, h3, h4, h5, _⟩ := C139_view_partial E.period E.iw E.fw cur hp (h2 hp) hc t ht
          exact ⟨v, e2, h3, fun _ => ⟨h4, h5⟩⟩
        · have hp1 : E.period = 1 := by have := hE.period; omega
          rw [hp1] at ht ⊢
          obtain ⟨v, l, e2, _, _, h3, _⟩ := C139_view_level E.iw E.fw cur h1 hc t ht
          exact ⟨v, e2, h3, fun h => absurd h (by omega)⟩
      obtain ⟨v, v1, v2, v3⟩ := hv
      refine ⟨v, v1, ?_⟩
      rw [input_len E step prev cur row v (featCols o o.inputWindow) v2 v3 (by
        rcases hE' : E.features with _ | f
        · rw [hE'] at hf
          simp only [] at hf ⊢
          unfold featCols
          rw [hf]
        · rw [hE'] at hf; exact hf), s2, e]
      simp only [List.head?_cons]
      congr 1
      push_cast
      rw [hE.iw]
      by_cases hp : 1 < E.period
      · rw [if_pos hp, if_pos (hper.1 hp), hE.period]
      · rw [if_neg hp, if_neg (fun h => hp (hper.2 h))]

/-- C144: `build_s2s` makes an encoder and a decoder; the input of the encoder is as large as the rows of a pass, the input of
the decoder as large as the output of the encoder with what is put behind it, and the output of the decoder as large as
the forecasts. -/
theorem C144_build_s2s {τ : Type} (td : String → Option Int) (a : GmArgs) (o : GmObj (Option GmNum)) (h : gmInit td a = .ok o)
    (hb : GmBuildable o) (hd : o.decoder ≠ [] ∧ ∀ b ∈ o.decoder, b ≠ []) :
    ∃ enc dec, gmBuildS2s o = .ok (enc, dec) ∧ enc.output = none ∧
      ∀ (E : GmS2sEnv K σ τ), (E.iw : Int) = o.inputWindow.toInt → (E.fw : Int) = o.fcstWindow.toInt →
        dec.output = some ((E.fw * o.quantile.length : Nat) : Int) ∧
        (∀ (step prev cur row : Nat) (x : List K), x.length = E.iw →
          (match E.features with
            | some f => ((f (cur - E.iw) cur).getD row []).length = featCols o o.inputWindow
            | none => o.gmfeature = none) →
          enc.inputs.head? = some ((gmEncIn E step prev cur row x).length : Int)) ∧
        (∀ (k idx row : Nat) (code : List K), (code.length : Int) = enc.out →
          (match E.features with
            | some f => ((f idx (idx + E.fw)).getD row []).length = featCols o o.fcstWindow
            | none => o.gmfeature = none) →
          dec.inputs.head? = some ((gmDecIn E k idx row code).length : Int)) := by
  obtain ⟨f1, -, -, -, -, -, -, -, -, -, -, ⟨q, hq, -⟩, -⟩ := C138_fields td a o h
  have hiw := toInt_pos' _ (f1 o.inputWindow (by simp))
  have hfw := toInt_pos' _ (f1 o.fcstWindow (by simp))
  have hst := toInt_pos' _ (f1 o.stateSize (by simp))
  have hql : 1 ≤ o.quantile.length := by
    rcases hqq : o.quantile with _ | ⟨x, l⟩
    · rw [hqq] at hq; cases hq
    · simp
  have hfeat : ∀ w : GmNum, gmFeatCols o w = (featCols o w : Int) := by
    intro w
    unfold featCols gmFeatCols
    rcases o.gmfeature with _ | l <;> rfl
  have hcell : ∀ (nn : List (List Int)) (i : Int) (out : Option Int), ((⟨nn, o.cellName, i, o.stateSize.toInt, out,
      o.hSize.map GmNum.toInt⟩ : GmStackArgs).cell = "LSTM" ∨ ((o.cellName = "LSTM2Cell" ∨ o.cellName = "S2Cell") ∧
      ∃ h, o.hSize.map GmNum.toInt = some h ∧ 0 ≤ h ∧ h < o.stateSize.toInt)) := by
    intro nn i out
    rcases hb.cell with hc | ⟨hc, z, h1, h2, h3⟩
    · exact Or.inl hc
    · exact Or.inr ⟨hc, z.toInt, by simp only [h1]; rfl, h2, h3⟩
  obtain ⟨enc, s1, s2, s3, s4⟩ := stack_ok ⟨o.nn, o.cellName, o.inputWindow.toInt + featCols o o.inputWindow + 2,
    o.stateSize.toInt, none, o.hSize.map GmNum.toInt⟩ hb.nn (hcell _ _ _) (by simp only []; omega) (by simp only []; omega)
    (by intro x hx; cases hx)
  have henc : 0 ≤ enc.out := by
    rw [s4]
    exact (cellOf_nonneg _ (hcell _ _ _) (by simp only []; omega)).2.2
  have hqf : 0 < (o.quantile.length : Int) * o.fcstWindow.toInt := by
    have : (0 : Int) < o.quantile.length := by omega
    exact mul_pos this (by omega)
  obtain ⟨dec, t1, t2, t3, t4⟩ := stack_ok ⟨o.decoder, o.cellName, featCols o o.fcstWindow + 1 + enc.out,
    o.stateSize.toInt, some (o.quantile.length * o.fcstWindow.toInt), o.hSize.map GmNum.toInt⟩ hd (hcell _ _ _)
    (by simp only []; omega) (by simp only []; omega) (by
      intro x hx
      injection hx with hx
      rw [← hx]
      exact hqf)
  refine ⟨enc, dec, ?_, s3, ?_⟩
  · unfold gmBuildS2s
    simp only [hfeat]
    rw [s1]
    show (gmStackInit _ >>= fun dec => _) = _
    rw [t1]
    rfl
  · intro E e1 e2
    refine ⟨?_, ?_, ?_⟩
    · rw [t3]
      simp only []
      push_cast
      rw [e2]
      congr 1
      ring
    · intro step prev cur row x hx hf
      rw [s2, List.head?_cons]
      have key : ∀ l : List K, l.length = featCols o o.inputWindow →
          (x.map E.log ++ l ++ [E.log ((cur : K) - (prev : K)) / 2, E.log ((step : K) + 1)]).length =
            E.iw + featCols o o.inputWindow + 2 := by
        intro l hl
        simp [hl, hx]
        omega
      unfold gmEncIn
      rcases hE : E.features with _ | f
      · rw [hE] at hf
        simp only [] at hf ⊢
        rw [key [] (by unfold featCols; rw [hf]; rfl)]
        push_cast
        rw [e1]
      · rw [hE] at hf
        simp only [] at hf ⊢
        rw [key _ hf]
        push_cast
        rw [e1]
    · intro k idx row code hc hf
      rw [t2, List.head?_cons]
      have key : ∀ l : List K, l.length = featCols o o.fcstWindow →
          ((code ++ l ++ [E.log ((k : K) + 1)]).length : Int) = featCols o o.fcstWindow + 1 + enc.out := by
        intro l hl
        rw [List.length_append, List.length_append, hl]
        push_cast
        rw [hc]
        simp only [List.length_cons, List.length_nil]
        push_cast
        ring
      unfold gmDecIn
      rcases hE : E.features with _ | f
      · rw [hE] at hf
        simp only [] at hf ⊢
        rw [key [] (by unfold featCols; rw [hf]; rfl)]
      · rw [hE] at hf
        simp only [] at hf ⊢
        rw [key _ hf]

end

/-- Arguments with the given cell, `h` and blocks. -/
def gmNetDemo (type cell : String) (h : Option GmNum) (nn dec : Option (List (List Int))) : GmArgs :=
  { freq := .delta 86400, inputWindow := .int 10, fcstWindow := .int 7, modelType := type, cellName := cell, hSize := h,
    nn := nn, decoder := dec }

theorem gmNetDemo_valid (td : String → Option Int) (type cell : String) (h : Option GmNum)
    (nn dec : Option (List (List Int))) (ht : type = "rnn" ∨ type = "s2s") :
    ∃ o, gmInit td (gmNetDemo type cell h nn dec) = .ok o ∧ o.nn = nn.getD [[1, 3]] ∧
      o.cellName = cell ∧ o.hSize = h ∧ o.stateSize = .int 50 ∧ o.inputWindow = .int 10 ∧ o.fcstWindow = .int 7 ∧
      o.gmfeature = none ∧ o.quantile.length = 4 ∧
      (type = "s2s" → ∀ d, dec = some d → o.decoder = d) := by
  obtain ⟨o, ho⟩ := (C138_accept_partial td (gmNetDemo type cell h nn dec)).2 {
    freq := trivial
    modelType := ht
    uplift := Or.inr (Or.inr ⟨3, by norm_num, rfl⟩)
    batch := fun l h => by cases h
    rate := fun l h => by cases h
    loss := Or.inl (by show ("Pinball" : String).toLower = _; decide +kernel)
    opt := trivial
    quantile := fun l h => by cases h
    train := fun l h => by cases h
    weight := fun l h => by cases h
    metric := fun l h => by cases h
    metricType := by simp [gmNetDemo]
    season := fun l h => by cases h
    smooth := fun l h => by cases h
    feature := fun l h => by cases h
    featureType := by simp [gmNetDemo]
    len := Or.inr (Or.inl ⟨-1, by norm_num, by simp [gmNetDemo, GmNum.val]⟩)
    ints := by
      intro x hx
      simp only [gmNetDemo, List.mem_cons, List.not_mem_nil, or_false] at hx
      rcases hx with rfl | rfl | rfl | rfl | rfl | rfl | rfl | rfl | rfl | rfl | rfl <;>
        exact Or.inl ⟨_, by decide, rfl⟩ }
  refine ⟨o, ho, ?_⟩
  obtain ⟨freq, h1, h2, h3, batch, h4, lr, h5, loss, h6, opt, h7, h8, h9, tq, h10, w, h11, m, h12, h13,
    h14, f, h15, h16, rfl⟩ := (init_iff td _ o).1 ho
  injection h15 with h15
  refine ⟨rfl, rfl, rfl, rfl, rfl, rfl, h15.symm, rfl, ?_⟩
  intro hs d hd
  show (if type = "s2s" then dec.getD _ else []) = d
  rw [if_pos hs, hd]
  rfl

/-- C144 violated: `GMParam` accepts parameters whose network cannot be made: a cell that does not exist, an own cell without
`h`, no blocks. -/
theorem C144_build_violated (td : String → Option Int) :
    (∃ a o, gmInit td a = .ok o ∧ o.cellName = "GRU" ∧ gmBuildRnn o = .error .valueError) ∧
    (∃ a o, gmInit td a = .ok o ∧ o.cellName = "S2Cell" ∧ o.hSize = none ∧ gmBuildRnn o = .error .valueError) ∧
    (∃ a o, gmInit td a = .ok o ∧ o.nn = [] ∧ gmBuildRnn o = .error .valueError) := by
  refine ⟨?_, ?_, ?_⟩
  · obtain ⟨o, h, h1, h2, h3, -⟩ := gmNetDemo_valid td "rnn" "GRU" none none none (Or.inl rfl)
    refine ⟨_, o, h, h2, ?_⟩
    unfold gmBuildRnn
    rw [h1, h2]
    rfl
  · obtain ⟨o, h, h1, h2, h3, -⟩ := gmNetDemo_valid td "rnn" "S2Cell" none none none (Or.inl rfl)
    refine ⟨_, o, h, h2, h3, ?_⟩
    unfold gmBuildRnn
    rw [h1, h2, h3]
    rfl
  · obtain ⟨o, h, h1, h2, h3, -⟩ := gmNetDemo_valid td "rnn" "LSTM" none (some []) none (Or.inl rfl)
    refine ⟨_, o, h, h1, ?_⟩
    unfold gmBuildRnn
    rw [h1]
    rfl

/-- C144 violated: a decoder with more layers than the encoder is accepted and made, but fails for every input once it is
given the states of the encoder. -/
theorem C144_decoder_more_violated (td : String → Option Int) :
    ∃ a o s, gmInit td a = .ok o ∧ gmBuildS2s o = .ok s ∧
      ∀ (K : Type) [Field K] (N : GmStack K) (store : GmStore K) (inp : List (List K)) (r), N.blocks = o.decoder → store ≠ [] →
        (∀ l ∈ store, l.length = o.nn.flatten.length) → gmNetForward N store inp ≠ .ok r := by
  obtain ⟨o, h, h1, h2, h3, h4, h5, h6, h7, h8, h9⟩ := gmNetDemo_valid td "s2s" "LSTM" none (some [[1]]) (some [[1], [2]])
    (Or.inr rfl)
  have h10 := h9 rfl _ rfl
  obtain ⟨enc, dec, e, -⟩ := C144_build_s2s (K := ℚ) (σ := Unit) (τ := Unit) td _ o h
    ⟨by rw [h1]; simp, Or.inl h2⟩ (by rw [h10]; simp)
  refine ⟨_, o, (enc, dec), h, e, ?_⟩
  intro K _ N store inp r hb hne hl
  exact C144_decoder_layers_violated N store hne _ hl (by rw [hb, h10, h1]; decide) inp r

end Kats
