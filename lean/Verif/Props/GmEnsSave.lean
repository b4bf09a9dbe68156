import Verif.Props.GmEnsTrain

/-!
# C142: saving and loading an ensemble of global models
-/

namespace Kats

section
variable {W H I : Type}

/-- A network of a type of model is there and its weights have the shape of a new one. -/
def GmNetThere (fits : String → W → Bool) (kind : String) (x : GmNets W H) : Prop :=
  x.kind = kind ∧ (kind = "rnn" → ∃ n, x.rnn = some n ∧ fits "rnn" n.weights = true) ∧
    (kind = "s2s" → ∃ e d, x.encoder = some e ∧ x.decoder = some d ∧ fits "encoder" e.weights = true ∧
      fits "decoder" d.weights = true)

/-- An ensemble with all its networks. -/
structure GmEnsThere (fits : String → W → Bool) (m : GmEnsModel W H I) : Prop where
  kind : m.kind = "rnn" ∨ m.kind = "s2s"
  some : m.nets ≠ []
  nets : ∀ x ∈ m.nets, GmNetThere fits m.kind x
  made : ∃ cores a, 1 ≤ cores ∧ gmEnsInit cores a = .ok m.ens

/-- The second model has the weights of the first, in networks that are new otherwise. -/
def GmSameWeights (kind : String) (x y : GmNets W H) : Prop :=
  y.kind = kind ∧ (kind = "rnn" → ∃ n, x.rnn = some n ∧ y.rnn = some ⟨n.weights, true, none⟩) ∧
    (kind = "s2s" → ∃ e d, x.encoder = some e ∧ x.decoder = some d ∧ y.encoder = some ⟨e.weights, true, none⟩ ∧
      y.decoder = some ⟨d.weights, true, none⟩)

/-- An ensemble can be made again from its attributes; only the number of cores may become smaller. -/
theorem ens_again (cores0 : Nat) (h0 : 1 ≤ cores0) (a : GmEnsArgs) (e : GmEns) (he : gmEnsInit cores0 a = .ok e)
    (cores : Nat) (hc : 1 ≤ cores) :
    gmEnsInit cores (gmEnsArgs cores e) = .ok { e with maxCore := min e.maxCore cores } := by
  obtain ⟨⟨i1, _⟩, _, i3⟩ := C142_init cores0 h0 a
  obtain ⟨k1, _⟩ := i1 ⟨e, he⟩
  obtain ⟨f1, f2, f3, f4, f5, f6, f7, f8, f9, f10, f11, _⟩ := i3 e he
  obtain ⟨⟨_, j2⟩, _, j3⟩ := C142_init cores hc (gmEnsArgs cores e)
  obtain ⟨e', he'⟩ := j2 ⟨by rw [← f1] at k1; exact k1, Or.inl ⟨_, by exact_mod_cast f7, rfl⟩,
    Or.inl ⟨_, by exact_mod_cast f8, rfl⟩, by
      intro c hc'
      injection hc' with hc'
      subst hc'
      refine ⟨Or.inl ⟨_, ?_, rfl⟩, ?_⟩
      · have : 1 ≤ min e.maxCore cores := by omega
        exact_mod_cast this
      · show ((min e.maxCore cores : Nat) : Int) ≤ cores
        have : min e.maxCore cores ≤ cores := by omega
        exact_mod_cast this⟩
  obtain ⟨g1, g2, g3, g4, g5, g6, _, _, _, _, _, g12⟩ := j3 e' he'
  have g12 := g12 _ rfl
  have s2 : e'.splits = e.splits := Int.ofNat.inj g2
  have s4 : e'.replicate = e.replicate := Int.ofNat.inj g4
  have s12 : e'.maxCore = min e.maxCore cores := Int.ofNat.inj g12
  rw [he']
  obtain ⟨a1, a2, a3, a4, a5, a6, a7⟩ := e
  obtain ⟨b1, b2, b3, b4, b5, b6, b7⟩ := e'
  simp only [gmEnsArgs] at *
  subst g1 s2 g3 s4 g6 s12
  rw [g5, f5]

theorem mapM_index {α β : Type} (f : α → Except Err β) (Q : α → β → Prop) (l : List α)
    (h : ∀ x ∈ l, ∃ y, f x = .ok y ∧ Q x y) : ∃ r, l.mapM f = .ok r ∧ r.length = l.length ∧
      ∀ (i : Nat) x, l[i]? = some x → ∃ y, r[i]? = some y ∧ Q x y := by
  induction l with
  | nil => exact ⟨[], rfl, rfl, by simp⟩
  | cons a l ih =>
    obtain ⟨r, h1, h2, h3⟩ := ih fun x hx => h x (by simp [hx])
    obtain ⟨y, y1, y2⟩ := h a (by simp)
    refine ⟨y :: r, ?_, by simp [h2], ?_⟩
    · rw [List.mapM_cons, y1, h1]
      rfl
    · intro i x hx
      rcases i with _ | i
      · simp only [List.getElem?_cons_zero] at hx
        injection hx with hx
        subst hx
        exact ⟨y, rfl, y2⟩
      · simp only [List.getElem?_cons_succ] at hx ⊢
        exact h3 i x hx

/-- A network that is there is loaded. -/
theorem load_there (fits : String → W → Bool) (kind : String) (hk : kind = "rnn" ∨ kind = "s2s") (x : GmNets W H)
    (h : GmNetThere fits kind x) (s : GmSaved W) (hs : s.kind = kind)
    (h1 : kind = "rnn" → s.state = x.rnn.map (·.weights))
    (h2 : kind = "s2s" → s.encoder = x.encoder.map (·.weights) ∧ s.decoder = x.decoder.map (·.weights)) :
    ∃ y : GmNets W H, gmLoad fits s = .ok y ∧ GmSameWeights kind x y := by
  obtain ⟨sk, st, en, de⟩ := s
  simp only at hs h1 h2
  subst hs
  obtain ⟨_, a, b⟩ := h
  rcases hk with rfl | rfl
  · obtain ⟨n, n1, n2⟩ := a rfl
    have h1 := h1 rfl
    rw [n1] at h1
    refine ⟨⟨"rnn", some ⟨n.weights, true, none⟩, none, none⟩, ?_, rfl, fun _ => ⟨n, n1, rfl⟩, fun h => absurd h (by decide)⟩
    unfold gmLoad gmLoadWeights
    simp only [if_pos, h1, Option.map_some]
    rw [if_pos n2]
    rfl
  · obtain ⟨e, d, e1, d1, e2, d2⟩ := b rfl
    obtain ⟨h3, h4⟩ := h2 rfl
    rw [e1] at h3
    rw [d1] at h4
    refine ⟨⟨"s2s", none, some ⟨d.weights, true, none⟩, some ⟨e.weights, true, none⟩⟩, ?_, rfl,
      fun h => absurd h (by decide), fun _ => ⟨e, d, e1, d1, rfl, rfl⟩⟩
    unfold gmLoad gmLoadWeights
    rw [if_neg (show ("s2s" : String) ≠ "rnn" by decide), if_pos rfl]
    simp only [h3, h4, Option.map_some]
    rw [if_pos e2, if_pos d2]
    rfl

/-- A reset network has the weights that it had. -/
theorem reset_there (fits : String → W → Bool) (kind : String) (hk : kind = "rnn" ∨ kind = "s2s") (x : GmNets W H)
    (h : GmNetThere fits kind x) : ∃ y : GmNets W H, gmReset x = .ok y ∧ GmNetThere fits kind y ∧
      y.rnn.map (·.weights) = x.rnn.map (·.weights) ∧ y.encoder.map (·.weights) = x.encoder.map (·.weights) ∧
      y.decoder.map (·.weights) = x.decoder.map (·.weights) := by
  obtain ⟨xk, xr, xd, xe⟩ := x
  obtain ⟨h0, a, b⟩ := h
  simp only at h0 a b
  subst h0
  rcases hk with rfl | rfl
  · obtain ⟨n, n1, n2⟩ := a rfl
    subst n1
    refine ⟨⟨"rnn", some { n with hidden := none }, xd, xe⟩, rfl, ⟨rfl, fun _ => ⟨_, rfl, n2⟩, fun h => absurd h (by decide)⟩,
      rfl, rfl, rfl⟩
  · obtain ⟨e, d, e1, d1, e2, d2⟩ := b rfl
    subst e1 d1
    refine ⟨⟨"s2s", xr, some { d with hidden := none }, some { e with hidden := none }⟩, ?_,
      ⟨rfl, fun h => absurd h (by decide), fun _ => ⟨_, _, rfl, rfl, e2, d2⟩⟩, rfl, rfl, rfl⟩
    unfold gmReset
    rw [if_neg (show ("s2s" : String) ≠ "rnn" by decide), if_pos rfl]
    rfl

/-- The weights of one network of every model. -/
theorem ens_dict (b : Bool) (f : GmNets W H → Option (GmNet W H)) (nets : List (GmNets W H))
    (h : b = true → ∀ x ∈ nets, ∃ n, f x = some n) : ∃ d, gmEnsDict b f nets = .ok d ∧
      (b = false → d = none) ∧ (b = true → ∃ l, d = some l ∧ l.length = nets.length ∧
        ∀ (i : Nat) x, nets[i]? = some x → gmEntry d i = (f x).map (·.weights)) := by
  cases b with
  | false => exact ⟨none, rfl, fun _ => rfl, fun h => by cases h⟩
  | true =>
    obtain ⟨r, r1, r2, r3⟩ := mapM_index (fun m => gmStateDict (f m)) (fun x w => (f x).map (·.weights) = some w) nets (by
      intro x hx
      obtain ⟨n, hn⟩ := h rfl x hx
      exact ⟨n.weights, by rw [hn]; rfl, by rw [hn]; rfl⟩)
    refine ⟨some r, ?_, (fun h => by cases h), fun _ => ⟨r, rfl, r2, ?_⟩⟩
    · unfold gmEnsDict
      rw [if_pos rfl, r1]
      rfl
    · intro i x hx
      obtain ⟨w, w1, w2⟩ := r3 i x hx
      rw [w2]
      exact w1

/-- C142: an ensemble that is saved and loaded has the same type of models, the same attributes (with no more cores
than there are) and the same information on its training, and its models have the same weights, in order. -/
theorem C142_saved (m : GmEnsModel W H I) (fits : String → W → Bool) (h : GmEnsThere fits m) (cores : Nat)
    (hc : 1 ≤ cores) : ∃ s, gmEnsSave m = .ok s ∧ s.testIds = m.testIds ∧
      ∃ m' : GmEnsModel W H I, gmEnsLoad cores fits s = .ok m' ∧
        m'.kind = m.kind ∧ m'.ens = { m.ens with maxCore := min m.ens.maxCore cores } ∧ m'.info = m.info ∧
        m'.nets.length = m.nets.length ∧
        ∀ (i : Nat) x, m.nets[i]? = some x → ∃ y, m'.nets[i]? = some y ∧ GmSameWeights m.kind x y := by
  obtain ⟨cores0, a, hc0, hmade⟩ := h.made
  obtain ⟨kind, ens, nets, info, ids⟩ := m
  obtain ⟨hk, hne, hn, _⟩ := h
  simp only at hk hne hn hmade ⊢
  obtain ⟨R, r1, r2, r3⟩ := mapM_index gmReset (fun x y => GmNetThere fits kind y ∧
      y.rnn.map (·.weights) = x.rnn.map (·.weights) ∧ y.encoder.map (·.weights) = x.encoder.map (·.weights) ∧
      y.decoder.map (·.weights) = x.decoder.map (·.weights)) nets fun x hx => reset_there fits kind hk x (hn x hx)
  have hR : ∀ y ∈ R, GmNetThere fits kind y := by
    intro y hy
    obtain ⟨i, hi, rfl⟩ := List.getElem_of_mem hy
    obtain ⟨y', y1, y2, _⟩ := r3 i _ (List.getElem?_eq_getElem (by omega))
    rw [List.getElem?_eq_getElem hi] at y1
    injection y1 with y1
    rw [y1]
    exact y2
  obtain ⟨ds, s1, s2, s3⟩ := ens_dict (kind == "rnn") (·.rnn) R (by
    intro hb y hy
    obtain ⟨n, h, _⟩ := (hR y hy).2.1 (by simpa using hb)
    exact ⟨n, h⟩)
  obtain ⟨de, e1, e2, e3⟩ := ens_dict (kind == "s2s") (·.encoder) R (by
    intro hb y hy
    obtain ⟨e, d, h, _⟩ := (hR y hy).2.2 (by simpa using hb)
    exact ⟨e, h⟩)
  obtain ⟨dd, d1, d2, d3⟩ := ens_dict (kind == "s2s") (·.decoder) R (by
    intro hb y hy
    obtain ⟨e, d, _, h, _⟩ := (hR y hy).2.2 (by simpa using hb)
    exact ⟨d, h⟩)
  refine ⟨⟨kind, ds, de, dd, info, ids, ens⟩, ?_, rfl, ?_⟩
  · unfold gmEnsSave
    rw [if_neg (by simpa using hne)]
    show gmEnsWrap false (nets.mapM gmReset >>= fun nets => _) = _
    rw [r1]
    show gmEnsWrap false (gmEnsDict (kind == "rnn") (·.rnn) R >>= fun s => _) = _
    rw [s1]
    show gmEnsWrap false (gmEnsDict (kind == "s2s") (·.encoder) R >>= fun s => _) = _
    rw [e1]
    show gmEnsWrap false (gmEnsDict (kind == "s2s") (·.decoder) R >>= fun s => _) = _
    rw [d1]
    rfl
  · have hcount : gmEnsCount ds de = .ok nets.length := by
      rcases hk with rfl | rfl
      · obtain ⟨l, l1, l2, _⟩ := s3 rfl
        rw [l1]
        show Except.ok l.length = _
        rw [l2, r2]
      · obtain ⟨l, l1, l2, _⟩ := e3 rfl
        rw [s2 rfl, l1]
        show Except.ok l.length = _
        rw [l2, r2]
    obtain ⟨N, n1, n2, n3⟩ := mapM_exists (fun i => gmLoad (H := H) fits ⟨if kind = "rnn" then "rnn" else "s2s", gmEntry ds i,
      gmEntry de i, gmEntry dd i⟩) (fun i y => ∃ x, nets[i]? = some x ∧ GmSameWeights kind x y) nets.length (by
        intro i hi
        have hx := List.getElem?_eq_getElem hi
        obtain ⟨y, y1, _, y3, y4, y5⟩ := r3 i _ hx
        obtain ⟨z, z1, z2⟩ := load_there fits kind hk nets[i] (hn _ (List.getElem_mem hi))
          ⟨if kind = "rnn" then "rnn" else "s2s", gmEntry ds i, gmEntry de i, gmEntry dd i⟩ (by
            rcases hk with rfl | rfl <;> rfl) (by
            intro hr
            obtain ⟨l, _, _, l3⟩ := s3 (by simpa using hr)
            show gmEntry ds i = _
            rw [l3 i y y1, y3]) (by
            intro hr
            obtain ⟨l, _, _, l3⟩ := e3 (by simpa using hr)
            obtain ⟨l', _, _, l3'⟩ := d3 (by simpa using hr)
            show gmEntry de i = _ ∧ gmEntry dd i = _
            rw [l3 i y y1, y4, l3' i y y1, y5]
            exact ⟨rfl, rfl⟩)
        exact ⟨z, z1, _, hx, z2⟩)
    refine ⟨⟨kind, { ens with maxCore := min ens.maxCore cores }, N, info, []⟩, ?_, rfl, rfl, rfl, n2, ?_⟩
    · unfold gmEnsLoad
      simp only []
      rw [hcount]
      show gmEnsWrap false ((List.range nets.length).mapM _ >>= fun nets => _) = _
      rw [n1]
      show gmEnsWrap false (gmEnsInit cores (gmEnsArgs cores ens) >>= fun e => _) = _
      rw [ens_again cores0 hc0 a ens hmade cores hc]
      rfl
    · intro i x hx
      have hi : i < N.length := by
        rw [n2]
        exact (List.getElem?_eq_some_iff.1 hx).1
      obtain ⟨_, x', x1, x2⟩ := n3 i _ (List.getElem?_eq_getElem hi)
      rw [hx] at x1
      injection x1 with x1
      subst x1
      exact ⟨N[i], List.getElem?_eq_getElem hi, x2⟩

/-- C142 violated: the keys of the test set are saved, but a loaded ensemble has none of them. -/
theorem C142_test_ids_violated (s : GmEnsSaved W I) (cores : Nat) (fits : String → W → Bool)
    (m' : GmEnsModel W H I) (h : gmEnsLoad cores fits s = .ok m') : m'.testIds = [] := by
  unfold gmEnsLoad gmEnsWrap at h
  split at h
  · rename_i x hx
    injection h with h
    subst h
    obtain ⟨n, _, hx⟩ := (gm_bind_ok _ _ _).1 hx
    obtain ⟨N, _, hx⟩ := (gm_bind_ok _ _ _).1 hx
    obtain ⟨e, _, hx⟩ := (gm_bind_ok _ _ _).1 hx
    injection hx with hx
    subst hx
    rfl
  · cases h

/-- C142: what cannot be saved gives a ValueError: an ensemble without models, or with a model without networks. -/
theorem C142_save_refused (m : GmEnsModel W H I) :
    (∀ e, gmEnsSave m = .error e → e = .valueError) ∧ (m.nets = [] → gmEnsSave m = .error .valueError) ∧
    ((∃ x ∈ m.nets, x.rnn = none ∧ x.encoder = none) → gmEnsSave m = .error .valueError) := by
  have h1 : ∀ e, gmEnsSave m = .error e → e = .valueError := by
    intro e h
    unfold gmEnsSave gmEnsWrap at h
    split at h
    · injection h with h
      exact h.symm
    · split at h
      · cases h
      · injection h with h
        simpa using h.symm
  refine ⟨h1, fun h => by unfold gmEnsSave; rw [if_pos (by rw [h]; rfl)], ?_⟩
  rintro ⟨x, hx, a, b⟩
  rcases hs : gmEnsSave m with e | s
  · rw [h1 e hs]
  · exfalso
    unfold gmEnsSave gmEnsWrap at hs
    split at hs
    · cases hs
    · split at hs
      · rename_i y hy
        obtain ⟨n, hn, _⟩ := (gm_bind_ok _ _ _).1 hy
        obtain ⟨z, _, hz⟩ := (mapM_ok_mem _ _ _ hn).1 x hx
        unfold gmReset at hz
        rw [a, b] at hz
        split at hz
        · cases hz
        · split at hz <;> cases hz
      · cases hs

/-- C142: as JSON an ensemble keeps the same, if JSON can hold what its training gave. -/
theorem C142_json (json : I → Bool) (m : GmEnsModel W H I) (fits : String → W → Bool) (h : GmEnsThere fits m)
    (hj : ∀ x ∈ m.info, json x = true) (cores : Nat) (hc : 1 ≤ cores) :
    ∃ s, gmEnsToJson json m = .ok s ∧
      ∃ m' : GmEnsModel W H I, gmEnsFromJson cores fits s = .ok m' ∧
        m'.kind = m.kind ∧ m'.ens = { m.ens with maxCore := min m.ens.maxCore cores } ∧ m'.info = m.info ∧
        m'.nets.length = m.nets.length ∧
        ∀ (i : Nat) x, m.nets[i]? = some x → ∃ y, m'.nets[i]? = some y ∧ GmSameWeights m.kind x y := by
  obtain ⟨cores0, a, hc0, hmade⟩ := h.made
  obtain ⟨kind, ens, nets, info, ids⟩ := m
  obtain ⟨hk, hne, hn, _⟩ := h
  simp only at hk hne hn hmade hj ⊢
  obtain ⟨D, d1, d2, d3⟩ := mapM_index (gmNnDict kind) (fun (x : GmNets W H) s => s.kind = kind ∧
      (kind = "rnn" → s.state = x.rnn.map (·.weights)) ∧
      (kind = "s2s" → s.encoder = x.encoder.map (·.weights) ∧ s.decoder = x.decoder.map (·.weights))) nets (by
    intro x hx
    obtain ⟨_, p, q⟩ := hn x hx
    rcases hk with rfl | rfl
    · obtain ⟨n, n1, _⟩ := p rfl
      refine ⟨⟨"rnn", some n.weights, none, none⟩, ?_, rfl, fun _ => by rw [n1]; rfl, fun h => absurd h (by decide)⟩
      unfold gmNnDict
      rw [if_pos rfl, n1]
      rfl
    · obtain ⟨e, d, e1, f1, _⟩ := q rfl
      refine ⟨⟨"s2s", none, some e.weights, some d.weights⟩, ?_, rfl, fun h => absurd h (by decide), fun _ => by
        rw [e1, f1]; exact ⟨rfl, rfl⟩⟩
      unfold gmNnDict
      rw [if_neg (show ("s2s" : String) ≠ "rnn" by decide), e1, f1]
      rfl)
  refine ⟨⟨kind, ens, info, D⟩, ?_, ?_⟩
  · unfold gmEnsToJson
    rw [d1]
    show (if info.all json = true then _ else _) = _
    rw [if_pos (by rw [List.all_eq_true]; exact hj)]
    rfl
  · obtain ⟨N, n1, n2, n3⟩ := mapM_index (fun x : GmSaved W => gmLoad (H := H) fits ⟨kind, x.state, x.encoder, x.decoder⟩)
      (fun s y => ∀ x, GmNetThere fits kind x → (kind = "rnn" → s.state = x.rnn.map (·.weights)) →
        (kind = "s2s" → s.encoder = x.encoder.map (·.weights) ∧ s.decoder = x.decoder.map (·.weights)) →
        GmSameWeights kind x y) D (by
        intro s hs
        obtain ⟨i, hi, rfl⟩ := List.getElem_of_mem hs
        have hx := List.getElem?_eq_getElem (show i < nets.length by omega)
        obtain ⟨s', s1, s2, s3, s4⟩ := d3 i _ hx
        rw [List.getElem?_eq_getElem hi] at s1
        injection s1 with s1
        subst s1
        obtain ⟨y, y1, _⟩ := load_there fits kind hk _ (hn _ (List.getElem_mem (show i < nets.length by omega)))
          ⟨kind, D[i].state, D[i].encoder, D[i].decoder⟩ rfl s3 s4
        refine ⟨y, y1, ?_⟩
        intro x hx hx1 hx2
        obtain ⟨y', y1', y2'⟩ := load_there fits kind hk x hx ⟨kind, D[i].state, D[i].encoder, D[i].decoder⟩ rfl hx1 hx2
        rw [y1] at y1'
        injection y1' with y1'
        rw [y1']
        exact y2')
    refine ⟨⟨kind, { ens with maxCore := min ens.maxCore cores }, N, info, []⟩, ?_, rfl, rfl, rfl, by
      show N.length = nets.length; omega, ?_⟩
    · unfold gmEnsFromJson
      simp only []
      rw [ens_again cores0 hc0 a ens hmade cores hc]
      show ((D.mapM fun x : GmSaved W => gmLoad (H := H) fits ⟨kind, x.state, x.encoder, x.decoder⟩) >>= fun nets => _) = _
      rw [n1]
      rfl
    · intro i x hx
      obtain ⟨s, s1, s2, s3, s4⟩ := d3 i x hx
      obtain ⟨y, y1, y2⟩ := n3 i s s1
      exact ⟨y, y1, y2 x (hn x (List.mem_of_getElem? hx)) s3 s4⟩

/-- C142 violated: an ensemble whose models were trained with a test set, as is the default, cannot be turned into
JSON: what its training gave holds the frames of the evaluations. -/
theorem C142_json_violated (m : GmEnsModel W H GmInfo) (fits : String → W → Bool) (h : GmEnsThere fits m)
    (losses : List Rat) (test : Nat → List (Nat × GmKey)) (epochs : Nat) (he : 1 ≤ epochs)
    (hi : gmTrainInfo losses (some test) epochs ∈ m.info) : gmEnsToJson GmInfo.json m = .error .typeError := by
  have hj : m.info.all GmInfo.json = false := by
    rw [List.all_eq_false]
    refine ⟨_, hi, ?_⟩
    simp only [gmTrainInfo, GmInfo.json, Option.map_some, Option.getD_some, List.isEmpty_iff, List.map_eq_nil_iff,
      List.range_eq_nil]
    omega
  obtain ⟨D, d1, _⟩ := mapM_index (gmNnDict m.kind) (fun _ _ => True) m.nets (by
    intro x hx
    obtain ⟨_, p, q⟩ := h.nets x hx
    unfold gmNnDict
    rcases h.kind with hk | hk
    · obtain ⟨n, n1, _⟩ := p hk
      rw [if_pos hk, n1]
      exact ⟨_, rfl, trivial⟩
    · obtain ⟨e, d, e1, f1, _⟩ := q hk
      rw [if_neg (by rw [hk]; decide), e1, f1]
      exact ⟨_, rfl, trivial⟩)
  unfold gmEnsToJson
  rw [d1]
  show (if m.info.all GmInfo.json = true then _ else _) = _
  rw [if_neg (by rw [hj]; decide)]

end

/-! ## An example -/

/-- An ensemble of two models. -/
def gmExEns (info : List GmInfo) : GmEnsModel Nat Nat GmInfo :=
  ⟨"s2s", ⟨"median", 2, false, 1, 2, false, 6⟩, [⟨"s2s", none, some ⟨2, true, some 7⟩, some ⟨1, true, none⟩⟩,
    ⟨"s2s", none, some ⟨4, false, none⟩, some ⟨3, true, none⟩⟩], info, [.int 5]⟩

theorem gmExEns_there (info : List GmInfo) : GmEnsThere (fun n w => decide (n = "encoder" ↔ w % 2 = 1)) (gmExEns info) := by
  refine ⟨Or.inr rfl, by simp [gmExEns], ?_, 8, ⟨"median", .int 2, false, .int 1, false, some (.int 6)⟩, by omega, ?_⟩
  · intro x hx
    simp only [gmExEns, List.mem_cons, List.not_mem_nil, or_false] at hx
    rcases hx with rfl | rfl
    · exact ⟨rfl, fun h => absurd h (show ("s2s" : String) ≠ "rnn" by decide), fun _ => ⟨_, _, rfl, rfl, by decide, by decide⟩⟩
    · exact ⟨rfl, fun h => absurd h (show ("s2s" : String) ≠ "rnn" by decide), fun _ => ⟨_, _, rfl, rfl, by decide, by decide⟩⟩
  · have : (gmEnsInit 8 ⟨"median", .int 2, false, .int 1, false, some (.int 6)⟩).toOption =
        some ⟨"median", 2, false, 1, 2, false, 6⟩ := by decide +kernel
    rcases h : gmEnsInit 8 ⟨"median", .int 2, false, .int 1, false, some (.int 6)⟩ with e | x
    · rw [h] at this; cases this
    · rw [h] at this
      injection this with this
      rw [this]
      rfl

/-- On a computer with four cores it has four cores, and no test set. -/
example : ∃ s m', gmEnsSave (gmExEns []) = .ok s ∧ s.testIds = [.int 5] ∧
    gmEnsLoad 4 (fun n w => decide (n = "encoder" ↔ w % 2 = 1)) s = .ok m' ∧ m'.ens.maxCore = 4 ∧
    (m'.testIds = [] ∧ (m' : GmEnsModel Nat Nat GmInfo).nets.length = 2) := by
  obtain ⟨s, s1, s2, m', m1, _, m3, _, m5, _⟩ := C142_saved (gmExEns []) _ (gmExEns_there []) 4 (by omega)
  exact ⟨s, m', s1, s2, m1, by rw [m3]; rfl, C142_test_ids_violated s 4 _ m' m1, m5⟩

/-- Trained with a test set, for one epoch. -/
example : gmEnsToJson GmInfo.json (gmExEns [gmTrainInfo [1] (some fun _ => [(0, .int 5)]) 1]) = .error .typeError :=
  C142_json_violated _ _ (gmExEns_there _) [1] (fun _ => [(0, .int 5)]) 1 (by omega) (by simp [gmExEns])

end Kats
