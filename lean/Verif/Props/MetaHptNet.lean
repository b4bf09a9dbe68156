import Verif.Props.MetaHpt
import Verif.Props.GmEvaluate
import Verif.Props.TsStats4

/-!
# C149: the network and the recommendations
-/

namespace Kats

section
variable {V K : Type} [DecidableEq V] [Field K] [LinearOrder K]

/-- A layer with some inputs and some outputs. -/
def HpShape (i o : Nat) (l : HpLayer K) : Prop := l.length = o ∧ ∀ r ∈ l, r.1.length = i

/-- Layers one after another, with the numbers of their outputs. -/
def HpStack : Nat → List Nat → List (HpLayer K) → Prop
  | _, [], [] => True
  | i, o :: os, l :: ls => HpShape i o l ∧ HpStack o os ls
  | _, _, _ => False

/-- The network has the sizes asked for, from the features to one output for each class and each numerical parameter. -/
def HpSized (s : Hp V K) (shared : List Nat) (cats : List (List Nat)) (nums : List Nat) (net : HpNet K) : Prop :=
  HpStack s.dim shared net.shared ∧
    List.Forall₂ (fun (e : List Nat × Nat) ls => HpStack (shared.getLast?.getD s.dim) (e.1 ++ [e.2]) ls) (cats.zip s.nCat) net.cats ∧
    cats.length = s.nCat.length ∧
    (s.target = [] → net.nums = []) ∧ (s.target ≠ [] → HpStack (shared.getLast?.getD s.dim) (nums ++ [s.target.length]) net.nums)

theorem hp_mapM_exists {α β : Type} (f : α → Except Err β) (Q : α → β → Prop) (l : List α) (h : ∀ a ∈ l, ∃ b, f a = .ok b ∧ Q a b) :
    ∃ r, l.mapM f = .ok r ∧ List.Forall₂ Q l r := by
  induction l with
  | nil => exact ⟨[], rfl, .nil⟩
  | cons a l ih =>
    obtain ⟨r, hr, hq⟩ := ih fun x hx => h x (List.mem_cons_of_mem _ hx)
    obtain ⟨b, hb, hab⟩ := h a List.mem_cons_self
    refine ⟨b :: r, ?_, .cons hab hq⟩
    rw [List.mapM_cons, hb, hr]
    rfl

theorem hp_layers (init : List Nat → Nat → Nat → HpLayer K) (hinit : ∀ p i o, HpShape i o (init p i o)) (place : List Nat) (input : Nat) (sizes : List Nat) :
    HpStack input sizes (hpLayers init place input sizes) := by
  unfold hpLayers
  have : ∀ (sizes : List Nat) (input k : Nat),
      HpStack input sizes ((((input :: sizes).zip sizes).zipIdx k).map fun e => init (place ++ [e.2]) e.1.1 e.1.2) := by
    intro sizes
    induction sizes with
    | nil => intro input k; simp [HpStack]
    | cons o os ih =>
      intro input k
      rw [List.zip_cons_cons, List.zipIdx_cons, List.map_cons]
      exact ⟨hinit _ _ _, ih o (k + 1)⟩
  exact this sizes input 0

theorem hp_linear (i o : Nat) (l : HpLayer K) (h : HpShape i o l) (x : List K) (hx : x.length = i) : ∃ y, gmLinear l x = .ok y ∧ y.length = o := by
  refine ⟨_, linear_ok l x fun r hr => by rw [hx]; exact h.2 r hr, ?_⟩
  rw [List.length_map, h.1]

theorem hp_relu_len (x : List K) : (hpRelu x).length = x.length := by simp [hpRelu]

theorem hp_tail (ls : List (HpLayer K)) : ∀ (i o : Nat) (os : List Nat) (y : List K), y.length = i → HpStack i os ls → os.getLast?.getD i = o →
    ∃ z, ls.foldlM (fun y l => gmLinear l (hpRelu y)) y = Except.ok z ∧ z.length = o := by
  induction ls with
  | nil =>
    intro i o os y hy hs ho
    rcases os with _ | ⟨a, os⟩
    · exact ⟨y, rfl, by rw [hy, ← ho]; rfl⟩
    · exact absurd hs (by simp [HpStack])
  | cons l ls ih =>
    intro i o os y hy hs ho
    rcases os with _ | ⟨a, os⟩
    · exact absurd hs (by simp [HpStack])
    · obtain ⟨z, hz, hzl⟩ := hp_linear i a l hs.1 (hpRelu y) (by rw [hp_relu_len, hy])
      obtain ⟨w, hw, hwl⟩ := ih a o os z hzl hs.2 (by rw [← ho, List.getLast?_cons]; rfl)
      refine ⟨w, ?_, hwl⟩
      rw [List.foldlM_cons, hz]
      exact hw

theorem hp_head (ls : List (HpLayer K)) (i o : Nat) (hs : List Nat) (x : List K) (hx : x.length = i) (h : HpStack i (hs ++ [o]) ls) :
    ∃ y, hpHead ls x = .ok y ∧ y.length = o := by
  rcases ls with _ | ⟨l, ls⟩
  · rcases hs with _ | ⟨a, hs⟩ <;> exact absurd h (by simp [HpStack])
  · rcases hs with _ | ⟨a, hs⟩
    · obtain ⟨y, hy, hyl⟩ := hp_linear i o l h.1 x hx
      obtain ⟨z, hz, hzl⟩ := hp_tail ls o o [] y hyl h.2 rfl
      refine ⟨z, ?_, hzl⟩
      show (gmLinear l x >>= _) = _
      rw [hy]
      exact hz
    · obtain ⟨y, hy, hyl⟩ := hp_linear i a l h.1 x hx
      obtain ⟨z, hz, hzl⟩ := hp_tail ls a o (hs ++ [o]) y hyl h.2 (by rw [List.getLast?_append]; rfl)
      refine ⟨z, ?_, hzl⟩
      show (gmLinear l x >>= _) = _
      rw [hy]
      exact hz

theorem hp_shared (ls : List (HpLayer K)) : ∀ (i : Nat) (os : List Nat) (x : List K), x.length = i → HpStack i os ls →
    ∃ z, ls.foldlM (fun x l => do let y ← gmLinear l x; return hpRelu y) x = Except.ok z ∧ z.length = os.getLast?.getD i := by
  induction ls with
  | nil =>
    intro i os x hx hs
    rcases os with _ | ⟨a, os⟩
    · exact ⟨x, rfl, by rw [hx]; rfl⟩
    · exact absurd hs (by simp [HpStack])
  | cons l ls ih =>
    intro i os x hx hs
    rcases os with _ | ⟨a, os⟩
    · exact absurd hs (by simp [HpStack])
    · obtain ⟨z, hz, hzl⟩ := hp_linear i a l hs.1 x hx
      obtain ⟨w, hw, hwl⟩ := ih a os (hpRelu z) (by rw [hp_relu_len, hzl]) hs.2
      refine ⟨w, ?_, by rw [hwl, List.getLast?_cons]; rfl⟩
      rw [List.foldlM_cons, hz]
      exact hw

/-- C149: a network of the right sizes has one output for each class of each categorical parameter, and one for each numerical parameter. -/
theorem C149_forward (s : Hp V K) (shared : List Nat) (cats : List (List Nat)) (nums : List Nat) (net : HpNet K) (h : HpSized s shared cats nums net)
    (x : List K) (hx : x.length = s.dim) : ∃ (o : List (List K)) (q : List K), hpForward net x = .ok (if s.nCat = [] then none else some o,
      if s.target = [] then none else some q) ∧ List.Forall₂ (fun k y => y.length = k) s.nCat o ∧ q.length = s.target.length := by
  obtain ⟨h1, h2, h3, h4, h5⟩ := h
  obtain ⟨z, hz, hzl⟩ := hp_shared net.shared s.dim shared x hx h1
  have hcats : ∃ o, (net.cats.mapM fun l => hpHead l z) = .ok o ∧ List.Forall₂ (fun k y => y.length = k) s.nCat o := by
    obtain ⟨cc, hcc⟩ : ∃ cc, cc = net.cats := ⟨_, rfl⟩
    obtain ⟨nn, hnn⟩ : ∃ nn, nn = s.nCat := ⟨_, rfl⟩
    rw [← hcc] at h2 ⊢
    rw [← hnn] at h2 h3 ⊢
    clear * - h2 h3 hzl
    induction cats generalizing nn cc with
    | nil =>
      rcases nn with _ | ⟨n, nn⟩
      · rcases cc with _ | ⟨c, cc⟩
        · exact ⟨[], rfl, .nil⟩
        · cases h2
      · cases h3
    | cons a cats ih =>
      rcases nn with _ | ⟨n, nn⟩
      · cases h3
      · rw [List.zip_cons_cons] at h2
        rcases h2 with _ | ⟨ha, h2⟩
        rename_i l cc
        obtain ⟨y, hy, hyl⟩ := hp_head l _ n a z hzl ha
        obtain ⟨o, ho, hol⟩ := ih cc nn (by simpa using h3) h2
        refine ⟨y :: o, ?_, .cons hyl hol⟩
        rw [List.mapM_cons, hy, ho]
        rfl
  obtain ⟨o, ho, hol⟩ := hcats
  have hce : net.cats.isEmpty = decide (s.nCat = []) := by
    have e1 := h2.length_eq
    rw [List.length_zip, h3, min_self] at e1
    rcases hn : net.cats with _ | ⟨c, cc⟩ <;> rcases hs : s.nCat with _ | ⟨n, nn⟩
    · rfl
    · rw [hn, hs] at e1
      cases e1
    · rw [hn, hs] at e1
      cases e1
    · rfl
  unfold hpForward
  by_cases ht : s.target = []
  · refine ⟨o, [], ?_, hol, by rw [ht]; rfl⟩
    rw [hz]
    show (List.mapM (fun l => hpHead l z) net.cats >>= _) = _
    rw [ho]
    show (if net.nums.isEmpty = true then _ else _) = _
    rw [h4 ht, if_pos (show ([] : List (HpLayer K)).isEmpty = true from rfl), if_pos ht, hce]
    by_cases hs : s.nCat = [] <;> simp [hs] <;> rfl
  · obtain ⟨q, hq, hql⟩ := hp_head net.nums _ _ nums z hzl (h5 ht)
    have hnn : net.nums.isEmpty = false := by
      rcases hn : net.nums with _ | ⟨l, ls⟩
      · rw [hn] at hq
        cases hq
      · rfl
    refine ⟨o, q, ?_, hol, hql⟩
    rw [hz]
    show (List.mapM (fun l => hpHead l z) net.cats >>= _) = _
    rw [ho]
    show (if net.nums.isEmpty = true then _ else _) = _
    rw [hnn, if_neg (by simp), hq, if_neg ht, hce]
    by_cases hs : s.nCat = [] <;> simp [hs] <;> rfl

/-- C149: a network of one's own is built exactly if all sizes are given, with one list for each categorical parameter, and then has them. -/
theorem C149_network (init : List Nat → Nat → Nat → HpLayer K) (hinit : ∀ p i o, HpShape i o (init p i o)) (s : Hp V K) (hd : s.default = none)
    (shared : Option (List Nat)) (cats : Option (List (List Nat))) (nums : Option (List Nat)) :
    ((∃ net, hpBuild init s shared cats nums = .ok net) ↔ shared ≠ none ∧ nums ≠ none ∧ ∃ l, cats = some l ∧ l.length = s.nCat.length) ∧
    ∀ net, hpBuild init s shared cats nums = .ok net → HpSized s (shared.getD []) (cats.getD []) (nums.getD []) net := by
  have hb : ∀ (z : List Nat × List (List Nat) × List Nat), z.2.1.length = s.nCat.length → HpSized s z.1 z.2.1 z.2.2
      (hpNet init s.dim z.1 (List.zipWith (fun l o => l ++ [o]) z.2.1 s.nCat) (if s.target.length = 0 then [] else z.2.2 ++ [s.target.length])) := by
    intro z hz
    refine ⟨hp_layers init hinit _ _ _, ?_, hz, ?_, ?_⟩
    · show List.Forall₂ _ _ (List.mapIdx _ (List.zipWith _ z.2.1 s.nCat))
      rw [List.forall₂_iff_get]
      refine ⟨by simp, ?_⟩
      intro i h1 h2
      simp only [List.get_eq_getElem, List.getElem_mapIdx, List.getElem_zipWith, List.getElem_zip]
      exact hp_layers init hinit _ _ _
    · intro ht
      simp only [hpNet, ht, List.length_nil, if_true]
      rfl
    · intro ht
      simp only [hpNet]
      rw [if_neg (fun h => ht (List.length_eq_zero_iff.1 h))]
      exact hp_layers init hinit _ _ _
  rcases shared with _ | sh
  · refine ⟨⟨?_, fun h => absurd rfl h.1⟩, ?_⟩
    · rintro ⟨net, h⟩
      unfold hpBuild hpSizes at h
      rw [hd] at h
      cases h
    · intro net h
      unfold hpBuild hpSizes at h
      rw [hd] at h
      cases h
  rcases nums with _ | nu
  · have : hpBuild init s (some sh) cats none = .error .valueError := by
      unfold hpBuild hpSizes
      rw [hd]
      rcases cats with _ | l <;> rfl
    refine ⟨⟨?_, fun h => absurd rfl h.2.1⟩, ?_⟩
    · rintro ⟨net, h⟩
      rw [this] at h
      cases h
    · intro net h
      rw [this] at h
      cases h
  rcases cats with _ | l
  · have : hpBuild init s (some sh) none (some nu) = .error .valueError := by
      unfold hpBuild hpSizes
      rw [hd]
      rfl
    refine ⟨⟨?_, ?_⟩, ?_⟩
    · rintro ⟨net, h⟩
      rw [this] at h
      cases h
    · rintro ⟨_, _, l, h, _⟩
      cases h
    · intro net h
      rw [this] at h
      cases h
  have he : hpBuild init s (some sh) (some l) (some nu) = if l.length ≠ s.nCat.length then .error .valueError
      else .ok (hpNet init s.dim sh (List.zipWith (fun l o => l ++ [o]) l s.nCat) (if s.target.length = 0 then [] else nu ++ [s.target.length])) := by
    unfold hpBuild hpSizes
    rw [hd]
    rfl
  rw [he]
  by_cases hl : l.length = s.nCat.length
  · rw [if_neg (not_not.2 hl)]
    refine ⟨⟨fun _ => ⟨by simp, by simp, l, rfl, hl⟩, fun _ => ⟨_, rfl⟩⟩, ?_⟩
    intro net h
    injection h with h
    rw [← h]
    exact hb (sh, l, nu) hl
  · rw [if_pos hl]
    refine ⟨⟨?_, ?_⟩, ?_⟩
    · rintro ⟨net, h⟩
      cases h
    · rintro ⟨_, _, l', h, h'⟩
      injection h with h
      subst h
      exact absurd h' hl
    · intro net h
      cases h

theorem hp_tables (d : String) (p : List String × List String) (h : hpDefaults.lookup d = some p) :
    d ∈ ["prophet", "arima", "sarima", "holtwinters", "stlf", "theta", "cusum", "statsig"] ∧ p.1.Nodup ∧ p.2.Nodup ∧
      ∃ z, hpNetworks.lookup d = some z ∧ z.2.1.length = p.1.length := by
  have hm : (d, p) ∈ hpDefaults := by
    have : ∀ (l : List (String × List String × List String)), l.lookup d = some p → (d, p) ∈ l := by
      intro l
      induction l with
      | nil => intro h; cases h
      | cons a l ih =>
        intro h
        rcases a with ⟨k, v⟩
        rw [List.lookup_cons] at h
        by_cases hk : d = k
        · subst hk
          simp at h
          rw [h]
          exact List.mem_cons_self
        · rw [beq_eq_false_iff_ne.2 hk] at h
          exact List.mem_cons_of_mem _ (ih h)
    exact this _ h
  simp only [hpDefaults, List.mem_cons, List.not_mem_nil, or_false, Prod.mk.injEq] at hm
  rcases hm with ⟨rfl, rfl⟩ | ⟨rfl, rfl⟩ | ⟨rfl, rfl⟩ | ⟨rfl, rfl⟩ | ⟨rfl, rfl⟩ | ⟨rfl, rfl⟩ | ⟨rfl, rfl⟩ | ⟨rfl, rfl⟩ <;>
    exact ⟨by decide, by decide, by decide, _, rfl, rfl⟩

/-- C149: the settings of a model, in capital letters or not, are those of one of eight models, and a network for them can be built exactly if no sizes are given; names of
parameters cannot be given as well. -/
theorem C149_default (init : List Nat → Nat → Nat → HpLayer K) (hinit : ∀ p i o, HpShape i o (init p i o)) (sort : List V → List V) (std : List K → K)
    (a : HpArgs V K) (d : String) (hd : a.default = some d) (hl : a.load = false) (s : Hp V K) (h : hpInit sort std a = .ok (some s)) :
    d.toLower ∈ ["prophet", "arima", "sarima", "holtwinters", "stlf", "theta", "cusum", "statsig"] ∧ a.cat = none ∧ a.num = none ∧
    (∃ net shared cats nums, hpBuild init s none none none = .ok net ∧ HpSized s shared cats nums net) ∧
    (∀ shared cats nums, shared ≠ none ∨ cats ≠ none ∨ nums ≠ none → hpBuild init s shared cats nums = .error .valueError) ∧
    ∃ c n, hpInit sort std { a with default := none, cat := some c, num := some n } = .ok (some { s with default := none }) := by
  rcases hx : a.dataX with _ | fx
  · unfold hpInit at h
    simp only [hl, hx] at h
    cases h
  rcases hy : a.dataY with _ | fy
  · unfold hpInit at h
    simp only [hl, hx, hy] at h
    cases h
  obtain ⟨names, target, cols, c', hn, hne, ht, hcols, hv, e⟩ := (hp_init_ok sort std a fx fy hx hy hl _).1 h
  rw [hd] at hn
  simp only [Option.map_some, hpNames] at hn
  split at hn
  · cases hn
  rename_i hcn
  push Not at hcn
  have hc1 : a.cat = none := by
    rcases hc : a.cat with _ | x
    · rfl
    · rw [hc] at hcn
      exact absurd rfl hcn.1
  have hc2 : a.num = none := by
    rcases hc : a.num with _ | x
    · rfl
    · rw [hc] at hcn
      exact absurd rfl hcn.2
  rcases hlk : hpDefaults.lookup d.toLower with _ | p
  · rw [hlk] at hn
    cases hn
  rw [hlk] at hn
  injection hn with hn
  subst hn
  simp only [Option.getD_some] at hne ht hcols hv
  obtain ⟨t1, _, _, z, hz, hzl⟩ := hp_tables _ _ hlk
  injection e with e
  have hnl : s.nCat.length = p.1.length := by rw [e]; simp [hcols.length_eq]
  have hdef : s.default = some d.toLower := by rw [e, hd]; rfl
  have hbuild : ∀ shared cats nums, hpBuild init s shared cats nums = if shared.isSome ∨ cats.isSome ∨ nums.isSome then .error .valueError
      else hpBuild init { s with default := none } (some z.1) (some z.2.1) (some z.2.2) := by
    intro shared cats nums
    unfold hpBuild hpSizes
    rw [hdef]
    simp only [hz]
    by_cases hcc : shared.isSome ∨ cats.isSome ∨ nums.isSome
    · rw [if_pos hcc, if_pos hcc]
      rfl
    · rw [if_neg hcc, if_neg hcc]
  refine ⟨t1, hc1, hc2, ?_, ?_, p.1, p.2, ?_⟩
  · obtain ⟨h1, h2⟩ := C149_network init hinit { s with default := none } rfl (some z.1) (some z.2.1) (some z.2.2)
    obtain ⟨net, hnet⟩ := h1.2 ⟨by simp, by simp, z.2.1, rfl, by rw [hzl]; exact hnl.symm⟩
    refine ⟨net, z.1, z.2.1, z.2.2, ?_, h2 net hnet⟩
    rw [hbuild, if_neg (by simp)]
    exact hnet
  · intro shared cats nums hor
    rw [hbuild, if_pos]
    rcases hor with h | h | h
    · exact Or.inl (Option.isSome_iff_ne_none.2 h)
    · exact Or.inr (Or.inl (Option.isSome_iff_ne_none.2 h))
    · exact Or.inr (Or.inr (Option.isSome_iff_ne_none.2 h))
  · refine (hp_init_ok sort std { a with dataX := some fx, dataY := some fy, default := none, cat := some p.1, num := some p.2 } fx fy rfl rfl hl _).2 ⟨(some p.1, some p.2), target, cols, c', rfl, hne, ht, hcols, hv, ?_⟩
    rw [e]
    rfl

end

/-- Weights one and biases zero, for the examples. -/
def hpExInit (_ : List Nat) (i o : Nat) : HpLayer Rat := List.replicate o (List.replicate i 1, 0)

example (p : List Nat) (i o : Nat) : HpShape i o (hpExInit p i o) := by
  unfold HpShape hpExInit
  refine ⟨List.length_replicate, ?_⟩
  intro r hr
  rw [List.eq_of_mem_replicate hr, List.length_replicate]

example : ((do
    let s ← hpInit (List.insertionSort (· ≤ ·)) (fun _ => 1) hpExArgs
    match s with
    | none => Except.error Err.otherError
    | some s => do
      let n ← hpBuild hpExInit s (some [2]) (some [[3]]) (some [])
      hpForward n [-1]).toOption = some (some [[0, 0]], some [0])) ∧
    ((do
    let s ← hpInit (List.insertionSort (· ≤ ·)) (fun _ => 1) hpExArgs
    match s with
    | none => Except.error Err.otherError
    | some s => do
      let n ← hpBuild hpExInit s (some [2]) (some [[3]]) (some [])
      hpForward n [5]).toOption = some (some [[30, 30]], some [10])) := by
  refine ⟨?_, ?_⟩ <;> decide +kernel

/-- C149: the parameters that are searched for each model that is known by name. -/
theorem C149_names :
    hpNames none none (some "holtwinters") = .ok (some ["trend", "damped", "seasonal", "seasonal_periods"], some [])
    ∧ hpNames none none (some "arima") = .ok (some ["p", "d", "q"], some [])
    ∧ hpNames none none (some "sarima") = .ok (some ["seasonal_order", "trend", "p", "d", "q"], some [])
    ∧ hpNames none none (some "theta") = .ok (some ["m"], some [])
    ∧ hpNames none none (some "stlf") = .ok (some ["method", "m"], some [])
    ∧ hpNames none none (some "cusum") = .ok (some ["score_func"], some ["delta_std_ratio", "scan_window", "historical_window"])
    ∧ hpNames none none (some "statsig") = .ok (some [], some ["n_control", "n_test"])
    ∧ ∃ c, hpNames none none (some "prophet") = .ok (some c, some [])
      ∧ ∀ k, k ∈ c ↔ k ∈ ["yearly_seasonality", "weekly_seasonality", "daily_seasonality", "seasonality_mode",
        "seasonality_prior_scale", "changepoint_prior_scale", "changepoint_range"] :=
  ⟨rfl, rfl, rfl, rfl, rfl, rfl, rfl, _, rfl, fun _ => Iff.rfl⟩

section
variable {K : Type} [Field K] [LinearOrder K]

/-- C149: a unit of a hidden layer passes on its value if it is not negative and nothing otherwise.  Rows for which all
units of the first hidden layer are silent get the same output; if none is silent, the layer is linear. -/
theorem C149_units (net : HpNet K) (l : HpLayer K) (ls : List (HpLayer K)) (hs : net.shared = l :: ls) (x y : List K) (hy : gmLinear l x = .ok y) :
    ((∀ v ∈ y, 0 ≤ v) → hpForward net x = hpForward { net with shared := ls } y)
    ∧ ((∀ v ∈ y, v ≤ 0) → hpForward net x = hpForward { net with shared := ls } (List.replicate y.length 0)) := by
  have key : ∀ z, hpRelu y = z → hpForward net x = hpForward { net with shared := ls } z := by
    intro z hz
    unfold hpForward
    rw [hs, List.foldlM_cons, hy, ← hz]
    rfl
  refine ⟨fun h => key _ ?_, fun h => key _ ?_⟩
  · unfold hpRelu
    conv_rhs => rw [← List.map_id y]
    exact List.map_congr_left fun v hv => max_eq_left (h v hv)
  · unfold hpRelu
    rw [← List.map_const']
    exact List.map_congr_left fun v hv => max_eq_right (h v hv)

end

/-- A hidden layer that is silent at one row and not at another. -/
example : gmLinear [([2], -3)] [(1 : Rat)] = .ok [-1] ∧ gmLinear [([2], -3)] [(5 : Rat)] = .ok [7] := by
  refine ⟨?_, ?_⟩ <;> decide +kernel

end Kats
