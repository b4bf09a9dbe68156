import Verif.Model.Cupik
import Mathlib.Data.List.Basic

/-!
# C123: the pipeline
-/

namespace Kats

variable {S D P O Y : Type}

/-- The state a model step is left in by series one after the other. -/
def fitAll (st : PipeStep S D P O Y) (g : S → S) (ds : List D) (s : S) : S := ds.foldl (fun s d => g (st.setData d s)) s

theorem modelLoop_ok (uni : D → Bool) (st : PipeStep S D P O Y) (k : Nat) (e : PipeExtra P) (g : S → S)
    (hg : ∀ s, st.fit e s = .ok (g s)) (ds : List D) : ∀ s, (∀ d ∈ ds, uni d = true) →
    modelLoop uni st k e (ds.map .ts) s = .ok (List.replicate ds.length (.model k), fitAll st g ds s) := by
  induction ds with
  | nil => intro s _; rfl
  | cons d r ih =>
    intro s h
    have hd : ¬ uni d = false := by rw [h d (by simp)]; simp
    simp only [List.map_cons, modelLoop, if_neg hd, hg, bind, Except.bind, pure, Except.pure]
    rw [ih _ fun d hd => h d (by simp [hd])]
    rfl

theorem fitAll_last (st : PipeStep S D P O Y) (g : S → S) (F : D → S) (hF : ∀ d s, g (st.setData d s) = F d) (ds : List D) (d : D)
    (s : S) : fitAll st g (ds ++ [d]) s = F d := by
  unfold fitAll
  rw [List.foldl_append]
  exact hF _ _

theorem setAt_same {α β : Type} [DecidableEq α] (f : α → β) (a : α) (b : β) : setAt f a b a = b := if_pos rfl

/-- C123, a model step on several series: the result has an entry for every series, but all entries are the one object of
the step, and it is left fitted to the last series.  `F d` is the step fitted to `d`. -/
theorem C123_models_violated (uni : D → Bool) (noParams : P) (opts : PipeOpts Y) (k : Nat) (n : String) (st : PipeStep S D P O Y)
    (hs : st.sklearn = false) (ht : st.type = some "model") (F : D → S) (hF : ∀ e d s, st.fit e (st.setData d s) = .ok (F d))
    (w : PipeState S D P O) (ds : List D) (last : D) (hw : w.cur = .list ((ds ++ [last]).map .ts))
    (hu : ∀ d ∈ ds ++ [last], uni d = true) :
    ∃ w', pipeStep uni noParams opts k n st w = .ok w' ∧ w'.cur = .list (List.replicate (ds.length + 1) (.model k))
      ∧ w'.heap k = F last
      ∧ ∀ d ∈ ds, F d ≠ F last → w'.heap k ≠ F d := by
  have hloop : ∀ (e : PipeExtra P) (l : List D) (s : S), (∀ d ∈ l, uni d = true) →
      ∃ s', modelLoop uni st k e (l.map .ts) s = .ok (List.replicate l.length (.model k), s')
        ∧ s' = l.foldl (fun _ d => F d) s := by
    intro e l
    induction l with
    | nil => intro s _; exact ⟨s, rfl, rfl⟩
    | cons d r ih =>
      intro s h
      have hd : ¬ uni d = false := by rw [h d (by simp)]; simp
      obtain ⟨s', h1, h2⟩ := ih (F d) fun d hd => h d (by simp [hd])
      refine ⟨s', ?_, h2⟩
      simp only [List.map_cons, modelLoop, if_neg hd, hF, bind, Except.bind, pure, Except.pure]
      rw [h1]
      rfl
  obtain ⟨s', h1, h2⟩ := hloop ((w.params n).getD (noParams, false)) (ds ++ [last]) (w.heap k) hu
  rw [List.foldl_append] at h2
  have h2 : s' = F last := h2
  subst h2
  refine ⟨{ w with heap := setAt w.heap k (F last), cur := .list (List.replicate (ds ++ [last]).length (.model k)), shared := false },
    ?_, ?_, setAt_same _ _ _, ?_⟩
  · unfold pipeStep
    simp only [hw, hs, ht, Bool.false_eq_true, if_false, bind, Except.bind, pure, Except.pure, if_true]
    rw [if_neg (by decide), if_neg (by decide), h1]
  · show PipeData.list (List.replicate (ds ++ [last]).length _) = _
    rw [List.length_append]
    rfl
  · intro d _ hne
    show setAt w.heap k (F last) k ≠ _
    rw [setAt_same]
    exact hne.symm

/-- The outputs of a detector step, that are those of the detector on each series by itself. -/
theorem detectLoop_ok (uni : D → Bool) (st : PipeStep S D P O Y) (remove : Bool) (sub : String) (hsub : st.subtype = some sub)
    (F : PipeExtra P → D → O) (R : D → D)
    (hF : ∀ e d s, ∃ s', st.detect e (st.setData d s) = .ok (F e d, s') ∧ (remove = true → sub = "outlier" → st.remover s' = .ok (R d)))
    (ds : List D) : ∀ (s : S) (e : PipeExtra P), (∀ d ∈ ds, uni d = true) → ∃ s', detectLoop uni st remove (ds.map .ts) s e
      = .ok (ds.map (F (if sub = "outlier" then (e.1, true) else e)),
        ds.map (fun d => .ts (if remove = true ∧ sub = "outlier" then R d else d)), s',
        if ds = [] then e else if sub = "outlier" then (e.1, true) else e) := by
  induction ds with
  | nil => intro s e _; exact ⟨s, rfl⟩
  | cons d r ih =>
    intro s e h
    have hd : ¬ uni d = false := by rw [h d (by simp)]; simp
    obtain ⟨e', he'⟩ : ∃ e', e' = (if sub = "outlier" then (e.1, true) else e) := ⟨_, rfl⟩
    obtain ⟨s1, h1, h2⟩ := hF e' d s
    obtain ⟨s2, h3⟩ := ih s1 e' fun d hd => h d (by simp [hd])
    have he2 : (if sub = "outlier" then (e'.1, true) else e') = e' := by
      rw [he']
      split_ifs <;> rfl
    rw [he2] at h3
    refine ⟨s2, ?_⟩
    have h4 : (if r = [] then e' else e') = e' := by split_ifs <;> rfl
    rw [h4] at h3
    rw [if_neg (show ¬ d :: r = [] by simp), ← he']
    simp only [List.map_cons, detectLoop, if_neg hd, hsub, bind, Except.bind, pure, Except.pure]
    rw [← he', h1]
    simp only
    by_cases hr : remove = true ∧ sub = "outlier"
    · simp only [if_pos hr] at h3 ⊢
      rw [h2 hr.1 hr.2]
      simp only
      rw [h3]
    · simp only [if_neg hr] at h3 ⊢
      rw [h3]

/-- C123, a detector step with a subtype: the metadata hold the output of the detector for each series in order, with the extra
parameters of the step (and `pipe` for outlier detectors); the series are passed on as they are, or without their outliers
if that is asked for and the step is an outlier detector. -/
theorem C123_detect_partial (uni : D → Bool) (noParams : P) (opts : PipeOpts Y) (k : Nat) (n : String) (st : PipeStep S D P O Y)
    (hs : st.sklearn = false) (ht : st.type = some "detector") (sub : String) (hsub : st.subtype = some sub)
    (F : PipeExtra P → D → O) (R : D → D)
    (hF : ∀ e d s, ∃ s', st.detect e (st.setData d s) = .ok (F e d, s') ∧ (opts.remove = true → sub = "outlier" → st.remover s' = .ok (R d)))
    (w : PipeState S D P O) (ds : List D) (hw : w.cur = .list (ds.map .ts)) (hu : ∀ d ∈ ds, uni d = true)
    (e : PipeExtra P) (he : e = (w.params n).getD (noParams, false)) :
    ∃ w', pipeStep uni noParams opts k n st w = .ok w'
      ∧ w'.metadata n = some (ds.map (F (if sub = "outlier" then (e.1, true) else e)))
      ∧ (∀ m, m ≠ n → w'.metadata m = w.metadata m)
      ∧ w'.cur = .list (ds.map fun d => .ts (if opts.remove = true ∧ sub = "outlier" then R d else d))
      ∧ (∀ j, j ≠ k → w'.heap j = w.heap j)
      ∧ (sub ≠ "outlier" → w'.params = w.params ∧ (w.shared = true → w.caller = ds.map .ts → w'.caller = w.caller)) := by
  obtain ⟨s', h1⟩ := detectLoop_ok uni st opts.remove sub hsub F R hF ds (w.heap k) e hu
  obtain ⟨e', he'⟩ : ∃ e', e' = (if ds = [] then e else if sub = "outlier" then (e.1, true) else e) := ⟨_, rfl⟩
  rw [← he'] at h1
  refine ⟨{ w with
      heap := setAt w.heap k s', metadata := setAt w.metadata n (some (ds.map (F (if sub = "outlier" then (e.1, true) else e))))
      params := if (w.params n).isSome then setAt w.params n (some e') else w.params
      caller := if w.shared then ds.map (fun d => .ts (if opts.remove = true ∧ sub = "outlier" then R d else d)) else w.caller
      cur := .list (ds.map fun d => .ts (if opts.remove = true ∧ sub = "outlier" then R d else d)) },
    ?_, setAt_same _ _ _, fun m hm => if_neg hm, rfl, fun j hj => if_neg hj, ?_⟩
  · unfold pipeStep
    simp only [hw, hs, ht, Bool.false_eq_true, if_false, bind, Except.bind, pure, Except.pure, if_true]
    rw [← he, h1]
  · intro hno
    have hee : e' = e := by
      rw [he', if_neg hno]
      split_ifs <;> rfl
    constructor
    · show (if (w.params n).isSome then setAt w.params n (some e') else w.params) = w.params
      cases hp : w.params n with
      | none => rfl
      | some q =>
        rw [hp] at he
        simp only [Option.isSome_some, if_true]
        funext x
        unfold setAt
        by_cases hx : x = n
        · rw [if_pos hx, hx, hp, hee, he]
          rfl
        · rw [if_neg hx]
    · intro hsh hc
      show (if w.shared then _ else w.caller) = w.caller
      rw [hsh, hc, if_pos rfl]
      refine List.map_congr_left fun d _ => ?_
      rw [if_neg (fun h => hno h.2)]

/-- C123, outlier detectors with removal write into the list and the parameters of the caller. -/
theorem C123_caller_violated (uni : D → Bool) (noParams : P) (opts : PipeOpts Y) (n : String) (st : PipeStep S D P O Y)
    (hs : st.sklearn = false) (ht : st.type = some "detector") (hsub : st.subtype = some "outlier") (hr : opts.remove = true)
    (F : PipeExtra P → D → O) (R : D → D)
    (hF : ∀ e d s, ∃ s', st.detect e (st.setData d s) = .ok (F e d, s') ∧ st.remover s' = .ok (R d))
    (p : Pipeline S D P O Y) (hp : p.steps = [(n, st)]) (ds : List D) (hne : ds ≠ []) (hu : ∀ d ∈ ds, uni d = true)
    (params : String → Option (PipeExtra P)) (q : P) (hq : params n = some (q, false)) :
    ∃ out p' params', p.fit uni noParams opts params (.many ds) = .ok (out, p', ds.map (fun d => .ts (R d)), params')
      ∧ params' n = some (q, true) := by
  obtain ⟨s', h1⟩ := detectLoop_ok uni st opts.remove "outlier" hsub F R (fun e d s => by
    obtain ⟨s', h1, h2⟩ := hF e d s
    exact ⟨s', h1, fun _ _ => h2⟩) ds (p.heap 0) (q, false) hu
  simp only [if_true, hr, true_and] at h1
  rw [if_neg hne] at h1
  refine ⟨.all (.list (ds.map fun d => .ts (R d))), { p with
      heap := setAt p.heap 0 s', metadata := setAt p.metadata n (some (ds.map (F (q, true)))), univariate := p.univariate || false },
    setAt params n (some (q, true)), ?_, setAt_same _ _ _⟩
  unfold Pipeline.fit
  simp only [hp, pipeSteps, pipeStep, hs, ht, hq, Option.getD_some, Option.isSome_some, Bool.false_eq_true, if_false, if_true, bind,
    Except.bind, pure, Except.pure, hr]
  rw [h1]

/-- C123, what the steps need: a detector without `__subtype__` raises `AttributeError` on the first univariate series, so does any
step without `__type__` (that is not from scikit-learn); other types raise `KeyError`.  (In Kats only `MKDetector` among the
detectors has a `__subtype__`, and `TsFeatures` has no `__type__`.) -/
theorem C123_attributes_violated (uni : D → Bool) (noParams : P) (opts : PipeOpts Y) (k : Nat) (n : String) (st : PipeStep S D P O Y)
    (hs : st.sklearn = false) (w : PipeState S D P O) (l : List (PipeItem D O)) (hw : w.cur = .list l) :
    (st.type = none → pipeStep uni noParams opts k n st w = .error .attributeError)
    ∧ (st.type = some "detector" → st.subtype = none → ∀ d r, l = .ts d :: r → uni d = true →
      pipeStep uni noParams opts k n st w = .error .attributeError)
    ∧ (∀ t, st.type = some t → t ∉ ["detector", "transformer", "model"] → pipeStep uni noParams opts k n st w = .error .keyError) := by
  refine ⟨?_, ?_, ?_⟩
  · intro ht
    unfold pipeStep
    simp only [hw, hs, ht, Bool.false_eq_true, if_false]
  · rintro ht hsub d r rfl hu
    have hd : ¬ uni d = false := by rw [hu]; simp
    unfold pipeStep
    simp only [hw, hs, ht, Bool.false_eq_true, if_false, bind, Except.bind, pure, Except.pure, if_true, detectLoop, if_neg hd, hsub]
  · intro t ht hn
    simp only [List.mem_cons, List.not_mem_nil, or_false, not_or] at hn
    unfold pipeStep
    simp only [hw, hs, ht, Bool.false_eq_true, if_false, if_neg hn.1, if_neg hn.2.1, if_neg hn.2.2]

theorem transformLoop_ok (st : PipeStep S D P O Y) (F : D → O) (hF : ∀ d s, ∃ s', st.transform d s = .ok (F d, s')) (ds : List D) :
    ∀ s, ∃ s', transformLoop st (ds.map .ts) s = .ok (ds.map F, s') := by
  induction ds with
  | nil => intro s; exact ⟨s, rfl⟩
  | cons d r ih =>
    intro s
    obtain ⟨s1, h1⟩ := hF d s
    obtain ⟨s2, h2⟩ := ih s1
    refine ⟨s2, ?_⟩
    simp only [List.map_cons, transformLoop, h1, bind, Except.bind, pure, Except.pure, h2]

/-- C123, a transformer step: the features of each series are kept as metadata, and passed on in place of the series only if
that is asked for. -/
theorem C123_transform (uni : D → Bool) (noParams : P) (opts : PipeOpts Y) (k : Nat) (n : String) (st : PipeStep S D P O Y)
    (hs : st.sklearn = false) (ht : st.type = some "transformer") (F : D → O) (hF : ∀ d s, ∃ s', st.transform d s = .ok (F d, s'))
    (w : PipeState S D P O) (ds : List D) (hw : w.cur = .list (ds.map .ts)) :
    ∃ w', pipeStep uni noParams opts k n st w = .ok w' ∧ w'.metadata n = some (ds.map F)
      ∧ (∀ m, m ≠ n → w'.metadata m = w.metadata m) ∧ w'.params = w.params ∧ w'.caller = w.caller
      ∧ (opts.useFeatures = true → w'.cur = .list (ds.map fun d => .feat (F d)))
      ∧ (opts.useFeatures = false → w'.cur = w.cur ∧ w'.shared = w.shared) := by
  obtain ⟨s', h1⟩ := transformLoop_ok st F hF ds (w.heap k)
  have hstep : pipeStep uni noParams opts k n st w = .ok (if opts.useFeatures then
      { w with heap := setAt w.heap k s', metadata := setAt w.metadata n (some (ds.map F)), cur := .list ((ds.map F).map .feat), shared := false }
      else { w with heap := setAt w.heap k s', metadata := setAt w.metadata n (some (ds.map F)) }) := by
    unfold pipeStep
    simp only [hw, hs, ht, Bool.false_eq_true, if_false, bind, Except.bind, pure, Except.pure, if_true]
    rw [if_neg (by decide), h1]
  cases hu : opts.useFeatures with
  | true =>
    rw [hu] at hstep
    simp only [if_true] at hstep
    exact ⟨_, hstep, setAt_same _ _ _, fun m hm => if_neg hm, rfl, rfl, fun _ => by simp [List.map_map, Function.comp_def],
      fun h => absurd h (by simp)⟩
  | false =>
    rw [hu] at hstep
    simp only [Bool.false_eq_true, if_false] at hstep
    exact ⟨_, hstep, setAt_same _ _ _, fun m hm => if_neg hm, rfl, rfl, fun h => absurd h (by simp), fun _ => ⟨rfl, rfl⟩⟩

/-- C123, scikit-learn steps: they need features and labels, get the features in order, and then the model itself is passed
on. -/
theorem C123_sklearn (uni : D → Bool) (noParams : P) (opts : PipeOpts Y) (k : Nat) (n : String) (st : PipeStep S D P O Y)
    (hs : st.sklearn = true) (w : PipeState S D P O) :
    (w.cur = .list [] → pipeStep uni noParams opts k n st w = .error .indexError)
    ∧ (∀ d r, w.cur = .list (.ts d :: r) → pipeStep uni noParams opts k n st w = .error .otherError)
    ∧ (∀ o r, w.cur = .list (.feat o :: r) → opts.y = none → pipeStep uni noParams opts k n st w = .error .otherError)
    ∧ (∀ (os : List O) y s', os ≠ [] → w.cur = .list (os.map .feat) → opts.y = some y → st.fitSk os y (w.heap k) = .ok s' →
      ∃ w', pipeStep uni noParams opts k n st w = .ok w' ∧ w'.cur = .est k ∧ w'.heap k = s' ∧ w'.metadata = w.metadata) := by
  refine ⟨?_, ?_, ?_, ?_⟩
  · intro hw
    unfold pipeStep
    simp only [hw, hs, if_true, bind, Except.bind, fitSklearn]
  · intro d r hw
    unfold pipeStep
    simp only [hw, hs, if_true, bind, Except.bind, fitSklearn]
  · intro o r hw hy
    unfold pipeStep
    simp only [hw, hs, if_true, bind, Except.bind, fitSklearn, hy]
  · intro os y s' hne hw hy hf
    have hfe : featsOf (os.map (PipeItem.feat (D := D))) = os := by
      unfold featsOf
      rw [List.filterMap_map]
      exact List.filterMap_some
    refine ⟨{ w with heap := setAt w.heap k s', cur := .est k, shared := false }, ?_, rfl, setAt_same _ _ _, rfl⟩
    cases os with
    | nil => exact absurd rfl hne
    | cons o r =>
      unfold pipeStep
      have : fitSklearn st opts.y ((o :: r).map (PipeItem.feat (D := D))) (w.heap k) = .ok s' := by
        simp only [List.map_cons, fitSklearn, hy]
        rw [← List.map_cons, hfe]
        exact hf
      simp only [hw, hs, if_true, bind, Except.bind, pure, Except.pure]
      rw [this]

theorem pipeSteps_append (uni : D → Bool) (noParams : P) (opts : PipeOpts Y) (a b : List (String × PipeStep S D P O Y)) :
    ∀ k w, pipeSteps uni noParams opts k (a ++ b) w
      = (pipeSteps uni noParams opts k a w).bind fun w => pipeSteps uni noParams opts (k + a.length) b w := by
  induction a with
  | nil => intro k w; rfl
  | cons x a ih =>
    intro k w
    obtain ⟨n, st⟩ := x
    simp only [List.cons_append, pipeSteps, bind, Except.bind]
    cases pipeStep uni noParams opts k n st w with
    | error e => rfl
    | ok w' =>
      simp only
      rw [ih, List.length_cons]
      have : k + 1 + a.length = k + (a.length + 1) := by omega
      rw [this]
      rfl

/-- C123, a pipeline that ends with a scikit-learn model cannot be fitted on a single series: the model is indexed. -/
theorem C123_single_violated (uni : D → Bool) (noParams : P) (opts : PipeOpts Y) (p : Pipeline S D P O Y)
    (a : List (String × PipeStep S D P O Y)) (n : String) (st : PipeStep S D P O Y) (hp : p.steps = a ++ [(n, st)])
    (hs : st.sklearn = true) (params : String → Option (PipeExtra P)) (d : D) : ∀ r, p.fit uni noParams opts params (.one d) ≠ .ok r := by
  intro r h
  unfold Pipeline.fit at h
  simp only [hp, pipeSteps_append, bind, Except.bind, pipeSteps] at h
  cases ha : pipeSteps uni noParams opts 0 a ⟨p.heap, p.metadata, params, [.ts d], .list [.ts d], true⟩ with
  | error e => rw [ha] at h; cases h
  | ok w =>
    rw [ha] at h
    simp only at h
    cases hst : pipeStep uni noParams opts (0 + a.length) n st w with
    | error e => rw [hst] at h; cases h
    | ok w' =>
      rw [hst] at h
      simp only [if_true] at h
      have hcur : ∃ k, w'.cur = .est k := by
        unfold pipeStep at hst
        cases hc : w.cur with
        | est k => rw [hc] at hst; simp only [hs, if_true] at hst; cases hst
        | list l =>
          rw [hc] at hst
          simp only [hs, if_true, bind, Except.bind, pure, Except.pure] at hst
          cases hk : fitSklearn st opts.y l (w.heap (0 + a.length)) with
          | error e => rw [hk] at hst; cases hst
          | ok s =>
            rw [hk] at hst
            cases hst
            exact ⟨_, rfl⟩
      obtain ⟨k, hk⟩ := hcur
      rw [hk] at h
      cases h

/-- A detector that gives the same output whatever it was used for before. -/
def PlainDetector (st : PipeStep S D P O Y) (F : PipeExtra P → D → O) : Prop :=
  st.sklearn = false ∧ st.type = some "detector" ∧ (∃ sub, st.subtype = some sub ∧ sub ≠ "outlier")
    ∧ ∀ e d s, ∃ s', st.detect e (st.setData d s) = .ok (F e d, s')

/-- C123, a whole pipeline of such detectors followed by a model, on a single series: the result is the model fitted to the
series, the metadata hold the output of each detector on the series, and the series and the parameters stay. -/
theorem C123_chain_partial (uni : D → Bool) (noParams : P) (opts : PipeOpts Y)
    (dets : List (String × PipeStep S D P O Y × (PipeExtra P → D → O))) (hdet : ∀ x ∈ dets, PlainDetector x.2.1 x.2.2)
    (hnames : (dets.map Prod.fst).Nodup) (n : String) (m : PipeStep S D P O Y) (hs : m.sklearn = false) (ht : m.type = some "model")
    (F : D → S) (hF : ∀ e d s, m.fit e (m.setData d s) = .ok (F d))
    (p : Pipeline S D P O Y) (hp : p.steps = dets.map (fun x => (x.1, x.2.1)) ++ [(n, m)])
    (params : String → Option (PipeExtra P)) (d : D) (hu : uni d = true) :
    ∃ p', p.fit uni noParams opts params (.one d) = .ok (.item (.model dets.length), p', [.ts d], params)
      ∧ p'.heap dets.length = F d ∧ p'.univariate = true
      ∧ ∀ x ∈ dets, p'.metadata x.1 = some [x.2.2 ((params x.1).getD (noParams, false)) d] := by
  have hchain : ∀ (l : List (String × PipeStep S D P O Y × (PipeExtra P → D → O))), (∀ x ∈ l, PlainDetector x.2.1 x.2.2) →
      (l.map Prod.fst).Nodup → ∀ (k : Nat) (w : PipeState S D P O), w.cur = .list [.ts d] → w.caller = [.ts d] → w.shared = true →
      ∃ w', pipeSteps uni noParams opts k (l.map fun x => (x.1, x.2.1)) w = .ok w' ∧ w'.cur = .list [.ts d] ∧ w'.caller = [.ts d]
        ∧ w'.params = w.params ∧ (∀ x ∈ l, w'.metadata x.1 = some [x.2.2 ((w.params x.1).getD (noParams, false)) d])
        ∧ ∀ s, s ∉ l.map Prod.fst → w'.metadata s = w.metadata s := by
    intro l
    induction l with
    | nil => intro _ _ k w h1 h2 h3; exact ⟨w, rfl, h1, h2, rfl, by simp, fun _ _ => rfl⟩
    | cons x l ih =>
      intro hd hn k w h1 h2 h3
      obtain ⟨a1, a2, ⟨sub, a3, a4⟩, a5⟩ := hd x (by simp)
      rw [List.map_cons, List.nodup_cons] at hn
      obtain ⟨w1, b1, b2, b3, b4, -, b6⟩ := C123_detect_partial uni noParams opts k x.1 x.2.1 a1 a2 sub a3 x.2.2 id (fun e d s => by
        obtain ⟨s', h⟩ := a5 e d s
        exact ⟨s', h, fun _ h => absurd h a4⟩) w [d] h1 (by simpa using hu) _ rfl
      obtain ⟨b7, b8⟩ := b6 a4
      rw [if_neg a4] at b2
      have b4' : w1.cur = .list [.ts d] := by
        rw [b4]
        simp [a4]
      have hsh : w1.shared = true := by
        have := b1
        unfold pipeStep at this
        simp only [h1, a1, a2, Bool.false_eq_true, if_false, bind, Except.bind, pure, Except.pure, if_true] at this
        revert this
        cases detectLoop uni x.2.1 opts.remove [.ts d] (w.heap k) ((w.params x.1).getD (noParams, false)) with
        | error e => intro h; cases h
        | ok r => intro h; cases h; exact h3
      obtain ⟨w2, c1, c2, c3, c4, c5, c6⟩ := ih (fun y hy => hd y (by simp [hy])) hn.2 (k + 1) w1 b4' (by rw [b8 h3 h2, h2]) hsh
      refine ⟨w2, ?_, c2, c3, by rw [c4, b7], ?_, ?_⟩
      · simp only [List.map_cons, pipeSteps, bind, Except.bind, b1]
        exact c1
      · intro y hy
        rcases List.mem_cons.1 hy with rfl | hy
        · rw [c6 _ hn.1, b2]
          rfl
        · rw [c5 y hy, b7]
      · intro s hs
        rw [List.map_cons, List.mem_cons, not_or] at hs
        rw [c6 s hs.2, b3 s hs.1]
  obtain ⟨w, h1, h2, h3, h4, h5, -⟩ := hchain dets hdet hnames 0 ⟨p.heap, p.metadata, params, [.ts d], .list [.ts d], true⟩ rfl rfl rfl
  obtain ⟨w', g1, g2, g3, -⟩ := C123_models_violated uni noParams opts dets.length n m hs ht F hF w [] d
    (by simpa using h2) (by simpa using hu)
  have hkeep : w'.caller = w.caller ∧ w'.params = w.params ∧ w'.metadata = w.metadata := by
    have := g1
    unfold pipeStep at this
    simp only [h2, hs, ht, Bool.false_eq_true, if_false, bind, Except.bind, pure, Except.pure, if_true] at this
    rw [if_neg (by decide), if_neg (by decide)] at this
    revert this
    cases modelLoop uni m dets.length ((w.params n).getD (noParams, false)) [.ts d]
      (w.heap dets.length) with
    | error e => intro h; cases h
    | ok r => intro h; cases h; exact ⟨rfl, rfl, rfl⟩
  refine ⟨{ p with heap := w'.heap, metadata := w'.metadata, univariate := p.univariate || true }, ?_, ?_, by simp, ?_⟩
  · unfold Pipeline.fit
    simp only [hp, pipeSteps_append, bind, Except.bind, pipeSteps, h1, List.length_map, Nat.zero_add, g1, g2, if_true, pure, Except.pure, List.length_nil,
      List.replicate_one, hkeep.1, hkeep.2.1, h3, h4]
  · show w'.heap dets.length = _
    exact g3
  · intro x hx
    show w'.metadata x.1 = _
    rw [hkeep.2.2, h5 x hx]

/-- C123, `univariate` stays set: once a single series was fitted it is true after every later `fit`, also of lists. -/
theorem C123_univariate_violated (uni : D → Bool) (noParams : P) (opts : PipeOpts Y) (p p' : Pipeline S D P O Y)
    (hp : p.univariate = true) (params : String → Option (PipeExtra P)) (l : List D) (out : PipeOut D O) (c : List (PipeItem D O))
    (ps : String → Option (PipeExtra P)) (h : p.fit uni noParams opts params (.many l) = .ok (out, p', c, ps)) : p'.univariate = true := by
  unfold Pipeline.fit at h
  simp only [bind, Except.bind, pure, Except.pure] at h
  cases hs : pipeSteps uni noParams opts 0 p.steps ⟨p.heap, p.metadata, params, l.map .ts, .list (l.map .ts), true⟩ with
  | error e => rw [hs] at h; cases h
  | ok w =>
    rw [hs] at h
    simp only [Bool.false_eq_true, if_false] at h
    cases h
    simp [hp]

theorem detectLoop_multi (uni : D → Bool) (st : PipeStep S D P O Y) (remove : Bool) (l : List (PipeItem D O)) (s : S) (e : PipeExtra P)
    (d : D) (hd : PipeItem.ts d ∈ l) (hu : uni d = false) : ∃ er, detectLoop uni st remove l s e = .error er := by
  induction l generalizing s e with
  | nil => simp at hd
  | cons i l ih =>
    cases i with
    | ts d' =>
      unfold detectLoop
      by_cases h : uni d' = false
      · exact ⟨_, by rw [if_pos h]⟩
      · rw [if_neg h]
        have hd' : PipeItem.ts d ∈ l := by
          rcases List.mem_cons.mp hd with g | g
          · cases g
            exact absurd hu h
          · exact g
        cases hsub : st.subtype with
        | none => exact ⟨_, rfl⟩
        | some sub =>
          simp only [bind, Except.bind]
          cases h1 : st.detect (if sub = "outlier" then (e.1, true) else e) (st.setData d' s) with
          | error er => exact ⟨er, rfl⟩
          | ok r =>
            simp only
            obtain ⟨er, h3⟩ := ih r.2 (if sub = "outlier" then (e.1, true) else e) hd'
            rw [h3]
            by_cases hc : remove = true ∧ sub = "outlier"
            · rw [if_pos hc]
              cases h2 : st.remover r.2 with
              | error er' => exact ⟨er', rfl⟩
              | ok d2 => exact ⟨er, rfl⟩
            · rw [if_neg hc]
              exact ⟨er, rfl⟩
    | feat o => exact ⟨_, rfl⟩
    | model k => exact ⟨_, rfl⟩

theorem modelLoop_multi (uni : D → Bool) (st : PipeStep S D P O Y) (k : Nat) (e : PipeExtra P) (l : List (PipeItem D O)) (s : S)
    (d : D) (hd : PipeItem.ts d ∈ l) (hu : uni d = false) : ∃ er, modelLoop uni st k e l s = .error er := by
  induction l generalizing s with
  | nil => simp at hd
  | cons i l ih =>
    cases i with
    | ts d' =>
      unfold modelLoop
      by_cases h : uni d' = false
      · exact ⟨_, by rw [if_pos h]⟩
      · rw [if_neg h]
        have hd' : PipeItem.ts d ∈ l := by
          rcases List.mem_cons.mp hd with g | g
          · cases g
            exact absurd hu h
          · exact g
        simp only [bind, Except.bind]
        cases h1 : st.fit e (st.setData d' s) with
        | error er => exact ⟨er, rfl⟩
        | ok s' =>
          simp only
          obtain ⟨er, h3⟩ := ih s' hd'
          exact ⟨er, by rw [h3]⟩
    | feat o => exact ⟨_, rfl⟩
    | model k => exact ⟨_, rfl⟩

/-- C123, series of several variables: a detector or a model that is given one anywhere in the list raises, and a `ValueError` if it
comes first. -/
theorem C123_multivariate (uni : D → Bool) (noParams : P) (opts : PipeOpts Y) (k : Nat) (n : String) (st : PipeStep S D P O Y)
    (hs : st.sklearn = false) (ht : st.type = some "detector" ∨ st.type = some "model") (w : PipeState S D P O)
    (l : List (PipeItem D O)) (hw : w.cur = .list l) (d : D) (hd : PipeItem.ts d ∈ l) (hu : uni d = false) :
    (∃ er, pipeStep uni noParams opts k n st w = .error er)
    ∧ (l.head? = some (.ts d) → pipeStep uni noParams opts k n st w = .error .valueError) := by
  have hfirst : ∀ (rest : List (PipeItem D O)) (s : S) (e : PipeExtra P), detectLoop uni st opts.remove (.ts d :: rest) s e = .error .valueError
      ∧ modelLoop uni st k e (.ts d :: rest) s = .error .valueError := by
    intro rest s e
    unfold detectLoop modelLoop
    rw [if_pos hu, if_pos hu]
    exact ⟨rfl, rfl⟩
  unfold pipeStep
  rw [hw]
  simp only [hs, Bool.false_eq_true, if_false, bind, Except.bind]
  rcases ht with h | h
  · rw [h]
    simp only [if_true]
    refine ⟨?_, ?_⟩
    · obtain ⟨er, he⟩ := detectLoop_multi uni st opts.remove l (w.heap k) ((w.params n).getD (noParams, false)) d hd hu
      exact ⟨er, by rw [he]⟩
    · intro hh
      match l, hh with
      | i :: rest, hh =>
        cases hh
        rw [(hfirst rest _ _).1]
  · rw [h]
    simp only [show ("model" = "detector") = False by decide, show ("model" = "transformer") = False by decide, if_false, if_true]
    refine ⟨?_, ?_⟩
    · obtain ⟨er, he⟩ := modelLoop_multi uni st k ((w.params n).getD (noParams, false)) l (w.heap k) d hd hu
      exact ⟨er, by rw [he]⟩
    · intro hh
      match l, hh with
      | i :: rest, hh =>
        cases hh
        rw [(hfirst rest _ _).2]

/-! ### Examples -/

/-- A model that keeps the series it was last given. -/
def keepModel : PipeStep Nat Nat Unit Nat Unit where
  type := some "model"
  subtype := none
  setData := fun d _ => d
  detect := fun _ _ => .error .attributeError
  remover := fun _ => .error .attributeError
  transform := fun _ _ => .error .attributeError
  fit := fun _ s => .ok s
  fitSk := fun _ _ _ => .error .attributeError

/-- A detector that doubles. -/
def doubleDetector (subtype : Option String) : PipeStep Nat Nat Unit Nat Unit where
  type := some "detector"
  subtype := subtype
  setData := fun d _ => d
  detect := fun _ s => .ok (2 * s, s)
  remover := fun s => .ok (s + 1)
  transform := fun _ _ => .error .attributeError
  fit := fun _ s => .ok s
  fitSk := fun _ _ _ => .error .attributeError

example : ∃ w', pipeStep (fun _ => true) () {} 0 "m" keepModel
      (⟨fun _ => 0, fun _ => none, fun _ => none, [], .list ([5, 6, 7].map .ts), true⟩ : PipeState Nat Nat Unit Nat) = .ok w'
    ∧ w'.cur = .list [.model 0, .model 0, .model 0] ∧ w'.heap 0 = 7 := by
  obtain ⟨w', h1, h2, h3, -⟩ := C123_models_violated (fun _ => true) () {} 0 "m" keepModel rfl rfl id (fun _ _ _ => rfl)
    ⟨fun _ => 0, fun _ => none, fun _ => none, [], .list ([5, 6, 7].map .ts), true⟩ [5, 6] 7 rfl (by simp)
  exact ⟨w', h1, h2, h3⟩

example : ∃ p', (⟨[("a", doubleDetector (some "trend_detector")), ("m", keepModel)], fun _ => 0, fun _ => none, false⟩ :
      Pipeline Nat Nat Unit Nat Unit).fit (fun _ => true) () {} (fun _ => none) (.one 5)
      = .ok (.item (.model 1), p', [.ts 5], fun _ => none) ∧ p'.heap 1 = 5 ∧ p'.metadata "a" = some [10] := by
  obtain ⟨p', h1, h2, -, h3⟩ := C123_chain_partial (fun _ => true) () {} [("a", doubleDetector (some "trend_detector"), fun _ d => 2 * d)]
    (by simp only [List.mem_singleton, forall_eq]; exact ⟨rfl, rfl, ⟨_, rfl, by decide⟩, fun _ d _ => ⟨d, rfl⟩⟩) (by simp) "m" keepModel rfl rfl id
    (fun _ _ _ => rfl) ⟨[("a", doubleDetector (some "trend_detector")), ("m", keepModel)], fun _ => 0, fun _ => none, false⟩ rfl
    (fun _ => none) 5 rfl
  exact ⟨p', h1, h2, h3 _ (List.mem_singleton.2 rfl)⟩

example : ∃ out p' params', (⟨[("a", doubleDetector (some "outlier"))], fun _ => 0, fun _ => none, false⟩ :
      Pipeline Nat Nat Unit Nat Unit).fit (fun _ => true) () { remove := true } (fun _ => some ((), false)) (.many [5, 6])
      = .ok (out, p', [.ts 6, .ts 7], params') ∧ params' "a" = some ((), true) :=
  C123_caller_violated (fun _ => true) () { remove := true } "a" (doubleDetector (some "outlier")) rfl rfl rfl rfl (fun _ d => 2 * d)
    (· + 1) (fun _ d _ => ⟨d, rfl, rfl⟩) _ rfl [5, 6] (by simp) (by simp) _ () rfl

example : pipeStep (fun _ => true) () {} 0 "a" (doubleDetector none)
      (⟨fun _ => 0, fun _ => none, fun _ => none, [], .list [.ts 5], true⟩ : PipeState Nat Nat Unit Nat) = .error .attributeError :=
  (C123_attributes_violated (fun _ => true) () {} 0 "a" (doubleDetector none) rfl _ [.ts 5] rfl).2.1 rfl rfl 5 [] rfl rfl

/-- A transformer and a scikit-learn model. -/
def squareFeatures : PipeStep Nat Nat Unit Nat Unit :=
  { keepModel with type := some "transformer", transform := fun d s => .ok (d * d, s) }

def sumModel : PipeStep Nat Nat Unit Nat Unit :=
  { keepModel with sklearn := true, type := none, fitSk := fun os _ _ => .ok os.sum }

example : ∃ w', pipeStep (fun _ => true) () { useFeatures := true } 0 "f" squareFeatures
      (⟨fun _ => 0, fun _ => none, fun _ => none, [], .list ([2, 3].map .ts), true⟩ : PipeState Nat Nat Unit Nat) = .ok w'
    ∧ w'.cur = .list [.feat 4, .feat 9] := by
  obtain ⟨w', h1, -, -, -, -, h2, -⟩ := C123_transform (fun _ => true) () { useFeatures := true } 0 "f" squareFeatures rfl rfl
    (fun d => d * d) (fun _ s => ⟨s, rfl⟩) ⟨fun _ => 0, fun _ => none, fun _ => none, [], .list ([2, 3].map .ts), true⟩ [2, 3] rfl
  exact ⟨w', h1, h2 rfl⟩

example : ∃ w', pipeStep (fun _ => true) () { y := some () } 1 "s" sumModel
      (⟨fun _ => 0, fun _ => none, fun _ => none, [], .list ([4, 9].map .feat), true⟩ : PipeState Nat Nat Unit Nat) = .ok w'
    ∧ w'.cur = .est 1 ∧ w'.heap 1 = 13 := by
  obtain ⟨w', h1, h2, h3, -⟩ := (C123_sklearn (fun _ => true) () { y := some () } 1 "s" sumModel rfl
    ⟨fun _ => 0, fun _ => none, fun _ => none, [], .list ([4, 9].map .feat), true⟩).2.2.2 [4, 9] () 13 (by simp) rfl rfl rfl
  exact ⟨w', h1, h2, h3⟩

example : ∀ r, (⟨[("f", squareFeatures), ("s", sumModel)], fun _ => 0, fun _ => none, false⟩ :
    Pipeline Nat Nat Unit Nat Unit).fit (fun _ => true) () { useFeatures := true, y := some () } (fun _ => none) (.one 5) ≠ .ok r :=
  C123_single_violated (fun _ => true) () _ _ [("f", squareFeatures)] "s" sumModel rfl rfl _ 5

example : pipeStep (fun d => decide (d < 5)) () {} 0 "m" keepModel
    ⟨fun _ => 0, fun _ => none, fun _ => none, [], .list [.ts 7, .ts 1], true⟩ = .error .valueError :=
  (C123_multivariate _ () {} 0 "m" keepModel rfl (.inr rfl) _ _ rfl 7 (by simp) (by decide)).2 rfl

end Kats
