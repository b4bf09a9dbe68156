import Verif.Props.GmParam

/-!
# C138: the defaults of the parameters of global models
-/

namespace Kats

/-- C138: what is not given gets the defaults of the documentation; what is given is kept. -/
theorem C138_defaults (td : String → Option Int) (a : GmArgs) (o : GmObj (Option GmNum)) (h : gmInit td a = .ok o) :
    (a.metric = .none → o.metric = ["smape", "sbias", "exceed"]) ∧ (∀ l, a.metric = .list l → o.metric = l) ∧
    (a.nn = none → o.nn = [[1, 3]]) ∧ (∀ l, a.nn = some l → o.nn = l) ∧
    (a.quantile = none → o.quantile = [.flt (.fin (1 / 2)), .flt (.fin (1 / 20)), .flt (.fin (19 / 20)), .flt (.fin (99 / 100))]) ∧
    (∀ l, a.quantile = some l → o.quantile = l) ∧
    (∀ l, a.trainQuantile = some l → o.trainQuantile = l) ∧
    (a.weight = none → ∀ w ∈ o.weight, w.val = .fin (1 / o.quantile.length)) ∧ (∀ l, a.weight = some l → o.weight = l) ∧
    (a.batchSize = none → o.batchSize = [(some (.int 0), .int 2), (some (.int 3), .int 5), (some (.int 4), .int 15),
      (some (.int 5), .int 50), (some (.int 6), .int 150), (some (.int 7), .int 500)]) ∧
    (a.learningRate = none → o.learningRate = [(some (.int 0), .flt (.fin (1 / 1000))), (some (.int 2), .flt (.fin (1 / 3000)))]) ∧
    (a.optimizer = .none → o.optimizer = ⟨some (.str "Adam"), some [("eps", .num (.flt (.fin (1 / 10000000))))]⟩) ∧
    (a.initSeason = none → o.initSeason = [.flt (.fin (1 / 10)), .flt (.fin 10)]) ∧
    (a.initSmooth = none → o.initSmooth = [.flt (.fin (2 / 5)), .flt (.fin (3 / 5))]) := by
  obtain ⟨freq, h1, h2, h3, batch, h4, lr, h5, loss, h6, opt, h7, h8, h9, tq, h10, w, h11, m, h12, h13,
    h14, f, h15, h16, rfl⟩ := (init_iff td a o).1 h
  simp only [objOf]
  refine ⟨?_, ?_, ?_, ?_, ?_, ?_, ?_, ?_, ?_, ?_, ?_, ?_, ?_, ?_⟩
  · intro e; rw [e] at h12; injection h12 with h12; exact h12.symm
  · intro l e
    rw [e] at h12
    unfold gmMetric at h12
    simp only [] at h12
    split at h12
    · injection h12 with h12; exact h12.symm
    · cases h12
  · intro e; rw [e]; rfl
  · intro l e; rw [e]; rfl
  · intro e; rw [e]; decide +kernel
  · intro l e; rw [e]; rfl
  · intro l e
    rw [e] at h10
    unfold gmTrainQuantile at h10
    simp only [gm_map_ok] at h10
    obtain ⟨_, _, h10⟩ := h10
    exact h10.symm
  · intro e w' hw'
    rw [e] at h11
    injection h11 with h11
    rw [← h11] at hw'
    rw [(List.mem_replicate.1 hw').2]
    rfl
  · intro l e
    rw [e] at h11
    unfold gmWeights at h11
    simp only [] at h11
    split at h11
    · cases h11
    · rw [gm_map_ok] at h11
      obtain ⟨_, _, h11⟩ := h11
      exact h11.symm
  · intro e; rw [e] at h4
    have : gmUnion GmNum.isInt gmBatchDefault = .ok _ := h4
    have e2 : (gmUnion GmNum.isInt gmBatchDefault).toOption = some [(some (.int 0), .int 2), (some (.int 3), .int 5),
      (some (.int 4), .int 15), (some (.int 5), .int 50), (some (.int 6), .int 150), (some (.int 7), .int 500)] := by
      decide +kernel
    rw [this] at e2
    injection e2
  · intro e; rw [e] at h5
    have : gmUnion GmNum.isFlt gmRateDefault = .ok _ := h5
    have e2 : (gmUnion GmNum.isFlt gmRateDefault).toOption = some [(some (.int 0), .flt (.fin (1 / 1000))),
      (some (.int 2), .flt (.fin (1 / 3000)))] := by decide +kernel
    rw [this] at e2
    injection e2
  · intro e; rw [e] at h7; injection h7 with h7; exact h7.symm
  · intro e; rw [e]; rfl
  · intro e; rw [e]; decide +kernel

/-- With all defaults there are four weights of a quarter. -/
example (td : String → Option Int) : ∃ o, gmInit td (gmDemo (.flt (.fin 3)) none none none .none .none none) = .ok o ∧
    o.metric = ["smape", "sbias", "exceed"] ∧ o.nn = [[1, 3]] := by
  obtain ⟨o, ho⟩ := gmDemo_valid td (.flt (.fin 3)) none none none .none .none none (Or.inr (Or.inr ⟨3, by norm_num, rfl⟩))
    (by simp) (by simp) (by simp) trivial (by simp) (by simp) (by simp)
  have h := C138_defaults td _ o ho
  exact ⟨o, ho, h.1 rfl, h.2.2.1 rfl⟩

end Kats
