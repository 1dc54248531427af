import Verif.Proofs.KernelAA

/-!
Complete fits of the KernelAA model.
-/

namespace Reor

set_option linter.unusedSectionVars false

open scoped BigOperators Matrix
open Spec

variable {K : Type} [Field K] [LinearOrder K] [IsStrictOrderedRing K]
variable {n k : ℕ}

theorem kaa_mem_phases {cfg : LSConfig K} {delta : K} {ud uw : Bool}
    {p : KAAState n k K → Py (KAAState n k K)}
    (h : p ∈ (if ud then [KAAState.updateDictionary cfg delta] else []) ++
       (if uw then [KAAState.updateWeights cfg delta] else [])) :
    (ud = true ∧ p = KAAState.updateDictionary cfg delta) ∨
    (uw = true ∧ p = KAAState.updateWeights cfg delta) := by
  cases ud <;> cases uw <;> simp at h ⊢ <;> exact h

theorem KAAState.evaluateCost_idem (delta : K) (s : KAAState n k K) :
    (s.evaluateCost delta).1.evaluateCost delta = s.evaluateCost delta := by
  unfold evaluateCost refreshCK diagAlpha
  by_cases h : delta > 0 <;> simp only [h, if_true, if_false]

theorem kaa_good_phases {cfg : LSConfig K}
    {delta : K} {ud uw : Bool} {A : Matrix (Fin n) (Fin n) K} :
    ∀ p ∈ (if ud then [KAAState.updateDictionary (n := n) (k := k) cfg delta] else []) ++
       (if uw then [KAAState.updateWeights cfg delta] else []),
      ∀ s s', KAAState.Good A s → p s = Py.ok s' → KAAState.Good A s' := by
  intro p hp s s' hs h
  rcases kaa_mem_phases hp with ⟨-, rfl⟩ | ⟨-, rfl⟩
  · obtain ⟨lam, hl⟩ := KAAState.updateDictionary_post hs h
    exact hl.good hs
  · obtain ⟨lam, hl⟩ := KAAState.updateWeights_post hs h
    exact hl.good hs

/-- An invariant of both updates that also involves the step scales holds at the end of the loop. -/
theorem kaaIterate_inv_scales {cfg : LSConfig K}
    {delta : K} {require : Bool} {tol : K} {maxIter : ℕ} {ud uw : Bool}
    {A : Matrix (Fin n) (Fin n) K}
    {Inv : Matrix (Fin n) (Fin k) K → Matrix (Fin k) (Fin n) K → K → K → Prop}
    (hd : ud = true → ∀ s s' lam, Inv s.S s.C s.alphaS s.alphaC → KAAState.Good A s →
      KAAState.DictPost cfg s s' lam → Inv s'.S s'.C s'.alphaS s'.alphaC)
    (hw : uw = true → ∀ s s' lam, Inv s.S s.C s.alphaS s.alphaC → KAAState.Good A s →
      KAAState.WeightsPost cfg s s' lam → Inv s'.S s'.C s'.alphaS s'.alphaC)
    {s : KAAState n k K} {r : IterResult (KAAState n k K) K} (hg : s.Good A)
    (hs : Inv s.S s.C s.alphaS s.alphaC)
    (h : kaaIterate cfg delta require tol maxIter ud uw s = Py.ok r) :
    r.state.Good A ∧ Inv r.state.S r.state.C r.state.alphaS r.state.alphaC := by
  unfold kaaIterate at h
  refine iterate_inv (Inv := fun x => KAAState.Good A x ∧ Inv x.S x.C x.alphaS x.alphaC)
    ?_ ?_ ⟨hg, hs⟩ h
  · intro x ⟨hx, hi⟩
    refine ⟨KAAState.evaluateCost_good hx, ?_⟩
    rw [KAAState.evaluateCost_eq _ _ hx.alpha]
    exact hi
  · intro p hp x x' ⟨hx, hi⟩ hpx
    rcases kaa_mem_phases hp with ⟨h', rfl⟩ | ⟨h', rfl⟩
    · obtain ⟨lam, hl⟩ := KAAState.updateDictionary_post hx hpx
      exact ⟨hl.good hx, hd h' _ _ _ hi hx hl⟩
    · obtain ⟨lam, hl⟩ := KAAState.updateWeights_post hx hpx
      exact ⟨hl.good hx, hw h' _ _ _ hi hx hl⟩

/-- An invariant of both updates holds at the end of the loop. -/
theorem kaaIterate_inv {cfg : LSConfig K}
    {delta : K} {require : Bool} {tol : K} {maxIter : ℕ} {ud uw : Bool}
    {A : Matrix (Fin n) (Fin n) K} {Inv : Matrix (Fin n) (Fin k) K → Matrix (Fin k) (Fin n) K → Prop}
    (hd : ud = true → ∀ s s' lam, Inv s.S s.C → KAAState.Good A s →
      KAAState.DictPost cfg s s' lam → Inv s'.S s'.C)
    (hw : uw = true → ∀ s s' lam, Inv s.S s.C → KAAState.Good A s →
      KAAState.WeightsPost cfg s s' lam → Inv s'.S s'.C)
    {s : KAAState n k K} {r : IterResult (KAAState n k K) K} (hg : s.Good A) (hs : Inv s.S s.C)
    (h : kaaIterate cfg delta require tol maxIter ud uw s = Py.ok r) :
    r.state.Good A ∧ Inv r.state.S r.state.C :=
  kaaIterate_inv_scales (Inv := fun S C _ _ => Inv S C) hd hw hg hs h

theorem kaaIterate_S_stochastic {cfg : LSConfig K} (h1 : cfg.Safe) (hk : 1 ≤ k)
    {delta : K} {require : Bool} {tol : K} {maxIter : ℕ}
    {ud uw : Bool} {A : Matrix (Fin n) (Fin n) K} {s : KAAState n k K}
    {r : IterResult (KAAState n k K) K} (hg : s.Good A) (hs : RowStochastic s.S)
    (ha : 0 ≤ s.alphaS)
    (h : kaaIterate cfg delta require tol maxIter ud uw s = Py.ok r) :
    RowStochastic r.state.S :=
  (kaaIterate_inv_scales (Inv := fun S _ a _ => RowStochastic S ∧ (0 ≤ cfg.alphaMax → 0 ≤ a))
    (fun _ s s' lam hi _ hl => by rw [hl.S, hl.alphaS]; exact hi)
    (fun _ s s' lam ⟨hi, ha⟩ _ hl => by
      refine ⟨?_, fun h0 => ?_⟩
      · obtain ⟨hl0, hl1⟩ := hl.range.unit h1 (fun h => projected_slope_nonpos hk hi (ha h))
        rw [hl.S]; exact rowStochastic_step hi (projectRows_rowStochastic hk _) hl0 hl1
      · obtain ⟨b, q, hq, hb⟩ := hl.alpha
        rw [hb]; exact nextSpgAlpha_nonneg hq h0)
    hg ⟨hs, fun _ => ha⟩ h).2.1

theorem kaaIterate_C_stochastic {cfg : LSConfig K} (h1 : cfg.Safe) (hn : 1 ≤ n)
    {delta : K} {require : Bool} {tol : K} {maxIter : ℕ}
    {ud uw : Bool} {A : Matrix (Fin n) (Fin n) K} {s : KAAState n k K}
    {r : IterResult (KAAState n k K) K} (hg : s.Good A) (hs : RowStochastic s.C)
    (ha : 0 ≤ s.alphaC)
    (h : kaaIterate cfg delta require tol maxIter ud uw s = Py.ok r) :
    RowStochastic r.state.C :=
  (kaaIterate_inv_scales (Inv := fun _ C _ a => RowStochastic C ∧ (0 ≤ cfg.alphaMax → 0 ≤ a))
    (fun _ s s' lam ⟨hi, ha⟩ _ hl => by
      refine ⟨?_, fun h0 => ?_⟩
      · obtain ⟨hl0, hl1⟩ := hl.range.unit h1 (fun h => projected_slope_nonpos hn hi (ha h))
        rw [hl.C]; exact rowStochastic_step hi (projectRows_rowStochastic hn _) hl0 hl1
      · obtain ⟨b, q, hq, hb⟩ := hl.alpha
        rw [hb]; exact nextSpgAlpha_nonneg hq h0)
    (fun _ s s' lam hi _ hl => by rw [hl.C, hl.alphaC]; exact hi)
    hg ⟨hs, fun _ => ha⟩ h).2.1

theorem kaaIterate_C_kept {cfg : LSConfig K} {delta : K} {require : Bool} {tol : K} {maxIter : ℕ}
    {uw : Bool} {A : Matrix (Fin n) (Fin n) K} {s : KAAState n k K}
    {r : IterResult (KAAState n k K) K} (hg : s.Good A)
    (h : kaaIterate cfg delta require tol maxIter false uw s = Py.ok r) :
    r.state.C = s.C :=
  (kaaIterate_inv (Inv := fun _ C => C = s.C) (fun h => by simp at h)
    (fun _ s s' lam hi _ hl => by rw [hl.C]; exact hi) hg rfl h).2

theorem kaaIterate_S_kept {cfg : LSConfig K} {delta : K} {require : Bool} {tol : K} {maxIter : ℕ}
    {ud : Bool} {A : Matrix (Fin n) (Fin n) K} {s : KAAState n k K}
    {r : IterResult (KAAState n k K) K} (hg : s.Good A)
    (h : kaaIterate cfg delta require tol maxIter ud false s = Py.ok r) :
    r.state.S = s.S :=
  (kaaIterate_inv (Inv := fun S _ => S = s.S)
    (fun _ s s' lam hi _ hl => by rw [hl.S]; exact hi) (fun h => by simp at h) hg rfl h).2

theorem kaaIterate_cost {cfg : LSConfig K}
    {delta : K} {require : Bool} {tol : K} {maxIter : ℕ} {ud uw : Bool}
    {A : Matrix (Fin n) (Fin n) K} {s : KAAState n k K}
    {r : IterResult (KAAState n k K) K} (hg : s.Good A)
    (h : kaaIterate cfg delta require tol maxIter ud uw s = Py.ok r) :
    r.cost = kaaCost A r.state.S r.state.C := by
  have hg' := (kaaIterate_inv (Inv := fun _ _ => True) (fun _ _ _ _ _ _ _ => trivial)
    (fun _ _ _ _ _ _ _ => trivial) hg trivial h).1
  have hc := iterate_cost (KAAState.evaluateCost_idem delta) h
  rw [KAAState.evaluateCost_eq _ _ hg'.alpha] at hc
  have := congrArg Prod.snd hc
  simp only [hg'.Kmat] at this
  exact this.symm

theorem kaaIterate_monotone {cfg : LSConfig K} {delta : K} {tol : K} {maxIter : ℕ} {ud uw : Bool}
    {A : Matrix (Fin n) (Fin n) K} {s : KAAState n k K}
    {r : IterResult (KAAState n k K) K} (hg : s.Good A)
    (h : kaaIterate cfg delta true tol maxIter ud uw s = Py.ok r) :
    (kaaCost A s.S s.C :: r.trace).IsChain (· ≥ ·) ∧ r.cost ≤ kaaCost A s.S s.C := by
  have := iterate_monotone h
  rw [KAAState.evaluateCost_eq _ _ hg.alpha, hg.Kmat] at this
  exact this

/-- Everything needed for descent. -/
structure KAAState.Ready (A : Matrix (Fin n) (Fin n) K) (s : KAAState n k K) : Prop where
  good : s.Good A
  S : RowStochastic s.S
  C : RowStochastic s.C
  alphaS : 0 < s.alphaS
  alphaC : 0 < s.alphaC
  memS : ∃ m, s.fSMem = [m]
  memC : ∃ m, s.fCMem = [m]

theorem kaa_ready_phases [Archimedean K] {cfg : LSConfig K} (h1 : 0 < cfg.sigmaOne)
    (h2 : cfg.sigmaTwo < 1) (hg0 : 0 ≤ cfg.gamma) (hg1 : cfg.gamma < 1)
    (ht : cfg.stepSizeTolerance = 0) (ha0 : 0 < cfg.alphaMin) (ha1 : cfg.alphaMin ≤ cfg.alphaMax)
    (hk : 1 ≤ k) (hn : 1 ≤ n) {delta : K} (hdel : delta ≤ 0) {A : Matrix (Fin n) (Fin n) K}
    (hA : Aᵀ = A) {ud uw : Bool} :
    ∀ p ∈ (if ud then [KAAState.updateDictionary (n := n) (k := k) cfg delta] else []) ++
       (if uw then [KAAState.updateWeights cfg delta] else []),
      ∀ s, s.Ready A → ∃ s', p s = Py.ok s' ∧ s'.Ready A ∧
        (s'.evaluateCost delta).2 ≤ (s.evaluateCost delta).2 := by
  intro p hp s hs
  obtain ⟨mS, hmS⟩ := hs.memS
  obtain ⟨mC, hmC⟩ := hs.memC
  rcases kaa_mem_phases hp with ⟨-, rfl⟩ | ⟨-, rfl⟩
  · obtain ⟨s', h, hle⟩ := KAAState.updateDictionaryCore_descends h1 h2 hg0 hg1 ht hn
      (delta := delta) hA hs.good hs.C hs.alphaC hmC
    have h' : s.updateDictionary cfg delta = Py.ok s' := by
      unfold KAAState.updateDictionary
      rw [h]
      simp [not_lt.2 hdel]
    obtain ⟨lam, hl⟩ := KAAState.updateDictionary_post hs.good h'
    have hg' := hl.good hs.good
    refine ⟨s', h', ⟨hg', by rw [hl.S]; exact hs.S, ?_, by rw [hl.alphaS]; exact hs.alphaS, ?_,
      ⟨mS, by rw [hl.fSMem, hmS]⟩, ⟨_, by rw [hl.fCMem, hmC]; rfl⟩⟩, ?_⟩
    · rw [hl.C]
      exact rowStochastic_step hs.C (projectRows_rowStochastic hn _) (hl.pos h1 h2).le (hl.le h1 h2)
    · obtain ⟨b, q, -, hb⟩ := hl.alpha
      rw [hb]; exact nextSpgAlpha_pos ha0 ha1
    · rw [KAAState.evaluateCost_eq _ _ hg'.alpha, KAAState.evaluateCost_eq _ _ hs.good.alpha,
        hg'.Kmat, hs.good.Kmat]
      exact hle
  · obtain ⟨s', h, hle⟩ := KAAState.updateWeights_descends h1 h2 hg0 hg1 ht hk
      (delta := delta) hA hs.good hs.S hs.alphaS hmS
    obtain ⟨lam, hl⟩ := KAAState.updateWeights_post hs.good h
    have hg' := hl.good hs.good
    refine ⟨s', h, ⟨hg', ?_, by rw [hl.C]; exact hs.C, ?_, by rw [hl.alphaC]; exact hs.alphaC,
      ⟨_, by rw [hl.fSMem, hmS]; rfl⟩, ⟨mC, by rw [hl.fCMem, hmC]⟩⟩, ?_⟩
    · rw [hl.S]
      exact rowStochastic_step hs.S (projectRows_rowStochastic hk _) (hl.pos h1 h2).le (hl.le h1 h2)
    · obtain ⟨b, q, -, hb⟩ := hl.alpha
      rw [hb]; exact nextSpgAlpha_pos ha0 ha1
    · rw [KAAState.evaluateCost_eq _ _ hg'.alpha, KAAState.evaluateCost_eq _ _ hs.good.alpha,
        hg'.Kmat, hs.good.Kmat]
      exact hle

theorem kaaIterate_succeeds [Archimedean K] {cfg : LSConfig K} (h1 : 0 < cfg.sigmaOne)
    (h2 : cfg.sigmaTwo < 1) (hg0 : 0 ≤ cfg.gamma) (hg1 : cfg.gamma < 1)
    (ht : cfg.stepSizeTolerance = 0) (ha0 : 0 < cfg.alphaMin) (ha1 : cfg.alphaMin ≤ cfg.alphaMax)
    (hk : 1 ≤ k) (hn : 1 ≤ n) {delta : K} (hdel : delta ≤ 0) {A : Matrix (Fin n) (Fin n) K}
    (hA : Aᵀ = A) {require : Bool} {tol : K} {maxIter : ℕ} (hm : 0 < maxIter)
    {ud uw : Bool} {s : KAAState n k K} (hs : s.Ready A) :
    ∃ r, kaaIterate cfg delta require tol maxIter ud uw s = Py.ok r := by
  obtain ⟨r, hr, -⟩ := iterate_ok (evalCost := KAAState.evaluateCost delta)
    (KAAState.evaluateCost_idem delta) (require := require) (tol := tol)
    (Inv := KAAState.Ready A) (fun s h => by
      rw [KAAState.evaluateCost_eq _ _ h.good.alpha]
      exact ⟨⟨h.good.Kmat, h.good.traceK, h.good.alpha, rfl⟩, h.S, h.C, h.alphaS, h.alphaC, h.memS,
        h.memC⟩)
    (kaa_ready_phases h1 h2 hg0 hg1 ht ha0 ha1 hk hn hdel hA (ud := ud) (uw := uw)) hs hm
  exact ⟨r, hr⟩

theorem kaa_ready_initial {cfg : LSConfig K} (hmem : cfg.memory = 1) {A : Matrix (Fin n) (Fin n) K}
    {S : Matrix (Fin n) (Fin k) K} (hS : RowStochastic S) {C : Matrix (Fin k) (Fin n) K}
    (hC : RowStochastic C) : (KAAState.initializeWorkspace cfg A S C).Ready A :=
  ⟨KAAState.initializeWorkspace_good _ _ _ _, hS, hC, one_pos, one_pos,
    ⟨0, by simp [KAAState.initializeWorkspace, hmem]⟩,
    ⟨0, by simp [KAAState.initializeWorkspace, hmem]⟩⟩

/-- Exceptions of the loop: the monotonicity check, or an empty memory. -/
theorem kaaIterate_raise {cfg : LSConfig K}
    {delta : K} {require : Bool} {tol : K} {maxIter : ℕ} (hm : 0 < maxIter) {ud uw : Bool}
    {A : Matrix (Fin n) (Fin n) K} {s : KAAState n k K} (hg : s.Good A) {e : PyErr}
    (h : kaaIterate cfg delta require tol maxIter ud uw s = Py.raise e) :
    e = .indexError ∨ (e = .runtimeError ∧ require = true) := by
  rcases iterate_raise (Inv := KAAState.Good A) (fun _ h => KAAState.evaluateCost_good h)
    kaa_good_phases hg hm h with ⟨p, hp, x, hx, hpx⟩ | h
  · rcases kaa_mem_phases hp with ⟨-, rfl⟩ | ⟨-, rfl⟩
    · exact Or.inl (KAAState.updateDictionary_raise hx hpx).2
    · exact Or.inl (KAAState.updateWeights_raise hx hpx).2
  · exact Or.inr h

/-! ### The relaxation parameter -/

theorem PyRel.imp {α β : Type} {P Q : α → β → Prop} {x : Py α} {y : Py β} (h : PyRel P x y)
    (hPQ : ∀ a b, x = Py.ok a → y = Py.ok b → P a b → Q a b) : PyRel Q x y := by
  cases x <;> cases y <;> simp only [PyRel] at h ⊢
  · exact hPQ _ _ rfl rfl h
  · exact h

namespace KAAState

/-- Equal up to the working arrays of the scale factors, which are 1. -/
def SameSolver (s t : KAAState n k K) : Prop :=
  s.alpha = (fun _ => 1) ∧ ∃ c g i a m, t = { s with
    CKS := c, gradAlpha := g, incrAlpha := i, alphaAlpha := a, fAlphaMem := m }

theorem updateWeightsGradient_eq (delta : K) (s : KAAState n k K) (h : s.alpha = fun _ => 1) :
    s.updateWeightsGradient delta = { s with
      gradS := s.Kmatᵀ * ((-2 : K) • s.Cᵀ) + s.S * ((2 : K) • s.CKCt) } := by
  have hd : Matrix.diagonal s.alpha = (1 : Matrix (Fin k) (Fin k) K) := by
    rw [h]; exact Matrix.diagonal_one
  unfold updateWeightsGradient diagAlpha
  by_cases hdel : delta > 0
  · simp only [hdel, if_true, hd, Matrix.mul_one]
  · simp only [hdel, if_false]

theorem updateDictionaryGradient_eq (delta : K) (s : KAAState n k K) (h : s.alpha = fun _ => 1) :
    s.updateDictionaryGradient delta = { s with
      gradC := s.Sᵀ * ((-2 : K) • s.Kmatᵀ) + (2 : K) • (s.StS * s.CK) } := by
  have hd : Matrix.diagonal s.alpha = (1 : Matrix (Fin k) (Fin k) K) := by
    rw [h]; exact Matrix.diagonal_one
  unfold updateDictionaryGradient diagAlpha
  by_cases hdel : delta > 0
  · simp only [hdel, if_true, hd, Matrix.one_mul]
  · simp only [hdel, if_false]

theorem updateWeights_same {cfg : LSConfig K} {d d' : K} {A : Matrix (Fin n) (Fin n) K}
    {s t : KAAState n k K} (hg : s.Good A) (h : SameSolver s t) :
    PyRel SameSolver (s.updateWeights cfg d) (t.updateWeights cfg d') := by
  obtain ⟨ha, c, g, i, a, m, ht⟩ := h
  have hg' : t.Good A := by rw [ht]; exact ⟨hg.Kmat, hg.traceK, hg.alpha, hg.StS⟩
  rw [updateWeights_eq hg, updateWeights_eq hg']
  subst ht
  refine (lineSearch_rel (R := SameSolver) ?_ ?_).bind ?_
  · rintro s t x ⟨hs, c, g, i, a, m, rfl⟩
    exact ⟨⟨hs, c, g, i, a, m, rfl⟩, rfl⟩
  · exact ⟨ha, c, g, i, a, m, rfl⟩
  · rintro ⟨m1, l1, s1, c1, n1⟩ ⟨m2, l2, s2, c2, n2⟩ ⟨⟨hs, c, g, i, a, m, h4⟩, h2, h3, -⟩
    simp only at h2 h3 h4 hs
    subst h2; subst h3; subst h4
    simp only [PyRel]
    rw [updateWeightsGradient_eq _ _ (by exact hs), updateWeightsGradient_eq _ _ (by exact hs)]
    exact ⟨hs, c, g, i, a, m, rfl⟩

theorem updateDictionaryCore_same {cfg : LSConfig K} {d d' : K} {A : Matrix (Fin n) (Fin n) K}
    {s t : KAAState n k K} (hg : s.Good A) (h : SameSolver s t) :
    PyRel SameSolver (s.updateDictionaryCore cfg d) (t.updateDictionaryCore cfg d') := by
  obtain ⟨ha, c, g, i, a, m, ht⟩ := h
  have hg' : t.Good A := by rw [ht]; exact ⟨hg.Kmat, hg.traceK, hg.alpha, hg.StS⟩
  rw [updateDictionaryCore_eq hg, updateDictionaryCore_eq hg']
  subst ht
  refine (lineSearch_rel (R := SameSolver) ?_ ?_).bind ?_
  · rintro s t x ⟨hs, c, g, i, a, m, rfl⟩
    rw [dictionaryTrial_eq _ _ (by exact hs), dictionaryTrial_eq _ _ (by exact hs)]
    exact ⟨⟨hs, c, g, i, a, m, rfl⟩, rfl⟩
  · exact ⟨ha, c, g, i, a, m, rfl⟩
  · rintro ⟨m1, l1, s1, c1, n1⟩ ⟨m2, l2, s2, c2, n2⟩ ⟨⟨hs, c, g, i, a, m, h4⟩, h2, h3, -⟩
    simp only at h2 h3 h4 hs
    subst h2; subst h3; subst h4
    simp only [PyRel]
    rw [updateDictionaryGradient_eq _ _ (by exact hs),
      updateDictionaryGradient_eq _ _ (by exact hs)]
    exact ⟨hs, c, g, i, a, m, rfl⟩

/-- The relation carried through the loop. -/
def Same (A : Matrix (Fin n) (Fin n) K) (s t : KAAState n k K) : Prop :=
  s.Good A ∧ s.fAlphaMem.length = s.fCMem.length ∧ SameSolver s t

theorem updateWeights_Same {cfg : LSConfig K}
    {d d' : K} {A : Matrix (Fin n) (Fin n) K} {s t : KAAState n k K} (h : Same A s t) :
    PyRel (Same A) (s.updateWeights cfg d) (t.updateWeights cfg d') := by
  refine (updateWeights_same h.1 h.2.2).imp fun a b ha _ hab => ?_
  obtain ⟨lam, hl⟩ := updateWeights_post h.1 ha
  exact ⟨hl.good h.1, by rw [hl.fAlphaMem, hl.fCMem]; exact h.2.1, hab⟩

theorem updateDictionaryCore_Same {cfg : LSConfig K} {d : K} {A : Matrix (Fin n) (Fin n) K}
    {s t : KAAState n k K} (h : Same A s t) :
    PyRel (fun a b => Same A a b ∧ a.fAlphaMem ≠ [] ∧ a.CK = a.C * a.Kmat ∧
      a.CKCt = a.C * a.Kmat * a.Cᵀ) (s.updateDictionaryCore cfg d)
      (t.updateDictionaryCore cfg 0) := by
  refine (updateDictionaryCore_same h.1 h.2.2).imp fun a b ha _ hab => ?_
  obtain ⟨lam, hl, hm⟩ := updateDictionaryCore_post h.1 ha
  have hpos := List.length_pos_of_ne_nil hl.memNe
  refine ⟨⟨hl.good h.1, ?_, hab⟩, ?_, hl.CK, hl.CKCt⟩
  · rw [hm, hl.fCMem, h.2.1]
    simp
    omega
  · rw [hm]
    have := h.2.1
    exact List.ne_nil_of_length_pos (by omega)

theorem Same.scaleFactors {cfg : LSConfig K} {d : K} {A : Matrix (Fin n) (Fin n) K}
    {a b s' : KAAState n k K} (h : Same A a b) (hCK : a.CK = a.C * a.Kmat)
    (hCKCt : a.CKCt = a.C * a.Kmat * a.Cᵀ) (hs' : a.updateScaleFactors cfg d = Py.ok s') :
    Same A s' b := by
  obtain ⟨hg, hlen, hsame⟩ := h
  obtain ⟨g, i, al, m, rfl, hl⟩ := updateScaleFactors_ok hs'
  obtain ⟨ha, c', g', i', a', m', rfl⟩ := hsame
  refine ⟨⟨hg.Kmat, hg.traceK, hg.alpha, hg.StS⟩, hl.trans hlen, ha, c', g', i', a', m', ?_⟩
  simp only [hCK, hCKCt]

theorem updateDictionary_Same {cfg : LSConfig K} (h1 : 0 < cfg.sigmaOne)
    {N : ℕ} (hN : shrink cfg.sigmaTwo ^ (N + 1) < cfg.stepSizeTolerance)
    {d : K} {A : Matrix (Fin n) (Fin n) K} {s t : KAAState n k K} (h : Same A s t) :
    PyRel (Same A) (s.updateDictionary cfg d) (t.updateDictionary cfg 0) := by
  unfold updateDictionary
  refine (updateDictionaryCore_Same h).bind fun a b hab => ?_
  obtain ⟨hs, hne, hCK, hCKCt⟩ := hab
  rw [if_neg (lt_irrefl (0 : K))]
  by_cases hdel : d > 0
  · rw [if_pos hdel]
    obtain ⟨s', hs'⟩ := updateScaleFactors_terminates h1 hN (delta := d) hne
    rw [hs']
    exact hs.scaleFactors hCK hCKCt hs'
  · rw [if_neg hdel]
    exact hs

/-- For any settings the dictionary update either runs forever (in the search over the scale
factors) or agrees with the one for `delta = 0`. -/
theorem updateDictionary_SameLe {cfg : LSConfig K} {d : K} {A : Matrix (Fin n) (Fin n) K}
    {s t : KAAState n k K} (h : Same A s t) :
    PyLe (Same A) (s.updateDictionary cfg d) (t.updateDictionary cfg 0) := by
  unfold updateDictionary
  refine PyLe.bind (Or.inr (updateDictionaryCore_Same h)) fun a b hab => ?_
  obtain ⟨hs, hne, hCK, hCKCt⟩ := hab
  rw [if_neg (lt_irrefl (0 : K))]
  by_cases hdel : d > 0
  · rw [if_pos hdel]
    cases hs' : a.updateScaleFactors cfg d with
    | diverge => exact Or.inl rfl
    | raise e => exact absurd (updateScaleFactors_raise hs').1 hne
    | ok s' => exact Or.inr (hs.scaleFactors hCK hCKCt hs')
  · rw [if_neg hdel]
    exact Or.inr hs

end KAAState

/-- With a step floor the loop does not depend on `delta`. -/
theorem kaaIterate_delta {cfg : LSConfig K} (h1 : 0 < cfg.sigmaOne)
    {N : ℕ} (hN : shrink cfg.sigmaTwo ^ (N + 1) < cfg.stepSizeTolerance)
    {d : K} {require : Bool} {tol : K} {maxIter : ℕ} {ud uw : Bool}
    (A : Matrix (Fin n) (Fin n) K) (S : Matrix (Fin n) (Fin k) K) (C : Matrix (Fin k) (Fin n) K) :
    PyRel (fun r r' => KAAState.Same A r.state r'.state ∧ r.cost = r'.cost ∧ r.nIter = r'.nIter ∧
          r.trace = r'.trace)
      (kaaIterate cfg d require tol maxIter ud uw (KAAState.initializeWorkspace cfg A S C))
      (kaaIterate cfg 0 require tol maxIter ud uw (KAAState.initializeWorkspace cfg A S C)) := by
  unfold kaaIterate
  refine iterate_rel (R := KAAState.Same A) ?_ ?_ ?_
  · rintro s t ⟨hg, hl, hs⟩
    obtain ⟨ha, c, g, i, a, m, rfl⟩ := hs
    rw [KAAState.evaluateCost_eq _ _ hg.alpha, KAAState.evaluateCost_eq _ _ (by exact hg.alpha)]
    exact ⟨⟨⟨hg.Kmat, hg.traceK, hg.alpha, rfl⟩, hl, ha, c, g, i, a, m, rfl⟩, rfl⟩
  · have e1 : ∀ s t, KAAState.Same A s t →
        PyRel (KAAState.Same A) (KAAState.updateDictionary cfg d s)
          (KAAState.updateDictionary (k := k) cfg 0 t) :=
      fun s t h => KAAState.updateDictionary_Same h1 hN h
    have e2 : ∀ s t, KAAState.Same A s t →
        PyRel (KAAState.Same A) (KAAState.updateWeights cfg d s)
          (KAAState.updateWeights (k := k) cfg 0 t) :=
      fun s t h => KAAState.updateWeights_Same h
    cases ud <;> cases uw <;> simp <;> first | exact ⟨e1, e2⟩ | exact e1 | exact e2
  · exact ⟨KAAState.initializeWorkspace_good _ _ _ _, by simp [KAAState.initializeWorkspace], rfl,
      _, _, _, _, _, rfl⟩

/-- For any settings the loop either runs forever or does not depend on `delta`. -/
theorem kaaIterate_deltaLe {cfg : LSConfig K}
    {d : K} {require : Bool} {tol : K} {maxIter : ℕ} {ud uw : Bool}
    (A : Matrix (Fin n) (Fin n) K) (S : Matrix (Fin n) (Fin k) K) (C : Matrix (Fin k) (Fin n) K) :
    PyLe (fun r r' => KAAState.Same A r.state r'.state ∧ r.cost = r'.cost ∧ r.nIter = r'.nIter ∧
          r.trace = r'.trace)
      (kaaIterate cfg d require tol maxIter ud uw (KAAState.initializeWorkspace cfg A S C))
      (kaaIterate cfg 0 require tol maxIter ud uw (KAAState.initializeWorkspace cfg A S C)) := by
  unfold kaaIterate
  refine iterate_le (R := KAAState.Same A) ?_ ?_ ?_
  · rintro s t ⟨hg, hl, hs⟩
    obtain ⟨ha, c, g, i, a, m, rfl⟩ := hs
    rw [KAAState.evaluateCost_eq _ _ hg.alpha, KAAState.evaluateCost_eq _ _ (by exact hg.alpha)]
    exact ⟨⟨⟨hg.Kmat, hg.traceK, hg.alpha, rfl⟩, hl, ha, c, g, i, a, m, rfl⟩, rfl⟩
  · have e1 : ∀ s t, KAAState.Same A s t →
        PyLe (KAAState.Same A) (KAAState.updateDictionary cfg d s)
          (KAAState.updateDictionary (k := k) cfg 0 t) :=
      fun s t h => KAAState.updateDictionary_SameLe h
    have e2 : ∀ s t, KAAState.Same A s t →
        PyLe (KAAState.Same A) (KAAState.updateWeights cfg d s)
          (KAAState.updateWeights (k := k) cfg 0 t) :=
      fun s t h => Or.inr (KAAState.updateWeights_Same h)
    cases ud <;> cases uw <;> simp <;> first | exact ⟨e1, e2⟩ | exact e1 | exact e2
  · exact ⟨KAAState.initializeWorkspace_good _ _ _ _, by simp [KAAState.initializeWorkspace], rfl,
      _, _, _, _, _, rfl⟩

end Reor
