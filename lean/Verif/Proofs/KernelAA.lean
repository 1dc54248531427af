import Verif.Proofs.KernelAACost
import Verif.Proofs.Rel
import Verif.Proofs.GPNHFit

/-!
The updates and the outer loop of the KernelAA model.
-/

namespace Reor

set_option linter.unusedSectionVars false

open scoped BigOperators Matrix
open Spec

variable {K : Type} [Field K] [LinearOrder K] [IsStrictOrderedRing K]
variable {n k : ℕ}

namespace KAAState

theorem weightsTrial_retriable : Retriable (weightsTrial (n := n) (k := k) (K := K)) :=
  fun _ _ _ => rfl

theorem dictionaryTrial_retriable (delta : K) :
    Retriable (dictionaryTrial (n := n) (k := k) delta) := by
  intro s a b
  unfold dictionaryTrial refreshCK diagAlpha
  by_cases h : delta > 0 <;> simp only [h, if_true, if_false]

/-- What every fit keeps. -/
structure Good (A : Matrix (Fin n) (Fin n) K) (s : KAAState n k K) : Prop where
  Kmat : s.Kmat = A
  traceK : s.traceK = A.trace
  alpha : s.alpha = fun _ => 1
  StS : s.StS = s.Sᵀ * s.S

/-- What a completed weights update guarantees. -/
structure WeightsPost (cfg : LSConfig K) (s s' : KAAState n k K) (lam : K) : Prop where
  range : StepRange cfg
    (inner (simplexProjectRows (s.S - s.alphaS • kaaGradS s.Kmat s.S s.C) - s.S)
      (kaaGradS s.Kmat s.S s.C)) lam
  Kmat : s'.Kmat = s.Kmat
  traceK : s'.traceK = s.traceK
  scale : s'.alpha = s.alpha
  C : s'.C = s.C
  S : s'.S = s.S +
    lam • (simplexProjectRows (s.S - s.alphaS • kaaGradS s.Kmat s.S s.C) - s.S)
  StS : s'.StS = s'.Sᵀ * s'.S
  alphaC : s'.alphaC = s.alphaC
  fCMem : s'.fCMem = s.fCMem
  fAlphaMem : s'.fAlphaMem = s.fAlphaMem
  fSMem : s'.fSMem = s.fSMem.tail ++ [kaaCost s.Kmat s.S s.C]
  memNe : s.fSMem ≠ []
  alpha : ∃ beta sksk, 0 ≤ sksk ∧ s'.alphaS = nextSpgAlpha beta sksk cfg.alphaMin cfg.alphaMax
  accept : (∃ fMax ∈ s'.fSMem, (∀ f ∈ s'.fSMem, f ≤ fMax) ∧
      kaaCost s'.Kmat s'.S s'.C ≤ fMax + cfg.gamma * lam *
        inner (simplexProjectRows (s.S - s.alphaS • kaaGradS s.Kmat s.S s.C) - s.S)
          (kaaGradS s.Kmat s.S s.C)) ∨ |lam| < cfg.stepSizeTolerance

/-- The state in which the weights line search starts. -/
def weightsStart (s : KAAState n k K) : KAAState n k K :=
  { s with
      CK := s.C * s.Kmat, CKCt := s.C * s.Kmat * s.Cᵀ
      gradS := kaaGradS s.Kmat s.S s.C
      incrS := simplexProjectRows (s.S - s.alphaS • kaaGradS s.Kmat s.S s.C) - s.S
      SOld := s.S }

/-- The state in which the dictionary line search starts. -/
def dictStart (s : KAAState n k K) : KAAState n k K :=
  { s with
      StS := s.Sᵀ * s.S
      CK := s.C * s.Kmat, CKCt := s.C * s.Kmat * s.Cᵀ
      gradC := kaaGradC s.Kmat s.S s.C
      incrC := simplexProjectRows (s.C - s.alphaC • kaaGradC s.Kmat s.S s.C) - s.C
      COld := s.C }

theorem weightsTrial_cost {A : Matrix (Fin n) (Fin n) K} {s : KAAState n k K} (hg : s.Good A)
    (lam : K) : (weightsTrial s.weightsStart lam).2 =
      kaaCost A (s.S + lam •
        (simplexProjectRows (s.S - s.alphaS • kaaGradS s.Kmat s.S s.C) - s.S)) s.C := by
  unfold weightsTrial
  simp only
  rw [cachedCost_eq _ (by simpa [weightsStart, hg.Kmat] using hg.traceK) rfl rfl rfl]
  simp [weightsStart, hg.Kmat]

theorem weightsStart_cost {A : Matrix (Fin n) (Fin n) K} {s : KAAState n k K} (hg : s.Good A) :
    s.weightsStart.cachedCost = kaaCost A s.S s.C := by
  rw [cachedCost_eq s.weightsStart (by simpa [weightsStart, hg.Kmat] using hg.traceK) rfl rfl hg.StS]
  simp [weightsStart, hg.Kmat]

theorem dictionaryTrial_cost {A : Matrix (Fin n) (Fin n) K} {s : KAAState n k K} (hg : s.Good A)
    (delta lam : K) : (dictionaryTrial delta s.dictStart lam).2 =
      kaaCost A s.S (s.C + lam •
        (simplexProjectRows (s.C - s.alphaC • kaaGradC s.Kmat s.S s.C) - s.C)) := by
  rw [dictionaryTrial_eq _ _ (by exact hg.alpha)]
  simp only
  rw [cachedCost_eq _ (by simpa [dictStart, hg.Kmat] using hg.traceK) rfl rfl rfl]
  simp [dictStart, hg.Kmat]

theorem dictStart_cost {A : Matrix (Fin n) (Fin n) K} {s : KAAState n k K} (hg : s.Good A) :
    s.dictStart.cachedCost = kaaCost A s.S s.C := by
  rw [cachedCost_eq _ (by simpa [dictStart, hg.Kmat] using hg.traceK) rfl rfl rfl]
  simp [dictStart, hg.Kmat]

theorem updateWeights_eq {cfg : LSConfig K} {delta : K} {A : Matrix (Fin n) (Fin n) K}
    {s : KAAState n k K} (hg : s.Good A) :
    s.updateWeights cfg delta =
      (lineSearch cfg weightsTrial s.fSMem s.weightsStart (kaaCost A s.S s.C)
        (inner (simplexProjectRows (s.S - s.alphaS • kaaGradS s.Kmat s.S s.C) - s.S)
          (kaaGradS s.Kmat s.S s.C)) >>= fun r =>
      let s := updateWeightsGradient delta { r.state with fSMem := r.mem }
      Py.ok { s with
        alphaS := nextSpgAlpha (r.stepSize * mulSum s.incrS (s.gradS - r.state.gradS))
          (r.stepSize ^ 2 * mulSum s.incrS s.incrS) cfg.alphaMin cfg.alphaMax }) := by
  unfold updateWeights weightsLineSearch
  simp only [prepareWeights_eq _ _ hg.alpha]
  rw [← weightsStart_cost hg]
  change ((lineSearch cfg weightsTrial s.fSMem s.weightsStart s.weightsStart.cachedCost _ >>=
    fun r => _) >>= fun r => _) = _
  cases h : lineSearch cfg weightsTrial s.fSMem s.weightsStart s.weightsStart.cachedCost
    (inner (simplexProjectRows (s.S - s.alphaS • kaaGradS s.Kmat s.S s.C) - s.S)
          (kaaGradS s.Kmat s.S s.C)) with
  | ok r =>
    simp only [mulSum_eq_inner, h, Py.ok_bind, Py.pure_eq]
  | raise e => simp only [mulSum_eq_inner, h, Py.raise_bind]
  | diverge => simp only [mulSum_eq_inner, h, Py.diverge_bind]

theorem updateWeights_post {cfg : LSConfig K}
    {delta : K} {A : Matrix (Fin n) (Fin n) K} {s s' : KAAState n k K} (hg : s.Good A)
    (h : s.updateWeights cfg delta = Py.ok s') : ∃ lam, WeightsPost cfg s s' lam := by
  rw [updateWeights_eq hg] at h
  obtain ⟨r, hr, h⟩ := Py.bind_eq_ok.1 h
  simp only [Py.ok.injEq] at h
  obtain ⟨ha, hc, hd, he, hf⟩ := lineSearch_spec weightsTrial_retriable hr
  have hcost : (weightsTrial s.weightsStart r.stepSize).2 = r.cost := congrArg Prod.snd he
  have hstate : (weightsTrial s.weightsStart r.stepSize).1 = r.state := congrArg Prod.fst he
  rw [weightsTrial_cost hg] at hcost
  have hs' : ∃ gS aS, s' = { (weightsTrial s.weightsStart r.stepSize).1 with
      fSMem := r.mem, gradS := gS, alphaS := aS } ∧
      ∃ beta sksk, 0 ≤ sksk ∧ aS = nextSpgAlpha beta sksk cfg.alphaMin cfg.alphaMax := by
    rw [hstate, ← h]
    unfold updateWeightsGradient
    by_cases hdel : delta > 0
    · simp only [hdel, if_true]
      exact ⟨_, _, rfl, _, _, mul_nonneg (sq_nonneg _) (GPNHState.mulSum_self_nonneg _), rfl⟩
    · simp only [hdel, if_false]
      exact ⟨_, _, rfl, _, _, mul_nonneg (sq_nonneg _) (GPNHState.mulSum_self_nonneg _), rfl⟩
  obtain ⟨gS, aS, rfl, hal⟩ := hs'
  refine ⟨r.stepSize, ⟨ha, rfl, rfl, rfl, rfl, rfl, rfl, rfl, rfl, rfl, ?_, hd, hal, ?_⟩⟩
  · simp only [hc, hg.Kmat]
  · rcases hf with ⟨M, hM, hM2, hM3⟩ | hf
    · refine Or.inl ⟨M, by simpa [hc] using hM, by simpa [hc] using hM2, ?_⟩
      rw [← hcost] at hM3
      rw [mul_right_comm]
      simpa [weightsTrial, weightsStart, hg.Kmat] using hM3
    · exact Or.inr hf

/-- What a completed dictionary update guarantees. -/
structure DictPost (cfg : LSConfig K) (s s' : KAAState n k K) (lam : K) : Prop where
  range : StepRange cfg
    (inner (simplexProjectRows (s.C - s.alphaC • kaaGradC s.Kmat s.S s.C) - s.C)
      (kaaGradC s.Kmat s.S s.C)) lam
  Kmat : s'.Kmat = s.Kmat
  traceK : s'.traceK = s.traceK
  scale : s'.alpha = s.alpha
  S : s'.S = s.S
  StS : s'.StS = s.Sᵀ * s.S
  C : s'.C = s.C +
    lam • (simplexProjectRows (s.C - s.alphaC • kaaGradC s.Kmat s.S s.C) - s.C)
  CK : s'.CK = s'.C * s'.Kmat
  CKCt : s'.CKCt = s'.C * s'.Kmat * s'.Cᵀ
  alphaS : s'.alphaS = s.alphaS
  fSMem : s'.fSMem = s.fSMem
  fCMem : s'.fCMem = s.fCMem.tail ++ [kaaCost s.Kmat s.S s.C]
  memNe : s.fCMem ≠ []
  alpha : ∃ beta sksk, 0 ≤ sksk ∧ s'.alphaC = nextSpgAlpha beta sksk cfg.alphaMin cfg.alphaMax
  accept : (∃ fMax ∈ s'.fCMem, (∀ f ∈ s'.fCMem, f ≤ fMax) ∧
      kaaCost s'.Kmat s'.S s'.C ≤ fMax + cfg.gamma * lam *
        inner (simplexProjectRows (s.C - s.alphaC • kaaGradC s.Kmat s.S s.C) - s.C)
          (kaaGradC s.Kmat s.S s.C)) ∨ |lam| < cfg.stepSizeTolerance

theorem updateDictionaryCore_eq {cfg : LSConfig K} {delta : K} {A : Matrix (Fin n) (Fin n) K}
    {s : KAAState n k K} (hg : s.Good A) :
    s.updateDictionaryCore cfg delta =
      (lineSearch cfg (dictionaryTrial delta) s.fCMem s.dictStart (kaaCost A s.S s.C)
        (inner (simplexProjectRows (s.C - s.alphaC • kaaGradC s.Kmat s.S s.C) - s.C)
          (kaaGradC s.Kmat s.S s.C)) >>= fun r =>
      let s := updateDictionaryGradient delta { r.state with fCMem := r.mem }
      Py.ok { s with
        alphaC := nextSpgAlpha (r.stepSize * mulSum s.incrC (s.gradC - r.state.gradC))
          (r.stepSize ^ 2 * mulSum s.incrC s.incrC) cfg.alphaMin cfg.alphaMax }) := by
  unfold updateDictionaryCore dictionaryLineSearch
  simp only [prepareDictionary_eq _ _ hg.alpha]
  rw [← dictStart_cost hg]
  change ((lineSearch cfg (dictionaryTrial delta) s.fCMem s.dictStart s.dictStart.cachedCost _ >>=
    fun r => _) >>= fun r => _) = _
  cases h : lineSearch cfg (dictionaryTrial delta) s.fCMem s.dictStart s.dictStart.cachedCost
    (inner (simplexProjectRows (s.C - s.alphaC • kaaGradC s.Kmat s.S s.C) - s.C)
          (kaaGradC s.Kmat s.S s.C)) with
  | ok r =>
    simp only [mulSum_eq_inner, h, Py.ok_bind, Py.pure_eq]
  | raise e => simp only [mulSum_eq_inner, h, Py.raise_bind]
  | diverge => simp only [mulSum_eq_inner, h, Py.diverge_bind]

theorem updateDictionaryCore_post {cfg : LSConfig K}
    {delta : K} {A : Matrix (Fin n) (Fin n) K} {s s' : KAAState n k K} (hg : s.Good A)
    (h : s.updateDictionaryCore cfg delta = Py.ok s') :
    ∃ lam, DictPost cfg s s' lam ∧ s'.fAlphaMem = s.fAlphaMem := by
  rw [updateDictionaryCore_eq hg] at h
  obtain ⟨r, hr, h⟩ := Py.bind_eq_ok.1 h
  simp only [Py.ok.injEq] at h
  obtain ⟨ha, hc, hd, he, hf⟩ := lineSearch_spec (dictionaryTrial_retriable delta) hr
  have hcost : (dictionaryTrial delta s.dictStart r.stepSize).2 = r.cost := congrArg Prod.snd he
  have hstate : (dictionaryTrial delta s.dictStart r.stepSize).1 = r.state := congrArg Prod.fst he
  rw [dictionaryTrial_cost hg] at hcost
  rw [dictionaryTrial_eq _ _ (by exact hg.alpha)] at hstate
  simp only at hstate
  have hs' : ∃ gC aC, s' = { r.state with fCMem := r.mem, gradC := gC, alphaC := aC } ∧
      ∃ beta sksk, 0 ≤ sksk ∧ aC = nextSpgAlpha beta sksk cfg.alphaMin cfg.alphaMax := by
    rw [← h]
    unfold updateDictionaryGradient
    by_cases hdel : delta > 0
    · simp only [hdel, if_true]
      exact ⟨_, _, rfl, _, _, mul_nonneg (sq_nonneg _) (GPNHState.mulSum_self_nonneg _), rfl⟩
    · simp only [hdel, if_false]
      exact ⟨_, _, rfl, _, _, mul_nonneg (sq_nonneg _) (GPNHState.mulSum_self_nonneg _), rfl⟩
  obtain ⟨gC, aC, rfl, hal⟩ := hs'
  rw [← hstate]
  refine ⟨r.stepSize, ⟨ha, rfl, rfl, rfl, rfl, rfl, rfl, rfl, rfl, rfl, rfl, ?_, hd, hal, ?_⟩,
    rfl⟩
  · simp only [hc, hg.Kmat]
  · rcases hf with ⟨M, hM, hM2, hM3⟩ | hf
    · refine Or.inl ⟨M, by simpa [hc] using hM, by simpa [hc] using hM2, ?_⟩
      rw [← hcost] at hM3
      rw [mul_right_comm]
      simpa [dictStart, hg.Kmat] using hM3
    · exact Or.inr hf

theorem WeightsPost.pos {cfg : LSConfig K} {s s' : KAAState n k K} {lam : K}
    (h : WeightsPost cfg s s' lam) (h1 : 0 < cfg.sigmaOne) (_ : cfg.sigmaTwo < 1) : 0 < lam :=
  h.range.pos_sigma h1

theorem WeightsPost.le {cfg : LSConfig K} {s s' : KAAState n k K} {lam : K}
    (h : WeightsPost cfg s s' lam) (h1 : 0 < cfg.sigmaOne) (h2 : cfg.sigmaTwo < 1) : lam ≤ 1 :=
  h.range.le h1 h2

theorem DictPost.pos {cfg : LSConfig K} {s s' : KAAState n k K} {lam : K}
    (h : DictPost cfg s s' lam) (h1 : 0 < cfg.sigmaOne) (_ : cfg.sigmaTwo < 1) : 0 < lam :=
  h.range.pos_sigma h1

theorem DictPost.le {cfg : LSConfig K} {s s' : KAAState n k K} {lam : K}
    (h : DictPost cfg s s' lam) (h1 : 0 < cfg.sigmaOne) (h2 : cfg.sigmaTwo < 1) : lam ≤ 1 :=
  h.range.le h1 h2

theorem scaleFactorsLineSearch_ok {cfg : LSConfig K} {s : KAAState n k K}
    {r : KAAState n k K × K} (h : s.scaleFactorsLineSearch cfg = Py.ok r) :
    ∃ m, r.1 = { s with fAlphaMem := m } ∧ m.length = s.fAlphaMem.length := by
  unfold scaleFactorsLineSearch at h
  obtain ⟨r', hr, h⟩ := Py.bind_eq_ok.1 h
  simp only [Py.pure_eq, Py.ok.injEq] at h
  subst h
  refine ⟨_, rfl, ?_⟩
  obtain ⟨hne, hmem, -⟩ := lineSearch_eq_ok.1 hr
  rw [hmem]
  have : 0 < s.fAlphaMem.length := List.length_pos_of_ne_nil hne
  simp
  omega

theorem scaleFactorsLineSearch_raise {cfg : LSConfig K} {s : KAAState n k K} {e : PyErr}
    (h : s.scaleFactorsLineSearch cfg = Py.raise e) : s.fAlphaMem = [] ∧ e = .indexError := by
  unfold scaleFactorsLineSearch at h
  rcases Py.bind_eq_raise.1 h with h | ⟨_, _, h⟩
  · exact lineSearch_no_raise h
  · simp at h

theorem scaleFactorsLineSearch_terminates {cfg : LSConfig K} (h1 : 0 < cfg.sigmaOne) {N : ℕ}
    (hN : shrink cfg.sigmaTwo ^ (N + 1) < cfg.stepSizeTolerance) {s : KAAState n k K}
    (hm : s.fAlphaMem ≠ []) : ∃ r, s.scaleFactorsLineSearch cfg = Py.ok r := by
  unfold scaleFactorsLineSearch
  simp only
  obtain ⟨r, hr, -⟩ := lineSearch_terminates (cfg := cfg) h1 (mem := s.fAlphaMem) hm N hN
    (trial := fun (_ : Matrix (Fin k) (Fin k) K) step =>
      (s.diagAlpha + step • s.incrAlpha, s.scaleCost (s.diagAlpha + step • s.incrAlpha)))
    (s := s.diagAlpha) (f0 := s.scaleCost s.diagAlpha)
    (δ := ∑ i, ∑ j, s.incrAlpha i j * s.gradAlpha j)
  rw [hr]
  exact ⟨_, rfl⟩

theorem prepareScaleFactors_eq (delta : K) (s : KAAState n k K) :
    ∃ g i, s.prepareScaleFactors delta = { s with
      CK := s.C * s.Kmat, CKS := s.C * s.Kmat * s.S, CKCt := s.C * s.Kmat * s.Cᵀ
      gradAlpha := g, incrAlpha := i } := ⟨_, _, rfl⟩

/-- The scale factor update changes only the working arrays of the scale factors. -/
theorem updateScaleFactors_ok {cfg : LSConfig K} {delta : K} {s s' : KAAState n k K}
    (h : s.updateScaleFactors cfg delta = Py.ok s') :
    ∃ g i a m, s' = { s with
      CK := s.C * s.Kmat, CKS := s.C * s.Kmat * s.S, CKCt := s.C * s.Kmat * s.Cᵀ
      gradAlpha := g, incrAlpha := i, alphaAlpha := a, fAlphaMem := m } ∧
      m.length = s.fAlphaMem.length := by
  unfold updateScaleFactors at h
  obtain ⟨g, i, hp⟩ := prepareScaleFactors_eq delta s
  simp only [hp] at h
  obtain ⟨⟨s1, lam⟩, hr, h⟩ := Py.bind_eq_ok.1 h
  simp only [Py.pure_eq, Py.ok.injEq] at h
  obtain ⟨m, hm, hl⟩ := scaleFactorsLineSearch_ok hr
  simp only at hm hl
  subst h
  subst hm
  exact ⟨_, _, _, m, rfl, hl⟩

theorem updateDictionary_post {cfg : LSConfig K}
    {delta : K} {A : Matrix (Fin n) (Fin n) K} {s s' : KAAState n k K} (hg : s.Good A)
    (h : s.updateDictionary cfg delta = Py.ok s') : ∃ lam, DictPost cfg s s' lam := by
  unfold updateDictionary at h
  obtain ⟨s1, hs1, h⟩ := Py.bind_eq_ok.1 h
  obtain ⟨lam, hl, -⟩ := updateDictionaryCore_post hg hs1
  by_cases hdel : delta > 0
  · rw [if_pos hdel] at h
    obtain ⟨g, i, a, m, hs', -⟩ := updateScaleFactors_ok h
    rw [hs']
    exact ⟨lam, ⟨hl.range, hl.Kmat, hl.traceK, hl.scale, hl.S, hl.StS, hl.C, rfl, rfl,
      hl.alphaS, hl.fSMem, hl.fCMem, hl.memNe, hl.alpha, hl.accept⟩⟩
  · rw [if_neg hdel] at h
    simp only [Py.pure_eq, Py.ok.injEq] at h
    subst h
    exact ⟨lam, hl⟩

theorem WeightsPost.good {cfg : LSConfig K} {A : Matrix (Fin n) (Fin n) K} {s s' : KAAState n k K}
    {lam : K} (hl : WeightsPost cfg s s' lam) (hg : s.Good A) : s'.Good A :=
  ⟨hl.Kmat.trans hg.Kmat, hl.traceK.trans hg.traceK, hl.scale.trans hg.alpha, hl.StS⟩

theorem DictPost.good {cfg : LSConfig K} {A : Matrix (Fin n) (Fin n) K} {s s' : KAAState n k K}
    {lam : K} (hl : DictPost cfg s s' lam) (hg : s.Good A) : s'.Good A :=
  ⟨hl.Kmat.trans hg.Kmat, hl.traceK.trans hg.traceK, hl.scale.trans hg.alpha,
    by rw [hl.StS, hl.S]⟩

theorem evaluateCost_good {delta : K} {A : Matrix (Fin n) (Fin n) K} {s : KAAState n k K}
    (hg : s.Good A) : (s.evaluateCost delta).1.Good A := by
  rw [evaluateCost_eq _ _ hg.alpha]
  exact ⟨hg.Kmat, hg.traceK, hg.alpha, rfl⟩

theorem initializeWorkspace_good (cfg : LSConfig K) (A : Matrix (Fin n) (Fin n) K)
    (S : Matrix (Fin n) (Fin k) K) (C : Matrix (Fin k) (Fin n) K) :
    (initializeWorkspace cfg A S C).Good A := ⟨rfl, rfl, rfl, rfl⟩

/-! ### Errors -/

theorem updateWeights_raise {cfg : LSConfig K} {delta : K} {A : Matrix (Fin n) (Fin n) K}
    {s : KAAState n k K} (hg : s.Good A) {e : PyErr}
    (h : s.updateWeights cfg delta = Py.raise e) : s.fSMem = [] ∧ e = .indexError := by
  rw [updateWeights_eq hg] at h
  rcases Py.bind_eq_raise.1 h with h | ⟨_, _, h⟩
  · exact lineSearch_no_raise h
  · simp at h

theorem updateScaleFactors_raise {cfg : LSConfig K} {delta : K} {s : KAAState n k K} {e : PyErr}
    (h : s.updateScaleFactors cfg delta = Py.raise e) : s.fAlphaMem = [] ∧ e = .indexError := by
  unfold updateScaleFactors at h
  rcases Py.bind_eq_raise.1 h with h | ⟨_, _, h⟩
  · have := scaleFactorsLineSearch_raise h
    obtain ⟨g, i, hp⟩ := prepareScaleFactors_eq delta s
    rw [hp] at this
    exact this
  · exact absurd h (by simp)

theorem updateDictionary_raise {cfg : LSConfig K}
    {delta : K} {A : Matrix (Fin n) (Fin n) K}
    {s : KAAState n k K} (hg : s.Good A) {e : PyErr}
    (h : s.updateDictionary cfg delta = Py.raise e) :
    (s.fCMem = [] ∨ s.fAlphaMem = []) ∧ e = .indexError := by
  unfold updateDictionary at h
  rcases Py.bind_eq_raise.1 h with h | ⟨s1, hs1, h⟩
  · rw [updateDictionaryCore_eq hg] at h
    rcases Py.bind_eq_raise.1 h with h | ⟨_, _, h⟩
    · have := lineSearch_no_raise h
      exact ⟨Or.inl this.1, this.2⟩
    · simp at h
  · obtain ⟨lam, -, hl⟩ := updateDictionaryCore_post hg hs1
    by_cases hdel : delta > 0
    · rw [if_pos hdel] at h
      have := updateScaleFactors_raise h
      exact ⟨Or.inr (hl ▸ this.1), this.2⟩
    · rw [if_neg hdel] at h
      simp at h

/-! ### Termination and descent -/

theorem updateWeights_descends [Archimedean K] {cfg : LSConfig K} (h1 : 0 < cfg.sigmaOne)
    (h2 : cfg.sigmaTwo < 1) (hg0 : 0 ≤ cfg.gamma) (hg1 : cfg.gamma < 1)
    (ht : cfg.stepSizeTolerance = 0) (hk : 1 ≤ k)
    {delta : K} {A : Matrix (Fin n) (Fin n) K} (hA : Aᵀ = A) {s : KAAState n k K} (hg : s.Good A)
    (hS : RowStochastic s.S) (ha : 0 < s.alphaS) {m0 : K} (hm : s.fSMem = [m0]) :
    ∃ s', s.updateWeights cfg delta = Py.ok s' ∧ kaaCost A s'.S s'.C ≤ kaaCost A s.S s.C := by
  set d := simplexProjectRows (s.S - s.alphaS • kaaGradS s.Kmat s.S s.C) - s.S with hd
  have hslope := projected_slope (G := kaaGradS s.Kmat s.S s.C) hk hS s.alphaS
  rw [← hd] at hslope
  obtain ⟨r, hr, hle⟩ := lineSearch_quadratic h1 h2 hg0 hg1 ht
    (weightsTrial_retriable (n := n) (k := k) (K := K)) (m0 := m0) (s := s.weightsStart)
    (f0 := kaaCost A s.S s.C) (δ := inner d (kaaGradS s.Kmat s.S s.C))
    (q := ((dᵀ * d) * (s.C * A * s.Cᵀ)).trace) (fun lam => by
      rw [weightsTrial_cost hg, ← hd, kaaCost_add_S hA, hg.Kmat]) ha hslope (frobSq_nonneg _)
    (fun h0 => by rw [frobSq_eq_zero h0.le]; simp)
  have hup : ∃ s', s.updateWeights cfg delta = Py.ok s' := by
    rw [updateWeights_eq hg, hm, ← hd, hr]
    exact ⟨_, rfl⟩
  obtain ⟨s', hs'⟩ := hup
  refine ⟨s', hs', ?_⟩
  have hs2 := hs'
  rw [updateWeights_eq hg, hm, ← hd, hr] at hs2
  simp only [Py.ok_bind, Py.ok.injEq] at hs2
  obtain ⟨-, -, -, he, -⟩ := lineSearch_spec weightsTrial_retriable hr
  have hcost : (weightsTrial s.weightsStart r.stepSize).2 = r.cost := congrArg Prod.snd he
  have hstate : (weightsTrial s.weightsStart r.stepSize).1 = r.state := congrArg Prod.fst he
  rw [weightsTrial_cost hg, ← hd] at hcost
  have e1 : s'.S = r.state.S := by
    rw [← hs2]; unfold updateWeightsGradient; by_cases hdel : delta > 0 <;> simp [hdel]
  have e2 : s'.C = r.state.C := by
    rw [← hs2]; unfold updateWeightsGradient; by_cases hdel : delta > 0 <;> simp [hdel]
  rw [e1, e2, ← hstate]
  refine le_trans (le_of_eq ?_) hle
  rw [← hcost]
  rfl

theorem updateDictionaryCore_descends [Archimedean K] {cfg : LSConfig K} (h1 : 0 < cfg.sigmaOne)
    (h2 : cfg.sigmaTwo < 1) (hg0 : 0 ≤ cfg.gamma) (hg1 : cfg.gamma < 1)
    (ht : cfg.stepSizeTolerance = 0) (hn : 1 ≤ n)
    {delta : K} {A : Matrix (Fin n) (Fin n) K} (hA : Aᵀ = A) {s : KAAState n k K} (hg : s.Good A)
    (hC : RowStochastic s.C) (ha : 0 < s.alphaC) {m0 : K} (hm : s.fCMem = [m0]) :
    ∃ s', s.updateDictionaryCore cfg delta = Py.ok s' ∧
      kaaCost A s'.S s'.C ≤ kaaCost A s.S s.C := by
  set d := simplexProjectRows (s.C - s.alphaC • kaaGradC s.Kmat s.S s.C) - s.C with hd
  have hslope := projected_slope (G := kaaGradC s.Kmat s.S s.C) hn hC s.alphaC
  rw [← hd] at hslope
  obtain ⟨r, hr, hle⟩ := lineSearch_quadratic h1 h2 hg0 hg1 ht
    (dictionaryTrial_retriable (n := n) (k := k) delta) (m0 := m0) (s := s.dictStart)
    (f0 := kaaCost A s.S s.C) (δ := inner d (kaaGradC s.Kmat s.S s.C))
    (q := ((s.Sᵀ * s.S) * (d * A * dᵀ)).trace) (fun lam => by
      rw [dictionaryTrial_cost hg, ← hd, kaaCost_add_C hA, hg.Kmat]) ha hslope (frobSq_nonneg _)
    (fun h0 => by rw [frobSq_eq_zero h0.le]; simp)
  have hup : ∃ s', s.updateDictionaryCore cfg delta = Py.ok s' := by
    rw [updateDictionaryCore_eq hg, hm, ← hd, hr]
    exact ⟨_, rfl⟩
  obtain ⟨s', hs'⟩ := hup
  refine ⟨s', hs', ?_⟩
  have hs2 := hs'
  rw [updateDictionaryCore_eq hg, hm, ← hd, hr] at hs2
  simp only [Py.ok_bind, Py.ok.injEq] at hs2
  obtain ⟨-, -, -, he, -⟩ := lineSearch_spec (dictionaryTrial_retriable delta) hr
  have hcost : (dictionaryTrial delta s.dictStart r.stepSize).2 = r.cost := congrArg Prod.snd he
  have hstate : (dictionaryTrial delta s.dictStart r.stepSize).1 = r.state := congrArg Prod.fst he
  rw [dictionaryTrial_cost hg, ← hd] at hcost
  rw [dictionaryTrial_eq _ _ (by exact hg.alpha)] at hstate
  have e1 : s'.S = r.state.S := by
    rw [← hs2]; unfold updateDictionaryGradient; by_cases hdel : delta > 0 <;> simp [hdel]
  have e2 : s'.C = r.state.C := by
    rw [← hs2]; unfold updateDictionaryGradient; by_cases hdel : delta > 0 <;> simp [hdel]
  rw [e1, e2, ← hstate]
  refine le_trans (le_of_eq ?_) hle
  rw [← hcost]
  rfl

/-- The scale factor update terminates when there is a step floor. -/
theorem updateScaleFactors_terminates {cfg : LSConfig K} (h1 : 0 < cfg.sigmaOne) {N : ℕ}
    (hN : shrink cfg.sigmaTwo ^ (N + 1) < cfg.stepSizeTolerance) {delta : K} {s : KAAState n k K}
    (hm : s.fAlphaMem ≠ []) : ∃ s', s.updateScaleFactors cfg delta = Py.ok s' := by
  unfold updateScaleFactors
  obtain ⟨g, i, hp⟩ := prepareScaleFactors_eq delta s
  simp only [hp]
  obtain ⟨r, hr⟩ := scaleFactorsLineSearch_terminates h1 hN (s := { s with
      CK := s.C * s.Kmat, CKS := s.C * s.Kmat * s.S, CKCt := s.C * s.Kmat * s.Cᵀ
      gradAlpha := g, incrAlpha := i }) hm
  rw [hr]
  exact ⟨_, rfl⟩

end KAAState

end Reor
