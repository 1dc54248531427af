import Verif.Proofs.MTDStationary
import Verif.Proofs.KernelAAFit

/-!
The scale of the next step of the spectral projected gradient updates.
-/

namespace Reor

set_option linter.unusedSectionVars false

open scoped BigOperators Matrix
open Spec

variable {K : Type} [Field K] [LinearOrder K] [IsStrictOrderedRing K]
variable {T D k p n : ℕ}

/-- The curvature of a quadratic function along a move is the change of the slope. -/
theorem second_difference {E : Type} [AddCommGroup E] [Module K E] {f : E → K} {g : E → E → K}
    {q : E → K} (hf : ∀ x h (t : K), f (x + t • h) = f x + t * g x h + t ^ 2 * q h)
    {x y h : E} {lam : K} (hy : y = x + lam • h) :
    f (y + (y - x)) - 2 * f y + f x = lam * (g y h - g x h) := by
  have e0 : y - x = lam • h := by rw [hy]; abel
  have e1 := hf x h lam
  have e2 := hf y h 1
  have e3 := hf x h (lam + 1)
  have e4 := hf y h lam
  have e5 : x + (lam + 1) • h = y + (1 : K) • h := by rw [hy, add_smul]; abel
  rw [e5] at e3
  rw [← hy] at e1
  rw [e0, e4]
  have e6 : g y h = g x h + 2 * lam * q h := by linear_combination e3 - e2 - e1
  rw [e6, e1]
  ring

/-- The symmetric difference of a quadratic function is its slope. -/
theorem central_difference {E : Type} [AddCommGroup E] [Module K E] {f : E → K} {g : E → E → K}
    {q : E → K} (hf : ∀ x h (t : K), f (x + t • h) = f x + t * g x h + t ^ 2 * q h) (x h : E)
    (lam : K) : (f (x + lam • h) - f (x - lam • h)) / 2 = lam * g x h := by
  have e1 := hf x h lam
  have e2 := hf x h (-lam)
  rw [neg_smul, ← sub_eq_add_neg] at e2
  rw [e1, e2]
  ring

theorem frobSq_smul' {m n : ℕ} (lam : K) (H : Matrix (Fin m) (Fin n) K) :
    frobSq (lam • H) = lam ^ 2 * inner H H := by
  rw [frobSq_eq_inner, inner_smul_left, inner_smul_right]
  ring

namespace GPNHState

theorem updateWeights_alpha {cfg : LSConfig K} {eps : K} {s s' : GPNHState T D k K}
    (h : s.updateWeights cfg eps = Py.ok s') :
    ∃ (H : Matrix (Fin T) (Fin k) K) (lam : K), s'.X = s.X ∧ s'.S = s.S ∧
      s'.Gamma = s.Gamma + lam • H ∧ s'.alphaGamma = nextSpgAlpha
        (lam * inner H (gradWOf s.X s'.Gamma s.S - gradWOf s.X s.Gamma s.S)) (lam ^ 2 * inner H H)
        cfg.alphaMin cfg.alphaMax := by
  unfold updateWeights weightsLineSearch at h
  simp only [prepareWeights_eq] at h
  obtain ⟨⟨s1, lam⟩, hr, h⟩ := Py.bind_eq_ok.1 h
  obtain ⟨r, hr, h'⟩ := Py.bind_eq_ok.1 hr
  simp only [Py.pure_eq, Py.ok.injEq, Prod.mk.injEq] at h' h
  obtain ⟨ha, hc, hd, he, hf⟩ := lineSearch_spec (weightsTrial_retriable eps) hr
  have hstate : r.state = (weightsTrial eps _ r.stepSize).1 := (congrArg Prod.fst he).symm
  simp only [weightsTrial] at hstate
  obtain ⟨hs1, hlam⟩ := h'
  subst hlam
  rw [hstate] at hs1
  subst hs1
  subst h
  refine ⟨_, r.stepSize, rfl, rfl, rfl, ?_⟩
  rw [gradGamma_update _ rfl rfl, mulSum_eq_inner, mulSum_eq_inner]
  rfl

theorem updateDictionary_alpha {cfg : LSConfig K} {eps : K} {s s' : GPNHState T D k K}
    (h : s.updateDictionary cfg eps = Py.ok s') :
    ∃ (H : Matrix (Fin k) (Fin D) K) (lam : K), s'.X = s.X ∧ s'.Gamma = s.Gamma ∧
      s'.S = s.S + lam • H ∧ s'.alphaS = nextSpgAlpha
        (lam * inner H (gradSOf eps s.X s.Gamma s'.S - gradSOf eps s.X s.Gamma s.S))
        (lam ^ 2 * inner H H) cfg.alphaMin cfg.alphaMax := by
  unfold updateDictionary dictionaryLineSearch at h
  simp only [prepareDictionary_eq] at h
  obtain ⟨⟨s1, lam⟩, hr, h⟩ := Py.bind_eq_ok.1 h
  obtain ⟨r, hr, h'⟩ := Py.bind_eq_ok.1 hr
  simp only [Py.pure_eq, Py.ok.injEq, Prod.mk.injEq] at h' h
  obtain ⟨ha, hc, hd, he, hf⟩ := lineSearch_spec (dictionaryTrial_retriable eps) hr
  have hstate : r.state = (dictionaryTrial eps _ r.stepSize).1 := (congrArg Prod.fst he).symm
  simp only [dictionaryTrial] at hstate
  obtain ⟨hs1, hlam⟩ := h'
  subst hlam
  rw [hstate] at hs1
  subst hs1
  rw [updateDictionaryGradient_eq] at h
  subst h
  refine ⟨_, r.stepSize, rfl, rfl, rfl, ?_⟩
  rw [gradS_update _ _ rfl rfl, mulSum_eq_inner, mulSum_eq_inner]

end GPNHState

namespace KAAState

theorem updateWeights_alpha {cfg : LSConfig K} {delta : K} {A : Matrix (Fin n) (Fin n) K}
    {s s' : KAAState n k K} (hg : s.Good A) (h : s.updateWeights cfg delta = Py.ok s') :
    ∃ (H : Matrix (Fin n) (Fin k) K) (lam : K), s'.C = s.C ∧
      s'.S = s.S + lam • H ∧ s'.alphaS = nextSpgAlpha
        (lam * inner H (kaaGradS A s'.S s.C - kaaGradS A s.S s.C)) (lam ^ 2 * inner H H)
        cfg.alphaMin cfg.alphaMax := by
  rw [updateWeights_eq hg] at h
  obtain ⟨r, hr, h⟩ := Py.bind_eq_ok.1 h
  simp only [Py.ok.injEq] at h
  obtain ⟨ha, hc, hd, he, hf⟩ := lineSearch_spec weightsTrial_retriable hr
  have hstate : (weightsTrial s.weightsStart r.stepSize).1 = r.state := congrArg Prod.fst he
  rw [← hstate, updateWeightsGradient_eq _ _ (by exact hg.alpha)] at h
  subst h
  refine ⟨_, r.stepSize, rfl, rfl, ?_⟩
  rw [← hg.Kmat, mulSum_eq_inner, mulSum_eq_inner]
  have e : ∀ S : Matrix (Fin n) (Fin k) K, kaaGradS s.Kmat S s.C =
      s.Kmatᵀ * ((-2 : K) • s.Cᵀ) + S * ((2 : K) • (s.C * s.Kmat * s.Cᵀ)) := fun S => by
    unfold kaaGradS; rw [Matrix.mul_smul, Matrix.mul_smul]
  rw [e]
  rfl

theorem updateDictionary_alpha {cfg : LSConfig K} {delta : K} {A : Matrix (Fin n) (Fin n) K}
    {s s' : KAAState n k K} (hg : s.Good A) (h : s.updateDictionary cfg delta = Py.ok s') :
    ∃ (H : Matrix (Fin k) (Fin n) K) (lam : K), s'.S = s.S ∧
      s'.C = s.C + lam • H ∧ s'.alphaC = nextSpgAlpha
        (lam * inner H (kaaGradC A s.S s'.C - kaaGradC A s.S s.C)) (lam ^ 2 * inner H H)
        cfg.alphaMin cfg.alphaMax := by
  unfold updateDictionary at h
  obtain ⟨s1, h1, h⟩ := Py.bind_eq_ok.1 h
  have key : ∃ (H : Matrix (Fin k) (Fin n) K) (lam : K), s1.S = s.S ∧
      s1.C = s.C + lam • H ∧ s1.alphaC = nextSpgAlpha
        (lam * inner H (kaaGradC A s.S s1.C - kaaGradC A s.S s.C)) (lam ^ 2 * inner H H)
        cfg.alphaMin cfg.alphaMax := by
    rw [updateDictionaryCore_eq hg] at h1
    obtain ⟨r, hr, h1⟩ := Py.bind_eq_ok.1 h1
    simp only [Py.ok.injEq] at h1
    obtain ⟨ha, hc, hd, he, hf⟩ := lineSearch_spec (dictionaryTrial_retriable delta) hr
    have hstate : (dictionaryTrial delta s.dictStart r.stepSize).1 = r.state := congrArg Prod.fst he
    rw [dictionaryTrial_eq _ _ (by exact hg.alpha)] at hstate
    simp only at hstate
    have f1 : r.state.S = s.S := by rw [← hstate]; rfl
    have f2 : r.state.incrC = s.dictStart.incrC := by rw [← hstate]
    have f3 : r.state.C = s.C + r.stepSize • s.dictStart.incrC := by rw [← hstate]; rfl
    have f4 : r.state.gradC = kaaGradC s.Kmat s.S s.C := by rw [← hstate]; rfl
    have f5 : r.state.StS = s.Sᵀ * s.S := by rw [← hstate]; rfl
    have f6 : r.state.CK = r.state.C * s.Kmat := by rw [← hstate]; rfl
    have f7 : r.state.Kmat = s.Kmat := by rw [← hstate]; rfl
    have f8 : r.state.alpha = fun _ => 1 := by rw [← hstate]; exact hg.alpha
    rw [updateDictionaryGradient_eq _ _ (by exact f8)] at h1
    subst h1
    refine ⟨s.dictStart.incrC, r.stepSize, f1, f3, ?_⟩
    have e : ∀ C : Matrix (Fin k) (Fin n) K, kaaGradC s.Kmat s.S C =
        s.Sᵀ * ((-2 : K) • s.Kmatᵀ) + (2 : K) • (s.Sᵀ * s.S * (C * s.Kmat)) := fun C => by
      unfold kaaGradC; rw [Matrix.mul_smul]
    simp only [mulSum_eq_inner, f1, f2, f4, f5, f6, f7]
    rw [← hg.Kmat, e r.state.C]
  split_ifs at h
  · obtain ⟨g, i, a, m, rfl, -⟩ := updateScaleFactors_ok h
    exact key
  · simp only [Py.pure_eq, Py.ok.injEq] at h
    subst h
    exact key

end KAAState

namespace MTDState

theorem updateWeights_alpha {c : MTDConfig p K} {s s' : MTDState T D k p K} (hg : s.Good c)
    (h : s.updateWeights c = Py.ok s') :
    ∃ lam : K, s'.Gamma = s.Gamma + lam • s.dirW c ∧
      s'.alphaGamma = nextSpgAlpha
        (lam * inner (s.dirW c) (mtdGradW c s.X s'.Gamma s.S s.orderWeights s.transitionMatrices -
          mtdGradW c s.X s.Gamma s.S s.orderWeights s.transitionMatrices))
        (lam ^ 2 * inner (s.dirW c) (s.dirW c)) c.ls.alphaMin c.ls.alphaMax := by
  have hT : T ≠ c.maxLag := fun hT => by
    rw [updateWeights, if_pos hT] at h; cases h
  rw [updateWeights_eq hg hT] at h
  obtain ⟨r, hr, h⟩ := Py.bind_eq_ok.1 h
  simp only [Py.ok.injEq] at h
  obtain ⟨ha, hc, hd, he, hf⟩ := lineSearch_spec (weightsTrial_retriable c) hr
  have hstate : (weightsTrial c (s.weightsStart c) r.stepSize).1 = r.state := congrArg Prod.fst he
  have hgr := updateWeightsGradient_gradGamma (c := c) (s := { r.state with fGammaMem := r.mem })
    (by rw [← hstate]; exact ⟨rfl, rfl⟩) (by rw [← hstate]; rfl)
  rw [updateWeightsGradient_eq, hgr] at h
  rw [← hstate] at h
  subst h
  refine ⟨r.stepSize, rfl, ?_⟩
  rw [mulSum_eq_inner, mulSum_eq_inner]
  rfl

theorem updateDictionary_alpha {c : MTDConfig p K} {s s' : MTDState T D k p K} (hg : s.Good c)
    (h : s.updateDictionary c = Py.ok s') :
    ∃ (H : Matrix (Fin k) (Fin D) K) (lam : K), s'.S = s.S + lam • H ∧
      s'.alphaS = nextSpgAlpha
        (lam * inner H (gradSOf c.epsilonStates s.X s.Gamma s'.S -
          gradSOf c.epsilonStates s.X s.Gamma s.S))
        (lam ^ 2 * inner H H) c.ls.alphaMin c.ls.alphaMax := by
  rw [updateDictionary_eq hg] at h
  obtain ⟨r, hr, h⟩ := Py.bind_eq_ok.1 h
  simp only [Py.ok.injEq] at h
  obtain ⟨ha, hc, hd, he, hf⟩ := lineSearch_spec (dictionaryTrial_retriable c) hr
  have hstate : (dictionaryTrial c (s.dictStart c) r.stepSize).1 = r.state := congrArg Prod.fst he
  rw [← hstate] at h
  unfold updateDictionaryGradient at h
  rw [GPNHState.updateDictionaryGradient_eq, GPNHState.gradS_update _ _ rfl rfl] at h
  subst h
  refine ⟨_, r.stepSize, rfl, ?_⟩
  rw [mulSum_eq_inner, mulSum_eq_inner]
  rfl

theorem updateParameters_alpha {c : MTDConfig p K} {s s' : MTDState T D k p K} (hg : s.Good c)
    (h : s.updateParameters c = Py.ok s') :
    ∃ (v : Fin p → K) (B : Fin p → Matrix (Fin k) (Fin k) K) (lam : K),
      s'.orderWeights = s.orderWeights + lam • v ∧
      s'.transitionMatrices = s.transitionMatrices + lam • B ∧
      s'.alphaParameters = nextSpgAlpha
        (lam * (vecMulSum v (mtdGradOW c.epsilonWeights c.lags s.Gamma s'.orderWeights
              s'.transitionMatrices - mtdGradOW c.epsilonWeights c.lags s.Gamma s.orderWeights
              s.transitionMatrices) +
            mulSum3 B (mtdGradTM c.epsilonWeights c.lags s.Gamma s'.orderWeights
              s'.transitionMatrices - mtdGradTM c.epsilonWeights c.lags s.Gamma s.orderWeights
              s.transitionMatrices)))
        (lam ^ 2 * (vecMulSum v v + mulSum3 B B)) c.ls.alphaMin c.ls.alphaMax := by
  have hT : T ≠ c.maxLag := fun hT => by
    rw [updateParameters, if_pos hT] at h; cases h
  rw [updateParameters_eq hg hT] at h
  obtain ⟨r, hr, h⟩ := Py.bind_eq_ok.1 h
  simp only [Py.ok.injEq] at h
  obtain ⟨ha, hc, hd, he, hf⟩ := lineSearch_spec (parametersTrial_retriable c) hr
  have hstate : (parametersTrial c (s.paramsStart c) r.stepSize).1 = r.state := congrArg Prod.fst he
  have hgd : Good c { r.state with fParametersMem := r.mem } := by
    rw [← hstate]; exact ⟨hg.SSt, rfl⟩
  have h1 := updateParametersGradient_gradOW hgd
  have h2 := updateParametersGradient_gradTM hgd
  have h3 : updateParametersGradient c { r.state with fParametersMem := r.mem } = { r.state with
      fParametersMem := r.mem
      gradOrderWeights :=
        (updateParametersGradient c { r.state with fParametersMem := r.mem }).gradOrderWeights
      gradTransitionMatrices :=
        (updateParametersGradient c
          { r.state with fParametersMem := r.mem }).gradTransitionMatrices } := rfl
  rw [h3, h1, h2] at h
  rw [← hstate] at h
  subst h
  exact ⟨_, _, r.stepSize, rfl, rfl, rfl⟩

end MTDState

end Reor
