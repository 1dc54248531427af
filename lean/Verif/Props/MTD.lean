import Verif.Proofs.MTDForecast
import Verif.Proofs.MTDDescent
import Verif.Proofs.Deriv
import Verif.Props.GPNH

/-!
Properties C09, C10, C22, C24, C36, C37, C38, C39, C40, C43, C61 for `MTDConvexCoding`.
-/

namespace Reor

set_option linter.unusedSectionVars false

open scoped BigOperators Matrix
open Spec

variable {K : Type} [Field K] [LinearOrder K] [IsStrictOrderedRing K]
variable {T D k p : ℕ}

/-! ### C40: the predicted weights -/

/-- The derived arrays of the solver are current: `SSt` is the Gram matrix of the dictionary and row
`t` of `Z` is the mixture transition prediction from the weights `lag` steps earlier, for every sample
that has a predecessor at each lag (the weights themselves for the others). -/
structure MTDCoherent (c : MTDConfig p K) (s : MTDState T D k p K) : Prop where
  SSt : s.SSt = s.S * s.Sᵀ
  Z_pred : ∀ t : Fin T, (∀ i, c.lags i ≤ t) →
    ∀ j, s.Z t j = mtdStep c.lags s.orderWeights s.transitionMatrices (rowSeq s.Gamma) t j
  Z_early : ∀ t : Fin T, (∃ i, (t : ℕ) < c.lags i) → ∀ j, s.Z t j = s.Gamma t j

theorem mtdCoherent_iff {c : MTDConfig p K} {s : MTDState T D k p K} :
    MTDCoherent c s ↔ s.Good c := by
  constructor
  · rintro ⟨h1, h2, h3⟩
    refine ⟨h1, ?_⟩
    ext t j
    rw [MTDState.maxLag_eq, mtdPredictedWeights_apply]
    split_ifs with ht
    · exact h2 t (topLag_le_iff.1 ht) j
    · rw [topLag_le_iff] at ht
      push Not at ht
      exact h3 t ht j
  · intro h
    refine ⟨h.SSt, fun t ht j => ?_, fun t ht j => ?_⟩
    · rw [h.Z, MTDState.maxLag_eq, mtdPredictedWeights_apply, if_pos (topLag_le_iff.2 ht)]
    · rw [h.Z, MTDState.maxLag_eq, mtdPredictedWeights_apply, if_neg]
      intro h'
      obtain ⟨i, hi⟩ := ht
      have := topLag_le_iff.1 h' i
      omega

/-- C40.  What `_update_predicted_weights` computes, from any state. -/
theorem C40_mtd_predicted_weights (c : MTDConfig p K) (s : MTDState T D k p K) (t : Fin T)
    (j : Fin k) :
    ((∀ i, c.lags i ≤ t) → (s.updatePredictedWeights c).Z t j =
      ∑ i, s.orderWeights i * ∑ l, s.transitionMatrices i j l *
        s.Gamma ⟨t - c.lags i, lt_of_le_of_lt (Nat.sub_le _ _) t.2⟩ l) ∧
    ((∃ i, (t : ℕ) < c.lags i) → (s.updatePredictedWeights c).Z t j = s.Gamma t j) := by
  have e : (s.updatePredictedWeights c).Z t j =
      if topLag c.lags ≤ t then mtdStep c.lags s.orderWeights s.transitionMatrices
        (rowSeq s.Gamma) t j else s.Gamma t j :=
    mtdPredictedWeights_apply c.lags s.Gamma s.orderWeights s.transitionMatrices t j
  constructor
  · intro h
    rw [e, if_pos (topLag_le_iff.2 h)]
    unfold mtdStep
    refine Finset.sum_congr rfl fun i _ => ?_
    congr 1
    refine Finset.sum_congr rfl fun l _ => ?_
    congr 1
    unfold rowSeq
    rw [dif_pos (lt_of_le_of_lt (Nat.sub_le _ _) t.2)]
  · rintro ⟨i, hi⟩
    rw [e, if_neg fun h' => by have := topLag_le_iff.1 h' i; omega]

/-- C40.  The predictions are current when a fit starts, whatever the starting point. -/
theorem C40_mtd_initially_current (c : MTDConfig p K) (X : Matrix (Fin T) (Fin D) K)
    (W : Matrix (Fin T) (Fin k) K) (S : Matrix (Fin k) (Fin D) K) (w : Fin p → K)
    (A : Fin p → Matrix (Fin k) (Fin k) K) :
    MTDCoherent c (MTDState.initializeWorkspace c X W S w A) := mtdCoherent_iff.2 ⟨rfl, rfl⟩

/-- C40.  They stay current in every trial point of every line search, so that every cost evaluated
by the fit is the objective at the current arrays. -/
theorem C40_mtd_trials_current (c : MTDConfig p K) (s : MTDState T D k p K) (h : MTDCoherent c s)
    (step : K) :
    (MTDCoherent c (s.weightsTrial c step).1 ∧ MTDCoherent c (s.dictionaryTrial c step).1 ∧
      MTDCoherent c (s.parametersTrial c step).1) ∧
    (s.weightsTrial c step).2 = (s.weightsTrial c step).1.objective c ∧
    (s.dictionaryTrial c step).2 = (s.dictionaryTrial c step).1.objective c ∧
    (s.parametersTrial c step).2 = (s.parametersTrial c step).1.objective c := by
  have hg := mtdCoherent_iff.1 h
  have h1 : (s.weightsTrial c step).1.Good c := ⟨hg.SSt, rfl⟩
  have h2 : (s.dictionaryTrial c step).1.Good c := ⟨rfl, hg.Z⟩
  have h3 : (s.parametersTrial c step).1.Good c := ⟨hg.SSt, rfl⟩
  exact ⟨⟨mtdCoherent_iff.2 h1, mtdCoherent_iff.2 h2, mtdCoherent_iff.2 h3⟩,
    MTDState.evaluateCost_eq h1, MTDState.evaluateCost_eq h2, MTDState.evaluateCost_eq h3⟩

/-- C40.  They stay current after each of the three updates. -/
theorem C40_mtd_updates_current (c : MTDConfig p K) (s s' : MTDState T D k p K)
    (h : MTDCoherent c s) (hu : s.updateDictionary c = Py.ok s' ∨ s.updateWeights c = Py.ok s' ∨
      s.updateParameters c = Py.ok s') : MTDCoherent c s' := by
  have hg := mtdCoherent_iff.1 h
  refine mtdCoherent_iff.2 ?_
  rcases hu with hu | hu | hu
  · obtain ⟨_, hl⟩ := MTDState.updateDictionary_post hg hu
    exact hl.good
  · obtain ⟨_, hl⟩ := MTDState.updateWeights_post hg hu
    exact hl.good
  · obtain ⟨_, hl⟩ := MTDState.updateParameters_post hg hu
    exact hl.good

/-- C40.  They are current when the fit ends. -/
theorem C40_mtd_finally_current (c : MTDConfig p K) (require : Bool) (tol : K) (maxIter : ℕ)
    (fl : MTDFlags) (X : Matrix (Fin T) (Fin D) K) (pt : MTDPoint T D k p K)
    (r : IterResult (MTDState T D k p K) K)
    (h : mtdSolve c require tol maxIter fl X pt = Py.ok r) : MTDCoherent c r.state :=
  mtdCoherent_iff.2 (mtdSolve_keeps h).1

/-- A configuration with lags 1 and 2. -/
def mtdDemoConfig : MTDConfig 2 ℚ := ⟨![1, 2], 1/10, 1/5, demoLS⟩

/-- A state with three samples, one feature, two components. -/
def mtdDemoState : MTDState 3 1 2 2 ℚ :=
  MTDState.initializeWorkspace mtdDemoConfig !![1; 3; 0] !![1/2, 1/2; 1/4, 3/4; 1, 0] !![0; 2]
    ![1/3, 2/3] ![!![1, 0; 0, 1], !![1/2, 1; 1/2, 0]]

theorem mtdDemo_coherent : MTDCoherent mtdDemoConfig mtdDemoState :=
  C40_mtd_initially_current _ _ _ _ _ _

/-- The only predicted row of the example. -/
example : mtdDemoState.Z 2 0 = 7 / 12 := by
  rw [mtdDemo_coherent.Z_pred 2 (by decide)]
  simp [mtdStep, mtdDemoState, MTDState.initializeWorkspace, MTDState.updatePredictedWeights,
    GPNHState.initializeWorkspace, mtdDemoConfig, rowSeq, Fin.sum_univ_two]
  norm_num

/-! ### C09, C10: the line searches of this class -/

/-- C09.  All three updates terminate, from any state whatever with a non-empty memory, unless there
are exactly as many samples as the largest lag (then the gradients are NaN from the start). -/
theorem C09_mtd (c : MTDConfig p K) (h1 : 0 < c.ls.sigmaOne) (N : ℕ)
    (hN : max c.ls.sigmaTwo (1 / 2) ^ (N + 1) < c.ls.stepSizeTolerance)
    (s : MTDState T D k p K) :
    (s.fSMem ≠ [] → ∃ s', s.updateDictionary c = Py.ok s') ∧
    (s.fGammaMem ≠ [] → (T ≠ c.maxLag ∧ ∃ s', s.updateWeights c = Py.ok s') ∨
      (T = c.maxLag ∧ s.updateWeights c = Py.raise .nonFinite)) ∧
    (s.fParametersMem ≠ [] → (T ≠ c.maxLag ∧ ∃ s', s.updateParameters c = Py.ok s') ∨
      (T = c.maxLag ∧ s.updateParameters c = Py.raise .nonFinite)) := by
  refine ⟨fun hm => ?_, fun hm => ?_, fun hm => ?_⟩
  · have hm' : (s.prepareDictionary c).fSMem ≠ [] := by
      unfold MTDState.prepareDictionary
      rw [GPNHState.prepareDictionary_eq]
      exact hm
    unfold MTDState.updateDictionary MTDState.dictionaryLineSearch
    obtain ⟨r, hr, -⟩ := lineSearch_terminates
      (trial := MTDState.dictionaryTrial (T := T) (D := D) (k := k) c) h1
      (mem := (s.prepareDictionary c).fSMem) hm'
      (s := { s.prepareDictionary c with SOld := (s.prepareDictionary c).S })
      (f0 := (s.prepareDictionary c).evaluateCost c)
      (δ := mulSum (s.prepareDictionary c).incrS (s.prepareDictionary c).gradS) N hN
    simp only [hr, Py.ok_bind, Py.pure_eq]
    exact ⟨_, rfl⟩
  · by_cases hT : T = c.maxLag
    · exact Or.inr ⟨hT, by unfold MTDState.updateWeights; rw [if_pos hT]⟩
    refine Or.inl ⟨hT, ?_⟩
    unfold MTDState.updateWeights
    rw [if_neg hT]
    unfold MTDState.finishWeights MTDState.weightsLineSearch
    obtain ⟨r, hr, -⟩ := lineSearch_terminates
      (trial := MTDState.weightsTrial (T := T) (D := D) (k := k) c) h1
      (mem := (s.prepareWeights c).fGammaMem) hm
      (s := { s.prepareWeights c with GammaOld := (s.prepareWeights c).Gamma })
      (f0 := (s.prepareWeights c).evaluateCost c)
      (δ := mulSum (s.prepareWeights c).incrGamma (s.prepareWeights c).gradGamma) N hN
    simp only [hr, Py.ok_bind, Py.pure_eq]
    exact ⟨_, rfl⟩
  · by_cases hT : T = c.maxLag
    · exact Or.inr ⟨hT, by unfold MTDState.updateParameters; rw [if_pos hT]⟩
    refine Or.inl ⟨hT, ?_⟩
    unfold MTDState.updateParameters
    rw [if_neg hT]
    unfold MTDState.finishParameters MTDState.parametersLineSearch
    obtain ⟨r, hr, -⟩ := lineSearch_terminates
      (trial := MTDState.parametersTrial (T := T) (D := D) (k := k) c) h1
      (mem := (s.prepareParameters c).fParametersMem) hm
      (s := { s.prepareParameters c with
        orderWeightsOld := (s.prepareParameters c).orderWeights
        transitionMatricesOld := (s.prepareParameters c).transitionMatrices })
      (f0 := (s.prepareParameters c).evaluateCost c)
      (δ := vecMulSum (s.prepareParameters c).incrOrderWeights
          (s.prepareParameters c).gradOrderWeights +
        mulSum3 (s.prepareParameters c).incrTransitionMatrices
          (s.prepareParameters c).gradTransitionMatrices) N hN
    simp only [hr, Py.ok_bind, Py.pure_eq]
    exact ⟨_, rfl⟩

/-- C09.  Every fit and transform with a step floor either returns or raises; it never runs
forever. -/
theorem C09_mtd_fit_terminates [Archimedean K] {env : Env K} (obj : MTDObj env.rng p)
    (h1 : 0 < obj.ls.sigmaOne) (h2 : obj.ls.sigmaTwo < 1) (ht : 0 < obj.ls.stepSizeTolerance)
    (hmem : 0 < obj.ls.memory) (data : Arr2 K) (args : MTDArgs K) (fl : MTDFlags)
    (kw : InitKwargs) : mtdConvexCoding env obj data args fl kw ≠ Py.diverge := by
  obtain ⟨N, hN⟩ : ∃ N : ℕ, shrink obj.ls.sigmaTwo ^ (N + 1) < obj.ls.stepSizeTolerance := by
    obtain ⟨N, hN⟩ := exists_pow_shrink_le (K := K) h2 (x := obj.ls.stepSizeTolerance / 2)
      (by linarith)
    refine ⟨N, ?_⟩
    have h3 : shrink obj.ls.sigmaTwo ^ (N + 1) ≤ shrink obj.ls.sigmaTwo ^ N :=
      pow_le_pow_of_le_one (shrink_pos _).le (shrink_lt_one h2).le (Nat.le_succ N)
    linarith
  intro h
  unfold mtdConvexCoding at h
  simp only at h
  rcases Py.bind_eq_diverge.1 h with h | ⟨q, hq, h⟩
  · by_cases hv : ValidParams (defaultComponents obj.nComponents data.cols) obj.maxIterations
      obj.tolerance
    · obtain ⟨p, hp, -⟩ := checkParams_valid hv
      rw [hp] at h
      simp at h
    · rw [checkParams_invalid hv] at h
      simp at h
  rcases Py.bind_eq_diverge.1 h with h | ⟨start, hst, h⟩
  · exact mtdStart_ne_diverge h
  rcases Py.bind_eq_diverge.1 h with h | ⟨_, _, h⟩
  swap
  · simp at h
  change mtdSolve obj.config obj.require q.2.2 q.2.1 fl data.val start.1 = _ at h
  unfold mtdSolve at h
  by_cases hp0 : p = 0
  · rw [if_pos hp0] at h
    simp at h
  rw [if_neg hp0] at h
  unfold mtdIterate at h
  by_cases hDT : data.cols * data.rows = 0
  · rw [if_pos hDT] at h
    simp at h
  rw [if_neg hDT] at h
  by_cases hkT : q.1 ≠ 1 ∧ data.rows = obj.config.maxLag
  · rw [if_pos hkT] at h
    simp at h
  rw [if_neg hkT] at h
  obtain ⟨f, hf, s, hs, h⟩ := iterate_diverge
    (Inv := fun s : MTDState data.rows data.cols q.1 p K => s.Good obj.config ∧
      s.fSMem ≠ [] ∧ s.fGammaMem ≠ [] ∧ s.fParametersMem ≠ [])
    (fun s hs => hs) (by
      rintro f hf s s' ⟨hg, ha, hb, hc⟩ h
      rcases mtd_phase_cases (fl := fl) hg hf h with ⟨-, _, hl⟩ | ⟨-, _, hl⟩ | ⟨-, _, hl⟩
      · exact ⟨hl.good, by rw [hl.fSMem]; simp, by rwa [hl.fGammaMem],
          by rwa [hl.fParametersMem]⟩
      · exact ⟨hl.good, by rwa [hl.fSMem], by rw [hl.fGammaMem]; simp,
          by rwa [hl.fParametersMem]⟩
      · exact ⟨hl.good, by rwa [hl.fSMem], by rwa [hl.fGammaMem],
          by rw [hl.fParametersMem]; simp⟩)
    (by
      refine ⟨⟨rfl, rfl⟩, ?_, ?_, ?_⟩ <;>
      simp [MTDState.initializeWorkspace, MTDState.updatePredictedWeights,
        GPNHState.initializeWorkspace, MTDObj.config, hmem.ne']) h
  obtain ⟨ha, hb, hc⟩ := C09_mtd obj.config h1 N hN s
  rcases mem_mtdPhases (fl := fl) hf with ⟨-, rfl⟩ | ⟨-, rfl⟩ | ⟨-, rfl⟩
  · obtain ⟨s1, ha⟩ := ha hs.2.1
    rw [ha] at h
    simp at h
  · rcases hb hs.2.2.1 with ⟨-, s1, ha⟩ | ⟨-, ha⟩ <;>
    · rw [ha] at h
      simp at h
  · rcases hc hs.2.2.2 with ⟨-, s1, ha⟩ | ⟨-, ha⟩ <;>
    · rw [ha] at h
      simp at h

example : (∃ s', mtdDemoState.updateDictionary mtdDemoConfig = Py.ok s') ∧
    (∃ s', mtdDemoState.updateWeights mtdDemoConfig = Py.ok s') ∧
    ∃ s', mtdDemoState.updateParameters mtdDemoConfig = Py.ok s' := by
  have := C09_mtd mtdDemoConfig (by norm_num [mtdDemoConfig, demoLS]) 219
    (by norm_num [mtdDemoConfig, demoLS]) mtdDemoState
  have hT : (3 : ℕ) ≠ mtdDemoConfig.maxLag := by decide
  refine ⟨this.1 (by simp [mtdDemoState, MTDState.initializeWorkspace, mtdDemoConfig,
      MTDState.updatePredictedWeights, GPNHState.initializeWorkspace, demoLS]), ?_, ?_⟩
  · rcases this.2.1 (by simp [mtdDemoState, MTDState.initializeWorkspace, mtdDemoConfig,
      MTDState.updatePredictedWeights, GPNHState.initializeWorkspace, demoLS]) with h | h
    · exact h.2
    · exact absurd h.1 hT
  · rcases this.2.2 (by simp [mtdDemoState, MTDState.initializeWorkspace, mtdDemoConfig,
      MTDState.updatePredictedWeights, GPNHState.initializeWorkspace, demoLS]) with h | h
    · exact h.2
    · exact absurd h.1 hT

/-- C10, dictionary; missing: the range of the step for settings outside those of `StepBounds`. -/
theorem C10_mtd_dictionary_partial (c : MTDConfig p K) (s s' : MTDState T D k p K)
    (hs : MTDCoherent c s) (h : s.updateDictionary c = Py.ok s') :
    ∃ step : K, StepBounds c.ls.gamma c.ls.sigmaOne c.ls.sigmaTwo
        (inner (-(s.alphaS • (s.prepareDictionary c).gradS)) (s.prepareDictionary c).gradS)
        step ∧
      s'.S = s.S + step • (-(s.alphaS • (s.prepareDictionary c).gradS)) ∧
      s'.Gamma = s.Gamma ∧ s'.X = s.X ∧ s'.orderWeights = s.orderWeights ∧
      s'.transitionMatrices = s.transitionMatrices ∧
      s'.fSMem = s.fSMem.tail ++ [s.objective c] ∧
      ((∃ fMax ∈ s'.fSMem, (∀ f ∈ s'.fSMem, f ≤ fMax) ∧ s'.objective c ≤ fMax +
          c.ls.gamma * step * inner (-(s.alphaS • (s.prepareDictionary c).gradS))
            (s.prepareDictionary c).gradS) ∨
        |step| < c.ls.stepSizeTolerance) := by
  obtain ⟨lam, hl⟩ := MTDState.updateDictionary_post (mtdCoherent_iff.1 hs) h
  have e : (s.prepareDictionary c).gradS = gradSOf c.epsilonStates s.X s.Gamma s.S :=
    congrArg (fun s : MTDState T D k p K => s.gradS) (MTDState.prepareDictionary_eq (c := c) (s := s))
  rw [e]
  exact ⟨lam, hl.range.bounds, hl.S, hl.Gamma, hl.X, hl.orderWeights,
    hl.transitionMatrices, hl.fSMem, hl.accept⟩

/-- C10, weights; missing: the same settings. -/
theorem C10_mtd_weights_partial (c : MTDConfig p K) (s s' : MTDState T D k p K)
    (hs : MTDCoherent c s) (h : s.updateWeights c = Py.ok s') :
    ∃ (step : K) (G P : Matrix (Fin T) (Fin k) K), G = (s.prepareWeights c).gradGamma ∧
      (∀ t, (fun i => P t i) = simplexProjectVector fun i => s.Gamma t i - s.alphaGamma * G t i) ∧
      StepBounds c.ls.gamma c.ls.sigmaOne c.ls.sigmaTwo (inner (P - s.Gamma) G) step ∧
      s'.Gamma = s.Gamma + step • (P - s.Gamma) ∧
      s'.S = s.S ∧ s'.X = s.X ∧ s'.orderWeights = s.orderWeights ∧
      s'.transitionMatrices = s.transitionMatrices ∧
      s'.fGammaMem = s.fGammaMem.tail ++ [s.objective c] ∧
      ((∃ fMax ∈ s'.fGammaMem, (∀ f ∈ s'.fGammaMem, f ≤ fMax) ∧
          s'.objective c ≤ fMax + c.ls.gamma * step * inner (P - s.Gamma) G) ∨
        |step| < c.ls.stepSizeTolerance) := by
  have hg := mtdCoherent_iff.1 hs
  obtain ⟨lam, hl⟩ := MTDState.updateWeights_post hg h
  have e : (s.prepareWeights c).gradGamma =
      mtdGradW c s.X s.Gamma s.S s.orderWeights s.transitionMatrices :=
    congrArg (fun s : MTDState T D k p K => s.gradGamma) (MTDState.prepareWeights_eq hg)
  refine ⟨lam, _, simplexProjectRows (s.Gamma - s.alphaGamma •
    mtdGradW c s.X s.Gamma s.S s.orderWeights s.transitionMatrices), rfl,
    fun t => ?_, ?_, hl.Gamma, hl.S, hl.X, hl.orderWeights,
    hl.transitionMatrices, hl.fGammaMem, ?_⟩
  · rw [e, projectRows_apply]
    rfl
  · rw [e]
    exact hl.range.bounds
  · rw [e]
    exact hl.accept

/-- C10, parameters; missing: the same settings.  Both parameter blocks move by the same step. -/
theorem C10_mtd_parameters_partial (c : MTDConfig p K) (s s' : MTDState T D k p K)
    (hs : MTDCoherent c s) (h : s.updateParameters c = Py.ok s') :
    ∃ (step : K) (g P : Fin p → K) (G Q : Fin p → Matrix (Fin k) (Fin k) K),
      g = (s.prepareParameters c).gradOrderWeights ∧
      G = (s.prepareParameters c).gradTransitionMatrices ∧
      P = simplexProjectVector (fun i => s.orderWeights i - s.alphaParameters * g i) ∧
      (∀ i j, (fun l => Q i l j) =
        simplexProjectVector fun l => s.transitionMatrices i l j - s.alphaParameters * G i l j) ∧
      StepBounds c.ls.gamma c.ls.sigmaOne c.ls.sigmaTwo ((∑ i, (P i - s.orderWeights i) * g i) +
        ∑ i, inner (Q i - s.transitionMatrices i) (G i)) step ∧
      s'.orderWeights = s.orderWeights + step • (P - s.orderWeights) ∧
      s'.transitionMatrices = s.transitionMatrices + step • (Q - s.transitionMatrices) ∧
      s'.S = s.S ∧ s'.X = s.X ∧ s'.Gamma = s.Gamma ∧
      s'.fParametersMem = s.fParametersMem.tail ++ [s.objective c] ∧
      ((∃ fMax ∈ s'.fParametersMem, (∀ f ∈ s'.fParametersMem, f ≤ fMax) ∧
          s'.objective c ≤ fMax + c.ls.gamma * step * ((∑ i, (P i - s.orderWeights i) * g i) +
            ∑ i, inner (Q i - s.transitionMatrices i) (G i))) ∨
        |step| < c.ls.stepSizeTolerance) := by
  have hg := mtdCoherent_iff.1 hs
  obtain ⟨lam, hl⟩ := MTDState.updateParameters_post hg h
  have e1 : (s.prepareParameters c).gradOrderWeights =
      mtdGradOW c.epsilonWeights c.lags s.Gamma s.orderWeights s.transitionMatrices :=
    congrArg (fun s : MTDState T D k p K => s.gradOrderWeights) (MTDState.prepareParameters_eq hg)
  have e2 : (s.prepareParameters c).gradTransitionMatrices =
      mtdGradTM c.epsilonWeights c.lags s.Gamma s.orderWeights s.transitionMatrices :=
    congrArg (fun s : MTDState T D k p K => s.gradTransitionMatrices)
      (MTDState.prepareParameters_eq hg)
  refine ⟨lam, _, _, _, projectMatrices (s.transitionMatrices - s.alphaParameters •
    mtdGradTM c.epsilonWeights c.lags s.Gamma s.orderWeights s.transitionMatrices), rfl, rfl, rfl,
    fun i j => ?_, ?_, ?_, hl.transitionMatrices, hl.S, hl.X,
    hl.Gamma, hl.fParametersMem, ?_⟩
  · rw [e2]
    unfold projectMatrices
    rw [projectColumns_apply]
    rfl
  · rw [e1, e2]
    exact hl.range.bounds
  · rw [e1]
    exact hl.orderWeights
  · rw [e1, e2]
    exact hl.accept

/-! ### C39: gradients -/

/-- C39.  The gradient used by the dictionary update is the derivative of the documented objective
with respect to the dictionary, in every direction, at every state (however stale its caches). -/
theorem C39_mtd_dictionary_gradient (c : MTDConfig p ℝ) (s : MTDState T D k p ℝ)
    (H : Matrix (Fin k) (Fin D) ℝ) :
    HasDerivAt (fun t : ℝ => mtdCost c.epsilonStates c.epsilonWeights c.lags s.X s.Gamma
        (s.S + t • H) s.orderWeights s.transitionMatrices)
      (inner (s.prepareDictionary c).gradS H) 0 := by
  have e : (s.prepareDictionary c).gradS = gradSOf c.epsilonStates s.X s.Gamma s.S :=
    congrArg (fun s : MTDState T D k p ℝ => s.gradS) (MTDState.prepareDictionary_eq (c := c) (s := s))
  rw [e]
  exact (hasDerivAt_quadratic fun t =>
    gpnhCost_add_S c.epsilonStates s.X s.Gamma s.S H t).add_const _

/-- The gradient of the weights block needs only current predictions. -/
theorem mtd_prepareWeights_grad {c : MTDConfig p K} {s : MTDState T D k p K}
    (h : MTDCoherent c s) :
    (s.prepareWeights c).gradGamma =
      mtdGradW c s.X s.Gamma s.S s.orderWeights s.transitionMatrices :=
  congrArg (fun s : MTDState T D k p K => s.gradGamma)
    (MTDState.prepareWeights_eq (mtdCoherent_iff.1 h))

/-- C39.  The gradient used by the weights update is the derivative of the documented objective with
respect to the weights, in every direction, for at least two components (zero components are
rejected) and more samples than the largest lag, at every state reached by a fit
(`C40_mtd_initially_current`, `C40_mtd_updates_current`). -/
theorem C39_mtd_weights_gradient (c : MTDConfig p ℝ) (hk : k ≠ 1) (_hT : ∀ i, c.lags i < T)
    (s : MTDState T D k p ℝ) (hs : MTDCoherent c s) (H : Matrix (Fin T) (Fin k) ℝ) :
    HasDerivAt (fun t : ℝ => mtdCost c.epsilonStates c.epsilonWeights c.lags s.X (s.Gamma + t • H)
        s.S s.orderWeights s.transitionMatrices)
      (inner (s.prepareWeights c).gradGamma H) 0 := by
  rw [mtd_prepareWeights_grad hs]
  have h1 := hasDerivAt_quadratic fun t => gpnhCost_add_W c.epsilonStates s.X s.Gamma H s.S t
  have h2 := hasDerivAt_quadratic fun t => mtdPenalty_add_W hk c.epsilonWeights c.lags s.Gamma H
    s.orderWeights s.transitionMatrices t
  refine (h1.add h2).congr_deriv ?_
  rw [← inner_add_left]
  congr 1
  unfold mtdGradW
  rw [add_comm]

/-- The gradients of the parameter blocks are computed after the predictions are refreshed, from any
state. -/
theorem mtd_prepareParameters_grad (c : MTDConfig p K) (s : MTDState T D k p K) :
    (s.prepareParameters c).gradOrderWeights =
      mtdGradOW c.epsilonWeights c.lags s.Gamma s.orderWeights s.transitionMatrices ∧
    (s.prepareParameters c).gradTransitionMatrices =
      mtdGradTM c.epsilonWeights c.lags s.Gamma s.orderWeights s.transitionMatrices := by
  have hg : ({ s with SSt := s.S * s.Sᵀ }.updatePredictedWeights c).Good c := ⟨rfl, rfl⟩
  have h1 := MTDState.updateParametersGradient_gradOW hg
  have h2 := MTDState.updateParametersGradient_gradTM hg
  exact ⟨h1, h2⟩

/-- C39.  The gradients used by the parameters update are the derivative of the documented objective
along any simultaneous direction in the order weights and the transition matrices, at every state. -/
theorem C39_mtd_parameters_gradient (c : MTDConfig p ℝ) (hk : k ≠ 1) (_hT : ∀ i, c.lags i < T)
    (s : MTDState T D k p ℝ) (v : Fin p → ℝ) (B : Fin p → Matrix (Fin k) (Fin k) ℝ) :
    HasDerivAt (fun t : ℝ => mtdCost c.epsilonStates c.epsilonWeights c.lags s.X s.Gamma s.S
        (s.orderWeights + t • v) (s.transitionMatrices + t • B))
      ((∑ i, v i * (s.prepareParameters c).gradOrderWeights i) +
        ∑ i, inner (B i) ((s.prepareParameters c).gradTransitionMatrices i)) 0 := by
  obtain ⟨e1, e2⟩ := mtd_prepareParameters_grad c s
  rw [e1, e2]
  have key := mtd_params_slope c.epsilonWeights c.lags s.Gamma s.orderWeights v
    s.transitionMatrices B
  have key' : (∑ i, v i * mtdGradOW c.epsilonWeights c.lags s.Gamma s.orderWeights
      s.transitionMatrices i) + ∑ i, inner (B i) (mtdGradTM c.epsilonWeights c.lags s.Gamma
        s.orderWeights s.transitionMatrices i) = _ := key.symm
  rw [key']
  set P1 := mtdPred c.lags s.Gamma v s.transitionMatrices + mtdPred c.lags s.Gamma s.orderWeights B
  set P2 := mtdPred c.lags s.Gamma v B
  set R := mtdRes c.lags s.Gamma s.orderWeights s.transitionMatrices
  set a := mtdCoef T k c.epsilonWeights c.lags
  have h2 := hasDerivAt_quartic
    (f := fun t : ℝ => mtdPenalty c.epsilonWeights c.lags s.Gamma (s.orderWeights + t • v)
      (s.transitionMatrices + t • B))
    (a := mtdPenalty c.epsilonWeights c.lags s.Gamma s.orderWeights s.transitionMatrices)
    (b := -2 * a * inner R P1) (c := a * (frobSq P1 - 2 * inner R P2))
    (d := 2 * a * inner P1 P2) (e := a * frobSq P2) (by
      intro t
      rw [mtdPenalty_add_params hk, frobSq_add_smul]
      ring)
  exact h2.const_add _

/-- C39, order weights alone. -/
theorem C39_mtd_order_weights_gradient (c : MTDConfig p ℝ) (hk : k ≠ 1) (hT : ∀ i, c.lags i < T)
    (s : MTDState T D k p ℝ) (v : Fin p → ℝ) :
    HasDerivAt (fun t : ℝ => mtdCost c.epsilonStates c.epsilonWeights c.lags s.X s.Gamma s.S
        (s.orderWeights + t • v) s.transitionMatrices)
      (∑ i, v i * (s.prepareParameters c).gradOrderWeights i) 0 := by
  have h := C39_mtd_parameters_gradient c hk hT s v 0
  simpa [inner] using h

/-- C39, transition matrices alone. -/
theorem C39_mtd_transition_gradient (c : MTDConfig p ℝ) (hk : k ≠ 1) (hT : ∀ i, c.lags i < T)
    (s : MTDState T D k p ℝ) (B : Fin p → Matrix (Fin k) (Fin k) ℝ) :
    HasDerivAt (fun t : ℝ => mtdCost c.epsilonStates c.epsilonWeights c.lags s.X s.Gamma s.S
        s.orderWeights (s.transitionMatrices + t • B))
      (∑ i, inner (B i) ((s.prepareParameters c).gradTransitionMatrices i)) 0 := by
  have h := C39_mtd_parameters_gradient c hk hT s 0 B
  simpa using h

/-- C39.  The same derivatives for the costs as evaluated by the three line searches. -/
theorem C39_mtd_reported (c : MTDConfig p ℝ) (hk : k ≠ 1) (hT : ∀ i, c.lags i < T)
    (s : MTDState T D k p ℝ) (hs : MTDCoherent c s) (H : Matrix (Fin k) (Fin D) ℝ)
    (G : Matrix (Fin T) (Fin k) ℝ) (v : Fin p → ℝ) (B : Fin p → Matrix (Fin k) (Fin k) ℝ) :
    HasDerivAt (fun t : ℝ =>
        (MTDState.dictionaryTrial c { s with SOld := s.S, incrS := H } t).2)
      (inner (s.prepareDictionary c).gradS H) 0 ∧
    HasDerivAt (fun t : ℝ =>
        (MTDState.weightsTrial c { s with GammaOld := s.Gamma, incrGamma := G } t).2)
      (inner (s.prepareWeights c).gradGamma G) 0 ∧
    HasDerivAt (fun t : ℝ => (MTDState.parametersTrial c
        { s with orderWeightsOld := s.orderWeights, incrOrderWeights := v
                 transitionMatricesOld := s.transitionMatrices, incrTransitionMatrices := B } t).2)
      ((∑ i, v i * (s.prepareParameters c).gradOrderWeights i) +
        ∑ i, inner (B i) ((s.prepareParameters c).gradTransitionMatrices i)) 0 := by
  have hg := mtdCoherent_iff.1 hs
  refine ⟨?_, ?_, ?_⟩
  · refine (C39_mtd_dictionary_gradient c s H).congr_of_eventuallyEq
      (Filter.Eventually.of_forall fun t => ?_)
    exact MTDState.objective_of
      (s := (MTDState.dictionaryTrial c { s with SOld := s.S, incrS := H } t).1) rfl hg.Z
  · refine (C39_mtd_weights_gradient c hk hT s hs G).congr_of_eventuallyEq
      (Filter.Eventually.of_forall fun t => ?_)
    exact MTDState.objective_of
      (s := (MTDState.weightsTrial c { s with GammaOld := s.Gamma, incrGamma := G } t).1) hg.SSt rfl
  · refine (C39_mtd_parameters_gradient c hk hT s v B).congr_of_eventuallyEq
      (Filter.Eventually.of_forall fun t => ?_)
    exact MTDState.objective_of (s := (MTDState.parametersTrial c
        { s with orderWeightsOld := s.orderWeights, incrOrderWeights := v
                 transitionMatricesOld := s.transitionMatrices, incrTransitionMatrices := B } t).1)
        hg.SSt rfl

/-- The derivatives are not always zero. -/
example : (mtdDemoState.prepareParameters mtdDemoConfig).gradOrderWeights 0 = 1 / 24 := by
  rw [(mtd_prepareParameters_grad _ _).1]
  have hl : topLag ![1, 2] = 2 := by decide
  show mtdGradOW (1/5 : ℚ) ![1, 2] !![1/2, 1/2; 1/4, 3/4; 1, 0] ![1/3, 2/3]
    ![!![1, 0; 0, 1], !![1/2, 1; 1/2, 0]] 0 = 1 / 24
  have hm : mtdRes ![1, 2] (!![1/2, 1/2; 1/4, 3/4; 1, 0] : Matrix (Fin 3) (Fin 2) ℚ) ![1/3, 2/3]
      ![!![1, 0; 0, 1], !![1/2, 1; 1/2, 0]] = !![0, 0; 0, 0; 5/12, -5/12] := by
    ext t j
    unfold mtdRes
    rw [hl]
    fin_cases t <;> fin_cases j <;> simp [mtdStep, rowSeq, Fin.sum_univ_two] <;> norm_num
  unfold mtdGradOW mtdCoef
  rw [hl, hm]
  simp [rowsFrom, rowSeq, Fin.sum_univ_two, Matrix.mul_apply]
  norm_num

/-! ### C22, C24, C36, C37 -/

/-- C22.  `n_iter_` is below `max_iterations` (it is the zero-based index of the last iteration) and
the warning about the maximum number of iterations is never issued, by `fit_transform` and by
`transform`. -/
theorem C22_mtd_no_warning {env : Env K} (obj : MTDObj env.rng p) (data : Arr2 K)
    (args : MTDArgs K) (fl : MTDFlags) (kw : InitKwargs)
    (obj' : MTDObj env.rng p) (info : FitInfo K)
    (h : mtdConvexCoding env obj data args fl kw = Py.ok (obj', info)) :
    info.warned = false ∧ ∃ m : ℕ, obj.maxIterations = .int m ∧ info.nIter < m := by
  obtain ⟨q, start, r, hq, hst, hr, hoi⟩ := mtdConvexCoding_eq_ok h
  simp only [Prod.mk.injEq] at hoi
  obtain ⟨rfl, rfl⟩ := hoi
  have := iterate_nIter_lt (mtdSolve_eq_ok.1 hr).2
  refine ⟨?_, q.2.1, (checkParams_ok hq).2.2.1, this⟩
  simp only [decide_eq_false_iff_not, not_and]
  intro h
  omega

theorem C22_mtd_fit {env : Env K} (obj : MTDObj env.rng p) (data : Arr2 K)
    (args : MTDArgs K) (fl : MTDFlags) (kw : InitKwargs)
    (obj' : MTDObj env.rng p) (G : Option (Arr2 K)) (info : FitInfo K)
    (h : mtdFitTransform env obj data args fl kw = Py.ok (obj', G, info)) :
    info.warned = false ∧ ∃ m n : ℕ, obj.maxIterations = .int m ∧ obj'.nIter_ = some n ∧ n < m := by
  obtain ⟨o, i, ho, hres⟩ := mtdFitTransform_eq_ok h
  simp only [Prod.mk.injEq] at hres
  obtain ⟨rfl, rfl, rfl⟩ := hres
  obtain ⟨ha, m, hm, hlt⟩ := C22_mtd_no_warning obj data args fl kw _ _ ho
  exact ⟨ha, m, _, hm, rfl, hlt⟩

/-- C24.  With an invalid configuration every fit, transform and predict raises ValueError, whatever
the data and the other arguments. -/
theorem C24_mtd_invalid_rejected {env : Env K} (obj : MTDObj env.rng p) (data : Arr2 K)
    (args : MTDArgs K) (fl : MTDFlags) (kw : InitKwargs) (horizon : ℤ)
    (hv : ¬ ValidConfig obj.nComponents data.cols obj.maxIterations
      obj.tolerance) :
    mtdFitTransform env obj data args fl kw = Py.raise .valueError ∧
    mtdTransform env obj data = Py.raise .valueError ∧
    mtdPredict env obj data horizon = Py.raise .valueError := by
  rw [validConfig_iff] at hv
  unfold mtdPredict mtdFitTransform mtdTransform mtdConvexCoding
  simp only [checkParams_invalid hv, Py.raise_bind, and_self]

/-- C24.  With a valid configuration, at least one lag and the default initialisation, a fit never
raises ValueError. -/
theorem C24_mtd_valid_accepted {env : Env K} (obj : MTDObj env.rng p) (hp : p ≠ 0)
    (hinit : obj.init = none ∨ obj.init = some "random") (data : Arr2 K) (args : MTDArgs K)
    (hv : ValidConfig obj.nComponents data.cols obj.maxIterations
      obj.tolerance) :
    mtdFitTransform env obj data args {} {} ≠ Py.raise .valueError := by
  rw [validConfig_iff] at hv
  intro h
  unfold mtdFitTransform at h
  rcases Py.bind_eq_raise.1 h with h | ⟨_, _, h⟩
  swap
  · simp at h
  unfold mtdConvexCoding at h
  obtain ⟨q, hq, -, -, hk, hm, -, -⟩ := checkParams_valid hv
  simp only [hq, Py.ok_bind] at h
  rcases Py.bind_eq_raise.1 h with h | ⟨_, _, h⟩
  · simpa using mtdStart_random_raise hinit h
  rcases Py.bind_eq_raise.1 h with h | ⟨_, _, h⟩
  · rcases mtdSolve_raise hp hm h with h | h | h | h <;> simp at h
  · simp at h

/-- C24 fails for an object without lags: `lags=[]` is accepted by the constructor, but then no fit
ever returns. -/
theorem C24_mtd_no_lags {env : Env K} (obj : MTDObj env.rng 0) (data : Arr2 K) (args : MTDArgs K)
    (fl : MTDFlags) (kw : InitKwargs) :
    mtdLags (some ([] : List (NumArg K))) = Py.ok [] ∧
    ¬ ∃ res, mtdFitTransform env obj data args fl kw = Py.ok res := by
  refine ⟨rfl, ?_⟩
  rintro ⟨res, h⟩
  obtain ⟨o, i, ho, -⟩ := mtdFitTransform_eq_ok h
  obtain ⟨q, start, r, hq, hst, hr, -⟩ := mtdConvexCoding_eq_ok ho
  exact (mtdSolve_eq_ok.1 hr).1.1 rfl

/-- C24.  The number of components of a fitted model is the configured one, or the number of features
if that was None; weights and dictionary have these shapes. -/
theorem C24_mtd_components {env : Env K} (obj : MTDObj env.rng p) (data : Arr2 K)
    (args : MTDArgs K) (fl : MTDFlags) (kw : InitKwargs) (obj' : MTDObj env.rng p)
    (G : Option (Arr2 K)) (info : FitInfo K)
    (h : mtdFitTransform env obj data args fl kw = Py.ok (obj', G, info)) :
    ∃ (k : ℕ) (W S : Arr2 K), obj'.nComponents_ = some k ∧ obj'.nComponents = .int k ∧
      (obj.nComponents = .int k ∨ obj.nComponents = .none ∧ k = data.cols) ∧
      G = some W ∧ obj'.dictionary_ = some S ∧ W.rows = data.rows ∧ W.cols = k ∧ S.rows = k ∧
      S.cols = data.cols := by
  obtain ⟨o, i, ho, hres⟩ := mtdFitTransform_eq_ok h
  obtain ⟨q, start, r, hq, hst, hr, hoi⟩ := mtdConvexCoding_eq_ok ho
  simp only [Prod.mk.injEq] at hres hoi
  obtain ⟨rfl, rfl, rfl⟩ := hres
  obtain ⟨rfl, rfl⟩ := hoi
  have hc := (checkParams_ok hq).2.1
  exact ⟨q.1, _, _, rfl, hc, defaultComponents_eq_int hc, rfl, rfl, rfl, rfl, rfl, rfl⟩

/-- C24.  The constructor's own check: every lag of an object is a positive integer; anything else is
a ValueError. -/
theorem C24_mtd_lags (lags : List (NumArg K)) :
    ((∀ l ∈ lags, ∃ z : ℤ, l = .int z ∧ 1 ≤ z) →
      ∃ ls : List ℕ, mtdLags (some lags) = Py.ok ls ∧ ls.map (fun n : ℕ => NumArg.int (K := K) n) =
        lags ∧ ∀ n ∈ ls, 1 ≤ n) ∧
    ((¬ ∀ l ∈ lags, ∃ z : ℤ, l = .int z ∧ 1 ≤ z) → mtdLags (some lags) = Py.raise .valueError) := by
  show ((_ → ∃ ls : List ℕ, mtdCheckLags lags = Py.ok ls ∧ _) ∧
    (_ → mtdCheckLags lags = Py.raise .valueError))
  induction lags with
  | nil => exact ⟨fun _ => ⟨[], rfl, rfl, by simp⟩, fun h => absurd (by simp) h⟩
  | cons a l ih =>
    constructor
    · intro h
      obtain ⟨ls, hls, hmap, hpos⟩ := ih.1 fun x hx => h x (List.mem_cons_of_mem _ hx)
      obtain ⟨z, rfl, hz⟩ := h a List.mem_cons_self
      have hc : mtdCheckLag (NumArg.int (K := K) z) = Py.ok z.toNat := by
        simp only [mtdCheckLag]
        rw [if_neg (by omega)]
      refine ⟨z.toNat :: ls, ?_, ?_, ?_⟩
      · simp only [mtdCheckLags, hc, hls, Py.ok_bind, Py.pure_eq]
      · simp only [List.map_cons, hmap, List.cons.injEq, NumArg.int.injEq, and_true]
        omega
      · intro n hn
        rcases List.mem_cons.1 hn with rfl | hn
        · omega
        · exact hpos n hn
    · intro h
      by_cases ha : ∃ z : ℤ, a = .int z ∧ 1 ≤ z
      · obtain ⟨z, rfl, hz⟩ := ha
        have hc : mtdCheckLag (NumArg.int (K := K) z) = Py.ok z.toNat := by
          simp only [mtdCheckLag]
          rw [if_neg (by omega)]
        have hl : ¬ ∀ x ∈ l, ∃ z : ℤ, x = .int z ∧ 1 ≤ z := by
          intro hl
          apply h
          intro x hx
          rcases List.mem_cons.1 hx with rfl | hx
          · exact ⟨z, rfl, hz⟩
          · exact hl x hx
        simp only [mtdCheckLags, hc, ih.2 hl, Py.ok_bind, Py.raise_bind]
      · have hc : mtdCheckLag a = Py.raise .valueError := by
          cases a with
          | int z =>
            simp only [mtdCheckLag]
            rw [if_pos]
            by_contra hz
            exact ha ⟨z, rfl, by omega⟩
          | _ => rfl
        simp only [mtdCheckLags, hc, Py.raise_bind]

/-- C37.  A model created with `init='custom'` can neither transform nor predict: ValueError for every
dataset. -/
theorem C37_mtd_custom_cannot_transform {env : Env K} (obj : MTDObj env.rng p)
    (hinit : obj.init = some "custom") (data : Arr2 K) (horizon : ℤ) :
    mtdTransform env obj data = Py.raise .valueError ∧
    mtdPredict env obj data horizon = Py.raise .valueError := by
  have : mtdTransform env obj data = Py.raise .valueError := by
    unfold mtdTransform mtdConvexCoding
    by_cases hv : ValidParams (defaultComponents obj.nComponents data.cols) obj.maxIterations
        obj.tolerance
    · obtain ⟨q, hq, -⟩ := checkParams_valid hv
      have : mtdStart env data.val q.1 p obj.init obj.transformArgs ⟨false, true, false⟩ {}
          obj.randomState = Py.raise .valueError := by
        rw [hinit]
        have hw : obj.transformArgs.weights = none := by
          unfold MTDObj.transformArgs
          split <;> rfl
        unfold mtdStart
        rw [if_pos rfl, hw]
        rfl
      simp only [hq, Py.ok_bind, this, Py.raise_bind]
    · simp only [checkParams_invalid hv, Py.raise_bind]
  refine ⟨this, ?_⟩
  unfold mtdPredict
  rw [this]
  rfl

/-- C36.  With `init='furthest_sum'` the initial dictionary consists of rows of the data at distinct
indices, none of them excluded. -/
theorem C36_mtd_furthest_sum_start {env : Env K} (data : Matrix (Fin T) (Fin D) K) (k : ℕ)
    (args : MTDArgs K) (fl : MTDFlags) (hfl : fl.updateDictionary = true) (kw : InitKwargs)
    (hkw : kw.WellFormed T) (g : env.rng.G) (start : MTDPoint T D k p K × env.rng.G)
    (h : mtdStart env data k p (some "furthest_sum") args fl kw g = Py.ok start) :
    ∃ rows : Fin k → Fin T, Function.Injective rows ∧
      (∀ i, ((rows i : ℕ) : ℤ) ∉ kw.exclude.getD []) ∧ ∀ i d, start.1.1 i d = data (rows i) d := by
  obtain ⟨g1, g2, hd, -, -⟩ := mtdStart_parts (by simp) h
  unfold mtdStartDictionary at hd
  rw [if_pos hfl] at hd
  unfold mtdInitDictionary gpnhInitDictionary at hd
  simp only [Option.getD_some, String.reduceEq, if_false, if_true] at hd
  unfold gpnhInitDictionaryFurthestSum at hd
  obtain ⟨r, hr, hd⟩ := Py.bind_eq_ok.1 hd
  have hd' := congrArg Prod.fst (Py.ok.inj hd)
  obtain ⟨a, b⟩ := furthestSumRows_ok hkw hr
  exact ⟨r.1, a, b, fun i d => (congrFun (congrFun hd' i) d).symm⟩

/-- C36, success.  The whole FurthestSum start succeeds with enough samples, no extra option and no
zero draw. -/
theorem C36_mtd_furthest_sum_succeeds {env : Env K} (hR : env.rng.Lawful)
    (hpos : ∀ m n g i j, 0 < (env.rng.uniform m n g).1 i j)
    (data : Matrix (Fin T) (Fin D) K) (k : ℕ) (hk : 1 ≤ k) (hkT : k ≤ T) (args : MTDArgs K)
    (g : env.rng.G) :
    ∃ start, mtdStart env data k p (some "furthest_sum") args {} {} g = Py.ok start := by
  obtain ⟨d, hd⟩ := C36_gpnh_furthest_sum_succeeds hR data k hk hkT {} rfl (by simp) g
  obtain ⟨w, hw⟩ := rightStochastic_succeeds hpos (m := T) hk d.2
  have hw' : mtdInitWeights env T k (some "furthest_sum") {} d.2 = Py.ok w := by
    unfold mtdInitWeights gpnhInitWeights gpnhInitWeightsRandom
    simp [hw, InitKwargs.nonempty]
  obtain ⟨ow, how⟩ := mtdDrawOrderWeights_succeeds hpos p w.2
  obtain ⟨A, hA⟩ := mtdDrawTransitionMatrices_succeeds hpos hk p ow.2
  have ha : ∃ a, mtdInitParameters env k p (some "furthest_sum") {} w.2 = Py.ok a := by
    unfold mtdInitParameters mtdInitParametersRandom
    simp [how, hA, InitKwargs.nonempty]
  obtain ⟨a, ha⟩ := ha
  unfold mtdStart
  rw [if_neg (by simp)]
  simp only [mtdStartDictionary, mtdStartWeights, mtdStartParameters, if_true, mtdInitDictionary,
    hd, Py.ok_bind, hw', ha]
  exact ⟨_, rfl⟩

example : ∃ (start : MTDPoint 3 2 2 2 ℚ × demoEnv.rng.G) (rows : Fin 2 → Fin 3),
    Function.Injective rows ∧ ∀ i d, start.1.1 i d = demoData.val (rows i) d := by
  obtain ⟨start, h⟩ := C36_mtd_furthest_sum_succeeds (env := demoEnv) demoRng_lawful demoRng_uniform_pos
    demoData.val 2 (p := 2) (by norm_num) (by norm_num [demoData, Arr2.of]) {} (demoRng.ofSeed 5)
  obtain ⟨rows, h1, -, h2⟩ := C36_mtd_furthest_sum_start demoData.val 2 {} {} rfl {}
    (by simp [InitKwargs.WellFormed]) _ start h
  exact ⟨start, rows, h1, h2⟩

end Reor
