import Verif.Proofs.MTDCost
import Verif.Proofs.GPNHFit
import Mathlib.Tactic.LinearCombination

/-!
The updates of the MTD model.
-/

namespace Reor

set_option linter.unusedSectionVars false

open scoped BigOperators Matrix
open Spec

variable {K : Type} [Field K] [LinearOrder K] [IsStrictOrderedRing K]
variable {T D k p : ℕ}

/-- Gradient used by the weights update. -/
def mtdGradW (c : MTDConfig p K) (X : Matrix (Fin T) (Fin D) K) (W : Matrix (Fin T) (Fin k) K)
    (S : Matrix (Fin k) (Fin D) K) (w : Fin p → K) (A : Fin p → Matrix (Fin k) (Fin k) K) :
    Matrix (Fin T) (Fin k) K :=
  mtdGradPen c.epsilonWeights c.lags W w A + gradWOf X W S

/-- Column by column projection of every transition matrix. -/
def projectMatrices (A : Fin p → Matrix (Fin k) (Fin k) K) : Fin p → Matrix (Fin k) (Fin k) K :=
  fun i => simplexProjectColumns (A i)

namespace MTDState

/-! ### Gradients -/

theorem weightsPenaltyGradient_gradGamma {c : MTDConfig p K} {s : MTDState T D k p K}
    (h : s.Good c) :
    (s.weightsPenaltyGradient c).gradGamma =
      mtdGradPen c.epsilonWeights c.lags s.Gamma s.orderWeights s.transitionMatrices := by
  have hR := h.sub_Z
  ext t j
  unfold weightsPenaltyGradient mtdGradPen
  simp only
  set R := mtdRes c.lags s.Gamma s.orderWeights s.transitionMatrices with hRdef
  have hR0 : T ≤ c.maxLag → R = 0 := fun h => by
    rw [hRdef, mtdRes_eq_zero_of_le (by rwa [← maxLag_eq])]
  set G : Matrix (Fin T) (Fin k) K := (List.finRange p).foldl
    (fun G i => fun t j =>
      if (t : ℕ) < T - c.lags i then
        G t j + -2 * c.epsilonWeights * s.weightsNormalization c * s.orderWeights i *
          ∑ l, rowAt (s.Gamma - s.Z) (c.lags i + t) l * s.transitionMatrices i l j
      else G t j) 0 with hG
  have hGt : G t j = ∑ i, if (t : ℕ) < T - c.lags i then
      -2 * c.epsilonWeights * s.weightsNormalization c * s.orderWeights i *
          ∑ l, rowSeq R (c.lags i + t) l * s.transitionMatrices i l j else 0 := by
    have := foldl_mask' (List.finRange p) (fun i (t : Fin T) => (t : ℕ) < T - c.lags i)
      (fun i t j => -2 * c.epsilonWeights * s.weightsNormalization c * s.orderWeights i *
          ∑ l, rowAt (s.Gamma - s.Z) (c.lags i + t) l * s.transitionMatrices i l j)
      (fun _ _ => 0) t j
    rw [sum_finRange_map, zero_add] at this
    refine Eq.trans this ?_
    rw [hR]
    rfl
  have e1 : ∀ x : K, (T ≤ c.maxLag → x = 0) → c.epsilonWeights * s.weightsNormalization c * x =
      mtdCoef T k c.epsilonWeights c.lags * x := by
    intro x hx
    rcases lt_or_ge c.maxLag T with h1 | h1
    · rw [normalization_eq c s h1]
    · rw [hx h1]; ring
  have e2 : G t j = -(2 * mtdCoef T k c.epsilonWeights c.lags *
      ∑ i, if (t : ℕ) < T - c.lags i then
        s.orderWeights i * ∑ l, rowSeq R (c.lags i + t) l * s.transitionMatrices i l j else 0) := by
    rw [hGt, Finset.mul_sum, ← Finset.sum_neg_distrib]
    refine Finset.sum_congr rfl fun i _ => ?_
    split_ifs
    · have := e1 (s.orderWeights i * ∑ l, rowSeq R (c.lags i + t) l * s.transitionMatrices i l j)
        (fun h => by rw [hR0 h]; simp [rowSeq])
      linear_combination (-2) * this
    · simp
  have e3 : s.Gamma t j - s.Z t j = R t j := by rw [← hR]; rfl
  rw [Matrix.smul_apply, smul_eq_mul]
  unfold mtdAdj
  by_cases ht : c.maxLag ≤ (t : ℕ)
  · rw [if_pos ht, if_pos (by rwa [← maxLag_eq]), e2, e3]
    have := e1 (R t j) (fun h => by rw [hR0 h]; rfl)
    linear_combination 2 * this
  · rw [if_neg ht, if_neg (by rwa [← maxLag_eq]), e2]
    ring

theorem updateWeightsGradient_gradGamma {c : MTDConfig p K} {s : MTDState T D k p K}
    (h : s.Good c) (hX : s.XSt = s.X * s.Sᵀ) :
    (s.updateWeightsGradient c).gradGamma =
      mtdGradW c s.X s.Gamma s.S s.orderWeights s.transitionMatrices := by
  unfold updateWeightsGradient mtdGradW gradWOf
  simp only
  rw [weightsPenaltyGradient_gradGamma h]
  show _ + (-2 * (1 / ((D : K) * (T : K)))) • s.XSt + (2 * (1 / ((D : K) * (T : K)))) •
    (s.Gamma * s.SSt) = _
  rw [hX, h.SSt, mul_one_div, mul_one_div, add_assoc]

theorem updateWeightsGradient_eq (c : MTDConfig p K) (s : MTDState T D k p K) :
    s.updateWeightsGradient c = { s with gradGamma := (s.updateWeightsGradient c).gradGamma } := rfl

theorem updateParametersGradient_gradTM {c : MTDConfig p K} {s : MTDState T D k p K}
    (h : s.Good c) :
    (s.updateParametersGradient c).gradTransitionMatrices =
      mtdGradTM c.epsilonWeights c.lags s.Gamma s.orderWeights s.transitionMatrices := by
  funext i
  change (-2 * c.epsilonWeights * s.weightsNormalization c * s.orderWeights i) •
    ((rowsFrom (topLag c.lags) (T - topLag c.lags) (s.Gamma - s.Z))ᵀ *
      rowsFrom (topLag c.lags - c.lags i) (T - topLag c.lags) s.Gamma) = _
  unfold mtdGradTM
  rw [h.sub_Z]
  rcases lt_or_ge c.maxLag T with h1 | h1
  · rw [mul_assoc (-2), normalization_eq c s h1]
  · have h2 : mtdRes c.lags s.Gamma s.orderWeights s.transitionMatrices = 0 :=
      mtdRes_eq_zero_of_le (by rwa [← maxLag_eq]) _ _ _
    have h3 : ∀ a n, rowsFrom a n (0 : Matrix (Fin T) (Fin k) K) = 0 := fun a n => by
      funext r j; simp [rowsFrom, rowSeq]
    rw [h2, h3]
    simp

theorem trace_mul_mul {n : ℕ} (R L : Matrix (Fin n) (Fin k) K) (A : Matrix (Fin k) (Fin k) K) :
    (R * A * Lᵀ).trace = ∑ j, ∑ l, A j l * (Rᵀ * L : Matrix (Fin k) (Fin k) K) j l := by
  have : ∑ j, ∑ l, A j l * (Rᵀ * L : Matrix (Fin k) (Fin k) K) j l = inner A (Rᵀ * L) := rfl
  rw [this, ← inner_mul_left, trace_mul_eq_inner, inner_transpose]

theorem updateParametersGradient_gradOW {c : MTDConfig p K} {s : MTDState T D k p K}
    (h : s.Good c) :
    (s.updateParametersGradient c).gradOrderWeights =
      mtdGradOW c.epsilonWeights c.lags s.Gamma s.orderWeights s.transitionMatrices := by
  funext i
  change -2 * c.epsilonWeights * s.weightsNormalization c *
    ((rowsFrom (topLag c.lags) (T - topLag c.lags) (s.Gamma - s.Z)) * s.transitionMatrices i *
      (rowsFrom (topLag c.lags - c.lags i) (T - topLag c.lags) s.Gamma)ᵀ).trace = _
  unfold mtdGradOW
  rw [h.sub_Z, trace_mul_mul]
  rcases lt_or_ge c.maxLag T with h1 | h1
  · rw [mul_assoc (-2), normalization_eq c s h1]
  · have h2 : mtdRes c.lags s.Gamma s.orderWeights s.transitionMatrices = 0 :=
      mtdRes_eq_zero_of_le (by rwa [← maxLag_eq]) _ _ _
    have h3 : ∀ a n, rowsFrom a n (0 : Matrix (Fin T) (Fin k) K) = 0 := fun a n => by
      funext r j; simp [rowsFrom, rowSeq]
    rw [h2, h3]
    simp

/-! ### Line searches -/

theorem dictionaryTrial_retriable (c : MTDConfig p K) :
    Retriable (dictionaryTrial (T := T) (D := D) (k := k) c) := fun _ _ _ => rfl

theorem weightsTrial_retriable (c : MTDConfig p K) :
    Retriable (weightsTrial (T := T) (D := D) (k := k) c) := fun _ _ _ => rfl

theorem parametersTrial_retriable (c : MTDConfig p K) :
    Retriable (parametersTrial (T := T) (D := D) (k := k) c) := fun _ _ _ => rfl

/-- Search direction of the weights. -/
def dirW (c : MTDConfig p K) (s : MTDState T D k p K) : Matrix (Fin T) (Fin k) K :=
  simplexProjectRows (s.Gamma - s.alphaGamma •
    mtdGradW c s.X s.Gamma s.S s.orderWeights s.transitionMatrices) - s.Gamma

/-- Search direction of the order weights. -/
def dirOW (c : MTDConfig p K) (s : MTDState T D k p K) : Fin p → K :=
  simplexProjectVector (s.orderWeights - s.alphaParameters •
    mtdGradOW c.epsilonWeights c.lags s.Gamma s.orderWeights s.transitionMatrices) - s.orderWeights

/-- Search direction of the transition matrices. -/
def dirTM (c : MTDConfig p K) (s : MTDState T D k p K) : Fin p → Matrix (Fin k) (Fin k) K :=
  projectMatrices (s.transitionMatrices - s.alphaParameters •
    mtdGradTM c.epsilonWeights c.lags s.Gamma s.orderWeights s.transitionMatrices) -
      s.transitionMatrices

/-- The state in which the weights line search starts. -/
def weightsStart (c : MTDConfig p K) (s : MTDState T D k p K) : MTDState T D k p K :=
  { s with
    SSt := s.S * s.Sᵀ, XSt := s.X * s.Sᵀ
    gradGamma := mtdGradW c s.X s.Gamma s.S s.orderWeights s.transitionMatrices
    incrGamma := s.dirW c
    GammaOld := s.Gamma }

/-- The state in which the dictionary line search starts. -/
def dictStart (c : MTDConfig p K) (s : MTDState T D k p K) : MTDState T D k p K :=
  { s with
    SSt := s.S * s.Sᵀ, GtX := s.Gammaᵀ * s.X, GtG := s.Gammaᵀ * s.Gamma
    gradS := gradSOf c.epsilonStates s.X s.Gamma s.S
    incrS := -(s.alphaS • gradSOf c.epsilonStates s.X s.Gamma s.S)
    SOld := s.S }

/-- The state in which the parameters line search starts. -/
def paramsStart (c : MTDConfig p K) (s : MTDState T D k p K) : MTDState T D k p K :=
  { s with
    gradOrderWeights := mtdGradOW c.epsilonWeights c.lags s.Gamma s.orderWeights
      s.transitionMatrices
    gradTransitionMatrices := mtdGradTM c.epsilonWeights c.lags s.Gamma s.orderWeights
      s.transitionMatrices
    incrOrderWeights := s.dirOW c
    incrTransitionMatrices := s.dirTM c
    orderWeightsOld := s.orderWeights
    transitionMatricesOld := s.transitionMatrices }

theorem prepareWeights_eq {c : MTDConfig p K} {s : MTDState T D k p K} (h : s.Good c) :
    { s.prepareWeights c with GammaOld := s.Gamma } = s.weightsStart c := by
  have hg := updateWeightsGradient_gradGamma (c := c)
    (s := { s with SSt := s.S * s.Sᵀ, XSt := s.X * s.Sᵀ }) ⟨rfl, h.Z⟩ rfl
  unfold prepareWeights
  simp only
  rw [updateWeightsGradient_eq, hg]
  rfl

theorem prepareDictionary_eq {c : MTDConfig p K} {s : MTDState T D k p K} :
    { s.prepareDictionary c with SOld := s.S } = s.dictStart c := by
  unfold prepareDictionary
  rw [GPNHState.prepareDictionary_eq]
  rfl

theorem prepareParameters_eq {c : MTDConfig p K} {s : MTDState T D k p K} (h : s.Good c) :
    { s.prepareParameters c with
      orderWeightsOld := s.orderWeights, transitionMatricesOld := s.transitionMatrices } =
      s.paramsStart c := by
  have hZ : s.updatePredictedWeights c = s := by
    unfold updatePredictedWeights
    rw [← h.Z]
  have h1 := updateParametersGradient_gradOW h
  have h2 := updateParametersGradient_gradTM h
  have h3 : s.updateParametersGradient c = { s with
      gradOrderWeights := (s.updateParametersGradient c).gradOrderWeights
      gradTransitionMatrices := (s.updateParametersGradient c).gradTransitionMatrices } := rfl
  unfold prepareParameters
  simp only
  rw [hZ, h3, h1, h2]
  rfl

theorem objective_of {c : MTDConfig p K} {s : MTDState T D k p K}
    (h1 : s.SSt = s.S * s.Sᵀ)
    (h2 : s.Z = mtdPredictedWeights c.lags c.maxLag s.Gamma s.orderWeights s.transitionMatrices) :
    s.evaluateCost c = mtdCost c.epsilonStates c.epsilonWeights c.lags s.X s.Gamma s.S
      s.orderWeights s.transitionMatrices := evaluateCost_eq ⟨h1, h2⟩

theorem weightsTrial_cost (c : MTDConfig p K) (s : MTDState T D k p K) (lam : K) :
    (weightsTrial c (s.weightsStart c) lam).2 =
      mtdCost c.epsilonStates c.epsilonWeights c.lags s.X (s.Gamma + lam • s.dirW c) s.S
        s.orderWeights s.transitionMatrices :=
  objective_of (s := (weightsTrial c (s.weightsStart c) lam).1) rfl rfl

theorem dictionaryTrial_cost {c : MTDConfig p K} {s : MTDState T D k p K} (h : s.Good c) (lam : K) :
    (dictionaryTrial c (s.dictStart c) lam).2 =
      mtdCost c.epsilonStates c.epsilonWeights c.lags s.X s.Gamma
        (s.S + lam • (-(s.alphaS • gradSOf c.epsilonStates s.X s.Gamma s.S)))
        s.orderWeights s.transitionMatrices :=
  objective_of (s := (dictionaryTrial c (s.dictStart c) lam).1) rfl h.Z

theorem parametersTrial_cost {c : MTDConfig p K} {s : MTDState T D k p K} (h : s.Good c) (lam : K) :
    (parametersTrial c (s.paramsStart c) lam).2 =
      mtdCost c.epsilonStates c.epsilonWeights c.lags s.X s.Gamma s.S
        (s.orderWeights + lam • s.dirOW c) (s.transitionMatrices + lam • s.dirTM c) :=
  objective_of (s := (parametersTrial c (s.paramsStart c) lam).1) h.SSt rfl

/-- Slope of the weights search. -/
def slopeW (c : MTDConfig p K) (s : MTDState T D k p K) : K :=
  inner (s.dirW c) (mtdGradW c s.X s.Gamma s.S s.orderWeights s.transitionMatrices)

/-- Slope of the dictionary search. -/
def slopeS (c : MTDConfig p K) (s : MTDState T D k p K) : K :=
  inner (-(s.alphaS • gradSOf c.epsilonStates s.X s.Gamma s.S))
    (gradSOf c.epsilonStates s.X s.Gamma s.S)

/-- Slope of the parameters search. -/
def slopeP (c : MTDConfig p K) (s : MTDState T D k p K) : K :=
  vecMulSum (s.dirOW c) (mtdGradOW c.epsilonWeights c.lags s.Gamma s.orderWeights
    s.transitionMatrices) +
  mulSum3 (s.dirTM c) (mtdGradTM c.epsilonWeights c.lags s.Gamma s.orderWeights
    s.transitionMatrices)

theorem updateWeights_eq {c : MTDConfig p K} {s : MTDState T D k p K} (hg : s.Good c)
    (hT : T ≠ c.maxLag) :
    s.updateWeights c =
      (lineSearch c.ls (weightsTrial c) s.fGammaMem (s.weightsStart c) (s.objective c)
        (s.slopeW c) >>= fun r =>
      let s := updateWeightsGradient c { r.state with fGammaMem := r.mem }
      Py.ok { s with
        alphaGamma := nextSpgAlpha (r.stepSize * mulSum s.incrGamma (s.gradGamma - r.state.gradGamma))
          (r.stepSize ^ 2 * mulSum s.incrGamma s.incrGamma) c.ls.alphaMin c.ls.alphaMax }) := by
  unfold updateWeights finishWeights weightsLineSearch
  rw [if_neg hT]
  have h1 := prepareWeights_eq hg
  have h2 : (s.prepareWeights c).evaluateCost c = s.objective c := objective_of rfl hg.Z
  have h3 : mulSum (s.prepareWeights c).incrGamma (s.prepareWeights c).gradGamma = s.slopeW c := by
    have e1 := congrArg (fun x => x.incrGamma) h1
    have e2 := congrArg (fun x => x.gradGamma) h1
    simp only at e1 e2
    rw [e1, e2]; rfl
  simp only [h2]
  change ((lineSearch c.ls (weightsTrial c) s.fGammaMem
    { s.prepareWeights c with GammaOld := s.Gamma } (s.objective c)
    (mulSum (s.prepareWeights c).incrGamma (s.prepareWeights c).gradGamma) >>=
    fun r => _) >>= fun r => _) = _
  rw [h1, h3]
  cases h : lineSearch c.ls (weightsTrial c) s.fGammaMem (s.weightsStart c) (s.objective c)
    (s.slopeW c) with
  | ok r => rfl
  | raise e => rfl
  | diverge => rfl

theorem updateDictionary_eq {c : MTDConfig p K} {s : MTDState T D k p K} (hg : s.Good c) :
    s.updateDictionary c =
      (lineSearch c.ls (dictionaryTrial c) s.fSMem (s.dictStart c) (s.objective c)
        (s.slopeS c) >>= fun r =>
      let s := updateDictionaryGradient c { r.state with fSMem := r.mem }
      Py.ok { s with
        alphaS := nextSpgAlpha (r.stepSize * mulSum s.incrS (s.gradS - r.state.gradS))
          (r.stepSize ^ 2 * mulSum s.incrS s.incrS) c.ls.alphaMin c.ls.alphaMax }) := by
  unfold updateDictionary dictionaryLineSearch
  have h1 := prepareDictionary_eq (c := c) (s := s)
  have h2 : (s.prepareDictionary c).evaluateCost c = s.objective c := by
    have : (s.dictStart c).evaluateCost c = s.objective c := objective_of rfl hg.Z
    rw [← this, ← h1]; rfl
  have h3 : mulSum (s.prepareDictionary c).incrS (s.prepareDictionary c).gradS = s.slopeS c := by
    have e1 := congrArg (fun x => x.incrS) h1
    have e2 := congrArg (fun x => x.gradS) h1
    simp only at e1 e2
    rw [e1, e2]; rfl
  have h4 : (s.prepareDictionary c).S = s.S := by
    have e1 := congrArg (fun x => x.S) h1
    exact e1
  have h5 : (s.prepareDictionary c).fSMem = s.fSMem := by
    have e1 := congrArg (fun x => x.fSMem) h1
    exact e1
  simp only [h2]
  change ((lineSearch c.ls (dictionaryTrial c) (s.prepareDictionary c).fSMem
    { s.prepareDictionary c with SOld := (s.prepareDictionary c).S } (s.objective c)
    (mulSum (s.prepareDictionary c).incrS (s.prepareDictionary c).gradS) >>=
    fun r => _) >>= fun r => _) = _
  rw [h4, h5, h1, h3]
  cases h : lineSearch c.ls (dictionaryTrial c) s.fSMem (s.dictStart c) (s.objective c)
    (s.slopeS c) with
  | ok r => rfl
  | raise e => rfl
  | diverge => rfl

theorem updateParameters_eq {c : MTDConfig p K} {s : MTDState T D k p K} (hg : s.Good c)
    (hT : T ≠ c.maxLag) :
    s.updateParameters c =
      (lineSearch c.ls (parametersTrial c) s.fParametersMem (s.paramsStart c) (s.objective c)
        (s.slopeP c) >>= fun r =>
      let s := updateParametersGradient c { r.state with fParametersMem := r.mem }
      Py.ok { s with
        alphaParameters := nextSpgAlpha
          (r.stepSize * (vecMulSum s.incrOrderWeights
              (s.gradOrderWeights - r.state.gradOrderWeights) +
            mulSum3 s.incrTransitionMatrices
              (s.gradTransitionMatrices - r.state.gradTransitionMatrices)))
          (r.stepSize ^ 2 * (vecMulSum s.incrOrderWeights s.incrOrderWeights +
            mulSum3 s.incrTransitionMatrices s.incrTransitionMatrices))
          c.ls.alphaMin c.ls.alphaMax }) := by
  unfold updateParameters finishParameters parametersLineSearch
  rw [if_neg hT]
  have h1 := prepareParameters_eq hg
  have h2 : (s.prepareParameters c).evaluateCost c = s.objective c := objective_of hg.SSt rfl
  have h3 : vecMulSum (s.prepareParameters c).incrOrderWeights
      (s.prepareParameters c).gradOrderWeights +
      mulSum3 (s.prepareParameters c).incrTransitionMatrices
      (s.prepareParameters c).gradTransitionMatrices = s.slopeP c := by
    have e1 := congrArg (fun x => x.incrOrderWeights) h1
    have e2 := congrArg (fun x => x.gradOrderWeights) h1
    have e3 := congrArg (fun x => x.incrTransitionMatrices) h1
    have e4 := congrArg (fun x => x.gradTransitionMatrices) h1
    simp only at e1 e2 e3 e4
    rw [e1, e2, e3, e4]; rfl
  simp only [h2]
  change ((lineSearch c.ls (parametersTrial c) s.fParametersMem
    { s.prepareParameters c with
      orderWeightsOld := s.orderWeights, transitionMatricesOld := s.transitionMatrices }
    (s.objective c)
    (vecMulSum (s.prepareParameters c).incrOrderWeights (s.prepareParameters c).gradOrderWeights +
      mulSum3 (s.prepareParameters c).incrTransitionMatrices
        (s.prepareParameters c).gradTransitionMatrices) >>=
    fun r => _) >>= fun r => _) = _
  rw [h1, h3]
  cases h : lineSearch c.ls (parametersTrial c) s.fParametersMem (s.paramsStart c) (s.objective c)
    (s.slopeP c) with
  | ok r => rfl
  | raise e => rfl
  | diverge => rfl

/-! ### What completed updates guarantee -/

/-- What a completed weights update guarantees. -/
structure WeightsPost (c : MTDConfig p K) (s s' : MTDState T D k p K) (lam : K) : Prop where
  range : StepRange c.ls (s.slopeW c) lam
  X : s'.X = s.X
  S : s'.S = s.S
  orderWeights : s'.orderWeights = s.orderWeights
  transitionMatrices : s'.transitionMatrices = s.transitionMatrices
  good : s'.Good c
  Gamma : s'.Gamma = s.Gamma + lam • s.dirW c
  alphaS : s'.alphaS = s.alphaS
  alphaParameters : s'.alphaParameters = s.alphaParameters
  fSMem : s'.fSMem = s.fSMem
  fParametersMem : s'.fParametersMem = s.fParametersMem
  fGammaMem : s'.fGammaMem = s.fGammaMem.tail ++ [s.objective c]
  memNe : s.fGammaMem ≠ []
  alpha : ∃ beta sksk, 0 ≤ sksk ∧ s'.alphaGamma = nextSpgAlpha beta sksk c.ls.alphaMin c.ls.alphaMax
  accept : (∃ fMax ∈ s'.fGammaMem, (∀ f ∈ s'.fGammaMem, f ≤ fMax) ∧
      s'.objective c ≤ fMax + c.ls.gamma * lam * s.slopeW c) ∨ |lam| < c.ls.stepSizeTolerance

/-- What a completed dictionary update guarantees. -/
structure DictPost (c : MTDConfig p K) (s s' : MTDState T D k p K) (lam : K) : Prop where
  range : StepRange c.ls (s.slopeS c) lam
  X : s'.X = s.X
  Gamma : s'.Gamma = s.Gamma
  orderWeights : s'.orderWeights = s.orderWeights
  transitionMatrices : s'.transitionMatrices = s.transitionMatrices
  good : s'.Good c
  S : s'.S = s.S + lam • (-(s.alphaS • gradSOf c.epsilonStates s.X s.Gamma s.S))
  alphaGamma : s'.alphaGamma = s.alphaGamma
  alphaParameters : s'.alphaParameters = s.alphaParameters
  fGammaMem : s'.fGammaMem = s.fGammaMem
  fParametersMem : s'.fParametersMem = s.fParametersMem
  fSMem : s'.fSMem = s.fSMem.tail ++ [s.objective c]
  memNe : s.fSMem ≠ []
  alpha : ∃ beta sksk, 0 ≤ sksk ∧ s'.alphaS = nextSpgAlpha beta sksk c.ls.alphaMin c.ls.alphaMax
  accept : (∃ fMax ∈ s'.fSMem, (∀ f ∈ s'.fSMem, f ≤ fMax) ∧
      s'.objective c ≤ fMax + c.ls.gamma * lam * s.slopeS c) ∨ |lam| < c.ls.stepSizeTolerance

/-- What a completed parameters update guarantees. -/
structure ParamsPost (c : MTDConfig p K) (s s' : MTDState T D k p K) (lam : K) : Prop where
  range : StepRange c.ls (s.slopeP c) lam
  X : s'.X = s.X
  Gamma : s'.Gamma = s.Gamma
  S : s'.S = s.S
  good : s'.Good c
  orderWeights : s'.orderWeights = s.orderWeights + lam • s.dirOW c
  transitionMatrices : s'.transitionMatrices = s.transitionMatrices + lam • s.dirTM c
  alphaGamma : s'.alphaGamma = s.alphaGamma
  alphaS : s'.alphaS = s.alphaS
  fGammaMem : s'.fGammaMem = s.fGammaMem
  fSMem : s'.fSMem = s.fSMem
  fParametersMem : s'.fParametersMem = s.fParametersMem.tail ++ [s.objective c]
  memNe : s.fParametersMem ≠ []
  alpha : ∃ beta sksk, 0 ≤ sksk ∧ s'.alphaParameters = nextSpgAlpha beta sksk c.ls.alphaMin c.ls.alphaMax
  accept : (∃ fMax ∈ s'.fParametersMem, (∀ f ∈ s'.fParametersMem, f ≤ fMax) ∧
      s'.objective c ≤ fMax + c.ls.gamma * lam * s.slopeP c) ∨ |lam| < c.ls.stepSizeTolerance

theorem updateWeights_ok_ne {c : MTDConfig p K} {s s' : MTDState T D k p K}
    (h : s.updateWeights c = Py.ok s') : T ≠ c.maxLag := by
  unfold updateWeights at h
  by_contra hT
  rw [if_pos hT] at h
  simp at h

theorem updateParameters_ok_ne {c : MTDConfig p K} {s s' : MTDState T D k p K}
    (h : s.updateParameters c = Py.ok s') : T ≠ c.maxLag := by
  unfold updateParameters at h
  by_contra hT
  rw [if_pos hT] at h
  simp at h

theorem updateWeights_post {c : MTDConfig p K} {s s' : MTDState T D k p K} (hg : s.Good c)
    (h : s.updateWeights c = Py.ok s') : ∃ lam, WeightsPost c s s' lam := by
  rw [updateWeights_eq hg (updateWeights_ok_ne h)] at h
  obtain ⟨r, hr, h⟩ := Py.bind_eq_ok.1 h
  simp only [Py.ok.injEq] at h
  obtain ⟨ha, hc, hd, he, hf⟩ := lineSearch_spec (weightsTrial_retriable c) hr
  have hcost : (weightsTrial c (s.weightsStart c) r.stepSize).2 = r.cost := congrArg Prod.snd he
  have hstate : (weightsTrial c (s.weightsStart c) r.stepSize).1 = r.state := congrArg Prod.fst he
  rw [weightsTrial_cost] at hcost
  rw [← hstate] at h
  subst h
  refine ⟨r.stepSize, ⟨ha, rfl, rfl, rfl, rfl, ⟨rfl, rfl⟩, rfl, rfl, rfl, rfl, rfl, hc, hd,
    ⟨_, _, mul_nonneg (sq_nonneg _) (GPNHState.mulSum_self_nonneg _), rfl⟩,
    ?_⟩⟩
  rcases hf with ⟨M, hM, hM2, hM3⟩ | hf
  · refine Or.inl ⟨M, ?_, ?_, ?_⟩
    · show M ∈ r.mem
      rw [hc]; exact hM
    · show ∀ f ∈ r.mem, f ≤ M
      rw [hc]; exact hM2
    · rw [← hcost] at hM3
      rw [mul_right_comm]
      exact hM3
  · exact Or.inr hf

theorem updateDictionary_post {c : MTDConfig p K} {s s' : MTDState T D k p K} (hg : s.Good c)
    (h : s.updateDictionary c = Py.ok s') : ∃ lam, DictPost c s s' lam := by
  rw [updateDictionary_eq hg] at h
  obtain ⟨r, hr, h⟩ := Py.bind_eq_ok.1 h
  simp only [Py.ok.injEq] at h
  obtain ⟨ha, hc, hd, he, hf⟩ := lineSearch_spec (dictionaryTrial_retriable c) hr
  have hcost : (dictionaryTrial c (s.dictStart c) r.stepSize).2 = r.cost := congrArg Prod.snd he
  have hstate : (dictionaryTrial c (s.dictStart c) r.stepSize).1 = r.state := congrArg Prod.fst he
  rw [dictionaryTrial_cost hg] at hcost
  rw [← hstate] at h
  unfold updateDictionaryGradient at h
  rw [GPNHState.updateDictionaryGradient_eq] at h
  subst h
  refine ⟨r.stepSize, ⟨ha, rfl, rfl, rfl, rfl, ⟨rfl, hg.Z⟩, rfl, rfl, rfl, rfl, rfl, hc, hd,
    ⟨_, _, mul_nonneg (sq_nonneg _) (GPNHState.mulSum_self_nonneg _), rfl⟩,
    ?_⟩⟩
  rcases hf with ⟨M, hM, hM2, hM3⟩ | hf
  · refine Or.inl ⟨M, ?_, ?_, ?_⟩
    · show M ∈ r.mem
      rw [hc]; exact hM
    · show ∀ f ∈ r.mem, f ≤ M
      rw [hc]; exact hM2
    · rw [← hcost] at hM3
      rw [mul_right_comm]
      exact hM3
  · exact Or.inr hf

theorem vecMulSum_self_nonneg {n : ℕ} (v : Fin n → K) : 0 ≤ vecMulSum v v :=
  Finset.sum_nonneg fun _ _ => mul_self_nonneg _

theorem mulSum3_self_nonneg (A : Fin p → Matrix (Fin k) (Fin k) K) : 0 ≤ mulSum3 A A :=
  Finset.sum_nonneg fun _ _ => GPNHState.mulSum_self_nonneg _

theorem updateParameters_post {c : MTDConfig p K} {s s' : MTDState T D k p K} (hg : s.Good c)
    (h : s.updateParameters c = Py.ok s') : ∃ lam, ParamsPost c s s' lam := by
  rw [updateParameters_eq hg (updateParameters_ok_ne h)] at h
  obtain ⟨r, hr, h⟩ := Py.bind_eq_ok.1 h
  simp only [Py.ok.injEq] at h
  obtain ⟨ha, hc, hd, he, hf⟩ := lineSearch_spec (parametersTrial_retriable c) hr
  have hcost : (parametersTrial c (s.paramsStart c) r.stepSize).2 = r.cost := congrArg Prod.snd he
  have hstate : (parametersTrial c (s.paramsStart c) r.stepSize).1 = r.state := congrArg Prod.fst he
  rw [parametersTrial_cost hg] at hcost
  rw [← hstate] at h
  subst h
  refine ⟨r.stepSize, ⟨ha, rfl, rfl, rfl, ⟨hg.SSt, rfl⟩, rfl, rfl, rfl, rfl, rfl, rfl, hc, hd,
    ⟨_, _, mul_nonneg (sq_nonneg _) (add_nonneg (vecMulSum_self_nonneg _) (mulSum3_self_nonneg _)), rfl⟩,
    ?_⟩⟩
  rcases hf with ⟨M, hM, hM2, hM3⟩ | hf
  · refine Or.inl ⟨M, ?_, ?_, ?_⟩
    · show M ∈ r.mem
      rw [hc]; exact hM
    · show ∀ f ∈ r.mem, f ≤ M
      rw [hc]; exact hM2
    · rw [← hcost] at hM3
      rw [mul_right_comm]
      exact hM3
  · exact Or.inr hf

theorem WeightsPost.pos {c : MTDConfig p K} {s s' : MTDState T D k p K} {lam : K}
    (h : WeightsPost c s s' lam) (h1 : 0 < c.ls.sigmaOne) (_ : c.ls.sigmaTwo < 1) : 0 < lam :=
  h.range.pos_sigma h1

theorem WeightsPost.le {c : MTDConfig p K} {s s' : MTDState T D k p K} {lam : K}
    (h : WeightsPost c s s' lam) (h1 : 0 < c.ls.sigmaOne) (h2 : c.ls.sigmaTwo < 1) : lam ≤ 1 :=
  h.range.le h1 h2

theorem DictPost.pos {c : MTDConfig p K} {s s' : MTDState T D k p K} {lam : K}
    (h : DictPost c s s' lam) (h1 : 0 < c.ls.sigmaOne) (_ : c.ls.sigmaTwo < 1) : 0 < lam :=
  h.range.pos_sigma h1

theorem DictPost.le {c : MTDConfig p K} {s s' : MTDState T D k p K} {lam : K}
    (h : DictPost c s s' lam) (h1 : 0 < c.ls.sigmaOne) (h2 : c.ls.sigmaTwo < 1) : lam ≤ 1 :=
  h.range.le h1 h2

theorem ParamsPost.pos {c : MTDConfig p K} {s s' : MTDState T D k p K} {lam : K}
    (h : ParamsPost c s s' lam) (h1 : 0 < c.ls.sigmaOne) (_ : c.ls.sigmaTwo < 1) : 0 < lam :=
  h.range.pos_sigma h1

theorem ParamsPost.le {c : MTDConfig p K} {s s' : MTDState T D k p K} {lam : K}
    (h : ParamsPost c s s' lam) (h1 : 0 < c.ls.sigmaOne) (h2 : c.ls.sigmaTwo < 1) : lam ≤ 1 :=
  h.range.le h1 h2

/-! ### Errors and termination -/

theorem updateWeights_raise {c : MTDConfig p K} {s : MTDState T D k p K} (hg : s.Good c)
    {e : PyErr} (h : s.updateWeights c = Py.raise e) :
    (s.fGammaMem = [] ∧ e = .indexError) ∨ (T = c.maxLag ∧ e = .nonFinite) := by
  by_cases hT : T = c.maxLag
  · unfold updateWeights at h
    rw [if_pos hT] at h
    simp only [Py.raise.injEq] at h
    exact Or.inr ⟨hT, h.symm⟩
  · rw [updateWeights_eq hg hT] at h
    rcases Py.bind_eq_raise.1 h with h | ⟨_, _, h⟩
    · exact Or.inl (lineSearch_no_raise h)
    · simp at h

theorem updateDictionary_raise {c : MTDConfig p K} {s : MTDState T D k p K} (hg : s.Good c)
    {e : PyErr} (h : s.updateDictionary c = Py.raise e) : s.fSMem = [] ∧ e = .indexError := by
  rw [updateDictionary_eq hg] at h
  rcases Py.bind_eq_raise.1 h with h | ⟨_, _, h⟩
  · exact lineSearch_no_raise h
  · simp at h

theorem updateParameters_raise {c : MTDConfig p K} {s : MTDState T D k p K} (hg : s.Good c)
    {e : PyErr} (h : s.updateParameters c = Py.raise e) :
    (s.fParametersMem = [] ∧ e = .indexError) ∨ (T = c.maxLag ∧ e = .nonFinite) := by
  by_cases hT : T = c.maxLag
  · unfold updateParameters at h
    rw [if_pos hT] at h
    simp only [Py.raise.injEq] at h
    exact Or.inr ⟨hT, h.symm⟩
  · rw [updateParameters_eq hg hT] at h
    rcases Py.bind_eq_raise.1 h with h | ⟨_, _, h⟩
    · exact Or.inl (lineSearch_no_raise h)
    · simp at h

theorem updateWeights_terminates {c : MTDConfig p K} {s : MTDState T D k p K} (hg : s.Good c)
    (hT : T ≠ c.maxLag) (h1 : 0 < c.ls.sigmaOne) {N : ℕ}
    (hN : shrink c.ls.sigmaTwo ^ (N + 1) < c.ls.stepSizeTolerance) (hm : s.fGammaMem ≠ []) :
    ∃ s', s.updateWeights c = Py.ok s' := by
  rw [updateWeights_eq hg hT]
  obtain ⟨r, hr, -⟩ := lineSearch_terminates (trial := weightsTrial (T := T) (D := D) (k := k) c)
    h1 hm (s := s.weightsStart c) (f0 := s.objective c) (δ := s.slopeW c) N hN
  rw [hr]
  exact ⟨_, rfl⟩

theorem updateDictionary_terminates {c : MTDConfig p K} {s : MTDState T D k p K} (hg : s.Good c)
    (h1 : 0 < c.ls.sigmaOne) {N : ℕ}
    (hN : shrink c.ls.sigmaTwo ^ (N + 1) < c.ls.stepSizeTolerance) (hm : s.fSMem ≠ []) :
    ∃ s', s.updateDictionary c = Py.ok s' := by
  rw [updateDictionary_eq hg]
  obtain ⟨r, hr, -⟩ := lineSearch_terminates (trial := dictionaryTrial (T := T) (D := D) (k := k) c)
    h1 hm (s := s.dictStart c) (f0 := s.objective c) (δ := s.slopeS c) N hN
  rw [hr]
  exact ⟨_, rfl⟩

theorem updateParameters_terminates {c : MTDConfig p K} {s : MTDState T D k p K} (hg : s.Good c)
    (hT : T ≠ c.maxLag) (h1 : 0 < c.ls.sigmaOne) {N : ℕ}
    (hN : shrink c.ls.sigmaTwo ^ (N + 1) < c.ls.stepSizeTolerance) (hm : s.fParametersMem ≠ []) :
    ∃ s', s.updateParameters c = Py.ok s' := by
  rw [updateParameters_eq hg hT]
  obtain ⟨r, hr, -⟩ := lineSearch_terminates
    (trial := parametersTrial (T := T) (D := D) (k := k) c)
    h1 hm (s := s.paramsStart c) (f0 := s.objective c) (δ := s.slopeP c) N hN
  rw [hr]
  exact ⟨_, rfl⟩

end MTDState

end Reor
