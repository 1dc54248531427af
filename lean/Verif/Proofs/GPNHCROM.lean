import Verif.Model.GPNHCROM
import Verif.Proofs.Rel
import Verif.Proofs.MTDDescent
import Verif.Proofs.MTDForecast

/-!
The fit of the GPNH-CROM parameters runs in lock step with the parameter updates of an MTD fit whose
data and dictionary are zero and whose weights penalty has coefficient one.
-/

namespace Reor

open scoped BigOperators Matrix
open Reor.Spec

set_option linter.unusedSectionVars false

variable {K : Type} [Field K] [LinearOrder K] [IsStrictOrderedRing K]
variable {T k p : ℕ}

/-- The settings of the MTD fit. -/
def CROMConfig.toMTD (c : CROMConfig p K) : MTDConfig p K := ⟨c.lags, 0, 1, c.ls⟩

namespace CROMState

/-- The state of the MTD fit. -/
def toMTD (c : CROMConfig p K) (s : CROMState T k p K) : MTDState T 1 k p K :=
  { GPNHState.initializeWorkspace c.ls 0 s.Gamma 0 with
    orderWeights := s.orderWeights
    transitionMatrices := s.transitionMatrices
    Z := s.Z
    orderWeightsOld := s.orderWeightsOld
    gradOrderWeights := s.gradOrderWeights
    incrOrderWeights := s.incrOrderWeights
    transitionMatricesOld := s.transitionMatricesOld
    gradTransitionMatrices := s.gradTransitionMatrices
    incrTransitionMatrices := s.incrTransitionMatrices
    alphaParameters := s.alphaParameters
    fParametersMem := s.fParametersMem }

theorem toMTD_updatePredictedWeights (c : CROMConfig p K) (s : CROMState T k p K) :
    (s.toMTD c).updatePredictedWeights c.toMTD = (s.updatePredictedWeights c).toMTD c := rfl

theorem toMTD_initializeWorkspace (c : CROMConfig p K) (W : Matrix (Fin T) (Fin k) K)
    (w : Fin p → K) (A : Fin p → Matrix (Fin k) (Fin k) K) :
    MTDState.initializeWorkspace c.toMTD 0 W 0 w A = (initializeWorkspace c W w A).toMTD c := rfl

theorem toMTD_evaluateCost (c : CROMConfig p K) (s : CROMState T k p K) :
    (s.toMTD c).evaluateCost c.toMTD = s.evaluateFitResidual c := by
  have hl : (s.toMTD c).evaluateLossFunction = 0 := by
    simp [GPNHState.evaluateLossFunction, toMTD, GPNHState.initializeWorkspace, normSq]
  have hd : (s.toMTD c).evaluateDictionaryPenalty c.toMTD.epsilonStates = 0 := by
    simp [GPNHState.evaluateDictionaryPenalty, toMTD, CROMConfig.toMTD,
      GPNHState.initializeWorkspace]
  unfold MTDState.evaluateCost
  rw [hl, hd, zero_add, zero_add]
  unfold MTDState.evaluateWeightsPenalty evaluateFitResidual
  by_cases hk : k = 1
  · rw [if_pos hk, if_pos hk]
  · rw [if_neg hk, if_neg hk]
    change 1 * _ * _ = _
    rw [one_mul]
    rfl

theorem toMTD_updateParametersGradient (c : CROMConfig p K) (s : CROMState T k p K) :
    (s.toMTD c).updateParametersGradient c.toMTD = (s.updateParametersGradient c).toMTD c := by
  have h : -2 * c.toMTD.epsilonWeights * (s.toMTD c).weightsNormalization c.toMTD =
      -2 * s.normalization c := by
    change -2 * 1 * _ = _
    rw [mul_one]
    rfl
  unfold MTDState.updateParametersGradient
  simp only [h]
  rfl

theorem toMTD_prepareParameters (c : CROMConfig p K) (s : CROMState T k p K) :
    (s.toMTD c).prepareParameters c.toMTD = (s.prepareParameters c).toMTD c := by
  unfold MTDState.prepareParameters prepareParameters
  simp only [toMTD_updatePredictedWeights, toMTD_updateParametersGradient]
  rfl

theorem toMTD_parametersTrial (c : CROMConfig p K) (s : CROMState T k p K) (x : K) :
    (s.toMTD c).parametersTrial c.toMTD x =
      ((s.parametersTrial c x).1.toMTD c, (s.parametersTrial c x).2) := by
  have h : ((s.toMTD c).parametersTrial c.toMTD x).1 = (s.parametersTrial c x).1.toMTD c := rfl
  refine Prod.ext h ?_
  change ((s.toMTD c).parametersTrial c.toMTD x).1.evaluateCost c.toMTD = _
  rw [h, toMTD_evaluateCost]
  rfl

theorem toMTD_parametersLineSearch (c : CROMConfig p K) (s : CROMState T k p K) :
    PyRel (fun a b => b = (a.1.toMTD c, a.2)) (s.parametersLineSearch c)
      ((s.toMTD c).parametersLineSearch c.toMTD) := by
  unfold parametersLineSearch MTDState.parametersLineSearch
  rw [toMTD_evaluateCost]
  refine (lineSearch_rel (R := fun a b => b = a.toMTD c) ?_ ?_).bind ?_
  · rintro s t x rfl
    rw [toMTD_parametersTrial]
    exact ⟨rfl, rfl⟩
  · rfl
  · rintro ⟨m1, l1, s1, c1, n1⟩ ⟨m2, l2, s2, c2, n2⟩ ⟨h1, h2, h3, -⟩
    simp only at h1 h2 h3
    subst h1; subst h2; subst h3
    rfl

theorem toMTD_updateParameters (c : CROMConfig p K) (s : CROMState T k p K) :
    PyRel (fun a b => b = a.toMTD c) (s.updateParameters c)
      ((s.toMTD c).updateParameters c.toMTD) := by
  unfold updateParameters MTDState.updateParameters
  by_cases hT : T = c.maxLag
  · rw [if_pos hT, if_pos (show T = c.toMTD.maxLag from hT)]
    rfl
  · rw [if_neg hT, if_neg (show T ≠ c.toMTD.maxLag from hT), toMTD_prepareParameters]
    unfold finishParameters MTDState.finishParameters
    refine (toMTD_parametersLineSearch c _).bind ?_
    rintro ⟨s1, l1⟩ b rfl
    simp only [toMTD_updateParametersGradient]
    rfl

end CROMState

/-- The point the MTD fit starts from. -/
def cromPoint (W : Matrix (Fin T) (Fin k) K) (w : Fin p → K)
    (A : Fin p → Matrix (Fin k) (Fin k) K) : MTDPoint T 1 k p K := (0, W, w, A)

theorem cromSolve_rel (hT : T ≠ 0) {c : CROMConfig p K}
    (hlag : ¬ ((∃ i, c.lags i = 0) ∧ c.maxLag < T)) {require : Bool} {tol : K} {maxIter : ℕ}
    (W : Matrix (Fin T) (Fin k) K) (w : Fin p → K) (A : Fin p → Matrix (Fin k) (Fin k) K) :
    PyRel (fun r r' => r'.state = r.state.toMTD c ∧ r.cost = r'.cost ∧ r.nIter = r'.nIter ∧
          r.trace = r'.trace)
      (cromSolve c require tol maxIter W w A)
      (mtdSolve c.toMTD require tol maxIter ⟨false, false, true⟩ 0 (cromPoint W w A)) := by
  unfold cromSolve mtdSolve
  by_cases hp : p = 0
  · rw [if_pos hp, if_pos hp]; rfl
  rw [if_neg hp, if_neg hp, if_neg hlag]
  unfold mtdIterate
  rw [if_neg (show ¬ 1 * T = 0 by omega)]
  by_cases hk : k ≠ 1 ∧ T = c.maxLag
  · rw [if_pos hk, if_pos (show k ≠ 1 ∧ T = c.toMTD.maxLag from hk)]; rfl
  rw [if_neg hk, if_neg (show ¬ (k ≠ 1 ∧ T = c.toMTD.maxLag) from hk)]
  refine (iterate_rel (R := fun (a : CROMState T k p K) b => b = a.toMTD c) ?_ ?_ ?_)
  · rintro s t rfl
    exact ⟨rfl, (CROMState.toMTD_evaluateCost c s).symm⟩
  · refine List.Forall₂.cons ?_ List.Forall₂.nil
    rintro s t rfl
    exact CROMState.toMTD_updateParameters c s
  · rfl

/-- What a finished fit of the parameters says about the MTD fit. -/
theorem cromSolve_ok (hT : T ≠ 0) {c : CROMConfig p K} {require : Bool} {tol : K} {maxIter : ℕ}
    {W : Matrix (Fin T) (Fin k) K} {w : Fin p → K} {A : Fin p → Matrix (Fin k) (Fin k) K}
    {r : IterResult (CROMState T k p K) K}
    (h : cromSolve c require tol maxIter W w A = Py.ok r) :
    p ≠ 0 ∧ ¬ ((∃ i, c.lags i = 0) ∧ c.maxLag < T) ∧
    ∃ r', mtdSolve c.toMTD require tol maxIter ⟨false, false, true⟩ 0 (cromPoint W w A) =
        Py.ok r' ∧
      r'.state = r.state.toMTD c ∧ r.cost = r'.cost ∧ r.nIter = r'.nIter ∧ r.trace = r'.trace := by
  have hp : p ≠ 0 := by
    intro hp
    unfold cromSolve at h
    rw [if_pos hp] at h
    simp at h
  have hlag : ¬ ((∃ i, c.lags i = 0) ∧ c.maxLag < T) := by
    intro hl
    unfold cromSolve at h
    rw [if_neg hp, if_pos hl] at h
    simp at h
  refine ⟨hp, hlag, ?_⟩
  have := cromSolve_rel hT hlag (require := require) (tol := tol) (maxIter := maxIter) W w A
  rw [h] at this
  cases hr : mtdSolve c.toMTD require tol maxIter ⟨false, false, true⟩ 0 (cromPoint W w A) with
  | ok r' =>
    rw [hr] at this
    exact ⟨r', rfl, this⟩
  | raise e => rw [hr] at this; exact this.elim
  | diverge => rw [hr] at this; exact this.elim

theorem mtdCost_crom (lags : Fin p → ℕ) (W : Matrix (Fin T) (Fin k) K) (w : Fin p → K)
    (A : Fin p → Matrix (Fin k) (Fin k) K) :
    mtdCost 0 1 lags (0 : Matrix (Fin T) (Fin 1) K) W 0 w A = mtdPenalty 1 lags W w A := by
  unfold mtdCost
  rw [MTDState.gpnhCost_zero_zero, zero_add]

theorem cromSolve_facts (hT : T ≠ 0) {c : CROMConfig p K} {require : Bool} {tol : K}
    {maxIter : ℕ} {W : Matrix (Fin T) (Fin k) K} {w : Fin p → K}
    {A : Fin p → Matrix (Fin k) (Fin k) K} {r : IterResult (CROMState T k p K) K}
    (h : cromSolve c require tol maxIter W w A = Py.ok r) :
    r.state.Gamma = W ∧
    r.cost = mtdPenalty 1 c.lags W r.state.orderWeights r.state.transitionMatrices ∧
    (require = true → (mtdPenalty 1 c.lags W w A :: r.trace).IsChain (· ≥ ·) ∧
      r.cost ≤ mtdPenalty 1 c.lags W w A) ∧
    (c.ls.Safe → 1 ≤ k → IsProb w → (∀ i, ColStochastic (A i)) →
      IsProb r.state.orderWeights ∧ ∀ i, ColStochastic (r.state.transitionMatrices i)) := by
  obtain ⟨hp, hlag, r', hr', hs, hc, -, ht⟩ := cromSolve_ok hT h
  obtain ⟨hg, hk⟩ := mtdSolve_keeps hr'
  have hG : r.state.Gamma = W := by
    have := hk.Gamma rfl
    rw [hs] at this
    exact this
  refine ⟨hG, ?_, ?_, ?_⟩
  · have h1 := mtdSolve_cost hr'
    have h2 : r'.state.S = 0 := hk.S rfl
    rw [h2, hs] at h1
    rw [hc, h1, ← hG]
    exact mtdCost_crom _ _ _ _
  · rintro rfl
    have h1 := mtdSolve_monotone hr'
    have h2 : mtdObjectiveAt c.toMTD 0 (cromPoint W w A) = mtdPenalty 1 c.lags W w A :=
      mtdCost_crom _ _ _ _
    rw [h2] at h1
    rw [ht, hc]
    exact h1
  · intro h1 hk1 hw hA
    have h3 := mtdSolve_params_stochastic (c := c.toMTD) h1 hk1 ⟨hw, hA⟩ hr'
    rw [hs] at h3
    exact h3

/-! ### Errors and termination -/

namespace CROMState

theorem toMTD_good {c : CROMConfig p K} {s : CROMState T k p K}
    (hZ : s.Z = cromPredictedWeights c.lags c.maxLag s.Gamma s.orderWeights s.transitionMatrices) :
    (s.toMTD c).Good c.toMTD := ⟨rfl, hZ⟩

/-- One finished update, seen as an update of the MTD fit. -/
theorem updateParameters_ok {c : CROMConfig p K} {s s' : CROMState T k p K}
    (h : s.updateParameters c = Py.ok s') :
    (s.toMTD c).updateParameters c.toMTD = Py.ok (s'.toMTD c) := by
  have := toMTD_updateParameters c s
  rw [h] at this
  cases hr : (s.toMTD c).updateParameters c.toMTD with
  | ok r' =>
    rw [hr] at this
    exact congrArg Py.ok this
  | raise e => rw [hr] at this; exact this.elim
  | diverge => rw [hr] at this; exact this.elim

theorem updateParameters_of_ok {c : CROMConfig p K} {s : CROMState T k p K}
    {t : MTDState T 1 k p K} (h : (s.toMTD c).updateParameters c.toMTD = Py.ok t) :
    ∃ s', s.updateParameters c = Py.ok s' ∧ t = s'.toMTD c := by
  have := toMTD_updateParameters c s
  rw [h] at this
  cases hr : s.updateParameters c with
  | ok r' =>
    rw [hr] at this
    exact ⟨r', rfl, this⟩
  | raise e => rw [hr] at this; exact this.elim
  | diverge => rw [hr] at this; exact this.elim

end CROMState

theorem cromSolve_of_ok (hT : T ≠ 0) {c : CROMConfig p K}
    (hlag : ¬ ((∃ i, c.lags i = 0) ∧ c.maxLag < T)) {require : Bool} {tol : K} {maxIter : ℕ}
    {W : Matrix (Fin T) (Fin k) K} {w : Fin p → K} {A : Fin p → Matrix (Fin k) (Fin k) K}
    {r' : IterResult (MTDState T 1 k p K) K}
    (h : mtdSolve c.toMTD require tol maxIter ⟨false, false, true⟩ 0 (cromPoint W w A) =
      Py.ok r') : ∃ r, cromSolve c require tol maxIter W w A = Py.ok r := by
  have := cromSolve_rel hT hlag (require := require) (tol := tol) (maxIter := maxIter) W w A
  rw [h] at this
  cases hr : cromSolve c require tol maxIter W w A with
  | ok r => exact ⟨r, rfl⟩
  | raise e => rw [hr] at this; exact this.elim
  | diverge => rw [hr] at this; exact this.elim

theorem cromSolve_raise (hp : p ≠ 0) (hT : T ≠ 0) {c : CROMConfig p K}
    (hlag : ¬ ((∃ i, c.lags i = 0) ∧ c.maxLag < T)) {require : Bool} {tol : K} {maxIter : ℕ}
    (hm : 0 < maxIter)
    {W : Matrix (Fin T) (Fin k) K} {w : Fin p → K} {A : Fin p → Matrix (Fin k) (Fin k) K}
    {e : PyErr} (h : cromSolve c require tol maxIter W w A = Py.raise e) :
    e = .zeroDivisionError ∨ e = .nonFinite ∨ e = .indexError ∨ e = .runtimeError := by
  have := cromSolve_rel hT hlag (require := require) (tol := tol) (maxIter := maxIter) W w A
  rw [h] at this
  cases hr : mtdSolve c.toMTD require tol maxIter ⟨false, false, true⟩ 0 (cromPoint W w A) with
  | ok r => rw [hr] at this; exact this.elim
  | raise e' =>
    rw [hr] at this
    have he : e = e' := this
    subst he
    exact mtdSolve_raise hp hm hr
  | diverge => rw [hr] at this; exact this.elim

theorem cromSolve_succeeds [Archimedean K] {c : CROMConfig p K} (hlag : ∀ i, 1 ≤ c.lags i)
    (h1 : 0 < c.ls.sigmaOne) (h2 : c.ls.sigmaTwo < 1) (hg0 : 0 ≤ c.ls.gamma) (hg1 : c.ls.gamma < 1)
    (ht : c.ls.stepSizeTolerance = 0) (ha0 : 0 < c.ls.alphaMin) (ha1 : c.ls.alphaMin ≤ c.ls.alphaMax)
    (hmem : c.ls.memory = 1) (hk : 1 ≤ k) (hp : 1 ≤ p) (hT0 : T ≠ 0)
    (hT : T ≠ c.maxLag) {require : Bool} {tol : K} {maxIter : ℕ} (hm : 0 < maxIter)
    {W : Matrix (Fin T) (Fin k) K} {w : Fin p → K} {A : Fin p → Matrix (Fin k) (Fin k) K}
    (hW : RowStochastic W) (hw : IsProb w) (hA : ∀ i, ColStochastic (A i)) :
    ∃ r, cromSolve c require tol maxIter W w A = Py.ok r := by
  obtain ⟨r, hr⟩ := mtdSolve_succeeds (c := c.toMTD) (D := 1) (T := T) (k := k) hlag h1 h2 hg0 hg1
    ht ha0 ha1 hmem hk hp (fl := ⟨false, false, true⟩) (by omega) hT (require := require)
    (tol := tol) hm (X := 0) (pt := cromPoint W w A) hW hw hA
  refine cromSolve_of_ok hT0 ?_ hr
  rintro ⟨⟨i, hi⟩, -⟩
  have := hlag i
  omega

/-! ### The estimator -/

theorem cromFitTransform_eq_ok {env : Env K} {obj : CROMObj env.rng p} {data : Arr2 K}
    {dictionary weights : Option (Arr2 K)} {kw : InitKwargs} {ud uw : Bool}
    {res : CROMObj env.rng p × Option (Arr2 K) × FitInfo K}
    (h : cromFitTransform env obj data dictionary weights kw ud uw = Py.ok res) :
    ∃ (k maxIter : ℕ) (tol : K) (o : GPNHObj env.rng) (info : FitInfo K)
      (W : Matrix (Fin data.rows) (Fin k) K) (S : Matrix (Fin k) (Fin data.cols) K)
      (w0 : Fin p → K) (A0 : Fin p → Matrix (Fin k) (Fin k) K) (g1 g2 : env.rng.G)
      (r : IterResult (CROMState data.rows k p K) K),
      1 ≤ k ∧ data.rows ≠ 0 ∧ data.cols ≠ 0 ∧ 0 < maxIter ∧
      gpnhFitTransform env obj.base data dictionary weights kw ud uw =
        Py.ok (o, some (Arr2.of W), info) ∧
      o.Gamma = some (Arr2.of W) ∧ o.S = some (Arr2.of S) ∧ o.dictionary_ = some (Arr2.of S) ∧
      o.ls = obj.base.ls ∧ o.require = obj.base.require ∧ o.init = obj.base.init ∧
      o.nComponents = .int k ∧ o.maxIterations = obj.base.maxIterations ∧
      o.tolerance = obj.base.tolerance ∧
      mtdDrawOrderWeights env.rng p o.randomState = Py.ok (w0, g1) ∧
      mtdDrawTransitionMatrices env.rng k p g1 = Py.ok (A0, g2) ∧
      cromSolve obj.config obj.base.require tol maxIter W w0 A0 = Py.ok r ∧
      res = (⟨{ o with randomState := g2 }, obj.lags,
        some ⟨k, r.state.orderWeights, r.state.transitionMatrices⟩⟩, some (Arr2.of W), info) := by
  unfold cromFitTransform at h
  obtain ⟨⟨o, G, info⟩, ho, h⟩ := Py.bind_eq_ok.1 h
  obtain ⟨q, hq, h⟩ := Py.bind_eq_ok.1 h
  obtain ⟨o1, i1, ho1, hres⟩ := gpnhFitTransform_eq_ok ho
  obtain ⟨q1, start, r1, hq1, hst, hr1, hoi⟩ := gpnhConvexCoding_eq_ok ho1
  obtain ⟨-, hc, -, hk, hm, -⟩ := checkParams_ok hq1
  simp only [Prod.mk.injEq] at hres hoi
  obtain ⟨rfl, rfl, rfl⟩ := hres
  obtain ⟨rfl, rfl⟩ := hoi
  simp only at hq
  rw [hq1] at hq
  simp only [Py.ok.injEq] at hq
  subst hq
  simp only at h
  obtain ⟨f, hf, h⟩ := Py.bind_eq_ok.1 h
  unfold cromFitParameters at hf
  obtain ⟨w, hw, hf⟩ := Py.bind_eq_ok.1 hf
  obtain ⟨A, hA, hf⟩ := Py.bind_eq_ok.1 hf
  obtain ⟨r, hr, hf⟩ := Py.bind_eq_ok.1 hf
  simp only [Py.pure_eq, Py.ok.injEq] at hf h
  subst hf
  have hDT := (gpnhIterate_eq_ok.1 hr1).1
  exact ⟨q1.1, q1.2.1, q1.2.2, _, _, r1.state.Gamma, r1.state.S, w.1, A.1, w.2, A.2, r, hk,
    right_ne_zero_of_mul hDT, left_ne_zero_of_mul hDT, hm, ho, rfl, rfl, rfl, rfl, rfl, rfl, hc,
    rfl, rfl, hw, hA, hr, h.symm⟩

end Reor
