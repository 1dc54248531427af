import Verif.Props.MTDForecast
import Verif.Props.GPNHLimits

/-!
Inputs at which C38 and C42 fail as stated (settings of the line search outside
`SafeSteps`).
-/

namespace Reor

set_option linter.unusedSectionVars false

open scoped BigOperators Matrix
open Spec

variable {K : Type} [Field K] [LinearOrder K] [IsStrictOrderedRing K]
variable {T D k p : ℕ}

theorem mtdCost_zero_eps (e : K) (lags : Fin p → ℕ) (X : Matrix (Fin T) (Fin D) K)
    (W : Matrix (Fin T) (Fin k) K) (S : Matrix (Fin k) (Fin D) K) (w : Fin p → K)
    (A : Fin p → Matrix (Fin k) (Fin k) K) : mtdCost e 0 lags X W S w A = gpnhCost e X W S := by
  unfold mtdCost mtdPenalty
  simp

theorem mtdGradW_zero_eps (c : MTDConfig p K) (hc : c.epsilonWeights = 0)
    (X : Matrix (Fin T) (Fin D) K) (W : Matrix (Fin T) (Fin k) K) (S : Matrix (Fin k) (Fin D) K)
    (w : Fin p → K) (A : Fin p → Matrix (Fin k) (Fin k) K) :
    mtdGradW c X W S w A = gradWOf X W S := by
  unfold mtdGradW mtdGradPen mtdCoef
  rw [hc]
  simp

/-- A weights update without penalty whose full step is refused and whose second trial is below the
tolerance. -/
theorem MTDState.updateWeights_one_round {c : MTDConfig p K} {s : MTDState T D k p K}
    (hg : s.Good c) (hT : T ≠ c.maxLag) (hc : c.epsilonWeights = 0)
    {m : K} (hm : s.fGammaMem = [m]) {P : Matrix (Fin T) (Fin k) K}
    (hP : simplexProjectRows (s.Gamma - s.alphaGamma • gradWOf s.X s.Gamma s.S) = P)
    {f0 f1 δ step : K} (hf0 : gpnhCost c.epsilonStates s.X s.Gamma s.S = f0)
    (hf1 : gpnhCost c.epsilonStates s.X (s.Gamma + (1 : K) • (P - s.Gamma)) s.S = f1)
    (hδ : inner (P - s.Gamma) (gradWOf s.X s.Gamma s.S) = δ)
    (hrej : f0 + c.ls.gamma * δ < f1)
    (hstep : nextSpgStepLength 1 δ f0 f1 c.ls.sigmaOne c.ls.sigmaTwo = step)
    (hfl : |step| < c.ls.stepSizeTolerance) :
    ∃ s', s.updateWeights c = Py.ok s' ∧ s'.Gamma = s.Gamma + step • (P - s.Gamma) ∧
      s'.S = s.S ∧ s'.orderWeights = s.orderWeights ∧
      s'.transitionMatrices = s.transitionMatrices := by
  have hdir : s.dirW c = P - s.Gamma := by
    unfold MTDState.dirW
    rw [mtdGradW_zero_eps c hc, hP]
  have hobj : s.objective c = f0 := by
    unfold MTDState.objective
    rw [hc, mtdCost_zero_eps, hf0]
  have hsl : s.slopeW c = δ := by
    unfold MTDState.slopeW
    rw [mtdGradW_zero_eps c hc, hdir, hδ]
  rw [MTDState.updateWeights_eq hg hT, hm, hobj, hsl,
    lineSearch_one_round (f1 := f1) (step := step) ?_ hrej hstep hfl, Py.ok_bind]
  · refine ⟨_, rfl, ?_, rfl, rfl, rfl⟩
    show s.Gamma + step • s.dirW c = _
    rw [hdir]
  · rw [MTDState.weightsTrial_cost, hdir, hc, mtdCost_zero_eps, hf1]

/-- The settings of `wildObj`, with lag 1 and without regularisation. -/
def wildMTD : MTDObj cornerEnv.rng 1 :=
  { nComponents := .int 2, lags := ![1], epsilonStates := 0, epsilonWeights := 0, init := none
    tolerance := .real 0
    maxIterations := .int 1, randomState := cornerRng.ofSeed 0
    ls := ⟨1, 95/100, 1/1000, 1, 1/10, 10, 100⟩, require := false }

/-- Two equal samples. -/
def wildSeries : Matrix (Fin 2) (Fin 1) ℚ := !![2; 2]

/-- The parameters of the counterexample. -/
def wildOW : Fin 1 → ℚ := ![1]
def wildTM : Fin 1 → Matrix (Fin 2) (Fin 2) ℚ := ![1]

/-- The weights the fit returns. -/
def wildWeights : Matrix (Fin 2) (Fin 2) ℚ := !![-1, 2; -1, 2]

theorem wild_coding (obj : MTDObj cornerEnv.rng 1) (h1 : obj.nComponents = .int 2)
    (h2 : obj.config = wildMTD.config) (h3 : obj.init = none) (h4 : obj.tolerance = .real 0)
    (h5 : obj.maxIterations = .int 1) (h6 : obj.require = false) (args : MTDArgs ℚ)
    (a1 : args.dictionary = some (Arr2.of wildDict)) (a2 : args.orderWeights = some (Arr1.of wildOW))
    (a3 : args.transitionMatrices = some (Arr3.of wildTM)) :
    ∃ (info : FitInfo ℚ), mtdConvexCoding cornerEnv obj (Arr2.of wildSeries) args
      ⟨false, true, false⟩ {} =
      Py.ok ({ obj with vars := some ⟨2, 1, 2, wildWeights, wildDict, wildOW, wildTM⟩ }, info) := by
  have hp : checkParams (defaultComponents obj.nComponents 1) obj.maxIterations
      obj.tolerance = Py.ok (2, 1, 0) := by
    rw [h1, h4, h5]
    simp [checkParams, defaultComponents]
  have hst : mtdStart cornerEnv wildSeries 2 1 obj.init args ⟨false, true, false⟩ {}
      obj.randomState = Py.ok ((wildDict, !![1, 0; 1, 0], wildOW, wildTM), obj.randomState) := by
    have hw : ∀ g, rightStochasticMatrix cornerRng 2 2 g =
        Py.ok ((!![1, 0; 1, 0] : Matrix (Fin 2) (Fin 2) ℚ), g) := by
      intro g
      have e : ∀ i : Fin 2, ∑ j : Fin 2, (cornerRng.uniform 2 2 g).1 i j = 1 := by
        intro i; simp [cornerRng]
      unfold rightStochasticMatrix
      simp only [e]
      rw [if_neg (by simp)]
      congr 2
      ext i j
      fin_cases i <;> fin_cases j <;> simp [cornerRng]
    rw [h3]
    unfold mtdStart mtdStartDictionary mtdStartWeights mtdStartParameters mtdInitWeights
    rw [if_neg (by simp), a1, a2, a3]
    have hd : mtdCheckInitDictionary (some (Arr2.of wildDict)) 2 1 = Py.ok wildDict :=
      mtdCheckInitDictionary_of (k := 2) (D := 1) (by norm_num) (by norm_num) wildDict
    have ho : mtdCheckInitOrderWeights (some (Arr1.of wildOW)) 1 = Py.ok wildOW :=
      mtdCheckInitOrderWeights_of ⟨fun i => by fin_cases i; norm_num [wildOW], by simp [wildOW]⟩
    have ht : mtdCheckInitTransitionMatrices (some (Arr3.of wildTM)) 1 2 = Py.ok wildTM := by
      refine mtdCheckInitTransitionMatrices_of ?_
      intro i l
      fin_cases i
      refine ⟨fun j => ?_, ?_⟩
      · fin_cases l <;> fin_cases j <;> norm_num [wildTM]
      · fin_cases l <;> norm_num [wildTM, Fin.sum_univ_two]
    simp only [hd, ho, ht, Py.ok_bind, Py.pure_eq, Bool.false_eq_true, if_false, if_true]
    have hi : gpnhInitWeights cornerEnv 2 2 none {} obj.randomState =
        Py.ok ((!![1, 0; 1, 0] : Matrix (Fin 2) (Fin 2) ℚ), obj.randomState) := hw obj.randomState
    rw [hi]
    rfl
  have hgrad : gradWOf wildSeries !![1, 0; 1, 0] wildDict = !![0, -2; 0, -2] := by
    ext i j
    fin_cases i <;>
    fin_cases j <;>
      norm_num [gradWOf, wildSeries, wildDict, Matrix.mul_apply, Fin.sum_univ_two, Matrix.vecMul,
        dotProduct]
  have hproj : simplexProjectRows ((!![1, 0; 1, 0] : Matrix (Fin 2) (Fin 2) ℚ) -
      (1 : ℚ) • !![0, -2; 0, -2]) = !![0, 1; 0, 1] := by
    ext i j
    rw [show simplexProjectRows ((!![1, 0; 1, 0] : Matrix (Fin 2) (Fin 2) ℚ) -
      (1 : ℚ) • !![0, -2; 0, -2]) i j =
      _ from congrFun (projectRows_apply _ i) j, project_eq_of_threshold (by norm_num) _ 1]
    · fin_cases i <;>
      fin_cases j <;> norm_num
    · fin_cases i <;>
      norm_num [Fin.sum_univ_two]
  have hlag : wildMTD.config.maxLag = 1 := rfl
  obtain ⟨s', hu, hG, hS, hO, hA⟩ := MTDState.updateWeights_one_round (c := wildMTD.config)
    (s := mtdInitialState wildMTD.config wildSeries (wildDict, !![1, 0; 1, 0], wildOW, wildTM))
    (mtdInitialState_good _ _ _) (by rw [hlag]; norm_num) rfl (m := 0) rfl
    (P := !![0, 1; 0, 1]) (f0 := 4) (f1 := 1) (δ := -4) (step := 2)
    (by
      show simplexProjectRows (!![1, 0; 1, 0] - (1 : ℚ) • gradWOf wildSeries !![1, 0; 1, 0] wildDict)
        = _
      rw [hgrad, hproj])
    (by
      show gpnhCost 0 wildSeries !![1, 0; 1, 0] wildDict = 4
      norm_num [gpnhCost, wildSeries, wildDict, Fin.sum_univ_two])
    (by
      show gpnhCost 0 wildSeries (!![1, 0; 1, 0] + (1 : ℚ) • (!![0, 1; 0, 1] - !![1, 0; 1, 0]))
        wildDict = 1
      norm_num [gpnhCost, wildSeries, wildDict, Fin.sum_univ_two])
    (by
      show inner (!![0, 1; 0, 1] - !![1, 0; 1, 0]) (gradWOf wildSeries !![1, 0; 1, 0] wildDict) = -4
      rw [hgrad]
      norm_num [inner, Fin.sum_univ_two])
    (by norm_num [wildMTD, MTDObj.config])
    (by norm_num [wildMTD, MTDObj.config, nextSpgStepLength])
    (by norm_num [wildMTD, MTDObj.config])
  obtain ⟨r, hr, hrs⟩ := iterate_once (evalCost := fun s => (s, s.evaluateCost wildMTD.config))
    (tol := 0) hu
  have hr' : mtdSolve obj.config obj.require 0 1 ⟨false, true, false⟩ wildSeries
      (wildDict, !![1, 0; 1, 0], wildOW, wildTM) = Py.ok r := by
    rw [h2, h6]
    unfold mtdSolve mtdIterate
    rw [if_neg (by norm_num), if_neg (by norm_num), if_neg (by rw [hlag]; norm_num)]
    exact hr
  have hfit := mtdConvexCoding_of_steps (env := cornerEnv) (obj := obj)
    (data := Arr2.of wildSeries) (q := (2, 1, 0)) (args := args) (fl := ⟨false, true, false⟩)
    (kw := {}) hp hst hr'
  have hG' : r.state.Gamma = wildWeights := by
    rw [hrs]
    show s'.Gamma = _
    rw [hG]
    show (!![1, 0; 1, 0] : Matrix (Fin 2) (Fin 2) ℚ) + (2 : ℚ) • (!![0, 1; 0, 1] - !![1, 0; 1, 0]) =
      !![-1, 2; -1, 2]
    ext i j
    fin_cases i <;>
    fin_cases j <;> norm_num
  have hS' : r.state.S = wildDict := by rw [hrs]; exact hS
  have hO' : r.state.orderWeights = wildOW := by rw [hrs]; exact hO
  have hA' : r.state.transitionMatrices = wildTM := by rw [hrs]; exact hA
  have e1 : defaultComponents obj.nComponents 1 = obj.nComponents := by rw [h1]; rfl
  have e2 : mtdVarsOf r.state = ⟨2, 1, 2, wildWeights, wildDict, wildOW, wildTM⟩ := by
    unfold mtdVarsOf
    rw [hG', hS', hO', hA']
  refine ⟨⟨r.cost, r.nIter, decide (r.nIter = 1 ∧ (0 : ℚ) > 0), r.trace⟩, hfit.trans ?_⟩
  show Py.ok ({ obj with
      nComponents := defaultComponents obj.nComponents 1
      vars := some (mtdVarsOf (T := 2) (D := 1) (k := 2) r.state) }, (_ : FitInfo ℚ)) = _
  rw [e1, e2]

theorem wild_prob : IsProb wildOW ∧ ∀ i, ColStochastic (wildTM i) := by
  refine ⟨⟨fun i => by fin_cases i; norm_num [wildOW], by simp [wildOW]⟩, ?_⟩
  intro i l
  fin_cases i
  refine ⟨fun j => ?_, ?_⟩
  · fin_cases l <;> fin_cases j <;> norm_num [wildTM]
  · fin_cases l <;> norm_num [wildTM, Fin.sum_univ_two]

theorem wild_supplied : SuppliedStochastic none
    (⟨some (Arr2.of wildDict), none, some (Arr1.of wildOW), some (Arr3.of wildTM)⟩ : MTDArgs ℚ)
    ⟨false, true, false⟩ := by
  refine ⟨fun _ W h => by simp at h, fun _ w h => ?_, fun _ A h => ?_⟩
  · simp only [Option.some.injEq] at h
    subst h
    exact wild_prob.1
  · simp only [Option.some.injEq] at h
    subst h
    exact wild_prob.2

theorem wildMTD_fit : ∃ (info : FitInfo ℚ) (c : ℚ) (n : ℕ),
    mtdFitTransform cornerEnv wildMTD (Arr2.of wildSeries)
      ⟨some (Arr2.of wildDict), none, some (Arr1.of wildOW), some (Arr3.of wildTM)⟩
      ⟨false, true, false⟩ {} =
      Py.ok ({ wildMTD with
        vars := some ⟨2, 1, 2, wildWeights, wildDict, wildOW, wildTM⟩
        nComponents_ := some 2
        cost_ := some c
        dictionary_ := some (Arr2.of wildDict)
        nIter_ := some n }, some (Arr2.of wildWeights), info) := by
  obtain ⟨info, h⟩ := wild_coding wildMTD rfl rfl rfl rfl rfl rfl
    ⟨some (Arr2.of wildDict), none, some (Arr1.of wildOW), some (Arr3.of wildTM)⟩ rfl rfl rfl
  refine ⟨info, info.cost, info.nIter, ?_⟩
  unfold mtdFitTransform
  rw [h]
  rfl

/-- C38 fails for `sigma_two > 1`: a fit of two samples returns weights with rows
`(-1, 2)`. -/
theorem C38_mtd_weights_fail : ∃ (env : Env ℚ) (obj obj' : MTDObj env.rng 1) (data W : Arr2 ℚ)
    (args : MTDArgs ℚ) (fl : MTDFlags) (info : FitInfo ℚ), env.rng.Lawful ∧ obj.init = none ∧
    SuppliedStochastic obj.init args fl ∧
    mtdFitTransform env obj data args fl {} = Py.ok (obj', some W, info) ∧
    ¬ RowStochastic W.val := by
  obtain ⟨i, c, n, h⟩ := wildMTD_fit
  refine ⟨cornerEnv, wildMTD, _, _, _, _, _, i, cornerRng_lawful, rfl, ?_, h, fun hW => ?_⟩
  · exact wild_supplied
  · have := (hW (0 : Fin 2)).1 (0 : Fin 2)
    change (0 : ℚ) ≤ -1 at this
    norm_num at this

/-- C42 fails there too: after that fit the forecast one step after the last sample is 2, although no
entry of the dictionary exceeds 1. -/
theorem C42_mtd_forecast_fails : ∃ (env : Env ℚ) (obj obj1 obj2 : MTDObj env.rng 1) (data W : Arr2 ℚ)
    (args : MTDArgs ℚ) (fl : MTDFlags) (info : FitInfo ℚ) (S : Matrix (Fin 2) (Fin 1) ℚ)
    (F : Fin 2 → Option (Fin 1 → ℚ)), env.rng.Lawful ∧ obj.init = none ∧
    SuppliedStochastic obj.init args fl ∧
    mtdFitTransform env obj data args fl {} = Py.ok (obj1, some W, info) ∧
    obj1.dictionary_ = some (Arr2.of S) ∧ (∀ i d, S i d ≤ 1) ∧
    mtdPredict env obj1 data 1 = Py.ok (obj2, ⟨2, 1, F⟩) ∧ F 1 = some ![2] := by
  obtain ⟨i, c, n, h⟩ := wildMTD_fit
  set o : MTDObj cornerEnv.rng 1 := { wildMTD with
        vars := some ⟨2, 1, 2, wildWeights, wildDict, wildOW, wildTM⟩
        nComponents_ := some 2
        cost_ := some c
        dictionary_ := some (Arr2.of wildDict)
        nIter_ := some n } with ho
  obtain ⟨i2, h2⟩ := wild_coding o rfl rfl rfl rfl rfl rfl o.transformArgs rfl rfl rfl
  refine ⟨cornerEnv, wildMTD, o, o, Arr2.of wildSeries, _, _, _, i, wildDict,
    fun t => (mtdForecastRow ![1] wildOW wildTM wildWeights 1 t).map fun v => Matrix.vecMul v wildDict,
    cornerRng_lawful, rfl, wild_supplied, h, rfl, ?_, ?_, ?_⟩
  · intro i d
    fin_cases d
    fin_cases i <;> norm_num [wildDict]
  · unfold mtdPredict mtdTransform
    rw [h2]
    rfl
  · have hq : ContinuesMTD ![1] wildOW wildTM wildWeights 1 fun _ => ![-1, 2] := by
      refine ⟨fun n _ => ?_, fun n _ => ?_⟩
      · fin_cases n <;> funext j <;> fin_cases j <;> rfl
      · funext j
        fin_cases j <;> norm_num [mtdStep, wildOW, wildTM, Fin.sum_univ_two]
    have := mtdForecastRow_continues (p := 1) le_rfl (lags := ![1]) (by simp) wildOW wildTM
      wildWeights 1 1 (by simp) hq
    refine (congrArg (Option.map fun v => Matrix.vecMul v wildDict) this).trans ?_
    simp only [Option.map_some, Option.some.injEq]
    funext d
    fin_cases d
    norm_num [wildDict, Matrix.vecMul, dotProduct, Fin.sum_univ_two]

end Reor
