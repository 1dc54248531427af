import Verif.Props.Failure
import Verif.Props.GPNHLimits

/-!
C100: calls that fail half way and what they leave.
-/

namespace Reor

set_option linter.unusedSectionVars false

open scoped BigOperators Matrix
open Spec

section

variable {K : Type} [Field K] [LinearOrder K] [IsStrictOrderedRing K]
variable {T D k : ℕ}

/-- A dictionary update whose full step is refused and whose second trial is below the tolerance. -/
theorem GPNHState.updateDictionary_one_round {cfg : LSConfig K} {eps : K} {s : GPNHState T D k K}
    {m : K} (hm : s.fSMem = [m]) {g : Matrix (Fin k) (Fin D) K}
    (hg : gradSOf eps s.X s.Gamma s.S = g)
    {f0 f1 δ step : K} (hf0 : gpnhCost eps s.X s.Gamma s.S = f0)
    (hf1 : gpnhCost eps s.X s.Gamma (s.S + (1 : K) • (-(s.alphaS • g))) = f1)
    (hδ : inner (-(s.alphaS • g)) g = δ)
    (hrej : f0 + cfg.gamma * δ < f1)
    (hstep : nextSpgStepLength 1 δ f0 f1 cfg.sigmaOne cfg.sigmaTwo = step)
    (hfl : |step| < cfg.stepSizeTolerance) :
    ∃ s', s.updateDictionary cfg eps = Py.ok s' ∧ s'.S = s.S + step • (-(s.alphaS • g)) := by
  unfold updateDictionary dictionaryLineSearch
  simp only [prepareDictionary_eq, hg, hm]
  rw [lineSearch_one_round (f1 := f1) (step := step)]
  · refine ⟨_, rfl, ?_⟩
    rw [updateDictionaryGradient_eq]
    rfl
  · simp only [dictionaryTrial]
    rw [evaluateCost_eq _ _ rfl]
    exact hf1
  · rw [evaluateCost_eq _ _ rfl]
    simpa only [hf0, mulSum_eq_inner, hδ] using hrej
  · rw [evaluateCost_eq _ _ rfl]
    simpa only [hf0, mulSum_eq_inner, hδ] using hstep
  · exact hfl

end

/-- A model with `require_monotonic_cost_decrease=True` and a coarse `step_size_tolerance`. -/
def strictObj : GPNHObj demoEnv.rng :=
  { nComponents := .int 2, epsilonStates := 3, init := some "custom", tolerance := .real 1
    maxIterations := .int 1, randomState := demoRng.ofSeed 0
    ls := ⟨1, 1/10000, 1/1000, 1, 1/10, 9/10, 1⟩, require := true }

def strictWeights : Matrix (Fin 1) (Fin 2) ℚ := !![1/2, 1/2]
def strictDict : Matrix (Fin 2) (Fin 1) ℚ := !![1; -1]

theorem strict_params : checkParams (defaultComponents strictObj.nComponents 1)
    strictObj.maxIterations strictObj.tolerance = Py.ok (2, 1, 1) := by
  simp [checkParams, strictObj, defaultComponents]

theorem strict_start (S : Matrix (Fin 2) (Fin 1) ℚ) :
    gpnhStart demoEnv (0 : Matrix (Fin 1) (Fin 1) ℚ) 2 strictObj.init (some (Arr2.of S))
      (some (Arr2.of strictWeights)) true false {} strictObj.randomState =
        Py.ok ((S, strictWeights), strictObj.randomState) := by
  have hw : gpnhCheckInitWeights (some (Arr2.of strictWeights)) 1 2 = Py.ok strictWeights := by
    have h : ∀ i : Fin 1, ∑ j, strictWeights i j = 1 := by
      intro i; fin_cases i; norm_num [strictWeights, Fin.sum_univ_two]
    show (do let _ ← checkUnitRowSums strictWeights; pure strictWeights) = Py.ok strictWeights
    unfold checkUnitRowSums
    rw [if_pos (fun i => by rw [h i]; norm_num [iscloseOne])]
    rfl
  have hd : gpnhCheckInitDictionary (some (Arr2.of S)) 2 1 = Py.ok S := rfl
  unfold gpnhStart
  rw [if_pos (show strictObj.init = some "custom" from rfl), hw, hd]
  rfl

/-- Fitting the strict model to the single sample 0 with the dictionary `(0, 0)` succeeds. -/
theorem strict_fit : ∃ (o : GPNHObj demoEnv.rng) (W : Option (Arr2 ℚ)) (info : FitInfo ℚ),
    gpnhFitTransform demoEnv strictObj (Arr2.of (0 : Matrix (Fin 1) (Fin 1) ℚ))
      (some (Arr2.of (0 : Matrix (Fin 2) (Fin 1) ℚ))) (some (Arr2.of strictWeights)) {} true false =
        Py.ok (o, W, info) ∧
    o = { strictObj with
      Gamma := some (Arr2.of strictWeights), S := some (Arr2.of (0 : Matrix (Fin 2) (Fin 1) ℚ))
      nComponents_ := some 2, cost_ := some 0, nIter_ := some 0
      dictionary_ := some (Arr2.of (0 : Matrix (Fin 2) (Fin 1) ℚ)) } := by
  set s := GPNHState.initializeWorkspace strictObj.ls (0 : Matrix (Fin 1) (Fin 1) ℚ) strictWeights
    (0 : Matrix (Fin 2) (Fin 1) ℚ) with hs
  obtain ⟨s', hu⟩ := GPNHState.updateDictionary_terminates (cfg := strictObj.ls) (eps := 3) (s := s)
    (by norm_num [strictObj]) (N := 0) (by norm_num [strictObj, shrink]) (by simp [hs, GPNHState.initializeWorkspace, strictObj])
  obtain ⟨lam, hp⟩ := GPNHState.updateDictionary_post hu
  have hg : gradSOf (3 : ℚ) s.X s.Gamma s.S = 0 := by
    simp [gradSOf, hs, GPNHState.initializeWorkspace]
  have hS' : s'.S = 0 := by
    rw [hp.S, hg]
    simp [hs, GPNHState.initializeWorkspace]
  have hG' : s'.Gamma = strictWeights := hp.Gamma
  have hX' : s'.X = 0 := hp.X
  have c0 : s.evaluateCost 3 = 0 := by
    rw [GPNHState.evaluateCost_eq _ _ rfl]
    simp [gpnhCost, hs, GPNHState.initializeWorkspace, sqDist]
  have c1 : s'.evaluateCost 3 = 0 := by
    rw [GPNHState.evaluateCost_eq _ _ hp.SSt, hX', hG', hS']
    simp [gpnhCost, sqDist]
  have hr : gpnhIterate strictObj.ls strictObj.epsilonStates strictObj.require 1 1 true false s =
      Py.ok ⟨s', 0, 0, [0]⟩ := by
    have e1 : strictObj.epsilonStates = 3 := rfl
    have e2 : strictObj.require = true := rfl
    unfold gpnhIterate
    rw [if_neg (by norm_num)]
    simp [iterate, iterateLoop, runPhases, e1, e2, hu, c0, c1]
  have hfit := gpnhConvexCoding_of_steps (env := demoEnv) (obj := strictObj)
    (data := Arr2.of (0 : Matrix (Fin 1) (Fin 1) ℚ)) (p := (2, 1, 1)) (ud := true) (uw := false)
    (kw := {}) strict_params (strict_start 0) hr
  unfold gpnhFitTransform
  rw [hfit, hG', hS']
  exact ⟨_, _, _, rfl, rfl⟩

/-- The fitted model. -/
def strictFitted : GPNHObj demoEnv.rng :=
  { strictObj with
    Gamma := some (Arr2.of strictWeights), S := some (Arr2.of (0 : Matrix (Fin 2) (Fin 1) ℚ))
    nComponents_ := some 2, cost_ := some 0, nIter_ := some 0
    dictionary_ := some (Arr2.of (0 : Matrix (Fin 2) (Fin 1) ℚ)) }

/-- Fitting it again from the dictionary `(1, -1)` fails: the cost rises from 12 to 300. -/
theorem strict_refit :
    gpnhFitTransformF demoEnv strictFitted (Arr2.of (0 : Matrix (Fin 1) (Fin 1) ℚ))
      (some (Arr2.of strictDict)) (some (Arr2.of strictWeights)) {} true false =
        Run.raise .runtimeError
          { strictFitted with S := some (Arr2.of (!![-5; 5] : Matrix (Fin 2) (Fin 1) ℚ)) } := by
  set s := GPNHState.initializeWorkspace strictObj.ls (0 : Matrix (Fin 1) (Fin 1) ℚ) strictWeights
    strictDict with hs
  have hgrad : gradSOf (3 : ℚ) s.X s.Gamma s.S = !![12; -12] := by
    ext i j
    fin_cases j
    fin_cases i <;>
      norm_num [gradSOf, hs, GPNHState.initializeWorkspace, strictWeights, strictDict, centring,
        Matrix.mul_apply, Fin.sum_univ_two]
  obtain ⟨s', hu, hS⟩ := GPNHState.updateDictionary_one_round (cfg := strictObj.ls) (eps := 3)
    (s := s) (m := 0) rfl hgrad (f0 := 12) (f1 := 1452) (δ := -288) (step := 1/2)
    (by
      show gpnhCost 3 0 strictWeights strictDict = 12
      norm_num [gpnhCost, strictWeights, strictDict, Fin.sum_univ_two, sqDist])
    (by
      show gpnhCost 3 0 strictWeights (strictDict + (1 : ℚ) • (-((1 : ℚ) • !![12; -12]))) = 1452
      norm_num [gpnhCost, strictWeights, strictDict, Fin.sum_univ_two, sqDist])
    (by
      show inner (-((1 : ℚ) • (!![12; -12] : Matrix (Fin 2) (Fin 1) ℚ))) !![12; -12] = -288
      norm_num [Spec.inner, Fin.sum_univ_two])
    (by norm_num [strictObj])
    (by norm_num [strictObj, nextSpgStepLength])
    (by norm_num [strictObj])
  obtain ⟨lam, hp⟩ := GPNHState.updateDictionary_post hu
  have hS' : s'.S = !![-5; 5] := by
    rw [hS]
    show strictDict + (1/2 : ℚ) • (-((1 : ℚ) • !![12; -12])) = !![-5; 5]
    ext i j
    fin_cases j
    fin_cases i <;> norm_num [strictDict]
  have hG' : s'.Gamma = strictWeights := hp.Gamma
  have hX' : s'.X = 0 := hp.X
  have c0 : s.evaluateCost 3 = 12 := by
    rw [GPNHState.evaluateCost_eq _ _ rfl]
    show gpnhCost 3 0 strictWeights strictDict = 12
    norm_num [gpnhCost, strictWeights, strictDict, Fin.sum_univ_two, sqDist]
  have c1 : s'.evaluateCost 3 = 300 := by
    rw [GPNHState.evaluateCost_eq _ _ hp.SSt, hX', hG', hS']
    norm_num [gpnhCost, strictWeights, Fin.sum_univ_two, sqDist]
  have hr : gpnhIterateF strictObj.ls strictObj.epsilonStates strictObj.require 1 1 true false s =
      Run.raise .runtimeError s' := by
    have e1 : strictObj.epsilonStates = 3 := rfl
    have e2 : strictObj.require = true := rfl
    have hu' : s.updateDictionaryF strictObj.ls 3 = Run.ok s' := by
      unfold GPNHState.updateDictionaryF; rw [hu]; rfl
    unfold gpnhIterateF
    rw [if_neg (by norm_num)]
    simp [iterateF, iterateLoopF, runPhasesF, e1, e2, hu', c0, c1]
    norm_num
    rfl
  have hst : gpnhStartF demoEnv (0 : Matrix (Fin 1) (Fin 1) ℚ) 2 strictObj.init
      (some (Arr2.of strictDict)) (some (Arr2.of strictWeights)) true false {}
      strictObj.randomState = Run.ok ((strictDict, strictWeights), strictObj.randomState) := by
    have h := strict_start strictDict
    rw [← gpnhStartF_toPy] at h
    exact Run.toPy_eq_ok.1 h
  have hc : gpnhConvexCodingF demoEnv strictFitted (Arr2.of (0 : Matrix (Fin 1) (Fin 1) ℚ))
      (some (Arr2.of strictDict)) (some (Arr2.of strictWeights)) true false {} =
      Run.raise .runtimeError (({ strictFitted with
        nComponents := defaultComponents strictObj.nComponents 1 } :
          GPNHObj demoEnv.rng).withState s') := by
    show (Run.lift _ (checkParams (defaultComponents strictObj.nComponents 1)
      strictObj.maxIterations strictObj.tolerance) >>= _) = _
    rw [strict_params]
    show (Run.within _ (gpnhStartF demoEnv (0 : Matrix (Fin 1) (Fin 1) ℚ) 2 strictObj.init
      (some (Arr2.of strictDict)) (some (Arr2.of strictWeights)) true false {}
      strictObj.randomState) >>= _) = _
    rw [hst]
    show (Run.within _ (gpnhIterateF strictObj.ls strictObj.epsilonStates strictObj.require 1 1
      true false s) >>= _) = _
    rw [hr]
    rfl
  unfold gpnhFitTransformF
  rw [hc]
  show Run.raise _ _ = _
  congr 1
  unfold GPNHObj.withState
  rw [hS', hG']
  rfl

/-- C100.  After a fit that fails the attribute `S`, which `transform` uses, and the report
`dictionary_` can differ: the model above was fitted with the dictionary `(0, 0)`; the second fit
raises a RuntimeError and leaves the dictionary `(-5, 5)` beside `dictionary_ = (0, 0)` and
`cost_ = 0`. -/
theorem C100_gpnh_split : ∃ (env : Env ℚ) (obj o o' : GPNHObj env.rng) (data d d' w : Arr2 ℚ)
    (W : Option (Arr2 ℚ)) (info : FitInfo ℚ), env.rng.Lawful ∧
    SafeSteps obj.ls.gamma obj.ls.alphaMax obj.ls.sigmaOne obj.ls.sigmaTwo ∧
    gpnhFitTransform env obj data (some d) (some w) {} true false = Py.ok (o, W, info) ∧
    o.S = o.dictionary_ ∧
    gpnhFitTransformF env o data (some d') (some w) {} true false = Run.raise .runtimeError o' ∧
    o'.dictionary_ = o.dictionary_ ∧ o'.cost_ = o.cost_ ∧ o'.S ≠ o'.dictionary_ := by
  obtain ⟨o, W, info, h, rfl⟩ := strict_fit
  refine ⟨demoEnv, strictObj, _, _, _, _, _, _, W, info, demoRng_lawful, ?_, h, rfl, strict_refit,
    rfl, rfl, ?_⟩
  · norm_num [SafeSteps, strictObj]
  · intro he
    have he := eq_of_heq (Arr2.mk.inj (Option.some.inj he)).2.2
    have := congrFun (congrFun he 0) 0
    change (-5 : ℚ) = 0 at this
    norm_num at this

end Reor
