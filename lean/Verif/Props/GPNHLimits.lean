import Verif.Props.GPNH

/-!
Inputs at which C17 and C27 fail as stated (settings of the line search outside
`SafeSteps`).
-/

namespace Reor

set_option linter.unusedSectionVars false

open scoped BigOperators Matrix
open Spec

variable {K : Type} [Field K] [LinearOrder K] [IsStrictOrderedRing K]
variable {T D k : ℕ}

/-- A line search whose full step is refused and whose second trial is below the tolerance. -/
theorem lineSearch_one_round {σ : Type} {cfg : LSConfig K} {trial : σ → K → σ × K} {m : K} {s : σ}
    {f0 δ f1 step : K} (hf1 : (trial s 1).2 = f1) (hrej : f0 + cfg.gamma * δ < f1)
    (hstep : nextSpgStepLength 1 δ f0 f1 cfg.sigmaOne cfg.sigmaTwo = step)
    (hfl : |step| < cfg.stepSizeTolerance) :
    lineSearch cfg trial [m] s f0 δ = Py.ok ⟨[f0], step, (trial (trial s 1).1 step).1,
      (trial (trial s 1).1 step).2, 1⟩ := by
  rw [lineSearch_eq_ok]
  refine ⟨by simp, rfl, f0, rfl, ?_⟩
  rw [backtrack_unfold, if_pos (by rw [hf1]; simpa using hrej)]
  simp only [hf1, hstep]
  rw [if_pos hfl]

/-- A weights update whose full step is refused and whose second trial is below the tolerance. -/
theorem GPNHState.updateWeights_one_round {cfg : LSConfig K} {eps : K} {s : GPNHState T D k K}
    {m : K} (hm : s.fGammaMem = [m]) {P : Matrix (Fin T) (Fin k) K}
    (hP : simplexProjectRows (s.Gamma - s.alphaGamma • gradWOf s.X s.Gamma s.S) = P)
    {f0 f1 δ step : K} (hf0 : gpnhCost eps s.X s.Gamma s.S = f0)
    (hf1 : gpnhCost eps s.X (s.Gamma + (1 : K) • (P - s.Gamma)) s.S = f1)
    (hδ : inner (P - s.Gamma) (gradWOf s.X s.Gamma s.S) = δ)
    (hrej : f0 + cfg.gamma * δ < f1)
    (hstep : nextSpgStepLength 1 δ f0 f1 cfg.sigmaOne cfg.sigmaTwo = step)
    (hfl : |step| < cfg.stepSizeTolerance) :
    ∃ s', s.updateWeights cfg eps = Py.ok s' ∧ s'.Gamma = s.Gamma + step • (P - s.Gamma) ∧
      s'.S = s.S := by
  unfold updateWeights weightsLineSearch
  simp only [prepareWeights_eq, hP, hm]
  rw [lineSearch_one_round (f1 := f1) (step := step)]
  · exact ⟨_, rfl, rfl, rfl⟩
  · simp only [weightsTrial]
    rw [evaluateCost_eq _ _ rfl]
    exact hf1
  · rw [evaluateCost_eq _ _ rfl]
    simpa only [hf0, mulSum_eq_inner, hδ] using hrej
  · rw [evaluateCost_eq _ _ rfl]
    simpa only [hf0, mulSum_eq_inner, hδ] using hstep
  · exact hfl

/-- One iteration with one update. -/
theorem iterate_once {σ : Type} {evalCost : σ → σ × K} {tol : K} {p : σ → Py σ} {s s' : σ}
    (h : p (evalCost s).1 = Py.ok s') :
    ∃ r, iterate evalCost false tol 1 [p] s = Py.ok r ∧ r.state = (evalCost s').1 := by
  unfold iterate
  simp only [List.range_one, iterateLoop, runPhases, h, Py.ok_bind]
  simp only [Bool.false_eq_true, and_false, if_false, Py.ok_bind]
  split_ifs
  · exact ⟨_, rfl, rfl⟩
  · exact ⟨_, rfl, rfl⟩

/-- A generator whose first column of uniform draws is 1 and whose others are 0. -/
def cornerRng : Rng ℚ :=
  { demoRng with uniform := fun _ _ g => (fun _ j => if (j : ℕ) = 0 then 1 else 0, g) }

theorem cornerRng_lawful : cornerRng.Lawful where
  uniform_nonneg := by
    intro m n g i j
    simp only [cornerRng]
    split_ifs <;> norm_num
  randint_lt := demoRng_lawful.randint_lt
  choice_length := demoRng_lawful.choice_length
  choice_nodup := demoRng_lawful.choice_nodup
  choice_lt := demoRng_lawful.choice_lt

def cornerEnv : Env ℚ := ⟨cornerRng, id⟩

/-- A model with `gamma=0.95`, `sigma_two=10`, `step_size_tolerance=100`. -/
def wildObj : GPNHObj cornerEnv.rng :=
  { nComponents := .int 2, epsilonStates := 0, init := none, tolerance := .real 0
    maxIterations := .int 1, randomState := cornerRng.ofSeed 0
    ls := ⟨1, 95/100, 1/1000, 1, 1/10, 10, 100⟩, require := false }

/-- The dictionary and the single sample of the counterexample. -/
def wildDict : Matrix (Fin 2) (Fin 1) ℚ := !![0; 1]
def wildData : Matrix (Fin 1) (Fin 1) ℚ := !![2]

theorem wild_fit : ∃ (obj' : GPNHObj cornerEnv.rng) (info : FitInfo ℚ),
    gpnhFitTransform cornerEnv wildObj (Arr2.of wildData) (some (Arr2.of wildDict)) none {} false true =
      Py.ok (obj', some (Arr2.of !![-1, 2]), info) ∧ obj'.S = some (Arr2.of wildDict) := by
  have hp : checkParams (defaultComponents wildObj.nComponents 1) wildObj.maxIterations
      wildObj.tolerance = Py.ok (2, 1, 0) := by
    simp [checkParams, wildObj, defaultComponents]
  have hst : gpnhStart cornerEnv wildData 2 wildObj.init (some (Arr2.of wildDict)) none false true {}
      wildObj.randomState = Py.ok ((wildDict, !![1, 0]), wildObj.randomState) := by
    have hw : rightStochasticMatrix cornerRng 1 2 (0 : ℕ) =
        Py.ok ((!![1, 0] : Matrix (Fin 1) (Fin 2) ℚ), (0 : ℕ)) := by
      have e : ∀ i : Fin 1, ∑ j : Fin 2, (cornerRng.uniform 1 2 (0 : ℕ)).1 i j = 1 := by
        intro i; simp [cornerRng]
      unfold rightStochasticMatrix
      simp only [e]
      rw [if_neg (by simp)]
      congr 2
      ext i j
      fin_cases i; fin_cases j <;> simp [cornerRng]
    have hd : gpnhCheckInitDictionary (some (Arr2.of wildDict)) 2 1 = Py.ok wildDict := rfl
    show (do
      let d ← gpnhCheckInitDictionary (some (Arr2.of wildDict)) 2 1
      let w ← rightStochasticMatrix cornerRng 1 2 (0 : ℕ)
      pure ((d, w.1), w.2)) = _
    rw [hd, hw]
    rfl
  have hgrad : gradWOf wildData !![1, 0] wildDict = !![0, -4] := by
    ext i j
    fin_cases i
    fin_cases j <;>
      norm_num [gradWOf, wildData, wildDict, Matrix.mul_apply, Fin.sum_univ_two, Matrix.vecMul,
        dotProduct]
  have hproj : simplexProjectRows ((!![1, 0] : Matrix (Fin 1) (Fin 2) ℚ) - (1 : ℚ) • !![0, -4]) =
      !![0, 1] := by
    ext i j
    rw [show simplexProjectRows ((!![1, 0] : Matrix (Fin 1) (Fin 2) ℚ) - (1 : ℚ) • !![0, -4]) i j =
      _ from congrFun (projectRows_apply _ i) j, project_eq_of_threshold (by norm_num) _ 3]
    · fin_cases i
      fin_cases j <;> norm_num
    · fin_cases i
      norm_num [Fin.sum_univ_two]
  obtain ⟨s', hu, hG, hS⟩ := GPNHState.updateWeights_one_round (cfg := wildObj.ls) (eps := 0)
    (s := GPNHState.initializeWorkspace wildObj.ls wildData !![1, 0] wildDict) (m := 0) rfl
    (P := !![0, 1]) (f0 := 4) (f1 := 1) (δ := -4) (step := 2)
    (by
      show simplexProjectRows (!![1, 0] - (1 : ℚ) • gradWOf wildData !![1, 0] wildDict) = _
      rw [hgrad, hproj])
    (by
      show gpnhCost 0 wildData !![1, 0] wildDict = 4
      norm_num [gpnhCost, wildData, wildDict, Fin.sum_univ_two])
    (by
      show gpnhCost 0 wildData (!![1, 0] + (1 : ℚ) • (!![0, 1] - !![1, 0])) wildDict = 1
      norm_num [gpnhCost, wildData, wildDict, Fin.sum_univ_two])
    (by
      show inner (!![0, 1] - !![1, 0]) (gradWOf wildData !![1, 0] wildDict) = -4
      rw [hgrad]
      norm_num [inner, Fin.sum_univ_two])
    (by norm_num [wildObj])
    (by norm_num [wildObj, nextSpgStepLength])
    (by norm_num [wildObj])
  obtain ⟨r, hr, hrs⟩ := iterate_once (evalCost := fun s => (s, s.evaluateCost 0)) (tol := 0) hu
  have hr' : gpnhIterate wildObj.ls wildObj.epsilonStates wildObj.require 0 1 false true
      (GPNHState.initializeWorkspace wildObj.ls wildData !![1, 0] wildDict) = Py.ok r := hr
  have hfit := gpnhConvexCoding_of_steps (env := cornerEnv) (obj := wildObj)
    (data := Arr2.of wildData) (p := (2, 1, 0)) (dictionary := some (Arr2.of wildDict))
    (weights := none) (ud := false) (uw := true) (kw := {}) hp hst hr'
  have hG' : r.state.Gamma = !![-1, 2] := by
    rw [hrs]
    show s'.Gamma = _
    rw [hG]
    show (!![1, 0] : Matrix (Fin 1) (Fin 2) ℚ) + (2 : ℚ) • (!![0, 1] - !![1, 0]) = !![-1, 2]
    ext i j
    fin_cases i
    fin_cases j <;> norm_num
  have hS' : r.state.S = wildDict := by
    rw [hrs]
    exact hS
  unfold gpnhFitTransform
  rw [hfit, hG', hS']
  exact ⟨_, _, rfl, rfl⟩

/-- C17 fails for `sigma_two > 1`: a fit of one sample with one feature, with the default
kind of start, returns the weights `(-1, 2)`. -/
theorem C17_gpnh_weights_fail : ∃ (env : Env ℚ) (obj obj' : GPNHObj env.rng) (data S W : Arr2 ℚ)
    (info : FitInfo ℚ), env.rng.Lawful ∧ obj.init = none ∧
    gpnhFitTransform env obj data (some S) none {} false true = Py.ok (obj', some W, info) ∧
    ¬ RowStochastic W.val := by
  obtain ⟨o, i, h, -⟩ := wild_fit
  refine ⟨cornerEnv, wildObj, o, _, _, _, i, cornerRng_lawful, rfl, h, fun hW => ?_⟩
  have := (hW (0 : Fin 1)).1 (0 : Fin 2)
  change (0 : ℚ) ≤ -1 at this
  norm_num at this

/-- C27 fails there too: the reconstruction of the sample is 2, above the largest entry 1 of the
dictionary. -/
theorem C27_gpnh_reconstruction_fails : ∃ (env : Env ℚ) (obj obj' : GPNHObj env.rng)
    (data W : Arr2 ℚ) (S : Matrix (Fin 2) (Fin 1) ℚ) (X : Matrix (Fin 1) (Fin 1) ℚ)
    (info : FitInfo ℚ), env.rng.Lawful ∧ obj.init = none ∧
    gpnhFitTransform env obj data (some (Arr2.of S)) none {} false true =
      Py.ok (obj', some W, info) ∧
    gpnhInverseTransform env obj' W = Py.ok (Arr2.of X) ∧ (∀ i d, S i d ≤ 1) ∧ X 0 0 = 2 := by
  obtain ⟨o, i, h, hS⟩ := wild_fit
  refine ⟨cornerEnv, wildObj, o, _, _, wildDict,
    (!![-1, 2] : Matrix (Fin 1) (Fin 2) ℚ) * wildDict, i, cornerRng_lawful, rfl, h,
    ?_, ?_, ?_⟩
  · unfold gpnhInverseTransform
    rw [hS]
    rfl
  · intro i d
    fin_cases d
    fin_cases i <;> norm_num [wildDict]
  · norm_num [wildDict, Matrix.mul_apply, Fin.sum_univ_two]

end Reor
