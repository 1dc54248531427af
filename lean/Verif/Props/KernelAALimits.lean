import Verif.Props.KernelAA

/-!
Inputs at which C28 and C34 fail as stated.
-/

namespace Reor

set_option linter.unusedSectionVars false

open scoped BigOperators Matrix
open Spec

variable {K : Type} [Field K] [LinearOrder K] [IsStrictOrderedRing K]

/-- One iteration without updates. -/
theorem iterate_nothing {σ : Type} {evalCost : σ → σ × K} {require : Bool} {tol : K} {s : σ} :
    ∃ r, iterate evalCost require tol 1 [] s = Py.ok r ∧ r.state = (evalCost s).1 := by
  unfold iterate
  simp only [List.range_one, iterateLoop, runPhases, Py.ok_bind]
  split_ifs
  · exact ⟨_, rfl, rfl⟩
  · exact ⟨_, rfl, rfl⟩

/-- A fit without updates returns its start. -/
theorem kaaFitTransform_nothing {env : Env K} {n k : ℕ} {obj : KAAObj env.rng}
    {A : Matrix (Fin n) (Fin n) K} {dictionary weights : Option (Arr2 K)} {kw : InitKwargs} {t : K}
    {S : Matrix (Fin n) (Fin k) K} {C : Matrix (Fin k) (Fin n) K} {g : env.rng.G}
    (hp : checkParams (defaultComponents obj.nComponents n) obj.maxIterations obj.tolerance =
      Py.ok (k, 1, t))
    (hst : kaaStart env A k obj.init dictionary weights false false kw obj.randomState.start =
      Py.ok ((C, S), g)) :
    ∃ obj' info, kaaFitTransform env obj (Arr2.of A) dictionary weights kw false false =
      Py.ok (obj', some (Arr2.of S), info) ∧ obj'.dictionary_ = some (Arr2.of C) := by
  obtain ⟨r, hr, hs⟩ := iterate_nothing (evalCost := KAAState.evaluateCost obj.delta)
    (require := obj.require) (tol := t) (s := KAAState.initializeWorkspace obj.ls A S C)
  have hr' : kaaIterate obj.ls obj.delta obj.require t 1 false false
      (KAAState.initializeWorkspace obj.ls A S C) = Py.ok r := hr
  have hS : r.state.S = S := by rw [hs, KAAState.evaluateCost_eq _ _ rfl]; rfl
  have hC : r.state.C = C := by rw [hs, KAAState.evaluateCost_eq _ _ rfl]; rfl
  unfold kaaFitTransform
  rw [kernelAA_of]
  unfold kernelAASquare
  simp only [hp, Py.ok_bind, hst, hr', hS, hC]
  exact ⟨_, _, rfl, rfl⟩

/-- A model with a custom start. -/
def customKAA : KAAObj demoEnv.rng :=
  { demoKAA with init := some "custom", maxIterations := .int 1 }

theorem customKAA_params : checkParams (defaultComponents customKAA.nComponents 1)
    customKAA.maxIterations customKAA.tolerance = Py.ok (2, 1, 1/1000) := by
  simp [checkParams, customKAA, demoKAA, defaultComponents]

/-- The custom start of the counterexample. -/
def badWeights : Matrix (Fin 1) (Fin 2) ℚ := !![2, -1]
def unitDict : Matrix (Fin 2) (Fin 1) ℚ := !![1; 1]

theorem bad_start : kaaStart demoEnv (!![1] : Matrix (Fin 1) (Fin 1) ℚ) 2 customKAA.init
    (some (Arr2.of unitDict)) (some (Arr2.of badWeights)) false false {}
    customKAA.randomState.start = Py.ok ((unitDict, badWeights), customKAA.randomState.start) := by
  have h1 : checkUnitRowSums badWeights = Py.ok () := by
    unfold checkUnitRowSums
    rw [if_pos]
    intro i
    fin_cases i
    norm_num [iscloseOne, badWeights, Fin.sum_univ_two]
  have h2 : checkUnitRowSums unitDict = Py.ok () := by
    unfold checkUnitRowSums
    rw [if_pos]
    intro i
    fin_cases i <;> norm_num [iscloseOne, unitDict]
  show (do
    let w ← (do
      let _ ← checkUnitRowSums badWeights
      pure badWeights)
    let d ← (do
      let _ ← checkUnitRowSums unitDict
      pure unitDict)
    pure ((d, w), customKAA.randomState.start)) = _
  rw [h1, h2]
  rfl

/-- C28 fails for custom starts with negative entries: only their row sums are checked.  Here
`fit_transform(kernel, dictionary, weights, update_dictionary=False, update_weights=False)`. -/
theorem C28_kaa_custom_fails : ∃ (obj obj' : KAAObj demoEnv.rng) (kernel C W G : Arr2 ℚ)
    (info : FitInfo ℚ),
    kaaFitTransform demoEnv obj kernel (some C) (some W) {} false false =
      Py.ok (obj', some G, info) ∧ ¬ RowStochastic G.val := by
  obtain ⟨o, i, h, -⟩ := kaaFitTransform_nothing customKAA_params bad_start
  refine ⟨customKAA, o, _, _, _, _, i, h, fun hW => ?_⟩
  have := (hW (0 : Fin 1)).1 (1 : Fin 2)
  change (0 : ℚ) ≤ -1 at this
  norm_num at this

/-- C28 fails without samples: with the random start the rows of the dictionary are empty and add up
to 0. -/
theorem C28_kaa_empty_fails {env : Env K} (A : Matrix (Fin 0) (Fin 0) K) (obj : KAAObj env.rng)
    (hinit : obj.init = some "random") (hk : obj.nComponents = .int 2)
    (hm : obj.maxIterations = .int 1) (t : K) (ht : 0 ≤ t) (htol : obj.tolerance = .real t) :
    ∃ obj' G info, kaaFitTransform env obj (Arr2.of A) none none {} false false =
      Py.ok (obj', some G, info) ∧
      ∃ C : Matrix (Fin 2) (Fin 0) K, obj'.dictionary_ = some (Arr2.of C) ∧ ¬ RowStochastic C := by
  have hp : checkParams (defaultComponents obj.nComponents 0) obj.maxIterations obj.tolerance =
      Py.ok (2, 1, t) := by
    simp [checkParams, hk, hm, htol, defaultComponents, not_lt.mpr ht]
  obtain ⟨⟨⟨C, S⟩, g⟩, hst⟩ : ∃ st, kaaStart env A 2 obj.init none none false false {}
      obj.randomState.start = Py.ok st := by
    rw [hinit]
    have h1 : ∀ g, ∃ r, rightStochasticMatrix env.rng 2 0 g = Py.ok r := by
      intro g
      unfold rightStochasticMatrix
      rw [if_neg (by rintro ⟨_, j, _⟩; exact j.elim0)]
      exact ⟨_, rfl⟩
    have h2 : ∀ g, ∃ r, rightStochasticMatrix env.rng 0 2 g = Py.ok r := by
      intro g
      unfold rightStochasticMatrix
      rw [if_neg (by rintro ⟨i, _⟩; exact i.elim0)]
      exact ⟨_, rfl⟩
    obtain ⟨d, hd⟩ := h1 obj.randomState.start
    obtain ⟨w, hw⟩ := h2 d.2
    refine ⟨((d.1, w.1), w.2), ?_⟩
    show (do
      let d ← rightStochasticMatrix env.rng 2 0 obj.randomState.start
      let w ← rightStochasticMatrix env.rng 0 2 d.2
      pure ((d.1, w.1), w.2)) = _
    rw [hd]
    simp only [Py.ok_bind]
    rw [hw]
    rfl
  obtain ⟨o, i, h, hC⟩ := kaaFitTransform_nothing hp hst
  refine ⟨o, _, i, h, C, hC, fun hR => ?_⟩
  have := (hR 0).2
  simp at this

example : ∃ obj : KAAObj demoEnv.rng, obj.init = some "random" ∧ obj.nComponents = .int 2 ∧
    obj.maxIterations = .int 1 ∧ obj.tolerance = .real (1/1000) :=
  ⟨{ demoKAA with init := some "random", maxIterations := .int 1 }, rfl, rfl, rfl, rfl⟩

/-- C34 fails as stated: with fewer samples than components the exception is the ValueError of
`furthest_sum`. -/
theorem C34_kaa_keywords_fail : ∃ (obj : KAAObj demoEnv.rng) (kernel : Arr2 ℚ) (kw : InitKwargs),
    obj.init = none ∧ kw.startIndex = some 0 ∧
    kaaFitTransform demoEnv obj kernel none none kw = Py.raise .valueError := by
  refine ⟨{ demoKAA with maxIterations := .int 1 }, Arr2.of (!![1] : Matrix (Fin 1) (Fin 1) ℚ),
    { startIndex := some 0 }, rfl, rfl, ?_⟩
  have hp : checkParams (defaultComponents demoKAA.nComponents 1) (.int 1) demoKAA.tolerance =
      Py.ok (2, 1, 1/1000) := by
    simp [checkParams, demoKAA, defaultComponents]
  have hf : furthestSumRows demoEnv (!![1] : Matrix (Fin 1) (Fin 1) ℚ) 2 { startIndex := some 0 }
      demoKAA.randomState.start = Py.raise .valueError := by
    unfold furthestSumRows
    have hD : ∃ D, dissimilarities demoEnv.sqrt (!![1] : Matrix (Fin 1) (Fin 1) ℚ) = Py.ok D ∧
        D.rows = 1 ∧ D.cols = 1 := by
      unfold dissimilarities
      rw [if_neg]
      · exact ⟨_, rfl, rfl, rfl⟩
      · rintro ⟨i, j, h⟩
        fin_cases i
        fin_cases j
        norm_num at h
    obtain ⟨D, hD, hr, hc⟩ := hD
    simp only [drawStart, Py.ok_bind, hD, Option.getD_none]
    rw [C14_bad_arguments_rejected D (by rw [hr, hc]) _ _ (by norm_num) _ _
      (Or.inr (Or.inr (by simp [hr])))]
    rfl
  unfold kaaFitTransform
  rw [kernelAA_of]
  unfold kernelAASquare
  simp only [hp, Py.ok_bind]
  show (do
    let r ← (do
      let start ← kaaInitBoth demoEnv (!![1] : Matrix (Fin 1) (Fin 1) ℚ) 2 none
        { startIndex := some 0 } demoKAA.randomState.start
      _)
    _) = _
  have : kaaInitBoth demoEnv (!![1] : Matrix (Fin 1) (Fin 1) ℚ) 2 none
        { startIndex := some 0 } demoKAA.randomState.start = Py.raise .valueError := by
    unfold kaaInitBoth
    show (do
      let d ← (do
        let r ← furthestSumRows demoEnv (!![1] : Matrix (Fin 1) (Fin 1) ℚ) 2
          { startIndex := some 0 } demoKAA.randomState.start
        _)
      _) = _
    rw [hf]
    rfl
  rw [this]
  rfl

end Reor
