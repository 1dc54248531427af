import Verif.Props.Failure
import Verif.Props.Defaults

/-!
C100, the random generator: what is drawn before an exception stays drawn.  The starting values are
drawn one after the other, so a rejected argument that comes late leaves a generator that has moved,
and the same call with the argument corrected starts elsewhere than on a new object.
-/

namespace Reor

set_option linter.unusedSectionVars false

open scoped BigOperators Matrix
open Spec

variable {K : Type} [Field K] [LinearOrder K] [IsStrictOrderedRing K]

/-- The checked number of components is the given one. -/
theorem checkParams_components {c m t : NumArg K} {k : ℕ} (hk : c = .int k)
    (hv : ValidParams c m t) : ∃ q : ℕ × ℕ × K, checkParams c m t = Py.ok q ∧ q.1 = k := by
  obtain ⟨q, hq, hc, -⟩ := checkParams_valid hv
  refine ⟨q, hq, ?_⟩
  have := hc.symm.trans hk
  simpa using this

theorem Run.eq_ok_of_toPy {σ α : Type} {x : Run σ α} {a : α} (h : x.toPy = Py.ok a) :
    x = Run.ok a := by
  cases x with
  | ok b => exact congrArg _ (Py.ok.inj h)
  | raise e s => cases h
  | diverge => cases h

/-- Squared distances of samples are not negative. -/
theorem dissimilarities_gram (sqrt : K → K) {T D : ℕ} (X : Matrix (Fin T) (Fin D) K) :
    ∃ d, dissimilarities sqrt (X * Xᵀ) = Py.ok d := by
  unfold dissimilarities
  simp only
  refine ⟨_, if_neg ?_⟩
  rintro ⟨i, j, h⟩
  refine absurd h (not_lt.2 ?_)
  have e : (X * Xᵀ) j j - 2 * (X * Xᵀ) i j + (X * Xᵀ) i i = ∑ d, (X i d - X j d) ^ 2 := by
    simp only [Matrix.mul_apply, Matrix.transpose_apply, Finset.mul_sum, ← Finset.sum_sub_distrib,
      ← Finset.sum_add_distrib]
    exact Finset.sum_congr rfl fun d _ => by ring
  rw [e]
  exact Finset.sum_nonneg fun d _ => sq_nonneg _

/-! ### GPNH convex coding -/

/-- C100.  When FurthestSum fails (too many components for the samples that are not excluded, or an
excluded index that does not exist) the start index has been drawn already. -/
theorem C100_gpnh_furthest_sum_failed {env : Env K} {obj : GPNHObj env.rng} {data : Arr2 K}
    {dictionary weights : Option (Arr2 K)} {kw : InitKwargs} {k : ℕ} {D : DMat K} {e : PyErr}
    (hk : obj.nComponents = .int k)
    (hv : ValidParams obj.nComponents obj.maxIterations obj.tolerance)
    (hinit : obj.init = some "furthest_sum") (hs : kw.startIndex = none) (hn : data.rows ≠ 0)
    (hD : dissimilarities env.sqrt (data.val * data.valᵀ) = Py.ok D)
    (hF : furthestSum D k ((env.rng.randint data.rows obj.randomState).1 : ℤ) (kw.exclude.getD [])
      (kw.nExtraSteps.getD 10) = Py.raise e) :
    gpnhFitTransformF env obj data dictionary weights kw true true =
      Run.raise e
        { obj with randomState := (env.rng.randint data.rows obj.randomState).2 } := by
  obtain ⟨q, hq, rfl⟩ := checkParams_components hk hv
  have hdef : defaultComponents obj.nComponents data.cols = obj.nComponents :=
    defaultComponents_some (by rw [hk]; simp)
  have hd : drawStart env data.rows kw obj.randomState =
      Py.ok (((env.rng.randint data.rows obj.randomState).1 : ℤ),
        (env.rng.randint data.rows obj.randomState).2) := by
    unfold drawStart
    rw [hs]
    exact if_neg hn
  have hrows : furthestSumRowsF env (data.val * data.valᵀ) q.1 kw obj.randomState =
      Run.raise e (env.rng.randint data.rows obj.randomState).2 := by
    unfold furthestSumRowsF
    rw [hd]
    change (Run.lift _ (dissimilarities env.sqrt (data.val * data.valᵀ)) >>= _) = _
    rw [hD]
    change (Run.lift _ (furthestSum D q.1 _ _ _) >>= _) = _
    rw [hF]
    rfl
  have hdict : gpnhInitDictionaryF env data.val q.1 (some "furthest_sum") kw obj.randomState =
      Run.raise e (env.rng.randint data.rows obj.randomState).2 := by
    unfold gpnhInitDictionaryF
    rw [if_neg (by decide), if_pos (by decide), hrows]
    rfl
  have hstart : gpnhStartF env data.val q.1 obj.init dictionary weights true true kw
      obj.randomState = Run.raise e (env.rng.randint data.rows obj.randomState).2 := by
    unfold gpnhStartF
    rw [hinit, if_neg (by decide), if_neg (by simp), if_neg (by simp)]
    unfold gpnhInitBothF
    rw [show (some ((some "furthest_sum" : Option String).getD "random")) = some "furthest_sum"
      from rfl]
    simp only
    rw [hdict]
    rfl
  unfold gpnhFitTransformF gpnhConvexCodingF
  simp only
  rw [hdef, hq]
  change (Run.within _ (gpnhStartF env data.val q.1 obj.init dictionary weights true true kw
    obj.randomState) >>= _) >>= _ = _
  rw [hstart]
  rfl

/-! ### Kernel archetypal analysis -/

/-- C100.  A fit of kernel archetypal analysis with any keyword argument for the initialisation ends
in a TypeError of the initialiser of the weights, once the dictionary has been chosen: a generator
passed as `random_state` has moved by what the choice drew, and nothing else in the object has
changed. -/
theorem C100_kaa_keyword_failed {env : Env K} {obj : KAAObj env.rng} {n : ℕ}
    {kernel : Matrix (Fin n) (Fin n) K} {dictionary weights : Option (Arr2 K)} {kw : InitKwargs}
    {k : ℕ} {d : Matrix (Fin k) (Fin n) K × env.rng.G} (hk : obj.nComponents = .int k)
    (hv : ValidParams obj.nComponents obj.maxIterations obj.tolerance)
    (hinit : obj.init ≠ some "custom") (hkw : kw.nonempty)
    (hd : kaaInitDictionary env kernel k obj.init kw obj.randomState.start = Py.ok d) :
    kaaFitTransformF env obj (Arr2.of kernel) dictionary weights kw true true =
      Run.raise .typeError { obj with randomState := obj.randomState.after d.2 } := by
  obtain ⟨q, hq, rfl⟩ := checkParams_components hk hv
  have hdef : defaultComponents obj.nComponents n = obj.nComponents :=
    defaultComponents_some (by rw [hk]; simp)
  have hdict : kaaInitDictionaryF env kernel q.1 (some (obj.init.getD "furthest_sum")) kw
      obj.randomState.start = Run.ok d :=
    Run.eq_ok_of_toPy ((kaaInitDictionaryF_toPy _ _ _ _ _).trans hd)
  have hstart : kaaStartF env kernel q.1 obj.init dictionary weights true true kw
      obj.randomState.start = Run.raise .typeError d.2 := by
    unfold kaaStartF
    rw [if_neg hinit, if_neg (by simp), if_neg (by simp)]
    unfold kaaInitBothF
    simp only
    rw [hdict]
    change (Run.lift d.2 (kaaInitWeights env n q.1 _ kw d.2) >>= _) = _
    unfold kaaInitWeights
    rw [if_pos hkw]
    rfl
  unfold kaaFitTransformF kernelAAF
  rw [dif_pos (show (Arr2.of kernel).cols = (Arr2.of kernel).rows from rfl)]
  unfold kernelAASquareF
  simp only
  rw [show defaultComponents obj.nComponents (Arr2.of kernel).rows = obj.nComponents from hdef, hq]
  change (Run.within _ (kaaStartF env kernel q.1 obj.init dictionary weights true true kw
    obj.randomState.start) >>= _) >>= _ = _
  rw [hstart]
  rfl

/-! ### MTD convex coding -/

section MTD

variable {env : Env K} {p k : ℕ} {obj : MTDObj env.rng p} {data : Arr2 K} {args : MTDArgs K}
  {fl : MTDFlags} {kw : InitKwargs} {e : PyErr}

theorem mtdStartDictionaryF_toPy {T D : ℕ} (data : Matrix (Fin T) (Fin D) K) (k : ℕ)
    (init : Option String) (args : MTDArgs K) (fl : MTDFlags) (kw : InitKwargs) (g : env.rng.G) :
    (mtdStartDictionaryF env data k init args fl kw g).toPy =
      mtdStartDictionary env data k init args fl kw g := by
  simp only [mtdStartDictionaryF, mtdStartDictionary, Run.toPy_bind, Run.toPy_lift, Run.toPy_ite,
    gpnhInitDictionaryF_toPy, mtdInitDictionary, Run.pure_eq, Run.toPy_ok, Py.pure_eq]

/-- C100.  Weights that are rejected (a wrong shape, an unexpected keyword) end the fit of MTD convex
coding after the dictionary has been chosen: the generator has moved by what that drew, the rest of
the object is as it was. -/
theorem C100_mtd_weights_rejected {d : Matrix (Fin k) (Fin data.cols) K × env.rng.G}
    (hk : obj.nComponents = .int k)
    (hv : ValidParams obj.nComponents obj.maxIterations obj.tolerance)
    (hinit : obj.init ≠ some "custom")
    (hd : mtdStartDictionary env data.val k obj.init args fl kw obj.randomState = Py.ok d)
    (hw : mtdStartWeights env data.rows k obj.init args fl kw d.2 = Py.raise e) :
    mtdFitTransformF env obj data args fl kw = Run.raise e { obj with randomState := d.2 } := by
  obtain ⟨q, hq, rfl⟩ := checkParams_components hk hv
  have hdef : defaultComponents obj.nComponents data.cols = obj.nComponents :=
    defaultComponents_some (by rw [hk]; simp)
  have hdict := Run.eq_ok_of_toPy ((mtdStartDictionaryF_toPy _ _ _ _ _ _ _).trans hd)
  have hstart : mtdStartF env data.val q.1 p obj.init args fl kw obj.randomState =
      Run.raise e d.2 := by
    unfold mtdStartF
    rw [if_neg hinit, hdict]
    change (Run.lift d.2 (mtdStartWeights env data.rows q.1 obj.init args fl kw d.2) >>= _) = _
    rw [hw]
    rfl
  unfold mtdFitTransformF mtdConvexCodingF
  simp only
  rw [hdef, hq]
  change (Run.within _ (mtdStartF env data.val q.1 p obj.init args fl kw obj.randomState) >>= _) >>=
    _ = _
  rw [hstart]
  rfl

/-- C100.  Parameters that are rejected end the fit after dictionary and weights have been chosen. -/
theorem C100_mtd_parameters_rejected {d : Matrix (Fin k) (Fin data.cols) K × env.rng.G}
    {w : Matrix (Fin data.rows) (Fin k) K × env.rng.G}
    (hk : obj.nComponents = .int k)
    (hv : ValidParams obj.nComponents obj.maxIterations obj.tolerance)
    (hinit : obj.init ≠ some "custom")
    (hd : mtdStartDictionary env data.val k obj.init args fl kw obj.randomState = Py.ok d)
    (hw : mtdStartWeights env data.rows k obj.init args fl kw d.2 = Py.ok w)
    (ha : mtdStartParameters env k p obj.init args fl kw w.2 = Py.raise e) :
    mtdFitTransformF env obj data args fl kw = Run.raise e { obj with randomState := w.2 } := by
  obtain ⟨q, hq, rfl⟩ := checkParams_components hk hv
  have hdef : defaultComponents obj.nComponents data.cols = obj.nComponents :=
    defaultComponents_some (by rw [hk]; simp)
  have hdict := Run.eq_ok_of_toPy ((mtdStartDictionaryF_toPy _ _ _ _ _ _ _).trans hd)
  have hstart : mtdStartF env data.val q.1 p obj.init args fl kw obj.randomState =
      Run.raise e w.2 := by
    unfold mtdStartF
    rw [if_neg hinit, hdict]
    change (Run.lift d.2 (mtdStartWeights env data.rows q.1 obj.init args fl kw d.2) >>= _) = _
    rw [hw]
    change (Run.lift w.2 (mtdStartParameters env q.1 p obj.init args fl kw w.2) >>= _) = _
    rw [ha]
    rfl
  unfold mtdFitTransformF mtdConvexCodingF
  simp only
  rw [hdef, hq]
  change (Run.within _ (mtdStartF env data.val q.1 p obj.init args fl kw obj.randomState) >>= _) >>=
    _ = _
  rw [hstart]
  rfl

end MTD

/-! ### Cases -/

/-- The drawn start index (3 mod 3) is among the excluded ones. -/
example : gpnhFitTransformF demoEnv { demoObj with init := some "furthest_sum" } demoData none none
    { exclude := some [0] } true true =
      Run.raise .valueError
        { demoObj with init := some "furthest_sum", randomState := plainG 4 } := by
  obtain ⟨D, hD⟩ := dissimilarities_gram demoEnv.sqrt demoData.val
  obtain ⟨hr, hc⟩ := dissimilarities_ok hD
  replace hr : D.rows = 3 := hr
  replace hc : D.cols = 3 := hc
  refine C100_gpnh_furthest_sum_failed (env := demoEnv)
    (obj := { demoObj with init := some "furthest_sum" }) (k := 2) rfl
    ⟨⟨2, rfl, by norm_num⟩, ⟨4, rfl, by norm_num⟩, Or.inr ⟨1 / 1000, rfl, by norm_num⟩⟩ rfl rfl
    (by decide) hD ?_
  unfold furthestSum furthestSumImpl
  rw [if_neg (by rw [hr, hc]; simp), if_neg (by norm_num), hr]
  rfl

/-- A keyword for FurthestSum, with a generator as `random_state`. -/
example : kaaFitTransformF demoEnv
    { plainKAA with init := some "random", randomState := .gen (plainG 0) }
    (Arr2.of (!![0, -100; -100, 0] : Matrix (Fin 2) (Fin 2) ℚ)) none none
    { nExtraSteps := some 5 } true true =
      Run.raise .typeError
        { plainKAA with init := some "random", randomState := .gen (plainG 1) } := by
  have hd : ∃ d, kaaInitDictionary demoEnv (!![0, -100; -100, 0] : Matrix (Fin 2) (Fin 2) ℚ) 2
      (some "random") { nExtraSteps := some 5 } (plainG 0) = Py.ok (d, plainG 1) := by
    exact ⟨_, if_neg (by
      push Not
      intro i _
      exact ne_of_gt (Finset.sum_pos (fun j _ => demoRng_uniform_pos _ _ _ _ _) ⟨0, by simp⟩))⟩
  obtain ⟨d, hd⟩ := hd
  exact C100_kaa_keyword_failed (env := demoEnv)
    (obj := { plainKAA with init := some "random", randomState := .gen (plainG 0) }) (k := 2) rfl
    ⟨⟨2, rfl, by norm_num⟩, ⟨1000, rfl, by norm_num⟩, Or.inr ⟨1 / 10 ^ 4, rfl, by norm_num⟩⟩
    (by decide) rfl hd

/-- Weights for two samples where there are three, with a dictionary drawn before. -/
example : ∃ g, mtdFitTransformF demoEnv mtdDemoObj demoData
    { weights := some (Arr2.of (!![1, 0; 0, 1] : Matrix (Fin 2) (Fin 2) ℚ)) }
    { updateWeights := false } {} =
      Run.raise .valueError { mtdDemoObj with randomState := g } ∧ g = plainG 4 := by
  refine ⟨plainG 4, ?_, rfl⟩
  exact C100_mtd_weights_rejected (k := 2)
    (d := (fun i j => _, plainG 4)) rfl
    ⟨⟨2, rfl, by norm_num⟩, ⟨4, rfl, by norm_num⟩, Or.inr ⟨1 / 1000, rfl, by norm_num⟩⟩ (by decide)
    rfl rfl

end Reor
