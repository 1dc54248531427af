import Mathlib.Data.Rat.Floor
import Verif.Proofs.DTypes
import Verif.Props.Converge
import Verif.Props.ConvergeGPNH
import Verif.Props.GPNHCROM
import Verif.Props.MTDFit

/-!
Property C89: integer arrays given to the estimators of src/reor/archetypal_analysis.py,
src/reor/gpnh_convex_coding.py, src/reor/mtd_convex_coding.py and
src/reor/gpnh_convex_coding_crom.py.
-/

namespace Reor

set_option linter.unusedSectionVars false

open scoped BigOperators Matrix
open Spec

variable {K : Type} [Field K] [LinearOrder K] [IsStrictOrderedRing K]

/-! ### Kernel archetypal analysis -/

/-- C89.  Whenever no integer array is written to, a fit is the one of the model with numbers only:
always for floating point arrays, and for an integer kernel when the start is random. -/
theorem C89_kaa_fit_unaffected {env : Env K} (obj : KAAObj env.rng) (t : ArgTypes) (kernel : Arr2 K)
    (dictionary weights : Option (Arr2 K)) (kw : InitKwargs) (ud uw : Bool)
    (h : (t.data = .float ∧ t.dictionary = .float ∧ t.weights = .float) ∨
      (obj.init = some "random" ∧ ud = true ∧ uw = true)) :
    kaaFitTransformT env obj t kernel dictionary weights kw ud uw =
      kaaFitTransform env obj kernel dictionary weights kw ud uw := by
  unfold kaaFitTransformT kaaFitTransform
  rw [kernelAAT_congr]
  rcases h with ⟨a, b, c⟩ | ⟨a, rfl, rfl⟩
  · have e : kaaStartTypes obj.init t.data t.dictionary t.weights ud uw =
        ⟨.float, .float, .float⟩ := by
      unfold kaaStartTypes kaaDictionaryType
      rw [a, b, c]
      simp
    rw [e]
    simp [KAATypes.Fine]
  · rw [a]
    simp [kaaStartTypes, kaaDictionaryType, KAATypes.Fine]

/-- C89.  The dictionary of the default start has the dtype of the kernel, so a fit of an integer
kernel never returns; where the numbers would have given a result it ends with TypeError, or with
ValueError if `delta > 0`. -/
theorem C89_kaa_integer_kernel_fit_fails {env : Env K} (obj : KAAObj env.rng)
    (hinit : obj.init = none ∨ obj.init = some "furthest_sum") (t : ArgTypes) (ht : t.data = .int)
    (kernel : Arr2 K) (dictionary weights : Option (Arr2 K)) (kw : InitKwargs) (uw : Bool) :
    (∀ res, kaaFitTransformT env obj t kernel dictionary weights kw true uw ≠ Py.ok res) ∧
    (∀ res, kaaFitTransform env obj kernel dictionary weights kw true uw = Py.ok res →
      kaaFitTransformT env obj t kernel dictionary weights kw true uw =
        Py.raise (if obj.delta ≤ 0 then .typeError else .valueError)) := by
  obtain ⟨hC, hK⟩ := kaaStartTypes_default hinit t.data t.dictionary t.weights uw
  rw [ht] at hC hK
  constructor
  · intro res h
    unfold kaaFitTransformT at h
    obtain ⟨r, hr, -⟩ := Py.bind_eq_ok.1 h
    exact kernelAAT_not_ok (Or.inl ⟨rfl, by rw [ht]; exact hC⟩) r hr
  · intro res h
    unfold kaaFitTransform at h
    obtain ⟨r, hr, -⟩ := Py.bind_eq_ok.1 h
    unfold kaaFitTransformT
    rw [kernelAAT_raise (by rw [ht]) (e := if obj.delta ≤ 0 then .typeError else .valueError) ?_ hr]
    · rfl
    · intro k maxIter tol s r hm _
      by_cases hd : obj.delta ≤ 0
      · rw [if_pos hd]
        exact kaaIterateT_first hm hd hC
      · rw [if_neg hd]
        exact kaaIterateT_cost (not_le.1 hd) hK hC

/-- C89.  With the default settings the fit of an integer kernel with at least as many samples as
components, symmetric and with real distances, ends with TypeError. -/
theorem C89_kaa_integer_kernel_type_error [Archimedean K] {env : Env K} (hR : env.rng.Lawful)
    (hpos : ∀ m n g i j, 0 < (env.rng.uniform m n g).1 i j)
    (obj : KAAObj env.rng) (h1 : 0 < obj.ls.sigmaOne) (h2 : obj.ls.sigmaTwo < 1)
    (hg0 : 0 ≤ obj.ls.gamma) (hg1 : obj.ls.gamma < 1) (ht : obj.ls.stepSizeTolerance = 0)
    (ha0 : 0 < obj.ls.alphaMin) (ha1 : obj.ls.alphaMin ≤ obj.ls.alphaMax)
    (hmem : obj.ls.memory = 1) (hdelta : obj.delta ≤ 0)
    (hinit : obj.init = none ∨ obj.init = some "furthest_sum") {n k : ℕ}
    (hv : ValidParams obj.nComponents obj.maxIterations obj.tolerance)
    (hc : obj.nComponents = .int k) (hkn : k ≤ n)
    (A : Matrix (Fin n) (Fin n) K) (hA : ∀ i j, A i j = A j i)
    (hdist : ∀ i j, 0 ≤ A j j - 2 * A i j + A i i) (t : ArgTypes) (htt : t.data = .int)
    (dictionary weights : Option (Arr2 K)) :
    kaaFitTransformT env obj t (Arr2.of A) dictionary weights {} = Py.raise .typeError := by
  obtain ⟨res, h⟩ := C33_kaa_default_fit_returns hR hpos obj h1 h2 hg0 hg1 ht ha0 ha1 hmem hdelta
    hinit hv hc hkn A hA hdist dictionary weights
  have := (C89_kaa_integer_kernel_fit_fails obj hinit t htt (Arr2.of A) dictionary weights {}
    true).2 res h
  rwa [if_pos hdelta] at this

/-- C89.  The same for `ArchetypalAnalysis` and integer data. -/
theorem C89_aa_integer_data_fit_fails {env : Env K} (obj : KAAObj env.rng)
    (hinit : obj.init = none ∨ obj.init = some "furthest_sum") (t : ArgTypes) (ht : t.data = .int)
    (data : Arr2 K) (dictionary weights : Option (Arr2 K)) (kw : InitKwargs) (uw : Bool) :
    (∀ res, aaFitTransformT env obj none none t data dictionary weights kw true uw ≠ Py.ok res) ∧
    (∀ res, aaFitTransform env obj none data dictionary weights kw true uw = Py.ok res →
      aaFitTransformT env obj none none t data dictionary weights kw true uw =
        Py.raise (if obj.delta ≤ 0 then .typeError else .valueError)) := by
  have key := C89_kaa_integer_kernel_fit_fails obj hinit
    { t with data := aaKernelType none t.data } (by rw [ht]; rfl) (Arr2.of (data.val * data.valᵀ))
    dictionary weights kw uw
  exact key

/-- C89.  A factor given as an integer array cannot be updated: the fit never returns, and where the
numbers would have given a result it ends with TypeError (unless the first evaluation of the cost
fails already, which needs `delta > 0`). -/
theorem C89_kaa_integer_factor_fit_fails {env : Env K} (obj : KAAObj env.rng)
    (hinit : obj.init = some "custom") (t : ArgTypes) (kernel : Arr2 K)
    (dictionary weights : Option (Arr2 K)) (kw : InitKwargs) (ud uw : Bool)
    (h : (ud = true ∧ t.dictionary = .int) ∨ (uw = true ∧ t.weights = .int)) :
    (∀ res, kaaFitTransformT env obj t kernel dictionary weights kw ud uw ≠ Py.ok res) ∧
    (obj.delta ≤ 0 → ∀ res,
      kaaFitTransform env obj kernel dictionary weights kw ud uw = Py.ok res →
      kaaFitTransformT env obj t kernel dictionary weights kw ud uw = Py.raise .typeError) := by
  have e : kaaStartTypes obj.init t.data t.dictionary t.weights ud uw =
      ⟨t.data, t.weights, t.dictionary⟩ := by
    rw [hinit]
    rfl
  constructor
  · intro res hres
    unfold kaaFitTransformT at hres
    obtain ⟨r, hr, -⟩ := Py.bind_eq_ok.1 hres
    exact kernelAAT_not_ok (by rw [e]; exact h) r hr
  · intro hd res hres
    unfold kaaFitTransform at hres
    obtain ⟨r, hr, -⟩ := Py.bind_eq_ok.1 hres
    unfold kaaFitTransformT
    rw [kernelAAT_raise e (e := .typeError) ?_ hr]
    · rfl
    · intro k maxIter tol s r hm hr
      exact kaaIterateT_raise (fun h => absurd h.1 (not_lt.2 hd)) h hr

/-- C89.  `transform` is not affected by the dtype of the kernel if the dictionary of the model is
floating point, as it is after a fit that updated it. -/
theorem C89_kaa_transform_unaffected {env : Env K} (obj : KAAObj env.rng)
    (hinit : obj.init ≠ some "custom") (t : ArgTypes) (ht : t.dictionary = .float)
    (kernel : Arr2 K) : kaaTransformT env obj t kernel = kaaTransform env obj kernel := by
  unfold kaaTransformT kaaTransform
  rw [kernelAAT_congr]
  simp [kaaStartTypes, hinit, ht, KAATypes.Fine]

/-- The kernel of the examples, given as an array of integers. -/
example : kaaFitTransformT demoEnv demoKAA { data := .int } (Arr2.of demoKernel) none none {} =
    Py.raise .typeError :=
  C89_kaa_integer_kernel_type_error demoRng_lawful demoRng_uniform_pos demoKAA
    (by norm_num [demoKAA, demoLS]) (by norm_num [demoKAA, demoLS]) (by norm_num [demoKAA, demoLS])
    (by norm_num [demoKAA, demoLS]) rfl (by norm_num [demoKAA, demoLS])
    (by norm_num [demoKAA, demoLS]) rfl (by norm_num [demoKAA]) (Or.inl rfl) demoKAA_valid rfl
    (by norm_num) demoKernel demoKernel_symm demoKernel_dist _ rfl none none

/-- The same kernel as floating point numbers. -/
example : ∃ res, kaaFitTransformT demoEnv demoKAA { data := .float } (Arr2.of demoKernel) none none
    {} = Py.ok res := by
  obtain ⟨res, h⟩ := demo_kaa_fit
  exact ⟨res, (C89_kaa_fit_unaffected demoKAA _ _ none none {} true true
    (Or.inl ⟨rfl, rfl, rfl⟩)).trans h⟩

/-! ### GPNH convex coding -/

/-- C89.  Whenever no integer array is written to, a fit is the one of the model with numbers only:
for floating point arrays, and for integer data when the start is random. -/
theorem C89_gpnh_fit_unaffected {env : Env K} (obj : GPNHObj env.rng) (t : ArgTypes)
    (data : Arr2 K) (dictionary weights : Option (Arr2 K)) (kw : InitKwargs) (ud uw : Bool)
    (h : (t.data = .float ∧ t.dictionary = .float ∧ t.weights = .float) ∨
      ((obj.init = none ∨ obj.init = some "random") ∧ ud = true)) :
    gpnhFitTransformT env obj t data dictionary weights kw ud uw =
      gpnhFitTransform env obj data dictionary weights kw ud uw := by
  unfold gpnhFitTransformT gpnhFitTransform
  rw [gpnhConvexCodingT_congr]
  · intro hud
    rcases h with ⟨a, b, c⟩ | ⟨a | a, -⟩
    · simp [gpnhStartTypes, gpnhDictionaryType, a, b, DType.join]
      split_ifs <;> rfl
    · simp [gpnhStartTypes, gpnhDictionaryType, a, hud]
      split_ifs <;> rfl
    · simp [gpnhStartTypes, gpnhDictionaryType, a, hud]
      split_ifs <;> rfl
  · intro huw
    rcases h with ⟨a, b, c⟩ | ⟨a | a, b⟩
    · simp [gpnhStartTypes, c]
      split_ifs <;> rfl
    · simp [gpnhStartTypes, a, b, huw]
    · simp [gpnhStartTypes, a, b, huw]

/-- C89.  The dictionary of a FurthestSum start has the dtype of the data, so a fit of integer data
never returns; where the numbers would have given a result it ends with TypeError. -/
theorem C89_gpnh_integer_data_furthest_sum_fails {env : Env K} (obj : GPNHObj env.rng)
    (hinit : obj.init = some "furthest_sum") (t : ArgTypes) (ht : t.data = .int)
    (data : Arr2 K) (dictionary weights : Option (Arr2 K)) (kw : InitKwargs) (uw : Bool) :
    (∀ res, gpnhFitTransformT env obj t data dictionary weights kw true uw ≠ Py.ok res) ∧
    (∀ res, gpnhFitTransform env obj data dictionary weights kw true uw = Py.ok res →
      gpnhFitTransformT env obj t data dictionary weights kw true uw = Py.raise .typeError) := by
  have e : (gpnhStartTypes obj.init t true uw).S = .int := by
    rw [hinit]
    cases uw <;> simp [gpnhStartTypes, gpnhDictionaryType, ht, DType.join]
  constructor
  · intro res hres
    unfold gpnhFitTransformT at hres
    obtain ⟨r, hr, -⟩ := Py.bind_eq_ok.1 hres
    exact gpnhConvexCodingT_not_ok (Or.inl ⟨rfl, e⟩) r hr
  · intro res hres
    unfold gpnhFitTransform at hres
    obtain ⟨r, hr, -⟩ := Py.bind_eq_ok.1 hres
    unfold gpnhFitTransformT
    rw [gpnhConvexCodingT_raise (Or.inl ⟨rfl, e⟩) hr]
    rfl

/-- C89.  With settings under which the fit of floating point data from a FurthestSum start returns,
the fit of integer data ends with TypeError. -/
theorem C89_gpnh_integer_data_type_error [Archimedean K] {env : Env K} (hR : env.rng.Lawful)
    (hpos : ∀ m n g i j, 0 < (env.rng.uniform m n g).1 i j)
    (obj : GPNHObj env.rng) (h1 : 0 < obj.ls.sigmaOne) (h2 : obj.ls.sigmaTwo < 1)
    (hg0 : 0 ≤ obj.ls.gamma) (hg1 : obj.ls.gamma < 1) (ht : obj.ls.stepSizeTolerance = 0)
    (ha0 : 0 < obj.ls.alphaMin) (ha1 : obj.ls.alphaMin ≤ obj.ls.alphaMax)
    (hmem : obj.ls.memory = 1) (hinit : obj.init = some "furthest_sum") {T D k : ℕ}
    (X : Matrix (Fin T) (Fin D) K) (hD : 1 ≤ D)
    (hv : ValidParams obj.nComponents obj.maxIterations obj.tolerance)
    (hc : obj.nComponents = .int k) (hkT : k ≤ T) (t : ArgTypes) (htt : t.data = .int)
    (dictionary weights : Option (Arr2 K)) :
    gpnhFitTransformT env obj t (Arr2.of X) dictionary weights {} = Py.raise .typeError := by
  obtain ⟨res, h⟩ := C21_gpnh_furthest_sum_fit_returns hR hpos obj h1 h2 hg0 hg1 ht ha0 ha1 hmem
    hinit X hD hv hc hkT dictionary weights
  exact (C89_gpnh_integer_data_furthest_sum_fails obj hinit t htt (Arr2.of X) dictionary weights {}
    true).2 res h

example : gpnhFitTransformT demoEnv { demoObj with init := some "furthest_sum" } { data := .int }
    demoData none none {} = Py.raise .typeError :=
  C89_gpnh_integer_data_type_error demoRng_lawful demoRng_uniform_pos
    { demoObj with init := some "furthest_sum" }
    (by norm_num [demoObj, demoLS]) (by norm_num [demoObj, demoLS])
    (by norm_num [demoObj, demoLS]) (by norm_num [demoObj, demoLS]) rfl
    (by norm_num [demoObj, demoLS]) (by norm_num [demoObj, demoLS]) rfl rfl _ (by norm_num)
    ⟨⟨2, rfl, by norm_num⟩, ⟨_, rfl, by norm_num⟩, Or.inr ⟨_, rfl, by norm_num⟩⟩
    (k := 2) rfl (by norm_num) _ rfl none none

/-- C89.  A factor given as an integer array cannot be updated. -/
theorem C89_gpnh_integer_factor_fit_fails {env : Env K} (obj : GPNHObj env.rng)
    (hinit : obj.init = some "custom") (t : ArgTypes) (data : Arr2 K)
    (dictionary weights : Option (Arr2 K)) (kw : InitKwargs) (ud uw : Bool)
    (h : (ud = true ∧ t.dictionary = .int) ∨ (uw = true ∧ t.weights = .int)) :
    (∀ res, gpnhFitTransformT env obj t data dictionary weights kw ud uw ≠ Py.ok res) ∧
    (∀ res, gpnhFitTransform env obj data dictionary weights kw ud uw = Py.ok res →
      gpnhFitTransformT env obj t data dictionary weights kw ud uw = Py.raise .typeError) := by
  have e : gpnhStartTypes obj.init t ud uw = ⟨t.weights, t.dictionary⟩ := by
    rw [hinit]
    rfl
  constructor
  · intro res hres
    unfold gpnhFitTransformT at hres
    obtain ⟨r, hr, -⟩ := Py.bind_eq_ok.1 hres
    exact gpnhConvexCodingT_not_ok (by rw [e]; exact h) r hr
  · intro res hres
    unfold gpnhFitTransform at hres
    obtain ⟨r, hr, -⟩ := Py.bind_eq_ok.1 hres
    unfold gpnhFitTransformT
    rw [gpnhConvexCodingT_raise (by rw [e]; exact h) hr]
    rfl

/-- C89.  `transform` is not affected by dtypes. -/
theorem C89_gpnh_transform_unaffected {env : Env K} (obj : GPNHObj env.rng)
    (hinit : obj.init ≠ some "custom") (t : ArgTypes) (data : Arr2 K) :
    gpnhTransformT env obj t data = gpnhTransform env obj data := by
  unfold gpnhTransformT gpnhTransform
  rw [gpnhConvexCodingT_congr]
  · simp
  · simp [gpnhStartTypes, hinit]

/-! ### Convex coding with a mixture transition model -/

section MTD

variable [FloorRing K] {p : ℕ}

/-- C89.  With floating point arrays a fit is the one of the model with numbers only. -/
theorem C89_mtd_floating_point_fit {env : Env K} (obj : MTDObj env.rng p) (data : Arr2 K)
    (args : MTDArgs K) (fl : MTDFlags) (kw : InitKwargs) :
    mtdFitTransformT env obj ⟨⟨.float, .float, .float⟩, .float, .float⟩ data args fl kw =
      mtdFitTransform env obj data args fl kw := by
  unfold mtdFitTransformT mtdFitTransform mtdConvexCodingT mtdConvexCoding
  simp only [mtdStartT_float, mtdStartTypes_float, mtdSolveT_float]

/-- C89.  The random transition matrices have the dtype of the data, so a fit of integer data that
fits the parameters from a random start never returns. -/
theorem C89_mtd_integer_data_fit_fails {env : Env K} (obj : MTDObj env.rng p)
    (hinit : obj.init ≠ some "custom") (t : MTDArgTypes) (ht : t.data = .int) (data : Arr2 K)
    (args : MTDArgs K) (fl : MTDFlags) (hfl : fl.updateParameters = true) (kw : InitKwargs)
    (res : MTDObj env.rng p × Option (Arr2 K) × FitInfo K) :
    mtdFitTransformT env obj t data args fl kw ≠ Py.ok res := by
  intro h
  unfold mtdFitTransformT at h
  obtain ⟨r, hr, -⟩ := Py.bind_eq_ok.1 h
  unfold mtdConvexCodingT at hr
  simp only at hr
  obtain ⟨q, hq, hr⟩ := Py.bind_eq_ok.1 hr
  obtain ⟨start, hst, hr⟩ := Py.bind_eq_ok.1 hr
  obtain ⟨r', hr', -⟩ := Py.bind_eq_ok.1 hr
  refine mtdSolveT_not_ok hfl ?_ r' hr'
  simp [mtdStartTypes, hinit, hfl, ht]

/-- C89.  With the default start and settings under which every update of floating point data goes
through, the fit of integer data ends with TypeError: the dictionary and the weights are updated
once, the parameters cannot be. -/
theorem C89_mtd_integer_data_type_error [Archimedean K] {env : Env K} (hR : env.rng.Lawful)
    (hpos : ∀ m n g i j, 0 < (env.rng.uniform m n g).1 i j)
    (obj : MTDObj env.rng p) (hp : 1 ≤ p)
    (h1 : 0 < obj.ls.sigmaOne) (h2 : obj.ls.sigmaTwo < 1)
    (hg0 : 0 ≤ obj.ls.gamma) (hg1 : obj.ls.gamma < 1) (ht : obj.ls.stepSizeTolerance = 0)
    (ha0 : 0 < obj.ls.alphaMin) (ha1 : obj.ls.alphaMin ≤ obj.ls.alphaMax)
    (hmem : obj.ls.memory = 1) (hinit : obj.init = none ∨ obj.init = some "random")
    (data : Arr2 K) (hdata : data.cols * data.rows ≠ 0)
    (hT : data.rows ≠ Finset.univ.sup obj.lags)
    (hv : ValidConfig obj.nComponents data.cols obj.maxIterations obj.tolerance)
    (t : MTDArgTypes) (htt : t.data = .int) (args : MTDArgs K) :
    mtdFitTransformT env obj t data args {} {} = Py.raise .typeError := by
  rw [validConfig_iff] at hv
  obtain ⟨q, hq, -, -, hk, hm, -, -⟩ := checkParams_valid hv
  have hc : obj.init ≠ some "custom" := by rcases hinit with h | h <;> rw [h] <;> simp
  obtain ⟨start, hst⟩ := mtdStart_random_ok hpos (data := data.val) hdata hk p hinit (args := args)
    (g := obj.randomState)
  have hW : RowStochastic start.1.2.1 := mtdStart_weights_drawn hR hk hc rfl hst
  have hs : mtdSolveT obj.config obj.require q.2.2 q.2.1 {} (mtdStartTypes obj.init t {}) data.val
      (start.1.1, start.1.2.1, start.1.2.2.1, fun i a b => DType.int.store (start.1.2.2.2 i a b)) =
        Py.raise .typeError := by
    refine mtdSolveT_raise (c := obj.config) h1 h2 hg0 hg1 ht ha0 ha1 hmem hk hp hdata hT hm ?_ ?_ ?_ hW
    · simp [mtdStartTypes, hc]
    · rcases hinit with h | h <;> simp [mtdStartTypes, gpnhDictionaryType, h]
    · simp [mtdStartTypes, hc, htt]
  unfold mtdFitTransformT mtdConvexCodingT mtdStartT
  simp only [hq, Py.ok_bind, hst, htt, hc, false_or, Bool.true_eq_false, if_false, Py.pure_eq]
  erw [hs]
  rfl

example : mtdFitTransformT demoEnv mtdDemoObj { data := .int } demoData {} {} {} =
    Py.raise .typeError :=
  C89_mtd_integer_data_type_error demoRng_lawful demoRng_uniform_pos mtdDemoObj (by norm_num)
    (by norm_num [mtdDemoObj, demoLS]) (by norm_num [mtdDemoObj, demoLS])
    (by norm_num [mtdDemoObj, demoLS]) (by norm_num [mtdDemoObj, demoLS]) rfl
    (by norm_num [mtdDemoObj, demoLS])
    (by norm_num [mtdDemoObj, demoLS]) rfl (Or.inl rfl) demoData (by norm_num [demoData, Arr2.of])
    (by show (3 : ℕ) ≠ Finset.univ.sup ![1, 2]; decide)
    ⟨Or.inr ⟨2, rfl, by norm_num⟩, ⟨4, rfl, by norm_num⟩, Or.inr ⟨_, rfl, by norm_num⟩⟩ _ rfl {}

/-- C89.  What is stored: with at least two components and positive random numbers every entry of the
drawn transition matrices is below one, and the stored matrices are zero. -/
theorem C89_mtd_integer_start_zero {env : Env K}
    (hpos : ∀ m n g i j, 0 < (env.rng.uniform m n g).1 i j) {T D k : ℕ} (hk : 2 ≤ k)
    (data : Matrix (Fin T) (Fin D) K) (init : Option String) (hinit : init ≠ some "custom")
    (args : MTDArgs K) (fl : MTDFlags) (hfl : fl.updateParameters = true) (kw : InitKwargs)
    (g : env.rng.G) (start : MTDPoint T D k p K × env.rng.G)
    (h : mtdStartT env .int data k p init args fl kw g = Py.ok start) (i : Fin p) (a b : Fin k) :
    start.1.2.2.2 i a b = 0 := by
  unfold mtdStartT at h
  obtain ⟨st, hst, h⟩ := Py.bind_eq_ok.1 h
  rw [if_neg (by simp [hinit, hfl])] at h
  simp only [Py.pure_eq, Py.ok.injEq] at h
  subst h
  show truncateInt (st.1.2.2.2 i a b) = 0
  have key : ∀ (p : ℕ) (g : env.rng.G) (r : (Fin p → Matrix (Fin k) (Fin k) K) × env.rng.G),
      mtdDrawTransitionMatrices env.rng k p g = Py.ok r →
      ∀ i a b, 0 < r.1 i a b ∧ r.1 i a b < 1 := by
    intro p
    induction p with
    | zero => intro g r _ i; exact i.elim0
    | succ p ih =>
      intro g r h i a b
      unfold mtdDrawTransitionMatrices at h
      obtain ⟨A, hA, h⟩ := Py.bind_eq_ok.1 h
      obtain ⟨rest, hrest, h⟩ := Py.bind_eq_ok.1 h
      simp only [Py.pure_eq, Py.ok.injEq] at h
      subst h
      refine Fin.cases ?_ (fun i => ?_) i
      · simp only [Fin.cons_zero]
        unfold leftStochasticMatrix at hA
        simp only at hA
        split_ifs at hA
        obtain rfl := Py.ok.inj hA
        have hsum : ∀ c : Fin k, (env.rng.uniform k k g).1 a b <
            ∑ l, (env.rng.uniform k k g).1 l b := by
          intro _
          obtain ⟨c, hc⟩ : ∃ c : Fin k, c ≠ a := by
            by_cases h0 : (a : ℕ) = 0
            · exact ⟨⟨1, by omega⟩, fun h => by have := congrArg Fin.val h; simp at this; omega⟩
            · exact ⟨⟨0, by omega⟩, fun h => by have := congrArg Fin.val h; simp at this; omega⟩
          exact Finset.single_lt_sum (f := fun l => (env.rng.uniform k k g).1 l b) hc
            (Finset.mem_univ a) (Finset.mem_univ c) (hpos _ _ _ _ _)
            (fun l _ _ => (hpos _ _ _ _ _).le)
        have h0 := hpos k k g a b
        exact ⟨div_pos h0 (h0.trans (hsum a)), (div_lt_one (h0.trans (hsum a))).2 (hsum a)⟩
      · simp only [Fin.cons_succ]
        exact ih _ _ hrest i a b
  have hA : ∃ g r, mtdDrawTransitionMatrices env.rng k p g = Py.ok r ∧ r.1 = st.1.2.2.2 := by
    unfold mtdStart at hst
    rw [if_neg hinit] at hst
    obtain ⟨d, -, hst⟩ := Py.bind_eq_ok.1 hst
    obtain ⟨w, -, hst⟩ := Py.bind_eq_ok.1 hst
    obtain ⟨q, hq, hst⟩ := Py.bind_eq_ok.1 hst
    simp only [Py.pure_eq, Py.ok.injEq] at hst
    subst hst
    unfold mtdStartParameters at hq
    rw [if_pos hfl] at hq
    unfold mtdInitParameters at hq
    simp only at hq
    split_ifs at hq
    unfold mtdInitParametersRandom at hq
    obtain ⟨w', -, hq⟩ := Py.bind_eq_ok.1 hq
    obtain ⟨A, hA, hq⟩ := Py.bind_eq_ok.1 hq
    simp only [Py.pure_eq, Py.ok.injEq] at hq
    subst hq
    exact ⟨_, A, hA, rfl⟩
  obtain ⟨g', r, hr, e⟩ := hA
  obtain ⟨x0, x1⟩ := key p g' r hr i a b
  rw [e] at x0 x1
  unfold truncateInt
  rw [if_pos x0.le, Int.floor_eq_zero_iff.2 ⟨x0.le, x1⟩, Int.cast_zero]

/-! ### The two-step estimator -/

/-- C89.  With floating point arrays a fit is the one of the model with numbers only. -/
theorem C89_crom_floating_point_fit {env : Env K} (obj : CROMObj env.rng p) (data : Arr2 K)
    (dictionary weights : Option (Arr2 K)) (kw : InitKwargs) (ud uw : Bool) :
    cromFitTransformT env obj ⟨.float, .float, .float⟩ data dictionary weights kw ud uw =
      cromFitTransform env obj data dictionary weights kw ud uw := by
  unfold cromFitTransformT cromFitTransform cromFitParametersT cromFitParameters
  have e : (gpnhStartTypes obj.base.init ⟨.float, .float, .float⟩ ud uw).Gamma = .float := by
    unfold gpnhStartTypes
    split_ifs <;> rfl
  rw [C89_gpnh_fit_unaffected obj.base ⟨.float, .float, .float⟩ data dictionary weights kw ud uw
    (Or.inl ⟨rfl, rfl, rfl⟩), e]
  simp only [DType.store_float]
  have key := fun (T k : ℕ) (require : Bool) (tol : K) (maxIter : ℕ) (W : Matrix (Fin T) (Fin k) K)
    (w : Fin p → K) (A : Fin p → Matrix (Fin k) (Fin k) K) =>
    cromSolveT_float (c := obj.config) (require := require) (tol := tol) (maxIter := maxIter)
      (W := W) (w := w) (A := A)
  simp only [← key]
  rfl

/-- C89.  The transition matrices have the dtype of the data, so a fit of integer data never
returns; where the numbers would have given a result with floating point weights it ends with
TypeError. -/
theorem C89_crom_integer_data_fit_fails {env : Env K} (obj : CROMObj env.rng p) (t : ArgTypes)
    (ht : t.data = .int) (data : Arr2 K) (dictionary weights : Option (Arr2 K)) (kw : InitKwargs)
    (ud uw : Bool) :
    (∀ res, cromFitTransformT env obj t data dictionary weights kw ud uw ≠ Py.ok res) ∧
    (obj.base.init ≠ some "custom" → uw = true → ∀ res,
      cromFitTransform env obj data dictionary weights kw ud uw = Py.ok res →
      cromFitTransformT env obj t data dictionary weights kw ud uw = Py.raise .typeError) := by
  constructor
  · intro res h
    unfold cromFitTransformT at h
    obtain ⟨r, hr, h⟩ := Py.bind_eq_ok.1 h
    obtain ⟨q, hq, h⟩ := Py.bind_eq_ok.1 h
    cases hG : r.1.Gamma with
    | none => simp [hG] at h
    | some G =>
      simp only [hG] at h
      obtain ⟨f, hf, -⟩ := Py.bind_eq_ok.1 h
      unfold cromFitParametersT at hf
      obtain ⟨w, -, hf⟩ := Py.bind_eq_ok.1 hf
      obtain ⟨A, -, hf⟩ := Py.bind_eq_ok.1 hf
      obtain ⟨r', hr', -⟩ := Py.bind_eq_ok.1 hf
      rw [ht] at hr'
      exact cromSolveT_not_ok r' hr'
  · rintro hinit rfl res h
    unfold cromFitTransform at h
    obtain ⟨r, hr, h⟩ := Py.bind_eq_ok.1 h
    obtain ⟨q, hq, h⟩ := Py.bind_eq_ok.1 h
    have hGt : (gpnhStartTypes obj.base.init t ud true).Gamma = .float := by
      cases ud <;> simp [gpnhStartTypes, hinit]
    have hrr : ∃ r0, gpnhConvexCoding env obj.base data dictionary weights ud true kw =
        Py.ok r0 := by
      unfold gpnhFitTransform at hr
      obtain ⟨r0, h0, -⟩ := Py.bind_eq_ok.1 hr
      exact ⟨r0, h0⟩
    obtain ⟨r0, hr0⟩ := hrr
    unfold cromFitTransformT
    by_cases hS : ud = true ∧ (gpnhStartTypes obj.base.init t ud true).S = .int
    · unfold gpnhFitTransformT
      rw [gpnhConvexCodingT_raise (Or.inl hS) hr0]
      rfl
    · have e : gpnhFitTransformT env obj.base t data dictionary weights kw ud true =
          gpnhFitTransform env obj.base data dictionary weights kw ud true := by
        unfold gpnhFitTransformT gpnhFitTransform
        rw [gpnhConvexCodingT_congr]
        · intro hud
          cases hs : (gpnhStartTypes obj.base.init t ud true).S with
          | int => exact absurd ⟨hud, hs⟩ hS
          | float => rfl
        · exact fun _ => hGt
      rw [e, hr, Py.ok_bind, hq, Py.ok_bind]
      cases hG : r.1.Gamma with
      | none => simp [hG] at h
      | some G =>
        simp only [hG] at h ⊢
        obtain ⟨f, hf, -⟩ := Py.bind_eq_ok.1 h
        unfold cromFitParameters at hf
        obtain ⟨w, hw, hf⟩ := Py.bind_eq_ok.1 hf
        obtain ⟨A, hA, hf⟩ := Py.bind_eq_ok.1 hf
        obtain ⟨r', hr', -⟩ := Py.bind_eq_ok.1 hf
        obtain ⟨c1, c2, c3⟩ := cromSolve_eq_ok_conds hr'
        unfold cromFitParametersT
        have hm : 1 ≤ q.2.1 := (checkParams_ok hq).2.2.2.2.1
        have hs := cromSolveT_raise (require := r.1.require) (tol := q.2.2) (W := G.val) (w := w.1)
          (A := fun i a b => DType.int.store (A.1 i a b)) hm c1 c2 c3
        rw [hw, Py.ok_bind, hA, Py.ok_bind, ht, hGt]
        erw [hs]
        rfl

example : cromFitTransformT demoEnv cromDemoObj { data := .int } demoData none none {} =
    Py.raise .typeError := by
  obtain ⟨res, h⟩ := cromDemo_fit
  exact (C89_crom_integer_data_fit_fails cromDemoObj { data := .int } rfl demoData none none {}
    true true).2 (by simp [cromDemoObj, demoObj]) rfl res h

end MTD

end Reor
