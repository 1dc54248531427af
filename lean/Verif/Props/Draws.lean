import Verif.Proofs.Draws
import Verif.Props.MTDFit
import Verif.Props.GPNHCROM
import Verif.Props.KernelAA
import Verif.Props.FEMBV
import Verif.Props.FEMVARX

/-!
C98: which numbers a fit takes from its generator, and in which order, is fixed by the shape of the
data and the settings alone; a random dictionary depends on the data through one number.
-/

namespace Reor

set_option linter.unusedSectionVars false

open scoped BigOperators Matrix
open Spec

variable {K : Type} [Field K] [LinearOrder K] [IsStrictOrderedRing K]
variable {T D k p : ℕ}

/-! ### GPNH convex coding -/

/-- C98.  After a fit of GPNH convex coding the generator is where the draws listed above leave it,
whatever the data and the number of iterations. -/
theorem C98_gpnh_fit_draws {env : Env K} (obj : GPNHObj env.rng)
    (data : Arr2 K) (hc : Components obj.nComponents data.cols k) (dictionary weights : Option (Arr2 K)) (kw : InitKwargs) (ud uw : Bool)
    (obj' : GPNHObj env.rng) (G : Option (Arr2 K)) (info : FitInfo K)
    (h : gpnhFitTransform env obj data dictionary weights kw ud uw = Py.ok (obj', G, info)) :
    obj'.randomState = afterDraws env.rng (gpnhDraws obj.init data.rows data.cols k kw ud uw)
      obj.randomState := by
  obtain ⟨o, i, ho, hres⟩ := gpnhFitTransform_eq_ok h
  obtain ⟨q, start, r, hq, hst, -, hoi⟩ := gpnhConvexCoding_eq_ok ho
  have r1 := congrArg Prod.fst hres
  have r2 := congrArg Prod.fst hoi
  simp only at r1 r2
  obtain rfl := hc.eq hq
  rw [r1, r2]
  exact gpnhStart_draws hst

/-- C98, `transform`: one array of uniform numbers for the weights. -/
theorem C98_gpnh_transform_draws {env : Env K} (obj : GPNHObj env.rng)
    (data : Arr2 K) (hc : Components obj.nComponents data.cols k)
    (obj' : GPNHObj env.rng) (G : Option (Arr2 K)) (info : FitInfo K)
    (h : gpnhTransform env obj data = Py.ok (obj', G, info)) :
    obj'.randomState = afterDraws env.rng [.uniform data.rows k] obj.randomState := by
  obtain ⟨o, i, ho, hres⟩ := gpnhTransform_eq_ok h
  obtain ⟨q, start, r, hq, hst, -, hoi⟩ := gpnhConvexCoding_eq_ok ho
  have r1 := congrArg Prod.fst hres
  have r2 := congrArg Prod.fst hoi
  simp only at r1 r2
  obtain rfl := hc.eq hq
  have hcustom : obj.init ≠ some "custom" := by
    intro hi
    rw [hi] at hst
    simpa using (gpnhStart_custom hst).2.1
  rw [r1, r2]
  have := gpnhStart_draws hst
  rw [gpnhDraws, if_neg hcustom] at this
  simpa using this

/-- C98, values.  The random start: normal numbers times the root of the mean absolute value of the data
divided by the number of components, then, from the generator as the normal numbers left it, uniform
numbers with every row divided by its sum. -/
theorem C98_gpnh_random_start {env : Env K} {data : Matrix (Fin T) (Fin D) K} {init : Option String}
    (hinit : init = none ∨ init = some "random") {dictionary weights : Option (Arr2 K)}
    {kw : InitKwargs} {g : env.rng.G}
    {start : (Matrix (Fin k) (Fin D) K × Matrix (Fin T) (Fin k) K) × env.rng.G}
    (h : gpnhStart env data k init dictionary weights true true kw g = Py.ok start) :
    (∀ j d, start.1.1 j d = env.sqrt ((∑ t, ∑ d, |data t d|) / ((T : K) * (D : K)) / (k : K)) *
      (env.rng.randn k D g).1 j d) ∧
    (∀ t j, start.1.2 t j = (env.rng.uniform T k (env.rng.randn k D g).2).1 t j /
      ∑ i, (env.rng.uniform T k (env.rng.randn k D g).2).1 t i) := by
  unfold gpnhStart at h
  rw [if_neg (by rcases hinit with rfl | rfl <;> simp), if_neg (by simp), if_neg (by simp)] at h
  unfold gpnhInitBoth at h
  have hi : init.getD "random" = "random" := by rcases hinit with rfl | rfl <;> rfl
  simp only [hi] at h
  obtain ⟨d, hd, h⟩ := Py.bind_eq_ok.1 h
  obtain ⟨w, hw, h⟩ := Py.bind_eq_ok.1 h
  obtain rfl := Py.ok.inj h
  unfold gpnhInitDictionary at hd
  simp only [Option.getD_some, if_true] at hd
  unfold gpnhInitDictionaryRandom at hd
  split_ifs at hd
  obtain rfl := Py.ok.inj hd
  unfold gpnhInitWeights at hw
  simp only [Option.getD_some, or_true, if_true] at hw
  split_ifs at hw
  unfold gpnhInitWeightsRandom rightStochasticMatrix at hw
  simp only at hw
  split_ifs at hw
  obtain rfl := Py.ok.inj hw
  refine ⟨fun j d => ?_, fun t j => rfl⟩
  simp [Matrix.smul_apply]

/-- C98.  The random start sees the data only through the mean absolute value: data of the same shape
with the same sum of absolute values, in whatever order and with whatever signs, get the same start. -/
theorem C98_gpnh_start_ignores_signs {env : Env K} {data data' : Matrix (Fin T) (Fin D) K}
    (habs : ∑ t, ∑ d, |data t d| = ∑ t, ∑ d, |data' t d|) {init : Option String}
    (hinit : init = none ∨ init = some "random") (dictionary weights : Option (Arr2 K))
    (kw : InitKwargs) (g : env.rng.G) :
    gpnhStart env data k init dictionary weights true true kw g =
      gpnhStart env data' k init dictionary weights true true kw g := by
  have hi : init.getD "random" = "random" := by rcases hinit with rfl | rfl <;> rfl
  have hd : gpnhInitDictionary env data k (some "random") kw g =
      gpnhInitDictionary env data' k (some "random") kw g := by
    unfold gpnhInitDictionary gpnhInitDictionaryRandom
    simp only [Option.getD_some, if_true, habs]
  unfold gpnhStart
  rw [if_neg (by rcases hinit with rfl | rfl <;> simp), if_neg (by simp), if_neg (by simp),
    if_neg (by rcases hinit with rfl | rfl <;> simp), if_neg (by simp), if_neg (by simp)]
  unfold gpnhInitBoth
  simp only [hi, hd]

/-- C98.  The random dictionary does not follow the unit of the data: data multiplied by `c²` get a
start multiplied by `c`, with the same weights. -/
theorem C98_gpnh_start_scales_with_root {env : Env K} {data : Matrix (Fin T) (Fin D) K} (c : K)
    (hroot : ∀ x, 0 ≤ x → env.sqrt (c ^ 2 * x) = c * env.sqrt x) {init : Option String}
    (hinit : init = none ∨ init = some "random") {dictionary weights : Option (Arr2 K)}
    {kw : InitKwargs} {g : env.rng.G}
    {start start' : (Matrix (Fin k) (Fin D) K × Matrix (Fin T) (Fin k) K) × env.rng.G}
    (h : gpnhStart env data k init dictionary weights true true kw g = Py.ok start)
    (h' : gpnhStart env (c ^ 2 • data) k init dictionary weights true true kw g = Py.ok start') :
    start'.1.1 = c • start.1.1 ∧ start'.1.2 = start.1.2 := by
  obtain ⟨a, b⟩ := C98_gpnh_random_start hinit h
  obtain ⟨a', b'⟩ := C98_gpnh_random_start hinit h'
  refine ⟨?_, ?_⟩
  · ext j d
    have hs : (∑ t, ∑ d, |(c ^ 2 • data) t d|) = c ^ 2 * ∑ t, ∑ d, |data t d| := by
      simp only [Matrix.smul_apply, smul_eq_mul, abs_mul, abs_of_nonneg (sq_nonneg c),
        Finset.mul_sum]
    rw [a', Matrix.smul_apply, a, hs, mul_div_assoc, mul_div_assoc, hroot _ (by positivity),
      smul_eq_mul, mul_assoc]
  · ext t j
    rw [b', b]

/-! ### Archetypal analysis -/

/-- C98.  A generator object given to kernel archetypal analysis is left where the listed draws leave
it; an integer seed stays what it is. -/
theorem C98_kaa_fit_draws {env : Env K} (obj : KAAObj env.rng) (kernel : Arr2 K)
    (hc : Components obj.nComponents kernel.rows k) (dictionary weights : Option (Arr2 K))
    (kw : InitKwargs) (ud uw : Bool) (obj' : KAAObj env.rng) (G : Option (Arr2 K))
    (info : FitInfo K)
    (h : kaaFitTransform env obj kernel dictionary weights kw ud uw = Py.ok (obj', G, info)) :
    (∀ g, obj.randomState = .gen g → obj'.randomState =
      .gen (afterDraws env.rng (kaaDraws obj.init kernel.rows k kw ud uw) g)) ∧
    (∀ s, obj.randomState = .seed s → obj'.randomState = .seed s) := by
  unfold kaaFitTransform at h
  obtain ⟨res, hres, h⟩ := Py.bind_eq_ok.1 h
  obtain ⟨n, A, rfl⟩ := kernelAA_square hres
  rw [kernelAA_of] at hres
  obtain ⟨p, start, r, hp, hst, hr, rfl⟩ := kernelAASquare_eq_ok hres
  have r1 := congrArg Prod.fst (Py.ok.inj h)
  simp only [kaaFinish] at r1
  obtain rfl := hc.eq hp
  have hd := kaaStart_draws hst
  refine ⟨fun g hg => ?_, fun s hs => ?_⟩
  · rw [hg] at hd r1
    rw [← r1]
    exact congrArg RandomArg.gen hd
  · rw [hs] at r1
    rw [← r1]
    rfl

/-- C98, `transform` of kernel archetypal analysis. -/
theorem C98_kaa_transform_draws {env : Env K} (obj : KAAObj env.rng) (kernel : Arr2 K)
    (hc : Components obj.nComponents kernel.rows k) (obj' : KAAObj env.rng) (G : Option (Arr2 K))
    (info : FitInfo K) (h : kaaTransform env obj kernel = Py.ok (obj', G, info)) :
    (∀ g, obj.randomState = .gen g → obj'.randomState =
      .gen (afterDraws env.rng [.uniform kernel.rows k] g)) ∧
    (∀ s, obj.randomState = .seed s → obj'.randomState = .seed s) := by
  unfold kaaTransform at h
  obtain ⟨res, hres, h⟩ := Py.bind_eq_ok.1 h
  obtain ⟨n, A, rfl⟩ := kernelAA_square hres
  rw [kernelAA_of] at hres
  obtain ⟨p, start, r, hp, hst, hr, rfl⟩ := kernelAASquare_eq_ok hres
  have r1 := congrArg Prod.fst (Py.ok.inj h)
  simp only at r1
  obtain rfl := hc.eq hp
  have hcustom : obj.init ≠ some "custom" := by
    intro hi
    unfold kaaStart at hst
    rw [if_pos hi] at hst
    obtain ⟨w, hw, -⟩ := Py.bind_eq_ok.1 hst
    simp [kaaCheckInitWeights, checkArray] at hw
  have hd := kaaStart_draws hst
  rw [kaaDraws, if_neg hcustom] at hd
  replace hd : start.2 = afterDraws env.rng [.uniform n p.1] obj.randomState.start := by
    simpa using hd
  refine ⟨fun g hg => ?_, fun s hs => ?_⟩
  · rw [hg] at hd r1
    rw [← r1]
    exact congrArg RandomArg.gen hd
  · rw [hs] at r1
    rw [← r1]
    rfl

/-! ### MTD convex coding -/

/-- C98, MTD convex coding. -/
theorem C98_mtd_fit_draws {env : Env K} (obj : MTDObj env.rng p) (data : Arr2 K)
    (hc : Components obj.nComponents data.cols k) (args : MTDArgs K) (fl : MTDFlags)
    (kw : InitKwargs) (obj' : MTDObj env.rng p) (G : Option (Arr2 K)) (info : FitInfo K)
    (h : mtdFitTransform env obj data args fl kw = Py.ok (obj', G, info)) :
    obj'.randomState = afterDraws env.rng (mtdDraws obj.init data.rows data.cols k p kw fl)
      obj.randomState := by
  obtain ⟨o, i, ho, hres⟩ := mtdFitTransform_eq_ok h
  obtain ⟨q, start, r, hq, hst, -, hoi⟩ := mtdConvexCoding_eq_ok ho
  have r1 := congrArg Prod.fst hres
  have r2 := congrArg Prod.fst hoi
  simp only at r1 r2
  obtain rfl := hc.eq hq
  rw [r1, r2]
  exact mtdStart_draws hst

/-- C98, `transform` of MTD convex coding: one array of uniform numbers for the weights. -/
theorem C98_mtd_transform_draws {env : Env K} (obj : MTDObj env.rng p) (data : Arr2 K)
    (hc : Components obj.nComponents data.cols k)
    (obj' : MTDObj env.rng p) (G : Option (Arr2 K)) (info : FitInfo K)
    (h : mtdTransform env obj data = Py.ok (obj', G, info)) :
    obj'.randomState = afterDraws env.rng [.uniform data.rows k] obj.randomState := by
  obtain ⟨o, i, ho, hres⟩ := mtdTransform_eq_ok h
  obtain ⟨q, start, r, hq, hst, -, hoi⟩ := mtdConvexCoding_eq_ok ho
  have r1 := congrArg Prod.fst hres
  have r2 := congrArg Prod.fst hoi
  simp only at r1 r2
  obtain rfl := hc.eq hq
  have hcustom : obj.init ≠ some "custom" := by
    intro hi
    unfold mtdStart at hst
    rw [if_pos hi] at hst
    obtain ⟨w, hw, -⟩ := Py.bind_eq_ok.1 hst
    have : obj.transformArgs.weights = none := by
      unfold MTDObj.transformArgs
      split <;> rfl
    rw [this] at hw
    simp [mtdCheckInitWeights, gpnhCheckInitWeights, checkArray] at hw
  have := mtdStart_draws hst
  rw [mtdDraws, if_neg hcustom] at this
  rw [r1, r2]
  simpa using this

/-! ### Convex reduced order models -/

/-- C98.  A reduced order model draws what convex coding draws, then the parameters of the lags. -/
theorem C98_crom_fit_draws {env : Env K} (obj : CROMObj env.rng p) (data : Arr2 K)
    (hc : Components obj.base.nComponents data.cols k) (dictionary weights : Option (Arr2 K))
    (kw : InitKwargs) (ud uw : Bool) (obj' : CROMObj env.rng p) (G : Option (Arr2 K))
    (info : FitInfo K)
    (h : cromFitTransform env obj data dictionary weights kw ud uw = Py.ok (obj', G, info)) :
    obj'.base.randomState = afterDraws env.rng
      (gpnhDraws obj.base.init data.rows data.cols k kw ud uw ++ parameterDraws k p)
      obj.base.randomState := by
  obtain ⟨k', m, tol, o, i, W, S, w0, A0, g1, g2, r, -, -, -, -, ho, -, -, -, -, -, -, hn, -, -,
    hw, hA, -, hres⟩ := cromFitTransform_eq_ok h
  have e1 := C98_gpnh_fit_draws obj.base data hc dictionary weights kw ud uw _ _ _ ho
  have hk : k' = k := by
    obtain ⟨o', i', ho', hres'⟩ := gpnhFitTransform_eq_ok ho
    obtain ⟨q, start, r', hq, -, -, hoi⟩ := gpnhConvexCoding_eq_ok ho'
    have r1 := congrArg Prod.fst hres'
    have r2 := congrArg Prod.fst hoi
    simp only at r1 r2
    have hq1 := hc.eq hq
    obtain ⟨-, e2, -, -, -, -⟩ := checkParams_ok hq
    rw [r1, r2] at hn
    have := e2.symm.trans hn
    rw [← hq1]
    exact (Nat.cast_inj.1 (NumArg.int.inj this)).symm
  subst hk
  have r1 := congrArg Prod.fst hres
  simp only at r1
  rw [r1, afterDraws_append, ← e1]
  exact parameters_draws hw hA

/-! ### FEM-BV -/

/-- C98, FEM-BV-k-means (`fit` and `transform` alike): rows of the data for the centroids, then
weights. -/
theorem C98_kmeans_draws {R : Rng K} {solver : LPSolver K} (obj : FEMKMeansObj R) (data : Arr2 K)
    (hc : Components obj.nComponents data.cols k) (args : FEMArgs K) (obj' : FEMKMeansObj R)
    (info : FEMInfo K) (h : femKMeansRun R solver obj data args = Py.ok (obj', info)) :
    obj'.randomState = afterDraws R
      (femDraws args.init args.parameters.isSome (.choice data.rows k) ++
        femDraws args.init args.weights.isSome (.uniform data.rows k)) obj.randomState := by
  obtain ⟨p, theta, gamma, tv, con, r, hp, hth, hga, -, -, -, hout⟩ := femKMeansRun_eq_ok h
  obtain rfl := hc.eq hp
  have r1 := congrArg Prod.fst hout
  simp only [femFinish] at r1
  have e1 := kmeansInit_draws hth
  have e2 := femInitWeights_draws hga
  rw [e1] at e2
  rw [r1, afterDraws_append]
  exact e2

/-- C98, FEM-BV-VARX: only the weights are drawn, one row for every sample after the longest memory. -/
theorem C98_varx_draws {R : Rng ℝ} {solver : LPSolver ℝ} {lstsq : LstSq} {mem : Memory}
    (obj : FEMVARXObj R) (data : Arr2 ℝ) (hc : Components obj.nComponents data.cols k)
    (args : FEMVARXArgs) (L : ℕ) (hL : (L : ℤ) ∈ obj.memory) (hmax : ∀ m ∈ obj.memory, m ≤ L)
    (obj' : FEMVARXObj R) (info : FEMInfo ℝ)
    (h : femVARXRun R solver lstsq mem obj data args = Py.ok (obj', info)) :
    obj'.randomState = afterDraws R
      (femDraws args.init args.weights.isSome (.uniform (data.rows - L) k)) obj.randomState := by
  obtain ⟨p, hl, start, r, hp, hst, hr, hout⟩ := femVARXRun_eq_ok h
  obtain rfl := hc.eq hp
  obtain ⟨gamma, tv, con, hg, -, -, -, hr2⟩ := femVARXIterate_eq_ok hr
  have hM : maxMemory obj.memory = L := by
    have : obj.memory.max? = some (L : ℤ) := List.max?_eq_some_iff.2 ⟨hL, hmax⟩
    rw [maxMemory, this]
    rfl
  have hLL : start.L = L := by
    rw [(varxInit_eq_ok hst).1, hM]
    rfl
  have r1 := congrArg Prod.fst hout
  simp only [femVARXFinish] at r1
  have e := femInitWeights_draws hg
  rw [r1, ← hLL]
  exact hr2.trans e

/-! ### Examples -/

/-- The generator of the examples counts the draws: a fit of convex coding makes two. -/
example : ∃ res, gpnhFitTransform demoEnv demoObj demoData none none {} = Py.ok res ∧
    res.1.randomState = (5 : ℕ) := by
  obtain ⟨⟨o, G, i⟩, h⟩ := demo_fit
  exact ⟨_, h, C98_gpnh_fit_draws (k := 2) demoObj demoData (Or.inl rfl) none none {} true true
    o G i h⟩

/-- A fit with two lags makes two draws for the factors, one for the weights of the lags and two for
the transition matrices. -/
example : ∃ res, mtdFitTransform demoEnv mtdDemoObj demoData {} {} {} = Py.ok res ∧
    res.1.randomState = (8 : ℕ) := by
  obtain ⟨⟨o, G, i⟩, h⟩ := mtdDemo_fit
  exact ⟨_, h, C98_mtd_fit_draws (k := 2) mtdDemoObj demoData (Or.inl rfl) {} {} {} o G i h⟩

/-- The same number for the reduced order model with two lags. -/
example : ∃ res, cromFitTransform demoEnv cromDemoObj demoData none none {} = Py.ok res ∧
    res.1.base.randomState = (8 : ℕ) := by
  obtain ⟨⟨o, G, i⟩, h⟩ := cromDemo_fit
  exact ⟨_, h, C98_crom_fit_draws (k := 2) cromDemoObj demoData (Or.inl rfl) none none {} true true
    o G i h⟩

/-- `transform` of the FEM-BV-k-means example draws centroids and weights. -/
example : ∃ (solver : LPSolver ℝ) (r : FEMKMeansObj demoRngReal × FEMInfo ℝ),
    femKMeansRun demoRngReal solver demoFEM demoFEMData
      { updateParameters := false, updateWeights := true } = Py.ok r ∧
    r.1.randomState = (2 : ℕ) := by
  obtain ⟨solver, hs⟩ := exists_exact_solver (K := ℝ)
  obtain ⟨⟨o, i⟩, h⟩ := demoFEM_transform hs
  exact ⟨solver, _, h, C98_kmeans_draws (k := 2) demoFEM demoFEMData (Or.inl rfl) _ o i h⟩

/-- Supplied weights: the FEM-BV-VARX example draws nothing. -/
example {mem : Memory} : ∃ (solver : LPSolver ℝ) (lstsq : LstSq)
    (r : FEMVARXObj demoRngReal × FEMInfo ℝ),
    femVARXRun demoRngReal solver lstsq mem demoVARX (Arr2.of varxDemo) (demoVARXArgs true) =
      Py.ok r ∧ r.1.randomState = (0 : ℕ) := by
  obtain ⟨solver, hs⟩ := exists_exact_solver (K := ℝ)
  obtain ⟨lstsq, -, htot⟩ := exists_exact_lstsq
  obtain ⟨⟨o, i⟩, h⟩ := demoVARX_fit (mem := mem) hs htot true
  exact ⟨solver, lstsq, _, h, C98_varx_draws (k := 2) demoVARX (Arr2.of varxDemo) (Or.inl rfl) _ 1
    (by simp [demoVARX]) (by simp [demoVARX]) o i h⟩

/-- The fit of the kernel example keeps its seed. -/
example : ∃ res, kaaFitTransform demoEnv demoKAA (Arr2.of demoKernel) none none {} = Py.ok res ∧
    res.1.randomState = demoKAA.randomState := by
  obtain ⟨⟨o, G, i⟩, h⟩ := demo_kaa_fit
  exact ⟨_, h, (C98_kaa_fit_draws (k := 2) demoKAA (Arr2.of demoKernel) (Or.inl rfl) none none {}
    true true o G i h).2 _ rfl⟩

/-- With a generator object it is one integer for FurthestSum and one array for the weights. -/
example : kaaDraws none 3 2 {} true true = [.integer 3, .uniform 3 2] := rfl

/-- Two series with the same absolute values. -/
example : gpnhStart demoEnv (!![1, -2; 3, 0] : Matrix (Fin 2) (Fin 2) ℚ) 2 none none none true true {}
      (demoRng.ofSeed 3) =
    gpnhStart demoEnv (!![-1, 2; 0, 3] : Matrix (Fin 2) (Fin 2) ℚ) 2 none none none true true {}
      (demoRng.ofSeed 3) :=
  C98_gpnh_start_ignores_signs (by norm_num [Fin.sum_univ_succ]) (Or.inl rfl) none none {} _

/-- The real square root meets the hypothesis on the root. -/
example (x : ℝ) : Real.sqrt (2 ^ 2 * x) = 2 * Real.sqrt x := by
  rw [Real.sqrt_mul (by norm_num), Real.sqrt_sq (by norm_num)]

end Reor
