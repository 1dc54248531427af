import Verif.Proofs.KernelAAObj
import Verif.Proofs.Deriv
import Verif.Props.GPNH

/-!
Properties C09, C10, C22, C24, C28-C37, C59 for `KernelAA` and `ArchetypalAnalysis`.
-/

namespace Reor

set_option linter.unusedSectionVars false

open scoped BigOperators Matrix
open Spec

variable {K : Type} [Field K] [LinearOrder K] [IsStrictOrderedRing K]
variable {n k : ℕ}

/-- The states a fit can be in between its statements: the initial workspace, and whatever follows by
cost evaluations and completed updates. -/
inductive KAAReach (cfg : LSConfig K) (delta : K) (A : Matrix (Fin n) (Fin n) K) :
    KAAState n k K → Prop
  | start (S : Matrix (Fin n) (Fin k) K) (C : Matrix (Fin k) (Fin n) K) :
      KAAReach cfg delta A (KAAState.initializeWorkspace cfg A S C)
  | cost {s : KAAState n k K} : KAAReach cfg delta A s →
      KAAReach cfg delta A (s.evaluateCost delta).1
  | dictionary {s s' : KAAState n k K} : KAAReach cfg delta A s →
      s.updateDictionary cfg delta = Py.ok s' → KAAReach cfg delta A s'
  | weights {s s' : KAAState n k K} : KAAReach cfg delta A s →
      s.updateWeights cfg delta = Py.ok s' → KAAReach cfg delta A s'

theorem KAAReach.good {cfg : LSConfig K} {delta : K}
    {A : Matrix (Fin n) (Fin n) K} {s : KAAState n k K} (h : KAAReach cfg delta A s) : s.Good A := by
  induction h with
  | start S C => exact KAAState.initializeWorkspace_good _ _ _ _
  | cost _ ih => exact KAAState.evaluateCost_good ih
  | dictionary _ h ih =>
    obtain ⟨lam, hl⟩ := KAAState.updateDictionary_post ih h
    exact hl.good ih
  | weights _ h ih =>
    obtain ⟨lam, hl⟩ := KAAState.updateWeights_post ih h
    exact hl.good ih

/-- Every state of the loop of a fit is of this kind; so is the final one. -/
theorem KAAReach.iterate {cfg : LSConfig K} {delta : K} {A : Matrix (Fin n) (Fin n) K}
    {require : Bool} {tol : K} {maxIter : ℕ} {ud uw : Bool}
    {s : KAAState n k K} {r : IterResult (KAAState n k K) K} (hs : KAAReach cfg delta A s)
    (h : kaaIterate cfg delta require tol maxIter ud uw s = Py.ok r) :
    KAAReach cfg delta A r.state := by
  refine iterate_inv (Inv := KAAReach cfg delta A) (fun s hs => hs.cost) ?_ hs h
  intro p hp s s' hs h
  rcases kaa_mem_phases hp with ⟨-, rfl⟩ | ⟨-, rfl⟩
  · exact hs.dictionary h
  · exact hs.weights h

/-! ### C31, C32 -/

/-- C31.  In every state of every fit, whatever the kernel, the cost from which the line search of an
update starts (computed from cached products) is the objective at the current weights and
dictionary, and `_evaluate_cost` reports that same number. -/
theorem C31_kaa_line_search_starts_at_current_cost (cfg : LSConfig K) (delta : K) (A : Matrix (Fin n) (Fin n) K) (s : KAAState n k K)
    (h : KAAReach cfg delta A s) :
    (s.prepareWeights delta).cachedCost = kaaCost A s.S s.C ∧
    (s.prepareDictionary delta).cachedCost = kaaCost A s.S s.C ∧
    (s.evaluateCost delta).2 = kaaCost A s.S s.C := by
  have hg := h.good
  refine ⟨?_, ?_, ?_⟩
  · rw [KAAState.prepareWeights_eq _ _ hg.alpha]
    exact KAAState.weightsStart_cost hg
  · rw [KAAState.prepareDictionary_eq _ _ hg.alpha]
    exact KAAState.dictStart_cost hg
  · rw [KAAState.evaluateCost_eq _ _ hg.alpha, hg.Kmat]

/-- C31.  The caches themselves are up to date when a line search starts. -/
theorem C31_kaa_caches_current (cfg : LSConfig K) (delta : K) (A : Matrix (Fin n) (Fin n) K) (s : KAAState n k K)
    (h : KAAReach cfg delta A s) :
    ((s.prepareWeights delta).StS = s.Sᵀ * s.S ∧ (s.prepareWeights delta).CK = s.C * A ∧
      (s.prepareWeights delta).CKCt = s.C * A * s.Cᵀ) ∧
    ((s.prepareDictionary delta).StS = s.Sᵀ * s.S ∧ (s.prepareDictionary delta).CK = s.C * A ∧
      (s.prepareDictionary delta).CKCt = s.C * A * s.Cᵀ) := by
  have hg := h.good
  rw [KAAState.prepareWeights_eq _ _ hg.alpha, KAAState.prepareDictionary_eq _ _ hg.alpha, ← hg.Kmat]
  exact ⟨⟨hg.StS, rfl, rfl⟩, rfl, rfl, rfl⟩

/-- C32.  The scale factors are 1 in every state of every fit. -/
theorem C32_kaa_scale_factors_fixed (cfg : LSConfig K) (delta : K) (A : Matrix (Fin n) (Fin n) K) (s : KAAState n k K)
    (h : KAAReach cfg delta A s) : ∀ i, s.alpha i = 1 := by
  intro i
  rw [(h.good).alpha]

/-- C32.  A fit (or transform) with any `delta` that ends has the same outcome as with `delta = 0`:
the same exception, or the same weights, dictionary, cost, number of iterations, history of costs and
generator state; the objects differ only in the attribute `delta`. -/
theorem C32_kaa_delta_irrelevant {env : Env K} (obj : KAAObj env.rng)
    (kernel : Arr2 K) (dictionary weights : Option (Arr2 K)) (ud uw : Bool) (kw : InitKwargs)
    (hend : kernelAA env obj kernel dictionary weights ud uw kw ≠ Py.diverge) :
    kernelAA env { obj with delta := 0 } kernel dictionary weights ud uw kw =
      (do
        let r ← kernelAA env obj kernel dictionary weights ud uw kw
        pure ({ r.1 with delta := 0 }, r.2)) := by
  unfold kernelAA at hend ⊢
  by_cases hc : kernel.cols = kernel.rows
  · rw [dif_pos hc] at hend
    rw [dif_pos hc, dif_pos hc]
    exact (kernelAASquare_deltaLe obj _ dictionary weights ud uw kw).resolve_left hend
  · rw [dif_neg hc, dif_neg hc]
    rfl

/-- C32.  With a step floor both end, for every `delta`, or both do not. -/
theorem C32_kaa_delta_irrelevant_with_floor [Archimedean K] {env : Env K} (obj : KAAObj env.rng)
    (h1 : 0 < obj.ls.sigmaOne) (h2 : obj.ls.sigmaTwo < 1) (ht : 0 < obj.ls.stepSizeTolerance)
    (kernel : Arr2 K) (dictionary weights : Option (Arr2 K)) (ud uw : Bool) (kw : InitKwargs) :
    kernelAA env { obj with delta := 0 } kernel dictionary weights ud uw kw =
      (do
        let r ← kernelAA env obj kernel dictionary weights ud uw kw
        pure ({ r.1 with delta := 0 }, r.2)) := by
  unfold kernelAA
  by_cases hc : kernel.cols = kernel.rows
  · rw [dif_pos hc, dif_pos hc]
    exact kernelAASquare_delta obj h1 h2 ht _ dictionary weights ud uw kw
  · rw [dif_neg hc, dif_neg hc]
    rfl

/-- C32.  In particular the results of `fit_transform` do not depend on `delta`. -/
theorem C32_kaa_fit_delta_irrelevant {env : Env K} (obj : KAAObj env.rng)
    (kernel : Arr2 K) (dictionary weights : Option (Arr2 K)) (kw : InitKwargs)
    (obj' : KAAObj env.rng) (G : Option (Arr2 K)) (info : FitInfo K)
    (h : kaaFitTransform env obj kernel dictionary weights kw = Py.ok (obj', G, info)) :
    kaaFitTransform env { obj with delta := 0 } kernel dictionary weights kw =
      Py.ok ({ obj' with delta := 0 }, G, info) := by
  unfold kaaFitTransform at h ⊢
  obtain ⟨r, hr, h⟩ := Py.bind_eq_ok.1 h
  rw [C32_kaa_delta_irrelevant obj _ _ _ _ _ _ (by rw [hr]; simp), hr]
  simp only [Py.pure_eq, Py.ok.injEq, kaaFinish, Prod.mk.injEq] at h
  obtain ⟨rfl, rfl, rfl⟩ := h
  rfl

/-! ### C29, C30: the objective and its derivatives -/

/-- C29, weights.  For a symmetric kernel the gradient used by the weights update is the derivative of
the objective with respect to the weights, in every direction. -/
theorem C29_kaa_weights_gradient (cfg : LSConfig ℝ) (delta : ℝ) (A : Matrix (Fin n) (Fin n) ℝ) (hA : ∀ i j, A i j = A j i)
    (s : KAAState n k ℝ) (hs : KAAReach cfg delta A s) (H : Matrix (Fin n) (Fin k) ℝ) :
    HasDerivAt (fun t : ℝ => kaaCost A (s.S + t • H) s.C)
      (inner (s.prepareWeights delta).gradS H) 0 := by
  have hg := hs.good
  rw [KAAState.prepareWeights_eq _ _ hg.alpha, hg.Kmat]
  have hA' : Aᵀ = A := by
    ext i j
    exact (hA i j).symm
  rw [inner_comm]
  exact hasDerivAt_quadratic fun t => kaaCost_add_S hA' s.S H s.C t

/-- C29, dictionary. -/
theorem C29_kaa_dictionary_gradient (cfg : LSConfig ℝ) (delta : ℝ) (A : Matrix (Fin n) (Fin n) ℝ) (hA : ∀ i j, A i j = A j i)
    (s : KAAState n k ℝ) (hs : KAAReach cfg delta A s) (H : Matrix (Fin k) (Fin n) ℝ) :
    HasDerivAt (fun t : ℝ => kaaCost A s.S (s.C + t • H))
      (inner (s.prepareDictionary delta).gradC H) 0 := by
  have hg := hs.good
  rw [KAAState.prepareDictionary_eq _ _ hg.alpha, hg.Kmat]
  have hA' : Aᵀ = A := by
    ext i j
    exact (hA i j).symm
  rw [inner_comm]
  exact hasDerivAt_quadratic fun t => kaaCost_add_C hA' s.S s.C H t

/-- C30.  With the default kernel the objective is the documented `||X - S C X||^2`. -/
theorem C30_aa_objective {D : ℕ} (X : Matrix (Fin n) (Fin D) K) (S : Matrix (Fin n) (Fin k) K)
    (C : Matrix (Fin k) (Fin n) K) :
    kaaCost (X * Xᵀ) S C = ∑ t, ∑ d, (X t d - ∑ i, S t i * ∑ j, C i j * X j d) ^ 2 := by
  have e : ∀ t d, ∑ i, S t i * ∑ j, C i j * X j d = ∑ j, (∑ i, S t i * C i j) * X j d := by
    intro t d
    simp only [Finset.mul_sum, Finset.sum_mul]
    rw [Finset.sum_comm]
    refine Finset.sum_congr rfl fun j _ => Finset.sum_congr rfl fun i _ => by ring
  unfold kaaCost
  refine Finset.sum_congr rfl fun t _ => ?_
  simp only [e]
  generalize hP : (fun j => ∑ i, S t i * C i j) = P
  have hPj : ∀ j, ∑ i, S t i * C i j = P j := fun j => congrFun hP j
  simp only [hPj, Matrix.mul_apply, Matrix.transpose_apply]
  have e2 : ∑ j, P j * ∑ d, X j d * X t d = ∑ d, X t d * ∑ j, P j * X j d := by
    simp only [Finset.mul_sum]
    rw [Finset.sum_comm]
    refine Finset.sum_congr rfl fun d _ => Finset.sum_congr rfl fun j _ => by ring
  have e3 : ∑ i, ∑ j, P i * (∑ d, X i d * X j d) * P j =
      ∑ d, (∑ j, P j * X j d) * (∑ j, P j * X j d) := by
    simp only [Finset.sum_mul_sum]
    simp only [Finset.mul_sum, Finset.sum_mul]
    rw [Finset.sum_comm' (t' := Finset.univ) (s' := fun _ => Finset.univ) (by simp)]
    have : ∀ i j, ∑ d, P i * (X i d * X j d) * P j = ∑ d, P i * X i d * (P j * X j d) := by
      intro i j
      exact Finset.sum_congr rfl fun d _ => by ring
    simp only [this]
    rw [Finset.sum_comm]
    calc _ = ∑ i, ∑ d, ∑ j, P i * X i d * (P j * X j d) :=
          Finset.sum_congr rfl fun i _ => Finset.sum_comm
      _ = _ := Finset.sum_comm
  rw [e2, e3, Finset.mul_sum, ← Finset.sum_sub_distrib, ← Finset.sum_add_distrib]
  refine Finset.sum_congr rfl fun d _ => by ring

/-! ### C28, C33: fits -/

/-- C28; missing: empty kernels and custom starts with negative entries, for which it fails
(`C28_kaa_empty_fails`, `C28_kaa_custom_fails`), and settings with which the step can leave `[0, 1]`.  Weights and dictionary after a fit are row stochastic: always when the estimator draws its
own start, and with a custom start (or a factor that is kept) when the caller's factors are. -/
theorem C28_kaa_fit_stochastic_partial {env : Env K} (hR : env.rng.Lawful)
    (obj : KAAObj env.rng) (h1 : SafeSteps obj.ls.gamma obj.ls.alphaMax obj.ls.sigmaOne
      obj.ls.sigmaTwo)
    (A : Matrix (Fin n) (Fin n) K) (hn : 1 ≤ n)
    (dictionary weights : Option (Arr2 K)) (kw : InitKwargs) (ud uw : Bool)
    (hd : (obj.init = some "custom" ∨ ud = false) →
      ∀ C, dictionary = some C → RowStochastic C.val)
    (hw : (obj.init = some "custom" ∨ uw = false) → ∀ W, weights = some W → RowStochastic W.val)
    (obj' : KAAObj env.rng) (G : Option (Arr2 K)) (info : FitInfo K)
    (h : kaaFitTransform env obj (Arr2.of A) dictionary weights kw ud uw =
      Py.ok (obj', G, info)) :
    ∃ (k : ℕ) (S : Matrix (Fin n) (Fin k) K) (C : Matrix (Fin k) (Fin n) K),
      G = some (Arr2.of S) ∧ obj'.dictionary_ = some (Arr2.of C) ∧
      RowStochastic S ∧ RowStochastic C := by
  unfold kaaFitTransform at h
  rw [kernelAA_of] at h
  obtain ⟨res, hres, h⟩ := Py.bind_eq_ok.1 h
  obtain ⟨p, start, r, hp, hst, hr, rfl⟩ := kernelAASquare_eq_ok hres
  simp only [Py.pure_eq, Py.ok.injEq, kaaFinish, Prod.mk.injEq] at h
  obtain ⟨rfl, rfl, rfl⟩ := h
  have hk := (checkParams_ok hp).2.2.2.1
  exact ⟨p.1, r.state.S, r.state.C, rfl, rfl,
    kaaIterate_S_stochastic h1 hk (KAAState.initializeWorkspace_good _ _ _ _)
      (by exact kaaStart_weights hR hk hw hst) zero_le_one hr,
    kaaIterate_C_stochastic h1 hn (KAAState.initializeWorkspace_good _ _ _ _)
      (by exact kaaStart_dictionary_stochastic hR hn hd hst) zero_le_one hr⟩

/-- C28; missing: as above.  The same for `ArchetypalAnalysis.fit_transform`, whatever the kernel function. -/
theorem C28_aa_fit_stochastic_partial {env : Env K} (hR : env.rng.Lawful)
    (obj : KAAObj env.rng) (h1 : SafeSteps obj.ls.gamma obj.ls.alphaMax obj.ls.sigmaOne
      obj.ls.sigmaTwo)
    (kernelFunc : Option (Arr2 K → Py (Arr2 K))) (data kernel : Arr2 K)
    (hker : aaKernel kernelFunc data = Py.ok kernel) (hn : 1 ≤ kernel.rows)
    (dictionary weights : Option (Arr2 K)) (kw : InitKwargs) (ud uw : Bool)
    (hd : (obj.init = some "custom" ∨ ud = false) →
      ∀ C, dictionary = some C → RowStochastic C.val)
    (hw : (obj.init = some "custom" ∨ uw = false) → ∀ W, weights = some W → RowStochastic W.val)
    (obj' : KAAObj env.rng) (G : Option (Arr2 K)) (info : FitInfo K)
    (h : aaFitTransform env obj kernelFunc data dictionary weights kw ud uw =
      Py.ok (obj', G, info)) :
    ∃ (k : ℕ) (S : Matrix (Fin kernel.rows) (Fin k) K) (C : Matrix (Fin k) (Fin kernel.rows) K),
      G = some (Arr2.of S) ∧ obj'.dictionary_ = some (Arr2.of C) ∧
      RowStochastic S ∧ RowStochastic C := by
  unfold aaFitTransform at h
  rw [hker, Py.ok_bind] at h
  obtain ⟨res, hres, h'⟩ := Py.bind_eq_ok.1 h
  obtain ⟨n, A, rfl⟩ := kernelAA_square hres
  exact C28_kaa_fit_stochastic_partial hR obj h1 A hn dictionary weights kw ud uw hd hw obj' G info h

/-- C28, transform; missing: as above.  The dictionary of the object is kept and the weights are row stochastic. -/
theorem C28_kaa_transform_stochastic_partial {env : Env K} (hR : env.rng.Lawful)
    (obj : KAAObj env.rng) (h1 : SafeSteps obj.ls.gamma obj.ls.alphaMax obj.ls.sigmaOne
      obj.ls.sigmaTwo)
    (kernel : Arr2 K) (obj' : KAAObj env.rng) (G : Option (Arr2 K)) (info : FitInfo K)
    (h : kaaTransform env obj kernel = Py.ok (obj', G, info)) :
    obj'.C = obj.C ∧ obj'.dictionary_ = obj.dictionary_ ∧ obj'.cost_ = obj.cost_ ∧
    ∃ W, G = some W ∧ W.rows = kernel.rows ∧ RowStochastic W.val := by
  unfold kaaTransform at h
  obtain ⟨res, hres, h⟩ := Py.bind_eq_ok.1 h
  obtain ⟨n, A, rfl⟩ := kernelAA_square hres
  rw [kernelAA_of] at hres
  obtain ⟨p, start, r, hp, hst, hr, rfl⟩ := kernelAASquare_eq_ok hres
  simp only [Py.pure_eq, Py.ok.injEq, Prod.mk.injEq] at h
  obtain ⟨rfl, rfl, rfl⟩ := h
  have hk := (checkParams_ok hp).2.2.2.1
  refine ⟨?_, rfl, rfl, _, rfl, rfl, ?_⟩
  · rw [kaaStart_dictionary hst]
    exact congrArg (fun M => some (Arr2.of M))
      (kaaIterate_C_kept (KAAState.initializeWorkspace_good _ _ _ _) hr)
  · exact kaaIterate_S_stochastic h1 hk (KAAState.initializeWorkspace_good _ _ _ _)
      (by exact kaaStart_weights hR hk (by simp) hst) zero_le_one hr

/-- C23.  `transform` of a kernel archetypal analysis leaves the dictionary as it was (whatever the line
search settings). -/
theorem C23_kaa_transform_keeps_dictionary {env : Env K} (obj : KAAObj env.rng) (kernel : Arr2 K)
    (obj' : KAAObj env.rng) (G : Option (Arr2 K)) (info : FitInfo K)
    (h : kaaTransform env obj kernel = Py.ok (obj', G, info)) :
    obj'.C = obj.C ∧ obj'.dictionary_ = obj.dictionary_ ∧ obj'.cost_ = obj.cost_ ∧
      obj'.nIter_ = obj.nIter_ := by
  unfold kaaTransform at h
  obtain ⟨res, hres, h⟩ := Py.bind_eq_ok.1 h
  obtain ⟨n, A, rfl⟩ := kernelAA_square hres
  rw [kernelAA_of] at hres
  obtain ⟨p, start, r, hp, hst, hr, rfl⟩ := kernelAASquare_eq_ok hres
  simp only [Py.pure_eq, Py.ok.injEq, Prod.mk.injEq] at h
  obtain ⟨rfl, rfl, rfl⟩ := h
  refine ⟨?_, rfl, rfl, rfl⟩
  rw [kaaStart_dictionary hst]
  exact congrArg (fun M => some (Arr2.of M))
    (kaaIterate_C_kept (KAAState.initializeWorkspace_good _ _ _ _) hr)

/-- C33.  After a fit `cost_` is the objective at the returned weights and `dictionary_`. -/
theorem C33_kaa_cost {env : Env K}
    (obj : KAAObj env.rng)
    (A : Matrix (Fin n) (Fin n) K) (dictionary weights : Option (Arr2 K)) (kw : InitKwargs)
    (ud uw : Bool) (obj' : KAAObj env.rng) (G : Option (Arr2 K)) (info : FitInfo K)
    (h : kaaFitTransform env obj (Arr2.of A) dictionary weights kw ud uw =
      Py.ok (obj', G, info)) :
    ∃ (k : ℕ) (S : Matrix (Fin n) (Fin k) K) (C : Matrix (Fin k) (Fin n) K),
      G = some (Arr2.of S) ∧ obj'.S = some (Arr2.of S) ∧ obj'.dictionary_ = some (Arr2.of C) ∧
      obj'.C = some (Arr2.of C) ∧ obj'.nComponents_ = some k ∧ obj'.nIter_ = some info.nIter ∧
      obj'.cost_ = some (kaaCost A S C) := by
  unfold kaaFitTransform at h
  rw [kernelAA_of] at h
  obtain ⟨res, hres, h⟩ := Py.bind_eq_ok.1 h
  obtain ⟨p, start, r, hp, hst, hr, rfl⟩ := kernelAASquare_eq_ok hres
  simp only [Py.pure_eq, Py.ok.injEq, kaaFinish, Prod.mk.injEq] at h
  obtain ⟨rfl, rfl, rfl⟩ := h
  exact ⟨p.1, r.state.S, r.state.C, rfl, rfl, rfl, rfl, rfl, rfl,
    congrArg some (kaaIterate_cost (KAAState.initializeWorkspace_good _ _ _ _) hr)⟩

/-- C33.  With monotonicity required the costs of the iterations never increase, starting from that
of the initial guess, which `cost_` does not exceed. -/
theorem C33_kaa_monotone {env : Env K} (obj : KAAObj env.rng) (hreq : obj.require = true)
    (A : Matrix (Fin n) (Fin n) K) (dictionary weights : Option (Arr2 K)) (kw : InitKwargs)
    (ud uw : Bool) (obj' : KAAObj env.rng) (G : Option (Arr2 K)) (info : FitInfo K)
    (h : kaaFitTransform env obj (Arr2.of A) dictionary weights kw ud uw =
      Py.ok (obj', G, info)) :
    ∃ (k : ℕ) (g' : env.rng.G) (S0 : Matrix (Fin n) (Fin k) K) (C0 : Matrix (Fin k) (Fin n) K)
      (c : K),
      kaaStart env A k obj.init dictionary weights ud uw kw obj.randomState.start =
        Py.ok ((C0, S0), g') ∧
      (kaaCost A S0 C0 :: info.trace).IsChain (· ≥ ·) ∧ info.trace.length = info.nIter + 1 ∧
      obj'.cost_ = some c ∧ c ≤ kaaCost A S0 C0 := by
  unfold kaaFitTransform at h
  rw [kernelAA_of] at h
  obtain ⟨res, hres, h⟩ := Py.bind_eq_ok.1 h
  obtain ⟨p, start, r, hp, hst, hr, rfl⟩ := kernelAASquare_eq_ok hres
  simp only [Py.pure_eq, Py.ok.injEq, kaaFinish, Prod.mk.injEq] at h
  obtain ⟨rfl, rfl, rfl⟩ := h
  rw [hreq] at hr
  obtain ⟨ha, hb⟩ := kaaIterate_monotone (KAAState.initializeWorkspace_good _ _ _ _) hr
  exact ⟨p.1, start.2, start.1.2, start.1.1, r.cost, hst, ha, iterate_trace_length hr, rfl, hb⟩

/-- C30, C33.  `ArchetypalAnalysis` with the default kernel: `cost_` is the squared norm of the
residual of the data. -/
theorem C30_aa_cost {env : Env K} {D : ℕ}
    (obj : KAAObj env.rng)
    (X : Matrix (Fin n) (Fin D) K) (dictionary weights : Option (Arr2 K)) (kw : InitKwargs)
    (ud uw : Bool) (obj' : KAAObj env.rng) (G : Option (Arr2 K)) (info : FitInfo K)
    (h : aaFitTransform env obj none (Arr2.of X) dictionary weights kw ud uw =
      Py.ok (obj', G, info)) :
    ∃ (k : ℕ) (S : Matrix (Fin n) (Fin k) K) (C : Matrix (Fin k) (Fin n) K),
      G = some (Arr2.of S) ∧ obj'.dictionary_ = some (Arr2.of C) ∧
      obj'.cost_ = some (∑ t, ∑ d, (X t d - ∑ i, S t i * ∑ j, C i j * X j d) ^ 2) := by
  have h' : kaaFitTransform env obj (Arr2.of (X * Xᵀ)) dictionary weights kw ud uw =
      Py.ok (obj', G, info) := h
  obtain ⟨k, S, C, hG, -, hd, -, -, -, hc⟩ :=
    C33_kaa_cost obj (X * Xᵀ) dictionary weights kw ud uw obj' G info h'
  rw [C30_aa_objective] at hc
  exact ⟨k, S, C, hG, hd, hc⟩

/-! ### C34, C35, C37, C24, C22: errors and validation -/

/-- C34.  A fit that passes any of the FurthestSum keywords never returns. -/
theorem C34_kaa_keywords_never_succeed {env : Env K} (obj : KAAObj env.rng)
    (hinit : obj.init ≠ some "custom") (kernel : Arr2 K) (dictionary weights : Option (Arr2 K))
    (kw : InitKwargs) (hkw : kw.nonempty = true) :
    ∀ res, kaaFitTransform env obj kernel dictionary weights kw ≠ Py.ok res := by
  intro res h
  unfold kaaFitTransform at h
  obtain ⟨r, hr, -⟩ := Py.bind_eq_ok.1 h
  obtain ⟨n, A, rfl⟩ := kernelAA_square hr
  rw [kernelAA_of] at hr
  obtain ⟨p, start, r', -, hst, -, -⟩ := kernelAASquare_eq_ok hr
  unfold kaaStart at hst
  simp only [hinit, if_false, Bool.true_eq_false, false_and, and_false] at hst
  unfold kaaInitBoth at hst
  obtain ⟨d, -, hst⟩ := Py.bind_eq_ok.1 hst
  obtain ⟨w, hw, -⟩ := Py.bind_eq_ok.1 hst
  simp [kaaInitWeights, hkw] at hw

/-- C34; missing: inputs on which the dictionary initialisation itself raises, for which it fails
(`C34_kaa_keywords_fail`).  If the dictionary initialisation with those keywords succeeds, the exception is
TypeError. -/
theorem C34_kaa_keywords_type_error_partial {env : Env K} (obj : KAAObj env.rng)
    (hinit : obj.init ≠ some "custom") (A : Matrix (Fin n) (Fin n) K) (k : ℕ)
    (hv : ValidParams obj.nComponents obj.maxIterations obj.tolerance)
    (hc : obj.nComponents = .int k)
    (dictionary weights : Option (Arr2 K)) (kw : InitKwargs) (hkw : kw.nonempty = true)
    (hd : ∃ d, kaaInitDictionary env A k (some (obj.init.getD "furthest_sum")) kw
      obj.randomState.start = Py.ok d) :
    kaaFitTransform env obj (Arr2.of A) dictionary weights kw = Py.raise .typeError := by
  unfold kaaFitTransform
  rw [kernelAA_of]
  unfold kernelAASquare
  have hv' : ValidParams (defaultComponents obj.nComponents n) obj.maxIterations
      obj.tolerance := by
    rw [hc] at hv ⊢
    exact hv
  obtain ⟨⟨k', m, t⟩, hp, hck, -, -, -, -, -⟩ := checkParams_valid hv'
  rw [hc] at hck
  simp only [defaultComponents, NumArg.int.injEq, Nat.cast_inj] at hck
  subst hck
  obtain ⟨d, hd⟩ := hd
  have hst : kaaStart env A k obj.init dictionary weights true true kw obj.randomState.start =
      Py.raise .typeError := by
    unfold kaaStart
    simp only [hinit, if_false, Bool.true_eq_false, false_and, and_false]
    unfold kaaInitBoth
    simp only [hd, Py.ok_bind]
    unfold kaaInitWeights
    simp only [hkw, if_true, Py.raise_bind]
  simp only [hp, Py.ok_bind, hst, Py.raise_bind]

/-- C34, the documented use; missing: other keywords and kernels.  The default initialisation with a start index in range (and any number
of extra steps) always ends in TypeError, for every kernel of a distance. -/
theorem C34_kaa_start_index_type_error_partial {env : Env K} (hR : env.rng.Lawful) (obj : KAAObj env.rng)
    (hinit : obj.init = none ∨ obj.init = some "furthest_sum") (A : Matrix (Fin n) (Fin n) K)
    (hA : ∀ i j, 0 ≤ A j j - 2 * A i j + A i i) (k : ℕ)
    (hv : ValidParams obj.nComponents obj.maxIterations obj.tolerance)
    (hc : obj.nComponents = .int k) (hkn : k ≤ n)
    (dictionary weights : Option (Arr2 K)) (z : ℤ) (hz : 0 ≤ z ∧ z < n) (extra : Option ℤ) :
    kaaFitTransform env obj (Arr2.of A) dictionary weights
      { startIndex := some z, nExtraSteps := extra } = Py.raise .typeError := by
  have hk : 1 ≤ k := by
    obtain ⟨⟨y, hy, hpos⟩, -⟩ := hv
    rw [hc] at hy
    simp only [NumArg.int.injEq] at hy
    omega
  have hi : obj.init.getD "furthest_sum" = "furthest_sum" := by
    rcases hinit with h | h <;> simp [h]
  refine C34_kaa_keywords_type_error_partial obj (by rcases hinit with h | h <;> simp [h]) A k hv hc
    dictionary weights _ (by simp [InitKwargs.nonempty]) ?_
  unfold kaaInitDictionary
  simp only [hi, Option.getD_some, if_true]
  unfold kaaInitDictionaryFurthestSum
  obtain ⟨r, hr⟩ := furthestSumRows_succeeds hR hA hk hkn
    (kw := { startIndex := some z, nExtraSteps := extra }) rfl (by simp; omega)
    obj.randomState.start
  rw [hr]
  exact ⟨_, rfl⟩

/-- C35.  A kernel that is not square is a ValueError, for fits and for `transform`. -/
theorem C35_kaa_nonsquare {env : Env K} (obj : KAAObj env.rng) (kernel : Arr2 K)
    (hsq : kernel.cols ≠ kernel.rows) (dictionary weights : Option (Arr2 K)) (kw : InitKwargs)
    (ud uw : Bool) :
    kaaFitTransform env obj kernel dictionary weights kw ud uw = Py.raise .valueError ∧
    kaaTransform env obj kernel = Py.raise .valueError := by
  unfold kaaFitTransform kaaTransform kernelAA
  rw [dif_neg hsq, dif_neg hsq]
  exact ⟨rfl, rfl⟩

/-- C35.  `transform` of a model fitted to `n` samples is a ValueError for any kernel with another
number of samples. -/
theorem C35_kaa_transform_other_size {env : Env K} (obj : KAAObj env.rng)
    (C : Matrix (Fin k) (Fin n) K) (hC : obj.C = some (Arr2.of C)) (kernel : Arr2 K)
    (hn : kernel.rows ≠ n) : kaaTransform env obj kernel = Py.raise .valueError := by
  by_cases hsq : kernel.cols = kernel.rows
  swap
  · exact (C35_kaa_nonsquare obj kernel hsq none none {} true true).2
  obtain ⟨m, cols, A⟩ := kernel
  simp only at hsq hn
  subst hsq
  have e : kaaTransform env obj ⟨_, _, A⟩ = (do
      let r ← kernelAASquare env obj A obj.C none false true {}
      pure (r.1, r.1.S, r.2)) := by
    unfold kaaTransform
    rw [show (⟨_, _, A⟩ : Arr2 K) = Arr2.of A from rfl, kernelAA_of]
  rw [e]
  unfold kernelAASquare
  by_cases hv : ValidParams (defaultComponents obj.nComponents cols) obj.maxIterations
      obj.tolerance
  swap
  · simp only [checkParams_invalid hv, Py.raise_bind]
  obtain ⟨p, hp, -⟩ := checkParams_valid hv
  have hd : kaaCheckInitDictionary obj.C p.1 cols = Py.raise .valueError := by
    cases h : kaaCheckInitDictionary obj.C p.1 cols with
    | ok M =>
      have := (gpnhCheckInitWeights_ok h).1
      rw [hC] at this
      simp only [Option.some.injEq, Arr2.of, Arr2.mk.injEq] at this
      exact absurd this.2.1.symm hn
    | raise e => rw [gpnhCheckInitWeights_raise h]
    | diverge => exact absurd h gpnhCheckInitWeights_ne_diverge
  have hst : kaaStart env A p.1 obj.init obj.C none false true {} obj.randomState.start =
      Py.raise .valueError := by
    unfold kaaStart
    by_cases hi : obj.init = some "custom"
    · rw [if_pos hi]
      rfl
    · rw [if_neg hi, if_pos ⟨rfl, rfl⟩, hd]
      rfl
  simp only [hp, Py.ok_bind, hst, Py.raise_bind]

/-- C37.  A model created with `init='custom'` cannot transform: ValueError for every kernel. -/
theorem C37_kaa_custom_cannot_transform {env : Env K} (obj : KAAObj env.rng)
    (hinit : obj.init = some "custom") (kernel : Arr2 K) :
    kaaTransform env obj kernel = Py.raise .valueError := by
  by_cases hsq : kernel.cols = kernel.rows
  swap
  · exact (C35_kaa_nonsquare obj kernel hsq none none {} true true).2
  obtain ⟨m, cols, A⟩ := kernel
  simp only at hsq
  subst hsq
  have e : kaaTransform env obj ⟨_, _, A⟩ = (do
      let r ← kernelAASquare env obj A obj.C none false true {}
      pure (r.1, r.1.S, r.2)) := by
    unfold kaaTransform
    rw [show (⟨_, _, A⟩ : Arr2 K) = Arr2.of A from rfl, kernelAA_of]
  rw [e]
  unfold kernelAASquare
  by_cases hv : ValidParams (defaultComponents obj.nComponents cols) obj.maxIterations
      obj.tolerance
  · obtain ⟨p, hp, -⟩ := checkParams_valid hv
    have hst : kaaStart env A p.1 obj.init obj.C none false true {} obj.randomState.start =
        Py.raise .valueError := by
      rw [hinit]
      rfl
    simp only [hp, Py.ok_bind, hst, Py.raise_bind]
  · simp only [checkParams_invalid hv, Py.raise_bind]

/-- C24.  An invalid configuration is a ValueError for every kernel and all other arguments. -/
theorem C24_kaa_invalid_rejected {env : Env K} (obj : KAAObj env.rng) (kernel : Arr2 K)
    (dictionary weights : Option (Arr2 K)) (kw : InitKwargs) (ud uw : Bool)
    (hv : ¬ ValidConfig obj.nComponents kernel.rows obj.maxIterations
      obj.tolerance) :
    kaaFitTransform env obj kernel dictionary weights kw ud uw = Py.raise .valueError ∧
    kaaTransform env obj kernel = Py.raise .valueError := by
  rw [validConfig_iff] at hv
  by_cases hsq : kernel.cols = kernel.rows
  swap
  · exact C35_kaa_nonsquare obj kernel hsq dictionary weights kw ud uw
  unfold kaaFitTransform kaaTransform kernelAA
  rw [dif_pos hsq, dif_pos hsq]
  unfold kernelAASquare
  simp only [checkParams_invalid hv, Py.raise_bind, and_self]

/-- C24.  The number of components of a fitted model is the configured one, or the number of samples
if that was None; weights and dictionary have these shapes. -/
theorem C24_kaa_components {env : Env K} (obj : KAAObj env.rng) (kernel : Arr2 K)
    (dictionary weights : Option (Arr2 K)) (kw : InitKwargs) (ud uw : Bool) (obj' : KAAObj env.rng)
    (G : Option (Arr2 K)) (info : FitInfo K)
    (h : kaaFitTransform env obj kernel dictionary weights kw ud uw = Py.ok (obj', G, info)) :
    ∃ (k : ℕ) (W C : Arr2 K), obj'.nComponents_ = some k ∧ obj'.nComponents = .int k ∧
      (obj.nComponents = .int k ∨ obj.nComponents = .none ∧ k = kernel.rows) ∧
      G = some W ∧ obj'.dictionary_ = some C ∧ W.rows = kernel.rows ∧ W.cols = k ∧ C.rows = k ∧
      C.cols = kernel.rows := by
  unfold kaaFitTransform at h
  obtain ⟨⟨o, i⟩, ho, h⟩ := Py.bind_eq_ok.1 h
  unfold kernelAA at ho
  by_cases hsq : kernel.cols = kernel.rows
  swap
  · rw [dif_neg hsq] at ho
    simp at ho
  rw [dif_pos hsq] at ho
  obtain ⟨p, start, r, hp, hst, hr, hoi⟩ := kernelAASquare_eq_ok ho
  simp only [Prod.mk.injEq] at hoi
  obtain ⟨rfl, rfl⟩ := hoi
  simp only [Py.pure_eq, Py.ok.injEq, kaaFinish, Prod.mk.injEq] at h
  obtain ⟨rfl, rfl, rfl⟩ := h
  have hc := (checkParams_ok hp).2.1
  exact ⟨p.1, _, _, rfl, hc, defaultComponents_eq_int hc, rfl, rfl, rfl, rfl, rfl, rfl⟩

/-- C24.  With a valid configuration, a square kernel and random initialisation, no ValueError. -/
theorem C24_kaa_valid_accepted {env : Env K} (obj : KAAObj env.rng)
    (hinit : obj.init = some "random") (A : Matrix (Fin n) (Fin n) K)
    (dictionary weights : Option (Arr2 K))
    (hv : ValidConfig obj.nComponents n obj.maxIterations obj.tolerance) :
    kaaFitTransform env obj (Arr2.of A) dictionary weights {} ≠ Py.raise .valueError := by
  rw [validConfig_iff] at hv
  intro h
  unfold kaaFitTransform at h
  rw [kernelAA_of] at h
  rcases Py.bind_eq_raise.1 h with h | ⟨_, _, h⟩
  swap
  · simp at h
  unfold kernelAASquare at h
  obtain ⟨p, hp, -, -, hk, hm, -, -⟩ := checkParams_valid hv
  simp only [hp, Py.ok_bind] at h
  rcases Py.bind_eq_raise.1 h with h | ⟨_, _, h⟩
  · rw [hinit] at h
    unfold kaaStart at h
    simp only [Option.some.injEq, String.reduceEq, if_false, Bool.true_eq_false, false_and,
      and_false] at h
    unfold kaaInitBoth at h
    rcases Py.bind_eq_raise.1 h with h | ⟨_, _, h⟩
    · unfold kaaInitDictionary at h
      simp only [Option.getD_some, String.reduceEq, if_false, if_true] at h
      have := rightStochastic_raise h
      simp at this
    rcases Py.bind_eq_raise.1 h with h | ⟨_, _, h⟩
    · unfold kaaInitWeights at h
      simp only [InitKwargs.nonempty, Option.isSome_none, Bool.or_self, Bool.false_eq_true,
        if_false, Option.getD_some, String.reduceEq, or_true, if_true] at h
      have := rightStochastic_raise h
      simp at this
    · simp at h
  rcases Py.bind_eq_raise.1 h with h | ⟨_, _, h⟩
  · rcases kaaIterate_raise hm (KAAState.initializeWorkspace_good _ _ _ _) h with h | h <;>
      simp at h
  · simp at h

/-- C22. -/
theorem C22_kaa_no_warning {env : Env K} (obj : KAAObj env.rng) (kernel : Arr2 K)
    (dictionary weights : Option (Arr2 K)) (ud uw : Bool) (kw : InitKwargs)
    (obj' : KAAObj env.rng) (info : FitInfo K)
    (h : kernelAA env obj kernel dictionary weights ud uw kw = Py.ok (obj', info)) :
    info.warned = false ∧ ∃ m : ℕ, obj.maxIterations = .int m ∧ info.nIter < m := by
  obtain ⟨n, A, rfl⟩ := kernelAA_square h
  rw [kernelAA_of] at h
  obtain ⟨p, start, r, hp, hst, hr, hoi⟩ := kernelAASquare_eq_ok h
  simp only [Prod.mk.injEq] at hoi
  obtain ⟨rfl, rfl⟩ := hoi
  have := iterate_nIter_lt hr
  refine ⟨?_, p.2.1, (checkParams_ok hp).2.2.1, this⟩
  simp only [decide_eq_false_iff_not, not_and]
  intro h
  omega

/-! ### C36 -/

/-- C36.  With `init='furthest_sum'` (the default) the rows of the initial dictionary are one-hot, at
distinct samples, none of them excluded. -/
theorem C36_kaa_furthest_sum_start {env : Env K} (A : Matrix (Fin n) (Fin n) K) (k : ℕ)
    (kw : InitKwargs) (hkw : kw.WellFormed n) (g : env.rng.G)
    (r : Matrix (Fin k) (Fin n) K × env.rng.G)
    (h : kaaInitDictionary env A k (some "furthest_sum") kw g = Py.ok r) :
    ∃ rows : Fin k → Fin n, Function.Injective rows ∧
      (∀ i, ((rows i : ℕ) : ℤ) ∉ kw.exclude.getD []) ∧
      (∀ i, r.1 i (rows i) = 1) ∧ ∀ i j, j ≠ rows i → r.1 i j = 0 := by
  unfold kaaInitDictionary at h
  simp only [Option.getD_some, if_true] at h
  obtain ⟨q, hq, -, hr⟩ := kaaInitDictionaryFurthestSum_ok h
  obtain ⟨a, b⟩ := furthestSumRows_ok hkw hq
  exact ⟨q.1, a, b, fun i => by rw [hr, if_pos rfl], fun i j hj => by rw [hr, if_neg hj]⟩

/-! ### C59 -/

/-- C59.  The outcome of a fit depends on the object only through its configuration and `random_state`;
with an integer seed a second fit of the fitted object gives the same outcome as the first. -/
theorem C59_kaa_refit {env : Env K} (obj : KAAObj env.rng) (seed : ℕ)
    (hseed : obj.randomState = .seed seed) (kernel : Arr2 K)
    (dictionary weights : Option (Arr2 K)) (kw : InitKwargs) (ud uw : Bool)
    (obj' : KAAObj env.rng) (G : Option (Arr2 K)) (info : FitInfo K)
    (h : kaaFitTransform env obj kernel dictionary weights kw ud uw = Py.ok (obj', G, info)) :
    kaaFitTransform env obj' kernel dictionary weights kw ud uw = Py.ok (obj', G, info) := by
  unfold kaaFitTransform at h ⊢
  obtain ⟨res, hres, h⟩ := Py.bind_eq_ok.1 h
  obtain ⟨n, A, rfl⟩ := kernelAA_square hres
  rw [kernelAA_of] at hres ⊢
  obtain ⟨p, start, r, hp, hst, hr, rfl⟩ := kernelAASquare_eq_ok hres
  simp only [Py.pure_eq, Py.ok.injEq, kaaFinish, Prod.mk.injEq] at h
  obtain ⟨rfl, rfl, rfl⟩ := h
  have hcomp : ∀ c : NumArg K, defaultComponents (defaultComponents c n) n =
      defaultComponents c n := by
    intro c
    cases c <;> rfl
  rw [hseed] at hst ⊢
  rw [kernelAASquare_of_steps (p := p) (start := start) (r := r)
    (by simp only [hcomp]; exact hp) (by exact hst) (by exact hr)]
  simp only [Py.ok_bind, Py.pure_eq, kaaFinish, hcomp, RandomArg.after]

/-- C59, contrast.  `GPNHConvexCoding` keeps the advanced generator: the start of a second fit is drawn
from the state in which the first fit left it. -/
theorem C59_gpnh_generator_consumed {env : Env K} (obj : GPNHObj env.rng) (data : Arr2 K)
    (dictionary weights : Option (Arr2 K)) (kw : InitKwargs)
    (obj' : GPNHObj env.rng) (G : Option (Arr2 K)) (info : FitInfo K)
    (h : gpnhFitTransform env obj data dictionary weights kw = Py.ok (obj', G, info)) :
    ∃ (k : ℕ) (start : (Matrix (Fin k) (Fin data.cols) K × Matrix (Fin data.rows) (Fin k) K) ×
        env.rng.G),
      gpnhStart env data.val k obj.init dictionary weights true true kw obj.randomState =
        Py.ok start ∧ obj'.randomState = start.2 := by
  obtain ⟨o, i, ho, hres⟩ := gpnhFitTransform_eq_ok h
  obtain ⟨p, start, r, hp, hst, hr, hoi⟩ := gpnhConvexCoding_eq_ok ho
  simp only [Prod.mk.injEq] at hres hoi
  obtain ⟨rfl, rfl, rfl⟩ := hres
  obtain ⟨rfl, rfl⟩ := hoi
  exact ⟨p.1, start, hst, rfl⟩

/-! ### C09, C10: the line searches of this class -/

/-- The memories keep the configured length. -/
theorem KAAReach.memory {cfg : LSConfig K} {delta : K}
    {A : Matrix (Fin n) (Fin n) K} {s : KAAState n k K} (h : KAAReach cfg delta A s) :
    s.fSMem.length = cfg.memory ∧ s.fCMem.length = cfg.memory ∧ s.fAlphaMem.length = cfg.memory := by
  induction h with
  | start S C => simp [KAAState.initializeWorkspace]
  | @cost s hs ih =>
    rw [KAAState.evaluateCost_eq _ _ (hs.good).alpha]
    exact ih
  | @dictionary s s' hs h ih =>
    have hg := hs.good
    obtain ⟨lam, hl⟩ := KAAState.updateDictionary_post hg h
    have hpos := List.length_pos_of_ne_nil hl.memNe
    refine ⟨by rw [hl.fSMem]; exact ih.1, ?_, ?_⟩
    · rw [hl.fCMem, List.length_append, List.length_tail]
      simp only [List.length_cons, List.length_nil]
      omega
    · unfold KAAState.updateDictionary at h
      obtain ⟨s1, hs1, h⟩ := Py.bind_eq_ok.1 h
      obtain ⟨lam, hl, hm⟩ := KAAState.updateDictionaryCore_post hg hs1
      by_cases hdel : delta > 0
      · rw [if_pos hdel] at h
        obtain ⟨g, i, a, m, rfl, hlen⟩ := KAAState.updateScaleFactors_ok h
        simp only
        rw [hlen, hm]
        exact ih.2.2
      · rw [if_neg hdel] at h
        simp only [Py.pure_eq, Py.ok.injEq] at h
        subst h
        rw [hm]
        exact ih.2.2
  | @weights s s' hs h ih =>
    obtain ⟨lam, hl⟩ := KAAState.updateWeights_post (hs.good) h
    have hpos := List.length_pos_of_ne_nil hl.memNe
    refine ⟨?_, by rw [hl.fCMem]; exact ih.2.1, by rw [hl.fAlphaMem]; exact ih.2.2⟩
    rw [hl.fSMem, List.length_append, List.length_tail]
    simp only [List.length_cons, List.length_nil]
    omega

/-- C09.  In every state of a fit, for every kernel and `delta`, both updates terminate (the
dictionary update with its search over the scale factors). -/
theorem C09_kaa (cfg : LSConfig K) (h1 : 0 < cfg.sigmaOne) (N : ℕ)
    (hN : max cfg.sigmaTwo (1 / 2) ^ (N + 1) < cfg.stepSizeTolerance) (hmem : 0 < cfg.memory)
    (delta : K) (A : Matrix (Fin n) (Fin n) K) (s : KAAState n k K) (h : KAAReach cfg delta A s) :
    (∃ s', s.updateDictionary cfg delta = Py.ok s') ∧
    (∃ s', s.updateWeights cfg delta = Py.ok s') := by
  have hg := h.good
  obtain ⟨m1, m2, m3⟩ := h.memory
  constructor
  · have hne : s.fCMem ≠ [] := by
      intro h
      rw [h] at m2
      simp at m2
      omega
    obtain ⟨s1, hs1⟩ : ∃ s1, s.updateDictionaryCore cfg delta = Py.ok s1 := by
      rw [KAAState.updateDictionaryCore_eq hg]
      obtain ⟨r, hr, -⟩ := lineSearch_terminates (cfg := cfg) h1 hne
        (trial := KAAState.dictionaryTrial delta) (s := s.dictStart)
        (f0 := kaaCost A s.S s.C)
        (δ := inner (simplexProjectRows (s.C - s.alphaC • kaaGradC s.Kmat s.S s.C) - s.C)
          (kaaGradC s.Kmat s.S s.C)) N hN
      rw [hr]
      exact ⟨_, rfl⟩
    unfold KAAState.updateDictionary
    rw [hs1, Py.ok_bind]
    by_cases hdel : delta > 0
    · rw [if_pos hdel]
      obtain ⟨lam, hl, hm⟩ := KAAState.updateDictionaryCore_post hg hs1
      refine KAAState.updateScaleFactors_terminates h1 hN ?_
      rw [hm]
      intro h
      rw [h] at m3
      simp at m3
      omega
    · rw [if_neg hdel]
      exact ⟨_, rfl⟩
  · have hne : s.fSMem ≠ [] := by
      intro h
      rw [h] at m1
      simp at m1
      omega
    rw [KAAState.updateWeights_eq hg]
    obtain ⟨r, hr, -⟩ := lineSearch_terminates (cfg := cfg) h1 hne
      (trial := KAAState.weightsTrial) (s := s.weightsStart)
      (f0 := kaaCost A s.S s.C)
      (δ := inner (simplexProjectRows (s.S - s.alphaS • kaaGradS s.Kmat s.S s.C) - s.S)
        (kaaGradS s.Kmat s.S s.C)) N hN
    rw [hr]
    exact ⟨_, rfl⟩

/-- C09.  Hence every fit with a step floor either returns or raises; it never runs forever. -/
theorem C09_kaa_fit_terminates [Archimedean K] {env : Env K} (obj : KAAObj env.rng)
    (h1 : 0 < obj.ls.sigmaOne) (h2 : obj.ls.sigmaTwo < 1) (ht : 0 < obj.ls.stepSizeTolerance)
    (hmem : 0 < obj.ls.memory) (kernel : Arr2 K) (dictionary weights : Option (Arr2 K))
    (ud uw : Bool) (kw : InitKwargs) :
    kernelAA env obj kernel dictionary weights ud uw kw ≠ Py.diverge := by
  obtain ⟨N, hN⟩ : ∃ N : ℕ, shrink obj.ls.sigmaTwo ^ (N + 1) < obj.ls.stepSizeTolerance := by
    obtain ⟨N, hN⟩ := exists_pow_shrink_le (K := K) h2 (x := obj.ls.stepSizeTolerance / 2)
      (by linarith)
    refine ⟨N, ?_⟩
    have h3 : shrink obj.ls.sigmaTwo ^ (N + 1) ≤ shrink obj.ls.sigmaTwo ^ N :=
      pow_le_pow_of_le_one (shrink_pos _).le (shrink_lt_one h2).le (Nat.le_succ N)
    linarith
  intro h
  unfold kernelAA at h
  by_cases hc : kernel.cols = kernel.rows
  swap
  · rw [dif_neg hc] at h
    simp at h
  rw [dif_pos hc] at h
  unfold kernelAASquare at h
  simp only at h
  rcases Py.bind_eq_diverge.1 h with h | ⟨p, hp, h⟩
  · by_cases hv : ValidParams (defaultComponents obj.nComponents kernel.rows) obj.maxIterations
      obj.tolerance
    · obtain ⟨p, hp, -⟩ := checkParams_valid hv
      rw [hp] at h
      simp at h
    · rw [checkParams_invalid hv] at h
      simp at h
  rcases Py.bind_eq_diverge.1 h with h | ⟨start, hst, h⟩
  · exact kaaStart_ne_diverge h
  rcases Py.bind_eq_diverge.1 h with h | ⟨_, _, h⟩
  swap
  · simp at h
  obtain ⟨p, hp, s, hs, h⟩ := iterate_diverge
    (Inv := KAAReach obj.ls obj.delta (kernel.cast rfl hc)) (fun s hs => hs.cost) (by
      intro p hp s s' hs h
      rcases kaa_mem_phases hp with ⟨-, rfl⟩ | ⟨-, rfl⟩
      · exact hs.dictionary h
      · exact hs.weights h) (KAAReach.start _ _) h
  obtain ⟨⟨s1, ha⟩, ⟨s2, hb⟩⟩ := C09_kaa obj.ls h1 N hN hmem obj.delta _ s hs
  rcases kaa_mem_phases hp with ⟨-, rfl⟩ | ⟨-, rfl⟩
  · rw [ha] at h
    simp at h
  · rw [hb] at h
    simp at h

/-- C10, weights; missing: the range of the step for settings outside those of `StepBounds`.  A finished weights update moves the weights by a damped step towards the projection
of the gradient step and leaves the dictionary; sufficient decrease, or a step below the
tolerance. -/
theorem C10_kaa_weights_partial (cfg : LSConfig K)
    (delta : K) (A : Matrix (Fin n) (Fin n) K) (s s' : KAAState n k K)
    (hs : KAAReach cfg delta A s) (h : s.updateWeights cfg delta = Py.ok s') :
    ∃ (step : K) (G P : Matrix (Fin n) (Fin k) K), G = (s.prepareWeights delta).gradS ∧
      (∀ t, (fun i => P t i) = simplexProjectVector fun i => s.S t i - s.alphaS * G t i) ∧
      StepBounds cfg.gamma cfg.sigmaOne cfg.sigmaTwo (inner (P - s.S) G) step ∧
      s'.S = s.S + step • (P - s.S) ∧ s'.C = s.C ∧
      s'.fSMem = s.fSMem.tail ++ [kaaCost A s.S s.C] ∧
      ((∃ fMax ∈ s'.fSMem, (∀ f ∈ s'.fSMem, f ≤ fMax) ∧
          kaaCost A s'.S s'.C ≤ fMax + cfg.gamma * step * inner (P - s.S) G) ∨
        |step| < cfg.stepSizeTolerance) := by
  have hg := hs.good
  obtain ⟨lam, hl⟩ := KAAState.updateWeights_post hg h
  have hK : s'.Kmat = A := hl.Kmat.trans hg.Kmat
  refine ⟨lam, _, simplexProjectRows (s.S - s.alphaS • kaaGradS s.Kmat s.S s.C), rfl,
    fun t => ?_, ?_, hl.S, hl.C, ?_, ?_⟩
  · rw [KAAState.prepareWeights_eq _ _ hg.alpha, projectRows_apply]
    rfl
  · rw [KAAState.prepareWeights_eq _ _ hg.alpha]
    exact hl.range.bounds
  · rw [hl.fSMem, hg.Kmat]
  · rw [KAAState.prepareWeights_eq _ _ hg.alpha, ← hK]
    exact hl.accept

/-- C10, dictionary; missing: the range of the step for other settings. -/
theorem C10_kaa_dictionary_partial (cfg : LSConfig K)
    (delta : K) (A : Matrix (Fin n) (Fin n) K) (s s' : KAAState n k K)
    (hs : KAAReach cfg delta A s) (h : s.updateDictionary cfg delta = Py.ok s') :
    ∃ (step : K) (G P : Matrix (Fin k) (Fin n) K), G = (s.prepareDictionary delta).gradC ∧
      (∀ i, (fun j => P i j) = simplexProjectVector fun j => s.C i j - s.alphaC * G i j) ∧
      StepBounds cfg.gamma cfg.sigmaOne cfg.sigmaTwo (inner (P - s.C) G) step ∧
      s'.C = s.C + step • (P - s.C) ∧ s'.S = s.S ∧
      s'.fCMem = s.fCMem.tail ++ [kaaCost A s.S s.C] ∧
      ((∃ fMax ∈ s'.fCMem, (∀ f ∈ s'.fCMem, f ≤ fMax) ∧
          kaaCost A s'.S s'.C ≤ fMax + cfg.gamma * step * inner (P - s.C) G) ∨
        |step| < cfg.stepSizeTolerance) := by
  have hg := hs.good
  obtain ⟨lam, hl⟩ := KAAState.updateDictionary_post hg h
  have hK : s'.Kmat = A := hl.Kmat.trans hg.Kmat
  refine ⟨lam, _, simplexProjectRows (s.C - s.alphaC • kaaGradC s.Kmat s.S s.C), rfl,
    fun t => ?_, ?_, hl.C, hl.S, ?_, ?_⟩
  · rw [KAAState.prepareDictionary_eq _ _ hg.alpha, projectRows_apply]
    rfl
  · rw [KAAState.prepareDictionary_eq _ _ hg.alpha]
    exact hl.range.bounds
  · rw [hl.fCMem, hg.Kmat]
  · rw [KAAState.prepareDictionary_eq _ _ hg.alpha, ← hK]
    exact hl.accept

/-! ### Descent -/

/-- C33.  For a symmetric kernel with `line_search_memory=1`, `step_size_tolerance=0` and
`delta=0`, a fit never reports an increased cost and never runs forever: it returns, or raises one of
the exceptions of the initialisation. -/
theorem C33_kaa_fit_never_reports_increase [Archimedean K] {env : Env K} (hR : env.rng.Lawful)
    (obj : KAAObj env.rng) (h1 : 0 < obj.ls.sigmaOne) (h2 : obj.ls.sigmaTwo < 1)
    (hg0 : 0 ≤ obj.ls.gamma) (hg1 : obj.ls.gamma < 1) (ht : obj.ls.stepSizeTolerance = 0)
    (ha0 : 0 < obj.ls.alphaMin) (ha1 : obj.ls.alphaMin ≤ obj.ls.alphaMax)
    (hmem : obj.ls.memory = 1) (hdel : obj.delta ≤ 0)
    (A : Matrix (Fin n) (Fin n) K) (hA : ∀ i j, A i j = A j i) (hn : 1 ≤ n)
    (dictionary weights : Option (Arr2 K)) (kw : InitKwargs)
    (hd : obj.init = some "custom" → ∀ C, dictionary = some C → RowStochastic C.val)
    (hw : obj.init = some "custom" → ∀ W, weights = some W → RowStochastic W.val) :
    (∃ res, kaaFitTransform env obj (Arr2.of A) dictionary weights kw = Py.ok res) ∨
    ∃ e, kaaFitTransform env obj (Arr2.of A) dictionary weights kw = Py.raise e ∧
      (e = .valueError ∨ e = .indexError ∨ e = .typeError ∨ e = .nonFinite) := by
  have hA' : Aᵀ = A := by
    ext i j
    exact (hA i j).symm
  have key := kernelAASquare_outcome (env := env) (obj := obj) (A := A)
    (dictionary := dictionary) (weights := weights) (ud := true) (uw := true) (kw := kw) (by
      intro p hk hm start hst
      refine kaaIterate_succeeds h1 h2 hg0 hg1 ht ha0 ha1 hk hn hdel hA' hm
        (kaa_ready_initial hmem ?_ ?_)
      · exact kaaStart_weights hR hk (by simpa using hw) hst
      · exact kaaStart_dictionary_stochastic hR hn (by simpa using hd) hst)
  unfold kaaFitTransform
  rw [kernelAA_of]
  rcases key with ⟨res, h⟩ | ⟨e, h, he⟩
  · left
    rw [h]
    exact ⟨_, rfl⟩
  · right
    refine ⟨e, by rw [h]; rfl, ?_⟩
    rcases he with (he | he | he) | he <;> simp [he]

/-- C33.  In particular the default fit (FurthestSum start) of a symmetric kernel with non-negative
squared distances returns, with enough samples, when no draw is zero. -/
theorem C33_kaa_default_fit_returns [Archimedean K] {env : Env K} (hR : env.rng.Lawful)
    (hpos : ∀ m n g i j, 0 < (env.rng.uniform m n g).1 i j)
    (obj : KAAObj env.rng) (h1 : 0 < obj.ls.sigmaOne) (h2 : obj.ls.sigmaTwo < 1)
    (hg0 : 0 ≤ obj.ls.gamma) (hg1 : obj.ls.gamma < 1) (ht : obj.ls.stepSizeTolerance = 0)
    (ha0 : 0 < obj.ls.alphaMin) (ha1 : obj.ls.alphaMin ≤ obj.ls.alphaMax)
    (hmem : obj.ls.memory = 1) (hdel : obj.delta ≤ 0)
    (hinit : obj.init = none ∨ obj.init = some "furthest_sum")
    (hv : ValidParams obj.nComponents obj.maxIterations obj.tolerance)
    (hc : obj.nComponents = .int k) (hkn : k ≤ n)
    (A : Matrix (Fin n) (Fin n) K) (hA : ∀ i j, A i j = A j i)
    (hdist : ∀ i j, 0 ≤ A j j - 2 * A i j + A i i) (dictionary weights : Option (Arr2 K)) :
    ∃ res, kaaFitTransform env obj (Arr2.of A) dictionary weights {} = Py.ok res := by
  have hv' : ValidParams (defaultComponents obj.nComponents n) obj.maxIterations
      obj.tolerance := by
    rw [hc] at hv ⊢
    exact hv
  obtain ⟨⟨k', m, t⟩, hp, hck, -, hk, hm, -, -⟩ := checkParams_valid hv'
  rw [hc] at hck
  simp only [defaultComponents, NumArg.int.injEq, Nat.cast_inj] at hck
  subst hck
  have hA' : Aᵀ = A := by
    ext i j
    exact (hA i j).symm
  have hi : obj.init.getD "furthest_sum" = "furthest_sum" := by
    rcases hinit with h | h <;> simp [h]
  have hic : obj.init ≠ some "custom" := by rcases hinit with h | h <;> simp [h]
  obtain ⟨start, hst⟩ : ∃ start, kaaStart env A k obj.init dictionary weights true true {}
      obj.randomState.start = Py.ok start := by
    unfold kaaStart
    simp only [hic, if_false, Bool.true_eq_false, false_and, and_false]
    unfold kaaInitBoth kaaInitDictionary
    simp only [hi, Option.getD_some, if_true]
    unfold kaaInitDictionaryFurthestSum
    obtain ⟨r, hr⟩ := furthestSumRows_succeeds hR hdist hk hkn (kw := {}) rfl (by simp)
      obj.randomState.start
    simp only [hr, Py.ok_bind, Py.pure_eq]
    unfold kaaInitWeights
    simp only [InitKwargs.nonempty, Option.isSome_none, Bool.or_self, Bool.false_eq_true,
        if_false, Option.getD_some, true_or, if_true]
    obtain ⟨w, hw⟩ := rightStochastic_succeeds hpos (m := n) (n := k) hk r.2
    unfold kaaInitWeightsRandom
    rw [hw]
    exact ⟨_, rfl⟩
  have hn : 1 ≤ n := le_trans hk hkn
  obtain ⟨r, hr⟩ := kaaIterate_succeeds h1 h2 hg0 hg1 ht ha0 ha1 hk hn hdel hA' hm
    (require := obj.require) (tol := t) (ud := true) (uw := true)
    (kaa_ready_initial hmem (kaaStart_weights hR hk (by simp [hic]) hst)
      (kaaStart_dictionary_stochastic hR hn (by simp [hic]) hst))
  unfold kaaFitTransform
  rw [kernelAA_of, kernelAASquare_of_steps hp hst hr]
  exact ⟨_, rfl⟩

/-! ### Examples -/

/-- The kernel of three points in the plane. -/
def demoKernel : Matrix (Fin 3) (Fin 3) ℚ := !![1, 0, 2; 0, 4, 2; 2, 2, 5]

theorem demoKernel_symm : ∀ i j, demoKernel i j = demoKernel j i := by
  intro i j
  fin_cases i <;> fin_cases j <;> rfl

theorem demoKernel_dist : ∀ i j,
    0 ≤ demoKernel j j - 2 * demoKernel i j + demoKernel i i := by
  intro i j
  fin_cases i <;> fin_cases j <;> norm_num [demoKernel]

/-- A model of the examples. -/
def demoKAA : KAAObj demoEnv.rng :=
  { nComponents := .int 2, delta := 0, init := none, tolerance := .real (1/1000)
    maxIterations := .int 4, randomState := .seed 3
    ls := { demoLS with stepSizeTolerance := 0 }, require := true }

theorem demoKAA_valid : ValidParams demoKAA.nComponents demoKAA.maxIterations demoKAA.tolerance :=
  ⟨⟨2, rfl, by norm_num⟩, ⟨4, rfl, by norm_num⟩, Or.inr ⟨_, rfl, by norm_num⟩⟩

/-- The hypotheses of C22, C28, C33, C59 are met by an actual fit. -/
theorem demo_kaa_fit : ∃ res, kaaFitTransform demoEnv demoKAA (Arr2.of demoKernel) none none {} =
    Py.ok res :=
  C33_kaa_default_fit_returns demoRng_lawful demoRng_uniform_pos demoKAA
    (by norm_num [demoKAA, demoLS]) (by norm_num [demoKAA, demoLS]) (by norm_num [demoKAA, demoLS])
    (by norm_num [demoKAA, demoLS]) rfl (by norm_num [demoKAA, demoLS])
    (by norm_num [demoKAA, demoLS]) rfl (by norm_num [demoKAA]) (Or.inl rfl) demoKAA_valid rfl
    (by norm_num) demoKernel demoKernel_symm demoKernel_dist none none

example : ∃ (k : ℕ) (S : Matrix (Fin 3) (Fin k) ℚ) (C : Matrix (Fin k) (Fin 3) ℚ),
    RowStochastic S ∧ RowStochastic C := by
  obtain ⟨⟨o, G, i⟩, h⟩ := demo_kaa_fit
  obtain ⟨k, S, C, -, -, hS, hC⟩ := C28_kaa_fit_stochastic_partial demoRng_lawful demoKAA
    (by norm_num [SafeSteps, demoKAA, demoLS]) demoKernel (by norm_num)
    none none {} true true (by simp) (by simp) o G i h
  exact ⟨k, S, C, hS, hC⟩

/-- C34 at work. -/
example : kaaFitTransform demoEnv demoKAA (Arr2.of demoKernel) none none
    { startIndex := some 1 } = Py.raise .typeError :=
  C34_kaa_start_index_type_error_partial demoRng_lawful demoKAA (Or.inl rfl) demoKernel demoKernel_dist 2
    demoKAA_valid rfl (by norm_num) none none 1 (by norm_num) none

/-- C32, C09: the hypotheses are met by a model with `delta > 0` and a step floor. -/
example : kernelAA demoEnv { { demoKAA with ls := demoLS, delta := 1/2 } with delta := 0 }
      (Arr2.of demoKernel) none none true true {} =
    (do
      let r ← kernelAA demoEnv { demoKAA with ls := demoLS, delta := 1/2 } (Arr2.of demoKernel)
        none none true true {}
      pure ({ r.1 with delta := 0 }, r.2)) :=
  C32_kaa_delta_irrelevant_with_floor _ (by norm_num [demoLS]) (by norm_num [demoLS]) (by norm_num [demoLS])
    _ _ _ _ _ _

example : kernelAA demoEnv { demoKAA with ls := demoLS, delta := 1/2 } (Arr2.of demoKernel)
    none none true true {} ≠ Py.diverge :=
  C09_kaa_fit_terminates _ (by norm_num [demoLS]) (by norm_num [demoLS]) (by norm_num [demoLS])
    (by norm_num [demoLS]) _ _ _ _ _ _

/-- C31: some states of a fit other than the first. -/
example : ∃ s s' : KAAState 3 2 ℚ, KAAReach demoLS (1/2) demoKernel s ∧
    KAAReach demoLS (1/2) demoKernel s' ∧ s.updateWeights demoLS (1/2) = Py.ok s' := by
  have h0 : KAAReach demoLS (1/2) demoKernel
      (KAAState.initializeWorkspace demoLS demoKernel demoW !![1, 0, 0; 0, 0, 1]) := .start _ _
  obtain ⟨⟨s1, h1⟩, -⟩ := C09_kaa demoLS (by norm_num [demoLS]) 219
    (by norm_num [demoLS]) (by norm_num [demoLS]) _ _ _ h0
  obtain ⟨-, ⟨s2, h2⟩⟩ := C09_kaa demoLS (by norm_num [demoLS]) 219
    (by norm_num [demoLS]) (by norm_num [demoLS]) _ _ _ (h0.dictionary h1).cost
  exact ⟨_, s2, (h0.dictionary h1).cost, (h0.dictionary h1).cost.weights h2, h2⟩

/-- C29 needs the symmetry: for a kernel that is not symmetric the dictionary gradient differs from
the derivative (here 2 instead of 1). -/
theorem C29_kaa_asymmetric_gradient_wrong (cfg : LSConfig ℝ) (delta : ℝ) :
    ∃ (A : Matrix (Fin 2) (Fin 2) ℝ) (s : KAAState 2 1 ℝ) (H : Matrix (Fin 1) (Fin 2) ℝ),
      KAAReach cfg delta A s ∧
      HasDerivAt (fun t : ℝ => kaaCost A s.S (s.C + t • H)) 1 0 ∧
      inner (s.prepareDictionary delta).gradC H = 2 := by
  have hr : KAAReach cfg delta !![0, 1; 0, 0]
    (KAAState.initializeWorkspace cfg !![0, 1; 0, 0] !![1; 0] !![1, 0]) := .start _ _
  refine ⟨!![0, 1; 0, 0], _, !![0, 1], hr, ?_, ?_⟩
  · have : (fun t : ℝ => kaaCost !![0, 1; 0, 0]
        (KAAState.initializeWorkspace cfg (!![0, 1; 0, 0] : Matrix (Fin 2) (Fin 2) ℝ)
          (!![1; 0] : Matrix (Fin 2) (Fin 1) ℝ) !![1, 0]).S
        ((KAAState.initializeWorkspace cfg (!![0, 1; 0, 0] : Matrix (Fin 2) (Fin 2) ℝ)
          (!![1; 0] : Matrix (Fin 2) (Fin 1) ℝ) !![1, 0]).C + t • !![0, 1])) = fun t => t := by
      funext t
      simp [kaaCost, KAAState.initializeWorkspace]
    rw [this]
    exact hasDerivAt_id 0
  · rw [KAAState.prepareDictionary_eq _ _ (hr.good).alpha]
    simp [KAAState.initializeWorkspace, kaaGradC, inner, Matrix.mul_apply, Fin.sum_univ_two]

/-- With the same settings as in `C33_kaa_default_fit_returns`, `transform` of a fitted model returns
for every symmetric kernel with the fitted number of samples. -/
theorem C33_kaa_transform_returns [Archimedean K] {env : Env K} (hR : env.rng.Lawful)
    (hpos : ∀ m n g i j, 0 < (env.rng.uniform m n g).1 i j)
    (obj : KAAObj env.rng) (h1 : 0 < obj.ls.sigmaOne) (h2 : obj.ls.sigmaTwo < 1)
    (hg0 : 0 ≤ obj.ls.gamma) (hg1 : obj.ls.gamma < 1) (ht : obj.ls.stepSizeTolerance = 0)
    (ha0 : 0 < obj.ls.alphaMin) (ha1 : obj.ls.alphaMin ≤ obj.ls.alphaMax)
    (hmem : obj.ls.memory = 1) (hdel : obj.delta ≤ 0)
    (hinit : obj.init = none ∨ obj.init = some "furthest_sum" ∨ obj.init = some "random")
    (hv : ValidParams obj.nComponents obj.maxIterations obj.tolerance)
    (hc : obj.nComponents = .int k) (hn : 1 ≤ n)
    (A : Matrix (Fin n) (Fin n) K) (hA : ∀ i j, A i j = A j i)
    (C : Matrix (Fin k) (Fin n) K) (hC : RowStochastic C) (hobj : obj.C = some (Arr2.of C)) :
    ∃ res, kaaTransform env obj (Arr2.of A) = Py.ok res := by
  have hv' : ValidParams (defaultComponents obj.nComponents n) obj.maxIterations
      obj.tolerance := by
    rw [hc] at hv ⊢
    exact hv
  obtain ⟨⟨k', m, t⟩, hp, hck, -, hk, hm, -, -⟩ := checkParams_valid hv'
  rw [hc] at hck
  simp only [defaultComponents, NumArg.int.injEq, Nat.cast_inj] at hck
  subst hck
  have hA' : Aᵀ = A := by
    ext i j
    exact (hA i j).symm
  have hic : obj.init ≠ some "custom" := by rcases hinit with h | h | h <;> simp [h]
  have hd : kaaCheckInitDictionary (some (Arr2.of C)) k n = Py.ok C := by
    have hs : checkUnitRowSums C = Py.ok () := by
      unfold checkUnitRowSums
      rw [if_pos]
      intro i
      rw [(hC i).2, iscloseOne, sub_self, abs_zero, abs_one]
      positivity
    have hne : ¬ ((Arr2.of C).rows = 0 ∨ (Arr2.of C).cols = 0) := by
      simp only [Arr2.of]; omega
    unfold kaaCheckInitDictionary checkArray
    simp only [hne, if_false, Py.ok_bind, checkArrayShape_of, hs, Py.pure_eq]
  obtain ⟨start, hst⟩ : ∃ start, kaaStart env A k obj.init (some (Arr2.of C)) none false true {}
      obj.randomState.start = Py.ok start := by
    unfold kaaStart
    simp only [hic, if_false, true_and, if_true, hd, Py.ok_bind]
    unfold kaaInitWeights
    have hi : obj.init.getD "furthest_sum" = "furthest_sum" ∨
        obj.init.getD "furthest_sum" = "random" := by
      rcases hinit with h | h | h <;> simp [h]
    simp only [InitKwargs.nonempty, Option.isSome_none, Bool.or_self, Bool.false_eq_true,
        if_false, hi, if_true]
    obtain ⟨w, hw⟩ := rightStochastic_succeeds hpos (m := n) (n := k) hk obj.randomState.start
    unfold kaaInitWeightsRandom
    rw [hw]
    exact ⟨_, rfl⟩
  obtain ⟨r, hr⟩ := kaaIterate_succeeds h1 h2 hg0 hg1 ht ha0 ha1 hk hn hdel hA' hm
    (require := obj.require) (tol := t) (ud := false) (uw := true)
    (kaa_ready_initial hmem (kaaStart_weights hR hk (by simp [hic]) hst)
      (kaaStart_dictionary_stochastic hR hn (by
        intro _ C' hC'
        simp only [Option.some.injEq] at hC'
        subst hC'
        exact hC) hst))
  unfold kaaTransform
  rw [kernelAA_of, hobj, kernelAASquare_of_steps hp hst hr]
  exact ⟨_, rfl⟩

/-- A dictionary of the examples. -/
def demoC : Matrix (Fin 2) (Fin 3) ℚ := !![1, 0, 0; 0, 1/2, 1/2]

theorem demoC_rowStochastic : RowStochastic demoC := by
  intro i
  refine ⟨fun j => ?_, ?_⟩
  · fin_cases i <;> fin_cases j <;> norm_num [demoC]
  · fin_cases i <;> norm_num [demoC, Fin.sum_univ_succ]

theorem demo_kaa_transform : ∃ res, kaaTransform demoEnv { demoKAA with C := some (Arr2.of demoC) }
    (Arr2.of demoKernel) = Py.ok res :=
  C33_kaa_transform_returns demoRng_lawful demoRng_uniform_pos
    { demoKAA with C := some (Arr2.of demoC) }
    (by norm_num [demoKAA, demoLS]) (by norm_num [demoKAA, demoLS]) (by norm_num [demoKAA, demoLS])
    (by norm_num [demoKAA, demoLS]) rfl (by norm_num [demoKAA, demoLS])
    (by norm_num [demoKAA, demoLS]) rfl (by norm_num [demoKAA]) (Or.inl rfl) demoKAA_valid rfl
    (by norm_num) demoKernel demoKernel_symm demoC demoC_rowStochastic rfl

example : ∃ obj' : KAAObj demoEnv.rng, obj'.C = some (Arr2.of demoC) := by
  obtain ⟨⟨o, G, i⟩, h⟩ := demo_kaa_transform
  exact ⟨o, (C23_kaa_transform_keeps_dictionary _ _ o G i h).1⟩

/-- C35 at work: the fitted model above cannot transform two samples. -/
example : kaaTransform demoEnv { demoKAA with C := some (Arr2.of demoC) }
    (Arr2.of (!![1, 0; 0, 1] : Matrix (Fin 2) (Fin 2) ℚ)) = Py.raise .valueError :=
  C35_kaa_transform_other_size _ demoC rfl _ (by norm_num [Arr2.of])

example : kaaTransform demoEnv { demoKAA with C := some (Arr2.of demoC), init := some "custom" }
    (Arr2.of demoKernel) = Py.raise .valueError :=
  C37_kaa_custom_cannot_transform _ rfl _

/-- C36 at work. -/
example : ∃ r, kaaInitDictionary demoEnv demoKernel 2 (some "furthest_sum") {} (demoRng.ofSeed 4) =
    Py.ok r := by
  unfold kaaInitDictionary
  simp only [Option.getD_some, if_true]
  unfold kaaInitDictionaryFurthestSum
  obtain ⟨r, hr⟩ := furthestSumRows_succeeds (env := demoEnv) demoRng_lawful demoKernel_dist
    (k := 2) (by norm_num) (by norm_num) (kw := {}) rfl (by simp) (demoRng.ofSeed 4)
  rw [hr]
  exact ⟨_, rfl⟩

/-- C59 at work: the second fit of the example gives what the first gave. -/
example : ∃ res, kaaFitTransform demoEnv demoKAA (Arr2.of demoKernel) none none {} = Py.ok res ∧
    kaaFitTransform demoEnv res.1 (Arr2.of demoKernel) none none {} = Py.ok res := by
  obtain ⟨⟨o, G, i⟩, h⟩ := demo_kaa_fit
  exact ⟨_, h, C59_kaa_refit demoKAA 3 rfl _ _ _ _ _ _ o G i h⟩

/-- C59, contrast: the second GPNH fit of the same data starts from another dictionary. -/
example : ∃ s1 s2,
    gpnhStart demoEnv (!![2, 2] : Matrix (Fin 1) (Fin 2) ℚ) 2 none none none true true {}
      (demoRng.ofSeed 3) = Py.ok s1 ∧
    gpnhStart demoEnv (!![2, 2] : Matrix (Fin 1) (Fin 2) ℚ) 2 none none none true true {} s1.2 =
      Py.ok s2 ∧
    s1.1.1 0 1 ≠ s2.1.1 0 1 := by
  obtain ⟨s1, hs1⟩ := gpnhStart_random_ok (env := demoEnv) demoRng_uniform_pos
    (data := (!![2, 2] : Matrix (Fin 1) (Fin 2) ℚ)) (k := 2) (by norm_num) (by norm_num)
    (Or.inl rfl) (dictionary := none) (weights := none) (g := demoRng.ofSeed 3)
  obtain ⟨s2, hs2⟩ := gpnhStart_random_ok (env := demoEnv) demoRng_uniform_pos
    (data := (!![2, 2] : Matrix (Fin 1) (Fin 2) ℚ)) (k := 2) (by norm_num) (by norm_num)
    (Or.inl rfl) (dictionary := none) (weights := none) (g := s1.2)
  refine ⟨s1, s2, hs1, hs2, ?_⟩
  have key : ∀ (g : ℕ) s,
      gpnhStart demoEnv (!![2, 2] : Matrix (Fin 1) (Fin 2) ℚ) 2 none none none true true {} g =
        Py.ok s → s.1.1 0 1 = -(g : ℚ) ∧ s.2 = g + 2 := by
    intro g s h
    unfold gpnhStart at h
    simp only [reduceCtorEq, if_false, Bool.true_eq_false, false_and, and_false] at h
    unfold gpnhInitBoth at h
    obtain ⟨d, hd, h⟩ := Py.bind_eq_ok.1 h
    obtain ⟨w, hw, h⟩ := Py.bind_eq_ok.1 h
    simp only [Py.pure_eq, Py.ok.injEq] at h
    subst h
    unfold gpnhInitDictionary gpnhInitDictionaryRandom at hd
    simp only [Option.getD_some, Option.getD_none, if_true, Nat.reduceMul, OfNat.ofNat_ne_zero,
      if_false, Py.ok.injEq] at hd
    subst hd
    unfold gpnhInitWeights gpnhInitWeightsRandom rightStochasticMatrix at hw
    simp only [InitKwargs.nonempty, Option.isSome_none, Bool.or_self, Bool.false_eq_true,
        if_false, Option.getD_some, or_true, if_true, Option.getD_none] at hw
    split_ifs at hw
    simp only [Py.ok.injEq] at hw
    subst hw
    refine ⟨?_, rfl⟩
    norm_num [demoEnv]
    change (((0 : Fin 2) : ℕ) : ℚ) - (((1 : Fin 2) : ℕ) : ℚ) * (g : ℚ) = -(g : ℚ)
    norm_num
  obtain ⟨a1, b1⟩ := key 3 s1 hs1
  obtain ⟨a2, b2⟩ := key s1.2 s2 hs2
  rw [a1, a2, b1]
  norm_num

end Reor
