import Verif.Props.KernelAA

/-!
The line search over the scale factors of kernel archetypal analysis (C124), and its seeds (C59).
-/

set_option linter.unusedSectionVars false

namespace Reor

open scoped BigOperators Matrix
open Spec

variable {K : Type} [Field K] [LinearOrder K] [IsStrictOrderedRing K] {n k : ℕ}

/-- The cost of the search, from up-to-date products. -/
theorem scaleCost_prepared (delta : K) {A : Matrix (Fin n) (Fin n) K} {s : KAAState n k K}
    (hA : s.Kmat = A) (ht : s.traceK = A.trace) (hS : s.StS = s.Sᵀ * s.S)
    {d : Matrix (Fin k) (Fin k) K} (hd : dᵀ = d) :
    (s.prepareScaleFactors delta).scaleCost d = kaaCost A s.S (d * s.C) := by
  rw [kaaCost_eq_trace]
  change s.traceK - 2 * (s.C * s.Kmat * s.S * d).trace +
    (s.StS * (d * (s.C * s.Kmat * s.Cᵀ * d))).trace = _
  rw [hA, ht, hS, Matrix.transpose_mul, hd]
  have e : (s.C * A * s.S * d).trace = (s.S * (d * s.C * A)).trace := by
    rw [Matrix.trace_mul_comm, ← Matrix.mul_assoc, Matrix.trace_mul_comm, Matrix.mul_assoc d]
  rw [e]
  simp only [Matrix.mul_assoc]

theorem scaleStart_good {cfg : LSConfig K} {delta : K} {A : Matrix (Fin n) (Fin n) K}
    {s s' : KAAState n k K} (h : KAAReach cfg delta A s)
    (hs : s.updateDictionaryCore cfg delta = Py.ok s') : s'.Good A := by
  have hg := h.good
  obtain ⟨lam, hp, -⟩ := KAAState.updateDictionaryCore_post hg hs
  exact ⟨hp.Kmat.trans hg.Kmat, hp.traceK.trans hg.traceK, hp.scale.trans hg.alpha,
    by rw [hp.StS, hp.S]⟩

/-- C124.  The cost the search over the scale factors computes from cached products, at a diagonal
matrix of scale factors: the objective with each archetype multiplied by its factor, for every state
of every fit and every kernel. -/
theorem C124_scale_cost (cfg : LSConfig K) (delta : K) (A : Matrix (Fin n) (Fin n) K)
    (s s' : KAAState n k K) (h : KAAReach cfg delta A s)
    (hs : s.updateDictionaryCore cfg delta = Py.ok s') (a : Fin k → K) :
    (s'.prepareScaleFactors delta).scaleCost (Matrix.diagonal a) =
      kaaCost A s'.S (fun i j => a i * s'.C i j) := by
  have hg := scaleStart_good h hs
  rw [scaleCost_prepared delta hg.Kmat hg.traceK hg.StS (Matrix.diagonal_transpose a)]
  refine congrArg _ ?_
  ext i j
  exact Matrix.diagonal_mul a s'.C i j

/-- C124.  The search starts at the objective. -/
theorem C124_scale_start (cfg : LSConfig K) (delta : K) (A : Matrix (Fin n) (Fin n) K)
    (s s' : KAAState n k K) (h : KAAReach cfg delta A s)
    (hs : s.updateDictionaryCore cfg delta = Py.ok s') :
    (s'.prepareScaleFactors delta).scaleCost (s'.prepareScaleFactors delta).diagAlpha =
      kaaCost A s'.S s'.C := by
  have e : (s'.prepareScaleFactors delta).diagAlpha = Matrix.diagonal fun _ => 1 := by
    change Matrix.diagonal s'.alpha = _
    rw [(scaleStart_good h hs).alpha]
  rw [e, C124_scale_cost cfg delta A s s' h hs]
  simp only [one_mul]

/-- C124.  For `delta ≥ 0` the direction of the search does not depend on the data, the gradient or
the step length: after the clipping every entry of the matrix of scale factors, also outside the
diagonal, is `1 + delta`. -/
theorem C124_scale_direction (cfg : LSConfig K) (delta : K) (hdelta : 0 ≤ delta)
    (A : Matrix (Fin n) (Fin n) K) (s s' : KAAState n k K) (h : KAAReach cfg delta A s)
    (hs : s.updateDictionaryCore cfg delta = Py.ok s') (i j : Fin k) :
    (s'.prepareScaleFactors delta).incrAlpha i j = if i = j then delta else 1 + delta := by
  have ha := (scaleStart_good h hs).alpha
  have hmin : ∀ x : K, max (min x (1 - delta)) (1 + delta) = 1 + delta := fun x =>
    max_eq_right ((min_le_right _ _).trans (by linarith))
  change max (min (Matrix.diagonal s'.alpha i j - s'.alphaAlpha * _) (1 - delta)) (1 + delta) -
    Matrix.diagonal s'.alpha i j = _
  rw [hmin, ha]
  by_cases hij : i = j
  · rw [hij, Matrix.diagonal_apply_eq, if_pos rfl]
    ring
  · rw [Matrix.diagonal_apply_ne _ hij, if_neg hij, sub_zero]

/-- C124.  So the cost of the full step is the objective with every archetype replaced by `1 + delta`
times the sum of all archetypes: no choice of scale factors, let alone one between `1 - delta` and
`1 + delta`. -/
theorem C124_scale_full_step (cfg : LSConfig K) (delta : K) (hdelta : 0 ≤ delta)
    (A : Matrix (Fin n) (Fin n) K) (s s' : KAAState n k K) (h : KAAReach cfg delta A s)
    (hs : s.updateDictionaryCore cfg delta = Py.ok s') :
    (s'.prepareScaleFactors delta).scaleCost ((s'.prepareScaleFactors delta).diagAlpha +
      (1 : K) • (s'.prepareScaleFactors delta).incrAlpha) =
      kaaCost A s'.S (fun _ j => (1 + delta) * ∑ l, s'.C l j) := by
  have hg := scaleStart_good h hs
  have e : (s'.prepareScaleFactors delta).diagAlpha +
      (1 : K) • (s'.prepareScaleFactors delta).incrAlpha = Matrix.of fun _ _ => 1 + delta := by
    ext i j
    change Matrix.diagonal s'.alpha i j + 1 * (s'.prepareScaleFactors delta).incrAlpha i j = 1 + delta
    rw [C124_scale_direction cfg delta hdelta A s s' h hs, hg.alpha]
    by_cases hij : i = j
    · rw [hij, Matrix.diagonal_apply_eq, if_pos rfl]
      ring
    · rw [Matrix.diagonal_apply_ne _ hij, if_neg hij]
      ring
  rw [e, scaleCost_prepared delta hg.Kmat hg.traceK hg.StS (by ext; rfl)]
  refine congrArg _ ?_
  ext i j
  simp only [Matrix.mul_apply, Matrix.of_apply, Finset.mul_sum]

/-- C124.  For a symmetric kernel the gradient with respect to the scale factors is the derivative of
the objective with each archetype multiplied by its factor, in every direction. -/
theorem C124_scale_gradient (cfg : LSConfig ℝ) (delta : ℝ) (A : Matrix (Fin n) (Fin n) ℝ)
    (hA : ∀ i j, A i j = A j i) (s s' : KAAState n k ℝ) (h : KAAReach cfg delta A s)
    (hs : s.updateDictionaryCore cfg delta = Py.ok s') (v : Fin k → ℝ) :
    HasDerivAt (fun t : ℝ => kaaCost A s'.S (fun i j => (1 + t * v i) * s'.C i j))
      (∑ i, (s'.prepareScaleFactors delta).gradAlpha i * v i) 0 := by
  have hg := scaleStart_good h hs
  have hA' : Aᵀ = A := by
    ext i j
    exact (hA i j).symm
  have e : ∀ t : ℝ, (fun i j => (1 + t * v i) * s'.C i j : Matrix (Fin k) (Fin n) ℝ) =
      s'.C + t • (Matrix.diagonal v * s'.C) := by
    intro t
    ext i j
    rw [Matrix.add_apply, Matrix.smul_apply, Matrix.diagonal_mul, smul_eq_mul]
    ring
  have hgrad : ∑ i, (s'.prepareScaleFactors delta).gradAlpha i * v i =
      Spec.inner (Matrix.diagonal v * s'.C) (kaaGradC A s'.S s'.C) := by
    have e1 : ∀ i, (s'.prepareScaleFactors delta).gradAlpha i =
        (kaaGradC A s'.S s'.C * s'.Cᵀ) i i := by
      intro i
      change (s'.StS * ((2 : ℝ) • (Matrix.diagonal s'.alpha * (s'.C * s'.Kmat * s'.Cᵀ)ᵀ)) +
        (-2 : ℝ) • (s'.C * s'.Kmat * s'.S)ᵀ) i i = _
      rw [hg.alpha, Matrix.diagonal_one, Matrix.one_mul, hg.Kmat, hg.StS]
      unfold kaaGradC
      rw [Matrix.add_mul, hA']
      simp only [Matrix.transpose_mul, Matrix.transpose_transpose, hA', Matrix.mul_smul,
        Matrix.smul_mul, Matrix.mul_assoc]
      rw [add_comm]
    unfold Spec.inner
    refine Finset.sum_congr rfl fun i _ => ?_
    rw [e1, Matrix.mul_apply, Finset.sum_mul]
    refine Finset.sum_congr rfl fun j _ => ?_
    rw [Matrix.diagonal_mul, Matrix.transpose_apply]
    ring
  rw [hgrad]
  exact hasDerivAt_quadratic fun t => (congrArg (kaaCost A s'.S) (e t)).trans
    (kaaCost_add_C hA' s'.S s'.C (Matrix.diagonal v * s'.C) t)

/-- The search starts on every state whose dictionary search stops. -/
theorem scaleStart_exists {cfg : LSConfig K} {delta : K} {A : Matrix (Fin n) (Fin n) K}
    {s : KAAState n k K} (h : KAAReach cfg delta A s) (h1 : 0 < cfg.sigmaOne) (hmem : s.fCMem ≠ [])
    (N : ℕ) (hN : shrink cfg.sigmaTwo ^ (N + 1) < cfg.stepSizeTolerance) :
    ∃ s', s.updateDictionaryCore cfg delta = Py.ok s' := by
  rw [KAAState.updateDictionaryCore_eq h.good]
  obtain ⟨r, hr, -⟩ := lineSearch_terminates (trial := KAAState.dictionaryTrial delta)
    (s := s.dictStart) (f0 := kaaCost A s.S s.C)
    (δ := inner (simplexProjectRows (s.C - s.alphaC • kaaGradC s.Kmat s.S s.C) - s.C)
          (kaaGradC s.Kmat s.S s.C)) h1 hmem N hN
  rw [hr]
  exact ⟨_, rfl⟩

/-- The settings of the example below. -/
noncomputable def scaleCfg : LSConfig ℝ := ⟨1, 1 / 10 ^ 4, 1 / 10 ^ 3, 10 ^ 3, 1 / 10, 9 / 10, 1⟩

/-- Two samples with unit kernel, each its own archetype, and `delta = 1/2`: the search starts, the
cost with both scale factors 2 is the objective with both archetypes doubled, and the direction of the
search has 3/2 outside the diagonal. -/
example : ∃ s' : KAAState 2 2 ℝ,
    (KAAState.initializeWorkspace scaleCfg (1 : Matrix (Fin 2) (Fin 2) ℝ) 1 1).updateDictionaryCore
      scaleCfg (1 / 2) = Py.ok s' ∧
    (s'.prepareScaleFactors (1 / 2)).scaleCost (Matrix.diagonal fun _ => 2) =
      kaaCost 1 s'.S (fun i j => 2 * s'.C i j) ∧
    (s'.prepareScaleFactors (1 / 2)).incrAlpha 0 1 = 3 / 2 := by
  have hr : KAAReach scaleCfg (1 / 2) (1 : Matrix (Fin 2) (Fin 2) ℝ)
      (KAAState.initializeWorkspace scaleCfg _ (1 : Matrix (Fin 2) (Fin 2) ℝ) 1) := .start 1 1
  obtain ⟨s', hs'⟩ := scaleStart_exists hr (by norm_num [scaleCfg])
    (by simp [KAAState.initializeWorkspace, scaleCfg]) 0 (by norm_num [shrink, scaleCfg])
  refine ⟨s', hs', C124_scale_cost _ _ _ _ _ hr hs' _, ?_⟩
  rw [C124_scale_direction _ _ (by norm_num) _ _ _ hr hs', if_neg (by decide)]
  norm_num

/-! ### Seeds -/

/-- C59.  An integer seed means: a new generator with this seed for every call.  Fitting with the seed
is fitting with that generator, except that the object keeps the seed. -/
theorem C59_kaa_seed {env : Env K} (obj : KAAObj env.rng) (seed : ℕ)
    (hseed : obj.randomState = .seed seed) (kernel : Arr2 K)
    (dictionary weights : Option (Arr2 K)) (kw : InitKwargs) (ud uw : Bool) :
    kaaFitTransform env obj kernel dictionary weights kw ud uw =
      kaaFitTransform env { obj with randomState := .gen (env.rng.ofSeed seed) } kernel dictionary
        weights kw ud uw >>= fun r => Py.ok ({ r.1 with randomState := .seed seed }, r.2) := by
  obtain ⟨nc, delta, init, tol, mi, rs, ls, req, oK, oS, oC, on, oc, od, oi⟩ := obj
  simp only at hseed
  subst hseed
  unfold kaaFitTransform kernelAA
  by_cases hc : kernel.cols = kernel.rows
  · rw [dif_pos hc, dif_pos hc]
    unfold kernelAASquare
    simp only [Py.bind_assoc, Py.pure_eq, Py.ok_bind]
    rfl
  · rw [dif_neg hc, dif_neg hc]
    rfl

end Reor
