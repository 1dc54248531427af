import Verif.Proofs.GPNHFixed
import Verif.Proofs.Deriv
import Verif.Props.LineSearch
import Verif.Props.Demo
import Mathlib.Data.Real.Basic

/-!
Properties C09, C10, C17-C27, C36, C37 for `GPNHConvexCoding`.
-/

namespace Reor

set_option linter.unusedSectionVars false

open scoped BigOperators Matrix
open Spec

variable {K : Type} [Field K] [LinearOrder K] [IsStrictOrderedRing K]
variable {T D k : ℕ}

/-! ### C09, C10: the line searches of this class -/

/-- C09.  Both updates terminate, from any state whatever with a non-empty memory. -/
theorem C09_gpnh (cfg : LSConfig K) (h1 : 0 < cfg.sigmaOne) (N : ℕ)
    (hN : max cfg.sigmaTwo (1 / 2) ^ (N + 1) < cfg.stepSizeTolerance) (eps : K)
    (s : GPNHState T D k K) :
    (s.fSMem ≠ [] → ∃ s', s.updateDictionary cfg eps = Py.ok s') ∧
    (s.fGammaMem ≠ [] → ∃ s', s.updateWeights cfg eps = Py.ok s') :=
  ⟨GPNHState.updateDictionary_terminates h1 hN, GPNHState.updateWeights_terminates h1 hN⟩

/-- C09.  Every fit and transform with a step floor either returns or raises; it never runs
forever. -/
theorem C09_gpnh_fit_terminates [Archimedean K] {env : Env K} (obj : GPNHObj env.rng)
    (h1 : 0 < obj.ls.sigmaOne) (h2 : obj.ls.sigmaTwo < 1) (ht : 0 < obj.ls.stepSizeTolerance)
    (hmem : 0 < obj.ls.memory) (data : Arr2 K) (dictionary weights : Option (Arr2 K))
    (ud uw : Bool) (kw : InitKwargs) :
    gpnhConvexCoding env obj data dictionary weights ud uw kw ≠ Py.diverge := by
  obtain ⟨N, hN⟩ : ∃ N : ℕ, shrink obj.ls.sigmaTwo ^ (N + 1) < obj.ls.stepSizeTolerance := by
    obtain ⟨N, hN⟩ := exists_pow_shrink_le (K := K) h2 (x := obj.ls.stepSizeTolerance / 2)
      (by linarith)
    refine ⟨N, ?_⟩
    have h3 : shrink obj.ls.sigmaTwo ^ (N + 1) ≤ shrink obj.ls.sigmaTwo ^ N :=
      pow_le_pow_of_le_one (shrink_pos _).le (shrink_lt_one h2).le (Nat.le_succ N)
    linarith
  intro h
  unfold gpnhConvexCoding at h
  simp only at h
  rcases Py.bind_eq_diverge.1 h with h | ⟨p, hp, h⟩
  · by_cases hv : ValidParams (defaultComponents obj.nComponents data.cols) obj.maxIterations
      obj.tolerance
    · obtain ⟨p, hp, -⟩ := checkParams_valid hv
      rw [hp] at h
      simp at h
    · rw [checkParams_invalid hv] at h
      simp at h
  rcases Py.bind_eq_diverge.1 h with h | ⟨start, hst, h⟩
  · exact gpnhStart_ne_diverge h
  rcases Py.bind_eq_diverge.1 h with h | ⟨_, _, h⟩
  swap
  · simp at h
  unfold gpnhIterate at h
  by_cases hDT : data.cols * data.rows = 0
  · rw [if_pos hDT] at h
    simp at h
  rw [if_neg hDT] at h
  have hstep : ∀ s s' : GPNHState data.rows data.cols p.1 K,
      (s.fSMem ≠ [] ∧ s.fGammaMem ≠ []) →
      (s.updateDictionary obj.ls obj.epsilonStates = Py.ok s' ∨
        s.updateWeights obj.ls obj.epsilonStates = Py.ok s') →
      (s'.fSMem ≠ [] ∧ s'.fGammaMem ≠ []) := by
    rintro s s' ⟨ha, hb⟩ (h | h)
    · obtain ⟨lam, hl⟩ := GPNHState.updateDictionary_post h
      rw [hl.fSMem, hl.fGammaMem]
      exact ⟨by simp, hb⟩
    · obtain ⟨lam, hl⟩ := GPNHState.updateWeights_post h
      rw [hl.fSMem, hl.fGammaMem]
      exact ⟨ha, by simp⟩
  obtain ⟨q, hq, s, hs, h⟩ := iterate_diverge
    (Inv := fun s : GPNHState data.rows data.cols p.1 K => s.fSMem ≠ [] ∧ s.fGammaMem ≠ [])
    (fun s hs => hs) (by
      intro q hq s s' hs h
      rcases mem_phases hq with ⟨-, rfl⟩ | ⟨-, rfl⟩
      · exact hstep s s' hs (Or.inl h)
      · exact hstep s s' hs (Or.inr h))
    (by simp [GPNHState.initializeWorkspace, hmem.ne']) h
  obtain ⟨ha, hb⟩ := C09_gpnh obj.ls h1 N hN obj.epsilonStates s
  obtain ⟨s1, ha⟩ := ha hs.1
  obtain ⟨s2, hb⟩ := hb hs.2
  rcases mem_phases hq with ⟨-, rfl⟩ | ⟨-, rfl⟩
  · rw [ha] at h
    simp at h
  · rw [hb] at h
    simp at h

/-- C10, dictionary; missing: the range of the step for settings outside those of `StepBounds`.  A finished update moves the dictionary by a damped step along
`-(alpha * gradient)` and leaves everything else; the new cost has sufficiently decreased with
respect to one of the remembered costs, or the step is below the tolerance. -/
theorem C10_gpnh_dictionary_partial (cfg : LSConfig K)
    (eps : K) (s s' : GPNHState T D k K) (h : s.updateDictionary cfg eps = Py.ok s') :
    ∃ step : K, StepBounds cfg.gamma cfg.sigmaOne cfg.sigmaTwo
        (inner (-(s.alphaS • (s.prepareDictionary eps).gradS)) (s.prepareDictionary eps).gradS)
        step ∧
      s'.S = s.S + step • (-(s.alphaS • (s.prepareDictionary eps).gradS)) ∧
      s'.Gamma = s.Gamma ∧ s'.X = s.X ∧
      s'.fSMem = s.fSMem.tail ++ [gpnhCost eps s.X s.Gamma s.S] ∧
      ((∃ fMax ∈ s'.fSMem, (∀ f ∈ s'.fSMem, f ≤ fMax) ∧ gpnhCost eps s'.X s'.Gamma s'.S ≤ fMax +
          cfg.gamma * step * inner (-(s.alphaS • (s.prepareDictionary eps).gradS))
            (s.prepareDictionary eps).gradS) ∨
        |step| < cfg.stepSizeTolerance) := by
  obtain ⟨lam, hl⟩ := GPNHState.updateDictionary_post h
  rw [GPNHState.prepareDictionary_eq]
  exact ⟨lam, hl.range.bounds, hl.S, hl.Gamma, hl.X, hl.fSMem, hl.accept⟩

/-- C10, weights; missing: the range of the step for settings outside those of `StepBounds`.  The weights move by a damped step towards the projection of the gradient
step. -/
theorem C10_gpnh_weights_partial (cfg : LSConfig K)
    (eps : K) (s s' : GPNHState T D k K) (h : s.updateWeights cfg eps = Py.ok s') :
    ∃ (step : K) (G P : Matrix (Fin T) (Fin k) K), G = s.prepareWeights.gradGamma ∧
      (∀ t, (fun i => P t i) = simplexProjectVector fun i => s.Gamma t i - s.alphaGamma * G t i) ∧
      StepBounds cfg.gamma cfg.sigmaOne cfg.sigmaTwo (inner (P - s.Gamma) G) step ∧
      s'.Gamma = s.Gamma + step • (P - s.Gamma) ∧
      s'.S = s.S ∧ s'.X = s.X ∧
      s'.fGammaMem = s.fGammaMem.tail ++ [gpnhCost eps s.X s.Gamma s.S] ∧
      ((∃ fMax ∈ s'.fGammaMem, (∀ f ∈ s'.fGammaMem, f ≤ fMax) ∧
          gpnhCost eps s'.X s'.Gamma s'.S ≤ fMax + cfg.gamma * step * inner (P - s.Gamma) G) ∨
        |step| < cfg.stepSizeTolerance) := by
  obtain ⟨lam, hl⟩ := GPNHState.updateWeights_post h
  refine ⟨lam, _, simplexProjectRows (s.Gamma - s.alphaGamma • gradWOf s.X s.Gamma s.S), rfl,
    fun t => ?_, ?_, hl.Gamma, hl.S, hl.X, hl.fGammaMem, ?_⟩
  · rw [GPNHState.prepareWeights_eq, projectRows_apply]
    rfl
  · rw [GPNHState.prepareWeights_eq]
    exact hl.range.bounds
  · rw [GPNHState.prepareWeights_eq]
    exact hl.accept

/-- A two-sample, one-feature, two-component problem. -/
def demoState : GPNHState 2 1 2 ℚ :=
  GPNHState.initializeWorkspace demoLS !![1; 3] !![1/2, 1/2; 1/4, 3/4] !![0; 2]

example : (∃ s', demoState.updateDictionary demoLS (1/10) = Py.ok s') ∧
    ∃ s', demoState.updateWeights demoLS (1/10) = Py.ok s' := by
  have := C09_gpnh demoLS (by norm_num [demoLS]) 219 (by norm_num [demoLS]) (1/10) demoState
  exact ⟨this.1 (by simp [demoState, GPNHState.initializeWorkspace, demoLS]),
    this.2 (by simp [demoState, GPNHState.initializeWorkspace, demoLS])⟩

/-! ### C18, C19: gradients -/

/-- The cost reported by the code at a state whose product cache is current is the documented
objective (the loops keep it current, see `C20_gpnh_cost`). -/
theorem C20_gpnh_evaluate_cost (eps : K) (s : GPNHState T D k K) (h : s.SSt = s.S * s.Sᵀ) :
    s.evaluateCost eps = gpnhCost eps s.X s.Gamma s.S := GPNHState.evaluateCost_eq eps s h

/-- C18.  The gradient used by the dictionary update is the derivative of the documented objective
with respect to the dictionary, in every direction, at every state (however stale its caches). -/
theorem C18_gpnh_dictionary_gradient (eps : ℝ) (s : GPNHState T D k ℝ)
    (H : Matrix (Fin k) (Fin D) ℝ) :
    HasDerivAt (fun t : ℝ => gpnhCost eps s.X s.Gamma (s.S + t • H))
      (inner (s.prepareDictionary eps).gradS H) 0 := by
  rw [GPNHState.prepareDictionary_eq]
  exact hasDerivAt_quadratic fun t => gpnhCost_add_S eps s.X s.Gamma s.S H t

/-- C18.  The same derivative for the cost function as evaluated by the line search. -/
theorem C18_gpnh_dictionary_gradient_reported (eps : ℝ) (s : GPNHState T D k ℝ)
    (H : Matrix (Fin k) (Fin D) ℝ) :
    HasDerivAt (fun t : ℝ => (GPNHState.dictionaryTrial eps { s with SOld := s.S, incrS := H } t).2)
      (inner (s.prepareDictionary eps).gradS H) 0 := by
  have h := C18_gpnh_dictionary_gradient eps s H
  refine h.congr_of_eventuallyEq (Filter.Eventually.of_forall fun t => ?_)
  simp only [GPNHState.dictionaryTrial]
  rw [GPNHState.evaluateCost_eq _ _ rfl]

/-- C19.  The gradient used by the weights update is the derivative of the documented objective
with respect to the weights, in every direction, at every state. -/
theorem C19_gpnh_weights_gradient (eps : ℝ) (s : GPNHState T D k ℝ)
    (H : Matrix (Fin T) (Fin k) ℝ) :
    HasDerivAt (fun t : ℝ => gpnhCost eps s.X (s.Gamma + t • H) s.S)
      (inner s.prepareWeights.gradGamma H) 0 := by
  rw [GPNHState.prepareWeights_eq]
  exact hasDerivAt_quadratic fun t => gpnhCost_add_W eps s.X s.Gamma H s.S t

/-- The derivative is not always zero: one sample, one feature, one component. -/
example : inner (GPNHState.prepareWeights
    (GPNHState.initializeWorkspace demoLS !![(1 : ℚ)] !![1] !![2])).gradGamma !![1] = 4 := by
  rw [GPNHState.prepareWeights_eq]
  simp [GPNHState.initializeWorkspace, gradWOf, inner, Matrix.vecMul, dotProduct]
  norm_num

/-! ### C17: weights on the simplex -/

/-- C17, fit; missing: settings with which the step can leave `[0, 1]`
(`C17_gpnh_weights_fail`).  Weights returned by `fit_transform` are row stochastic when the estimator draws its own
start, or when the caller's custom start is row stochastic. -/
theorem C17_gpnh_fit_weights_stochastic_partial {env : Env K} (hR : env.rng.Lawful)
    (obj : GPNHObj env.rng) (h1 : SafeSteps obj.ls.gamma obj.ls.alphaMax obj.ls.sigmaOne
      obj.ls.sigmaTwo)
    (data : Arr2 K) (dictionary weights : Option (Arr2 K)) (kw : InitKwargs)
    (hstart : obj.init = some "custom" → ∀ W, weights = some W → RowStochastic W.val)
    (obj' : GPNHObj env.rng) (G : Option (Arr2 K)) (info : FitInfo K)
    (h : gpnhFitTransform env obj data dictionary weights kw = Py.ok (obj', G, info)) :
    ∃ W, G = some W ∧ obj'.Gamma = some W ∧ W.rows = data.rows ∧ RowStochastic W.val := by
  obtain ⟨o, i, ho, hres⟩ := gpnhFitTransform_eq_ok h
  obtain ⟨p, start, r, hp, hst, hr, hoi⟩ := gpnhConvexCoding_eq_ok ho
  simp only [Prod.mk.injEq] at hres hoi
  obtain ⟨rfl, rfl, rfl⟩ := hres
  obtain ⟨rfl, rfl⟩ := hoi
  have hW : RowStochastic start.1.2 := by
    by_cases hc : obj.init = some "custom"
    · rw [hc] at hst
      exact hstart hc _ (gpnhStart_custom hst).2.1
    · exact gpnhStart_rowStochastic hR (checkParams_ok hp).2.2.2.1 hc hst
  refine ⟨_, rfl, rfl, rfl, ?_⟩
  exact gpnhIterate_rowStochastic h1 (checkParams_ok hp).2.2.2.1 hW zero_le_one hr

/-- C17, transform; missing: the same settings. -/
theorem C17_gpnh_transform_weights_stochastic_partial {env : Env K} (hR : env.rng.Lawful)
    (obj : GPNHObj env.rng) (h1 : SafeSteps obj.ls.gamma obj.ls.alphaMax obj.ls.sigmaOne
      obj.ls.sigmaTwo)
    (data : Arr2 K) (obj' : GPNHObj env.rng) (G : Option (Arr2 K)) (info : FitInfo K)
    (h : gpnhTransform env obj data = Py.ok (obj', G, info)) :
    ∃ W, G = some W ∧ obj'.Gamma = some W ∧ W.rows = data.rows ∧ RowStochastic W.val := by
  obtain ⟨o, i, ho, hres⟩ := gpnhTransform_eq_ok h
  obtain ⟨p, start, r, hp, hst, hr, hoi⟩ := gpnhConvexCoding_eq_ok ho
  simp only [Prod.mk.injEq] at hres hoi
  obtain ⟨rfl, rfl, rfl⟩ := hres
  obtain ⟨rfl, rfl⟩ := hoi
  have hW : RowStochastic start.1.2 := by
    by_cases hc : obj.init = some "custom"
    · rw [hc] at hst
      have := (gpnhStart_custom hst).2.1
      simp at this
    · exact gpnhStart_rowStochastic hR (checkParams_ok hp).2.2.2.1 hc hst
  refine ⟨_, rfl, rfl, rfl, ?_⟩
  exact gpnhIterate_rowStochastic h1 (checkParams_ok hp).2.2.2.1 hW zero_le_one hr

/-! ### C20, C22, C23 -/

/-- C20.  After a fit, `cost_` is the documented objective at the returned weights and
`dictionary_`. -/
theorem C20_gpnh_cost {env : Env K} (obj : GPNHObj env.rng)
    (data : Arr2 K) (dictionary weights : Option (Arr2 K)) (kw : InitKwargs)
    (obj' : GPNHObj env.rng) (G : Option (Arr2 K)) (info : FitInfo K)
    (h : gpnhFitTransform env obj data dictionary weights kw = Py.ok (obj', G, info)) :
    ∃ (k : ℕ) (W : Matrix (Fin data.rows) (Fin k) K) (S : Matrix (Fin k) (Fin data.cols) K),
      G = some (Arr2.of W) ∧ obj'.dictionary_ = some (Arr2.of S) ∧ obj'.S = some (Arr2.of S) ∧
      obj'.nComponents_ = some k ∧ obj'.nIter_ = some info.nIter ∧
      obj'.cost_ = some (gpnhCost obj.epsilonStates data.val W S) := by
  obtain ⟨o, i, ho, hres⟩ := gpnhFitTransform_eq_ok h
  obtain ⟨p, start, r, hp, hst, hr, hoi⟩ := gpnhConvexCoding_eq_ok ho
  simp only [Prod.mk.injEq] at hres hoi
  obtain ⟨rfl, rfl, rfl⟩ := hres
  obtain ⟨rfl, rfl⟩ := hoi
  refine ⟨p.1, r.state.Gamma, r.state.S, rfl, rfl, rfl, rfl, rfl, ?_⟩
  exact congrArg some (gpnhIterate_cost (s := GPNHState.initializeWorkspace obj.ls data.val
    start.1.2 start.1.1) rfl hr)

/-- C20.  With monotonicity required, the costs of the successive iterations never increase, starting
from the cost of the initial guess, which `cost_` does not exceed. -/
theorem C20_gpnh_monotone {env : Env K} (obj : GPNHObj env.rng) (hreq : obj.require = true)
    (data : Arr2 K) (dictionary weights : Option (Arr2 K)) (kw : InitKwargs)
    (obj' : GPNHObj env.rng) (G : Option (Arr2 K)) (info : FitInfo K)
    (h : gpnhFitTransform env obj data dictionary weights kw = Py.ok (obj', G, info)) :
    ∃ (k : ℕ) (g' : env.rng.G) (W0 : Matrix (Fin data.rows) (Fin k) K)
      (S0 : Matrix (Fin k) (Fin data.cols) K) (c : K),
      gpnhStart env data.val k obj.init dictionary weights true true kw obj.randomState =
        Py.ok ((S0, W0), g') ∧
      (gpnhCost obj.epsilonStates data.val W0 S0 :: info.trace).IsChain (· ≥ ·) ∧
      info.trace.length = info.nIter + 1 ∧
      obj'.cost_ = some c ∧ c ≤ gpnhCost obj.epsilonStates data.val W0 S0 := by
  obtain ⟨o, i, ho, hres⟩ := gpnhFitTransform_eq_ok h
  obtain ⟨p, start, r, hp, hst, hr, hoi⟩ := gpnhConvexCoding_eq_ok ho
  simp only [Prod.mk.injEq] at hres hoi
  obtain ⟨rfl, rfl, rfl⟩ := hres
  obtain ⟨rfl, rfl⟩ := hoi
  rw [hreq] at hr
  obtain ⟨ha, hb⟩ := gpnhIterate_monotone (s := GPNHState.initializeWorkspace obj.ls data.val
    start.1.2 start.1.1) rfl hr
  exact ⟨p.1, start.2, start.1.2, start.1.1, r.cost, hst, ha,
    iterate_trace_length (gpnhIterate_eq_ok.1 hr).2, rfl, hb⟩

/-- C20 for a custom start: `cost_` is at most the cost of the factors supplied by the caller. -/
theorem C20_gpnh_custom_never_worse {env : Env K} (obj : GPNHObj env.rng)
    (hreq : obj.require = true) (hinit : obj.init = some "custom")
    (data : Arr2 K) (S0 : Matrix (Fin k) (Fin data.cols) K) (W0 : Matrix (Fin data.rows) (Fin k) K)
    (kw : InitKwargs) (obj' : GPNHObj env.rng) (G : Option (Arr2 K)) (info : FitInfo K)
    (h : gpnhFitTransform env obj data (some (Arr2.of S0)) (some (Arr2.of W0)) kw =
      Py.ok (obj', G, info)) :
    ∃ c, obj'.cost_ = some c ∧ c ≤ gpnhCost obj.epsilonStates data.val W0 S0 := by
  obtain ⟨k', g', W0', S0', c, hst, -, -, hc, hle⟩ :=
    C20_gpnh_monotone obj hreq data _ _ kw obj' G info h
  rw [hinit] at hst
  obtain ⟨e1, e2, -⟩ := gpnhStart_custom hst
  simp only [Option.some.injEq, Arr2.of, Arr2.mk.injEq, true_and] at e1 e2
  obtain ⟨rfl, e1⟩ := e1
  cases eq_of_heq e1
  cases eq_of_heq e2.2
  exact ⟨c, hc, hle⟩

/-- C22.  `n_iter_` is below `max_iterations` (it is the zero-based index of the last iteration) and
the warning about the maximum number of iterations is never issued, by `fit_transform` and by
`transform`. -/
theorem C22_gpnh_no_warning {env : Env K} (obj : GPNHObj env.rng) (data : Arr2 K)
    (dictionary weights : Option (Arr2 K)) (ud uw : Bool) (kw : InitKwargs)
    (obj' : GPNHObj env.rng) (info : FitInfo K)
    (h : gpnhConvexCoding env obj data dictionary weights ud uw kw = Py.ok (obj', info)) :
    info.warned = false ∧ ∃ m : ℕ, obj.maxIterations = .int m ∧ info.nIter < m := by
  obtain ⟨p, start, r, hp, hst, hr, hoi⟩ := gpnhConvexCoding_eq_ok h
  simp only [Prod.mk.injEq] at hoi
  obtain ⟨rfl, rfl⟩ := hoi
  have := iterate_nIter_lt (gpnhIterate_eq_ok.1 hr).2
  refine ⟨?_, p.2.1, (checkParams_ok hp).2.2.1, this⟩
  simp only [decide_eq_false_iff_not, not_and]
  intro h
  omega

theorem C22_gpnh_fit {env : Env K} (obj : GPNHObj env.rng) (data : Arr2 K)
    (dictionary weights : Option (Arr2 K)) (kw : InitKwargs)
    (obj' : GPNHObj env.rng) (G : Option (Arr2 K)) (info : FitInfo K)
    (h : gpnhFitTransform env obj data dictionary weights kw = Py.ok (obj', G, info)) :
    info.warned = false ∧ ∃ m n : ℕ, obj.maxIterations = .int m ∧ obj'.nIter_ = some n ∧ n < m := by
  obtain ⟨o, i, ho, hres⟩ := gpnhFitTransform_eq_ok h
  simp only [Prod.mk.injEq] at hres
  obtain ⟨rfl, rfl, rfl⟩ := hres
  obtain ⟨ha, m, hm, hlt⟩ := C22_gpnh_no_warning obj data _ _ _ _ kw _ _ ho
  exact ⟨ha, m, _, hm, rfl, hlt⟩

/-- C23.  `transform` leaves the dictionary as it was. -/
theorem C23_gpnh_transform_keeps_dictionary {env : Env K} (obj : GPNHObj env.rng) (data : Arr2 K)
    (obj' : GPNHObj env.rng) (G : Option (Arr2 K)) (info : FitInfo K)
    (h : gpnhTransform env obj data = Py.ok (obj', G, info)) :
    obj'.S = obj.S ∧ obj'.dictionary_ = obj.dictionary_ ∧ obj'.cost_ = obj.cost_ ∧
      obj'.nIter_ = obj.nIter_ := by
  obtain ⟨o, i, ho, hres⟩ := gpnhTransform_eq_ok h
  obtain ⟨p, start, r, hp, hst, hr, hoi⟩ := gpnhConvexCoding_eq_ok ho
  simp only [Prod.mk.injEq] at hres hoi
  obtain ⟨rfl, rfl, rfl⟩ := hres
  obtain ⟨rfl, rfl⟩ := hoi
  refine ⟨?_, rfl, rfl, rfl⟩
  have := gpnhStart_dictionary hst
  rw [this]
  exact congrArg (fun M => some (Arr2.of M)) (gpnhIterate_S hr)

/-- C37.  A model created with `init='custom'` cannot transform: ValueError for every dataset. -/
theorem C37_gpnh_custom_cannot_transform {env : Env K} (obj : GPNHObj env.rng)
    (hinit : obj.init = some "custom") (data : Arr2 K) :
    gpnhTransform env obj data = Py.raise .valueError := by
  unfold gpnhTransform gpnhConvexCoding
  by_cases hv : ValidParams (defaultComponents obj.nComponents data.cols) obj.maxIterations
      obj.tolerance
  · obtain ⟨p, hp, -⟩ := checkParams_valid hv
    have : gpnhStart env data.val p.1 obj.init obj.S none false true {} obj.randomState =
        Py.raise .valueError := by
      rw [hinit]
      rfl
    simp only [hp, Py.ok_bind, this, Py.raise_bind]
  · simp only [checkParams_invalid hv, Py.raise_bind]

/-! ### C24: validation -/

/-- C24.  With an invalid configuration every fit and transform raises ValueError, whatever the data
and the other arguments. -/
theorem C24_gpnh_invalid_rejected {env : Env K} (obj : GPNHObj env.rng) (data : Arr2 K)
    (dictionary weights : Option (Arr2 K)) (kw : InitKwargs)
    (hv : ¬ ValidConfig obj.nComponents data.cols obj.maxIterations
      obj.tolerance) :
    gpnhFitTransform env obj data dictionary weights kw = Py.raise .valueError ∧
    gpnhTransform env obj data = Py.raise .valueError := by
  rw [validConfig_iff] at hv
  unfold gpnhFitTransform gpnhTransform gpnhConvexCoding
  simp only [checkParams_invalid hv, Py.raise_bind, and_self]

/-- C24.  With a valid configuration and the default initialisation, a fit never raises
ValueError. -/
theorem C24_gpnh_valid_accepted {env : Env K} (obj : GPNHObj env.rng)
    (hinit : obj.init = none ∨ obj.init = some "random") (data : Arr2 K)
    (dictionary weights : Option (Arr2 K))
    (hv : ValidConfig obj.nComponents data.cols obj.maxIterations
      obj.tolerance) :
    gpnhFitTransform env obj data dictionary weights {} ≠ Py.raise .valueError := by
  rw [validConfig_iff] at hv
  intro h
  unfold gpnhFitTransform at h
  rcases Py.bind_eq_raise.1 h with h | ⟨_, _, h⟩
  swap
  · simp at h
  unfold gpnhConvexCoding at h
  obtain ⟨p, hp, -, -, hk, hm, -, -⟩ := checkParams_valid hv
  simp only [hp, Py.ok_bind] at h
  rcases Py.bind_eq_raise.1 h with h | ⟨_, _, h⟩
  · simpa using gpnhStart_random_raise hinit h
  rcases Py.bind_eq_raise.1 h with h | ⟨_, _, h⟩
  · rcases gpnhIterate_raise hm h with h | h | h <;> simp at h
  · simp at h

/-- C24.  The number of components of a fitted model is the configured one, or the number of features
if that was None; weights and dictionary have these shapes. -/
theorem C24_gpnh_components {env : Env K} (obj : GPNHObj env.rng) (data : Arr2 K)
    (dictionary weights : Option (Arr2 K)) (kw : InitKwargs) (ud uw : Bool) (obj' : GPNHObj env.rng)
    (G : Option (Arr2 K)) (info : FitInfo K)
    (h : gpnhFitTransform env obj data dictionary weights kw ud uw = Py.ok (obj', G, info)) :
    ∃ (k : ℕ) (W S : Arr2 K), obj'.nComponents_ = some k ∧ obj'.nComponents = .int k ∧
      (obj.nComponents = .int k ∨ obj.nComponents = .none ∧ k = data.cols) ∧
      G = some W ∧ obj'.dictionary_ = some S ∧ W.rows = data.rows ∧ W.cols = k ∧ S.rows = k ∧
      S.cols = data.cols := by
  obtain ⟨o, i, ho, hres⟩ := gpnhFitTransform_eq_ok h
  obtain ⟨p, start, r, hp, hst, hr, hoi⟩ := gpnhConvexCoding_eq_ok ho
  simp only [Prod.mk.injEq] at hres hoi
  obtain ⟨rfl, rfl, rfl⟩ := hres
  obtain ⟨rfl, rfl⟩ := hoi
  have hc := (checkParams_ok hp).2.1
  refine ⟨p.1, _, _, rfl, hc, defaultComponents_eq_int hc, rfl, rfl, rfl, rfl, rfl, rfl⟩

/-- What "invalid" means, spelled out. -/
theorem C24_valid_iff (c m t : NumArg K) (n : ℕ) : ValidConfig c n m t ↔
    (c = .none ∧ 0 < n ∨ ∃ z : ℤ, c = .int z ∧ 0 < z) ∧ (∃ z : ℤ, m = .int z ∧ 0 < z) ∧
    ((∃ z : ℤ, t = .int z ∧ 0 ≤ z) ∨ ∃ x : K, t = .real x ∧ 0 ≤ x) := Iff.rfl

example : ¬ ValidConfig (.int 0 : NumArg ℚ) 3 (.int 5) (.real 1) ∧
    ¬ ValidConfig (.real 2 : NumArg ℚ) 3 (.int 5) (.real 1) ∧
    ¬ ValidConfig (.int 2 : NumArg ℚ) 3 (.int 5) (.real (-1)) ∧
    ValidConfig (.none : NumArg ℚ) 3 (.int 5) (.real 0) := by
  refine ⟨?_, ?_, ?_, ?_⟩
  · rintro ⟨⟨h, -⟩ | ⟨z, h, hz⟩, -⟩
    · simp at h
    · simp only [NumArg.int.injEq] at h
      omega
  · rintro ⟨⟨h, -⟩ | ⟨z, h, hz⟩, -⟩ <;> simp at h
  · rintro ⟨-, -, ⟨z, h, hz⟩ | ⟨z, h, hz⟩⟩
    · simp at h
    · simp only [NumArg.real.injEq] at h
      subst h
      norm_num at hz
  · exact ⟨Or.inl ⟨rfl, by norm_num⟩, ⟨5, rfl, by norm_num⟩, Or.inr ⟨0, rfl, le_rfl⟩⟩

/-! ### C21: descent -/

/-- C21, one update.  With memory 1 and without step floor, the dictionary update terminates and does
not increase the objective. -/
theorem C21_gpnh_dictionary_descends [Archimedean K] (cfg : LSConfig K) (h1 : 0 < cfg.sigmaOne)
    (h2 : cfg.sigmaTwo < 1) (hg0 : 0 ≤ cfg.gamma) (hg1 : cfg.gamma < 1)
    (ht : cfg.stepSizeTolerance = 0) (eps : K) (s : GPNHState T D k K) (ha : 0 < s.alphaS)
    (hm : ∃ m, s.fSMem = [m]) :
    ∃ s', s.updateDictionary cfg eps = Py.ok s' ∧
      gpnhCost eps s'.X s'.Gamma s'.S ≤ gpnhCost eps s.X s.Gamma s.S := by
  obtain ⟨m, hm⟩ := hm
  obtain ⟨s', h⟩ := GPNHState.updateDictionary_terminates_armijo h1 h2 hg1 (eps := eps) ha
    (by rw [hm]; simp)
  exact ⟨s', h, GPNHState.updateDictionary_descends h1 h2 hg0 (by rw [ht]; exact h1.le) ha hm
    (by rw [ht]; simpa using hg1.le) h⟩

theorem C21_gpnh_weights_descends [Archimedean K] (cfg : LSConfig K) (h1 : 0 < cfg.sigmaOne)
    (h2 : cfg.sigmaTwo < 1) (hg0 : 0 ≤ cfg.gamma) (hg1 : cfg.gamma < 1)
    (ht : cfg.stepSizeTolerance = 0) (hk : 1 ≤ k) (eps : K) (s : GPNHState T D k K)
    (hW : RowStochastic s.Gamma) (ha : 0 < s.alphaGamma) (hm : ∃ m, s.fGammaMem = [m]) :
    ∃ s', s.updateWeights cfg eps = Py.ok s' ∧
      gpnhCost eps s'.X s'.Gamma s'.S ≤ gpnhCost eps s.X s.Gamma s.S := by
  obtain ⟨m, hm⟩ := hm
  obtain ⟨s', h⟩ := GPNHState.updateWeights_terminates_armijo h1 h2 hg1 hk (eps := eps) hW ha
    (by rw [hm]; simp)
  exact ⟨s', h, GPNHState.updateWeights_descends h1 h2 hg0 (by rw [ht]; exact h1.le) hk hW ha hm
    (by rw [ht]; simpa using hg1.le) h⟩

/-- C21, with the step floor.  An update that terminates does not increase the objective provided the
floor is below the step at which sufficient decrease is guaranteed. -/
theorem C21_gpnh_descends_with_floor (cfg : LSConfig K) (h1 : 0 < cfg.sigmaOne)
    (h2 : cfg.sigmaTwo < 1) (hg0 : 0 ≤ cfg.gamma) (ht1 : cfg.stepSizeTolerance ≤ cfg.sigmaOne)
    (hk : 1 ≤ k) (eps : K) (s s' : GPNHState T D k K) (hW : RowStochastic s.Gamma)
    (ha : 0 < s.alphaGamma) (m0 : K) (hm : s.fGammaMem = [m0])
    (ht2 : 2 * cfg.stepSizeTolerance * (s.alphaGamma * (frobSq s.S / ((D : K) * (T : K)))) ≤
      1 - cfg.gamma)
    (h : s.updateWeights cfg eps = Py.ok s') :
    gpnhCost eps s'.X s'.Gamma s'.S ≤ gpnhCost eps s.X s.Gamma s.S :=
  GPNHState.updateWeights_descends h1 h2 hg0 ht1 hk hW ha hm ht2 h

/-- C21.  With `line_search_memory=1` and `step_size_tolerance=0`, `fit_transform` never reports
'factorization cost increased' and never runs forever: it returns, or raises one of the exceptions
of the initialisation, or ZeroDivisionError for empty data. -/
theorem C21_gpnh_fit_never_reports_increase [Archimedean K] {env : Env K} (hR : env.rng.Lawful)
    (obj : GPNHObj env.rng) (h1 : 0 < obj.ls.sigmaOne) (h2 : obj.ls.sigmaTwo < 1)
    (hg0 : 0 ≤ obj.ls.gamma) (hg1 : obj.ls.gamma < 1) (ht : obj.ls.stepSizeTolerance = 0)
    (ha0 : 0 < obj.ls.alphaMin) (ha1 : obj.ls.alphaMin ≤ obj.ls.alphaMax)
    (hmem : obj.ls.memory = 1) (data : Arr2 K) (dictionary weights : Option (Arr2 K))
    (kw : InitKwargs)
    (hstart : obj.init = some "custom" → ∀ W, weights = some W → RowStochastic W.val) :
    (∃ res, gpnhFitTransform env obj data dictionary weights kw = Py.ok res) ∨
    ∃ e, gpnhFitTransform env obj data dictionary weights kw = Py.raise e ∧
      (e = .valueError ∨ e = .indexError ∨ e = .typeError ∨ e = .nonFinite ∨
        e = .zeroDivisionError) := by
  have key := gpnhConvexCoding_outcome (env := env) (obj := obj) (data := data)
    (dictionary := dictionary) (weights := weights) (ud := true) (uw := true) (kw := kw) (by
      intro p hk hm start hst hDT
      have hW : RowStochastic start.1.2 := by
        by_cases hc : obj.init = some "custom"
        · rw [hc] at hst
          exact hstart hc _ (gpnhStart_custom hst).2.1
        · exact gpnhStart_rowStochastic hR hk hc hst
      exact gpnhIterate_succeeds h1 h2 hg0 hg1 ht ha0 ha1 hk hm hDT (ready_initial hmem hW _))
  unfold gpnhFitTransform
  rcases key with ⟨res, h⟩ | ⟨e, h, he⟩
  · left
    rw [h]
    exact ⟨_, rfl⟩
  · right
    refine ⟨e, by rw [h]; rfl, ?_⟩
    rcases he with ((he | he | he) | he) | he <;> simp [he]

/-- C21.  In particular the default fit of non-empty data always returns, when no draw is zero. -/
theorem C21_gpnh_default_fit_returns [Archimedean K] {env : Env K} (hR : env.rng.Lawful)
    (hpos : ∀ m n g i j, 0 < (env.rng.uniform m n g).1 i j)
    (obj : GPNHObj env.rng) (h1 : 0 < obj.ls.sigmaOne) (h2 : obj.ls.sigmaTwo < 1)
    (hg0 : 0 ≤ obj.ls.gamma) (hg1 : obj.ls.gamma < 1) (ht : obj.ls.stepSizeTolerance = 0)
    (ha0 : 0 < obj.ls.alphaMin) (ha1 : obj.ls.alphaMin ≤ obj.ls.alphaMax)
    (hmem : obj.ls.memory = 1) (hinit : obj.init = none ∨ obj.init = some "random")
    (data : Arr2 K) (hdata : data.cols * data.rows ≠ 0)
    (hv : ValidConfig obj.nComponents data.cols obj.maxIterations
      obj.tolerance) (dictionary weights : Option (Arr2 K)) :
    ∃ res, gpnhFitTransform env obj data dictionary weights {} = Py.ok res := by
  rw [validConfig_iff] at hv
  obtain ⟨p, hp, -, -, hk, hm, -, -⟩ := checkParams_valid hv
  obtain ⟨start, hst⟩ := gpnhStart_random_ok hpos (data := data.val) hdata hk hinit
    (dictionary := dictionary) (weights := weights) (g := obj.randomState)
  have hW : RowStochastic start.1.2 :=
    gpnhStart_rowStochastic hR hk (by rcases hinit with h | h <;> simp [h]) hst
  obtain ⟨r, hr⟩ := gpnhIterate_succeeds h1 h2 hg0 hg1 ht ha0 ha1 hk hm hdata
    (eps := obj.epsilonStates) (require := obj.require) (tol := p.2.2) (ud := true) (uw := true)
    (ready_initial (X := data.val) hmem hW start.1.1)
  unfold gpnhFitTransform
  rw [gpnhConvexCoding_of_steps hp hst hr]
  exact ⟨_, rfl⟩

/-- A model of the examples. -/
def demoObj : GPNHObj demoEnv.rng :=
  { nComponents := .int 2, epsilonStates := 1/10, init := none, tolerance := .real (1/1000)
    maxIterations := .int 4, randomState := demoRng.ofSeed 3
    ls := { demoLS with stepSizeTolerance := 0 }, require := true }

/-- Three samples with two features. -/
def demoData : Arr2 ℚ := Arr2.of (!![1, 2; 3, 5; -1, 0] : Matrix (Fin 3) (Fin 2) ℚ)

/-- The hypotheses of C17, C20, C21, C22, C27 are met by an actual fit. -/
theorem demo_fit : ∃ res, gpnhFitTransform demoEnv demoObj demoData none none {} = Py.ok res :=
  C21_gpnh_default_fit_returns demoRng_lawful demoRng_uniform_pos demoObj
    (by norm_num [demoObj, demoLS]) (by norm_num [demoObj, demoLS]) (by norm_num [demoObj, demoLS])
    (by norm_num [demoObj, demoLS]) rfl (by norm_num [demoObj, demoLS])
    (by norm_num [demoObj, demoLS]) rfl (Or.inl rfl) demoData (by norm_num [demoData, Arr2.of])
    ⟨Or.inr ⟨2, rfl, by norm_num⟩, ⟨4, rfl, by norm_num⟩, Or.inr ⟨_, rfl, by norm_num⟩⟩ none none

example : ∃ W : Arr2 ℚ, W.rows = 3 ∧ RowStochastic W.val := by
  obtain ⟨⟨o, G, i⟩, h⟩ := demo_fit
  obtain ⟨W, -, -, hr, hW⟩ := C17_gpnh_fit_weights_stochastic_partial demoRng_lawful demoObj
    (by norm_num [SafeSteps, demoObj, demoLS]) demoData none none {}
    (by simp [demoObj]) o G i h
  exact ⟨W, hr, hW⟩

/-- C21, transform.  With the same settings `transform` of a fitted model returns, for every dataset
with the fitted number of features. -/
theorem C21_gpnh_transform_returns [Archimedean K] {env : Env K} (hR : env.rng.Lawful)
    (hpos : ∀ m n g i j, 0 < (env.rng.uniform m n g).1 i j)
    (obj : GPNHObj env.rng) (h1 : 0 < obj.ls.sigmaOne) (h2 : obj.ls.sigmaTwo < 1)
    (hg0 : 0 ≤ obj.ls.gamma) (hg1 : obj.ls.gamma < 1) (ht : obj.ls.stepSizeTolerance = 0)
    (ha0 : 0 < obj.ls.alphaMin) (ha1 : obj.ls.alphaMin ≤ obj.ls.alphaMax)
    (hmem : obj.ls.memory = 1) (hinit : obj.init = none ∨ obj.init = some "random")
    (data : Arr2 K) (hdata : data.cols * data.rows ≠ 0)
    (hv : ValidParams obj.nComponents obj.maxIterations obj.tolerance)
    (hc : obj.nComponents = .int k)
    (S : Matrix (Fin k) (Fin data.cols) K) (hS : obj.S = some (Arr2.of S)) :
    ∃ res, gpnhTransform env obj data = Py.ok res := by
  have hv' : ValidParams (defaultComponents obj.nComponents data.cols)
      obj.maxIterations obj.tolerance := by
    rw [hc] at hv ⊢
    exact hv
  obtain ⟨⟨k', m, t⟩, hp, hck, -, hk, hm, -, -⟩ := checkParams_valid hv'
  rw [hc] at hck
  simp only [defaultComponents, NumArg.int.injEq, Nat.cast_inj] at hck
  subst hck
  obtain ⟨start, hst⟩ := gpnhStart_transform_ok hpos (data := data.val)
    (left_ne_zero_of_mul hdata) hk hinit (S := S) (weights := none) (g := obj.randomState)
  have hW : RowStochastic start.1.2 :=
    gpnhStart_rowStochastic hR hk (by rcases hinit with h | h <;> simp [h]) hst
  obtain ⟨r, hr⟩ := gpnhIterate_succeeds h1 h2 hg0 hg1 ht ha0 ha1 hk hm hdata
    (eps := obj.epsilonStates) (require := obj.require) (tol := t) (ud := false) (uw := true)
    (ready_initial (X := data.val) hmem hW start.1.1)
  unfold gpnhTransform
  rw [hS, gpnhConvexCoding_of_steps hp hst hr]
  exact ⟨_, rfl⟩

/-- The hypotheses of C17, C23 for `transform` are met. -/
theorem demo_transform : ∃ res, gpnhTransform demoEnv
    { demoObj with S := some (Arr2.of (!![0, 1; 2, 2] : Matrix (Fin 2) (Fin 2) ℚ)) } demoData =
      Py.ok res :=
  C21_gpnh_transform_returns demoRng_lawful demoRng_uniform_pos _
    (by norm_num [demoObj, demoLS]) (by norm_num [demoObj, demoLS]) (by norm_num [demoObj, demoLS])
    (by norm_num [demoObj, demoLS]) rfl (by norm_num [demoObj, demoLS])
    (by norm_num [demoObj, demoLS]) rfl (Or.inl rfl) demoData (by norm_num [demoData, Arr2.of])
    ⟨⟨2, rfl, by norm_num⟩, ⟨4, rfl, by norm_num⟩, Or.inr ⟨_, rfl, by norm_num⟩⟩ rfl _ rfl

example : ∃ obj' : GPNHObj demoEnv.rng,
    obj'.S = some (Arr2.of (!![0, 1; 2, 2] : Matrix (Fin 2) (Fin 2) ℚ)) := by
  obtain ⟨⟨o, G, i⟩, h⟩ := demo_transform
  exact ⟨o, (C23_gpnh_transform_keeps_dictionary _ demoData o G i h).1⟩

/-- C20 at work: the fit of the example ends at or below the cost of its start. -/
example : ∃ (start c : ℚ) (o : GPNHObj demoEnv.rng), o.cost_ = some c ∧ c ≤ start := by
  obtain ⟨⟨o, G, i⟩, h⟩ := demo_fit
  obtain ⟨_, _, _, _, c, -, -, -, h1, h2⟩ :=
    C20_gpnh_monotone demoObj rfl demoData none none {} o G i h
  exact ⟨_, c, o, h1, h2⟩

/-- C21 at work: both updates of the example state descend. -/
example : (∃ s', demoState.updateDictionary { demoLS with stepSizeTolerance := 0 } (1/10) =
      Py.ok s' ∧ gpnhCost (1/10) s'.X s'.Gamma s'.S ≤
        gpnhCost (1/10) demoState.X demoState.Gamma demoState.S) ∧
    (∃ s', demoState.updateWeights { demoLS with stepSizeTolerance := 0 } (1/10) =
      Py.ok s' ∧ gpnhCost (1/10) s'.X s'.Gamma s'.S ≤
        gpnhCost (1/10) demoState.X demoState.Gamma demoState.S) := by
  constructor
  · exact C21_gpnh_dictionary_descends _ (by norm_num [demoLS]) (by norm_num [demoLS])
      (by norm_num [demoLS]) (by norm_num [demoLS]) rfl _ _
      (by norm_num [demoState, GPNHState.initializeWorkspace]) ⟨_, rfl⟩
  · refine C21_gpnh_weights_descends _ (by norm_num [demoLS]) (by norm_num [demoLS])
      (by norm_num [demoLS]) (by norm_num [demoLS]) rfl (by norm_num) _ _ ?_
      (by norm_num [demoState, GPNHState.initializeWorkspace]) ⟨_, rfl⟩
    intro i
    refine ⟨fun j => ?_, ?_⟩
    · fin_cases i <;> fin_cases j <;>
        norm_num [demoState, GPNHState.initializeWorkspace]
    · fin_cases i <;> norm_num [demoState, GPNHState.initializeWorkspace, Fin.sum_univ_two]

/-! ### C25: the penalty -/

/-- C25.  The reported dictionary penalty is `epsilon_states` times the mean, over the ordered pairs of
distinct dictionary elements, of the squared distance per feature. -/
theorem C25_gpnh_penalty (eps : K) (s : GPNHState T D k K) (h : s.SSt = s.S * s.Sᵀ) :
    s.evaluateDictionaryPenalty eps =
      eps * ((∑ i, ∑ j, sqDist (fun d => s.S i d) (fun d => s.S j d)) /
        ((k : K) * ((k : K) - 1) * (D : K))) := by
  have h1 := GPNHState.evaluateCost_eq eps s h
  unfold GPNHState.evaluateCost gpnhCost at h1
  have h2 : s.evaluateLossFunction =
      (∑ t, ∑ d, (s.X t d - ∑ i, s.Gamma t i * s.S i d) ^ 2) / ((D : K) * (T : K)) := by
    unfold GPNHState.evaluateLossFunction normSq
    simp only [Matrix.sub_apply, Matrix.mul_apply]
    rw [one_div, inv_mul_eq_div]
  rw [h2] at h1
  exact add_left_cancel h1

/-- C25.  Penalty and cost are never negative for `epsilon_states >= 0`. -/
theorem C25_gpnh_nonneg (eps : K) (heps : 0 ≤ eps) (s : GPNHState T D k K)
    (h : s.SSt = s.S * s.Sᵀ) :
    0 ≤ s.evaluateDictionaryPenalty eps ∧ 0 ≤ s.evaluateCost eps := by
  have hp : 0 ≤ s.evaluateDictionaryPenalty eps := by
    rw [C25_gpnh_penalty eps s h]
    refine mul_nonneg heps (div_nonneg ?_ (GPNHState.pen_denominator_nonneg k D))
    exact Finset.sum_nonneg fun i _ => Finset.sum_nonneg fun j _ =>
      Finset.sum_nonneg fun d _ => sq_nonneg _
  refine ⟨hp, add_nonneg ?_ hp⟩
  unfold GPNHState.evaluateLossFunction normSq
  refine mul_nonneg (by positivity) ?_
  exact Finset.sum_nonneg fun i _ => Finset.sum_nonneg fun j _ => sq_nonneg _

/-- C25.  Without regularisation the cost is zero exactly when the data are reproduced. -/
theorem C25_gpnh_zero_iff (hDT : D * T ≠ 0) (s : GPNHState T D k K) (h : s.SSt = s.S * s.Sᵀ) :
    s.evaluateCost 0 = 0 ↔ ∀ t d, s.X t d = ∑ i, s.Gamma t i * s.S i d := by
  rw [GPNHState.evaluateCost_eq _ _ h]
  have hne : ((D : K) * (T : K)) ≠ 0 := by exact_mod_cast hDT
  unfold gpnhCost
  rw [zero_mul, add_zero, div_eq_zero_iff, or_iff_left hne,
    Finset.sum_eq_zero_iff_of_nonneg
      (fun t _ => Finset.sum_nonneg fun d _ => sq_nonneg _)]
  constructor
  · intro hz t d
    have := hz t (Finset.mem_univ t)
    rw [Finset.sum_eq_zero_iff_of_nonneg (fun d _ => sq_nonneg _)] at this
    have := this d (Finset.mem_univ d)
    rw [sq_eq_zero_iff, sub_eq_zero] at this
    exact this
  · intro hz t _
    refine Finset.sum_eq_zero fun d _ => ?_
    rw [hz t d, sub_self]
    simp

example : demoState.evaluateDictionaryPenalty (1/10) = 4 / 10 := by
  rw [C25_gpnh_penalty _ _ rfl]
  simp [demoState, GPNHState.initializeWorkspace, sqDist]
  norm_num

/-! ### C26: exact factorizations -/

/-- C26.  At an exact factorization (weights on the simplex, no regularisation) both updates succeed
and leave both factors unchanged. -/
theorem C26_gpnh_exact_fixed_point (cfg : LSConfig K) (hk : 1 ≤ k) (s : GPNHState T D k K)
    (hX : ∀ t d, s.X t d = ∑ i, s.Gamma t i * s.S i d) (hW : RowStochastic s.Gamma)
    (hS : s.fSMem ≠ []) (hG : s.fGammaMem ≠ []) :
    (∃ s', s.updateDictionary cfg 0 = Py.ok s' ∧ s'.S = s.S ∧ s'.Gamma = s.Gamma) ∧
    (∃ s', s.updateWeights cfg 0 = Py.ok s' ∧ s'.S = s.S ∧ s'.Gamma = s.Gamma) := by
  have hX' : s.X = s.Gamma * s.S := by
    ext t d
    rw [hX, Matrix.mul_apply]
  constructor
  · obtain ⟨s', h1, -, h2, h3, -⟩ :=
      GPNHState.updateDictionary_stationary (cfg := cfg) (gradSOf_exact hX') hS
    exact ⟨s', h1, h2, h3⟩
  · obtain ⟨s', h1, -, h2, h3, -⟩ :=
      GPNHState.updateWeights_stationary (cfg := cfg) (eps := 0) hk hW (gradWOf_exact hX') hG
    exact ⟨s', h1, h2, h3⟩

/-- C26, complete fit.  A fit started (`init='custom'`) from an exact factorization returns exactly
the supplied factors with `cost_ = 0`, for any line-search settings with memory at least 1. -/
theorem C26_gpnh_exact_fit {env : Env K} (obj : GPNHObj env.rng)
    (hinit : obj.init = some "custom") (heps : obj.epsilonStates = 0) (hmem : 0 < obj.ls.memory)
    (hk : 0 < k) (hT : 0 < T) (hD : 0 < D)
    (hv : ValidParams obj.nComponents obj.maxIterations obj.tolerance)
    (hc : obj.nComponents = .int k)
    (W : Matrix (Fin T) (Fin k) K) (S : Matrix (Fin k) (Fin D) K) (hW : RowStochastic W)
    (kw : InitKwargs) :
    ∃ obj' info, gpnhFitTransform env obj (Arr2.of (W * S)) (some (Arr2.of S)) (some (Arr2.of W)) kw
        = Py.ok (obj', some (Arr2.of W), info) ∧
      obj'.dictionary_ = some (Arr2.of S) ∧ obj'.cost_ = some 0 := by
  have hv' : ValidParams (defaultComponents obj.nComponents (Arr2.of (W * S)).cols)
      obj.maxIterations obj.tolerance := by
    rw [hc] at hv ⊢
    exact hv
  obtain ⟨⟨k', m, t⟩, hp, hck, -, -, hm, -, -⟩ := checkParams_valid hv'
  rw [hc] at hck
  simp only [defaultComponents, NumArg.int.injEq, Nat.cast_inj] at hck
  subst hck
  have hsum : checkUnitRowSums W = Py.ok () := by
    unfold checkUnitRowSums
    rw [if_pos]
    intro i
    rw [(hW i).2, iscloseOne, sub_self, abs_zero, abs_one]
    positivity
  have hst : gpnhStart env (Arr2.of (W * S)).val k obj.init (some (Arr2.of S)) (some (Arr2.of W))
      true true kw obj.randomState = Py.ok ((S, W), obj.randomState) := by
    unfold gpnhStart
    rw [if_pos hinit]
    have e1 : gpnhCheckInitWeights (some (Arr2.of W)) T k = Py.ok W := by
      unfold gpnhCheckInitWeights checkArray
      have : ¬ ((Arr2.of W).rows = 0 ∨ (Arr2.of W).cols = 0) := by
        simp only [Arr2.of]; omega
      simp only [this, if_false, Py.ok_bind, checkArrayShape_of, hsum, Py.pure_eq]
    have e2 : gpnhCheckInitDictionary (some (Arr2.of S)) k D = Py.ok S := by
      unfold gpnhCheckInitDictionary checkArray
      have : ¬ ((Arr2.of S).rows = 0 ∨ (Arr2.of S).cols = 0) := by
        simp only [Arr2.of]; omega
      simp only [this, if_false, Py.ok_bind, checkArrayShape_of]
    show (do
      let w ← gpnhCheckInitWeights (some (Arr2.of W)) T k
      let d ← gpnhCheckInitDictionary (some (Arr2.of S)) k D
      pure ((d, w), obj.randomState)) = _
    rw [e1, Py.ok_bind, e2]
    rfl
  obtain ⟨r, hr, hG, hS, hcost⟩ := gpnhIterate_exact (cfg := obj.ls) (require := obj.require)
    (tol := t) hm (ud := true) (uw := true)
    (s := GPNHState.initializeWorkspace obj.ls (W * S) W S)
    (Nat.mul_ne_zero hD.ne' hT.ne') hk rfl rfl hW
    (by simp [GPNHState.initializeWorkspace, hmem.ne'])
    (by simp [GPNHState.initializeWorkspace, hmem.ne'])
  have hr' : gpnhIterate obj.ls obj.epsilonStates obj.require t m true true
      (GPNHState.initializeWorkspace obj.ls (Arr2.of (W * S)).val W S) = Py.ok r := by
    rw [heps]; exact hr
  have := gpnhConvexCoding_of_steps (env := env) (obj := obj) hp hst hr'
  have hG' : r.state.Gamma = W := hG
  have hS' : r.state.S = S := hS
  rw [hG', hS', hcost] at this
  unfold gpnhFitTransform
  rw [this]
  exact ⟨_, _, rfl, rfl, rfl⟩

/-- Weights of the next example. -/
def demoW : Matrix (Fin 3) (Fin 2) ℚ := !![1/2, 1/2; 1/4, 3/4; 0, 1]

/-- Dictionary of the next example. -/
def demoS : Matrix (Fin 2) (Fin 2) ℚ := !![0, 1; 2, 2]

theorem demoW_rowStochastic : RowStochastic demoW := by
  intro i
  refine ⟨fun j => ?_, ?_⟩
  · fin_cases i <;> fin_cases j <;> norm_num [demoW]
  · fin_cases i <;> norm_num [demoW, Fin.sum_univ_two]

/-- A model with a custom start. -/
def demoCustom : GPNHObj demoEnv.rng := { demoObj with init := some "custom", epsilonStates := 0 }

theorem demo_custom_fit : ∃ obj' info,
    gpnhFitTransform demoEnv demoCustom (Arr2.of (demoW * demoS))
    (some (Arr2.of demoS)) (some (Arr2.of demoW)) {} = Py.ok (obj', some (Arr2.of demoW), info) ∧
    obj'.dictionary_ = some (Arr2.of demoS) ∧ obj'.cost_ = some 0 :=
  C26_gpnh_exact_fit demoCustom rfl rfl (by norm_num [demoCustom, demoObj, demoLS]) (by norm_num)
    (by norm_num) (by norm_num)
    ⟨⟨2, rfl, by norm_num⟩, ⟨4, rfl, by norm_num⟩, Or.inr ⟨_, rfl, by norm_num⟩⟩ rfl demoW demoS
    demoW_rowStochastic {}

/-! ### C27: reconstructions -/

/-- C27; missing: the settings for which C17 fails (`C27_gpnh_reconstruction_fails`) and custom starts
with negative weights.  Reconstructing from the weights returned by a fit gives, in every row, a convex combination
of the dictionary elements; each feature stays between any bounds of the dictionary. -/
theorem C27_gpnh_reconstruction_partial {env : Env K} (hR : env.rng.Lawful)
    (obj : GPNHObj env.rng) (h1 : SafeSteps obj.ls.gamma obj.ls.alphaMax obj.ls.sigmaOne
      obj.ls.sigmaTwo)
    (data : Arr2 K) (dictionary weights : Option (Arr2 K)) (kw : InitKwargs)
    (hstart : obj.init = some "custom" → ∀ W, weights = some W → RowStochastic W.val)
    (obj' : GPNHObj env.rng) (G : Arr2 K) (info : FitInfo K)
    (h : gpnhFitTransform env obj data dictionary weights kw = Py.ok (obj', some G, info)) :
    ∃ (k : ℕ) (W : Matrix (Fin data.rows) (Fin k) K) (S : Matrix (Fin k) (Fin data.cols) K)
      (X : Matrix (Fin data.rows) (Fin data.cols) K),
      obj'.dictionary_ = some (Arr2.of S) ∧ gpnhInverseTransform env obj' G = Py.ok (Arr2.of X) ∧
      (∀ t, IsProb (fun i => W t i) ∧ ∀ d, X t d = ∑ i, W t i * S i d) ∧
      ∀ t d lo hi, (∀ i, lo ≤ S i d ∧ S i d ≤ hi) → lo ≤ X t d ∧ X t d ≤ hi := by
  obtain ⟨k, W, S, hG, hd, hS, -, -, -⟩ := C20_gpnh_cost obj data _ _ kw obj' _ info h
  obtain ⟨W', hG', -, -, hW⟩ :=
    C17_gpnh_fit_weights_stochastic_partial hR obj h1 data _ _ kw hstart obj' _ info h
  rw [hG'] at hG
  obtain rfl := Option.some.inj hG
  obtain rfl := Option.some.inj hG'
  have hW' : RowStochastic W := hW
  refine ⟨k, W, S, W * S, hd, ?_, fun t => ⟨hW' t, fun d => Matrix.mul_apply⟩, ?_⟩
  · unfold gpnhInverseTransform
    rw [hS]
    exact dif_pos rfl
  · intro t d lo hi hb
    rw [Matrix.mul_apply]
    have hs := (hW' t).2
    constructor
    · calc lo = ∑ i, W t i * lo := by rw [← Finset.sum_mul, hs, one_mul]
        _ ≤ _ := Finset.sum_le_sum fun i _ => mul_le_mul_of_nonneg_left (hb i).1 ((hW' t).1 i)
    · calc ∑ i, W t i * S i d ≤ ∑ i, W t i * hi :=
            Finset.sum_le_sum fun i _ => mul_le_mul_of_nonneg_left (hb i).2 ((hW' t).1 i)
        _ = hi := by rw [← Finset.sum_mul, hs, one_mul]

/-! ### C36: FurthestSum initialisation -/

/-- C36.  With `init='furthest_sum'` the initial dictionary consists of rows of the data at distinct
indices, none of them excluded. -/
theorem C36_gpnh_furthest_sum_start {env : Env K} (data : Matrix (Fin T) (Fin D) K) (k : ℕ)
    (dictionary weights : Option (Arr2 K)) (kw : InitKwargs) (hkw : kw.WellFormed T) (g : env.rng.G)
    (start : (Matrix (Fin k) (Fin D) K × Matrix (Fin T) (Fin k) K) × env.rng.G)
    (h : gpnhStart env data k (some "furthest_sum") dictionary weights true true kw g =
      Py.ok start) :
    ∃ rows : Fin k → Fin T, Function.Injective rows ∧
      (∀ i, ((rows i : ℕ) : ℤ) ∉ kw.exclude.getD []) ∧ ∀ i d, start.1.1 i d = data (rows i) d := by
  unfold gpnhStart at h
  simp only [Option.some.injEq, String.reduceEq, if_false, Bool.true_eq_false, false_and,
    and_false] at h
  unfold gpnhInitBoth at h
  obtain ⟨d, hd, h⟩ := Py.bind_eq_ok.1 h
  obtain ⟨w, hw, h⟩ := Py.bind_eq_ok.1 h
  simp only [Py.pure_eq, Py.ok.injEq] at h
  subst h
  unfold gpnhInitDictionary at hd
  simp only [Option.getD_some, String.reduceEq, if_false, if_true] at hd
  unfold gpnhInitDictionaryFurthestSum at hd
  obtain ⟨r, hr, hd⟩ := Py.bind_eq_ok.1 hd
  simp only [Py.pure_eq, Py.ok.injEq] at hd
  subst hd
  obtain ⟨a, b⟩ := furthestSumRows_ok hkw hr
  exact ⟨r.1, a, b, fun i d => rfl⟩

/-- C36, success.  The FurthestSum start of the dictionary never fails with enough samples and no
exclusions: the dissimilarities of a data matrix are always defined. -/
theorem C36_gpnh_furthest_sum_succeeds {env : Env K} (hR : env.rng.Lawful)
    (data : Matrix (Fin T) (Fin D) K) (k : ℕ) (hk : 1 ≤ k) (hkT : k ≤ T) (kw : InitKwargs)
    (hex : kw.exclude = none) (hstart : ∀ z, kw.startIndex = some z → 0 ≤ z ∧ z < T)
    (g : env.rng.G) :
    ∃ r, gpnhInitDictionary env data k (some "furthest_sum") kw g = Py.ok r := by
  unfold gpnhInitDictionary
  simp only [Option.getD_some, String.reduceEq, if_false, if_true]
  unfold gpnhInitDictionaryFurthestSum
  obtain ⟨r, hr⟩ := furthestSumRows_succeeds hR (gram_distance_nonneg data) hk hkT hex hstart g
  simp only [hr, Py.ok_bind]
  exact ⟨_, rfl⟩

/-- The choice of a start index ignores the exclusions: a drawn start index that is excluded is a
ValueError, although the caller did not ask for it. -/
theorem C36_gpnh_excluded_draw_fails {env : Env K} (data : Matrix (Fin T) (Fin D) K) (hT : 0 < T)
    (k : ℕ) (hk : 1 ≤ k) (g : env.rng.G) (ex : List ℤ)
    (hdraw : ((env.rng.randint T g).1 : ℤ) ∈ ex) :
    gpnhInitDictionary env data k (some "furthest_sum") { exclude := some ex } g =
      Py.raise .valueError := by
  unfold gpnhInitDictionary
  simp only [Option.getD_some, String.reduceEq, if_false, if_true]
  unfold gpnhInitDictionaryFurthestSum furthestSumRows drawStart
  simp only [hT.ne', if_false, Py.ok_bind]
  cases hD : dissimilarities env.sqrt (data * dataᵀ) with
  | ok M =>
    obtain ⟨hd1, hd2⟩ := dissimilarities_ok hD
    have := C14_bad_arguments_rejected M (by rw [hd1, hd2]) (k : ℤ) _ (by omega) ex 10
      (Or.inr (Or.inl hdraw))
    simp only [Py.ok_bind, Option.getD_some, Option.getD_none, this, Py.raise_bind]
  | raise e =>
    obtain ⟨r, hr⟩ : ∃ r, dissimilarities env.sqrt (data * dataᵀ) = Py.ok r := by
      unfold dissimilarities
      simp only
      rw [if_neg]
      · exact ⟨_, rfl⟩
      · rintro ⟨i, j, h⟩
        exact absurd (gram_distance_nonneg data i j) (not_le.2 h)
    rw [hD] at hr
    simp at hr
  | diverge => exact absurd hD (by unfold dissimilarities; simp only; split_ifs <;> simp)

example : gpnhInitDictionary demoEnv demoData.val 2 (some "furthest_sum")
    { exclude := some [1] } (demoRng.ofSeed 4) = Py.raise .valueError :=
  C36_gpnh_excluded_draw_fails demoData.val (by norm_num [demoData, Arr2.of]) 2 (by norm_num) _ _
    (by simp [demoEnv, demoRng, demoData, Arr2.of])

example : ∃ r, gpnhInitDictionary demoEnv demoData.val 2 (some "furthest_sum") {} (demoRng.ofSeed 4)
    = Py.ok r :=
  C36_gpnh_furthest_sum_succeeds demoRng_lawful demoData.val 2 (by norm_num)
    (by norm_num [demoData, Arr2.of]) {} rfl (by simp) _

end Reor
