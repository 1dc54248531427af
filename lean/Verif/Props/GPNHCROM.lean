import Verif.Proofs.GPNHCROM
import Verif.Props.MTDForecast

/-!
Properties C44, C62-C64 and the parts of C09, C10, C24, C41, C42 that concern
`GPNHConvexCodingCROM`.
-/

namespace Reor

set_option linter.unusedSectionVars false
set_option linter.unnecessarySeqFocus false

open scoped BigOperators Matrix
open Spec

variable {K : Type} [Field K] [LinearOrder K] [IsStrictOrderedRing K]
variable {T D k p : ℕ}

/-- The predictions are up to date, as they are whenever the code evaluates the residual. -/
def CROMCoherent (c : CROMConfig p K) (s : CROMState T k p K) : Prop :=
  (∀ t : Fin T, (∀ i, c.lags i ≤ t) →
    ∀ j, s.Z t j = mtdStep c.lags s.orderWeights s.transitionMatrices (rowSeq s.Gamma) t j) ∧
  ∀ t : Fin T, (∃ i, (t : ℕ) < c.lags i) → ∀ j, s.Z t j = s.Gamma t j

theorem crom_good_iff {c : CROMConfig p K} {s : CROMState T k p K} :
    (s.toMTD c).Good c.toMTD ↔ CROMCoherent c s := by
  constructor
  · intro h
    have h' := mtdCoherent_iff.2 h
    exact ⟨h'.Z_pred, h'.Z_early⟩
  · intro h
    exact mtdCoherent_iff.1 ⟨rfl, h.1, h.2⟩

/-! ### C44: the fitted parameters -/

/-- C44, residual.  What the code evaluates as fit residual is the documented one-step prediction
error of the weights. -/
theorem C44_crom_residual (c : CROMConfig p K) (s : CROMState T k p K) (hs : CROMCoherent c s) :
    s.evaluateFitResidual c =
      mtdPenalty 1 c.lags s.Gamma s.orderWeights s.transitionMatrices := by
  rw [← CROMState.toMTD_evaluateCost, MTDState.evaluateCost_eq (crom_good_iff.2 hs)]
  exact mtdCost_crom _ _ _ _

/-- C44, stochasticity; missing: settings with which the step can leave `[0, 1]`.  After a fit the
order weights are a probability vector and all transition matrices are column stochastic. -/
theorem C44_crom_parameters_stochastic_partial {env : Env K} (hR : env.rng.Lawful)
    (obj : CROMObj env.rng p) (h1 : SafeSteps obj.base.ls.gamma obj.base.ls.alphaMax obj.base.ls.sigmaOne
      obj.base.ls.sigmaTwo)
    (data : Arr2 K) (dictionary weights : Option (Arr2 K)) (kw : InitKwargs) (ud uw : Bool)
    (obj' : CROMObj env.rng p) (G : Option (Arr2 K)) (info : FitInfo K)
    (h : cromFitTransform env obj data dictionary weights kw ud uw = Py.ok (obj', G, info)) :
    ∃ (k : ℕ) (w : Fin p → K) (A : Fin p → Matrix (Fin k) (Fin k) K),
      obj'.vars = some ⟨k, w, A⟩ ∧ obj'.base.nComponents_ = some k ∧ IsProb w ∧
      ∀ i, ColStochastic (A i) := by
  obtain ⟨k, mi, tol, o, i, W, S, w0, A0, g1, g2, r, hk, hT, hD, hm, ho, hG, hS, -, -, -, -, -, -, -,
    hw, hA, hr, hres⟩ := cromFitTransform_eq_ok h
  have hp := (cromSolve_ok hT hr).1
  obtain ⟨-, -, -, hst⟩ := cromSolve_facts hT hr
  obtain ⟨a, b⟩ := hst h1 hk (mtdDrawOrderWeights_ok hR (Nat.one_le_iff_ne_zero.2 hp) hw)
    (mtdDrawTransitionMatrices_ok hR hk hA)
  have hn : o.nComponents_ = some k := by
    obtain ⟨o1, i1, -, hres⟩ := gpnhFitTransform_eq_ok ho
    simp only [Prod.mk.injEq] at hres
    obtain ⟨rfl, -, -⟩ := hres
    simp only at hS ⊢
    rw [hS]
    rfl
  simp only [Prod.mk.injEq] at hres
  obtain ⟨rfl, -, -⟩ := hres
  exact ⟨k, _, _, rfl, hn, a, b⟩

/-- C44, monotonicity.  When monotone decrease is required, the residual of the fitted parameters on
the fitted weights is at most that of the random start. -/
theorem C44_crom_residual_never_worse {env : Env K} (obj : CROMObj env.rng p)
    (hreq : obj.base.require = true)
    (data : Arr2 K) (dictionary weights : Option (Arr2 K)) (kw : InitKwargs) (ud uw : Bool)
    (obj' : CROMObj env.rng p) (G : Option (Arr2 K)) (info : FitInfo K)
    (h : cromFitTransform env obj data dictionary weights kw ud uw = Py.ok (obj', G, info)) :
    ∃ (k : ℕ) (W : Matrix (Fin data.rows) (Fin k) K) (o : GPNHObj env.rng) (w0 w : Fin p → K)
      (A0 A : Fin p → Matrix (Fin k) (Fin k) K) (g1 : env.rng.G),
      gpnhFitTransform env obj.base data dictionary weights kw ud uw =
        Py.ok (o, some (Arr2.of W), info) ∧
      mtdDrawOrderWeights env.rng p o.randomState = Py.ok (w0, g1) ∧
      mtdDrawTransitionMatrices env.rng k p g1 = Py.ok (A0, obj'.base.randomState) ∧
      obj'.vars = some ⟨k, w, A⟩ ∧ G = some (Arr2.of W) ∧
      mtdPenalty 1 obj.lags W w A ≤ mtdPenalty 1 obj.lags W w0 A0 := by
  obtain ⟨k, mi, tol, o, i, W, S, w0, A0, g1, g2, r, hk, hT, hD, hm, ho, hG, hS, -, -, -, -, -, -, -,
    hw, hA, hr, hres⟩ := cromFitTransform_eq_ok h
  obtain ⟨-, hc, hmon, -⟩ := cromSolve_facts hT hr
  simp only [Prod.mk.injEq] at hres
  obtain ⟨rfl, rfl, rfl⟩ := hres
  refine ⟨k, W, o, w0, _, A0, _, g1, ho, hw, hA, rfl, rfl, ?_⟩
  have := (hmon hreq).2
  rw [hc] at this
  exact this

/-- C44.  Every iteration of the fit of the parameters decreases the residual or leaves it, when
monotone decrease is required; the loop reports the residual of its final parameters. -/
theorem C44_crom_iterations_monotone (c : CROMConfig p K) (hT : T ≠ 0) (tol : K) (maxIter : ℕ)
    (W : Matrix (Fin T) (Fin k) K) (w : Fin p → K) (A : Fin p → Matrix (Fin k) (Fin k) K)
    (r : IterResult (CROMState T k p K) K)
    (h : cromSolve c true tol maxIter W w A = Py.ok r) :
    (mtdPenalty 1 c.lags W w A :: r.trace).IsChain (· ≥ ·) ∧ r.state.Gamma = W ∧
      r.cost = mtdPenalty 1 c.lags W r.state.orderWeights r.state.transitionMatrices := by
  obtain ⟨hG, hc, hmon, -⟩ := cromSolve_facts hT h
  exact ⟨(hmon rfl).1, hG, hc⟩

/-! ### C09, C10: the line search -/

/-- C09.  The update of the parameters terminates from any state whatever with a non-empty memory,
unless there are exactly as many samples as the largest lag (then the gradients are NaN). -/
theorem C09_crom (c : CROMConfig p K) (h1 : 0 < c.ls.sigmaOne) (N : ℕ)
    (hN : max c.ls.sigmaTwo (1 / 2) ^ (N + 1) < c.ls.stepSizeTolerance)
    (s : CROMState T k p K) (hm : s.fParametersMem ≠ []) :
    (T ≠ c.maxLag ∧ ∃ s', s.updateParameters c = Py.ok s') ∨
      (T = c.maxLag ∧ s.updateParameters c = Py.raise .nonFinite) := by
  by_cases hT : T = c.maxLag
  · exact Or.inr ⟨hT, by unfold CROMState.updateParameters; rw [if_pos hT]⟩
  rcases (C09_mtd c.toMTD h1 N hN (s.toMTD c)).2.2 hm with ⟨-, t, ht⟩ | ⟨h, -⟩
  · obtain ⟨s', hs', -⟩ := CROMState.updateParameters_of_ok ht
    exact Or.inl ⟨hT, s', hs'⟩
  · exact absurd h hT

theorem cromSolve_ne_diverge [Archimedean K] (c : CROMConfig p K)
    (h1 : 0 < c.ls.sigmaOne) (h2 : c.ls.sigmaTwo < 1) (ht : 0 < c.ls.stepSizeTolerance)
    (hmem : 0 < c.ls.memory) (require : Bool) (tol : K) (maxIter : ℕ)
    (W : Matrix (Fin T) (Fin k) K) (w : Fin p → K) (A : Fin p → Matrix (Fin k) (Fin k) K) :
    cromSolve c require tol maxIter W w A ≠ Py.diverge := by
  obtain ⟨N, hN⟩ : ∃ N : ℕ, shrink c.ls.sigmaTwo ^ (N + 1) < c.ls.stepSizeTolerance := by
    obtain ⟨N, hN⟩ := exists_pow_shrink_le (K := K) h2 (x := c.ls.stepSizeTolerance / 2)
      (by linarith)
    refine ⟨N, ?_⟩
    have h3 : shrink c.ls.sigmaTwo ^ (N + 1) ≤ shrink c.ls.sigmaTwo ^ N :=
      pow_le_pow_of_le_one (shrink_pos _).le (shrink_lt_one h2).le (Nat.le_succ N)
    linarith
  intro h
  unfold cromSolve at h
  split_ifs at h
  obtain ⟨f, hf, s, hs, h⟩ := iterate_diverge
    (Inv := fun s : CROMState T k p K => CROMCoherent c s ∧ s.fParametersMem ≠ [])
    (fun s hs => hs) (by
      rintro f hf s s' ⟨hg, hm⟩ h
      simp only [List.mem_singleton] at hf
      subst hf
      obtain ⟨lam, hl⟩ := MTDState.updateParameters_post (crom_good_iff.2 hg)
        (CROMState.updateParameters_ok h)
      refine ⟨crom_good_iff.1 hl.good, ?_⟩
      have : s'.fParametersMem = _ := hl.fParametersMem
      rw [this]
      simp)
    (by
      refine ⟨crom_good_iff.1 ⟨rfl, rfl⟩, ?_⟩
      simp [CROMState.initializeWorkspace, CROMState.updatePredictedWeights, hmem.ne']) h
  simp only [List.mem_singleton] at hf
  subst hf
  rcases C09_crom c h1 N hN s hs.2 with ⟨-, s', hs'⟩ | ⟨-, hs'⟩ <;>
  · rw [hs'] at h
    simp at h

/-- C09.  Every fit with a step floor either returns or raises; it never runs forever. -/
theorem C09_crom_fit_terminates [Archimedean K] {env : Env K} (obj : CROMObj env.rng p)
    (h1 : 0 < obj.base.ls.sigmaOne) (h2 : obj.base.ls.sigmaTwo < 1)
    (ht : 0 < obj.base.ls.stepSizeTolerance) (hmem : 0 < obj.base.ls.memory) (data : Arr2 K)
    (dictionary weights : Option (Arr2 K)) (kw : InitKwargs) (ud uw : Bool) :
    cromFitTransform env obj data dictionary weights kw ud uw ≠ Py.diverge := by
  intro h
  unfold cromFitTransform at h
  rcases Py.bind_eq_diverge.1 h with h | ⟨⟨o, G, i⟩, ho, h⟩
  · unfold gpnhFitTransform at h
    rcases Py.bind_eq_diverge.1 h with h | ⟨_, _, h⟩
    · exact C09_gpnh_fit_terminates obj.base h1 h2 ht hmem data _ _ _ _ kw h
    · simp at h
  obtain ⟨o1, i1, ho1, hres⟩ := gpnhFitTransform_eq_ok ho
  obtain ⟨q1, start, r1, hq1, hst, hr1, hoi⟩ := gpnhConvexCoding_eq_ok ho1
  simp only [Prod.mk.injEq] at hres hoi
  obtain ⟨rfl, rfl, rfl⟩ := hres
  obtain ⟨rfl, rfl⟩ := hoi
  rcases Py.bind_eq_diverge.1 h with h | ⟨q, hq, h⟩
  · simp only at h
    rw [hq1] at h
    simp at h
  simp only at h
  rcases Py.bind_eq_diverge.1 h with h | ⟨_, _, h⟩
  swap
  · simp at h
  unfold cromFitParameters at h
  rcases Py.bind_eq_diverge.1 h with h | ⟨_, _, h⟩
  · unfold mtdDrawOrderWeights at h
    simp only at h
    split_ifs at h
  rcases Py.bind_eq_diverge.1 h with h | ⟨_, _, h⟩
  · exact mtdDrawTransitionMatrices_ne_diverge h
  rcases Py.bind_eq_diverge.1 h with h | ⟨_, _, h⟩
  · exact cromSolve_ne_diverge obj.config h1 h2 ht hmem _ _ _ _ _ _ h
  · simp at h

/-- C10; missing: the range of the step for settings outside those of `StepBounds`.  Both
parameter blocks move by the same step along the projected gradient direction. -/
theorem C10_crom_parameters_partial (c : CROMConfig p K) (s s' : CROMState T k p K)
    (hs : CROMCoherent c s) (h : s.updateParameters c = Py.ok s') :
    ∃ (step : K) (g P : Fin p → K) (G Q : Fin p → Matrix (Fin k) (Fin k) K),
      g = (s.prepareParameters c).gradOrderWeights ∧
      G = (s.prepareParameters c).gradTransitionMatrices ∧
      P = simplexProjectVector (fun i => s.orderWeights i - s.alphaParameters * g i) ∧
      (∀ i j, (fun l => Q i l j) =
        simplexProjectVector fun l => s.transitionMatrices i l j - s.alphaParameters * G i l j) ∧
      StepBounds c.ls.gamma c.ls.sigmaOne c.ls.sigmaTwo ((∑ i, (P i - s.orderWeights i) * g i) +
        ∑ i, inner (Q i - s.transitionMatrices i) (G i)) step ∧
      s'.orderWeights = s.orderWeights + step • (P - s.orderWeights) ∧
      s'.transitionMatrices = s.transitionMatrices + step • (Q - s.transitionMatrices) ∧
      s'.Gamma = s.Gamma ∧ CROMCoherent c s' ∧
      s'.fParametersMem = s.fParametersMem.tail ++
        [mtdPenalty 1 c.lags s.Gamma s.orderWeights s.transitionMatrices] ∧
      ((∃ fMax ∈ s'.fParametersMem, (∀ f ∈ s'.fParametersMem, f ≤ fMax) ∧
          mtdPenalty 1 c.lags s.Gamma s'.orderWeights s'.transitionMatrices ≤ fMax +
            c.ls.gamma * step * ((∑ i, (P i - s.orderWeights i) * g i) +
              ∑ i, inner (Q i - s.transitionMatrices i) (G i))) ∨
        |step| < c.ls.stepSizeTolerance) := by
  have h' := CROMState.updateParameters_ok h
  obtain ⟨lam, hl⟩ := MTDState.updateParameters_post (crom_good_iff.2 hs) h'
  obtain ⟨step, g, P, G, Q, e1, e2, e3, e4, e5, e6, e7, -, -, e8, e9, e10⟩ :=
    C10_mtd_parameters_partial c.toMTD (s.toMTD c) (s'.toMTD c)
      (mtdCoherent_iff.2 (crom_good_iff.2 hs)) h'
  have ho : (s.toMTD c).objective c.toMTD =
      mtdPenalty 1 c.lags s.Gamma s.orderWeights s.transitionMatrices := mtdCost_crom _ _ _ _
  have ho' : (s'.toMTD c).objective c.toMTD =
      mtdPenalty 1 c.lags s'.Gamma s'.orderWeights s'.transitionMatrices := mtdCost_crom _ _ _ _
  have hG : s'.Gamma = s.Gamma := e8
  rw [CROMState.toMTD_prepareParameters] at e1 e2
  rw [ho] at e9
  rw [ho', hG] at e10
  exact ⟨step, g, P, G, Q, e1, e2, e3, e4, e5, e6, e7, hG, crom_good_iff.1 hl.good, e9, e10⟩

/-! ### C24: validation -/

/-- C24.  With an invalid configuration every fit, transform and predict raises ValueError, whatever
the data and the other arguments. -/
theorem C24_crom_invalid_rejected {env : Env K} (obj : CROMObj env.rng p) (data : Arr2 K)
    (dictionary weights : Option (Arr2 K)) (kw : InitKwargs) (ud uw : Bool) (horizon : ℤ)
    (hv : ¬ ValidConfig obj.base.nComponents data.cols obj.base.maxIterations
      obj.base.tolerance) :
    cromFitTransform env obj data dictionary weights kw ud uw = Py.raise .valueError ∧
    cromTransform env obj data = Py.raise .valueError ∧
    cromPredict env obj data horizon = Py.raise .valueError := by
  rw [validConfig_iff] at hv
  unfold cromPredict cromTransform cromFitTransform gpnhFitTransform gpnhTransform gpnhConvexCoding
  simp only [checkParams_invalid hv, Py.raise_bind, and_self]

/-- C24.  With a valid configuration, at least one lag, positive lags and the default
initialisation, a fit never raises ValueError. -/
theorem C24_crom_valid_accepted {env : Env K} (obj : CROMObj env.rng p) (hp : p ≠ 0)
    (hlag : ∀ i, 1 ≤ obj.lags i)
    (hinit : obj.base.init = none ∨ obj.base.init = some "random") (data : Arr2 K)
    (dictionary weights : Option (Arr2 K))
    (hv : ValidConfig obj.base.nComponents data.cols obj.base.maxIterations
      obj.base.tolerance) :
    cromFitTransform env obj data dictionary weights {} ≠ Py.raise .valueError := by
  intro h
  unfold cromFitTransform at h
  rcases Py.bind_eq_raise.1 h with h | ⟨⟨o, G, i⟩, ho, h⟩
  · exact C24_gpnh_valid_accepted obj.base hinit data dictionary weights hv h
  obtain ⟨o1, i1, ho1, hres⟩ := gpnhFitTransform_eq_ok ho
  obtain ⟨q1, start, r1, hq1, hst, hr1, hoi⟩ := gpnhConvexCoding_eq_ok ho1
  have hDT : data.cols * data.rows ≠ 0 := (gpnhIterate_eq_ok.1 hr1).1
  have hT : data.rows ≠ 0 := right_ne_zero_of_mul hDT
  obtain ⟨-, -, -, -, hm, -⟩ := checkParams_ok hq1
  simp only [Prod.mk.injEq] at hres hoi
  obtain ⟨rfl, rfl, rfl⟩ := hres
  obtain ⟨rfl, rfl⟩ := hoi
  simp only [hq1, Py.ok_bind] at h
  rcases Py.bind_eq_raise.1 h with h | ⟨_, _, h⟩
  swap
  · simp at h
  unfold cromFitParameters at h
  rcases Py.bind_eq_raise.1 h with h | ⟨_, _, h⟩
  · unfold mtdDrawOrderWeights at h
    simp only at h
    split_ifs at h
    simp at h
  rcases Py.bind_eq_raise.1 h with h | ⟨_, _, h⟩
  · simpa using mtdDrawTransitionMatrices_raise h
  rcases Py.bind_eq_raise.1 h with h | ⟨_, _, h⟩
  · have := cromSolve_raise hp hT (by
      rintro ⟨⟨i, hi⟩, -⟩
      have : 1 ≤ obj.lags i := hlag i
      have hi : obj.lags i = 0 := hi
      omega) hm h
    simp at this
  · simp at h

/-- C24.  The lags are not looked at by the constructor: without lags, or with a zero lag and more
samples than the largest lag, no fit succeeds. -/
theorem C24_crom_bad_lags {env : Env K} (obj : CROMObj env.rng p) (data : Arr2 K)
    (dictionary weights : Option (Arr2 K)) (kw : InitKwargs) (ud uw : Bool)
    (hlag : p = 0 ∨ ((∃ i, obj.lags i = 0) ∧ ∀ i, obj.lags i < data.rows)) :
    ¬ ∃ res, cromFitTransform env obj data dictionary weights kw ud uw = Py.ok res := by
  rintro ⟨res, h⟩
  obtain ⟨k, mi, tol, o, i, W, S, w0, A0, g1, g2, r, hk, hT, hD, hm, ho, hG, hS, -, -, -, -, -, -, -,
    hw, hA, hr, hres⟩ := cromFitTransform_eq_ok h
  have hp := (cromSolve_ok hT hr).1
  rcases hlag with h0 | ⟨h0, hmax⟩
  · exact hp h0
  · unfold cromSolve at hr
    rw [if_neg hp, if_pos] at hr
    · simp at hr
    · refine ⟨h0, ?_⟩
      exact (Finset.sup_lt_iff (Nat.pos_of_ne_zero hT)).2 fun i _ => hmax i

/-- C24.  The constructor cannot be called with `n_components=None`, although this is the documented
default: TypeError; a negative number is a ValueError, a non-negative integer is fine. -/
theorem C24_crom_constructor (z : ℤ) :
    cromCheckConstructor (NumArg.none : NumArg K) = Py.raise .typeError ∧
    cromCheckConstructor (NumArg.int z : NumArg K) = (if z < 0 then Py.raise .valueError
      else Py.ok ()) := ⟨rfl, rfl⟩

/-! ### C64: the parameters and the coding are independent -/

/-- C64.  `fit_transform` returns the weights that `GPNHConvexCoding.fit_transform` returns for the
same object, and leaves its dictionary, cost and iteration count; only the generator has moved on and
the parameters have been added. -/
theorem C64_crom_fit_is_gpnh_fit {env : Env K} (obj : CROMObj env.rng p) (data : Arr2 K)
    (dictionary weights : Option (Arr2 K)) (kw : InitKwargs) (ud uw : Bool)
    (obj' : CROMObj env.rng p) (G : Option (Arr2 K)) (info : FitInfo K)
    (h : cromFitTransform env obj data dictionary weights kw ud uw = Py.ok (obj', G, info)) :
    ∃ o : GPNHObj env.rng,
      gpnhFitTransform env obj.base data dictionary weights kw ud uw = Py.ok (o, G, info) ∧
      obj'.base = { o with randomState := obj'.base.randomState } ∧ obj'.lags = obj.lags := by
  obtain ⟨k, mi, tol, o, i, W, S, w0, A0, g1, g2, r, hk, hT, hD, hm, ho, hG, hS, -, -, -, -, -, -, -,
    hw, hA, hr, hres⟩ := cromFitTransform_eq_ok h
  simp only [Prod.mk.injEq] at hres
  obtain ⟨rfl, rfl, rfl⟩ := hres
  exact ⟨o, ho, rfl, rfl⟩

/-- C64.  `transform` is that of `GPNHConvexCoding` and leaves lags, order weights, transition
matrices, dictionary and reported cost. -/
theorem C64_crom_transform_is_gpnh_transform {env : Env K} (obj : CROMObj env.rng p) (data : Arr2 K)
    (obj' : CROMObj env.rng p) (G : Option (Arr2 K)) (info : FitInfo K)
    (h : cromTransform env obj data = Py.ok (obj', G, info)) :
    gpnhTransform env obj.base data = Py.ok (obj'.base, G, info) ∧ obj'.lags = obj.lags ∧
      obj'.vars = obj.vars ∧ obj'.base.S = obj.base.S ∧
      obj'.base.dictionary_ = obj.base.dictionary_ ∧ obj'.base.cost_ = obj.base.cost_ := by
  unfold cromTransform at h
  obtain ⟨⟨o, G1, i1⟩, ho, h⟩ := Py.bind_eq_ok.1 h
  simp only [Py.pure_eq, Py.ok.injEq, Prod.mk.injEq] at h
  obtain ⟨rfl, rfl, rfl⟩ := h
  obtain ⟨a, b, c, -⟩ := C23_gpnh_transform_keeps_dictionary obj.base data o G1 i1 ho
  exact ⟨ho, rfl, rfl, a, b, c⟩

/-! ### C41, C42: forecasts -/

theorem cromTransform_shape {env : Env K} {obj : CROMObj env.rng p} {data : Arr2 K}
    {obj' : CROMObj env.rng p} {G : Option (Arr2 K)} {info : FitInfo K}
    (h : cromTransform env obj data = Py.ok (obj', G, info)) :
    ∃ (k : ℕ) (W : Matrix (Fin data.rows) (Fin k) K) (S : Matrix (Fin k) (Fin data.cols) K),
      G = some (Arr2.of W) ∧ obj.base.S = some (Arr2.of S) ∧ obj'.base.S = some (Arr2.of S) := by
  obtain ⟨h1, -, -, hS, -⟩ := C64_crom_transform_is_gpnh_transform obj data obj' G info h
  obtain ⟨o, i, ho, hres⟩ := gpnhTransform_eq_ok h1
  obtain ⟨q, start, r, hq, hst, hr, hoi⟩ := gpnhConvexCoding_eq_ok ho
  simp only [Prod.mk.injEq] at hres hoi
  obtain ⟨hb, hG, rfl⟩ := hres
  obtain ⟨rfl, rfl⟩ := hoi
  refine ⟨_, r.state.Gamma, r.state.S, hG, ?_, by rw [hb]⟩
  rw [← hS, hb]

/-- C41.  `predict(data, horizon)` transforms the data with the dictionary `S` of the model and
returns for every sample `t` with enough history the value of the recursion with the order weights `w`
and transition matrices `A` of the model `horizon` steps after `t`, mapped through the dictionary.
Samples with less history are NaN (except for horizon zero); a negative horizon makes no step. -/
theorem C41_crom_forecast {env : Env K} (obj : CROMObj env.rng p) (hlag : ∀ i, 1 ≤ obj.lags i)
    (data : Arr2 K) (horizon : ℤ) (obj' : CROMObj env.rng p) (F : NanRows K)
    (h : cromPredict env obj data horizon = Py.ok (obj', F)) :
    ∃ (k : ℕ) (W : Matrix (Fin data.rows) (Fin k) K)
      (S : Matrix (Fin k) (Fin data.cols) K) (w : Fin p → K)
      (A : Fin p → Matrix (Fin k) (Fin k) K) (info : FitInfo K)
      (out : Fin data.rows → Option (Fin data.cols → K)),
      obj.vars = some ⟨k, w, A⟩ ∧ obj.base.S = some (Arr2.of S) ∧
      cromTransform env obj data = Py.ok (obj', some (Arr2.of W), info) ∧
      F = ⟨data.rows, data.cols, out⟩ ∧
      (horizon = 0 → ∀ t, out t = some fun d => ∑ j, W t j * S j d) ∧
      (horizon ≠ 0 → ∀ t : Fin data.rows, (∀ i, obj.lags i ≤ t + 1) →
        ∀ q, ContinuesMTD obj.lags w A W t q →
          out t = some fun d => ∑ j, q (t + horizon.toNat) j * S j d) ∧
      (horizon ≠ 0 → ∀ t : Fin data.rows, (∃ i, (t : ℕ) + 1 < obj.lags i) → out t = none) := by
  unfold cromPredict at h
  obtain ⟨⟨o, G, info⟩, ho, h⟩ := Py.bind_eq_ok.1 h
  obtain ⟨k, W, S, rfl, hS, hS'⟩ := cromTransform_shape ho
  simp only [hS'] at h
  obtain ⟨f, hf, h⟩ := Py.bind_eq_ok.1 h
  simp only [Py.pure_eq, Py.ok.injEq, Prod.mk.injEq] at h
  obtain ⟨rfl, rfl⟩ := h
  unfold cromForecast at hf
  cases hv : obj.vars with
  | none =>
    rw [hv] at hf
    simp at hf
  | some v =>
  rw [hv] at hf
  obtain ⟨k', w, A⟩ := v
  simp only at hf
  by_cases hp : horizon ≠ 0 ∧ p = 0
  · rw [if_pos hp] at hf
    simp at hf
  rw [if_neg hp] at hf
  by_cases hk : (Arr2.of W).cols = k'
  swap
  · rw [dif_neg hk] at hf
    simp at hf
  rw [dif_pos hk] at hf
  have hk' : k = k' := hk
  subst hk'
  unfold cromInverseTransform at hf
  simp only at hf
  rw [dif_pos (show (Arr2.of S).rows = k from rfl)] at hf
  simp only [Py.ok.injEq] at hf
  subst hf
  by_cases h0 : horizon = 0
  · refine ⟨k, W, S, w, A, info, fun t => some fun d => ∑ j, W t j * S j d, rfl, hS, ho, ?_,
      fun _ _ => rfl, fun hh => absurd h0 hh, fun hh => absurd h0 hh⟩
    unfold cromForecastWeights
    rw [if_pos h0]
    rfl
  · have hp' : 1 ≤ p := by
      by_contra hh
      exact hp ⟨h0, by omega⟩
    refine ⟨k, W, S, w, A, info,
      fun t => (mtdForecastRow obj.lags w A W horizon t).map fun v => Matrix.vecMul v S, rfl, hS, ho,
      ?_, fun hh => absurd hh h0, fun _ t ht q hq => ?_, fun _ t ht => ?_⟩
    · unfold cromForecastWeights
      rw [if_neg h0]
      rfl
    · exact congrArg (Option.map fun v => Matrix.vecMul v S)
        (mtdForecastRow_continues hp' hlag w A W horizon t ht hq)
    · obtain ⟨i, hi⟩ := ht
      exact congrArg (Option.map fun v => Matrix.vecMul v S) (mtdForecastRow_nan w A W horizon t
        (lt_of_lt_of_le hi (Finset.le_sup (f := obj.lags) (Finset.mem_univ i))))

/-- C42; missing: settings with which the step can leave `[0, 1]`.  After a fit, every forecast that
is not NaN is a convex combination of the rows of the dictionary held by the object, for every
dataset and horizon and whatever arrays were supplied to the fit. -/
theorem C42_crom_forecast_in_hull_partial {env : Env K} (hR : env.rng.Lawful)
    (obj : CROMObj env.rng p) (hlag : ∀ i, 1 ≤ obj.lags i)
    (h1 : SafeSteps obj.base.ls.gamma obj.base.ls.alphaMax obj.base.ls.sigmaOne
      obj.base.ls.sigmaTwo)
    (train : Arr2 K) (dictionary weights : Option (Arr2 K)) (kw : InitKwargs) (ud uw : Bool)
    (obj1 : CROMObj env.rng p) (G : Option (Arr2 K)) (info : FitInfo K)
    (hfit : cromFitTransform env obj train dictionary weights kw ud uw = Py.ok (obj1, G, info))
    (data : Arr2 K) (horizon : ℤ) (obj2 : CROMObj env.rng p) (F : NanRows K)
    (h : cromPredict env obj1 data horizon = Py.ok (obj2, F)) :
    ∃ (k : ℕ) (S : Matrix (Fin k) (Fin data.cols) K)
      (out : Fin data.rows → Option (Fin data.cols → K)),
      obj1.base.dictionary_ = some (Arr2.of S) ∧ F = ⟨data.rows, data.cols, out⟩ ∧
      ∀ t x, out t = some x → ∃ v : Fin k → K, IsProb v ∧ ∀ d, x d = ∑ j, v j * S j d := by
  obtain ⟨k1, w1, A1, hv1, -, hw1, hA1⟩ := C44_crom_parameters_stochastic_partial hR obj h1 train
    dictionary weights kw ud uw obj1 G info hfit
  have hset : obj1.lags = obj.lags ∧ obj1.base.ls = obj.base.ls ∧
      obj1.base.S = obj1.base.dictionary_ := by
    obtain ⟨k, mi, tol, o, i, W, S, w0, A0, g1, g2, r, hk, hT, hD, hm, ho, hG, hS, hd, hls, -, -, -,
      -, -, hw, hA, hr, hres⟩ := cromFitTransform_eq_ok hfit
    simp only [Prod.mk.injEq] at hres
    obtain ⟨rfl, -, -⟩ := hres
    exact ⟨rfl, hls, hS.trans hd.symm⟩
  obtain ⟨l1, l2, l3⟩ := hset
  obtain ⟨k, W, S, w, A, info2, out, e1, eS, e2, e3, hz, hn, hnan⟩ := C41_crom_forecast obj1
    (by rw [l1]; exact hlag) data horizon obj2 F h
  obtain ⟨eg, -⟩ := C64_crom_transform_is_gpnh_transform obj1 data obj2 _ info2 e2
  obtain ⟨W', hW', -, -, hW⟩ := C17_gpnh_transform_weights_stochastic_partial hR obj1.base
    (by rw [l2]; exact h1) data obj2.base _ info2 eg
  rw [Option.some.injEq] at hW'
  subst hW'
  have hW : RowStochastic W := hW
  rw [hv1] at e1
  simp only [Option.some.injEq, CROMVars.mk.injEq] at e1
  obtain ⟨rfl, rfl, hA⟩ := e1
  cases eq_of_heq hA
  refine ⟨_, S, out, by rw [← l3, eS], e3, ?_⟩
  intro t x hx
  by_cases h0 : horizon = 0
  · rw [hz h0 t, Option.some.injEq] at hx
    subst hx
    exact ⟨W t, hW t, fun _ => rfl⟩
  · by_cases ht : ∀ i, obj1.lags i ≤ t + 1
    · obtain ⟨q, hq, -⟩ := C41_mtd_continuation obj1.lags (by rw [l1]; exact hlag) w1 A1 W t
      rw [hn h0 t ht q hq, Option.some.injEq] at hx
      subst hx
      exact ⟨q (t + horizon.toNat), C42_mtd_continuation_stochastic obj1.lags
        (by rw [l1]; exact hlag) w1 hw1 A1 hA1 W hW t q hq _, fun _ => rfl⟩
    · push Not at ht
      obtain ⟨i, hi⟩ := ht
      rw [hnan h0 t ⟨i, hi⟩] at hx
      simp at hx

/-! ### C62: the gradient -/

/-- C62.  The gradients used by the update of the parameters are the derivative of the documented
residual along any simultaneous direction in the order weights and the transition matrices, at every
state. -/
theorem C62_crom_parameters_gradient (c : CROMConfig p ℝ) (hk : k ≠ 1) (hT : ∀ i, c.lags i < T)
    (s : CROMState T k p ℝ) (v : Fin p → ℝ) (B : Fin p → Matrix (Fin k) (Fin k) ℝ) :
    HasDerivAt (fun t : ℝ => mtdPenalty 1 c.lags s.Gamma (s.orderWeights + t • v)
        (s.transitionMatrices + t • B))
      ((∑ i, v i * (s.prepareParameters c).gradOrderWeights i) +
        ∑ i, inner (B i) ((s.prepareParameters c).gradTransitionMatrices i)) 0 := by
  have := C39_mtd_parameters_gradient c.toMTD hk hT (s.toMTD c) v B
  rw [CROMState.toMTD_prepareParameters] at this
  have hf : (fun t : ℝ => mtdPenalty 1 c.lags s.Gamma (s.orderWeights + t • v)
      (s.transitionMatrices + t • B)) = fun t : ℝ => mtdCost 0 1 c.lags (s.toMTD c).X
        (s.toMTD c).Gamma (s.toMTD c).S ((s.toMTD c).orderWeights + t • v)
        ((s.toMTD c).transitionMatrices + t • B) := by
    funext t
    exact (mtdCost_crom _ _ _ _).symm
  rw [hf]
  exact this

/-! ### C63: descent -/

/-- C63.  With `line_search_memory=1` and `step_size_tolerance=0`, one update of the parameters from
any stochastic parameters returns and does not increase the residual, whatever the weights. -/
theorem C63_crom_update_descends [Archimedean K] (c : CROMConfig p K) (hlag : ∀ i, 1 ≤ c.lags i)
    (h1 : 0 < c.ls.sigmaOne) (h2 : c.ls.sigmaTwo < 1) (hg0 : 0 ≤ c.ls.gamma)
    (hg1 : c.ls.gamma < 1) (ht : c.ls.stepSizeTolerance = 0) (hk : 1 ≤ k) (hp : 1 ≤ p)
    (hT : ∃ i, c.lags i ≠ T ∧ ∀ j, c.lags j ≤ c.lags i)
    (s : CROMState T k p K) (hs : CROMCoherent c s) (hW : RowStochastic s.Gamma)
    (hw : IsProb s.orderWeights) (hA : ∀ i, ColStochastic (s.transitionMatrices i))
    (hP : 0 < s.alphaParameters) (mP : ∃ m, s.fParametersMem = [m]) :
    ∃ s', s.updateParameters c = Py.ok s' ∧
      mtdPenalty 1 c.lags s'.Gamma s'.orderWeights s'.transitionMatrices ≤
        mtdPenalty 1 c.lags s.Gamma s.orderWeights s.transitionMatrices := by
  have hT' : T ≠ c.maxLag := by
    obtain ⟨i, hi, hj⟩ := hT
    have : c.maxLag = c.lags i := le_antisymm (Finset.sup_le fun j _ => hj j)
      (Finset.le_sup (Finset.mem_univ i))
    rw [this]
    exact hi.symm
  obtain ⟨m, hm⟩ := mP
  have hg := crom_good_iff.2 hs
  obtain ⟨t, ht'⟩ := MTDState.updateParameters_succeeds (c := c.toMTD) hlag hg hT' h1 h2 hg1 hk hp
    hW hw hA hP (by show s.fParametersMem ≠ []; rw [hm]; simp)
  obtain ⟨s', hs', rfl⟩ := CROMState.updateParameters_of_ok ht'
  obtain ⟨lam, hl⟩ := MTDState.updateParameters_post hg ht'
  have hmem : (s'.toMTD c).fParametersMem = [(s.toMTD c).objective c.toMTD] := by
    rw [hl.fParametersMem]
    show s.fParametersMem.tail ++ _ = _
    rw [hm]
    rfl
  have := accept_descends hmem (hl.pos h1 h2) hg0 (slope_nonpos hP
    (MTDState.slopeP_le (c := c.toMTD) hk hp hw hA) ((s.toMTD c).stepP_nonneg c.toMTD)) ht hl.accept
  have ho : (s.toMTD c).objective c.toMTD =
      mtdPenalty 1 c.lags s.Gamma s.orderWeights s.transitionMatrices := mtdCost_crom _ _ _ _
  have ho' : (s'.toMTD c).objective c.toMTD =
      mtdPenalty 1 c.lags s'.Gamma s'.orderWeights s'.transitionMatrices := mtdCost_crom _ _ _ _
  rw [ho, ho'] at this
  exact ⟨s', hs', this⟩

/-- C63.  With these settings the default fit of data with a number of samples different from the
largest lag always returns, when no draw is zero. -/
theorem C63_crom_default_fit_returns [Archimedean K] {env : Env K} (hR : env.rng.Lawful)
    (hpos : ∀ m n g i j, 0 < (env.rng.uniform m n g).1 i j)
    (obj : CROMObj env.rng p) (hp : 1 ≤ p) (hlag : ∀ i, 1 ≤ obj.lags i)
    (h1 : 0 < obj.base.ls.sigmaOne) (h2 : obj.base.ls.sigmaTwo < 1)
    (hg0 : 0 ≤ obj.base.ls.gamma) (hg1 : obj.base.ls.gamma < 1)
    (ht : obj.base.ls.stepSizeTolerance = 0)
    (ha0 : 0 < obj.base.ls.alphaMin) (ha1 : obj.base.ls.alphaMin ≤ obj.base.ls.alphaMax)
    (hmem : obj.base.ls.memory = 1)
    (hinit : obj.base.init = none ∨ obj.base.init = some "random")
    (data : Arr2 K) (hdata : data.cols * data.rows ≠ 0)
    (hT : ∃ i, obj.lags i ≠ data.rows ∧ ∀ j, obj.lags j ≤ obj.lags i)
    (hv : ValidConfig obj.base.nComponents data.cols obj.base.maxIterations
      obj.base.tolerance) (dictionary weights : Option (Arr2 K)) :
    ∃ res, cromFitTransform env obj data dictionary weights {} = Py.ok res := by
  have hT' : data.rows ≠ obj.config.maxLag := by
    obtain ⟨i, hi, hj⟩ := hT
    have : obj.config.maxLag = obj.lags i := le_antisymm (Finset.sup_le fun j _ => hj j)
      (Finset.le_sup (f := obj.lags) (Finset.mem_univ i))
    rw [this]
    exact hi.symm
  obtain ⟨⟨o, G, i⟩, ho⟩ := C21_gpnh_default_fit_returns hR hpos obj.base h1 h2 hg0 hg1 ht ha0 ha1
    hmem hinit data hdata hv dictionary weights
  have hc : obj.base.init ≠ some "custom" := by rcases hinit with h | h <;> simp [h]
  obtain ⟨W', hG, hGo, -, hW⟩ := C17_gpnh_fit_weights_stochastic_partial hR obj.base
    (LSConfig.safe_of_sigma h1 h2) data
    dictionary weights {} (fun h => absurd h hc) o G i ho
  obtain ⟨o1, i1, ho1, hres⟩ := gpnhFitTransform_eq_ok ho
  obtain ⟨q1, start, r1, hq1, hst, hr1, hoi⟩ := gpnhConvexCoding_eq_ok ho1
  obtain ⟨-, -, -, hk, hm, -⟩ := checkParams_ok hq1
  simp only [Prod.mk.injEq] at hres hoi
  obtain ⟨rfl, rfl, rfl⟩ := hres
  obtain ⟨rfl, rfl⟩ := hoi
  simp only [Option.some.injEq] at hG hGo
  subst hG
  obtain ⟨w, hw⟩ := mtdDrawOrderWeights_succeeds hpos p start.2
  obtain ⟨A, hA⟩ := mtdDrawTransitionMatrices_succeeds hpos hk p w.2
  obtain ⟨r, hr⟩ := cromSolve_succeeds (c := obj.config) hlag h1 h2 hg0 hg1 ht ha0 ha1 hmem hk hp
    (right_ne_zero_of_mul hdata) hT' (require := obj.base.require) (tol := q1.2.2) hm hW
    (mtdDrawOrderWeights_ok hR hp hw) (mtdDrawTransitionMatrices_ok hR hk hA)
  have hr' : cromSolve obj.config obj.base.require q1.2.2 q1.2.1 r1.state.Gamma w.1 A.1 =
    Py.ok r := hr
  have hf : cromFitParameters env.rng obj.config obj.base.require q1.2.2 q1.2.1 r1.state.Gamma
      start.2 = Py.ok (r, A.2) := by
    unfold cromFitParameters
    rw [hw, Py.ok_bind, hA, Py.ok_bind, hr', Py.ok_bind]
    rfl
  unfold cromFitTransform
  rw [ho, Py.ok_bind]
  simp only [hq1, Py.ok_bind]
  exact ⟨_, Py.bind_eq_ok.2 ⟨_, hf, rfl⟩⟩

/-! ### Examples -/

/-- A model of the examples. -/
def cromDemoObj : CROMObj demoEnv.rng 2 := { base := demoObj, lags := ![1, 2] }

theorem cromDemo_lags : ∀ i, 1 ≤ cromDemoObj.lags i := by
  intro i
  fin_cases i <;> decide

/-- The hypotheses of C44, C63, C64 are met by an actual fit. -/
theorem cromDemo_fit : ∃ res, cromFitTransform demoEnv cromDemoObj demoData none none {} =
    Py.ok res :=
  C63_crom_default_fit_returns demoRng_lawful demoRng_uniform_pos cromDemoObj (by norm_num)
    cromDemo_lags
    (by norm_num [cromDemoObj, demoObj, demoLS]) (by norm_num [cromDemoObj, demoObj, demoLS])
    (by norm_num [cromDemoObj, demoObj, demoLS]) (by norm_num [cromDemoObj, demoObj, demoLS]) rfl
    (by norm_num [cromDemoObj, demoObj, demoLS]) (by norm_num [cromDemoObj, demoObj, demoLS]) rfl
    (Or.inl rfl) demoData (by norm_num [demoData, Arr2.of])
    ⟨1, by show (2 : ℕ) ≠ 3; norm_num, by intro j; fin_cases j <;> decide⟩
    ⟨Or.inr ⟨2, rfl, by norm_num⟩, ⟨4, rfl, by norm_num⟩, Or.inr ⟨_, rfl, by norm_num⟩⟩ none none

example : ∃ (obj' : CROMObj demoEnv.rng 2) (w : Fin 2 → ℚ) (k : ℕ)
    (A : Fin 2 → Matrix (Fin k) (Fin k) ℚ), obj'.vars = some ⟨k, w, A⟩ ∧ IsProb w := by
  obtain ⟨⟨o, G, i⟩, h⟩ := cromDemo_fit
  obtain ⟨k, w, A, h1, -, h2, -⟩ := C44_crom_parameters_stochastic_partial demoRng_lawful cromDemoObj
    (by norm_num [SafeSteps, cromDemoObj, demoObj, demoLS]) demoData none none {} true true o G i h
  exact ⟨o, w, k, A, h1, h2⟩

/-- The hypotheses of C41 and C42 are met: the demo model can be fitted and then makes forecasts for
every horizon. -/
example (horizon : ℤ) : ∃ obj1 G info obj2 F,
    cromFitTransform demoEnv cromDemoObj demoData none none {} = Py.ok (obj1, G, info) ∧
    cromPredict demoEnv obj1 demoData horizon = Py.ok (obj2, F) := by
  obtain ⟨⟨o, G, i⟩, h⟩ := cromDemo_fit
  obtain ⟨k, mi, tol, o1, i1, W, S, w0, A0, g1, g2, r, hk, hT, hD, hm, ho, hG, hS, hd, hls, -, hinit,
    hn, hmi, htol, hw, hA, hr, hres⟩ := cromFitTransform_eq_ok h
  simp only [Prod.mk.injEq] at hres
  obtain ⟨rfl, rfl, rfl⟩ := hres
  obtain ⟨⟨o2, G2, i2⟩, h2⟩ := C21_gpnh_transform_returns demoRng_lawful demoRng_uniform_pos
    { o1 with randomState := g2 }
    (by show 0 < o1.ls.sigmaOne; rw [hls]; norm_num [cromDemoObj, demoObj, demoLS])
    (by show o1.ls.sigmaTwo < 1; rw [hls]; norm_num [cromDemoObj, demoObj, demoLS])
    (by show 0 ≤ o1.ls.gamma; rw [hls]; norm_num [cromDemoObj, demoObj, demoLS])
    (by show o1.ls.gamma < 1; rw [hls]; norm_num [cromDemoObj, demoObj, demoLS])
    (by show o1.ls.stepSizeTolerance = 0; rw [hls]; rfl)
    (by show 0 < o1.ls.alphaMin; rw [hls]; norm_num [cromDemoObj, demoObj, demoLS])
    (by show o1.ls.alphaMin ≤ o1.ls.alphaMax; rw [hls]; norm_num [cromDemoObj, demoObj, demoLS])
    (by show o1.ls.memory = 1; rw [hls]; rfl)
    (Or.inl (by show o1.init = none; rw [hinit]; rfl)) demoData (by norm_num [demoData, Arr2.of])
    (by
      show ValidParams o1.nComponents o1.maxIterations o1.tolerance
      rw [hn, hmi, htol]
      exact ⟨⟨k, rfl, by exact_mod_cast hk⟩, ⟨4, rfl, by norm_num⟩, Or.inr ⟨_, rfl, by norm_num⟩⟩)
    hn S hS
  have hct : cromTransform demoEnv ⟨{ o1 with randomState := g2 }, cromDemoObj.lags,
      some ⟨k, r.state.orderWeights, r.state.transitionMatrices⟩⟩ demoData =
      Py.ok (⟨o2, cromDemoObj.lags,
        some ⟨k, r.state.orderWeights, r.state.transitionMatrices⟩⟩, G2, i2) := by
    unfold cromTransform
    rw [h2]
    rfl
  obtain ⟨k', W', S', rfl, e1, e2⟩ := cromTransform_shape hct
  have e3 : some (Arr2.of S) = some (Arr2.of S') := hS.symm.trans e1
  simp only [Option.some.injEq, Arr2.of, Arr2.mk.injEq] at e3
  obtain ⟨rfl, -, e3⟩ := e3
  cases eq_of_heq e3
  have key : ∃ x, cromPredict demoEnv ⟨{ o1 with randomState := g2 }, cromDemoObj.lags,
      some ⟨k, r.state.orderWeights, r.state.transitionMatrices⟩⟩ demoData horizon = Py.ok x := by
    unfold cromPredict
    rw [hct, Py.ok_bind]
    have e2 : o2.S = some (Arr2.of S) := e2
    unfold cromForecast cromInverseTransform
    simp only [e2]
    rw [if_neg (by simp), dif_pos (show (Arr2.of W').cols = k from rfl),
      dif_pos (show (Arr2.of S).rows = k from rfl)]
    exact ⟨_, rfl⟩
  obtain ⟨⟨a, b⟩, hab⟩ := key
  exact ⟨_, _, _, a, b, h, hab⟩

/-- Settings of the examples. -/
def cromDemoConfig : CROMConfig 2 ℚ := ⟨![1, 2], { demoLS with stepSizeTolerance := 0 }⟩

/-- A state of the examples: three samples, two components. -/
def cromDemoState : CROMState 3 2 2 ℚ :=
  CROMState.initializeWorkspace cromDemoConfig !![1/2, 1/2; 1/4, 3/4; 1, 0]
    ![1/3, 2/3] ![!![1, 0; 0, 1], !![1/2, 1; 1/2, 0]]

theorem cromDemo_coherent : CROMCoherent cromDemoConfig cromDemoState :=
  crom_good_iff.1 ⟨rfl, rfl⟩

theorem cromDemo_weights : RowStochastic cromDemoState.Gamma := by
  intro i
  refine ⟨fun j => ?_, ?_⟩
  · fin_cases i <;> fin_cases j <;> simp [cromDemoState, CROMState.initializeWorkspace,
      CROMState.updatePredictedWeights] <;> norm_num
  · fin_cases i <;> simp [Fin.sum_univ_two, cromDemoState, CROMState.initializeWorkspace,
      CROMState.updatePredictedWeights] <;> norm_num

theorem cromDemo_ow : IsProb cromDemoState.orderWeights := by
  refine ⟨fun j => ?_, ?_⟩
  · fin_cases j <;> simp [cromDemoState, CROMState.initializeWorkspace,
      CROMState.updatePredictedWeights] <;> norm_num
  · simp [Fin.sum_univ_two, cromDemoState, CROMState.initializeWorkspace,
      CROMState.updatePredictedWeights] <;> norm_num

theorem cromDemo_tm (i : Fin 2) : ColStochastic (cromDemoState.transitionMatrices i) := by
  intro j
  refine ⟨fun l => ?_, ?_⟩
  · fin_cases i <;> fin_cases j <;> fin_cases l <;> simp [cromDemoState,
      CROMState.initializeWorkspace, CROMState.updatePredictedWeights]
  · fin_cases i <;> fin_cases j <;> simp [Fin.sum_univ_two, cromDemoState,
      CROMState.initializeWorkspace, CROMState.updatePredictedWeights] <;> norm_num

/-- The residual of the example: only the last sample is predicted. -/
example : cromDemoState.evaluateFitResidual cromDemoConfig = 25 / 144 := by
  rw [C44_crom_residual _ _ cromDemo_coherent]
  have h : mtdSamples ![1, 2] 3 = 1 := by decide
  simp [mtdPenalty, cromDemoState, CROMState.initializeWorkspace, CROMState.updatePredictedWeights,
    cromDemoConfig, mtdStep, Fin.sum_univ_two, Fin.sum_univ_three, rowSeq, sqDist, h]
  norm_num

/-- C63, and with it C10, at work: the update of the example descends. -/
example : ∃ s', cromDemoState.updateParameters cromDemoConfig = Py.ok s' ∧
    mtdPenalty 1 cromDemoConfig.lags s'.Gamma s'.orderWeights s'.transitionMatrices ≤
      mtdPenalty 1 cromDemoConfig.lags cromDemoState.Gamma cromDemoState.orderWeights
        cromDemoState.transitionMatrices :=
  C63_crom_update_descends cromDemoConfig cromDemo_lags
    (by norm_num [cromDemoConfig, demoLS]) (by norm_num [cromDemoConfig, demoLS])
    (by norm_num [cromDemoConfig, demoLS]) (by norm_num [cromDemoConfig, demoLS]) rfl (by norm_num)
    (by norm_num) ⟨1, by show (2 : ℕ) ≠ 3; norm_num, by intro j; fin_cases j <;> decide⟩ _
    cromDemo_coherent cromDemo_weights cromDemo_ow cromDemo_tm
    (by norm_num [cromDemoState, CROMState.initializeWorkspace, CROMState.updatePredictedWeights])
    ⟨0, rfl⟩

/-- The hypotheses of C09 are met. -/
example : ∃ s', cromDemoState.updateParameters ⟨![1, 2], demoLS⟩ = Py.ok s' := by
  rcases C09_crom ⟨![1, 2], demoLS⟩ (by norm_num [demoLS]) 219 (by norm_num [demoLS]) cromDemoState
    (by simp [cromDemoState, CROMState.initializeWorkspace, CROMState.updatePredictedWeights,
      cromDemoConfig, demoLS]) with h | h
  · exact h.2
  · exact absurd h.1 (by show (3 : ℕ) ≠ Finset.univ.sup ![1, 2]; decide)

/-- The hypotheses of C62 are met. -/
example (v : Fin 2 → ℝ) (B : Fin 2 → Matrix (Fin 2) (Fin 2) ℝ) (c : CROMConfig 2 ℝ)
    (hc : c.lags = ![1, 2]) (s : CROMState 3 2 2 ℝ) :
    HasDerivAt (fun t : ℝ => mtdPenalty 1 c.lags s.Gamma (s.orderWeights + t • v)
        (s.transitionMatrices + t • B))
      ((∑ i, v i * (s.prepareParameters c).gradOrderWeights i) +
        ∑ i, inner (B i) ((s.prepareParameters c).gradTransitionMatrices i)) 0 :=
  C62_crom_parameters_gradient c (by norm_num)
    (by intro i; rw [hc]; fin_cases i <;> decide) s v B

/-- The case of C24 with a zero lag. -/
example : ¬ ∃ res, cromFitTransform demoEnv { base := demoObj, lags := ![0] } demoData none none {} =
    Py.ok res :=
  C24_crom_bad_lags _ demoData none none {} true true
    (Or.inr ⟨⟨0, rfl⟩, by intro i; fin_cases i; decide⟩)

end Reor
