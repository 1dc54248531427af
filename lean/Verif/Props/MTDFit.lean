import Verif.Props.MTD

/-!
Properties C38, C43, C61 for `MTDConvexCoding`: complete fits and transforms.
-/

namespace Reor

set_option linter.unusedSectionVars false

open scoped BigOperators Matrix
open Spec

variable {K : Type} [Field K] [LinearOrder K] [IsStrictOrderedRing K]
variable {T D k p : ℕ}

/-! ### C38: stochastic weights and parameters -/

/-- C38, one update; missing: settings with which the step can leave `[0, 1]`
(`C38_mtd_weights_fail`). -/
theorem C38_mtd_update_stochastic_partial (c : MTDConfig p K)
    (h1 : SafeSteps c.ls.gamma c.ls.alphaMax c.ls.sigmaOne c.ls.sigmaTwo) (hk : 1 ≤ k) (hp : 1 ≤ p)
    (s s' : MTDState T D k p K) (hs : MTDCoherent c s)
    (ha : 0 ≤ c.ls.alphaMax → 0 ≤ s.alphaGamma ∧ 0 ≤ s.alphaParameters) (hW : RowStochastic s.Gamma) (hw : IsProb s.orderWeights)
    (hA : ∀ i, ColStochastic (s.transitionMatrices i))
    (hu : s.updateDictionary c = Py.ok s' ∨ s.updateWeights c = Py.ok s' ∨
      s.updateParameters c = Py.ok s') :
    RowStochastic s'.Gamma ∧ IsProb s'.orderWeights ∧
      ∀ i, ColStochastic (s'.transitionMatrices i) := by
  have hg := mtdCoherent_iff.1 hs
  rcases hu with hu | hu | hu
  · obtain ⟨_, hl⟩ := MTDState.updateDictionary_post hg hu
    rw [hl.Gamma, hl.orderWeights, hl.transitionMatrices]
    exact ⟨hW, hw, hA⟩
  · obtain ⟨_, hl⟩ := MTDState.updateWeights_post hg hu
    rw [hl.orderWeights, hl.transitionMatrices]
    exact ⟨hl.stochastic h1 hk (fun h => (ha h).1) hW, hw, hA⟩
  · obtain ⟨_, hl⟩ := MTDState.updateParameters_post hg hu
    rw [hl.Gamma]
    have := hl.stochastic h1 hk hp (fun h => (ha h).2) ⟨hw, hA⟩
    exact ⟨hW, this.1, this.2⟩

/-- The arrays supplied by the caller that a fit uses are stochastic (the code checks only that they
add up to one). -/
structure SuppliedStochastic (init : Option String) (args : MTDArgs K) (fl : MTDFlags) : Prop where
  weights : (init = some "custom" ∨ fl.updateWeights = false) →
    ∀ W, args.weights = some W → RowStochastic W.val
  orderWeights : (init = some "custom" ∨ fl.updateParameters = false) →
    ∀ w, args.orderWeights = some w → IsProb w.val
  transitionMatrices : (init = some "custom" ∨ fl.updateParameters = false) →
    ∀ A, args.transitionMatrices = some A → ∀ i, ColStochastic (A.val i)

theorem mtdStart_stochastic {env : Env K} (hR : env.rng.Lawful) (hk : 1 ≤ k) (hp : 1 ≤ p)
    {data : Matrix (Fin T) (Fin D) K} {init : Option String} {args : MTDArgs K} {fl : MTDFlags}
    {kw : InitKwargs} {g : env.rng.G} {start : MTDPoint T D k p K × env.rng.G}
    (hsup : SuppliedStochastic init args fl)
    (h : mtdStart env data k p init args fl kw g = Py.ok start) :
    RowStochastic start.1.2.1 ∧ IsProb start.1.2.2.1 ∧ ∀ i, ColStochastic (start.1.2.2.2 i) := by
  have hW : RowStochastic start.1.2.1 := by
    by_cases hc : init = some "custom" ∨ fl.updateWeights = false
    · exact hsup.weights hc _ (mtdStart_weights h hc)
    · push Not at hc
      exact mtdStart_weights_drawn hR hk hc.1 (by simpa using hc.2) h
  refine ⟨hW, ?_⟩
  by_cases hc : init = some "custom" ∨ fl.updateParameters = false
  · obtain ⟨a, b⟩ := mtdStart_parameters h hc
    exact ⟨hsup.orderWeights hc _ a, hsup.transitionMatrices hc _ b⟩
  · push Not at hc
    exact mtdStart_parameters_drawn hR hk hp hc.1 (by simpa using hc.2) h

/-- C38, fit; missing: settings with which the step can leave `[0, 1]` (`C38_mtd_weights_fail`) and
supplied arrays with negative entries, which the code accepts.  After `fit_transform` the weights,
order weights and transition matrices held by the object are stochastic. -/
theorem C38_mtd_fit_stochastic_partial {env : Env K} (hR : env.rng.Lawful)
    (obj : MTDObj env.rng p) (h1 : SafeSteps obj.ls.gamma obj.ls.alphaMax obj.ls.sigmaOne
      obj.ls.sigmaTwo)
    (data : Arr2 K) (args : MTDArgs K) (fl : MTDFlags) (kw : InitKwargs)
    (hsup : SuppliedStochastic obj.init args fl)
    (obj' : MTDObj env.rng p) (G : Option (Arr2 K)) (info : FitInfo K)
    (h : mtdFitTransform env obj data args fl kw = Py.ok (obj', G, info)) :
    ∃ (k : ℕ) (W : Matrix (Fin data.rows) (Fin k) K) (S : Matrix (Fin k) (Fin data.cols) K)
      (w : Fin p → K) (A : Fin p → Matrix (Fin k) (Fin k) K),
      G = some (Arr2.of W) ∧ obj'.vars = some ⟨data.rows, data.cols, k, W, S, w, A⟩ ∧
      obj'.dictionary_ = some (Arr2.of S) ∧
      RowStochastic W ∧ IsProb w ∧ ∀ i, ColStochastic (A i) := by
  obtain ⟨o, i, ho, hres⟩ := mtdFitTransform_eq_ok h
  obtain ⟨k, W, S, w, A, start, hk, hp, hv, hst, -, -, hsto, -, -, -⟩ := mtdConvexCoding_facts ho
  simp only [Prod.mk.injEq] at hres
  obtain ⟨rfl, rfl, rfl⟩ := hres
  obtain ⟨a, b⟩ := hsto h1
  obtain ⟨s1, s2, s3⟩ := mtdStart_stochastic hR hk hp hsup hst
  obtain ⟨b1, b2⟩ := b ⟨s2, s3⟩
  exact ⟨k, W, S, w, A, by rw [hv]; rfl, hv, by simp only [hv]; rfl, a s1, b1, b2⟩

/-- What `transform` does to the object: only the weights change. -/
theorem mtdTransform_facts {env : Env K} {obj obj' : MTDObj env.rng p} {data : Arr2 K}
    {G : Option (Arr2 K)} {info : FitInfo K}
    (h : mtdTransform env obj data = Py.ok (obj', G, info)) :
    ∃ (T0 k : ℕ) (W0 : Matrix (Fin T0) (Fin k) K) (W : Matrix (Fin data.rows) (Fin k) K)
      (S : Matrix (Fin k) (Fin data.cols) K) (w : Fin p → K)
      (A : Fin p → Matrix (Fin k) (Fin k) K),
      1 ≤ k ∧ 1 ≤ p ∧
      obj.vars = some ⟨T0, data.cols, k, W0, S, w, A⟩ ∧
      obj'.vars = some ⟨data.rows, data.cols, k, W, S, w, A⟩ ∧
      G = some (Arr2.of W) ∧
      (env.rng.Lawful → obj.ls.Safe → RowStochastic W) := by
  obtain ⟨o, i, ho, hres⟩ := mtdTransform_eq_ok h
  obtain ⟨k, W, S, w, A, start, hk, hp, hv, hst, -, -, hsto, hS, -, hP⟩ := mtdConvexCoding_facts ho
  simp only [Prod.mk.injEq] at hres
  obtain ⟨rfl, rfl, rfl⟩ := hres
  have hS := hS rfl
  obtain ⟨rfl, rfl⟩ := hP rfl
  subst hS
  have e1 := mtdStart_dictionary hst (Or.inr rfl)
  obtain ⟨e2, e3⟩ := mtdStart_parameters hst (Or.inr rfl)
  have hc : obj.init ≠ some "custom" := by
    intro hc
    have := mtdStart_weights hst (Or.inl hc)
    unfold MTDObj.transformArgs at this
    split at this <;> simp at this
  have hW : env.rng.Lawful → RowStochastic start.1.2.1 :=
    fun hR => mtdStart_weights_drawn hR hk hc rfl hst
  unfold MTDObj.transformArgs at e1 e2 e3
  cases hvars : obj.vars with
  | none => rw [hvars] at e1; simp at e1
  | some v =>
    rw [hvars] at e1 e2 e3
    obtain ⟨T0, D0, k0, W0, S0, w0, A0⟩ := v
    simp only [MTDVars.SArr, Arr2.of, Arr1.of, Arr3.of, Option.some.injEq, Arr2.mk.injEq,
      Arr1.mk.injEq, Arr3.mk.injEq, true_and] at e1 e2 e3
    obtain ⟨rfl, rfl, e1⟩ := e1
    cases eq_of_heq e1
    cases eq_of_heq e2
    cases eq_of_heq e3.2.2
    exact ⟨T0, _, W0, W, _, _, _, hk, hp, rfl, hv, by rw [hv]; rfl,
      fun hR h1 => (hsto h1).1 (hW hR)⟩

/-- C38, transform; missing: the same settings.  The weights returned by `transform` are stochastic;
dictionary, order weights and transition matrices are those of the model. -/
theorem C38_mtd_transform_stochastic_partial {env : Env K} (hR : env.rng.Lawful)
    (obj : MTDObj env.rng p) (h1 : SafeSteps obj.ls.gamma obj.ls.alphaMax obj.ls.sigmaOne
      obj.ls.sigmaTwo)
    (data : Arr2 K) (obj' : MTDObj env.rng p) (G : Option (Arr2 K)) (info : FitInfo K)
    (h : mtdTransform env obj data = Py.ok (obj', G, info)) :
    ∃ (T0 k : ℕ) (W0 : Matrix (Fin T0) (Fin k) K) (W : Matrix (Fin data.rows) (Fin k) K)
      (S : Matrix (Fin k) (Fin data.cols) K) (w : Fin p → K)
      (A : Fin p → Matrix (Fin k) (Fin k) K),
      obj.vars = some ⟨T0, data.cols, k, W0, S, w, A⟩ ∧
      obj'.vars = some ⟨data.rows, data.cols, k, W, S, w, A⟩ ∧
      G = some (Arr2.of W) ∧ RowStochastic W := by
  obtain ⟨T0, k, W0, W, S, w, A, -, -, e1, e2, e3, hW⟩ := mtdTransform_facts h
  exact ⟨T0, k, W0, W, S, w, A, e1, e2, e3, hW hR h1⟩

/-- C23.  `transform` of an MTD model leaves dictionary, order weights and transition matrices as they
were; only the weights (and their number of rows) change. -/
theorem C23_mtd_transform_keeps_model {env : Env K} (obj : MTDObj env.rng p) (data : Arr2 K)
    (obj' : MTDObj env.rng p) (G : Option (Arr2 K)) (info : FitInfo K)
    (h : mtdTransform env obj data = Py.ok (obj', G, info)) :
    (∃ (T0 k : ℕ) (W0 : Matrix (Fin T0) (Fin k) K) (W : Matrix (Fin data.rows) (Fin k) K)
      (S : Matrix (Fin k) (Fin data.cols) K) (w : Fin p → K)
      (A : Fin p → Matrix (Fin k) (Fin k) K),
      obj.vars = some ⟨T0, data.cols, k, W0, S, w, A⟩ ∧
      obj'.vars = some ⟨data.rows, data.cols, k, W, S, w, A⟩) ∧
    obj'.dictionary_ = obj.dictionary_ ∧ obj'.cost_ = obj.cost_ ∧ obj'.nIter_ = obj.nIter_ := by
  refine ⟨?_, ?_⟩
  · obtain ⟨T0, k, W0, W, S, w, A, -, -, e1, e2, -⟩ := mtdTransform_facts h
    exact ⟨T0, k, W0, W, S, w, A, e1, e2⟩
  · obtain ⟨o, i, ho, hres⟩ := mtdTransform_eq_ok h
    obtain ⟨q, st, r, hq, -, -, hoi⟩ := mtdConvexCoding_eq_ok ho
    simp only [Prod.mk.injEq] at hres hoi
    obtain ⟨rfl, rfl, rfl⟩ := hres
    obtain ⟨rfl, rfl⟩ := hoi
    exact ⟨rfl, rfl, rfl⟩

/-! ### C43: the reported cost -/

/-- C43.  After a fit, `cost_` is the documented objective at the arrays held by the object. -/
theorem C43_mtd_cost {env : Env K} (obj : MTDObj env.rng p) (data : Arr2 K) (args : MTDArgs K)
    (fl : MTDFlags) (kw : InitKwargs) (obj' : MTDObj env.rng p) (G : Option (Arr2 K))
    (info : FitInfo K) (h : mtdFitTransform env obj data args fl kw = Py.ok (obj', G, info)) :
    ∃ (k : ℕ) (W : Matrix (Fin data.rows) (Fin k) K) (S : Matrix (Fin k) (Fin data.cols) K)
      (w : Fin p → K) (A : Fin p → Matrix (Fin k) (Fin k) K),
      G = some (Arr2.of W) ∧ obj'.vars = some ⟨data.rows, data.cols, k, W, S, w, A⟩ ∧
      obj'.dictionary_ = some (Arr2.of S) ∧ obj'.nComponents_ = some k ∧
      obj'.nIter_ = some info.nIter ∧
      obj'.cost_ = some (mtdCost obj.epsilonStates obj.epsilonWeights obj.lags data.val W S w A) := by
  obtain ⟨o, i, ho, hres⟩ := mtdFitTransform_eq_ok h
  obtain ⟨k, W, S, w, A, start, hk, hp, hv, hst, hc, -⟩ := mtdConvexCoding_facts ho
  simp only [Prod.mk.injEq] at hres
  obtain ⟨rfl, rfl, rfl⟩ := hres
  exact ⟨k, W, S, w, A, by rw [hv]; rfl, hv, by simp only [hv]; rfl, by simp only [hv]; rfl, rfl,
    by rw [hc]⟩

/-- C43.  With monotonicity required, the costs of the successive iterations never increase, starting
from the cost of the starting point, which `cost_` does not exceed. -/
theorem C43_mtd_monotone {env : Env K} (obj : MTDObj env.rng p) (hreq : obj.require = true)
    (data : Arr2 K) (args : MTDArgs K) (fl : MTDFlags) (kw : InitKwargs)
    (obj' : MTDObj env.rng p) (G : Option (Arr2 K)) (info : FitInfo K)
    (h : mtdFitTransform env obj data args fl kw = Py.ok (obj', G, info)) :
    ∃ (k : ℕ) (g' : env.rng.G) (S0 : Matrix (Fin k) (Fin data.cols) K)
      (W0 : Matrix (Fin data.rows) (Fin k) K) (w0 : Fin p → K)
      (A0 : Fin p → Matrix (Fin k) (Fin k) K) (cost : K),
      mtdStart env data.val k p obj.init args fl kw obj.randomState =
        Py.ok ((S0, W0, w0, A0), g') ∧
      (mtdCost obj.epsilonStates obj.epsilonWeights obj.lags data.val W0 S0 w0 A0 ::
        info.trace).IsChain (· ≥ ·) ∧
      info.trace.length = info.nIter + 1 ∧ obj'.cost_ = some cost ∧
      cost ≤ mtdCost obj.epsilonStates obj.epsilonWeights obj.lags data.val W0 S0 w0 A0 := by
  obtain ⟨o, i, ho, hres⟩ := mtdFitTransform_eq_ok h
  obtain ⟨q, start, r, hq, hst, hr, hoi⟩ := mtdConvexCoding_eq_ok ho
  simp only [Prod.mk.injEq] at hres hoi
  obtain ⟨rfl, rfl, rfl⟩ := hres
  obtain ⟨rfl, rfl⟩ := hoi
  rw [hreq] at hr
  obtain ⟨a, b⟩ := mtdSolve_monotone hr
  exact ⟨q.1, start.2, start.1.1, start.1.2.1, start.1.2.2.1, start.1.2.2.2, r.cost, hst, a,
    iterate_trace_length (mtdSolve_eq_ok.1 hr).2, rfl, b⟩

/-- C43 for a custom start: `cost_` is at most the cost of the arrays supplied by the caller. -/
theorem C43_mtd_custom_never_worse {env : Env K} (obj : MTDObj env.rng p)
    (hreq : obj.require = true) (hinit : obj.init = some "custom")
    (data : Arr2 K) (S0 : Matrix (Fin k) (Fin data.cols) K) (W0 : Matrix (Fin data.rows) (Fin k) K)
    (w0 : Fin p → K) (A0 : Fin p → Matrix (Fin k) (Fin k) K)
    (fl : MTDFlags) (kw : InitKwargs) (obj' : MTDObj env.rng p) (G : Option (Arr2 K))
    (info : FitInfo K)
    (h : mtdFitTransform env obj data
      ⟨some (Arr2.of S0), some (Arr2.of W0), some (Arr1.of w0), some (Arr3.of A0)⟩ fl kw =
      Py.ok (obj', G, info)) :
    ∃ cost, obj'.cost_ = some cost ∧
      cost ≤ mtdCost obj.epsilonStates obj.epsilonWeights obj.lags data.val W0 S0 w0 A0 := by
  obtain ⟨k', g', S0', W0', w0', A0', cost, hst, -, -, hc, hle⟩ :=
    C43_mtd_monotone obj hreq data _ fl kw obj' G info h
  rw [hinit] at hst
  obtain ⟨e1, e2, e3, e4, -⟩ := mtdStart_custom hst
  simp only [Option.some.injEq, Arr2.of, Arr2.mk.injEq, Arr1.of, Arr1.mk.injEq, Arr3.of,
    Arr3.mk.injEq, true_and] at e1 e2 e3 e4
  obtain ⟨rfl, e1⟩ := e1
  cases eq_of_heq e1
  cases eq_of_heq e2.2
  cases eq_of_heq e3
  cases eq_of_heq e4.2.2
  exact ⟨cost, hc, hle⟩

/-! ### C61: descent -/

/-- C61, one update.  With memory 1 and without step floor, each of the three updates terminates and
does not increase the objective. -/
theorem C61_mtd_update_descends [Archimedean K] (c : MTDConfig p K) (hlag : ∀ i, 1 ≤ c.lags i)
    (h1 : 0 < c.ls.sigmaOne) (h2 : c.ls.sigmaTwo < 1) (hg0 : 0 ≤ c.ls.gamma)
    (hg1 : c.ls.gamma < 1) (ht : c.ls.stepSizeTolerance = 0) (ha0 : 0 < c.ls.alphaMin)
    (ha1 : c.ls.alphaMin ≤ c.ls.alphaMax) (hk : 1 ≤ k) (hp : 1 ≤ p)
    (hT : ∃ i, c.lags i ≠ T ∧ ∀ j, c.lags j ≤ c.lags i)
    (s : MTDState T D k p K) (hs : MTDCoherent c s) (hW : RowStochastic s.Gamma)
    (hw : IsProb s.orderWeights) (hA : ∀ i, ColStochastic (s.transitionMatrices i))
    (hS : 0 < s.alphaS) (hG : 0 < s.alphaGamma) (hP : 0 < s.alphaParameters)
    (mS : ∃ m, s.fSMem = [m]) (mG : ∃ m, s.fGammaMem = [m]) (mP : ∃ m, s.fParametersMem = [m]) :
    (∃ s', s.updateDictionary c = Py.ok s' ∧ s'.objective c ≤ s.objective c) ∧
    (∃ s', s.updateWeights c = Py.ok s' ∧ s'.objective c ≤ s.objective c) ∧
    (∃ s', s.updateParameters c = Py.ok s' ∧ s'.objective c ≤ s.objective c) := by
  have hT' : T ≠ c.maxLag := by
    obtain ⟨i, hi, hj⟩ := hT
    have : c.maxLag = c.lags i := le_antisymm (Finset.sup_le fun j _ => hj j)
      (Finset.le_sup (Finset.mem_univ i))
    rw [this]
    exact hi.symm
  have key := mtd_ready_phases (T := T) (D := D) hlag h1 h2 hg0 hg1 ht ha0 ha1 hk hp (fl := {})
    (fun _ => hT')
  have hr : s.Ready c := ⟨mtdCoherent_iff.1 hs, hW, hw, hA, hS, hG, hP, mS, mG, mP⟩
  have e := MTDState.evaluateCost_eq hr.good
  refine ⟨?_, ?_, ?_⟩
  · obtain ⟨s', h, hr', hle⟩ := key (MTDState.updateDictionary c) (by simp [mtdPhases]) s hr
    exact ⟨s', h, by rwa [e, MTDState.evaluateCost_eq hr'.good] at hle⟩
  · obtain ⟨s', h, hr', hle⟩ := key (MTDState.updateWeights c) (by simp [mtdPhases]) s hr
    exact ⟨s', h, by rwa [e, MTDState.evaluateCost_eq hr'.good] at hle⟩
  · obtain ⟨s', h, hr', hle⟩ := key (MTDState.updateParameters c) (by simp [mtdPhases]) s hr
    exact ⟨s', h, by rwa [e, MTDState.evaluateCost_eq hr'.good] at hle⟩

/-- C61.  With `line_search_memory=1` and `step_size_tolerance=0`, a fit or transform of data with a
number of samples different from the largest lag never reports 'factorization cost increased' and
never runs forever: it returns, or raises one of the exceptions of the initialisation, or
ZeroDivisionError for empty data. -/
theorem C61_mtd_fit_never_reports_increase [Archimedean K] {env : Env K} (hR : env.rng.Lawful)
    (obj : MTDObj env.rng p) (hlag : ∀ i, 1 ≤ obj.lags i)
    (h1 : 0 < obj.ls.sigmaOne) (h2 : obj.ls.sigmaTwo < 1)
    (hg0 : 0 ≤ obj.ls.gamma) (hg1 : obj.ls.gamma < 1) (ht : obj.ls.stepSizeTolerance = 0)
    (ha0 : 0 < obj.ls.alphaMin) (ha1 : obj.ls.alphaMin ≤ obj.ls.alphaMax)
    (hmem : obj.ls.memory = 1) (data : Arr2 K) (hT : data.rows ≠ Finset.univ.sup obj.lags)
    (args : MTDArgs K) (fl : MTDFlags) (kw : InitKwargs)
    (hsup : SuppliedStochastic obj.init args fl) :
    (∃ res, mtdFitTransform env obj data args fl kw = Py.ok res) ∨
    ∃ e, mtdFitTransform env obj data args fl kw = Py.raise e ∧
      (e = .valueError ∨ e = .indexError ∨ e = .typeError ∨ e = .attributeError ∨ e = .nonFinite ∨
        e = .zeroDivisionError) := by
  have key : (∃ res, mtdConvexCoding env obj data args fl kw = Py.ok res) ∨
      ∃ e, mtdConvexCoding env obj data args fl kw = Py.raise e ∧
        (e = .valueError ∨ e = .indexError ∨ e = .typeError ∨ e = .attributeError ∨
          e = .nonFinite ∨ e = .zeroDivisionError) := by
    by_cases hv : ValidParams (defaultComponents obj.nComponents data.cols) obj.maxIterations
        obj.tolerance
    swap
    · right
      refine ⟨.valueError, ?_, Or.inl rfl⟩
      unfold mtdConvexCoding
      simp only [checkParams_invalid hv, Py.raise_bind]
    obtain ⟨q, hq, -, -, hk, hm, -, -⟩ := checkParams_valid hv
    cases hst : mtdStart env data.val q.1 p obj.init args fl kw obj.randomState with
    | diverge => exact absurd hst mtdStart_ne_diverge
    | raise e =>
      right
      refine ⟨e, ?_, ?_⟩
      · unfold mtdConvexCoding
        simp only [hq, Py.ok_bind, hst, Py.raise_bind]
      · rcases mtdStart_raise hst with ((h | h | h) | h) | h <;> simp [h]
    | ok start =>
      by_cases hp : p = 0
      · right
        refine ⟨.valueError, ?_, Or.inl rfl⟩
        unfold mtdConvexCoding mtdSolve
        simp only [hq, Py.ok_bind, hst, if_pos hp, Py.raise_bind]
      by_cases hDT : data.cols * data.rows = 0
      · right
        refine ⟨.zeroDivisionError, ?_, by simp⟩
        unfold mtdConvexCoding mtdSolve mtdIterate
        simp only [hq, Py.ok_bind, hst, if_neg hp, if_pos hDT, Py.raise_bind]
      left
      obtain ⟨s1, s2, s3⟩ := mtdStart_stochastic hR hk (Nat.one_le_iff_ne_zero.2 hp) hsup hst
      obtain ⟨r, hr⟩ := mtdSolve_succeeds (c := obj.config) hlag h1 h2 hg0 hg1 ht ha0 ha1 hmem hk
        (Nat.one_le_iff_ne_zero.2 hp) (fl := fl) hDT hT (require := obj.require) (tol := q.2.2) hm
        (X := data.val) s1 s2 s3
      exact ⟨_, mtdConvexCoding_of_steps hq hst hr⟩
  unfold mtdFitTransform
  rcases key with ⟨res, h⟩ | ⟨e, h, he⟩
  · left
    rw [h]
    exact ⟨_, rfl⟩
  · right
    exact ⟨e, by rw [h]; rfl, he⟩

/-- C61.  In particular the default fit of non-empty data always returns, when no draw is zero. -/
theorem C61_mtd_default_fit_returns [Archimedean K] {env : Env K} (hR : env.rng.Lawful)
    (hpos : ∀ m n g i j, 0 < (env.rng.uniform m n g).1 i j)
    (obj : MTDObj env.rng p) (hp : 1 ≤ p) (hlag : ∀ i, 1 ≤ obj.lags i)
    (h1 : 0 < obj.ls.sigmaOne) (h2 : obj.ls.sigmaTwo < 1)
    (hg0 : 0 ≤ obj.ls.gamma) (hg1 : obj.ls.gamma < 1) (ht : obj.ls.stepSizeTolerance = 0)
    (ha0 : 0 < obj.ls.alphaMin) (ha1 : obj.ls.alphaMin ≤ obj.ls.alphaMax)
    (hmem : obj.ls.memory = 1) (hinit : obj.init = none ∨ obj.init = some "random")
    (data : Arr2 K) (hdata : data.cols * data.rows ≠ 0)
    (hT : data.rows ≠ Finset.univ.sup obj.lags)
    (hv : ValidConfig obj.nComponents data.cols obj.maxIterations
      obj.tolerance) (args : MTDArgs K) :
    ∃ res, mtdFitTransform env obj data args {} {} = Py.ok res := by
  rw [validConfig_iff] at hv
  obtain ⟨q, hq, -, -, hk, hm, -, -⟩ := checkParams_valid hv
  obtain ⟨start, hst⟩ := mtdStart_random_ok hpos (data := data.val) hdata hk p hinit
    (args := args) (g := obj.randomState)
  have hc : obj.init ≠ some "custom" := by rcases hinit with h | h <;> simp [h]
  obtain ⟨s1, s2, s3⟩ := mtdStart_stochastic hR hk hp
    ⟨fun h => by simp [hc] at h, fun h => by simp [hc] at h, fun h => by simp [hc] at h⟩ hst
  obtain ⟨r, hr⟩ := mtdSolve_succeeds (c := obj.config) hlag h1 h2 hg0 hg1 ht ha0 ha1 hmem hk
    hp (fl := {}) hdata hT (require := obj.require) (tol := q.2.2) hm
    (X := data.val) s1 s2 s3
  unfold mtdFitTransform
  rw [mtdConvexCoding_of_steps hq hst hr]
  exact ⟨_, rfl⟩

/-- C61, transform.  With the same settings `transform` of a fitted model returns, for every dataset
with the fitted number of features. -/
theorem C61_mtd_transform_returns [Archimedean K] {env : Env K} (hR : env.rng.Lawful)
    (hpos : ∀ m n g i j, 0 < (env.rng.uniform m n g).1 i j)
    (obj : MTDObj env.rng p) (hp : 1 ≤ p) (hlag : ∀ i, 1 ≤ obj.lags i)
    (h1 : 0 < obj.ls.sigmaOne) (h2 : obj.ls.sigmaTwo < 1)
    (hg0 : 0 ≤ obj.ls.gamma) (hg1 : obj.ls.gamma < 1) (ht : obj.ls.stepSizeTolerance = 0)
    (ha0 : 0 < obj.ls.alphaMin) (ha1 : obj.ls.alphaMin ≤ obj.ls.alphaMax)
    (hmem : obj.ls.memory = 1) (hinit : obj.init = none ∨ obj.init = some "random")
    (data : Arr2 K) (hdata : data.cols * data.rows ≠ 0)
    (hT : data.rows ≠ Finset.univ.sup obj.lags)
    (hv : ValidParams obj.nComponents obj.maxIterations obj.tolerance)
    (hc : obj.nComponents = .int k) (T0 : ℕ) (W0 : Matrix (Fin T0) (Fin k) K)
    (S : Matrix (Fin k) (Fin data.cols) K) (w : Fin p → K) (A : Fin p → Matrix (Fin k) (Fin k) K)
    (hvars : obj.vars = some ⟨T0, data.cols, k, W0, S, w, A⟩) (hw : IsProb w)
    (hA : ∀ i, ColStochastic (A i)) :
    ∃ res, mtdTransform env obj data = Py.ok res := by
  have hv' : ValidParams (defaultComponents obj.nComponents data.cols)
      obj.maxIterations obj.tolerance := by
    rw [hc] at hv ⊢
    exact hv
  obtain ⟨⟨k', m, t⟩, hq, hck, -, hk, hm, -, -⟩ := checkParams_valid hv'
  rw [hc] at hck
  simp only [defaultComponents, NumArg.int.injEq, Nat.cast_inj] at hck
  subst hck
  obtain ⟨start, hst, hS, hP⟩ := mtdStart_transform_ok hpos (data := data.val)
    (left_ne_zero_of_mul hdata) hk hinit (args := obj.transformArgs) (g := obj.randomState)
    (S := S) (w := w) (A := A)
    (by unfold MTDObj.transformArgs; rw [hvars]; rfl)
    (by unfold MTDObj.transformArgs; rw [hvars])
    (by unfold MTDObj.transformArgs; rw [hvars]) hw hA
  have hinit' : obj.init ≠ some "custom" := by rcases hinit with h | h <;> simp [h]
  have hW : RowStochastic start.1.2.1 := mtdStart_weights_drawn hR hk hinit' rfl hst
  obtain ⟨r, hr⟩ := mtdSolve_succeeds (c := obj.config) hlag h1 h2 hg0 hg1 ht ha0 ha1 hmem hk
    hp (fl := ⟨false, true, false⟩) hdata hT (require := obj.require) (tol := t) hm
    (X := data.val) hW (by rw [hP]; exact hw) (by rw [hP]; exact hA)
  unfold mtdTransform
  rw [mtdConvexCoding_of_steps hq hst hr]
  exact ⟨_, rfl⟩

/-- C61 excludes one length: with as many samples as the largest lag and more than one component every
fit that gets as far as the first cost evaluation ends in NaN. -/
theorem C61_mtd_nan_at_max_lag (c : MTDConfig p K) (hp : p ≠ 0) (hDT : D * T ≠ 0) (hk : k ≠ 1)
    (hT : T = Finset.univ.sup c.lags) (require : Bool) (tol : K) (maxIter : ℕ) (fl : MTDFlags)
    (X : Matrix (Fin T) (Fin D) K) (pt : MTDPoint T D k p K) :
    mtdSolve c require tol maxIter fl X pt = Py.raise .nonFinite := by
  unfold mtdSolve mtdIterate
  rw [if_neg hp, if_neg hDT, if_pos ⟨hk, hT⟩]

/-- A model of the examples, with lags 1 and 2. -/
def mtdDemoObj : MTDObj demoEnv.rng 2 :=
  { nComponents := .int 2, lags := ![1, 2], epsilonStates := 1/10, epsilonWeights := 1/5
    init := none, tolerance := .real (1/1000)
    maxIterations := .int 4, randomState := demoRng.ofSeed 3
    ls := { demoLS with stepSizeTolerance := 0 }, require := true }

theorem mtdDemo_lags : ∀ i, 1 ≤ mtdDemoObj.lags i := by
  intro i
  fin_cases i <;> norm_num [mtdDemoObj]

/-- The hypotheses of C22, C38, C43, C61 are met by an actual fit. -/
theorem mtdDemo_fit : ∃ res, mtdFitTransform demoEnv mtdDemoObj demoData {} {} {} = Py.ok res :=
  C61_mtd_default_fit_returns demoRng_lawful demoRng_uniform_pos mtdDemoObj (by norm_num)
    mtdDemo_lags
    (by norm_num [mtdDemoObj, demoLS]) (by norm_num [mtdDemoObj, demoLS])
    (by norm_num [mtdDemoObj, demoLS]) (by norm_num [mtdDemoObj, demoLS]) rfl
    (by norm_num [mtdDemoObj, demoLS])
    (by norm_num [mtdDemoObj, demoLS]) rfl (Or.inl rfl) demoData (by norm_num [demoData, Arr2.of])
    (by show (3 : ℕ) ≠ Finset.univ.sup ![1, 2]; decide)
    ⟨Or.inr ⟨2, rfl, by norm_num⟩, ⟨4, rfl, by norm_num⟩, Or.inr ⟨_, rfl, by norm_num⟩⟩ {}

theorem mtdDemo_supplied : SuppliedStochastic mtdDemoObj.init ({} : MTDArgs ℚ) {} :=
  ⟨fun _ _ h => by simp at h, fun _ _ h => by simp at h, fun _ _ h => by simp at h⟩

example : ∃ (W : Matrix (Fin 3) (Fin 2) ℚ) (start cost : ℚ), RowStochastic W ∧ cost ≤ start := by
  obtain ⟨⟨o, G, i⟩, h⟩ := mtdDemo_fit
  obtain ⟨k, W, S, w, A, -, hv, -, hW, -⟩ := C38_mtd_fit_stochastic_partial demoRng_lawful
    mtdDemoObj (by norm_num [SafeSteps, mtdDemoObj, demoLS]) demoData {} {}
    {} mtdDemo_supplied o G i h
  obtain ⟨q, st, r, hq, -, -, hoi⟩ :=
    mtdConvexCoding_eq_ok (mtdFitTransform_eq_ok h).choose_spec.choose_spec.1
  obtain ⟨_, _, _, _, _, _, cost, -, -, -, -, hc⟩ :=
    C43_mtd_monotone mtdDemoObj rfl demoData {} {} {} o G i h
  have hk : k = 2 := by
    have h2 := (checkParams_ok hq).2.1
    simp only [mtdDemoObj, defaultComponents, NumArg.int.injEq] at h2
    have h3 := congrArg (fun r : MTDObj demoEnv.rng 2 × FitInfo ℚ => r.1.vars.map MTDVars.k) hoi
    have h4 := congrArg (fun r : MTDObj demoEnv.rng 2 × Option (Arr2 ℚ) × FitInfo ℚ =>
      r.1.vars.map MTDVars.k) (mtdFitTransform_eq_ok h).choose_spec.choose_spec.2
    simp only [hv, Option.map_some] at h3 h4
    rw [← h4] at h3
    simp only [mtdVarsOf, Option.some.injEq] at h3
    omega
  subst hk
  exact ⟨W, _, cost, hW, hc⟩

/-- `C23_mtd_transform_keeps_model` applies to an actual transform, of a model holding a dictionary
with two components. -/
example (S : Matrix (Fin 2) (Fin demoData.cols) ℚ) (W0 : Matrix (Fin 5) (Fin 2) ℚ) :
    ∃ obj' : MTDObj demoEnv.rng 2, ∃ W, obj'.vars =
      some ⟨demoData.rows, demoData.cols, 2, W, S, ![1/2, 1/2], fun _ => 1⟩ := by
  obtain ⟨⟨o, G, i⟩, h⟩ := C61_mtd_transform_returns demoRng_lawful demoRng_uniform_pos
    { mtdDemoObj with vars := some ⟨5, demoData.cols, 2, W0, S, ![1/2, 1/2], fun _ => 1⟩ }
    (by norm_num) mtdDemo_lags
    (by norm_num [mtdDemoObj, demoLS]) (by norm_num [mtdDemoObj, demoLS])
    (by norm_num [mtdDemoObj, demoLS]) (by norm_num [mtdDemoObj, demoLS]) rfl
    (by norm_num [mtdDemoObj, demoLS])
    (by norm_num [mtdDemoObj, demoLS]) rfl (Or.inl rfl) demoData (by norm_num [demoData, Arr2.of])
    (by show (3 : ℕ) ≠ Finset.univ.sup ![1, 2]; decide)
    ⟨⟨2, rfl, by norm_num⟩, ⟨4, rfl, by norm_num⟩, Or.inr ⟨_, rfl, by norm_num⟩⟩
    (k := 2) rfl 5 W0 S _ _ rfl
    ⟨by intro i; fin_cases i <;> norm_num, by norm_num [Fin.sum_univ_two]⟩
    (fun _ j => ⟨by intro i; fin_cases i <;> fin_cases j <;> norm_num,
      by rw [Fin.sum_univ_two]; fin_cases j <;> norm_num [Matrix.one_apply]⟩)
  obtain ⟨⟨T0, k, W1, W, S', w, A, e1, e2⟩, -⟩ := C23_mtd_transform_keeps_model _ _ _ _ _ h
  simp only [Option.some.injEq, MTDVars.mk.injEq] at e1
  obtain ⟨rfl, -, rfl, e1⟩ := e1
  obtain ⟨-, e1, e3, e4⟩ := e1
  cases eq_of_heq e1
  cases e3
  cases eq_of_heq e4
  exact ⟨o, W, e2⟩

end Reor
