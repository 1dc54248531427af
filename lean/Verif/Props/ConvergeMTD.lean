import Verif.Props.MTDFit
import Verif.Props.ConvergeGPNH
import Verif.Proofs.ConvergeMTDFit

/-!
C97: with a small tolerance and enough iterations every block returned by MTD convex coding is, up to
any prescribed accuracy, optimal given the others.
-/

namespace Reor

set_option linter.unusedSectionVars false

open scoped BigOperators Matrix
open Spec

variable {K : Type} [Field K] [LinearOrder K] [IsStrictOrderedRing K]
variable {T D k p : ℕ}

/-- `_mtd_convex_coding` that returns is a run of the outer loop from its start. -/
theorem mtdConvexCoding_from_start {env : Env K} {obj : MTDObj env.rng p}
    {X : Matrix (Fin T) (Fin D) K} {t : K} {m : ℕ} (hc : obj.nComponents = .int k)
    (htl : obj.tolerance = .real t) (hmi : obj.maxIterations = .int m)
    {args : MTDArgs K} {fl : MTDFlags} {kw : InitKwargs}
    {o : MTDObj env.rng p} {info : FitInfo K}
    (h : mtdConvexCoding env obj (Arr2.of X) args fl kw = Py.ok (o, info)) :
    ∃ (start : MTDPoint T D k p K × env.rng.G) (r : IterResult (MTDState T D k p K) K),
      mtdStart env X k p obj.init args fl kw obj.randomState = Py.ok start ∧
      mtdSolve obj.config obj.require t m fl X start.1 = Py.ok r ∧
      o.vars = some ⟨T, D, k, r.state.Gamma, r.state.S, r.state.orderWeights,
        r.state.transitionMatrices⟩ ∧ info.cost = r.cost := by
  obtain ⟨⟨k', m', t'⟩, start, r, hp, hs, hr, hres⟩ := mtdConvexCoding_eq_ok h
  obtain ⟨-, e1, e2, -, -, -⟩ := checkParams_ok hp
  have e3 := checkParams_tolerance hp
  rw [hc] at e1
  rw [hmi] at e2
  rw [htl] at e3
  simp only [defaultComponents, NumArg.int.injEq, Nat.cast_inj] at e1 e2
  simp only [NumArg.real.injEq, reduceCtorEq, false_and, exists_false, or_false] at e3
  subst e1 e2 e3
  simp only [Prod.mk.injEq] at hres
  obtain ⟨rfl, rfl⟩ := hres
  exact ⟨start, r, hs, hr, rfl, rfl⟩

/-- A fit that returns is a run of the outer loop from its start. -/
theorem mtdFitTransform_from_start {env : Env K} {obj : MTDObj env.rng p}
    {X : Matrix (Fin T) (Fin D) K} {t : K} {m : ℕ} (hc : obj.nComponents = .int k)
    (htl : obj.tolerance = .real t) (hmi : obj.maxIterations = .int m)
    {args : MTDArgs K} {fl : MTDFlags} {kw : InitKwargs} {c : MTDConfig p K}
    (hcf : obj.config = c)
    {obj' : MTDObj env.rng p} {G : Option (Arr2 K)} {info : FitInfo K}
    (h : mtdFitTransform env obj (Arr2.of X) args fl kw = Py.ok (obj', G, info)) :
    ∃ (start : MTDPoint T D k p K × env.rng.G) (r : IterResult (MTDState T D k p K) K),
      mtdStart env X k p obj.init args fl kw obj.randomState = Py.ok start ∧
      mtdSolve c obj.require t m fl X start.1 = Py.ok r ∧
      obj'.vars = some ⟨T, D, k, r.state.Gamma, r.state.S, r.state.orderWeights,
        r.state.transitionMatrices⟩ ∧ G = some (Arr2.of r.state.Gamma) ∧
      obj'.cost_ = some r.cost := by
  subst hcf
  obtain ⟨o, i, ho, hres⟩ := mtdFitTransform_eq_ok h
  obtain ⟨start, r, hs, hr, hv, hi⟩ := mtdConvexCoding_from_start hc htl hmi ho
  have r1 := congrArg Prod.fst hres
  have r2 := congrArg (fun q => q.2.1) hres
  simp only at r1 r2
  refine ⟨start, r, hs, hr, ?_, ?_, ?_⟩
  · rw [r1]; exact hv
  · rw [r2, hv]; rfl
  · rw [r1, ← hi]

/-- A bound for the objective where the sum of squares of the dictionary is at most `R`. -/
def mtdCostBound (epsS epsW : K) (lags : Fin p → ℕ) (X : Matrix (Fin T) (Fin D) K) (k : ℕ) (R : K) :
    K :=
  gpnhCostBound epsS X k R + mtdCoef T k epsW lags * ((2 + 2 * (T * (p * k))) * T)

theorem mtdCost_le_of_bound {epsS epsW : K} (heS : 0 ≤ epsS) (heW : 0 ≤ epsW) (lags : Fin p → ℕ)
    (X : Matrix (Fin T) (Fin D) K) (k : ℕ) (R : K) :
    ∀ (W : Matrix (Fin T) (Fin k) K) (S : Matrix (Fin k) (Fin D) K) (w : Fin p → K)
      (A : Fin p → Matrix (Fin k) (Fin k) K), RowStochastic W → IsProb w →
      (∀ i, ColStochastic (A i)) → frobSq S ≤ R →
      mtdCost epsS epsW lags X W S w A ≤ mtdCostBound epsS epsW lags X k R := by
  intro W S w A hW hw hA hS
  refine add_le_add (gpnhCost_le_of_bound heS X k R W S hW hS) ?_
  have hco := mtdCoef_nonneg (T := T) (k := k) heW lags
  have h1 : mtdCoef T k epsW lags * frobSq (mtdRes lags W w A) ≤
      mtdCoef T k epsW lags * ((2 + 2 * (T * (p * k))) * T) :=
    mul_le_mul_of_nonneg_left ((frobSq_mtdRes_le lags W hw hA).trans
      (mul_le_mul_of_nonneg_left (frobSq_rowStochastic hW) (by positivity))) hco
  rw [mtdPenalty_eq]
  split_ifs
  · exact mul_nonneg hco (by positivity)
  · exact h1

/-- C97.  Let the dictionary penalty be positive, or let there be one dictionary element.  For all
data, every accuracy `ε` and every bound `B` there is a tolerance, and for every smaller positive
tolerance a number of iterations, such that every fit that returns from a stochastic start of cost at
most `B` has a cost that no other dictionary, no other weights, no other order weights and no other
transition matrices, with the rest as returned, undercut by more than `ε`.  What the flags exclude
from the updates is not claimed to be optimal.  The step floor may be positive, if it is small
compared with the curvature of the objective where its value is at most `B` (`Floor`; a floor of zero
always is). -/
theorem C97_mtd_fit_near_optimal [Archimedean K] (cfg : LSConfig K)
    (h1 : 0 < cfg.sigmaOne) (h2 : cfg.sigmaTwo < 1) (hg0 : 0 < cfg.gamma) (hg1 : cfg.gamma < 1)
    (hs0 : 0 ≤ cfg.stepSizeTolerance) (ha0 : 0 < cfg.alphaMin) (ha1 : cfg.alphaMin ≤ cfg.alphaMax)
    (hmem : cfg.memory = 1) (hk : 1 ≤ k) (lags : Fin p → ℕ) (hlag : ∀ i, 1 ≤ lags i)
    (X : Matrix (Fin T) (Fin D) K) (hDT : D * T ≠ 0) (epsS epsW : K)
    (he : 0 < epsS ∨ (0 ≤ epsS ∧ k = 1)) (heW : 0 ≤ epsW) (ε : K) (hε : 0 < ε) (B : K)
    (hf : cfg.Floor (max 1 cfg.alphaMax * mtdCurvature T D k ⟨lags, epsS, epsW, cfg⟩
      (gpnhLevel epsS X k B))) :
    ∃ tol : K, 0 < tol ∧ ∀ t : K, 0 < t → t ≤ tol → ∃ M : ℕ, ∀ m : ℕ, M ≤ m →
      ∀ {env : Env K} (obj : MTDObj env.rng p), obj.ls = cfg → obj.lags = lags →
      obj.epsilonStates = epsS → obj.epsilonWeights = epsW → obj.nComponents = .int k →
      obj.tolerance = .real t → obj.maxIterations = .int m →
      ∀ (args : MTDArgs K) (fl : MTDFlags) (kw : InitKwargs)
        (S0 : Matrix (Fin k) (Fin D) K) (W0 : Matrix (Fin T) (Fin k) K) (w0 : Fin p → K)
        (A0 : Fin p → Matrix (Fin k) (Fin k) K) (g' : env.rng.G),
      mtdStart env X k p obj.init args fl kw obj.randomState = Py.ok ((S0, W0, w0, A0), g') →
      RowStochastic W0 → IsProb w0 → (∀ i, ColStochastic (A0 i)) →
      mtdCost epsS epsW lags X W0 S0 w0 A0 ≤ B →
      ∀ (obj' : MTDObj env.rng p) (G : Option (Arr2 K)) (info : FitInfo K),
      mtdFitTransform env obj (Arr2.of X) args fl kw = Py.ok (obj', G, info) →
      ∃ (W : Matrix (Fin T) (Fin k) K) (S : Matrix (Fin k) (Fin D) K) (w : Fin p → K)
        (A : Fin p → Matrix (Fin k) (Fin k) K),
        obj'.vars = some ⟨T, D, k, W, S, w, A⟩ ∧ G = some (Arr2.of W) ∧
        obj'.cost_ = some (mtdCost epsS epsW lags X W S w A) ∧
        RowStochastic W ∧ IsProb w ∧ (∀ i, ColStochastic (A i)) ∧
        (fl.updateDictionary = true → ∀ S', mtdCost epsS epsW lags X W S w A ≤
          mtdCost epsS epsW lags X W S' w A + ε) ∧
        (fl.updateWeights = true → ∀ W', RowStochastic W' →
          mtdCost epsS epsW lags X W S w A ≤ mtdCost epsS epsW lags X W' S w A + ε) ∧
        (fl.updateParameters = true →
          (∀ w', IsProb w' → mtdCost epsS epsW lags X W S w A ≤
            mtdCost epsS epsW lags X W S w' A + ε) ∧
          ∀ A' : Fin p → Matrix (Fin k) (Fin k) K, (∀ i, ColStochastic (A' i)) →
            mtdCost epsS epsW lags X W S w A ≤ mtdCost epsS epsW lags X W S w A' + ε) := by
  have hcfg : cfg.Descends := ⟨h1, h2, hg0, hg1, ha0, ha1⟩
  have he0 : 0 ≤ epsS := by rcases he with h | h; exacts [h.le, h.1]
  rcases lt_or_ge B 0 with hneg | hB0
  · refine ⟨1, one_pos, fun _ _ _ => ⟨0, ?_⟩⟩
    intro m hm env obj hls hla hep hew hc htl hmi args fl kw S0 W0 w0 A0 g' hs0 hW0 hw0 hA0 hB
    exact absurd (hB.trans_lt hneg) (not_lt.2
      (add_nonneg (gpnhCost_nonneg' he0 _ _ _) (mtdPenalty_nonneg heW _ _ _ _)))
  obtain ⟨tol, htol, key⟩ := mtdSolve_near_optimal_flags (k := k) (c := ⟨lags, epsS, epsW, cfg⟩)
    hcfg hmem hlag hk X hDT he heW hε hB0 hs0 hf
  refine ⟨tol, htol, fun t ht0 ht => ?_⟩
  obtain ⟨M, hM⟩ := key t ht0 ht
  refine ⟨M, ?_⟩
  intro m hm env obj hls hla hep hew hc htl hmi args fl kw S0 W0 w0 A0 g' hs0 hW0 hw0 hA0 hB obj' G
    info h
  have hcf : obj.config = ⟨lags, epsS, epsW, cfg⟩ := by
    unfold MTDObj.config
    rw [hls, hla, hep, hew]
  obtain ⟨start, r, hs, hr, hv, hG, hco⟩ := mtdFitTransform_from_start hc htl hmi hcf h
  rw [hs0] at hs
  obtain rfl := Py.ok.inj hs
  have hsafe : cfg.Safe := LSConfig.safe_of_sigma h1 h2
  have hnear := hM m hm fl obj.require (S0, W0, w0, A0) r hW0 hw0 hA0 hB hr
  rw [mtdSolve_cost hr] at hco
  have hW := mtdSolve_weights_stochastic hsafe hk hW0 hr
  obtain ⟨hw, hA⟩ := mtdSolve_params_stochastic hsafe hk ⟨hw0, hA0⟩ hr
  exact ⟨_, _, _, _, hv, hG, hco, hW, hw, hA, hnear.1, hnear.2.1, hnear.2.2⟩

/-- C97 for the initial guess "furthest_sum": the tolerance and the number of iterations depend on
the data, the penalties, the lags and the accuracy only. -/
theorem C97_mtd_furthest_sum_near_optimal [Archimedean K] (cfg : LSConfig K)
    (h1 : 0 < cfg.sigmaOne) (h2 : cfg.sigmaTwo < 1) (hg0 : 0 < cfg.gamma) (hg1 : cfg.gamma < 1)
    (hs0 : 0 ≤ cfg.stepSizeTolerance) (ha0 : 0 < cfg.alphaMin) (ha1 : cfg.alphaMin ≤ cfg.alphaMax)
    (hmem : cfg.memory = 1) (hk : 1 ≤ k) (lags : Fin p → ℕ) (hlag : ∀ i, 1 ≤ lags i)
    (X : Matrix (Fin T) (Fin D) K) (hDT : D * T ≠ 0) (epsS epsW : K)
    (he : 0 < epsS ∨ (0 ≤ epsS ∧ k = 1)) (heW : 0 ≤ epsW) (ε : K) (hε : 0 < ε)
    (hf : cfg.Floor (max 1 cfg.alphaMax * mtdCurvature T D k ⟨lags, epsS, epsW, cfg⟩
      (gpnhLevel epsS X k (mtdCostBound epsS epsW lags X k (k * frobSq X))))) :
    ∃ tol : K, 0 < tol ∧ ∀ t : K, 0 < t → t ≤ tol → ∃ M : ℕ, ∀ m : ℕ, M ≤ m →
      ∀ {env : Env K}, env.rng.Lawful → ∀ (obj : MTDObj env.rng p), obj.ls = cfg →
      obj.lags = lags → obj.epsilonStates = epsS → obj.epsilonWeights = epsW →
      obj.nComponents = .int k → obj.tolerance = .real t → obj.maxIterations = .int m →
      obj.init = some "furthest_sum" →
      ∀ (args : MTDArgs K) (obj' : MTDObj env.rng p) (G : Option (Arr2 K)) (info : FitInfo K),
      mtdFitTransform env obj (Arr2.of X) args {} {} = Py.ok (obj', G, info) →
      ∃ (W : Matrix (Fin T) (Fin k) K) (S : Matrix (Fin k) (Fin D) K) (w : Fin p → K)
        (A : Fin p → Matrix (Fin k) (Fin k) K),
        obj'.vars = some ⟨T, D, k, W, S, w, A⟩ ∧ G = some (Arr2.of W) ∧
        obj'.cost_ = some (mtdCost epsS epsW lags X W S w A) ∧
        RowStochastic W ∧ IsProb w ∧ (∀ i, ColStochastic (A i)) ∧
        (∀ S', mtdCost epsS epsW lags X W S w A ≤ mtdCost epsS epsW lags X W S' w A + ε) ∧
        (∀ W', RowStochastic W' →
          mtdCost epsS epsW lags X W S w A ≤ mtdCost epsS epsW lags X W' S w A + ε) ∧
        (∀ w', IsProb w' → mtdCost epsS epsW lags X W S w A ≤
          mtdCost epsS epsW lags X W S w' A + ε) ∧
        ∀ A' : Fin p → Matrix (Fin k) (Fin k) K, (∀ i, ColStochastic (A' i)) →
          mtdCost epsS epsW lags X W S w A ≤ mtdCost epsS epsW lags X W S w A' + ε := by
  have he0 : 0 ≤ epsS := by rcases he with h | h; exacts [h.le, h.1]
  have hB := mtdCost_le_of_bound he0 heW lags X k (k * frobSq X)
  obtain ⟨tol, htol, key⟩ := C97_mtd_fit_near_optimal (k := k) cfg h1 h2 hg0 hg1 hs0 ha0 ha1 hmem hk
    lags hlag X hDT epsS epsW he heW ε hε _ hf
  refine ⟨tol, htol, fun t ht0 ht => ?_⟩
  obtain ⟨M, hM⟩ := key t ht0 ht
  refine ⟨M, ?_⟩
  intro m hm env hR obj hls hla hep hew hc htl hmi hinit args obj' G info h
  obtain ⟨o, i, ho, -⟩ := mtdFitTransform_eq_ok h
  obtain ⟨start, r, hs, hr, -, -⟩ := mtdConvexCoding_from_start hc htl hmi ho
  have hp : 1 ≤ p := Nat.one_le_iff_ne_zero.2 (mtdSolve_eq_ok.1 hr).1.1
  obtain ⟨hW, hw, hA⟩ := mtdStart_stochastic hR hk hp
    ⟨fun h => by simp [hinit] at h, fun h => by simp [hinit] at h,
      fun h => by simp [hinit] at h⟩ hs
  have hs' := hs
  rw [hinit] at hs'
  obtain ⟨rows, -, -, hrows⟩ := C36_mtd_furthest_sum_start X k args {} rfl {}
    (by simp [InitKwargs.WellFormed]) _ start hs'
  have hS : frobSq start.1.1 ≤ k * frobSq X := by
    have hrow : ∀ i ∈ (Finset.univ : Finset (Fin k)), ∑ d, start.1.1 i d ^ 2 ≤ frobSq X := by
      intro i _
      simp only [hrows]
      exact Finset.single_le_sum (f := fun t => ∑ d, X t d ^ 2)
        (fun t _ => Finset.sum_nonneg fun d _ => sq_nonneg _) (Finset.mem_univ (rows i))
    refine (Finset.sum_le_sum hrow).trans (le_of_eq ?_)
    rw [Finset.sum_const, Finset.card_univ, Fintype.card_fin, nsmul_eq_mul]
  obtain ⟨W, S, w, A, e1, e2, e3, e4, e5, e6, n1, n2, n3⟩ := hM m hm obj hls hla hep hew hc htl hmi
    args {} {} _ _ _ _ _ hs hW hw hA (hB _ _ _ _ hW hw hA hS) obj' G info h
  exact ⟨W, S, w, A, e1, e2, e3, e4, e5, e6, n1 rfl, n2 rfl, (n3 rfl).1, (n3 rfl).2⟩

/-- C97 for `transform`: whatever the dictionary penalty, the weights are, up to `ε`, the best
weights for the dictionary, order weights and transition matrices of the model. -/
theorem C97_mtd_transform_near_optimal [Archimedean K] (cfg : LSConfig K)
    (h1 : 0 < cfg.sigmaOne) (h2 : cfg.sigmaTwo < 1) (hg0 : 0 < cfg.gamma) (hg1 : cfg.gamma < 1)
    (hs0 : 0 ≤ cfg.stepSizeTolerance) (ha0 : 0 < cfg.alphaMin) (ha1 : cfg.alphaMin ≤ cfg.alphaMax)
    (hmem : cfg.memory = 1) (hk : 1 ≤ k) (lags : Fin p → ℕ) (hlag : ∀ i, 1 ≤ lags i)
    (X : Matrix (Fin T) (Fin D) K) (epsS epsW : K) (he : 0 ≤ epsS) (heW : 0 ≤ epsW)
    (S : Matrix (Fin k) (Fin D) K) (w : Fin p → K) (A : Fin p → Matrix (Fin k) (Fin k) K)
    (hw : IsProb w) (hA : ∀ i, ColStochastic (A i)) (ε : K) (hε : 0 < ε)
    (hf : cfg.Floor (max 1 cfg.alphaMax *
      mtdCurvature T D k ⟨lags, epsS, epsW, cfg⟩ (frobSq S))) :
    ∃ tol : K, 0 < tol ∧ ∀ t : K, 0 < t → t ≤ tol → ∃ M : ℕ, ∀ m : ℕ, M ≤ m →
      ∀ {env : Env K}, env.rng.Lawful → ∀ (obj : MTDObj env.rng p), obj.ls = cfg →
      obj.lags = lags → obj.epsilonStates = epsS → obj.epsilonWeights = epsW →
      obj.nComponents = .int k → obj.tolerance = .real t → obj.maxIterations = .int m →
      ∀ (T0 : ℕ) (W0 : Matrix (Fin T0) (Fin k) K), obj.vars = some ⟨T0, D, k, W0, S, w, A⟩ →
      ∀ (obj' : MTDObj env.rng p) (G : Option (Arr2 K)) (info : FitInfo K),
      mtdTransform env obj (Arr2.of X) = Py.ok (obj', G, info) →
      ∃ W : Matrix (Fin T) (Fin k) K, obj'.vars = some ⟨T, D, k, W, S, w, A⟩ ∧
        G = some (Arr2.of W) ∧ info.cost = mtdCost epsS epsW lags X W S w A ∧ RowStochastic W ∧
        ∀ W', RowStochastic W' →
          mtdCost epsS epsW lags X W S w A ≤ mtdCost epsS epsW lags X W' S w A + ε := by
  have hcfg : cfg.Descends := ⟨h1, h2, hg0, hg1, ha0, ha1⟩
  have hB := mtdCost_le_of_bound he heW lags X k (frobSq S)
  obtain ⟨tol, htol, key⟩ := mtdSolve_near_optimal (k := k) (c := ⟨lags, epsS, epsW, cfg⟩) hcfg hmem
    hlag hk X he heW hε (frobSq_nonneg S) (fl := ⟨false, true, false⟩) (by simp) hs0 hf
  refine ⟨tol, htol, fun t ht0 ht => ?_⟩
  obtain ⟨M, hM⟩ := key t ht0 ht
  refine ⟨M, ?_⟩
  intro m hm env hR obj hls hla hep hew hc htl hmi T0 W0 hvars obj' G info h
  obtain ⟨o, i, ho, hres⟩ := mtdTransform_eq_ok h
  obtain ⟨start, r, hs, hr, hv, hi⟩ := mtdConvexCoding_from_start hc htl hmi ho
  simp only [Prod.mk.injEq] at hres
  obtain ⟨rfl, rfl, rfl⟩ := hres
  have hcf : obj.config = ⟨lags, epsS, epsW, cfg⟩ := by
    unfold MTDObj.config
    rw [hls, hla, hep, hew]
  rw [hcf] at hr
  have e1 := mtdStart_dictionary hs (Or.inr rfl)
  obtain ⟨e2, e3⟩ := mtdStart_parameters hs (Or.inr rfl)
  have hcustom : obj.init ≠ some "custom" := by
    intro hcu
    have := mtdStart_weights hs (Or.inl hcu)
    unfold MTDObj.transformArgs at this
    split at this <;> simp at this
  have hW0 : RowStochastic start.1.2.1 := mtdStart_weights_drawn hR hk hcustom rfl hs
  unfold MTDObj.transformArgs at e1 e2 e3
  rw [hvars] at e1 e2 e3
  simp only [MTDVars.SArr, Arr2.of, Arr1.of, Arr3.of, Option.some.injEq, Arr2.mk.injEq,
    Arr1.mk.injEq, Arr3.mk.injEq, true_and, heq_eq_eq] at e1 e2 e3
  have hw0 : IsProb start.1.2.2.1 := e2 ▸ hw
  have hA0 : ∀ i, ColStochastic (start.1.2.2.2 i) := e3 ▸ hA
  have hS0 : frobSq start.1.1 ≤ frobSq S := (congrArg frobSq e1).ge
  have hnear := hM _ _ _ r hm hW0 hw0 hA0 hS0 (hB _ _ _ _ hW0 hw0 hA0 hS0) hr
  obtain ⟨-, hkeep⟩ := mtdSolve_keeps hr
  have k1 : r.state.S = S := (hkeep.S rfl).trans e1.symm
  have k2 : r.state.orderWeights = w := (hkeep.orderWeights rfl).trans e2.symm
  have k3 : r.state.transitionMatrices = A := (hkeep.transitionMatrices rfl).trans e3.symm
  have hcost := mtdSolve_cost hr
  have hn := hnear.2.1 rfl
  rw [k1, k2, k3] at hn hcost hv
  exact ⟨_, hv, by rw [hv]; rfl, by rw [hi, hcost],
    mtdSolve_weights_stochastic (LSConfig.safe_of_sigma h1 h2) hk hW0 hr, hn⟩

/-! ### Instances -/

/-- C97 at work: a fit of the example, with "random" draws, that returns. -/
example : ∃ (obj obj' : MTDObj demoEnv.rng 2) (G : Option (Arr2 ℚ)) (info : FitInfo ℚ)
    (W : Matrix (Fin 3) (Fin 2) ℚ) (S : Matrix (Fin 2) (Fin 2) ℚ) (w : Fin 2 → ℚ)
    (A : Fin 2 → Matrix (Fin 2) (Fin 2) ℚ),
    mtdFitTransform demoEnv obj demoData {} {} {} = Py.ok (obj', G, info) ∧
    obj'.cost_ = some (mtdCost (1 / 10) (1 / 5) ![1, 2] demoData.val W S w A) ∧
    (∀ w', IsProb w' → mtdCost (1 / 10) (1 / 5) ![1, 2] demoData.val W S w A ≤
      mtdCost (1 / 10) (1 / 5) ![1, 2] demoData.val W S w' A + 1 / 100) := by
  obtain ⟨start, hst⟩ := mtdStart_random_ok (env := demoEnv) demoRng_uniform_pos
    (data := demoData.val) (k := 2) (by norm_num [demoData, Arr2.of]) (by norm_num) 2 (Or.inl rfl)
    (init := none) (args := {}) (g := mtdDemoObj.randomState)
  obtain ⟨hW, hw, hA⟩ := mtdStart_stochastic demoRng_lawful (by norm_num) (by norm_num)
    mtdDemo_supplied hst
  obtain ⟨tol, htol, key⟩ := C97_mtd_fit_near_optimal (k := 2) mtdDemoObj.ls
    (by norm_num [mtdDemoObj, demoLS]) (by norm_num [mtdDemoObj, demoLS])
    (by norm_num [mtdDemoObj, demoLS]) (by norm_num [mtdDemoObj, demoLS]) le_rfl
    (by norm_num [mtdDemoObj, demoLS]) (by norm_num [mtdDemoObj, demoLS]) rfl (by norm_num)
    ![1, 2] mtdDemo_lags demoData.val (by norm_num [demoData, Arr2.of])
    (1 / 10) (1 / 5) (Or.inl (by norm_num)) (by norm_num) (1 / 100) (by norm_num)
    (mtdCost (1 / 10) (1 / 5) ![1, 2] demoData.val start.1.2.1 start.1.1 start.1.2.2.1
      start.1.2.2.2)
    (LSConfig.Floor.of_zero rfl (by norm_num [mtdDemoObj, demoLS])
      (by norm_num [mtdDemoObj, demoLS]) _)
  obtain ⟨M, hM⟩ := key tol htol le_rfl
  set obj : MTDObj demoEnv.rng 2 :=
    { mtdDemoObj with tolerance := .real tol, maxIterations := .int ((M + 1 : ℕ) : ℤ) } with hobj
  obtain ⟨⟨o, G, i⟩, h⟩ := C61_mtd_default_fit_returns demoRng_lawful demoRng_uniform_pos obj
    (by norm_num) mtdDemo_lags
    (by norm_num [hobj, mtdDemoObj, demoLS]) (by norm_num [hobj, mtdDemoObj, demoLS])
    (by norm_num [hobj, mtdDemoObj, demoLS]) (by norm_num [hobj, mtdDemoObj, demoLS]) rfl
    (by norm_num [hobj, mtdDemoObj, demoLS])
    (by norm_num [hobj, mtdDemoObj, demoLS]) rfl (Or.inl rfl) demoData
    (by norm_num [demoData, Arr2.of])
    (by show (3 : ℕ) ≠ Finset.univ.sup ![1, 2]; decide)
    ⟨Or.inr ⟨2, rfl, by norm_num⟩, ⟨_, rfl, by positivity⟩, Or.inr ⟨_, rfl, htol.le⟩⟩ {}
  obtain ⟨W, S, w, A, -, -, hc, -, -, -, -, -, n3⟩ := hM (M + 1) (Nat.le_succ _) obj rfl rfl rfl rfl
    rfl rfl rfl {} {} {} _ _ _ _ _ hst hW hw hA le_rfl o G i h
  exact ⟨obj, o, G, i, W, S, w, A, h, hc, (n3 rfl).1⟩

/-- C97 at work for `transform`. -/
example : ∃ (obj obj' : MTDObj demoEnv.rng 2) (G : Option (Arr2 ℚ)) (info : FitInfo ℚ)
    (W : Matrix (Fin 3) (Fin 2) ℚ), mtdTransform demoEnv obj demoData = Py.ok (obj', G, info) ∧
    G = some (Arr2.of W) ∧ ∀ W', RowStochastic W' →
      mtdCost (1 / 10) (1 / 5) ![1, 2] demoData.val W !![0, 1; 2, 2] ![1/2, 1/2] (fun _ => 1) ≤
      mtdCost (1 / 10) (1 / 5) ![1, 2] demoData.val W' !![0, 1; 2, 2] ![1/2, 1/2] (fun _ => 1) +
        1 / 100 := by
  have hw : IsProb (![1/2, 1/2] : Fin 2 → ℚ) :=
    ⟨fun i => by fin_cases i <;> norm_num, by norm_num [Fin.sum_univ_two]⟩
  have hA : ∀ i : Fin 2, ColStochastic ((fun _ => 1 : Fin 2 → Matrix (Fin 2) (Fin 2) ℚ) i) := by
    intro i j
    refine ⟨fun l => ?_, ?_⟩
    · fin_cases j <;> fin_cases l <;> norm_num
    · fin_cases j <;> simp [Matrix.one_apply]
  obtain ⟨tol, htol, key⟩ := C97_mtd_transform_near_optimal (k := 2) mtdDemoObj.ls
    (by norm_num [mtdDemoObj, demoLS]) (by norm_num [mtdDemoObj, demoLS])
    (by norm_num [mtdDemoObj, demoLS]) (by norm_num [mtdDemoObj, demoLS]) le_rfl
    (by norm_num [mtdDemoObj, demoLS]) (by norm_num [mtdDemoObj, demoLS]) rfl (by norm_num)
    ![1, 2] mtdDemo_lags demoData.val
    (1 / 10) (1 / 5) (by norm_num) (by norm_num) !![0, 1; 2, 2] ![1/2, 1/2] (fun _ => 1) hw hA
    (1 / 100) (by norm_num)
    (LSConfig.Floor.of_zero rfl (by norm_num [mtdDemoObj, demoLS])
      (by norm_num [mtdDemoObj, demoLS]) _)
  obtain ⟨M, hM⟩ := key tol htol le_rfl
  set obj : MTDObj demoEnv.rng 2 :=
    { mtdDemoObj with
      tolerance := .real tol, maxIterations := .int ((M + 1 : ℕ) : ℤ)
      vars := some ⟨5, 2, 2, !![1, 0; 0, 1; 1, 0; 0, 1; 1, 0], !![0, 1; 2, 2], ![1/2, 1/2],
        fun _ => 1⟩ } with hobj
  obtain ⟨⟨o, G, i⟩, h⟩ := C61_mtd_transform_returns demoRng_lawful demoRng_uniform_pos obj
    (by norm_num) mtdDemo_lags
    (by norm_num [hobj, mtdDemoObj, demoLS]) (by norm_num [hobj, mtdDemoObj, demoLS])
    (by norm_num [hobj, mtdDemoObj, demoLS]) (by norm_num [hobj, mtdDemoObj, demoLS]) rfl
    (by norm_num [hobj, mtdDemoObj, demoLS])
    (by norm_num [hobj, mtdDemoObj, demoLS]) rfl (Or.inl rfl) demoData
    (by norm_num [demoData, Arr2.of])
    (by show (3 : ℕ) ≠ Finset.univ.sup ![1, 2]; decide)
    ⟨⟨2, rfl, by norm_num⟩, ⟨_, rfl, by positivity⟩, Or.inr ⟨_, rfl, htol.le⟩⟩ rfl 5 _ _ _ _ rfl
    hw hA
  obtain ⟨W, -, hG, -, -, n⟩ := hM (M + 1) (Nat.le_succ _) demoRng_lawful obj rfl rfl rfl rfl rfl rfl
    rfl 5 _ rfl o G i h
  exact ⟨obj, o, G, i, W, h, hG, n⟩

end Reor
