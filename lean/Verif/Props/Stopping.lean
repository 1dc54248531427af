import Verif.Proofs.Stopping
import Verif.Props.GPNHCROM
import Verif.Props.KernelAA
import Verif.Props.FEMVARX
import Verif.Props.FEMBV
import Verif.Props.Demo

/-!
When the outer loops stop (C76), how many iterations that takes (C77), and what a larger limit on
the number of iterations changes (C78).
-/

namespace Reor

set_option linter.unusedSectionVars false

open Spec Matrix

/-- The number given as a setting: a float, or an integer. -/
def NumArg.Is {K : Type} [Field K] (t : NumArg K) (x : K) : Prop :=
  t = .real x ∨ ∃ z : ℤ, t = .int z ∧ (z : K) = x

variable {K : Type} [Field K] [LinearOrder K] [IsStrictOrderedRing K]

/-! ### C76: the stopping rule -/

/-- C76.  A fit stops after the first iteration that changes the cost by less than `tolerance`, the
change being measured from the cost of the starting point on, or after `max_iterations` iterations.
There is one cost per iteration, `n_iter_` is the index of the last one and `cost_` its cost. -/
theorem C76_gpnh_stops {env : Env K} (obj : GPNHObj env.rng)
    (data : Arr2 K) (dictionary weights : Option (Arr2 K)) (kw : InitKwargs) (ud uw : Bool)
    (obj' : GPNHObj env.rng) (G : Option (Arr2 K)) (info : FitInfo K)
    (h : gpnhFitTransform env obj data dictionary weights kw ud uw = Py.ok (obj', G, info)) :
    ∃ (k m : ℕ) (tol : K) (g' : env.rng.G) (W0 : Matrix (Fin data.rows) (Fin k) K)
      (S0 : Matrix (Fin k) (Fin data.cols) K),
      obj.maxIterations = .int m ∧ obj.tolerance.Is tol ∧
      gpnhStart env data.val k obj.init dictionary weights ud uw kw obj.randomState =
        Py.ok ((S0, W0), g') ∧
      StopsBy tol m (gpnhCost obj.epsilonStates data.val W0 S0) info.trace ∧
      obj'.nIter_ = some info.nIter ∧ info.trace.length = info.nIter + 1 ∧
      obj'.cost_ = info.trace.getLast? ∧ (tol = 0 → info.nIter + 1 = m) := by
  obtain ⟨o, i, ho, hres⟩ := gpnhFitTransform_eq_ok h
  obtain ⟨p, start, r, hp, hst, hr, hoi⟩ := gpnhConvexCoding_eq_ok ho
  simp only [Prod.mk.injEq] at hres hoi
  obtain ⟨rfl, rfl, rfl⟩ := hres
  obtain ⟨rfl, rfl⟩ := hoi
  obtain ⟨-, -, hm, -, hm0, -⟩ := checkParams_ok hp
  obtain ⟨h1, h2⟩ := iterate_stops hm0 (gpnhIterate_eq_ok.1 hr).2
  have hl := iterate_trace_length (gpnhIterate_eq_ok.1 hr).2
  simp only [GPNHState.evaluateCost_eq _ (GPNHState.initializeWorkspace obj.ls data.val start.1.2
    start.1.1) rfl] at h1
  refine ⟨p.1, p.2.1, p.2.2, start.2, start.1.2, start.1.1, hm, checkParams_tolerance hp, hst, h1,
    rfl, hl, h2.symm, fun h0 => ?_⟩
  rw [h0] at h1
  exact hl.symm.trans (StopsBy.length_of_zero h1)

/-- C76 for `transform`. -/
theorem C76_gpnh_transform_stops {env : Env K} (obj : GPNHObj env.rng) (data : Arr2 K)
    (obj' : GPNHObj env.rng) (G : Option (Arr2 K)) (info : FitInfo K)
    (h : gpnhTransform env obj data = Py.ok (obj', G, info)) :
    ∃ (k m : ℕ) (tol : K) (g' : env.rng.G) (W0 : Matrix (Fin data.rows) (Fin k) K)
      (S0 : Matrix (Fin k) (Fin data.cols) K),
      obj.maxIterations = .int m ∧ obj.tolerance.Is tol ∧
      gpnhStart env data.val k obj.init obj.S none false true {} obj.randomState =
        Py.ok ((S0, W0), g') ∧
      StopsBy tol m (gpnhCost obj.epsilonStates data.val W0 S0) info.trace ∧
      info.trace.length = info.nIter + 1 ∧ info.trace.getLast? = some info.cost := by
  obtain ⟨o, i, ho, hres⟩ := gpnhTransform_eq_ok h
  obtain ⟨p, start, r, hp, hst, hr, hoi⟩ := gpnhConvexCoding_eq_ok ho
  simp only [Prod.mk.injEq] at hres hoi
  obtain ⟨rfl, rfl, rfl⟩ := hres
  obtain ⟨rfl, rfl⟩ := hoi
  obtain ⟨-, -, hm, -, hm0, -⟩ := checkParams_ok hp
  obtain ⟨h1, h2⟩ := iterate_stops hm0 (gpnhIterate_eq_ok.1 hr).2
  simp only [GPNHState.evaluateCost_eq _ (GPNHState.initializeWorkspace obj.ls data.val start.1.2
    start.1.1) rfl] at h1
  exact ⟨p.1, p.2.1, p.2.2, start.2, start.1.2, start.1.1, hm, checkParams_tolerance hp, hst, h1,
    iterate_trace_length (gpnhIterate_eq_ok.1 hr).2, h2⟩

/-- C76 for kernel archetypal analysis. -/
theorem C76_kaa_stops {n : ℕ} {env : Env K} (obj : KAAObj env.rng)
    (A : Matrix (Fin n) (Fin n) K) (dictionary weights : Option (Arr2 K)) (kw : InitKwargs)
    (ud uw : Bool) (obj' : KAAObj env.rng) (G : Option (Arr2 K)) (info : FitInfo K)
    (h : kaaFitTransform env obj (Arr2.of A) dictionary weights kw ud uw =
      Py.ok (obj', G, info)) :
    ∃ (k m : ℕ) (tol : K) (g' : env.rng.G) (S0 : Matrix (Fin n) (Fin k) K)
      (C0 : Matrix (Fin k) (Fin n) K),
      obj.maxIterations = .int m ∧ obj.tolerance.Is tol ∧
      kaaStart env A k obj.init dictionary weights ud uw kw obj.randomState.start =
        Py.ok ((C0, S0), g') ∧
      StopsBy tol m (kaaCost A S0 C0) info.trace ∧
      obj'.nIter_ = some info.nIter ∧ info.trace.length = info.nIter + 1 ∧
      obj'.cost_ = info.trace.getLast? ∧ (tol = 0 → info.nIter + 1 = m) := by
  unfold kaaFitTransform at h
  rw [kernelAA_of] at h
  obtain ⟨res, hres, h⟩ := Py.bind_eq_ok.1 h
  obtain ⟨p, start, r, hp, hst, hr, rfl⟩ := kernelAASquare_eq_ok hres
  simp only [Py.pure_eq, Py.ok.injEq, kaaFinish, Prod.mk.injEq] at h
  obtain ⟨rfl, rfl, rfl⟩ := h
  obtain ⟨-, -, hm, -, hm0, -⟩ := checkParams_ok hp
  have hg := KAAState.initializeWorkspace_good obj.ls A start.1.2 start.1.1
  obtain ⟨h1, h2⟩ := iterate_stops hm0 hr
  have hl := iterate_trace_length hr
  rw [KAAState.evaluateCost_eq _ _ hg.alpha, hg.Kmat] at h1
  refine ⟨p.1, p.2.1, p.2.2, start.2, start.1.2, start.1.1, hm, checkParams_tolerance hp, hst, h1,
    rfl, hl, h2.symm, fun h0 => ?_⟩
  rw [h0] at h1
  exact hl.symm.trans (StopsBy.length_of_zero h1)

/-- C76 for MTD convex coding. -/
theorem C76_mtd_stops {p : ℕ} {env : Env K} (obj : MTDObj env.rng p)
    (data : Arr2 K) (args : MTDArgs K) (fl : MTDFlags) (kw : InitKwargs)
    (obj' : MTDObj env.rng p) (G : Option (Arr2 K)) (info : FitInfo K)
    (h : mtdFitTransform env obj data args fl kw = Py.ok (obj', G, info)) :
    ∃ (k m : ℕ) (tol : K) (g' : env.rng.G) (S0 : Matrix (Fin k) (Fin data.cols) K)
      (W0 : Matrix (Fin data.rows) (Fin k) K) (w0 : Fin p → K)
      (A0 : Fin p → Matrix (Fin k) (Fin k) K),
      obj.maxIterations = .int m ∧ obj.tolerance.Is tol ∧
      mtdStart env data.val k p obj.init args fl kw obj.randomState =
        Py.ok ((S0, W0, w0, A0), g') ∧
      StopsBy tol m
        (mtdCost obj.epsilonStates obj.epsilonWeights obj.lags data.val W0 S0 w0 A0) info.trace ∧
      obj'.nIter_ = some info.nIter ∧ info.trace.length = info.nIter + 1 ∧
      obj'.cost_ = info.trace.getLast? ∧ (tol = 0 → info.nIter + 1 = m) := by
  obtain ⟨o, i, ho, hres⟩ := mtdFitTransform_eq_ok h
  obtain ⟨q, start, r, hq, hst, hr, hoi⟩ := mtdConvexCoding_eq_ok ho
  simp only [Prod.mk.injEq] at hres hoi
  obtain ⟨rfl, rfl, rfl⟩ := hres
  obtain ⟨rfl, rfl⟩ := hoi
  obtain ⟨-, -, hm, -, hm0, -⟩ := checkParams_ok hq
  obtain ⟨h1, h2⟩ := iterate_stops hm0 (mtdSolve_eq_ok.1 hr).2
  have hl := iterate_trace_length (mtdSolve_eq_ok.1 hr).2
  simp only [MTDState.evaluateCost_eq (mtdInitialState_good obj.config data.val start.1)] at h1
  refine ⟨q.1, q.2.1, q.2.2, start.2, start.1.1, start.1.2.1, start.1.2.2.1, start.1.2.2.2, hm,
    checkParams_tolerance hq, hst, h1, rfl, hl, h2.symm, fun h0 => ?_⟩
  rw [h0] at h1
  exact hl.symm.trans (StopsBy.length_of_zero h1)

/-- C76 for the fit of the reduced-order model: the residual takes the place of the cost. -/
theorem C76_crom_stops {T k p : ℕ} (c : CROMConfig p K) (hT : T ≠ 0) (require : Bool) (tol : K)
    (m : ℕ) (hm : 0 < m) (W : Matrix (Fin T) (Fin k) K) (w : Fin p → K)
    (A : Fin p → Matrix (Fin k) (Fin k) K) (r : IterResult (CROMState T k p K) K)
    (h : cromSolve c require tol m W w A = Py.ok r) :
    StopsBy tol m (mtdPenalty 1 c.lags W w A) r.trace ∧ r.trace.length = r.nIter + 1 ∧
      r.trace.getLast? = some r.cost := by
  obtain ⟨hp, hlag, r', hr', hs, hc, hn, ht⟩ := cromSolve_ok hT h
  obtain ⟨h1, h2⟩ := iterate_stops hm (mtdSolve_eq_ok.1 hr').2
  simp only [MTDState.evaluateCost_eq (mtdInitialState_good c.toMTD 0 (cromPoint W w A))] at h1
  rw [ht, hn, hc]
  refine ⟨?_, iterate_trace_length (mtdSolve_eq_ok.1 hr').2, h2⟩
  have e : mtdPenalty 1 c.lags W w A =
      (mtdInitialState c.toMTD 0 (cromPoint W w A)).objective c.toMTD := (mtdCost_crom _ _ _ _).symm
  rw [e]
  exact h1

/-- C76 for FEM-BV-k-means. -/
theorem C76_fembv_stops {R : Rng K} {solver : LPSolver K} (obj : FEMKMeansObj R) (data : Arr2 K)
    (args : FEMArgs K) (obj' : FEMKMeansObj R) (G : Option (Arr2 K)) (info : FEMInfo K)
    (h : femKMeansFitTransform R solver obj data args = Py.ok (obj', G, info)) :
    ∃ (k m : ℕ) (tol : K) (g1 g2 : R.G) (Theta0 : Matrix (Fin k) (Fin data.cols) K)
      (G0 : Matrix (Fin data.rows) (Fin k) K),
      obj.maxIterations = .int m ∧ obj.tolerance.Is tol ∧
      kmeansInit R data.val k args.parameters args.init obj.randomState = Py.ok (Theta0, g1) ∧
      femInitWeights R data.rows k args.weights args.init g1 = Py.ok (G0, g2) ∧
      StopsBy tol m
        (∑ t, ∑ j, G0 t j * sqDist (fun d => data.val t d) (fun d => Theta0 j d)) info.trace ∧
      obj'.nIter_ = some info.nIter ∧ info.trace.length = info.nIter + 1 ∧
      obj'.cost_ = info.trace.getLast? ∧ (tol = 0 → info.nIter + 1 = m) := by
  unfold femKMeansFitTransform at h
  obtain ⟨res, hres, h⟩ := Py.bind_eq_ok.1 h
  obtain ⟨p, theta, gamma, tv, con, r, hp, hth, hga, htv, hcon, hr, rfl⟩ := femKMeansRun_eq_ok hres
  simp only [Py.pure_eq, Py.ok.injEq, femFinish, Prod.mk.injEq] at h
  obtain ⟨rfl, rfl, rfl⟩ := h
  obtain ⟨-, -, hm, -, hm0, -⟩ := checkParams_ok hp
  obtain ⟨h1, h2⟩ := femIterate_stops hm0 hr
  have hl := femIterate_trace_length hr
  refine ⟨p.1, p.2.1, p.2.2, theta.2, gamma.2, theta.1, gamma.1, hm, checkParams_tolerance hp, hth,
    hga, h1, rfl, hl, h2.symm, fun h0 => ?_⟩
  rw [h0] at h1
  exact hl.symm.trans (StopsBy.length_of_zero h1)

/-- C76 for FEM-BV-VARX: the change is measured from the cost of the initial weights with the models
fitted without weights. -/
theorem C76_femvarx_stops {R : Rng ℝ} {solver : LPSolver ℝ} {lstsq : LstSq} {mem : Memory}
    (obj : FEMVARXObj R) (data : Arr2 ℝ) (args : FEMVARXArgs) (obj' : FEMVARXObj R)
    (info : FEMInfo ℝ) (h : femVARXRun R solver lstsq mem obj data args = Py.ok (obj', info)) :
    ∃ (k m : ℕ) (tol : ℝ) (hl : k = obj.memory.length)
      (start : VARXStart k data.cols (exogCols args.externalFactors)) (g' : R.G)
      (G0 : Matrix (Fin (data.rows - start.L)) (Fin k) ℝ),
      obj.maxIterations = .int m ∧ obj.tolerance.Is tol ∧
      varxInit mem lstsq data.val (fun i : Fin k => obj.memory.get (Fin.cast hl i))
        (maxMemory obj.memory) args.externalFactors = Py.ok start ∧
      femInitWeights R (data.rows - start.L) k args.weights args.init obj.randomState =
        Py.ok (G0, g') ∧
      StopsBy tol m (assignmentCost G0 (varxDistance (data.rows - start.L) start.params))
        info.trace ∧
      info.trace.length = info.nIter + 1 ∧ info.trace.getLast? = some info.cost ∧
      (tol = 0 → info.nIter + 1 = m) := by
  obtain ⟨p, hl, start, r, hp, hst, hr, hout⟩ := femVARXRun_eq_ok h
  obtain ⟨gamma, tv, con, hg, htv, hcon, hit, -⟩ := femVARXIterate_eq_ok hr
  obtain ⟨-, -, hm, -, hm0, -⟩ := checkParams_ok hp
  obtain ⟨h1, h2⟩ := femIterate_stops hm0 hit
  have hlen := femIterate_trace_length hit
  rw [Prod.ext_iff] at hout
  obtain ⟨rfl, rfl⟩ := hout
  refine ⟨p.1, p.2.1, p.2.2, hl, start, gamma.2, gamma.1, hm, checkParams_tolerance hp, hst, hg, h1,
    hlen, h2, fun h0 => ?_⟩
  rw [h0] at h1
  exact hlen.symm.trans (StopsBy.length_of_zero h1)

/-! ### C77: the number of iterations -/

theorem gpnhCost_nonneg {T D k : ℕ} {eps : K} (h : 0 ≤ eps) (X : Matrix (Fin T) (Fin D) K)
    (W : Matrix (Fin T) (Fin k) K) (S : Matrix (Fin k) (Fin D) K) : 0 ≤ gpnhCost eps X W S := by
  unfold gpnhCost
  have hk : (0 : K) ≤ (k : K) * ((k : K) - 1) := by
    rcases Nat.eq_zero_or_pos k with rfl | hk
    · simp
    · have : (1 : K) ≤ k := by exact_mod_cast hk
      exact mul_nonneg (by linarith) (by linarith)
  refine add_nonneg (div_nonneg ?_ (by positivity))
    (mul_nonneg h (div_nonneg ?_ (mul_nonneg hk (Nat.cast_nonneg _))))
  · exact Finset.sum_nonneg fun t _ => Finset.sum_nonneg fun d _ => sq_nonneg _
  · exact Finset.sum_nonneg fun i _ => Finset.sum_nonneg fun j _ =>
      Finset.sum_nonneg fun d _ => sq_nonneg _

theorem mtdPenalty_nonneg {T k p : ℕ} {eps : K} (h : 0 ≤ eps) (lags : Fin p → ℕ)
    (W : Matrix (Fin T) (Fin k) K) (w : Fin p → K) (A : Fin p → Matrix (Fin k) (Fin k) K) :
    0 ≤ mtdPenalty eps lags W w A := by
  unfold mtdPenalty
  split_ifs
  · exact le_rfl
  · refine mul_nonneg h (div_nonneg (Finset.sum_nonneg fun t _ => ?_) (by positivity))
    split_ifs
    · exact Finset.sum_nonneg fun d _ => sq_nonneg _
    · exact le_rfl

/-- For a symmetric kernel without negative squared distances the cost is not negative. -/
theorem kaaCost_nonneg {n k : ℕ} {A : Matrix (Fin n) (Fin n) K} (hA : ∀ i j, A i j = A j i)
    (hp : ∀ v : Fin n → K, 0 ≤ ∑ i, ∑ j, v i * A i j * v j) (S : Matrix (Fin n) (Fin k) K)
    (C : Matrix (Fin k) (Fin n) K) : 0 ≤ kaaCost A S C := by
  unfold kaaCost
  refine Finset.sum_nonneg fun t _ => ?_
  set c : Fin n → K := fun j => ∑ i, S t i * C i j with hc
  have h := hp fun i => (if i = t then 1 else 0) - c i
  have e : ∑ i, ∑ j, ((if i = t then 1 else 0) - c i) * A i j * ((if j = t then 1 else 0) - c j) =
      A t t - 2 * ∑ j, c j * A j t + ∑ i, ∑ j, c i * A i j * c j := by
    have e1 : ∀ i j, ((if i = t then (1 : K) else 0) - c i) * A i j *
        ((if j = t then 1 else 0) - c j) =
        (if i = t then (if j = t then A i j else 0) else 0) - (if i = t then A i j * c j else 0) -
          (if j = t then c i * A i j else 0) + c i * A i j * c j := by
      intro i j
      split_ifs <;> ring
    simp only [e1, Finset.sum_add_distrib, Finset.sum_sub_distrib, Finset.sum_ite_eq',
      Finset.mem_univ, if_true]
    have e2 : ∑ i, ∑ j, (if i = t then A i j * c j else 0) = ∑ j, c j * A j t := by
      rw [Finset.sum_comm]
      refine Finset.sum_congr rfl fun j _ => ?_
      rw [Finset.sum_ite_eq' Finset.univ t, if_pos (Finset.mem_univ _), hA t j, mul_comm]
    have e3 : ∑ i, ∑ j, (if i = t then (if j = t then A i j else 0) else 0) = A t t := by
      rw [Finset.sum_comm]
      simp
    rw [e2, e3]
    ring
  rw [e] at h
  exact h

theorem limit_not_reached {n m : ℕ} {tol start : K} (h : n + 1 ≤ m)
    (hle : n * tol ≤ start) (hlt : start < ((m : K) - 1) * tol) : n + 1 < m := by
  rcases Nat.lt_or_ge (n + 1) m with h' | h'
  · exact h'
  · have : m = n + 1 := le_antisymm h' h
    subst this
    simp only [Nat.cast_add, Nat.cast_one, add_sub_cancel_right] at hlt
    exact absurd hlt (not_lt.2 hle)

/-- C77.  With monotone decrease required every iteration but the last lowers the cost by at least
`tolerance`, so that `n_iter_` times the tolerance is at most the total decrease, hence at most the
initial cost if the regularisation is not negative.  A limit beyond that is not reached: the fit
then stops by itself. -/
theorem C77_gpnh_iterations {env : Env K} (obj : GPNHObj env.rng) (hreq : obj.require = true)
    (data : Arr2 K) (dictionary weights : Option (Arr2 K)) (kw : InitKwargs) (ud uw : Bool)
    (obj' : GPNHObj env.rng) (G : Option (Arr2 K)) (info : FitInfo K)
    (h : gpnhFitTransform env obj data dictionary weights kw ud uw = Py.ok (obj', G, info)) :
    ∃ (k m : ℕ) (tol c : K) (g' : env.rng.G) (W0 : Matrix (Fin data.rows) (Fin k) K)
      (S0 : Matrix (Fin k) (Fin data.cols) K),
      obj.maxIterations = .int m ∧ obj.tolerance.Is tol ∧ obj'.nIter_ = some info.nIter ∧
      obj'.cost_ = some c ∧
      gpnhStart env data.val k obj.init dictionary weights ud uw kw obj.randomState =
        Py.ok ((S0, W0), g') ∧
      info.nIter * tol ≤ gpnhCost obj.epsilonStates data.val W0 S0 - c ∧
      (0 ≤ obj.epsilonStates → info.nIter * tol ≤ gpnhCost obj.epsilonStates data.val W0 S0 ∧
        (gpnhCost obj.epsilonStates data.val W0 S0 < ((m : K) - 1) * tol → info.nIter + 1 < m)) := by
  obtain ⟨o, i, ho, hres⟩ := gpnhFitTransform_eq_ok h
  obtain ⟨p, start, r, hp, hst, hr, hoi⟩ := gpnhConvexCoding_eq_ok ho
  simp only [Prod.mk.injEq] at hres hoi
  obtain ⟨rfl, rfl, rfl⟩ := hres
  obtain ⟨rfl, rfl⟩ := hoi
  obtain ⟨-, -, hm, -, hm0, -⟩ := checkParams_ok hp
  have hcost := gpnhIterate_cost (s := GPNHState.initializeWorkspace obj.ls data.val
    start.1.2 start.1.1) rfl hr
  rw [hreq] at hr
  obtain ⟨ha, -⟩ := gpnhIterate_monotone (s := GPNHState.initializeWorkspace obj.ls data.val
    start.1.2 start.1.1) rfl hr
  obtain ⟨h1, h2⟩ := iterate_stops hm0 (gpnhIterate_eq_ok.1 hr).2
  have hl := iterate_trace_length (gpnhIterate_eq_ok.1 hr).2
  simp only [GPNHState.evaluateCost_eq _ (GPNHState.initializeWorkspace obj.ls data.val start.1.2
    start.1.1) rfl] at h1
  have hle := StopsBy.length_le h1 ha h2
  rw [hl, Nat.add_sub_cancel] at hle
  have hmax : r.nIter + 1 ≤ p.2.1 := by
    obtain ⟨-, -, -, -, -, h3, -⟩ := h1
    rwa [hl] at h3
  refine ⟨p.1, p.2.1, p.2.2, r.cost, start.2, start.1.2, start.1.1, hm, checkParams_tolerance hp,
    rfl, rfl, hst, hle, fun he => ?_⟩
  have hle' := hle.trans (sub_le_self _ (by rw [hcost]; exact gpnhCost_nonneg he _ _ _))
  exact ⟨hle', limit_not_reached hmax hle'⟩

/-- C77 for kernel archetypal analysis; the cost is not negative if the kernel is symmetric and
positive semidefinite. -/
theorem C77_kaa_iterations {n : ℕ} {env : Env K} (obj : KAAObj env.rng) (hreq : obj.require = true)
    (A : Matrix (Fin n) (Fin n) K) (dictionary weights : Option (Arr2 K)) (kw : InitKwargs)
    (ud uw : Bool) (obj' : KAAObj env.rng) (G : Option (Arr2 K)) (info : FitInfo K)
    (h : kaaFitTransform env obj (Arr2.of A) dictionary weights kw ud uw =
      Py.ok (obj', G, info)) :
    ∃ (k m : ℕ) (tol c : K) (g' : env.rng.G) (S0 : Matrix (Fin n) (Fin k) K)
      (C0 : Matrix (Fin k) (Fin n) K),
      obj.maxIterations = .int m ∧ obj.tolerance.Is tol ∧ obj'.nIter_ = some info.nIter ∧
      obj'.cost_ = some c ∧
      kaaStart env A k obj.init dictionary weights ud uw kw obj.randomState.start =
        Py.ok ((C0, S0), g') ∧
      info.nIter * tol ≤ kaaCost A S0 C0 - c ∧
      ((∀ i j, A i j = A j i) → (∀ v : Fin n → K, 0 ≤ ∑ i, ∑ j, v i * A i j * v j) →
        info.nIter * tol ≤ kaaCost A S0 C0 ∧
        (kaaCost A S0 C0 < ((m : K) - 1) * tol → info.nIter + 1 < m)) := by
  unfold kaaFitTransform at h
  rw [kernelAA_of] at h
  obtain ⟨res, hres, h⟩ := Py.bind_eq_ok.1 h
  obtain ⟨p, start, r, hp, hst, hr, rfl⟩ := kernelAASquare_eq_ok hres
  simp only [Py.pure_eq, Py.ok.injEq, kaaFinish, Prod.mk.injEq] at h
  obtain ⟨rfl, rfl, rfl⟩ := h
  obtain ⟨-, -, hm, -, hm0, -⟩ := checkParams_ok hp
  have hg := KAAState.initializeWorkspace_good obj.ls A start.1.2 start.1.1
  have hcost := kaaIterate_cost hg hr
  rw [hreq] at hr
  obtain ⟨ha, -⟩ := kaaIterate_monotone hg hr
  obtain ⟨h1, h2⟩ := iterate_stops hm0 hr
  have hl := iterate_trace_length hr
  rw [KAAState.evaluateCost_eq _ _ hg.alpha, hg.Kmat] at h1
  have hle := StopsBy.length_le h1 ha h2
  rw [hl, Nat.add_sub_cancel] at hle
  have hmax : r.nIter + 1 ≤ p.2.1 := by
    obtain ⟨-, -, -, -, -, h3, -⟩ := h1
    rwa [hl] at h3
  refine ⟨p.1, p.2.1, p.2.2, r.cost, start.2, start.1.2, start.1.1, hm, checkParams_tolerance hp,
    rfl, rfl, hst, hle, fun hs hpsd => ?_⟩
  have hle' := hle.trans (sub_le_self _ (by rw [hcost]; exact kaaCost_nonneg hs hpsd _ _))
  exact ⟨hle', limit_not_reached hmax hle'⟩

/-- C77 for MTD convex coding. -/
theorem C77_mtd_iterations {p : ℕ} {env : Env K} (obj : MTDObj env.rng p)
    (hreq : obj.require = true)
    (data : Arr2 K) (args : MTDArgs K) (fl : MTDFlags) (kw : InitKwargs)
    (obj' : MTDObj env.rng p) (G : Option (Arr2 K)) (info : FitInfo K)
    (h : mtdFitTransform env obj data args fl kw = Py.ok (obj', G, info)) :
    ∃ (k m : ℕ) (tol c : K) (g' : env.rng.G) (S0 : Matrix (Fin k) (Fin data.cols) K)
      (W0 : Matrix (Fin data.rows) (Fin k) K) (w0 : Fin p → K)
      (A0 : Fin p → Matrix (Fin k) (Fin k) K) (start : K),
      obj.maxIterations = .int m ∧ obj.tolerance.Is tol ∧ obj'.nIter_ = some info.nIter ∧
      obj'.cost_ = some c ∧
      mtdStart env data.val k p obj.init args fl kw obj.randomState =
        Py.ok ((S0, W0, w0, A0), g') ∧
      start = mtdCost obj.epsilonStates obj.epsilonWeights obj.lags data.val W0 S0 w0 A0 ∧
      info.nIter * tol ≤ start - c ∧
      (0 ≤ obj.epsilonStates → 0 ≤ obj.epsilonWeights → info.nIter * tol ≤ start ∧
        (start < ((m : K) - 1) * tol → info.nIter + 1 < m)) := by
  obtain ⟨o, i, ho, hres⟩ := mtdFitTransform_eq_ok h
  obtain ⟨q, start, r, hq, hst, hr, hoi⟩ := mtdConvexCoding_eq_ok ho
  simp only [Prod.mk.injEq] at hres hoi
  obtain ⟨rfl, rfl, rfl⟩ := hres
  obtain ⟨rfl, rfl⟩ := hoi
  obtain ⟨-, -, hm, -, hm0, -⟩ := checkParams_ok hq
  have hcost := mtdSolve_cost hr
  rw [hreq] at hr
  obtain ⟨ha, -⟩ := mtdSolve_monotone hr
  obtain ⟨h1, h2⟩ := iterate_stops hm0 (mtdSolve_eq_ok.1 hr).2
  have hl := iterate_trace_length (mtdSolve_eq_ok.1 hr).2
  simp only [MTDState.evaluateCost_eq (mtdInitialState_good obj.config data.val start.1)] at h1
  have hle := StopsBy.length_le h1 ha h2
  rw [hl, Nat.add_sub_cancel] at hle
  have hmax : r.nIter + 1 ≤ q.2.1 := by
    obtain ⟨-, -, -, -, -, h3, -⟩ := h1
    rwa [hl] at h3
  refine ⟨q.1, q.2.1, q.2.2, r.cost, start.2, start.1.1, start.1.2.1, start.1.2.2.1, start.1.2.2.2,
    _, hm, checkParams_tolerance hq, rfl, rfl, hst, rfl, hle, fun he he' => ?_⟩
  have hle' := hle.trans (sub_le_self _ (by
    rw [hcost]
    exact add_nonneg (gpnhCost_nonneg he _ _ _) (mtdPenalty_nonneg he' _ _ _ _)))
  exact ⟨hle', limit_not_reached hmax hle'⟩

/-- C77 for the fit of the reduced-order model. -/
theorem C77_crom_iterations {T k p : ℕ} (c : CROMConfig p K) (hT : T ≠ 0) (tol : K)
    (m : ℕ) (hm : 0 < m) (W : Matrix (Fin T) (Fin k) K) (w : Fin p → K)
    (A : Fin p → Matrix (Fin k) (Fin k) K) (r : IterResult (CROMState T k p K) K)
    (h : cromSolve c true tol m W w A = Py.ok r) :
    r.nIter * tol ≤ mtdPenalty 1 c.lags W w A - r.cost ∧
      r.nIter * tol ≤ mtdPenalty 1 c.lags W w A ∧
      (mtdPenalty 1 c.lags W w A < ((m : K) - 1) * tol → r.nIter + 1 < m) := by
  obtain ⟨h1, hl, h2⟩ := C76_crom_stops c hT true tol m hm W w A r h
  obtain ⟨-, hcost, hmon, -⟩ := cromSolve_facts hT h
  have hle := StopsBy.length_le h1 (hmon rfl).1 h2
  rw [hl, Nat.add_sub_cancel] at hle
  have hmax : r.nIter + 1 ≤ m := by
    obtain ⟨-, -, -, -, -, h3, -⟩ := h1
    rwa [hl] at h3
  have hle' := hle.trans (sub_le_self _ (by rw [hcost]; exact mtdPenalty_nonneg zero_le_one _ _ _ _))
  exact ⟨hle, hle', limit_not_reached hmax hle'⟩

/-- C77 for FEM-BV-k-means with an exact solver, required decrease or not.  As nothing is known of
the starting weights, the decrease is counted from the end of the first iteration. -/
theorem C77_fembv_iterations {R : Rng ℝ} {solver : LPSolver ℝ} (hs : solver.Exact)
    (obj : FEMKMeansObj R) (data : Arr2 ℝ) (args : FEMArgs ℝ) (obj' : FEMKMeansObj R)
    (G : Option (Arr2 ℝ)) (info : FEMInfo ℝ)
    (h : femKMeansFitTransform R solver obj data args = Py.ok (obj', G, info)) :
    ∃ tol first last : ℝ, obj.tolerance.Is tol ∧ info.trace.head? = some first ∧
      obj'.cost_ = some last ∧ obj'.nIter_ = some info.nIter ∧
      (info.nIter - 1 : ℕ) * tol ≤ first - last := by
  unfold femKMeansFitTransform at h
  obtain ⟨⟨o, i⟩, hres, h⟩ := Py.bind_eq_ok.1 h
  have hmono := ((C50_costs_decrease hs obj data args).2 _ _ hres).1
  obtain ⟨p, theta, gamma, tv, con, r, hp, hth, hga, htv, hcon, hr, hoi⟩ := femKMeansRun_eq_ok hres
  simp only [Py.pure_eq, Py.ok.injEq, Prod.mk.injEq, femFinish] at h hoi
  obtain ⟨rfl, rfl, rfl⟩ := h
  obtain ⟨rfl, rfl⟩ := hoi
  obtain ⟨-, -, -, -, hm0, -⟩ := checkParams_ok hp
  obtain ⟨h1, h2⟩ := femIterate_stops hm0 hr
  have hl := femIterate_trace_length hr
  change r.trace.Pairwise (· ≥ ·) at hmono
  cases htr : r.trace with
  | nil => rw [htr] at hl; simp at hl
  | cons x l =>
    rw [htr] at h1 h2 hl hmono
    have hle := StopsBy.length_le_head h1 (List.isChain_iff_pairwise.2 hmono) h2
    have hn : l.length = r.nIter := by simpa using hl
    rw [hn] at hle
    exact ⟨p.2.2, x, r.cost, checkParams_tolerance hp, rfl, rfl, rfl, hle⟩

/-- C77 for FEM-BV-VARX with equal memories, an exact solver and minimisers of least squares. -/
theorem C77_femvarx_iterations {R : Rng ℝ} {solver : LPSolver ℝ} {lstsq : LstSq} {mem : Memory}
    (hs : solver.Exact) (hls : lstsq.Exact) (he : lstsq.Ends) (obj : FEMVARXObj R)
    (hc : obj.Constructed) {L : ℤ} (hL : ∀ a ∈ obj.memory, a = L) (data : Arr2 ℝ)
    (args : FEMVARXArgs) (obj' : FEMVARXObj R) (info : FEMInfo ℝ)
    (h : femVARXRun R solver lstsq mem obj data args = Py.ok (obj', info)) :
    ∃ tol first : ℝ, obj.tolerance.Is tol ∧ info.trace.head? = some first ∧
      (info.nIter - 1 : ℕ) * tol ≤ first - info.cost := by
  obtain ⟨k, m, tol, -, start, g', G0, -, htol, -, -, h1, hl, h2, -⟩ :=
    C76_femvarx_stops obj data args obj' info h
  obtain ⟨p, st, r, tv, gamma, con, -, -, -, -, -, -, -, -, -, -, -, -, -, -, -, hmono, hout⟩ :=
    varx_run_good hs hls he hc hL h
  rw [Prod.ext_iff] at hout
  have hmono' : info.trace.Pairwise (· ≥ ·) := by
    rw [show info = (femVARXFinish obj data args p st r).2 from hout.2]
    exact hmono
  cases htr : info.trace with
  | nil => rw [htr] at hl; simp at hl
  | cons x l =>
    rw [htr] at h1 h2 hl hmono'
    have hle := StopsBy.length_le_head h1 (List.isChain_iff_pairwise.2 hmono') h2
    have hn : l.length = info.nIter := by simpa using hl
    rw [hn] at hle
    exact ⟨tol, x, htol, rfl, hle⟩

/-! ### C78: the limit on the number of iterations -/

/-- C78.  `max_iterations` only cuts a fit short.  If the fit with limit `m'` succeeds, so does the
fit with a smaller limit `m`; its costs are the first `m` of the longer fit, its `cost_` is not
smaller if monotone decrease is required, and if the longer fit took at most `m` iterations the two
agree in everything but the setting. -/
theorem C78_gpnh_limit {env : Env K} (obj : GPNHObj env.rng) (m m' : ℕ) (hm : 0 < m) (hle : m ≤ m')
    (data : Arr2 K) (dictionary weights : Option (Arr2 K)) (kw : InitKwargs) (ud uw : Bool)
    (o' : GPNHObj env.rng) (G' : Option (Arr2 K)) (i' : FitInfo K)
    (h : gpnhFitTransform env { obj with maxIterations := .int m' } data dictionary weights kw ud uw =
      Py.ok (o', G', i')) :
    ∃ (o : GPNHObj env.rng) (G : Option (Arr2 K)) (i : FitInfo K),
      gpnhFitTransform env { obj with maxIterations := .int m } data dictionary weights kw ud uw =
        Py.ok (o, G, i) ∧
      i.trace = i'.trace.take m ∧ (obj.require = true → i'.cost ≤ i.cost) ∧
      (i'.nIter < m → G = G' ∧ i.cost = i'.cost ∧ i.nIter = i'.nIter ∧
        o' = { o with maxIterations := .int m' }) := by
  obtain ⟨o, i, ho, hres⟩ := gpnhFitTransform_eq_ok h
  obtain ⟨p, start, r', hp, hst, hr', hoi⟩ := gpnhConvexCoding_eq_ok ho
  simp only [Prod.mk.injEq] at hres hoi
  obtain ⟨rfl, rfl, rfl⟩ := hres
  obtain ⟨rfl, rfl⟩ := hoi
  obtain ⟨-, -, hm', -, hm0, -⟩ := checkParams_ok hp
  have hmm : p.2.1 = m' := by simpa using hm'.symm
  have hlen := iterate_trace_length (gpnhIterate_eq_ok.1 hr').2
  obtain ⟨hDT, hit⟩ := gpnhIterate_eq_ok.1 hr'
  rw [hmm] at hit
  obtain ⟨r, hr, htr, heq⟩ := iterate_prefix hm hle hit
  have hp' : checkParams (defaultComponents obj.nComponents data.cols) (.int m) obj.tolerance =
      Py.ok (p.1, m, p.2.2) := checkParams_maxIter hp hm
  have hfit := gpnhConvexCoding_of_steps (obj := { obj with maxIterations := .int m }) hp' hst
    (gpnhIterate_eq_ok.2 ⟨hDT, hr⟩)
  refine ⟨_, _, _, (by unfold gpnhFitTransform; rw [hfit]; rfl), htr, fun hreq => ?_, fun hlt => ?_⟩
  · have hmono := (iterate_monotone (hreq ▸ hit)).1
    have h2 := (iterate_stops (hm.trans_le hle) hit).2
    have h3 := (iterate_stops hm hr).2
    rw [htr] at h3
    exact last_take_ge (List.IsChain.of_cons hmono) h3 h2
  · obtain rfl := heq (by rw [hlen]; exact hlt)
    exact ⟨rfl, rfl, rfl, rfl⟩

/-- C78 for kernel archetypal analysis. -/
theorem C78_kaa_limit {n : ℕ} {env : Env K} (obj : KAAObj env.rng) (m m' : ℕ) (hm : 0 < m)
    (hle : m ≤ m')
    (A : Matrix (Fin n) (Fin n) K) (dictionary weights : Option (Arr2 K)) (kw : InitKwargs)
    (ud uw : Bool) (o' : KAAObj env.rng) (G' : Option (Arr2 K)) (i' : FitInfo K)
    (h : kaaFitTransform env { obj with maxIterations := .int m' } (Arr2.of A) dictionary weights kw
      ud uw = Py.ok (o', G', i')) :
    ∃ (o : KAAObj env.rng) (G : Option (Arr2 K)) (i : FitInfo K),
      kaaFitTransform env { obj with maxIterations := .int m } (Arr2.of A) dictionary weights kw
        ud uw = Py.ok (o, G, i) ∧
      i.trace = i'.trace.take m ∧ (obj.require = true → i'.cost ≤ i.cost) ∧
      (i'.nIter < m → G = G' ∧ i.cost = i'.cost ∧ i.nIter = i'.nIter ∧
        o' = { o with maxIterations := .int m' }) := by
  unfold kaaFitTransform at h ⊢
  rw [kernelAA_of] at h ⊢
  obtain ⟨res, hres, h⟩ := Py.bind_eq_ok.1 h
  obtain ⟨p, start, r', hp, hst, hit, rfl⟩ := kernelAASquare_eq_ok hres
  simp only [Py.pure_eq, Py.ok.injEq, kaaFinish, Prod.mk.injEq] at h
  obtain ⟨rfl, rfl, rfl⟩ := h
  obtain ⟨-, -, hm', -, hm0, -⟩ := checkParams_ok hp
  have hmm : p.2.1 = m' := by simpa using hm'.symm
  have hlen := iterate_trace_length hit
  rw [hmm] at hit
  obtain ⟨r, hr, htr, heq⟩ := iterate_prefix hm hle hit
  have hp' : checkParams (defaultComponents obj.nComponents n) (.int m) obj.tolerance =
      Py.ok (p.1, m, p.2.2) := checkParams_maxIter hp hm
  have hfit := kernelAASquare_of_steps (obj := { obj with maxIterations := .int m }) hp' hst hr
  refine ⟨_, _, _, (by rw [hfit]; rfl), htr, fun hreq => ?_, fun hlt => ?_⟩
  · have hmono := (iterate_monotone (hreq ▸ hit)).1
    have h2 := (iterate_stops (hm.trans_le hle) hit).2
    have h3 := (iterate_stops hm hr).2
    rw [htr] at h3
    exact last_take_ge (List.IsChain.of_cons hmono) h3 h2
  · obtain rfl := heq (by rw [hlen]; exact hlt)
    exact ⟨rfl, rfl, rfl, rfl⟩

/-- C78 for MTD convex coding. -/
theorem C78_mtd_limit {p : ℕ} {env : Env K} (obj : MTDObj env.rng p) (m m' : ℕ) (hm : 0 < m)
    (hle : m ≤ m')
    (data : Arr2 K) (args : MTDArgs K) (fl : MTDFlags) (kw : InitKwargs)
    (o' : MTDObj env.rng p) (G' : Option (Arr2 K)) (i' : FitInfo K)
    (h : mtdFitTransform env { obj with maxIterations := .int m' } data args fl kw =
      Py.ok (o', G', i')) :
    ∃ (o : MTDObj env.rng p) (G : Option (Arr2 K)) (i : FitInfo K),
      mtdFitTransform env { obj with maxIterations := .int m } data args fl kw =
        Py.ok (o, G, i) ∧
      i.trace = i'.trace.take m ∧ (obj.require = true → i'.cost ≤ i.cost) ∧
      (i'.nIter < m → G = G' ∧ i.cost = i'.cost ∧ i.nIter = i'.nIter ∧
        o' = { o with maxIterations := .int m' }) := by
  obtain ⟨o, i, ho, hres⟩ := mtdFitTransform_eq_ok h
  obtain ⟨q, start, r', hq, hst, hr', hoi⟩ := mtdConvexCoding_eq_ok ho
  simp only [Prod.mk.injEq] at hres hoi
  obtain ⟨rfl, rfl, rfl⟩ := hres
  obtain ⟨rfl, rfl⟩ := hoi
  obtain ⟨-, -, hm', -, hm0, -⟩ := checkParams_ok hq
  have hmm : q.2.1 = m' := by simpa using hm'.symm
  have hlen := iterate_trace_length (mtdSolve_eq_ok.1 hr').2
  obtain ⟨hDT, hit⟩ := mtdSolve_eq_ok.1 hr'
  rw [hmm] at hit
  obtain ⟨r, hr, htr, heq⟩ := iterate_prefix hm hle hit
  have hq' : checkParams (defaultComponents obj.nComponents data.cols) (.int m) obj.tolerance =
      Py.ok (q.1, m, q.2.2) := checkParams_maxIter hq hm
  have hfit := mtdConvexCoding_of_steps (obj := { obj with maxIterations := .int m }) hq' hst
    (mtdSolve_eq_ok.2 ⟨hDT, hr⟩)
  refine ⟨_, _, _, (by unfold mtdFitTransform; rw [hfit]; rfl), htr, fun hreq => ?_, fun hlt => ?_⟩
  · have hmono := (iterate_monotone (hreq ▸ hit)).1
    have h2 := (iterate_stops (hm.trans_le hle) hit).2
    have h3 := (iterate_stops hm hr).2
    rw [htr] at h3
    exact last_take_ge (List.IsChain.of_cons hmono) h3 h2
  · obtain rfl := heq (by rw [hlen]; exact hlt)
    exact ⟨rfl, rfl, rfl, rfl⟩

/-- C78 for the fit of the reduced-order model to given weights. -/
theorem C78_crom_limit {T k p : ℕ} (c : CROMConfig p K) (require : Bool) (tol : K)
    (m m' : ℕ) (hm : 0 < m) (hle : m ≤ m') (W : Matrix (Fin T) (Fin k) K) (w : Fin p → K)
    (A : Fin p → Matrix (Fin k) (Fin k) K) (r' : IterResult (CROMState T k p K) K)
    (h : cromSolve c require tol m' W w A = Py.ok r') :
    ∃ r, cromSolve c require tol m W w A = Py.ok r ∧ r.trace = r'.trace.take m ∧
      (require = true → r'.cost ≤ r.cost) ∧ (r'.nIter < m → r = r') := by
  unfold cromSolve at h ⊢
  split_ifs at h ⊢ with h1 h2 h3
  obtain ⟨r, hr, htr, heq⟩ := iterate_prefix hm hle h
  refine ⟨r, hr, htr, ?_, fun hlt => heq ?_⟩
  · rintro rfl
    have hmono := (iterate_monotone h).1
    have h2 := (iterate_stops (hm.trans_le hle) h).2
    have h3 := (iterate_stops hm hr).2
    rw [htr] at h3
    exact last_take_ge (List.IsChain.of_cons hmono) h3 h2
  · rw [iterate_trace_length h]
    exact hlt

/-- C78 for FEM-BV-k-means. -/
theorem C78_fembv_limit {R : Rng K} {solver : LPSolver K} (obj : FEMKMeansObj R) (m m' : ℕ)
    (hm : 0 < m) (hle : m ≤ m') (data : Arr2 K)
    (args : FEMArgs K) (o' : FEMKMeansObj R) (G' : Option (Arr2 K)) (i' : FEMInfo K)
    (h : femKMeansFitTransform R solver { obj with maxIterations := .int m' } data args =
      Py.ok (o', G', i')) :
    ∃ (o : FEMKMeansObj R) (G : Option (Arr2 K)) (i : FEMInfo K),
      femKMeansFitTransform R solver { obj with maxIterations := .int m } data args =
        Py.ok (o, G, i) ∧
      i.trace = i'.trace.take m ∧ (i'.trace.Pairwise (· ≥ ·) → i'.cost ≤ i.cost) ∧
      (i'.nIter < m → G = G' ∧ i.cost = i'.cost ∧ i.nIter = i'.nIter ∧
        o' = { o with maxIterations := .int m' }) := by
  unfold femKMeansFitTransform at h
  obtain ⟨res, hres, h⟩ := Py.bind_eq_ok.1 h
  obtain ⟨p, theta, gamma, tv, con, r', hp, hth, hga, htv, hcon, hit, rfl⟩ := femKMeansRun_eq_ok hres
  simp only [Py.pure_eq, Py.ok.injEq, femFinish, Prod.mk.injEq] at h
  obtain ⟨rfl, rfl, rfl⟩ := h
  obtain ⟨-, -, hm', -, hm0, -⟩ := checkParams_ok hp
  have hmm : p.2.1 = m' := by simpa using hm'.symm
  have hlen := femIterate_trace_length hit
  rw [hmm] at hit
  obtain ⟨r, hr, htr, heq⟩ := femIterate_prefix hm hle hit
  have hp' : checkParams (defaultComponents obj.nComponents data.cols) (.int m) obj.tolerance =
      Py.ok (p.1, m, p.2.2) := checkParams_maxIter hp hm
  have hfit : femKMeansRun R solver { obj with maxIterations := .int m } data args =
      Py.ok (femFinish { obj with maxIterations := .int m } data (p.1, m, p.2.2) gamma.2 r) := by
    rw [femKMeansRun_eq]
    refine Py.bind_eq_ok.2 ⟨(p.1, m, p.2.2), hp', Py.bind_eq_ok.2 ⟨theta, hth,
      Py.bind_eq_ok.2 ⟨gamma, hga, Py.bind_eq_ok.2 ⟨tv, htv, Py.bind_eq_ok.2 ⟨con, hcon,
        Py.bind_eq_ok.2 ⟨r, hr, rfl⟩⟩⟩⟩⟩⟩
  refine ⟨_, _, _, (by unfold femKMeansFitTransform; rw [hfit]; rfl), htr, fun hmono => ?_,
    fun hlt => ?_⟩
  · have h2 := (femIterate_stops (hm.trans_le hle) hit).2
    have h3 := (femIterate_stops hm hr).2
    rw [htr] at h3
    exact last_take_ge (List.isChain_iff_pairwise.2 hmono) h3 h2
  · obtain rfl := heq (by rw [hlen]; exact hlt)
    exact ⟨rfl, rfl, rfl, rfl⟩

/-- C78 for FEM-BV-VARX. -/
theorem C78_femvarx_limit {R : Rng ℝ} {solver : LPSolver ℝ} {lstsq : LstSq} {mem : Memory}
    (obj : FEMVARXObj R) (m m' : ℕ) (hm : 0 < m) (hle : m ≤ m') (data : Arr2 ℝ)
    (args : FEMVARXArgs) (o' : FEMVARXObj R) (i' : FEMInfo ℝ)
    (h : femVARXRun R solver lstsq mem { obj with maxIterations := .int m' } data args =
      Py.ok (o', i')) :
    ∃ (o : FEMVARXObj R) (i : FEMInfo ℝ),
      femVARXRun R solver lstsq mem { obj with maxIterations := .int m } data args = Py.ok (o, i) ∧
      i.trace = i'.trace.take m ∧ (i'.trace.Pairwise (· ≥ ·) → i'.cost ≤ i.cost) ∧
      (i'.nIter < m → i.cost = i'.cost ∧ i.nIter = i'.nIter ∧
        o' = { o with maxIterations := .int m' }) := by
  obtain ⟨p, hl, start, r', hp, hst, hr', hout⟩ := femVARXRun_eq_ok h
  obtain ⟨gamma, tv, con, hg, htv, hcon, hit, hgen⟩ := femVARXIterate_eq_ok hr'
  obtain ⟨r', g'⟩ := r'
  simp only at hit hgen
  subst hgen
  rw [Prod.ext_iff] at hout
  obtain ⟨rfl, rfl⟩ := hout
  obtain ⟨-, -, hm', -, hm0, -⟩ := checkParams_ok hp
  have hmm : p.2.1 = m' := by simpa using hm'.symm
  have hlen := femIterate_trace_length hit
  rw [hmm] at hit
  obtain ⟨r, hr, htr, heq⟩ := femIterate_prefix hm hle hit
  have hp' : checkParams (defaultComponents obj.nComponents data.cols) (.int m) obj.tolerance =
      Py.ok (p.1, m, p.2.2) := checkParams_maxIter hp hm
  have hfit : femVARXRun R solver lstsq mem { obj with maxIterations := .int m } data args =
      Py.ok (femVARXFinish { obj with maxIterations := .int m } data args (p.1, m, p.2.2) start
        (r, gamma.2)) := by
    unfold femVARXRun
    refine Py.bind_eq_ok.2 ⟨(p.1, m, p.2.2), hp', ?_⟩
    rw [dif_pos hl]
    refine Py.bind_eq_ok.2 ⟨start, hst, Py.bind_eq_ok.2 ⟨(r, gamma.2), ?_, rfl⟩⟩
    unfold femVARXIterate
    exact Py.bind_eq_ok.2 ⟨gamma, hg, Py.bind_eq_ok.2 ⟨tv, htv, Py.bind_eq_ok.2 ⟨con, hcon,
      Py.bind_eq_ok.2 ⟨r, hr, rfl⟩⟩⟩⟩
  refine ⟨_, _, hfit, htr, fun hmono => ?_, fun hlt => ?_⟩
  · have h2 := (femIterate_stops (hm.trans_le hle) hit).2
    have h3 := (femIterate_stops hm hr).2
    rw [htr] at h3
    exact last_take_ge (List.isChain_iff_pairwise.2 hmono) h3 h2
  · obtain rfl := heq (by rw [hlen]; exact hlt)
    exact ⟨rfl, rfl, rfl⟩

/-! ### Examples -/

/-- Costs 7, 5, 49/10 from a start of 10 with tolerance 1: stopped by the third iteration. -/
example : StopsBy (1 : ℚ) 10 10 [7, 5, 49 / 10] :=
  ⟨[10, 7], 5, 49 / 10, rfl, by norm_num [abs_of_nonpos], by norm_num,
    fun _ => by norm_num [abs_of_nonpos]⟩

/-- The loop would not have gone on after 69/10. -/
example : ¬ StopsBy (1 : ℚ) 10 10 [7, 69 / 10, 5] := by
  rintro ⟨e, prev, last, he, hch, -, -⟩
  have : e = [10, 7] ∧ prev = 69 / 10 := by
    have hl := congrArg List.length he
    rcases e with _ | ⟨a, _ | ⟨b, _ | ⟨c, e⟩⟩⟩ <;> simp at he hl
    exact ⟨by rw [he.1, he.2.1], he.2.2.1.symm⟩
  obtain ⟨rfl, rfl⟩ := this
  norm_num [abs_of_nonpos] at hch

/-- Nor would it have stopped after one iteration. -/
example : ¬ StopsBy (1 : ℚ) 10 10 [7] := by
  rintro ⟨e, prev, last, he, -, -, hfin⟩
  have : e = [] ∧ prev = 10 ∧ last = 7 := by
    have hl := congrArg List.length he
    rcases e with _ | ⟨a, e⟩ <;> simp at he hl
    exact ⟨rfl, he.1.symm, he.2.symm⟩
  obtain ⟨rfl, rfl, rfl⟩ := this
  norm_num at hfin

/-- C76, C77 and C78 for the fit of the example: at most four iterations with tolerance 1/1000, and
the fit with two iterations. -/
example : ∃ (start start' c : ℚ) (info info2 : FitInfo ℚ),
    StopsBy (1 / 1000) 4 start info.trace ∧ info.trace.getLast? = some c ∧
    info.nIter * (1 / 1000) ≤ start' - c ∧ info2.trace = info.trace.take 2 ∧
    info.cost ≤ info2.cost := by
  obtain ⟨⟨o, G, i⟩, h⟩ := demo_fit
  obtain ⟨k, m, tol, g', W0, S0, hm, ht, hst, h1, -, -, hlast, -⟩ :=
    C76_gpnh_stops demoObj demoData none none {} true true o G i h
  obtain ⟨k', m', tol', c, g'', W0', S0', hm', ht', hn', hc, hst', h2, -⟩ :=
    C77_gpnh_iterations demoObj rfl demoData none none {} true true o G i h
  obtain ⟨o2, G2, i2, -, h3, h4, -⟩ := C78_gpnh_limit demoObj 2 4 (by norm_num) (by norm_num)
    demoData none none {} true true o G i h
  have e1 : m = 4 := by
    have : (m : ℤ) = 4 := by simpa [demoObj] using hm.symm
    exact_mod_cast this
  have e2 : ∀ x, demoObj.tolerance.Is x → x = 1 / 1000 := by
    rintro x (hx | ⟨z, hz, -⟩)
    · simpa [demoObj] using hx.symm
    · simp [demoObj] at hz
  rw [e2 _ ht, e1] at h1
  rw [e2 _ ht'] at h2
  exact ⟨_, _, c, i, i2, h1, by rw [← hlast, hc], h2, h3, h4 rfl⟩

/-- The same for the other estimators. -/
example : ∃ (start : ℚ) (info info2 : FitInfo ℚ), StopsBy (1 / 1000) 4 start info.trace ∧
    info2.trace = info.trace.take 3 ∧ info.cost ≤ info2.cost := by
  obtain ⟨⟨o, G, i⟩, h⟩ := demo_kaa_fit
  obtain ⟨k, m, tol, g', W0, S0, hm, ht, hst, h1, -⟩ :=
    C76_kaa_stops demoKAA demoKernel none none {} true true o G i h
  obtain ⟨o2, G2, i2, -, h3, h4, -⟩ := C78_kaa_limit demoKAA 3 4 (by norm_num) (by norm_num)
    demoKernel none none {} true true o G i h
  have e1 : m = 4 := by
    have : (m : ℤ) = 4 := by simpa [demoKAA] using hm.symm
    exact_mod_cast this
  have e2 : ∀ x, demoKAA.tolerance.Is x → x = 1 / 1000 := by
    rintro x (hx | ⟨z, hz, -⟩)
    · simpa [demoKAA] using hx.symm
    · simp [demoKAA] at hz
  rw [e2 _ ht, e1] at h1
  exact ⟨_, i, i2, h1, h3, h4 rfl⟩

example : ∃ (start : ℚ) (info info2 : FitInfo ℚ), info.nIter * (1 / 1000) ≤ start ∧
    info2.trace = info.trace.take 1 := by
  obtain ⟨⟨o, G, i⟩, h⟩ := mtdDemo_fit
  obtain ⟨k, m, tol, c, g', S0, W0, w0, A0, start, hm, ht, -, -, hst, hs, -, h2⟩ :=
    C77_mtd_iterations mtdDemoObj rfl demoData {} {} {} o G i h
  obtain ⟨o2, G2, i2, -, h3, -⟩ := C78_mtd_limit mtdDemoObj 1 4 (by norm_num) (by norm_num)
    demoData {} {} {} o G i h
  have e2 : tol = 1 / 1000 := by
    rcases ht with hx | ⟨z, hz, -⟩
    · simpa [mtdDemoObj] using hx.symm
    · simp [mtdDemoObj] at hz
  rw [e2] at h2
  exact ⟨start, i, i2, (h2 (by norm_num [mtdDemoObj]) (by norm_num [mtdDemoObj])).1, h3⟩

example : ∃ (T k : ℕ) (m : ℕ) (tol start : ℚ) (r r2 : IterResult (CROMState T k 2 ℚ) ℚ),
    StopsBy tol m start r.trace ∧ r.nIter * tol ≤ start ∧ r2.trace = r.trace.take 1 := by
  obtain ⟨⟨o, G, i⟩, h⟩ := cromDemo_fit
  obtain ⟨k, mi, tol, o1, i1, W, S, w0, A0, g1, g2, r, hk, hT, hD, hm, ho, hG, hS, hd, hls, -, hinit,
    hn, hmi, htol, hw, hA, hr, hres⟩ := cromFitTransform_eq_ok h
  obtain ⟨h1, -⟩ := C76_crom_stops _ hT _ tol mi hm W w0 A0 r hr
  obtain ⟨-, h2, -⟩ := C77_crom_iterations _ hT tol mi hm W w0 A0 r hr
  obtain ⟨r2, -, h3, -⟩ := C78_crom_limit _ _ tol 1 mi (by norm_num) hm W w0 A0 r hr
  exact ⟨_, _, mi, tol, _, r, r2, h1, h2, h3⟩

/-- A transform by FEM-BV-k-means runs the same loop. -/
example : ∃ (start : ℝ) (info : FEMInfo ℝ), StopsBy (1 / 100) 5 start info.trace := by
  obtain ⟨solver, hs⟩ := exists_exact_solver (K := ℝ)
  obtain ⟨r, h⟩ := demoFEM_transform hs
  obtain ⟨⟨o, G, i⟩, hf⟩ : ∃ x, femKMeansFitTransform demoRngReal solver demoFEM demoFEMData
      { updateParameters := false, updateWeights := true } = Py.ok x := by
    unfold femKMeansFitTransform
    rw [h, Py.ok_bind]
    exact ⟨_, rfl⟩
  obtain ⟨k, m, tol, g1, g2, Theta0, G0, hm, ht, -, -, h1, -⟩ := C76_fembv_stops _ _ _ _ _ _ hf
  have e1 : m = 5 := by
    have : (m : ℤ) = 5 := by simpa [demoFEM] using hm.symm
    exact_mod_cast this
  have e2 : tol = 1 / 100 := by
    rcases ht with hx | ⟨z, hz, -⟩
    · simpa [demoFEM] using hx.symm
    · simp [demoFEM] at hz
  rw [e1, e2] at h1
  exact ⟨_, _, h1⟩

example (mem : Memory) : ∃ (start tol first : ℝ) (m : ℕ) (info : FEMInfo ℝ),
    StopsBy tol m start info.trace ∧ info.trace.head? = some first := by
  obtain ⟨solver, lstsq, hs, hls, he, hr, htot⟩ := exists_exact_tools
  obtain ⟨⟨obj', info⟩, h⟩ := demoVARX_fit (mem := mem) hs htot true
  obtain ⟨k, m, tol, hl, st, g', G0, -, -, -, -, h1, -⟩ := C76_femvarx_stops _ _ _ _ _ h
  obtain ⟨tol', first, -, h2, -⟩ := C77_femvarx_iterations hs hls he _ demoVARX_constructed
    demoVARX_memory _ _ _ _ h
  exact ⟨_, tol, first, m, info, h1, h2⟩

end Reor
