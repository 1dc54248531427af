import Verif.Props.MTDStationary
import Verif.Props.ConvergeDefaults
import Verif.Props.CROMSym

/-!
C115: the parameters fitted by `GPNHConvexCodingCROM` are optimal, exactly where the updates stop and
approximately where the fit does.
-/

namespace Reor

set_option linter.unusedSectionVars false

open scoped BigOperators Matrix
open Spec

variable {K : Type} [Field K] [LinearOrder K] [IsStrictOrderedRing K]
variable {T D k p : ℕ}

/-- C115.  A completed update leaves the order weights unchanged exactly if no other order weights on
the simplex give a smaller residual with the same transition matrices. -/
theorem C115_crom_order_weights_fixed_iff_optimal (c : CROMConfig p K) (h1 : 0 < c.ls.sigmaOne)
    (hlag : ∀ i, 1 ≤ c.lags i) (hp : 1 ≤ p) (s s' : CROMState T k p K) (hs : CROMCoherent c s)
    (hW : RowStochastic s.Gamma) (hw : IsProb s.orderWeights)
    (hA : ∀ i, ColStochastic (s.transitionMatrices i)) (ha : 0 < s.alphaParameters)
    (h : s.updateParameters c = Py.ok s') :
    s'.orderWeights = s.orderWeights ↔ ∀ w, IsProb w →
      mtdPenalty 1 c.lags s.Gamma s.orderWeights s.transitionMatrices ≤
      mtdPenalty 1 c.lags s.Gamma w s.transitionMatrices := by
  have := C96_mtd_order_weights_fixed_iff_optimal c.toMTD h1 hlag zero_le_one hp (s.toMTD c)
    (s'.toMTD c) (mtdCoherent_iff.2 (crom_good_iff.2 hs)) hW hw hA ha (CROMState.updateParameters_ok h)
  refine this.trans (forall_congr' fun w => imp_congr Iff.rfl ?_)
  have e : ∀ w A, mtdCost c.toMTD.epsilonStates c.toMTD.epsilonWeights c.toMTD.lags
      (s.toMTD c).X (s.toMTD c).Gamma (s.toMTD c).S w A = mtdPenalty 1 c.lags s.Gamma w A :=
    fun w A => mtdCost_crom _ _ _ _
  rw [e, e]
  rfl

/-- C115.  A completed update leaves the transition matrices unchanged exactly if no other transition
matrices with columns on the simplex give a smaller residual with the same order weights. -/
theorem C115_crom_transition_matrices_fixed_iff_optimal (c : CROMConfig p K)
    (h1 : 0 < c.ls.sigmaOne) (hk : 1 ≤ k) (s s' : CROMState T k p K) (hs : CROMCoherent c s)
    (hA : ∀ i, ColStochastic (s.transitionMatrices i)) (ha : 0 < s.alphaParameters)
    (h : s.updateParameters c = Py.ok s') :
    s'.transitionMatrices = s.transitionMatrices ↔
      ∀ B : Fin p → Matrix (Fin k) (Fin k) K, (∀ i, ColStochastic (B i)) →
      mtdPenalty 1 c.lags s.Gamma s.orderWeights s.transitionMatrices ≤
      mtdPenalty 1 c.lags s.Gamma s.orderWeights B := by
  have := C96_mtd_transition_matrices_fixed_iff_optimal c.toMTD h1 zero_le_one hk (s.toMTD c)
    (s'.toMTD c) (mtdCoherent_iff.2 (crom_good_iff.2 hs)) hA ha (CROMState.updateParameters_ok h)
  refine this.trans (forall_congr' fun B => imp_congr Iff.rfl ?_)
  have e : ∀ w A, mtdCost c.toMTD.epsilonStates c.toMTD.epsilonWeights c.toMTD.lags
      (s.toMTD c).X (s.toMTD c).Gamma (s.toMTD c).S w A = mtdPenalty 1 c.lags s.Gamma w A :=
    fun w A => mtdCost_crom _ _ _ _
  rw [e, e]
  rfl

/-- The residual of stochastic parameters on stochastic weights is bounded. -/
theorem mtdPenalty_le_of_stochastic (lags : Fin p → ℕ) {W : Matrix (Fin T) (Fin k) K}
    {w : Fin p → K} {A : Fin p → Matrix (Fin k) (Fin k) K} (hW : RowStochastic W) (hw : IsProb w)
    (hA : ∀ i, ColStochastic (A i)) :
    mtdPenalty 1 lags W w A ≤ mtdCoef T k 1 lags * ((2 + 2 * (T * (p * k))) * T) := by
  have hco := mtdCoef_nonneg (T := T) (k := k) (zero_le_one (α := K)) lags
  have h1 : mtdCoef T k 1 lags * frobSq (mtdRes lags W w A) ≤
      mtdCoef T k 1 lags * ((2 + 2 * (T * (p * k))) * T) :=
    mul_le_mul_of_nonneg_left ((frobSq_mtdRes_le lags W hw hA).trans
      (mul_le_mul_of_nonneg_left (frobSq_rowStochastic hW) (by positivity))) hco
  rw [mtdPenalty_eq]
  split_ifs
  · exact mul_nonneg hco (by positivity)
  · exact h1

/-- The settings of a fit that returned are those used for the parameters. -/
theorem cromFitTransform_settings {env : Env K} {obj : CROMObj env.rng p} {data : Arr2 K} {t : K}
    {m : ℕ} (hc : obj.base.nComponents = .int k) (htl : obj.base.tolerance = .real t)
    (hmi : obj.base.maxIterations = .int m)
    {dictionary weights : Option (Arr2 K)} {kw : InitKwargs} {ud uw : Bool}
    {obj' : CROMObj env.rng p} {G : Option (Arr2 K)} {info : FitInfo K}
    (h : cromFitTransform env obj data dictionary weights kw ud uw = Py.ok (obj', G, info)) :
    ∃ (o : GPNHObj env.rng) (W : Matrix (Fin data.rows) (Fin k) K)
      (w0 : Fin p → K) (A0 : Fin p → Matrix (Fin k) (Fin k) K) (g1 g2 : env.rng.G)
      (r : IterResult (CROMState data.rows k p K) K),
      gpnhFitTransform env obj.base data dictionary weights kw ud uw =
        Py.ok (o, some (Arr2.of W), info) ∧ data.rows ≠ 0 ∧
      mtdDrawOrderWeights env.rng p o.randomState = Py.ok (w0, g1) ∧
      mtdDrawTransitionMatrices env.rng k p g1 = Py.ok (A0, g2) ∧
      cromSolve obj.config obj.base.require t m W w0 A0 = Py.ok r ∧
      obj'.vars = some ⟨k, r.state.orderWeights, r.state.transitionMatrices⟩ ∧
      G = some (Arr2.of W) := by
  unfold cromFitTransform at h
  obtain ⟨⟨o, G, info⟩, ho, h⟩ := Py.bind_eq_ok.1 h
  obtain ⟨q, hq, h⟩ := Py.bind_eq_ok.1 h
  obtain ⟨o1, i1, ho1, hres⟩ := gpnhFitTransform_eq_ok ho
  obtain ⟨⟨k', m', t'⟩, start, r1, hq1, hst, hr1, hoi⟩ := gpnhConvexCoding_eq_ok ho1
  obtain ⟨-, e1, e2, hk, hm, -⟩ := checkParams_ok hq1
  have e3 := checkParams_tolerance hq1
  rw [hc] at e1
  rw [hmi] at e2
  rw [htl] at e3
  simp only [defaultComponents, NumArg.int.injEq, Nat.cast_inj] at e1 e2
  simp only [NumArg.real.injEq, reduceCtorEq, false_and, exists_false, or_false] at e3
  subst e1 e2 e3
  simp only [Prod.mk.injEq] at hres hoi
  obtain ⟨rfl, rfl, rfl⟩ := hres
  obtain ⟨rfl, rfl⟩ := hoi
  simp only at hq
  rw [hq1] at hq
  simp only [Py.ok.injEq] at hq
  subst hq
  simp only at h
  obtain ⟨f, hf, h⟩ := Py.bind_eq_ok.1 h
  unfold cromFitParameters at hf
  obtain ⟨w, hw, hf⟩ := Py.bind_eq_ok.1 hf
  obtain ⟨A, hA, hf⟩ := Py.bind_eq_ok.1 hf
  obtain ⟨r, hr, hf⟩ := Py.bind_eq_ok.1 hf
  simp only [Py.pure_eq, Py.ok.injEq, Prod.mk.injEq] at hf h
  obtain ⟨rfl, rfl, rfl⟩ := h
  subst hf
  exact ⟨_, r1.state.Gamma, w.1, A.1, w.2, A.2, r, ho,
    right_ne_zero_of_mul (gpnhIterate_eq_ok.1 hr1).1, hw, hA, hr, rfl, rfl⟩

/-- C115.  For every accuracy `ε` there is a tolerance, and for every smaller positive tolerance a
number of iterations, such that the parameters of every fit that returns have a residual on the fitted
weights that no other order weights and no other transition matrices undercut by more than `ε`.  The
tolerance and the number of iterations do not depend on the data, the coding or the random start.  The
step floor may be positive, if it is small compared with the curvature of the residual. -/
theorem C115_crom_fit_near_optimal [Archimedean K] (cfg : LSConfig K)
    (h1 : 0 < cfg.sigmaOne) (h2 : cfg.sigmaTwo < 1) (hg0 : 0 < cfg.gamma) (hg1 : cfg.gamma < 1)
    (hs0 : 0 ≤ cfg.stepSizeTolerance) (ha0 : 0 < cfg.alphaMin) (ha1 : cfg.alphaMin ≤ cfg.alphaMax)
    (hmem : cfg.memory = 1) (T : ℕ) (hk : 1 ≤ k) (lags : Fin p → ℕ) (hlag : ∀ i, 1 ≤ lags i)
    (ε : K) (hε : 0 < ε)
    (hf : cfg.Floor (max 1 cfg.alphaMax * mtdCurvature T 1 k ⟨lags, 0, 1, cfg⟩ 0)) :
    ∃ tol : K, 0 < tol ∧ ∀ t : K, 0 < t → t ≤ tol → ∃ M : ℕ, ∀ m : ℕ, M ≤ m →
      ∀ {env : Env K}, env.rng.Lawful → ∀ obj : CROMObj env.rng p, obj.base.ls = cfg →
      obj.lags = lags → obj.base.nComponents = .int k → obj.base.tolerance = .real t →
      obj.base.maxIterations = .int m →
      ∀ (D : ℕ) (X : Matrix (Fin T) (Fin D) K) (dictionary weights : Option (Arr2 K))
        (kw : InitKwargs),
      (obj.base.init = some "custom" → ∀ W, weights = some W → RowStochastic W.val) →
      ∀ (obj' : CROMObj env.rng p) (G : Option (Arr2 K)) (info : FitInfo K),
      cromFitTransform env obj (Arr2.of X) dictionary weights kw = Py.ok (obj', G, info) →
      ∃ (W : Matrix (Fin T) (Fin k) K) (w : Fin p → K) (A : Fin p → Matrix (Fin k) (Fin k) K),
        obj'.vars = some ⟨k, w, A⟩ ∧ G = some (Arr2.of W) ∧ RowStochastic W ∧ IsProb w ∧
        (∀ i, ColStochastic (A i)) ∧
        (∀ w', IsProb w' → mtdPenalty 1 lags W w A ≤ mtdPenalty 1 lags W w' A + ε) ∧
        ∀ A' : Fin p → Matrix (Fin k) (Fin k) K, (∀ i, ColStochastic (A' i)) →
          mtdPenalty 1 lags W w A ≤ mtdPenalty 1 lags W w A' + ε := by
  have hcfg : cfg.Descends := ⟨h1, h2, hg0, hg1, ha0, ha1⟩
  obtain ⟨tol, htol, key⟩ := mtdSolve_near_optimal (T := T) (D := 1) (k := k)
    (c := ⟨lags, 0, 1, cfg⟩) hcfg hmem hlag hk 0 le_rfl zero_le_one hε
    (B := mtdCoef T k 1 lags * ((2 + 2 * (T * (p * k))) * T)) (R := 0) le_rfl
    (fl := ⟨false, false, true⟩) (fun h => absurd h (by simp)) hs0 hf
  refine ⟨tol, htol, fun t ht0 ht => ?_⟩
  obtain ⟨M, hM⟩ := key t ht0 ht
  refine ⟨M, ?_⟩
  intro m hm env hR obj hls hla hc htl hmi D X dictionary weights kw hcu obj' G info h
  obtain ⟨o, W, w0, A0, g1, g2, r, ho, hT, hw, hA, hr, hv, hG⟩ := cromFitTransform_settings hc htl hmi h
  have hsafe : cfg.Safe := LSConfig.safe_of_sigma h1 h2
  obtain ⟨W', hW1, -, -, hW⟩ := C17_gpnh_fit_weights_stochastic_partial hR obj.base
    (by rw [hls]; exact hsafe) (Arr2.of X) dictionary weights kw hcu o _ info ho
  obtain rfl := Option.some.inj hW1
  have hW : RowStochastic W := hW
  have hcf : obj.config = ⟨lags, cfg⟩ := by
    unfold CROMObj.config
    rw [hls, hla]
  rw [hcf] at hr
  obtain ⟨hp, -, r', hr', hs, -⟩ := cromSolve_ok hT hr
  have hw0 := mtdDrawOrderWeights_ok hR (Nat.one_le_iff_ne_zero.2 hp) hw
  have hA0 := mtdDrawTransitionMatrices_ok hR hk hA
  obtain ⟨hGam, -, -, hst⟩ := cromSolve_facts hT hr
  obtain ⟨a, b⟩ := hst hsafe hk hw0 hA0
  have hn := hM obj.base.require m (cromPoint W w0 A0) r' hm hW hw0 hA0
    (le_of_eq (by simp [cromPoint, frobSq]))
    ((mtdCost_crom lags W w0 A0).le.trans (mtdPenalty_le_of_stochastic lags hW hw0 hA0)) hr'
  obtain ⟨-, -, hn⟩ := hn
  obtain ⟨n1, n2⟩ := hn rfl
  rw [hs] at n1 n2
  have e : ∀ w A, MTDConfig.cost ⟨lags, 0, 1, cfg⟩ (0 : Matrix (Fin T) (Fin 1) K)
      (r.state.toMTD ⟨lags, cfg⟩).Gamma (r.state.toMTD ⟨lags, cfg⟩).S w A =
      mtdPenalty 1 lags W w A := fun w A => by
    have := mtdCost_crom lags r.state.Gamma w A
    rw [hGam] at this
    rw [← this, ← hGam]
    rfl
  refine ⟨W, _, _, hv, hG, hW, a, b, fun w' hw' => ?_, fun A' hA' => ?_⟩
  · have := n1 w' hw'
    rw [e, e] at this
    exact this
  · have := n2 A' hA'
    rw [e, e] at this
    exact this

/-- C115 with the default settings of the line search and the constructor's other defaults: the
condition on the step floor is a bound on the number of samples, components and lags. -/
theorem C115_crom_default_near_optimal [Archimedean K] (T : ℕ) (hk : 1 ≤ k) (lags : Fin p → ℕ)
    (hlag : ∀ i, 1 ≤ lags i)
    (hT : 1 + mtdCoef T k (1 : K) lags *
      (2 + 2 * (T * (p * k)) + MTDState.paramsCurvature T p k) ≤ 499950000) (ε : K) (hε : 0 < ε) :
    ∃ tol : K, 0 < tol ∧ ∀ t : K, 0 < t → t ≤ tol → ∃ M : ℕ, ∀ m : ℕ, M ≤ m →
      ∀ {env : Env K}, env.rng.Lawful → ∀ (g : env.rng.G) (l : LagsArg) (eps : K)
      (init : Option String) (obj : CROMObj env.rng p),
      cromNew g (.int k) (lags := l) (epsilonStates := eps) (init := init) (tolerance := .real t)
        (maxIterations := .int m) = Py.ok ⟨p, obj⟩ → obj.lags = lags →
      ∀ (D : ℕ) (X : Matrix (Fin T) (Fin D) K) (dictionary weights : Option (Arr2 K)),
      (init = some "custom" → ∀ W, weights = some W → RowStochastic W.val) →
      ∀ (obj' : CROMObj env.rng p) (G : Option (Arr2 K)) (info : FitInfo K),
      cromFitTransform env obj (Arr2.of X) dictionary weights {} = Py.ok (obj', G, info) →
      ∃ (W : Matrix (Fin T) (Fin k) K) (w : Fin p → K) (A : Fin p → Matrix (Fin k) (Fin k) K),
        obj'.vars = some ⟨k, w, A⟩ ∧ G = some (Arr2.of W) ∧ RowStochastic W ∧ IsProb w ∧
        (∀ i, ColStochastic (A i)) ∧
        (∀ w', IsProb w' → mtdPenalty 1 lags W w A ≤ mtdPenalty 1 lags W w' A + ε) ∧
        ∀ A' : Fin p → Matrix (Fin k) (Fin k) K, (∀ i, ColStochastic (A' i)) →
          mtdPenalty 1 lags W w A ≤ mtdPenalty 1 lags W w A' + ε := by
  have hcur : mtdCurvature T 1 k (⟨lags, 0, 1,
      ⟨1, 1 / 10 ^ 4, 1 / 10 ^ 3, 10 ^ 3, 1 / 10, 9 / 10, 1 / 10 ^ 12⟩⟩ : MTDConfig p K) 0 ≤
      499950000 := by
    unfold mtdCurvature gpnhCurvature
    simp only [Nat.cast_one, abs_zero, zero_mul, add_zero, zero_div, div_one]
    exact hT
  obtain ⟨tol, htol, key⟩ := C115_crom_fit_near_optimal (K := K) (k := k)
    ⟨1, 1 / 10 ^ 4, 1 / 10 ^ 3, 10 ^ 3, 1 / 10, 9 / 10, 1 / 10 ^ 12⟩ (by norm_num) (by norm_num)
    (by norm_num) (by norm_num) (by norm_num) (by norm_num) (by norm_num) rfl T hk lags hlag ε hε
    (default_floor hcur)
  refine ⟨tol, htol, fun t ht0 ht => ?_⟩
  obtain ⟨M, hM⟩ := key t ht0 ht
  refine ⟨M, fun m hm env hR g l eps init obj hobj hla D X dictionary weights hcu obj' G info h => ?_⟩
  unfold cromNew at hobj
  obtain ⟨base, hb, hobj⟩ := Py.bind_eq_ok.1 hobj
  obtain ⟨l, hl, hobj⟩ := Py.bind_eq_ok.1 hobj
  obtain ⟨_, -, ho⟩ := Py.bind_eq_ok.1 hobj
  unfold gpnhNew at hb
  obtain ⟨ls, hls, hb⟩ := Py.bind_eq_ok.1 hb
  rw [solverSettings_default hls] at hb
  simp only [Py.pure_eq, Py.ok.injEq, Sigma.mk.injEq] at ho hb
  obtain ⟨hp, ho⟩ := ho
  subst hp
  have ho := eq_of_heq ho
  subst hb
  exact hM m hm hR obj (by rw [← ho]) hla (by rw [← ho]) (by rw [← ho]) (by rw [← ho]) D X dictionary
    weights {} (by rw [← ho]; exact hcu) obj' G info h

/-! ### Instances -/

/-- The state at which the MTD updates get stuck, as a state of the CROM parameters. -/
def cromStuckState : CROMState 6 2 2 ℚ :=
  CROMState.initializeWorkspace ⟨![1, 2], demoLS⟩ !![1, 0; 1, 0; 0, 1; 0, 1; 1, 0; 1, 0] ![1, 0]
    ![!![1/2, 1/2; 1/2, 1/2], !![1/2, 1/2; 1/2, 1/2]]

/-- C115 cannot be strengthened to joint optimality: at `cromStuckState` the update changes nothing,
although other order weights together with other transition matrices have a smaller residual. -/
theorem C115_crom_fixed_not_jointly_optimal :
    ∃ (s' : CROMState 6 2 2 ℚ) (w : Fin 2 → ℚ) (B : Fin 2 → Matrix (Fin 2) (Fin 2) ℚ),
      cromStuckState.updateParameters ⟨![1, 2], demoLS⟩ = Py.ok s' ∧
      s'.orderWeights = cromStuckState.orderWeights ∧
      s'.transitionMatrices = cromStuckState.transitionMatrices ∧
      IsProb w ∧ (∀ i, ColStochastic (B i)) ∧
      mtdPenalty 1 ![1, 2] cromStuckState.Gamma w B <
      mtdPenalty 1 ![1, 2] cromStuckState.Gamma cromStuckState.orderWeights
        cromStuckState.transitionMatrices := by
  have hpen : ∀ (w : Fin 2 → ℚ) (B : Fin 2 → Matrix (Fin 2) (Fin 2) ℚ),
      mtdPenalty 1 ![1, 2] cromStuckState.Gamma w B =
      1/8 * ((w 0 * B 0 0 0 + w 1 * B 1 0 0) ^ 2 + (1 - (w 0 * B 0 1 0 + w 1 * B 1 1 0)) ^ 2 +
        (w 0 * B 0 0 1 + w 1 * B 1 0 0) ^ 2 + (1 - (w 0 * B 0 1 1 + w 1 * B 1 1 0)) ^ 2 +
        (1 - (w 0 * B 0 0 1 + w 1 * B 1 0 1)) ^ 2 + (w 0 * B 0 1 1 + w 1 * B 1 1 1) ^ 2 +
        (1 - (w 0 * B 0 0 0 + w 1 * B 1 0 1)) ^ 2 + (w 0 * B 0 1 0 + w 1 * B 1 1 1) ^ 2) := by
    intro w B
    have hs : (mtdSamples ![1, 2] 6 : ℚ) = 4 := by
      have : mtdSamples ![1, 2] 6 = 4 := by
        rw [mtdSamples_eq]; rfl
      rw [this]; norm_num
    unfold mtdPenalty
    rw [if_neg (by norm_num), hs]
    have hl : ∀ t : Fin 6, (∀ i, (![1, 2] : Fin 2 → ℕ) i ≤ t) ↔ 2 ≤ (t : ℕ) := by
      intro t
      simp [Fin.forall_fin_two]
      omega
    simp only [hl]
    simp [Fin.sum_univ_six, Fin.sum_univ_two, sqDist, mtdStep, rowSeq, cromStuckState,
      CROMState.initializeWorkspace, CROMState.updatePredictedWeights]
    ring
  have hW : RowStochastic cromStuckState.Gamma := by
    intro i
    refine ⟨fun j => ?_, ?_⟩
    · fin_cases i <;> fin_cases j <;> norm_num [cromStuckState, CROMState.initializeWorkspace,
        CROMState.updatePredictedWeights]
    · fin_cases i <;> norm_num [cromStuckState, CROMState.initializeWorkspace,
        CROMState.updatePredictedWeights, Fin.sum_univ_two]
  have hw : IsProb cromStuckState.orderWeights := by
    change IsProb (![1, 0] : Fin 2 → ℚ)
    refine ⟨fun j => ?_, ?_⟩
    · fin_cases j <;> norm_num
    · norm_num [Fin.sum_univ_two]
  have hA : ∀ i, ColStochastic (cromStuckState.transitionMatrices i) := by
    change ∀ i, ColStochastic ((![!![1/2, 1/2; 1/2, 1/2], !![1/2, 1/2; 1/2, 1/2]] :
      Fin 2 → Matrix (Fin 2) (Fin 2) ℚ) i)
    intro i j
    refine ⟨fun l => ?_, ?_⟩
    · fin_cases i <;> fin_cases j <;> fin_cases l <;> norm_num
    · fin_cases i <;> fin_cases j <;> norm_num [Fin.sum_univ_two]
  have hco : CROMCoherent ⟨![1, 2], demoLS⟩ cromStuckState :=
    crom_good_iff.1 (CROMState.toMTD_good rfl)
  have hT : (6 : ℕ) ≠ (Finset.univ.sup ![1, 2] : ℕ) := by decide
  obtain ⟨s', hs'⟩ : ∃ s', cromStuckState.updateParameters ⟨![1, 2], demoLS⟩ = Py.ok s' := by
    have := (C09_mtd (CROMConfig.toMTD ⟨![1, 2], demoLS⟩) (by norm_num [CROMConfig.toMTD, demoLS]) 219
      (by norm_num [CROMConfig.toMTD, demoLS]) (cromStuckState.toMTD ⟨![1, 2], demoLS⟩)).2.2
      (by simp [cromStuckState, CROMState.toMTD, CROMState.initializeWorkspace, demoLS,
        CROMState.updatePredictedWeights])
    rcases this with ⟨-, t, h⟩ | h
    · obtain ⟨s', h, -⟩ := CROMState.updateParameters_of_ok h
      exact ⟨s', h⟩
    · exact absurd h.1 hT
  have hal : 0 < cromStuckState.alphaParameters := by
    norm_num [cromStuckState, CROMState.initializeWorkspace, CROMState.updatePredictedWeights]
  have e0 : cromStuckState.orderWeights = ![1, 0] := rfl
  have e1 : cromStuckState.transitionMatrices =
    ![!![1/2, 1/2; 1/2, 1/2], !![1/2, 1/2; 1/2, 1/2]] := rfl
  refine ⟨s', ![0, 1], ![!![1, 0; 0, 1], !![0, 1; 1, 0]], hs', ?_, ?_, ?_, ?_, ?_⟩
  · refine (C115_crom_order_weights_fixed_iff_optimal ⟨![1, 2], demoLS⟩ (by norm_num [demoLS])
      (by simp [Fin.forall_fin_two]) (by norm_num) _ _ hco hW hw hA hal hs').2 fun w hw' => ?_
    have h2 := hw'.2
    rw [Fin.sum_univ_two] at h2
    simp only [hpen, e0, e1]
    have h3 : w 1 = 1 - w 0 := by linarith
    simp [h3]
    nlinarith
  · refine (C115_crom_transition_matrices_fixed_iff_optimal ⟨![1, 2], demoLS⟩
      (by norm_num [demoLS]) (by norm_num) _ _ hco hA hal hs').2 fun B hB => ?_
    have h2 := (hB 0 0).2
    have h3 := (hB 0 1).2
    rw [Fin.sum_univ_two] at h2 h3
    simp only [hpen, e0, e1]
    have h4 : B 0 1 0 = 1 - B 0 0 0 := by linarith
    have h5 : B 0 1 1 = 1 - B 0 0 1 := by linarith
    simp [h4, h5]
    nlinarith [sq_nonneg (B 0 0 0 - 1/2), sq_nonneg (B 0 0 1 - 1/2)]
  · refine ⟨fun j => ?_, ?_⟩
    · fin_cases j <;> norm_num
    · norm_num [Fin.sum_univ_two]
  · intro i j
    refine ⟨fun l => ?_, ?_⟩
    · fin_cases i <;> fin_cases j <;> fin_cases l <;> norm_num
    · fin_cases i <;> fin_cases j <;> norm_num [Fin.sum_univ_two]
  · simp only [hpen, e0, e1]
    norm_num

/-- C115 at work: a fit of the example that returns. -/
example : ∃ (obj obj' : CROMObj demoEnv.rng 2) (G : Option (Arr2 ℚ)) (info : FitInfo ℚ)
    (W : Matrix (Fin 3) (Fin 2) ℚ) (w : Fin 2 → ℚ) (A : Fin 2 → Matrix (Fin 2) (Fin 2) ℚ),
    cromFitTransform demoEnv obj demoData none none {} = Py.ok (obj', G, info) ∧
    G = some (Arr2.of W) ∧ obj'.vars = some ⟨2, w, A⟩ ∧
    ∀ w', IsProb w' → mtdPenalty 1 ![1, 2] W w A ≤ mtdPenalty 1 ![1, 2] W w' A + 1 / 100 := by
  obtain ⟨tol, htol, key⟩ := C115_crom_fit_near_optimal (k := 2) demoObj.ls
    (by norm_num [demoObj, demoLS]) (by norm_num [demoObj, demoLS])
    (by norm_num [demoObj, demoLS]) (by norm_num [demoObj, demoLS]) le_rfl
    (by norm_num [demoObj, demoLS]) (by norm_num [demoObj, demoLS]) rfl 3 (by norm_num)
    ![1, 2] mtdDemo_lags (1 / 100) (by norm_num)
    (LSConfig.Floor.of_zero rfl (by norm_num [demoObj, demoLS]) (by norm_num [demoObj, demoLS]) _)
  obtain ⟨M, hM⟩ := key tol htol le_rfl
  set obj : CROMObj demoEnv.rng 2 :=
    { base := { demoObj with
        nComponents := .int 2, tolerance := .real tol, maxIterations := .int ((M + 1 : ℕ) : ℤ) }
      lags := ![1, 2] } with hobj
  obtain ⟨⟨o, G, i⟩, h⟩ := C63_crom_default_fit_returns demoRng_lawful demoRng_uniform_pos obj
    (by norm_num) mtdDemo_lags
    (by norm_num [hobj, demoObj, demoLS]) (by norm_num [hobj, demoObj, demoLS])
    (by norm_num [hobj, demoObj, demoLS]) (by norm_num [hobj, demoObj, demoLS]) rfl
    (by norm_num [hobj, demoObj, demoLS])
    (by norm_num [hobj, demoObj, demoLS]) rfl (Or.inl rfl) demoData
    (by norm_num [demoData, Arr2.of])
    ⟨1, by show (2 : ℕ) ≠ 3; norm_num, fun j =>
      (by decide : ∀ j, (![1, 2] : Fin 2 → ℕ) j ≤ (![1, 2] : Fin 2 → ℕ) 1) j⟩
    ⟨Or.inr ⟨2, rfl, by norm_num⟩, ⟨_, rfl, by positivity⟩, Or.inr ⟨_, rfl, htol.le⟩⟩ none none
  obtain ⟨W, w, A, hv, hG, -, -, -, n1, -⟩ := hM (M + 1) (Nat.le_succ _) demoRng_lawful obj rfl rfl
    rfl rfl rfl 2 demoData.val none none {} (by simp) o G i h
  exact ⟨obj, o, G, i, W, w, A, h, hG, hv, n1⟩

/-- The condition of the default settings holds for a thousand samples, three components and two
lags. -/
example : 1 + mtdCoef 1000 3 (1 : ℚ) (![1, 2] : Fin 2 → ℕ) *
    (2 + 2 * ((1000 : ℕ) * ((2 : ℕ) * (3 : ℕ))) + MTDState.paramsCurvature 1000 2 3) ≤ 499950000 := by
  have : topLag (![1, 2] : Fin 2 → ℕ) = 2 := rfl
  unfold mtdCoef MTDState.paramsCurvature
  rw [this]
  norm_num

end Reor
