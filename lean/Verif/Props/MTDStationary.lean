import Verif.Props.MTD
import Verif.Proofs.MTDStationary

/-!
C96: an MTD update leaves a block unchanged exactly when the block is already optimal given the
others.
-/

namespace Reor

set_option linter.unusedSectionVars false

open scoped BigOperators Matrix
open Spec

variable {K : Type} [Field K] [LinearOrder K] [IsStrictOrderedRing K]
variable {T D k p : ℕ}

/-- C96.  A completed weights update leaves the weights unchanged exactly if no other weights on the
simplex give a smaller objective with the same dictionary and parameters. -/
theorem C96_mtd_weights_fixed_iff_optimal (c : MTDConfig p K) (h1 : 0 < c.ls.sigmaOne)
    (he : 0 ≤ c.epsilonWeights) (hk : 1 ≤ k) (s s' : MTDState T D k p K) (hs : MTDCoherent c s)
    (hW : RowStochastic s.Gamma) (ha : 0 < s.alphaGamma) (h : s.updateWeights c = Py.ok s') :
    s'.Gamma = s.Gamma ↔ ∀ W, RowStochastic W →
      mtdCost c.epsilonStates c.epsilonWeights c.lags s.X s.Gamma s.S s.orderWeights
        s.transitionMatrices ≤
      mtdCost c.epsilonStates c.epsilonWeights c.lags s.X W s.S s.orderWeights
        s.transitionMatrices := by
  obtain ⟨lam, hl⟩ := MTDState.updateWeights_post (mtdCoherent_iff.1 hs) h
  by_cases hk1 : k = 1
  · refine iff_of_true ?_ fun W hW' => ?_
    · rw [hl.Gamma, MTDState.dirW_one hk1 hW, smul_zero, add_zero]
    · rw [MTDState.rowStochastic_one_eq hk1 hW' hW]
  rw [hl.Gamma, add_smul_eq_self_iff (hl.range.pos_sigma h1), MTDState.dirW, sub_eq_zero,
    projectRows_step_fixed_iff hk hW ha]
  refine minimal_iff_slopes (f := fun W => mtdCost c.epsilonStates c.epsilonWeights c.lags s.X W s.S
      s.orderWeights s.transitionMatrices)
    (q := fun H => frobSq (H * s.S) / ((D : K) * (T : K)) +
      mtdPenalty c.epsilonWeights c.lags H s.orderWeights s.transitionMatrices) hW
    (fun H t => ?_) (fun H => ?_)
  · simp only [mtdCost, mtdGradW]
    rw [gpnhCost_add_W, mtdPenalty_add_W hk1, inner_add_right, inner_comm H (mtdGradPen _ _ _ _ _),
      inner_comm H (gradWOf _ _ _)]
    ring
  · have := frobSq_nonneg (H * s.S)
    have := mtdPenalty_nonneg he c.lags H s.orderWeights s.transitionMatrices
    positivity

/-- C96.  A completed dictionary update leaves the dictionary unchanged exactly if no other
dictionary gives a smaller objective with the same weights and parameters. -/
theorem C96_mtd_dictionary_fixed_iff_optimal (c : MTDConfig p K) (h1 : 0 < c.ls.sigmaOne)
    (he : 0 ≤ c.epsilonStates) (s s' : MTDState T D k p K) (hs : MTDCoherent c s)
    (ha : 0 < s.alphaS) (h : s.updateDictionary c = Py.ok s') :
    s'.S = s.S ↔ ∀ S,
      mtdCost c.epsilonStates c.epsilonWeights c.lags s.X s.Gamma s.S s.orderWeights
        s.transitionMatrices ≤
      mtdCost c.epsilonStates c.epsilonWeights c.lags s.X s.Gamma S s.orderWeights
        s.transitionMatrices := by
  obtain ⟨lam, hl⟩ := MTDState.updateDictionary_post (mtdCoherent_iff.1 hs) h
  rw [hl.S, add_smul_eq_self_iff (hl.range.pos_sigma h1), neg_eq_zero, smul_eq_zero,
    or_iff_right ha.ne']
  refine minimal_iff_gradient (f := fun S => mtdCost c.epsilonStates c.epsilonWeights c.lags s.X
      s.Gamma S s.orderWeights s.transitionMatrices)
    (q := fun H => gpnhCost c.epsilonStates 0 s.Gamma H) (fun H t => ?_) (gpnhCost_convex_S he _)
  simp only [mtdCost]
  rw [gpnhCost_add_S, inner_comm]
  ring

/-- C96.  A completed parameters update leaves the order weights unchanged exactly if no other order
weights on the simplex give a smaller objective with everything else kept. -/
theorem C96_mtd_order_weights_fixed_iff_optimal (c : MTDConfig p K) (h1 : 0 < c.ls.sigmaOne)
    (hlag : ∀ i, 1 ≤ c.lags i) (he : 0 ≤ c.epsilonWeights) (hp : 1 ≤ p)
    (s s' : MTDState T D k p K) (hs : MTDCoherent c s) (hW : RowStochastic s.Gamma)
    (hw : IsProb s.orderWeights) (hA : ∀ i, ColStochastic (s.transitionMatrices i))
    (ha : 0 < s.alphaParameters) (h : s.updateParameters c = Py.ok s') :
    s'.orderWeights = s.orderWeights ↔ ∀ w, IsProb w →
      mtdCost c.epsilonStates c.epsilonWeights c.lags s.X s.Gamma s.S s.orderWeights
        s.transitionMatrices ≤
      mtdCost c.epsilonStates c.epsilonWeights c.lags s.X s.Gamma s.S w s.transitionMatrices := by
  obtain ⟨lam, hl⟩ := MTDState.updateParameters_post (mtdCoherent_iff.1 hs) h
  rw [hl.orderWeights, add_smul_eq_self_iff' (hl.range.pos_sigma h1), MTDState.dirOW, sub_eq_zero]
  by_cases hk1 : k = 1
  · refine iff_of_true ?_ fun w _ => ?_
    · refine (projectVector_step_fixed_iff hp hw ha).2 fun y _ => le_of_eq ?_
      have h2 := mtd_params_slope c.epsilonWeights c.lags s.Gamma s.orderWeights
        (y - s.orderWeights) s.transitionMatrices 0
      rw [MTDState.mtdRes_one hlag hk1 hW hw hA, inner_zero_left, mul_zero] at h2
      refine h2.trans ?_
      simp [mulSum3, mulSum]
    · simp [mtdCost, mtdPenalty_eq, hk1]
  rw [projectVector_step_fixed_iff hp hw ha]
  refine minimal_iff_slopes_on (f := fun w => mtdCost c.epsilonStates c.epsilonWeights c.lags s.X
      s.Gamma s.S w s.transitionMatrices)
    (L := fun v => vecMulSum v (mtdGradOW c.epsilonWeights c.lags s.Gamma s.orderWeights
      s.transitionMatrices))
    (q := fun v => mtdCoef T k c.epsilonWeights c.lags *
      frobSq (mtdPred c.lags s.Gamma v s.transitionMatrices))
    (fun y hy t h0 h1 => isProb_step hw hy h0 h1) (fun v t => ?_)
    (fun v => mul_nonneg (mtdCoef_nonneg he _) (frobSq_nonneg _))
  simp only [mtdCost]
  rw [mtdPenalty_add_w hk1]
  ring

/-- C96.  A completed parameters update leaves the transition matrices unchanged exactly if no other
transition matrices with columns on the simplex give a smaller objective with everything else
kept. -/
theorem C96_mtd_transition_matrices_fixed_iff_optimal (c : MTDConfig p K) (h1 : 0 < c.ls.sigmaOne)
    (he : 0 ≤ c.epsilonWeights) (hk : 1 ≤ k) (s s' : MTDState T D k p K) (hs : MTDCoherent c s)
    (hA : ∀ i, ColStochastic (s.transitionMatrices i)) (ha : 0 < s.alphaParameters)
    (h : s.updateParameters c = Py.ok s') :
    s'.transitionMatrices = s.transitionMatrices ↔
      ∀ B : Fin p → Matrix (Fin k) (Fin k) K, (∀ i, ColStochastic (B i)) →
      mtdCost c.epsilonStates c.epsilonWeights c.lags s.X s.Gamma s.S s.orderWeights
        s.transitionMatrices ≤
      mtdCost c.epsilonStates c.epsilonWeights c.lags s.X s.Gamma s.S s.orderWeights B := by
  obtain ⟨lam, hl⟩ := MTDState.updateParameters_post (mtdCoherent_iff.1 hs) h
  rw [hl.transitionMatrices, add_smul_eq_self_iff' (hl.range.pos_sigma h1), MTDState.dirTM,
    sub_eq_zero]
  by_cases hk1 : k = 1
  · subst hk1
    refine iff_of_true ?_ fun B _ => by simp [mtdCost, mtdPenalty_eq]
    funext i
    ext l j
    have h3 : IsProb fun l => projectMatrices (s.transitionMatrices - s.alphaParameters •
        mtdGradTM c.epsilonWeights c.lags s.Gamma s.orderWeights s.transitionMatrices) i l j := by
      unfold projectMatrices
      rw [projectColumns_apply]
      exact project_isProb le_rfl _
    exact congrFun ((MTDState.isProb_fin_one h3).trans (MTDState.isProb_fin_one (hA i j)).symm) l
  rw [projectMatrices_step_fixed_iff hk hA ha]
  refine minimal_iff_slopes_on (C := fun B : Fin p → Matrix (Fin k) (Fin k) K =>
      ∀ i, ColStochastic (B i))
    (f := fun B => mtdCost c.epsilonStates c.epsilonWeights c.lags s.X
      s.Gamma s.S s.orderWeights B)
    (L := fun B => mulSum3 B (mtdGradTM c.epsilonWeights c.lags s.Gamma s.orderWeights
      s.transitionMatrices))
    (q := fun B => mtdCoef T k c.epsilonWeights c.lags *
      frobSq (mtdPred c.lags s.Gamma s.orderWeights B))
    (fun y hy t h0 h1 i => colStochastic_step' (hA i) (hy i) h0 h1) (fun B t => ?_)
    (fun B => mul_nonneg (mtdCoef_nonneg he _) (frobSq_nonneg _))
  simp only [mtdCost]
  rw [mtdPenalty_add_A hk1]
  ring

/-! ### The parameters need not be optimal together -/

/-- Lags 1 and 2. -/
def stuckConfig : MTDConfig 2 ℚ := ⟨![1, 2], 0, 1, demoLS⟩

/-- Six samples that change component every second time step; all the weight is on lag 1 and both
transition matrices are uniform. -/
def stuckState : MTDState 6 1 2 2 ℚ :=
  MTDState.initializeWorkspace stuckConfig !![0; 0; 1; 1; 0; 0]
    !![1, 0; 1, 0; 0, 1; 0, 1; 1, 0; 1, 0] !![0; 1] ![1, 0]
    ![!![1/2, 1/2; 1/2, 1/2], !![1/2, 1/2; 1/2, 1/2]]

/-- C96 cannot be strengthened to joint optimality in order weights and transition matrices: at
`stuckState` the parameters update changes nothing, although lag 2 with exchanged components
reproduces the weights and lowers the objective. -/
theorem C96_mtd_parameters_fixed_not_jointly_optimal :
    ∃ (s' : MTDState 6 1 2 2 ℚ) (w : Fin 2 → ℚ) (B : Fin 2 → Matrix (Fin 2) (Fin 2) ℚ),
      stuckState.updateParameters stuckConfig = Py.ok s' ∧
      s'.orderWeights = stuckState.orderWeights ∧
      s'.transitionMatrices = stuckState.transitionMatrices ∧
      IsProb w ∧ (∀ i, ColStochastic (B i)) ∧
      mtdCost stuckConfig.epsilonStates stuckConfig.epsilonWeights stuckConfig.lags stuckState.X
        stuckState.Gamma stuckState.S w B <
      mtdCost stuckConfig.epsilonStates stuckConfig.epsilonWeights stuckConfig.lags stuckState.X
        stuckState.Gamma stuckState.S stuckState.orderWeights stuckState.transitionMatrices := by
  have hpen : ∀ (w : Fin 2 → ℚ) (B : Fin 2 → Matrix (Fin 2) (Fin 2) ℚ),
      mtdPenalty stuckConfig.epsilonWeights stuckConfig.lags stuckState.Gamma w B =
      1/8 * ((w 0 * B 0 0 0 + w 1 * B 1 0 0) ^ 2 + (1 - (w 0 * B 0 1 0 + w 1 * B 1 1 0)) ^ 2 +
        (w 0 * B 0 0 1 + w 1 * B 1 0 0) ^ 2 + (1 - (w 0 * B 0 1 1 + w 1 * B 1 1 0)) ^ 2 +
        (1 - (w 0 * B 0 0 1 + w 1 * B 1 0 1)) ^ 2 + (w 0 * B 0 1 1 + w 1 * B 1 1 1) ^ 2 +
        (1 - (w 0 * B 0 0 0 + w 1 * B 1 0 1)) ^ 2 + (w 0 * B 0 1 0 + w 1 * B 1 1 1) ^ 2) := by
    intro w B
    have hs : (mtdSamples stuckConfig.lags 6 : ℚ) = 4 := by
      have : mtdSamples stuckConfig.lags 6 = 4 := by
        rw [mtdSamples_eq]; rfl
      rw [this]; norm_num
    unfold mtdPenalty
    rw [if_neg (by norm_num), hs]
    have hl : ∀ t : Fin 6, (∀ i, stuckConfig.lags i ≤ t) ↔ 2 ≤ (t : ℕ) := by
      intro t
      simp [Fin.forall_fin_two, stuckConfig]
      omega
    simp only [hl]
    simp [Fin.sum_univ_six, Fin.sum_univ_two, sqDist, mtdStep, rowSeq, stuckState, stuckConfig,
      MTDState.initializeWorkspace, MTDState.updatePredictedWeights, GPNHState.initializeWorkspace]
    ring
  have hW : RowStochastic stuckState.Gamma := by
    intro i
    refine ⟨fun j => ?_, ?_⟩
    · fin_cases i <;> fin_cases j <;> norm_num [stuckState, MTDState.initializeWorkspace,
        MTDState.updatePredictedWeights, GPNHState.initializeWorkspace]
    · fin_cases i <;> norm_num [stuckState, MTDState.initializeWorkspace,
        MTDState.updatePredictedWeights, GPNHState.initializeWorkspace, Fin.sum_univ_two]
  have hw : IsProb stuckState.orderWeights := by
    change IsProb (![1, 0] : Fin 2 → ℚ)
    refine ⟨fun j => ?_, ?_⟩
    · fin_cases j <;> norm_num
    · norm_num [Fin.sum_univ_two]
  have hA : ∀ i, ColStochastic (stuckState.transitionMatrices i) := by
    change ∀ i, ColStochastic ((![!![1/2, 1/2; 1/2, 1/2], !![1/2, 1/2; 1/2, 1/2]] :
      Fin 2 → Matrix (Fin 2) (Fin 2) ℚ) i)
    intro i j
    refine ⟨fun l => ?_, ?_⟩
    · fin_cases i <;> fin_cases j <;> fin_cases l <;> norm_num
    · fin_cases i <;> fin_cases j <;> norm_num [Fin.sum_univ_two]
  have hco : MTDCoherent stuckConfig stuckState := C40_mtd_initially_current _ _ _ _ _ _
  have hT : (6 : ℕ) ≠ stuckConfig.maxLag := by decide
  obtain ⟨s', hs'⟩ : ∃ s', stuckState.updateParameters stuckConfig = Py.ok s' := by
    have := (C09_mtd stuckConfig (by norm_num [stuckConfig, demoLS]) 219
      (by norm_num [stuckConfig, demoLS]) stuckState).2.2
      (by simp [stuckState, MTDState.initializeWorkspace, stuckConfig, demoLS,
        MTDState.updatePredictedWeights])
    rcases this with h | h
    · exact h.2
    · exact absurd h.1 hT
  have hal : 0 < stuckState.alphaParameters := by
    norm_num [stuckState, MTDState.initializeWorkspace, MTDState.updatePredictedWeights]
  have e0 : stuckState.orderWeights = ![1, 0] := rfl
  have e1 : stuckState.transitionMatrices =
    ![!![1/2, 1/2; 1/2, 1/2], !![1/2, 1/2; 1/2, 1/2]] := rfl
  refine ⟨s', ![0, 1], ![!![1, 0; 0, 1], !![0, 1; 1, 0]], hs', ?_, ?_, ?_, ?_, ?_⟩
  · refine (C96_mtd_order_weights_fixed_iff_optimal stuckConfig (by norm_num [stuckConfig, demoLS])
      (by simp [Fin.forall_fin_two, stuckConfig]) (by norm_num [stuckConfig]) (by norm_num) _ _ hco
      hW hw hA hal hs').2 fun w hw' => ?_
    have h2 := hw'.2
    rw [Fin.sum_univ_two] at h2
    simp only [mtdCost, hpen, e0, e1]
    have h3 : w 1 = 1 - w 0 := by linarith
    simp [h3]
    nlinarith
  · refine (C96_mtd_transition_matrices_fixed_iff_optimal stuckConfig
      (by norm_num [stuckConfig, demoLS]) (by norm_num [stuckConfig]) (by norm_num) _ _ hco
      hA hal hs').2 fun B hB => ?_
    have h2 := (hB 0 0).2
    have h3 := (hB 0 1).2
    rw [Fin.sum_univ_two] at h2 h3
    simp only [mtdCost, hpen, e0, e1]
    have h4 : B 0 1 0 = 1 - B 0 0 0 := by linarith
    have h5 : B 0 1 1 = 1 - B 0 0 1 := by linarith
    simp [h4, h5]
    nlinarith [sq_nonneg (B 0 0 0 - 1/2), sq_nonneg (B 0 0 1 - 1/2)]
  · refine ⟨fun j => ?_, ?_⟩
    · fin_cases j <;> norm_num
    · norm_num [Fin.sum_univ_two]
  · intro i j
    refine ⟨fun l => ?_, ?_⟩
    · fin_cases i <;> fin_cases j <;> fin_cases l <;> norm_num
    · fin_cases i <;> fin_cases j <;> norm_num [Fin.sum_univ_two]
  · simp only [mtdCost, hpen, e0, e1]
    norm_num

/-! ### Instances -/

/-- C96 for the dictionary at a state that reproduces its data. -/
example : ∃ s' : MTDState 6 1 2 2 ℚ, stuckState.updateDictionary stuckConfig = Py.ok s' ∧
    s'.S = stuckState.S := by
  obtain ⟨s', hs'⟩ := (C09_mtd stuckConfig (by norm_num [stuckConfig, demoLS]) 219
    (by norm_num [stuckConfig, demoLS]) stuckState).1
    (by simp [stuckState, MTDState.initializeWorkspace, stuckConfig, demoLS,
      MTDState.updatePredictedWeights, GPNHState.initializeWorkspace])
  refine ⟨s', hs', (C96_mtd_dictionary_fixed_iff_optimal stuckConfig
    (by norm_num [stuckConfig, demoLS]) (by norm_num [stuckConfig]) stuckState _
    (C40_mtd_initially_current _ _ _ _ _ _)
    (by norm_num [stuckState, MTDState.initializeWorkspace, MTDState.updatePredictedWeights,
      GPNHState.initializeWorkspace])
    hs').2 fun S => ?_⟩
  have h0 : gpnhCost stuckConfig.epsilonStates stuckState.X stuckState.Gamma stuckState.S = 0 := by
    rw [gpnhCost_eq]
    norm_num [stuckState, MTDState.initializeWorkspace, MTDState.updatePredictedWeights,
      GPNHState.initializeWorkspace, stuckConfig, frobSq, Fin.sum_univ_six, Fin.sum_univ_two, Matrix.mul_apply]
  unfold mtdCost
  rw [h0]
  have h1 : 0 ≤ gpnhCost stuckConfig.epsilonStates stuckState.X stuckState.Gamma S := by
    rw [gpnhCost_eq]
    have := frobSq_nonneg (stuckState.X - stuckState.Gamma * S)
    have e : stuckConfig.epsilonStates = 0 := rfl
    rw [e, zero_mul, add_zero]
    positivity
  linarith

/-- C96 for the weights at a state that is not optimal: they move. -/
example : ∃ s' : MTDState 3 1 2 2 ℚ, mtdDemoState.updateWeights mtdDemoConfig = Py.ok s' ∧
    s'.Gamma ≠ mtdDemoState.Gamma := by
  have hT : (3 : ℕ) ≠ mtdDemoConfig.maxLag := by decide
  obtain ⟨s', hs'⟩ : ∃ s', mtdDemoState.updateWeights mtdDemoConfig = Py.ok s' := by
    have := (C09_mtd mtdDemoConfig (by norm_num [mtdDemoConfig, demoLS]) 219
      (by norm_num [mtdDemoConfig, demoLS]) mtdDemoState).2.1
      (by simp [mtdDemoState, MTDState.initializeWorkspace, mtdDemoConfig, demoLS,
        MTDState.updatePredictedWeights, GPNHState.initializeWorkspace])
    rcases this with h | h
    · exact h.2
    · exact absurd h.1 hT
  have hW : RowStochastic mtdDemoState.Gamma := by
    change RowStochastic (!![1/2, 1/2; 1/4, 3/4; 1, 0] : Matrix (Fin 3) (Fin 2) ℚ)
    intro i
    refine ⟨fun j => ?_, ?_⟩
    · fin_cases i <;> fin_cases j <;> norm_num
    · fin_cases i <;> norm_num [Fin.sum_univ_two]
  refine ⟨s', hs', fun h => ?_⟩
  have h1 := (C96_mtd_weights_fixed_iff_optimal mtdDemoConfig (by norm_num [mtdDemoConfig, demoLS])
    (by norm_num [mtdDemoConfig]) (by norm_num) _ _ mtdDemo_coherent hW
    (by norm_num [mtdDemoState, MTDState.initializeWorkspace, MTDState.updatePredictedWeights,
      GPNHState.initializeWorkspace]) hs').1 h !![1/2, 1/2; 0, 1; 1, 0] (by
    intro i
    refine ⟨fun j => ?_, ?_⟩
    · fin_cases i <;> fin_cases j <;> norm_num
    · fin_cases i <;> norm_num [Fin.sum_univ_two])
  have hs : (mtdSamples mtdDemoConfig.lags 3 : ℚ) = 1 := by
    have : mtdSamples mtdDemoConfig.lags 3 = 1 := by
      rw [mtdSamples_eq]; rfl
    rw [this]; norm_num
  have hl : ∀ t : Fin 3, (∀ i, mtdDemoConfig.lags i ≤ t) ↔ 2 ≤ (t : ℕ) := by
    intro t
    simp [Fin.forall_fin_two, mtdDemoConfig]
    omega
  have hpen : ∀ W : Matrix (Fin 3) (Fin 2) ℚ,
      mtdPenalty mtdDemoConfig.epsilonWeights mtdDemoConfig.lags W mtdDemoState.orderWeights
        mtdDemoState.transitionMatrices =
      1/10 * ((W 2 0 - (1/3 * W 1 0 + 2/3 * (1/2 * W 0 0 + W 0 1))) ^ 2 +
        (W 2 1 - (1/3 * W 1 1 + 2/3 * (1/2 * W 0 0))) ^ 2) := by
    intro W
    unfold mtdPenalty
    rw [if_neg (by norm_num), hs]
    simp only [hl]
    change (1/5 : ℚ) * ((∑ t : Fin 3, if 2 ≤ (t : ℕ) then sqDist (fun j => W t j)
      (mtdStep ![1, 2] ![1/3, 2/3] ![!![1, 0; 0, 1], !![1/2, 1; 1/2, 0]] (rowSeq W) t) else 0) /
      (((2 : ℕ) : ℚ) * 1)) = _
    simp [Fin.sum_univ_three, Fin.sum_univ_two, sqDist, mtdStep, rowSeq]
    ring
  refine absurd h1 (not_le.2 ?_)
  simp only [mtdCost, gpnhCost_eq, hpen]
  have e1 : frobSq (mtdDemoState.X -
      (!![1/2, 1/2; 0, 1; 1, 0] : Matrix (Fin 3) (Fin 2) ℚ) * mtdDemoState.S) = 1 := by
    change frobSq ((!![1; 3; 0] : Matrix (Fin 3) (Fin 1) ℚ) -
      (!![1/2, 1/2; 0, 1; 1, 0] : Matrix (Fin 3) (Fin 2) ℚ) * !![0; 2]) = 1
    norm_num [frobSq, Fin.sum_univ_three, Fin.sum_univ_two, Matrix.mul_apply, Matrix.sub_apply]
    exact sub_self _
  have e2 : frobSq (mtdDemoState.X - mtdDemoState.Gamma * mtdDemoState.S) = 9 / 4 := by
    change frobSq ((!![1; 3; 0] : Matrix (Fin 3) (Fin 1) ℚ) -
      (!![1/2, 1/2; 1/4, 3/4; 1, 0] : Matrix (Fin 3) (Fin 2) ℚ) * !![0; 2]) = 9 / 4
    norm_num [frobSq, Fin.sum_univ_three, Fin.sum_univ_two, Matrix.mul_apply, Matrix.sub_apply]
    exact sub_self _
  have e3 : mtdDemoState.Gamma = !![1/2, 1/2; 1/4, 3/4; 1, 0] := rfl
  rw [e1, e2, e3]
  norm_num
  change _ + 1 / 10 * (((1 : ℚ) - 1 / 2) ^ 2 + ((0 : ℚ) - 1 / 2) ^ 2) <
    _ + 1 / 10 * (((1 : ℚ) - 7 / 12) ^ 2 + ((0 : ℚ) - 5 / 12) ^ 2)
  linarith

end Reor
