import Verif.Proofs.MTDFit

/-!
Fits of the MTD model succeed and do not increase the cost when no step floor is set.
-/

namespace Reor

set_option linter.unusedSectionVars false

open scoped BigOperators Matrix
open Spec

variable {K : Type} [Field K] [LinearOrder K] [IsStrictOrderedRing K]
variable {T D k p : ℕ} {σ : Type}

/-- A line search succeeds without a step floor when the trial cost lies below a quadratic with a
sufficiently negative slope. -/
theorem lineSearch_below [Archimedean K] {cfg : LSConfig K} {trial : σ → K → σ × K}
    (h1 : 0 < cfg.sigmaOne) (h2 : cfg.sigmaTwo < 1) (hg1 : cfg.gamma < 1)
    (hre : Retriable trial) {mem : List K} (hmem : mem ≠ []) {s : σ}
    {f0 δ q N alpha : K}
    (hquad : ∀ lam, 0 < lam → lam ≤ 1 → (trial s lam).2 ≤ f0 + lam * δ + lam ^ 2 * q)
    (ha : 0 < alpha) (hδ : N + alpha * δ ≤ 0) (hN : 0 ≤ N) (hq : N = 0 → q = 0) :
    ∃ r, lineSearch cfg trial mem s f0 δ = Py.ok r := by
  obtain ⟨L, hL, hqL⟩ : ∃ L, 0 ≤ L ∧ q ≤ L * N := by
    rcases hN.eq_or_lt with h | h
    · exact ⟨0, le_rfl, by rw [hq h.symm]; simp⟩
    · exact ⟨|q| / N, by positivity, by rw [div_mul_cancel₀ _ h.ne']; exact le_abs_self q⟩
  obtain ⟨l, hl, hlA⟩ := exists_lstar hg1 (mul_nonneg ha.le hL)
  obtain ⟨M, hM⟩ := exists_pow_shrink_le h2 hl
  have harm : ∀ lam, 0 < lam → lam ≤ 1 → lam ≤ l →
      (trial s lam).2 ≤ f0 + cfg.gamma * δ * lam := by
    intro lam h0 h1' hl'
    refine (hquad lam h0 h1').trans ?_
    exact armijo_of_quadratic hqL hL ha hδ hN h0.le
      ((mul_le_mul_of_nonneg_right hl' (mul_nonneg ha.le hL)).trans hlA)
  exact lineSearch_terminates_armijo' h1 h2 hre hmem harm M hM

namespace MTDState

/-! ### Dictionary -/

theorem slopeS_eq (c : MTDConfig p K) (s : MTDState T D k p K) :
    s.alphaS ^ 2 * frobSq (gradSOf c.epsilonStates s.X s.Gamma s.S) + s.alphaS * s.slopeS c ≤ 0 := by
  unfold slopeS
  rw [inner_neg_left, inner_smul_left, ← frobSq_eq_inner]
  exact le_of_eq (by ring)

theorem gpnhCost_zero_zero (eps : K) (W : Matrix (Fin T) (Fin k) K) :
    gpnhCost eps (0 : Matrix (Fin T) (Fin D) K) W 0 = 0 := by
  have := gpnhCost_add_S eps (0 : Matrix (Fin T) (Fin D) K) W 0 0 1
  simp only [smul_zero, add_zero, inner_zero_right, mul_zero, one_pow, one_mul] at this
  linarith

theorem updateDictionary_succeeds [Archimedean K] {c : MTDConfig p K} {s : MTDState T D k p K}
    (hg : s.Good c) (h1 : 0 < c.ls.sigmaOne) (h2 : c.ls.sigmaTwo < 1) (hg1 : c.ls.gamma < 1)
    (ha : 0 < s.alphaS) (hm : s.fSMem ≠ []) : ∃ s', s.updateDictionary c = Py.ok s' := by
  rw [updateDictionary_eq hg]
  set g := gradSOf c.epsilonStates s.X s.Gamma s.S with hgr
  obtain ⟨r, hr⟩ := lineSearch_below h1 h2 hg1 (dictionaryTrial_retriable c) hm
    (s := s.dictStart c) (f0 := s.objective c) (δ := s.slopeS c)
    (q := gpnhCost c.epsilonStates 0 s.Gamma (-(s.alphaS • g))) (fun lam _ _ => by
      rw [dictionaryTrial_cost hg]
      unfold mtdCost objective mtdCost
      rw [gpnhCost_add_S, ← hgr]
      refine le_of_eq ?_
      unfold slopeS
      rw [inner_comm, ← hgr]
      ring) ha (s.slopeS_eq c) (mul_nonneg (sq_nonneg _) (frobSq_nonneg _)) (fun h0 => by
      have : g = 0 := frobSq_eq_zero (le_of_eq ((mul_eq_zero.1 h0).resolve_left (by positivity)))
      rw [this, smul_zero, neg_zero, gpnhCost_zero_zero])
  rw [hr]
  exact ⟨_, rfl⟩

/-! ### Weights -/

theorem isProb_fin_one {v : Fin 1 → K} (h : IsProb v) : v = 1 := by
  funext i
  have := h.2
  rw [Fin.sum_univ_one] at this
  rw [Subsingleton.elim i 0, this]; rfl

theorem rowStochastic_one_eq {A B : Matrix (Fin T) (Fin k) K} (hk : k = 1)
    (hA : RowStochastic A) (hB : RowStochastic B) : A = B := by
  subst hk
  ext t j
  exact (congrFun (isProb_fin_one (hA t)) j).trans (congrFun (isProb_fin_one (hB t)) j).symm

theorem dirW_one {c : MTDConfig p K} {s : MTDState T D k p K} (hk : k = 1)
    (hs : RowStochastic s.Gamma) : s.dirW c = 0 := by
  unfold dirW
  rw [rowStochastic_one_eq hk (projectRows_rowStochastic (by omega) _) hs, sub_self]

theorem mtdPenalty_zero (eps : K) (lags : Fin p → ℕ) (w : Fin p → K)
    (A : Fin p → Matrix (Fin k) (Fin k) K) :
    mtdPenalty eps lags (0 : Matrix (Fin T) (Fin k) K) w A = 0 := by
  rw [mtdPenalty_eq]
  split_ifs
  · rfl
  have := mtdRes_add lags w A (0 : Matrix (Fin T) (Fin k) K) 0 1
  simp only [smul_zero, add_zero, one_smul] at this
  have h0 : mtdRes lags (0 : Matrix (Fin T) (Fin k) K) w A = 0 := by
    have h := this
    exact left_eq_add.1 h
  rw [h0, frobSq_eq_inner, inner_zero_left, mul_zero]

theorem updateWeights_succeeds [Archimedean K] {c : MTDConfig p K} {s : MTDState T D k p K}
    (hg : s.Good c) (hT : T ≠ c.maxLag) (h1 : 0 < c.ls.sigmaOne) (h2 : c.ls.sigmaTwo < 1)
    (hg1 : c.ls.gamma < 1) (hk : 1 ≤ k) (hs : RowStochastic s.Gamma)
    (ha : 0 < s.alphaGamma) (hm : s.fGammaMem ≠ []) : ∃ s', s.updateWeights c = Py.ok s' := by
  rw [updateWeights_eq hg hT]
  obtain ⟨r, hr⟩ := lineSearch_below h1 h2 hg1 (weightsTrial_retriable c) hm
    (s := s.weightsStart c) (f0 := s.objective c) (δ := s.slopeW c)
    (q := frobSq (s.dirW c * s.S) / ((D : K) * (T : K)) +
      mtdPenalty c.epsilonWeights c.lags (s.dirW c) s.orderWeights s.transitionMatrices)
    (fun lam _ _ => by
      rw [weightsTrial_cost]
      unfold objective mtdCost
      by_cases hk1 : k = 1
      · have h0 := dirW_one (c := c) hk1 hs
        unfold slopeW
        rw [h0, smul_zero, add_zero, Matrix.zero_mul, inner_zero_left, mtdPenalty_zero,
          frobSq_eq_inner, inner_zero_left]
        simp
      · rw [gpnhCost_add_W, mtdPenalty_add_W hk1]
        refine le_of_eq ?_
        unfold slopeW mtdGradW
        rw [inner_add_right, inner_comm (s.dirW c), inner_comm (s.dirW c)]
        ring) ha (slopeW_le hk hs) (frobSq_nonneg _) (fun h0 => by
      rw [frobSq_eq_zero h0.le, Matrix.zero_mul, mtdPenalty_zero, frobSq_eq_inner, inner_zero_left]
      simp)
  rw [hr]
  exact ⟨_, rfl⟩

/-! ### Parameters -/

theorem mtdPred_zero_left (lags : Fin p → ℕ) (W : Matrix (Fin T) (Fin k) K)
    (A : Fin p → Matrix (Fin k) (Fin k) K) : mtdPred lags W 0 A = 0 := by
  ext t j
  simp [mtdPred, mtdStep]

theorem mtdPred_zero_right (lags : Fin p → ℕ) (W : Matrix (Fin T) (Fin k) K) (w : Fin p → K) :
    mtdPred lags W w 0 = 0 := by
  ext t j
  simp [mtdPred, mtdStep]

theorem frobSq_add_le (A B : Matrix (Fin T) (Fin k) K) :
    frobSq (A + B) ≤ 2 * frobSq A + 2 * frobSq B := by
  have h1 := frobSq_add_smul A B 1
  have h2 := frobSq_nonneg (A - (1 : K) • B)
  rw [frobSq_sub_smul] at h2
  rw [one_smul] at h1
  linarith

theorem frobSq_smul_le {lam : K} (h0 : 0 ≤ lam) (h1 : lam ≤ 1) (B : Matrix (Fin T) (Fin k) K) :
    frobSq (lam • B) ≤ frobSq B := by
  rw [frobSq_eq_inner, inner_smul_left, inner_smul_right, ← frobSq_eq_inner, ← mul_assoc]
  have : lam * lam ≤ 1 := by nlinarith
  exact mul_le_of_le_one_left (frobSq_nonneg _) this

/-- With one component and stochastic blocks the prediction is exact. -/
theorem mtdRes_one {lags : Fin p → ℕ} (hlag : ∀ i, 1 ≤ lags i) {W : Matrix (Fin T) (Fin k) K}
    {w : Fin p → K} {A : Fin p → Matrix (Fin k) (Fin k) K} (hk : k = 1) (hW : RowStochastic W)
    (hw : IsProb w) (hA : ∀ i, ColStochastic (A i)) : mtdRes lags W w A = 0 := by
  subst hk
  ext t j
  unfold mtdRes
  split_ifs with ht
  · have hW' : ∀ r < T, rowSeq W r = 1 := by
      intro r hr
      unfold rowSeq
      rw [dif_pos hr]
      exact isProb_fin_one (hW _)
    have hA' : ∀ i, A i j 0 = 1 := fun i => congrFun (isProb_fin_one (hA i 0)) j
    have : mtdStep lags w A (rowSeq W) t j = 1 := by
      unfold mtdStep
      rw [← hw.2]
      refine Finset.sum_congr rfl fun i _ => ?_
      rw [Fin.sum_univ_one, hA' i, hW' _ (by have := hlag i; omega)]
      simp
    rw [this]
    have := congrFun (isProb_fin_one (hW t)) j
    rw [this]
    simp
  · rfl

theorem updateParameters_succeeds [Archimedean K] {c : MTDConfig p K} {s : MTDState T D k p K}
    (hlag : ∀ i, 1 ≤ c.lags i)
    (hg : s.Good c) (hT : T ≠ c.maxLag) (h1 : 0 < c.ls.sigmaOne) (h2 : c.ls.sigmaTwo < 1)
    (hg1 : c.ls.gamma < 1) (hk : 1 ≤ k) (hp : 1 ≤ p) (hW : RowStochastic s.Gamma)
    (hw : IsProb s.orderWeights) (hA : ∀ i, ColStochastic (s.transitionMatrices i))
    (ha : 0 < s.alphaParameters) (hm : s.fParametersMem ≠ []) :
    ∃ s', s.updateParameters c = Py.ok s' := by
  rw [updateParameters_eq hg hT]
  set P1 := mtdPred c.lags s.Gamma (s.dirOW c) s.transitionMatrices +
    mtdPred c.lags s.Gamma s.orderWeights (s.dirTM c) with hP1
  set P2 := mtdPred c.lags s.Gamma (s.dirOW c) (s.dirTM c) with hP2
  set R := mtdRes c.lags s.Gamma s.orderWeights s.transitionMatrices with hR
  obtain ⟨r, hr⟩ := lineSearch_below h1 h2 hg1 (parametersTrial_retriable c) hm
    (s := s.paramsStart c) (f0 := s.objective c) (δ := s.slopeP c)
    (q := |mtdCoef T k c.epsilonWeights c.lags| * (2 * frobSq P1 + 2 * frobSq P2 + 2 * |inner R P2|))
    (fun lam h0 h1 => by
      rw [parametersTrial_cost hg]
      unfold objective mtdCost
      have hq0 : 0 ≤ 2 * frobSq P1 + 2 * frobSq P2 + 2 * |inner R P2| := by
        have := frobSq_nonneg P1
        have := frobSq_nonneg P2
        positivity
      by_cases hk1 : k = 1
      · have hR0 : R = 0 := mtdRes_one hlag hk1 hW hw hA
        have hs0 : s.slopeP c = 0 := by
          unfold slopeP
          rw [← mtd_params_slope, ← hR, hR0, inner_zero_left, mul_zero]
        rw [hs0, mtdPenalty_eq, mtdPenalty_eq, if_pos hk1, if_pos hk1]
        have := mul_nonneg (sq_nonneg lam) (mul_nonneg (abs_nonneg
          (mtdCoef T k c.epsilonWeights c.lags)) hq0)
        linarith
      · rw [mtdPenalty_add_params hk1, mtd_params_slope, ← hP1, ← hP2, ← hR]
        change _ + (_ + lam * s.slopeP c + _) ≤ _
        have hb : mtdCoef T k c.epsilonWeights c.lags *
            (frobSq (P1 + lam • P2) - 2 * inner R P2) ≤
            |mtdCoef T k c.epsilonWeights c.lags| *
              (2 * frobSq P1 + 2 * frobSq P2 + 2 * |inner R P2|) := by
          refine (le_abs_self _).trans ?_
          rw [abs_mul]
          refine mul_le_mul_of_nonneg_left ?_ (abs_nonneg _)
          have e1 := frobSq_add_le P1 (lam • P2)
          have e2 := frobSq_smul_le h0.le h1 P2
          have e3 := frobSq_nonneg (P1 + lam • P2)
          have e4 := le_abs_self (inner R P2)
          have e5 := neg_abs_le (inner R P2)
          have e6 := frobSq_nonneg P1
          have e7 := frobSq_nonneg P2
          rw [abs_le]
          constructor <;> linarith
        have := mul_le_mul_of_nonneg_left hb (sq_nonneg lam)
        linarith) ha (slopeP_le hk hp hw hA) (s.stepP_nonneg c) (fun h0 => by
      obtain ⟨e1, e2⟩ := stepP_eq_zero h0
      rw [hP1, hP2, e1, e2, mtdPred_zero_left, mtdPred_zero_left, mtdPred_zero_right, add_zero,
        frobSq_eq_inner, inner_zero_left, inner_zero_right]
      simp)
  rw [hr]
  exact ⟨_, rfl⟩

/-! ### The loop -/

/-- Everything needed for descent. -/
structure Ready (c : MTDConfig p K) (s : MTDState T D k p K) : Prop where
  good : s.Good c
  stoch : RowStochastic s.Gamma
  ow : IsProb s.orderWeights
  tm : ∀ i, ColStochastic (s.transitionMatrices i)
  alphaS : 0 < s.alphaS
  alphaGamma : 0 < s.alphaGamma
  alphaParameters : 0 < s.alphaParameters
  memS : ∃ m, s.fSMem = [m]
  memG : ∃ m, s.fGammaMem = [m]
  memP : ∃ m, s.fParametersMem = [m]

end MTDState

open MTDState

theorem accept_descends {f0 f' lam gamma δ tol : K} {mem : List K} (hmem : mem = [f0])
    (hlam : 0 < lam) (hg : 0 ≤ gamma) (hδ : δ ≤ 0) (ht : tol = 0)
    (h : (∃ fMax ∈ mem, (∀ f ∈ mem, f ≤ fMax) ∧ f' ≤ fMax + gamma * lam * δ) ∨ |lam| < tol) :
    f' ≤ f0 := by
  rcases h with ⟨fMax, hM, -, h⟩ | h
  · rw [hmem, List.mem_singleton] at hM
    rw [hM] at h
    have := mul_nonpos_of_nonneg_of_nonpos (mul_nonneg hg hlam.le) hδ
    linarith
  · rw [ht] at h
    exact absurd h (not_lt.2 (abs_nonneg _))

/-- Without a step floor every update succeeds and does not increase the cost. -/
theorem mtd_ready_phases [Archimedean K] {c : MTDConfig p K} (hlag : ∀ i, 1 ≤ c.lags i)
    (h1 : 0 < c.ls.sigmaOne) (h2 : c.ls.sigmaTwo < 1) (hg0 : 0 ≤ c.ls.gamma) (hg1 : c.ls.gamma < 1)
    (ht : c.ls.stepSizeTolerance = 0) (ha0 : 0 < c.ls.alphaMin) (ha1 : c.ls.alphaMin ≤ c.ls.alphaMax)
    (hk : 1 ≤ k) (hp : 1 ≤ p) {fl : MTDFlags}
    (hT : (fl.updateWeights = true ∨ fl.updateParameters = true) → T ≠ c.maxLag) :
    ∀ f ∈ mtdPhases (T := T) (D := D) (k := k) c fl, ∀ s, s.Ready c →
      ∃ s', f s = Py.ok s' ∧ s'.Ready c ∧ s'.evaluateCost c ≤ s.evaluateCost c := by
  intro f hf s hs
  obtain ⟨mS, hmS⟩ := hs.memS
  obtain ⟨mG, hmG⟩ := hs.memG
  obtain ⟨mP, hmP⟩ := hs.memP
  rcases mem_mtdPhases hf with ⟨-, rfl⟩ | ⟨hfl, rfl⟩ | ⟨hfl, rfl⟩
  · obtain ⟨s', h⟩ := updateDictionary_succeeds hs.good h1 h2 hg1 hs.alphaS (by rw [hmS]; simp)
    obtain ⟨lam, hl⟩ := updateDictionary_post hs.good h
    have hmem : s'.fSMem = [s.objective c] := by rw [hl.fSMem, hmS]; rfl
    refine ⟨s', h, ⟨hl.good, by rw [hl.Gamma]; exact hs.stoch, by rw [hl.orderWeights]; exact hs.ow,
      by rw [hl.transitionMatrices]; exact hs.tm, ?_, by rw [hl.alphaGamma]; exact hs.alphaGamma,
      by rw [hl.alphaParameters]; exact hs.alphaParameters, ⟨_, hmem⟩,
      ⟨mG, by rw [hl.fGammaMem, hmG]⟩, ⟨mP, by rw [hl.fParametersMem, hmP]⟩⟩, ?_⟩
    · obtain ⟨b, q, -, hb⟩ := hl.alpha
      rw [hb]; exact nextSpgAlpha_pos ha0 ha1
    · rw [evaluateCost_eq hl.good, evaluateCost_eq hs.good]
      exact accept_descends hmem (hl.pos h1 h2) hg0 (slope_nonpos hs.alphaS (s.slopeS_eq c)
        (mul_nonneg (sq_nonneg _) (frobSq_nonneg _))) ht hl.accept
  · obtain ⟨s', h⟩ := updateWeights_succeeds hs.good (hT (Or.inl hfl)) h1 h2 hg1 hk hs.stoch
      hs.alphaGamma (by rw [hmG]; simp)
    obtain ⟨lam, hl⟩ := updateWeights_post hs.good h
    have hmem : s'.fGammaMem = [s.objective c] := by rw [hl.fGammaMem, hmG]; rfl
    refine ⟨s', h, ⟨hl.good, hl.stochastic (LSConfig.safe_of_sigma h1 h2) hk (fun _ => hs.alphaGamma.le) hs.stoch, by rw [hl.orderWeights]; exact hs.ow,
      by rw [hl.transitionMatrices]; exact hs.tm, by rw [hl.alphaS]; exact hs.alphaS, ?_,
      by rw [hl.alphaParameters]; exact hs.alphaParameters, ⟨mS, by rw [hl.fSMem, hmS]⟩,
      ⟨_, hmem⟩, ⟨mP, by rw [hl.fParametersMem, hmP]⟩⟩, ?_⟩
    · obtain ⟨b, q, -, hb⟩ := hl.alpha
      rw [hb]; exact nextSpgAlpha_pos ha0 ha1
    · rw [evaluateCost_eq hl.good, evaluateCost_eq hs.good]
      exact accept_descends hmem (hl.pos h1 h2) hg0 (slope_nonpos hs.alphaGamma
        (slopeW_le hk hs.stoch) (frobSq_nonneg _)) ht hl.accept
  · obtain ⟨s', h⟩ := updateParameters_succeeds hlag hs.good (hT (Or.inr hfl)) h1 h2 hg1 hk hp
      hs.stoch hs.ow hs.tm hs.alphaParameters (by rw [hmP]; simp)
    obtain ⟨lam, hl⟩ := updateParameters_post hs.good h
    have hmem : s'.fParametersMem = [s.objective c] := by rw [hl.fParametersMem, hmP]; rfl
    have hst := hl.stochastic (LSConfig.safe_of_sigma h1 h2) hk hp (fun _ => hs.alphaParameters.le) ⟨hs.ow, hs.tm⟩
    refine ⟨s', h, ⟨hl.good, by rw [hl.Gamma]; exact hs.stoch, hst.1, hst.2,
      by rw [hl.alphaS]; exact hs.alphaS, by rw [hl.alphaGamma]; exact hs.alphaGamma, ?_,
      ⟨mS, by rw [hl.fSMem, hmS]⟩, ⟨mG, by rw [hl.fGammaMem, hmG]⟩, ⟨_, hmem⟩⟩, ?_⟩
    · obtain ⟨b, q, -, hb⟩ := hl.alpha
      rw [hb]; exact nextSpgAlpha_pos ha0 ha1
    · rw [evaluateCost_eq hl.good, evaluateCost_eq hs.good]
      exact accept_descends hmem (hl.pos h1 h2) hg0 (slope_nonpos hs.alphaParameters
        (slopeP_le hk hp hs.ow hs.tm) (s.stepP_nonneg c)) ht hl.accept

theorem mtd_ready_initial {c : MTDConfig p K} (hmem : c.ls.memory = 1)
    {X : Matrix (Fin T) (Fin D) K} {pt : MTDPoint T D k p K} (hW : RowStochastic pt.2.1)
    (hw : IsProb pt.2.2.1) (hA : ∀ i, ColStochastic (pt.2.2.2 i)) :
    (mtdInitialState c X pt).Ready c := by
  have h1 : List.replicate c.ls.memory (0 : K) = [0] := by rw [hmem]; rfl
  exact ⟨mtdInitialState_good c X pt, hW, hw, hA, one_pos, one_pos, one_pos, ⟨0, h1⟩, ⟨0, h1⟩,
    ⟨0, h1⟩⟩

theorem mtdSolve_succeeds [Archimedean K] {c : MTDConfig p K} (hlag : ∀ i, 1 ≤ c.lags i)
    (h1 : 0 < c.ls.sigmaOne) (h2 : c.ls.sigmaTwo < 1) (hg0 : 0 ≤ c.ls.gamma) (hg1 : c.ls.gamma < 1)
    (ht : c.ls.stepSizeTolerance = 0) (ha0 : 0 < c.ls.alphaMin) (ha1 : c.ls.alphaMin ≤ c.ls.alphaMax)
    (hmem : c.ls.memory = 1) (hk : 1 ≤ k) (hp : 1 ≤ p) {fl : MTDFlags} (hDT : D * T ≠ 0)
    (hT : T ≠ c.maxLag) {require : Bool} {tol : K} {maxIter : ℕ} (hm : 0 < maxIter)
    {X : Matrix (Fin T) (Fin D) K} {pt : MTDPoint T D k p K} (hW : RowStochastic pt.2.1)
    (hw : IsProb pt.2.2.1) (hA : ∀ i, ColStochastic (pt.2.2.2 i)) :
    ∃ r, mtdSolve c require tol maxIter fl X pt = Py.ok r := by
  obtain ⟨r, hr, -⟩ := iterate_ok (evalCost := fun s : MTDState T D k p K => (s, s.evaluateCost c))
    (fun _ => rfl) (require := require) (tol := tol) (Inv := Ready c) (fun _ h => h)
    (mtd_ready_phases hlag h1 h2 hg0 hg1 ht ha0 ha1 hk hp (fl := fl) (fun _ => hT))
    (mtd_ready_initial hmem (X := X) hW hw hA) hm
  exact ⟨r, mtdSolve_eq_ok.2 ⟨⟨by omega, hDT, fun h => hT h.2⟩, hr⟩⟩

/-! ### Starts -/

theorem mtdDrawOrderWeights_succeeds {R : Rng K} (hpos : ∀ m n g i j, 0 < (R.uniform m n g).1 i j)
    (p : ℕ) (g : R.G) : ∃ r, mtdDrawOrderWeights R p g = Py.ok r := by
  unfold mtdDrawOrderWeights
  simp only
  rw [if_neg]
  · exact ⟨_, rfl⟩
  · rintro ⟨hp, h0⟩
    have : 0 < ∑ i, (R.uniform 1 p g).1 0 i :=
      Finset.sum_pos (fun i _ => hpos _ _ _ _ _) ⟨⟨0, Nat.pos_of_ne_zero hp⟩, Finset.mem_univ _⟩
    exact this.ne' h0

theorem mtdDrawTransitionMatrices_succeeds {R : Rng K}
    (hpos : ∀ m n g i j, 0 < (R.uniform m n g).1 i j) (hk : 1 ≤ k) :
    ∀ (p : ℕ) (g : R.G), ∃ r, mtdDrawTransitionMatrices R k p g = Py.ok r
  | 0, g => ⟨_, rfl⟩
  | p + 1, g => by
    unfold mtdDrawTransitionMatrices
    obtain ⟨A, hA⟩ := leftStochastic_succeeds hpos (m := k) (n := k) hk g
    obtain ⟨r, hr⟩ := mtdDrawTransitionMatrices_succeeds hpos hk p A.2
    rw [hA, Py.ok_bind, hr]
    exact ⟨_, rfl⟩

theorem mtdInitParameters_succeeds {env : Env K}
    (hpos : ∀ m n g i j, 0 < (env.rng.uniform m n g).1 i j) (hk : 1 ≤ k) (p : ℕ)
    {init : Option String} (hinit : init = none ∨ init = some "random") (g : env.rng.G) :
    ∃ r, mtdInitParameters env k p init {} g = Py.ok r := by
  have hi : init.getD "random" = "random" := by rcases hinit with rfl | rfl <;> rfl
  unfold mtdInitParameters mtdInitParametersRandom
  obtain ⟨w, hw⟩ := mtdDrawOrderWeights_succeeds hpos p g
  obtain ⟨A, hA⟩ := mtdDrawTransitionMatrices_succeeds hpos hk p w.2
  simp [hi, hw, hA, InitKwargs.nonempty]

theorem mtdInitWeights_succeeds {env : Env K}
    (hpos : ∀ m n g i j, 0 < (env.rng.uniform m n g).1 i j) (hk : 1 ≤ k) (T : ℕ)
    {init : Option String} (hinit : init = none ∨ init = some "random") (g : env.rng.G) :
    ∃ r, mtdInitWeights env T k init {} g = Py.ok r := by
  have hi : init.getD "random" = "random" := by rcases hinit with rfl | rfl <;> rfl
  unfold mtdInitWeights gpnhInitWeights gpnhInitWeightsRandom
  obtain ⟨w, hw⟩ := rightStochastic_succeeds hpos (m := T) hk g
  exact ⟨w, by simp [hw, hi, InitKwargs.nonempty]⟩

theorem mtdStart_random_ok {env : Env K} (hpos : ∀ m n g i j, 0 < (env.rng.uniform m n g).1 i j)
    {data : Matrix (Fin T) (Fin D) K} (hDT : D * T ≠ 0) (hk : 1 ≤ k) (p : ℕ)
    {init : Option String} (hinit : init = none ∨ init = some "random")
    {args : MTDArgs K} {g : env.rng.G} :
    ∃ start, mtdStart env data k p init args {} {} g = Py.ok start := by
  have hi : init.getD "random" = "random" := by rcases hinit with rfl | rfl <;> rfl
  have hc : init ≠ some "custom" := by rcases hinit with rfl | rfl <;> simp
  have hTD : ¬ T * D = 0 := by rwa [mul_comm]
  have hd : ∃ r, mtdInitDictionary env data k init {} g = Py.ok r := by
    unfold mtdInitDictionary gpnhInitDictionary gpnhInitDictionaryRandom
    simp only [hi, if_true, hTD, if_false]
    exact ⟨_, rfl⟩
  obtain ⟨d, hd⟩ := hd
  obtain ⟨w, hw⟩ := mtdInitWeights_succeeds hpos hk T hinit d.2
  obtain ⟨a, ha⟩ := mtdInitParameters_succeeds hpos hk p hinit w.2
  unfold mtdStart
  rw [if_neg hc]
  simp only [mtdStartDictionary, mtdStartWeights, mtdStartParameters, if_true, hd, Py.ok_bind, hw,
    ha]
  exact ⟨_, rfl⟩

theorem mtdCheckInitDictionary_of (hk : k ≠ 0) (hD : D ≠ 0) (S : Matrix (Fin k) (Fin D) K) :
    mtdCheckInitDictionary (some (Arr2.of S)) k D = Py.ok S := by
  unfold mtdCheckInitDictionary gpnhCheckInitDictionary checkArray
  have : ¬ ((Arr2.of S).rows = 0 ∨ (Arr2.of S).cols = 0) := by
    simp only [Arr2.of]; omega
  simp only [this, if_false, Py.ok_bind, checkArrayShape_of]

theorem iscloseOne_one : iscloseOne (1 : K) := by
  unfold iscloseOne
  rw [sub_self, abs_zero, abs_one]
  positivity

theorem mtdCheckInitOrderWeights_of {w : Fin p → K} (hw : IsProb w) :
    mtdCheckInitOrderWeights (some (Arr1.of w)) p = Py.ok w := by
  unfold mtdCheckInitOrderWeights
  simp only
  rw [dif_pos (show (Arr1.of w).size = p from rfl)]
  have : iscloseOne (∑ i, w i) := by rw [hw.2]; exact iscloseOne_one
  exact if_pos this

theorem mtdCheckInitTransitionMatrices_of {A : Fin p → Matrix (Fin k) (Fin k) K}
    (hA : ∀ i, ColStochastic (A i)) :
    mtdCheckInitTransitionMatrices (some (Arr3.of A)) p k = Py.ok A := by
  unfold mtdCheckInitTransitionMatrices
  simp only
  rw [dif_pos (show (Arr3.of A).size = p ∧ (Arr3.of A).rows = k ∧ (Arr3.of A).cols = k from
    ⟨rfl, rfl, rfl⟩)]
  have : ∀ i j, iscloseOne (∑ l, A i l j) := fun i j => by
    rw [(hA i j).2]; exact iscloseOne_one
  exact if_pos this

/-- The start of `transform`. -/
theorem mtdStart_transform_ok {env : Env K}
    (hpos : ∀ m n g i j, 0 < (env.rng.uniform m n g).1 i j)
    {data : Matrix (Fin T) (Fin D) K} (hD : D ≠ 0) (hk : 1 ≤ k)
    {init : Option String} (hinit : init = none ∨ init = some "random")
    {args : MTDArgs K} {g : env.rng.G} {S : Matrix (Fin k) (Fin D) K} {w : Fin p → K}
    {A : Fin p → Matrix (Fin k) (Fin k) K}
    (h1 : args.dictionary = some (Arr2.of S)) (h2 : args.orderWeights = some (Arr1.of w))
    (h3 : args.transitionMatrices = some (Arr3.of A)) (hw : IsProb w)
    (hA : ∀ i, ColStochastic (A i)) :
    ∃ start, mtdStart env data k p init args ⟨false, true, false⟩ {} g = Py.ok start ∧
      start.1.1 = S ∧ start.1.2.2 = (w, A) := by
  have hc : init ≠ some "custom" := by rcases hinit with rfl | rfl <;> simp
  obtain ⟨r, hr⟩ := mtdInitWeights_succeeds hpos hk T hinit g
  unfold mtdStart
  rw [if_neg hc]
  simp only [mtdStartDictionary, mtdStartWeights, mtdStartParameters, if_true, h1, h2, h3,
    Bool.false_eq_true, if_false, mtdCheckInitDictionary_of (by omega : k ≠ 0) hD,
    mtdCheckInitOrderWeights_of hw, mtdCheckInitTransitionMatrices_of hA, Py.ok_bind, hr,
    Py.pure_eq]
  exact ⟨_, rfl, rfl, rfl⟩

/-- With the default initialisation nothing before the loop raises ValueError. -/
theorem mtdStart_random_raise {env : Env K} {data : Matrix (Fin T) (Fin D) K} {k p : ℕ}
    {init : Option String} (hinit : init = none ∨ init = some "random")
    {args : MTDArgs K} {g : env.rng.G} {e : PyErr}
    (h : mtdStart env data k p init args {} {} g = Py.raise e) : e = .nonFinite := by
  have hi : init.getD "random" = "random" := by rcases hinit with rfl | rfl <;> rfl
  have hc : init ≠ some "custom" := by rcases hinit with rfl | rfl <;> simp
  unfold mtdStart at h
  rw [if_neg hc] at h
  simp only [mtdStartDictionary, mtdStartWeights, mtdStartParameters, if_true] at h
  rcases Py.bind_eq_raise.1 h with h | ⟨_, _, h⟩
  · unfold mtdInitDictionary gpnhInitDictionary gpnhInitDictionaryRandom at h
    simp only [hi, if_true] at h
    split_ifs at h
    simpa using h.symm
  rcases Py.bind_eq_raise.1 h with h | ⟨_, _, h⟩
  · unfold mtdInitWeights gpnhInitWeights at h
    simp only [hi, InitKwargs.nonempty] at h
    simp at h
    exact rightStochastic_raise h
  rcases Py.bind_eq_raise.1 h with h | ⟨_, _, h⟩
  · unfold mtdInitParameters at h
    simp only [hi, InitKwargs.nonempty] at h
    simp at h
    unfold mtdInitParametersRandom at h
    rcases Py.bind_eq_raise.1 h with h | ⟨_, _, h⟩
    · unfold mtdDrawOrderWeights at h
      simp only at h
      split_ifs at h
      simpa using h.symm
    rcases Py.bind_eq_raise.1 h with h | ⟨_, _, h⟩
    · exact mtdDrawTransitionMatrices_raise h
    · simp at h
  · simp at h

theorem mtdSolve_raise (hp : p ≠ 0) {c : MTDConfig p K} {require : Bool} {tol : K} {maxIter : ℕ}
    (hm : 0 < maxIter) {fl : MTDFlags} {X : Matrix (Fin T) (Fin D) K} {pt : MTDPoint T D k p K}
    {e : PyErr} (h : mtdSolve c require tol maxIter fl X pt = Py.raise e) :
    e = .zeroDivisionError ∨ e = .nonFinite ∨ e = .indexError ∨ e = .runtimeError := by
  unfold mtdSolve at h
  rw [if_neg hp] at h
  unfold mtdIterate at h
  by_cases hDT : D * T = 0
  · rw [if_pos hDT] at h
    exact Or.inl (by simpa using h.symm)
  rw [if_neg hDT] at h
  by_cases hk : k ≠ 1 ∧ T = c.maxLag
  · rw [if_pos hk] at h
    exact Or.inr (Or.inl (by simpa using h.symm))
  rw [if_neg hk] at h
  rcases iterate_raise (Inv := Good c) (fun _ h => h) (by
      intro f hf s s' hg h
      rcases mtd_phase_cases (fl := fl) hg hf h with ⟨-, _, hl⟩ | ⟨-, _, hl⟩ | ⟨-, _, hl⟩ <;>
        exact hl.good)
    (mtdInitialState_good c X pt) hm h with ⟨f, hf, x, hx, hr⟩ | ⟨h, -⟩
  · rcases mem_mtdPhases (fl := fl) hf with ⟨-, rfl⟩ | ⟨-, rfl⟩ | ⟨-, rfl⟩
    · exact Or.inr (Or.inr (Or.inl (updateDictionary_raise hx hr).2))
    · rcases updateWeights_raise hx hr with h | h
      · exact Or.inr (Or.inr (Or.inl h.2))
      · exact Or.inr (Or.inl h.2)
    · rcases updateParameters_raise hx hr with h | h
      · exact Or.inr (Or.inr (Or.inl h.2))
      · exact Or.inr (Or.inl h.2)
  · exact Or.inr (Or.inr (Or.inr h))

end Reor
