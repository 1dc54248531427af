import Verif.Proofs.ConvergeMTD

/-!
Progress of the updates of the MTD model.
-/

namespace Reor

set_option linter.unusedSectionVars false

open scoped BigOperators Matrix
open Spec

variable {K : Type} [Field K] [LinearOrder K] [IsStrictOrderedRing K]
variable {T D k p : ℕ}

namespace MTDState

theorem updateDictionary_slope {c : MTDConfig p K} (hd : c.ls.Descends) {a1 b L m0 : K}
    {s s' : MTDState T D k p K} (hg : s.Good c) (ha : 0 < s.alphaS) (ha1 : s.alphaS ≤ a1)
    (hm : s.fSMem = [m0]) (hL : GPNHState.lipS c.epsilonStates s.Gamma D ≤ L)
    (hb0 : 0 < b) (hb1 : b ≤ 1) (hb2 : b ≤ c.ls.sigmaOne)
    (hb3 : 2 * b * (a1 * L) ≤ 1 - c.ls.gamma) (hbt : c.ls.stepSizeTolerance ≤ b)
    (h : s.updateDictionary c = Py.ok s') :
    s'.objective c ≤ s.objective c + c.ls.gamma * b * s.slopeS c := by
  rw [updateDictionary_eq hg] at h
  obtain ⟨r, hr, h⟩ := Py.bind_eq_ok.1 h
  simp only [Py.ok.injEq] at h
  obtain ⟨-, -, -, he, -⟩ := lineSearch_spec (dictionaryTrial_retriable c) hr
  have hcost : (dictionaryTrial c (s.dictStart c) r.stepSize).2 = r.cost := congrArg Prod.snd he
  have hstate : (dictionaryTrial c (s.dictStart c) r.stepSize).1 = r.state := congrArg Prod.fst he
  rw [dictionaryTrial_cost hg] at hcost
  rw [← hstate] at h
  unfold updateDictionaryGradient at h
  rw [GPNHState.updateDictionaryGradient_eq] at h
  subst h
  rw [hm] at hr
  have hN : s.alphaS ^ 2 * frobSq (gradSOf c.epsilonStates s.X s.Gamma s.S) =
      frobSq (-(s.alphaS • gradSOf c.epsilonStates s.X s.Gamma s.S)) := by
    rw [frobSq_neg, frobSq_smul]
  have hslope := s.slopeS_eq c
  rw [hN] at hslope
  have hprog := lineSearch_slope_progress hd (dictionaryTrial_retriable c) (L := L)
    (q := gpnhCost c.epsilonStates 0 s.Gamma
      (-(s.alphaS • gradSOf c.epsilonStates s.X s.Gamma s.S))) (fun lam _ _ => by
      rw [dictionaryTrial_cost hg]
      unfold mtdCost objective mtdCost
      rw [gpnhCost_add_S]
      refine le_of_eq ?_
      unfold slopeS
      rw [inner_comm]
      ring) ha ha1 hslope (frobSq_nonneg _) ((GPNHState.lipS_nonneg _ s.Gamma).trans hL)
    ((GPNHState.curvature_S_le _ s.Gamma _).trans
      (mul_le_mul_of_nonneg_right hL (frobSq_nonneg _)))
    hb0 hb1 hb2 hb3 hbt hr
  rw [← hcost] at hprog
  exact hprog

theorem mtdPenalty_curvature_le {eps : K} (he : 0 ≤ eps) (lags : Fin p → ℕ)
    (H : Matrix (Fin T) (Fin k) K) {w : Fin p → K} {A : Fin p → Matrix (Fin k) (Fin k) K}
    (hw : IsProb w) (hA : ∀ i, ColStochastic (A i)) :
    mtdPenalty eps lags H w A ≤ mtdCoef T k eps lags * (2 + 2 * (T * (p * k))) * frobSq H := by
  have hc := mtdCoef_nonneg (T := T) (k := k) he lags
  rw [mtdPenalty_eq]
  split_ifs
  · have := frobSq_nonneg H
    positivity
  · rw [mul_assoc]
    exact mul_le_mul_of_nonneg_left (frobSq_mtdRes_le lags H hw hA) hc

theorem updateWeights_slope {c : MTDConfig p K} (hd : c.ls.Descends) (hk : 1 ≤ k)
    (he : 0 ≤ c.epsilonWeights) {a1 b L m0 : K}
    {s s' : MTDState T D k p K} (hg : s.Good c) (hW : RowStochastic s.Gamma)
    (hw : IsProb s.orderWeights) (hA : ∀ i, ColStochastic (s.transitionMatrices i))
    (ha : 0 < s.alphaGamma) (ha1 : s.alphaGamma ≤ a1) (hm : s.fGammaMem = [m0])
    (hL : GPNHState.lipW s.S T +
      mtdCoef T k c.epsilonWeights c.lags * (2 + 2 * (T * (p * k))) ≤ L)
    (hb0 : 0 < b) (hb1 : b ≤ 1) (hb2 : b ≤ c.ls.sigmaOne)
    (hb3 : 2 * b * (a1 * L) ≤ 1 - c.ls.gamma) (hbt : c.ls.stepSizeTolerance ≤ b)
    (h : s.updateWeights c = Py.ok s') :
    s'.objective c ≤ s.objective c + c.ls.gamma * b * s.slopeW c := by
  rw [updateWeights_eq hg (updateWeights_ok_ne h)] at h
  obtain ⟨r, hr, h⟩ := Py.bind_eq_ok.1 h
  simp only [Py.ok.injEq] at h
  obtain ⟨-, -, -, hee, -⟩ := lineSearch_spec (weightsTrial_retriable c) hr
  have hcost : (weightsTrial c (s.weightsStart c) r.stepSize).2 = r.cost := congrArg Prod.snd hee
  have hstate : (weightsTrial c (s.weightsStart c) r.stepSize).1 = r.state := congrArg Prod.fst hee
  rw [weightsTrial_cost] at hcost
  rw [← hstate] at h
  subst h
  rw [hm] at hr
  have hc := mtdCoef_nonneg (T := T) (k := k) he c.lags
  have hL0 : 0 ≤ L := le_trans (add_nonneg (GPNHState.lipW_nonneg s.S)
    (mul_nonneg hc (by positivity))) hL
  have hprog := lineSearch_slope_progress hd (weightsTrial_retriable c) (L := L)
    (q := frobSq (s.dirW c * s.S) / ((D : K) * (T : K)) +
      mtdPenalty c.epsilonWeights c.lags (s.dirW c) s.orderWeights s.transitionMatrices)
    (fun lam _ _ => by
      rw [weightsTrial_cost]
      unfold objective mtdCost
      by_cases hk1 : k = 1
      · have h0 := dirW_one (c := c) hk1 hW
        unfold slopeW
        rw [h0, smul_zero, add_zero, Matrix.zero_mul, inner_zero_left, mtdPenalty_zero,
          frobSq_eq_inner, inner_zero_left]
        simp
      · rw [gpnhCost_add_W, mtdPenalty_add_W hk1]
        refine le_of_eq ?_
        unfold slopeW mtdGradW
        rw [inner_add_right, inner_comm (s.dirW c), inner_comm (s.dirW c)]
        ring) ha ha1 (slopeW_le hk hW) (frobSq_nonneg _) hL0
    (by
      refine le_trans ?_ (mul_le_mul_of_nonneg_right hL (frobSq_nonneg _))
      rw [add_mul]
      exact add_le_add (GPNHState.curvature_W_le _ _)
        (mtdPenalty_curvature_le he c.lags _ hw hA))
    hb0 hb1 hb2 hb3 hbt hr
  rw [← hcost] at hprog
  exact hprog

/-- A bound for the curvature of the squared residual in the parameters. -/
def paramsCurvature (T p k : ℕ) : K :=
  4 * ((T : K) * (p * k * T) + T * T) + 2 * (T * (4 * T)) +
    2 * (((2 + 2 * (T * (p * k))) * T + 1) * T)

theorem paramsCurvature_nonneg (T p k : ℕ) : (0 : K) ≤ paramsCurvature T p k := by
  unfold paramsCurvature
  positivity

/-- Curvature of the objective along a joint step of the parameters. -/
theorem params_curvature_le (T p k : ℕ) :
    ∀ (lags : Fin p → ℕ) (W : Matrix (Fin T) (Fin k) K) (w v : Fin p → K)
      (A B : Fin p → Matrix (Fin k) (Fin k) K), RowStochastic W → IsProb w →
      (∀ i, ColStochastic (A i)) → vsq v ≤ 4 →
      2 * frobSq (mtdPred lags W v A + mtdPred lags W w B) + 2 * frobSq (mtdPred lags W v B) +
        2 * |inner (mtdRes lags W w A) (mtdPred lags W v B)| ≤
      paramsCurvature T p k * (vsq v + msq B) := by
  intro lags W w v A B hW hw hA hv
  unfold paramsCurvature
  set M : K := (2 + 2 * (T * (p * k))) * T + 1 with hMdef
  have hM0 : (0 : K) ≤ (2 + 2 * (T * (p * k))) * T := by positivity
  have hM : 0 ≤ M := by linarith
  have hM' : (2 + 2 * (T * (p * k))) * T ≤ M ^ 2 := by
    rw [hMdef]
    nlinarith
  have hWT := frobSq_rowStochastic hW
  have hWn := frobSq_nonneg W
  have hvn := vsq_nonneg v
  have hBn := msq_nonneg B
  have hTn : (0 : K) ≤ T := Nat.cast_nonneg T
  set N := vsq v + msq B with hN
  have hvN : vsq v ≤ N := by linarith
  have hBN : msq B ≤ N := by linarith
  have hNn : 0 ≤ N := by linarith
  have h1 : frobSq (mtdPred lags W v A) ≤ T * (N * (p * k * T)) :=
    (frobSq_mtdPred_le lags W v A).trans (mul_le_mul_of_nonneg_left
      (mul_le_mul hvN (mul_le_mul (msq_le hA) hWT hWn (by positivity))
        (mul_nonneg (msq_nonneg A) hWn) hNn) hTn)
  have h2 : frobSq (mtdPred lags W w B) ≤ T * (1 * (N * T)) :=
    (frobSq_mtdPred_le lags W w B).trans (mul_le_mul_of_nonneg_left
      (mul_le_mul (vsq_le_one hw) (mul_le_mul hBN hWT hWn hNn)
        (mul_nonneg hBn hWn) zero_le_one) hTn)
  have h3 : frobSq (mtdPred lags W v B) ≤ T * (4 * (N * T)) :=
    (frobSq_mtdPred_le lags W v B).trans (mul_le_mul_of_nonneg_left
      (mul_le_mul hv (mul_le_mul hBN hWT hWn hNn)
        (mul_nonneg hBn hWn) (by norm_num)) hTn)
  have h4 : frobSq (mtdPred lags W v B) ≤ (T * N) ^ 2 := by
    have : frobSq (mtdPred lags W v B) ≤ T * (N * (N * T)) :=
      (frobSq_mtdPred_le lags W v B).trans (mul_le_mul_of_nonneg_left
        (mul_le_mul hvN (mul_le_mul hBN hWT hWn hNn)
          (mul_nonneg hBn hWn) hNn) hTn)
    refine this.trans (le_of_eq ?_)
    ring
  have h5 := abs_inner_le hM (mul_nonneg hTn hNn)
    (((frobSq_mtdRes_le lags W hw hA).trans (mul_le_mul_of_nonneg_left hWT (by positivity))).trans
      hM') h4
  have h6 := frobSq_add_le (mtdPred lags W v A) (mtdPred lags W w B)
  linarith

theorem vsq_dirOW_le {c : MTDConfig p K} {s : MTDState T D k p K} (hp : 1 ≤ p)
    (hw : IsProb s.orderWeights) : vsq (s.dirOW c) ≤ 4 := by
  have h1 := vsq_sub_le (simplexProjectVector (s.orderWeights - s.alphaParameters •
    mtdGradOW c.epsilonWeights c.lags s.Gamma s.orderWeights s.transitionMatrices)) s.orderWeights
  have h2 := vsq_le_one hw
  have h3 := vsq_le_one (project_isProb hp (s.orderWeights - s.alphaParameters •
    mtdGradOW c.epsilonWeights c.lags s.Gamma s.orderWeights s.transitionMatrices))
  unfold dirOW
  linarith

theorem updateParameters_slope {c : MTDConfig p K} (hd : c.ls.Descends)
    (hlag : ∀ i, 1 ≤ c.lags i) (hk : 1 ≤ k) (hp : 1 ≤ p)
    (he : 0 ≤ c.epsilonWeights) {a1 b L L0 m0 : K}
    {s s' : MTDState T D k p K} (hg : s.Good c) (hW : RowStochastic s.Gamma)
    (hw : IsProb s.orderWeights) (hA : ∀ i, ColStochastic (s.transitionMatrices i))
    (ha : 0 < s.alphaParameters) (ha1 : s.alphaParameters ≤ a1) (hm : s.fParametersMem = [m0])
    (hL0 : 0 ≤ L0)
    (hcurv : ∀ (lags : Fin p → ℕ) (W : Matrix (Fin T) (Fin k) K) (w v : Fin p → K)
      (A B : Fin p → Matrix (Fin k) (Fin k) K), RowStochastic W → IsProb w →
      (∀ i, ColStochastic (A i)) → vsq v ≤ 4 →
      2 * frobSq (mtdPred lags W v A + mtdPred lags W w B) + 2 * frobSq (mtdPred lags W v B) +
        2 * |inner (mtdRes lags W w A) (mtdPred lags W v B)| ≤ L0 * (vsq v + msq B))
    (hL : mtdCoef T k c.epsilonWeights c.lags * L0 ≤ L)
    (hb0 : 0 < b) (hb1 : b ≤ 1) (hb2 : b ≤ c.ls.sigmaOne)
    (hb3 : 2 * b * (a1 * L) ≤ 1 - c.ls.gamma) (hbt : c.ls.stepSizeTolerance ≤ b)
    (h : s.updateParameters c = Py.ok s') :
    s'.objective c ≤ s.objective c + c.ls.gamma * b * s.slopeP c := by
  rw [updateParameters_eq hg (updateParameters_ok_ne h)] at h
  obtain ⟨r, hr, h⟩ := Py.bind_eq_ok.1 h
  simp only [Py.ok.injEq] at h
  obtain ⟨-, -, -, hee, -⟩ := lineSearch_spec (parametersTrial_retriable c) hr
  have hcost : (parametersTrial c (s.paramsStart c) r.stepSize).2 = r.cost := congrArg Prod.snd hee
  have hstate : (parametersTrial c (s.paramsStart c) r.stepSize).1 = r.state :=
    congrArg Prod.fst hee
  rw [parametersTrial_cost hg] at hcost
  rw [← hstate] at h
  subst h
  rw [hm] at hr
  have hc := mtdCoef_nonneg (T := T) (k := k) he c.lags
  have hLn : 0 ≤ L := (mul_nonneg hc hL0).trans hL
  set P1 := mtdPred c.lags s.Gamma (s.dirOW c) s.transitionMatrices +
    mtdPred c.lags s.Gamma s.orderWeights (s.dirTM c) with hP1
  set P2 := mtdPred c.lags s.Gamma (s.dirOW c) (s.dirTM c) with hP2
  set R := mtdRes c.lags s.Gamma s.orderWeights s.transitionMatrices with hR
  have hcu := hcurv c.lags s.Gamma s.orderWeights (s.dirOW c) s.transitionMatrices (s.dirTM c) hW hw
    hA (vsq_dirOW_le hp hw)
  rw [← hP1, ← hP2, ← hR] at hcu
  have hprog := lineSearch_slope_progress hd (parametersTrial_retriable c) (L := L)
    (q := mtdCoef T k c.epsilonWeights c.lags *
      (2 * frobSq P1 + 2 * frobSq P2 + 2 * |inner R P2|))
    (fun lam h0 h1 => by
      rw [parametersTrial_cost hg]
      unfold objective mtdCost
      have hq0 : 0 ≤ 2 * frobSq P1 + 2 * frobSq P2 + 2 * |inner R P2| := by
        have := frobSq_nonneg P1
        have := frobSq_nonneg P2
        positivity
      by_cases hk1 : k = 1
      · have hR0 : R = 0 := mtdRes_one hlag hk1 hW hw hA
        have hs0 : s.slopeP c = 0 := by
          unfold slopeP
          rw [← mtd_params_slope, ← hR, hR0, inner_zero_left, mul_zero]
        rw [hs0, mtdPenalty_eq, mtdPenalty_eq, if_pos hk1, if_pos hk1]
        have := mul_nonneg (sq_nonneg lam) (mul_nonneg hc hq0)
        linarith
      · rw [mtdPenalty_add_params hk1, mtd_params_slope, ← hP1, ← hP2, ← hR]
        change _ + (_ + lam * s.slopeP c + _) ≤ _
        have hb : mtdCoef T k c.epsilonWeights c.lags *
            (frobSq (P1 + lam • P2) - 2 * inner R P2) ≤
            mtdCoef T k c.epsilonWeights c.lags *
              (2 * frobSq P1 + 2 * frobSq P2 + 2 * |inner R P2|) := by
          refine mul_le_mul_of_nonneg_left ?_ hc
          have e1 := Reor.frobSq_add_le P1 (lam • P2)
          have e2 := frobSq_smul_le h0.le h1 P2
          have e5 := neg_abs_le (inner R P2)
          linarith
        have := mul_le_mul_of_nonneg_left hb (sq_nonneg lam)
        linarith) ha ha1 (slopeP_le hk hp hw hA) (s.stepP_nonneg c) hLn
    (by
      refine le_trans ?_ (mul_le_mul_of_nonneg_right hL (s.stepP_nonneg c))
      rw [mul_assoc]
      exact mul_le_mul_of_nonneg_left hcu hc)
    hb0 hb1 hb2 hb3 hbt hr
  rw [← hcost] at hprog
  exact hprog

/-- The two parts of the slope of the parameters search. -/
theorem slopeP_parts {c : MTDConfig p K} {s : MTDState T D k p K} (hk : 1 ≤ k) (hp : 1 ≤ p)
    (hw : IsProb s.orderWeights) (hA : ∀ i, ColStochastic (s.transitionMatrices i)) :
    vsq (s.dirOW c) + s.alphaParameters * vecMulSum (s.dirOW c) (mtdGradOW c.epsilonWeights c.lags
      s.Gamma s.orderWeights s.transitionMatrices) ≤ 0 ∧
    msq (s.dirTM c) + s.alphaParameters * mulSum3 (s.dirTM c) (mtdGradTM c.epsilonWeights c.lags
      s.Gamma s.orderWeights s.transitionMatrices) ≤ 0 := by
  refine ⟨projectVector_slope hp hw _, ?_⟩
  set gA := mtdGradTM c.epsilonWeights c.lags s.Gamma s.orderWeights s.transitionMatrices with hgA
  unfold msq mulSum3
  rw [Finset.mul_sum, ← Finset.sum_add_distrib]
  refine Finset.sum_nonpos fun i _ => ?_
  have h3 : ∑ j, ∑ l, ((s.transitionMatrices i l j - s.alphaParameters * gA i l j -
      projectMatrices (s.transitionMatrices - s.alphaParameters • gA) i l j) *
      (s.transitionMatrices i l j -
        projectMatrices (s.transitionMatrices - s.alphaParameters • gA) i l j)) ≤ 0 := by
    refine Finset.sum_nonpos fun j _ => ?_
    have h4 := project_vi hk (fun l => (s.transitionMatrices - s.alphaParameters • gA) i l j)
      (fun l => s.transitionMatrices i l j) (hA i j)
    rw [← projectColumns_apply] at h4
    exact h4
  refine le_trans (le_of_eq ?_) h3
  rw [Finset.sum_comm]
  unfold frobSq mulSum
  rw [Finset.mul_sum, ← Finset.sum_add_distrib]
  refine Finset.sum_congr rfl fun l _ => ?_
  rw [Finset.mul_sum, ← Finset.sum_add_distrib]
  refine Finset.sum_congr rfl fun j _ => ?_
  simp only [dirTM, Pi.sub_apply, Matrix.sub_apply, ← hgA]
  ring

/-- Short steps leave only small negative slopes: weights. -/
theorem near_slope_W {c : MTDConfig p K} {s : MTDState T D k p K} (hk : 1 ≤ k)
    {a0 η R τ : K} (ha0 : 0 < a0) (ha : a0 ≤ s.alphaGamma) (hη : 0 ≤ η) (hR : 0 ≤ R)
    (hP : frobSq (s.dirW c) ≤ η ^ 2) (hδ : -τ ≤ s.slopeW c)
    {W : Matrix (Fin T) (Fin k) K} (hW : RowStochastic W)
    (hd : ∀ V : Matrix (Fin T) (Fin k) K, RowStochastic V → frobSq (W - V) ≤ R ^ 2) :
    -(η * R / a0 + τ) ≤ inner (W - s.Gamma)
      (mtdGradW c s.X s.Gamma s.S s.orderWeights s.transitionMatrices) := by
  set G := mtdGradW c s.X s.Gamma s.S s.orderWeights s.transitionMatrices with hG
  set P := simplexProjectRows (s.Gamma - s.alphaGamma • G) with hPd
  have h := near_vi (ι := Fin T × Fin k) (x := fun q => s.Gamma q.1 q.2) (g := fun q => G q.1 q.2)
    (P := fun q => P q.1 q.2) (y := fun q => W q.1 q.2) (alpha := s.alphaGamma) (a0 := a0) (η := η)
    (R := R) (τ := τ) (by
      rw [Fintype.sum_prod_type]
      exact projectRows_vi hk (s.Gamma - s.alphaGamma • G) W hW) ha0 ha hη hR
    (by rw [Fintype.sum_prod_type]; exact hP)
    (by rw [Fintype.sum_prod_type]; exact hd P (projectRows_rowStochastic hk _))
    (by rw [Fintype.sum_prod_type]; exact hδ)
  rw [Fintype.sum_prod_type] at h
  exact h

/-- Short steps leave only small negative slopes: order weights. -/
theorem near_slope_w {c : MTDConfig p K} {s : MTDState T D k p K} (hp : 1 ≤ p)
    {a0 η τ : K} (ha0 : 0 < a0) (ha : a0 ≤ s.alphaParameters) (hη : 0 ≤ η)
    (hP : vsq (s.dirOW c) ≤ η ^ 2)
    (hδ : -τ ≤ vecMulSum (s.dirOW c) (mtdGradOW c.epsilonWeights c.lags
      s.Gamma s.orderWeights s.transitionMatrices)) {w : Fin p → K} (hw : IsProb w) :
    -(η * 2 / a0 + τ) ≤ vecMulSum (w - s.orderWeights) (mtdGradOW c.epsilonWeights c.lags
      s.Gamma s.orderWeights s.transitionMatrices) := by
  set G := mtdGradOW c.epsilonWeights c.lags s.Gamma s.orderWeights s.transitionMatrices with hG
  set P := simplexProjectVector (s.orderWeights - s.alphaParameters • G) with hPd
  have hd : vsq (w - P) ≤ 2 ^ 2 := by
    have h1 := vsq_sub_le w P
    have h2 := vsq_le_one hw
    have h3 := vsq_le_one (project_isProb hp (s.orderWeights - s.alphaParameters • G))
    rw [← hPd] at h3
    linarith
  exact near_vi (x := s.orderWeights) (g := G) (P := P) (y := w)
    (project_vi hp (s.orderWeights - s.alphaParameters • G) w hw) ha0 ha hη zero_le_two hP hd hδ

/-- Short steps leave only small negative slopes: transition matrices. -/
theorem near_slope_A {c : MTDConfig p K} {s : MTDState T D k p K} (hk : 1 ≤ k)
    {a0 η R τ : K} (ha0 : 0 < a0) (ha : a0 ≤ s.alphaParameters) (hη : 0 ≤ η) (hR : 0 ≤ R)
    (hRR : 4 * (p * k : K) ≤ R ^ 2) (hP : msq (s.dirTM c) ≤ η ^ 2)
    (hδ : -τ ≤ mulSum3 (s.dirTM c) (mtdGradTM c.epsilonWeights c.lags
      s.Gamma s.orderWeights s.transitionMatrices)) {B : Fin p → Matrix (Fin k) (Fin k) K}
    (hB : ∀ i, ColStochastic (B i)) :
    -(η * R / a0 + τ) ≤ mulSum3 (B - s.transitionMatrices) (mtdGradTM c.epsilonWeights c.lags
      s.Gamma s.orderWeights s.transitionMatrices) := by
  set G := mtdGradTM c.epsilonWeights c.lags s.Gamma s.orderWeights s.transitionMatrices with hG
  set P := projectMatrices (s.transitionMatrices - s.alphaParameters • G) with hPd
  have hd : msq (B - P) ≤ R ^ 2 := by
    have h1 := msq_sub_le B P
    have h2 := msq_le hB
    have h3 := msq_le (projectMatrices_colStochastic hk
      (s.transitionMatrices - s.alphaParameters • G))
    rw [← hPd] at h3
    linarith
  have hvi : ∑ i, ∑ l, ∑ j, (s.transitionMatrices i l j - s.alphaParameters * G i l j - P i l j) *
      (B i l j - P i l j) ≤ 0 := by
    refine Finset.sum_nonpos fun i _ => ?_
    rw [Finset.sum_comm]
    refine Finset.sum_nonpos fun j _ => ?_
    have h4 := project_vi hk (fun l => (s.transitionMatrices - s.alphaParameters • G) i l j)
      (fun l => B i l j) (hB i j)
    rw [← projectColumns_apply] at h4
    exact h4
  have h := near_vi (ι := Fin p × Fin k × Fin k) (x := fun q => s.transitionMatrices q.1 q.2.1 q.2.2)
    (g := fun q => G q.1 q.2.1 q.2.2)
    (P := fun q => P q.1 q.2.1 q.2.2) (y := fun q => B q.1 q.2.1 q.2.2) (alpha := s.alphaParameters)
    (a0 := a0) (η := η) (R := R) (τ := τ) (by simp only [Fintype.sum_prod_type]; exact hvi) ha0 ha hη
    hR (by simp only [Fintype.sum_prod_type]; exact hP)
    (by simp only [Fintype.sum_prod_type]; exact hd)
    (by simp only [Fintype.sum_prod_type]; exact hδ)
  simp only [Fintype.sum_prod_type] at h
  exact h

end MTDState

end Reor
