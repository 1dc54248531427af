import Verif.Proofs.MTDFit
import Verif.Proofs.GPNHSym

/-!
Two MTD fits side by side: the second data set is the first one rotated and translated; components
and lags are relabelled.
-/

namespace Reor

set_option linter.unusedSectionVars false

open scoped BigOperators Matrix
open Spec

variable {K : Type} [Field K] [LinearOrder K] [IsStrictOrderedRing K]
variable {T D k p : ℕ}

/-! ### The penalty and its gradients -/

section

variable {ρ : Equiv.Perm (Fin k)} {σ : Equiv.Perm (Fin p)} {lags lags' : Fin p → ℕ}
  {W W' R R' : Matrix (Fin T) (Fin k) K} {w w' : Fin p → K}
  {A A' : Fin p → Matrix (Fin k) (Fin k) K}

theorem topLag_perm (hl : ∀ i, lags' (σ i) = lags i) : topLag lags' = topLag lags := by
  refine le_antisymm (topLag_le_iff.2 fun i => ?_) (topLag_le_iff.2 fun i => ?_)
  · have := hl (σ.symm i)
    rw [Equiv.apply_symm_apply] at this
    rw [this]
    exact lag_le_topLag _ _
  · rw [← hl i]
    exact lag_le_topLag _ _

theorem rowSeq_perm (hW : W'.submatrix (1 : Equiv.Perm (Fin T)) ρ = W) (t : ℕ) (a : Fin k) :
    rowSeq W' t (ρ a) = rowSeq W t a := by
  unfold rowSeq
  split_ifs with h
  · exact submatrix_eq_iff.1 hW ⟨t, h⟩ a
  · rfl

theorem mtdStep_perm (hl : ∀ i, lags' (σ i) = lags i)
    (hW : W'.submatrix (1 : Equiv.Perm (Fin T)) ρ = W) (hw : ∀ i, w' (σ i) = w i)
    (hA : ∀ i a b, A' (σ i) (ρ a) (ρ b) = A i a b) (t : ℕ) (j : Fin k) :
    mtdStep lags' w' A' (rowSeq W') t (ρ j) = mtdStep lags w A (rowSeq W) t j := by
  unfold mtdStep
  rw [← Equiv.sum_comp σ]
  refine Finset.sum_congr rfl fun i _ => ?_
  rw [hw, hl, ← Equiv.sum_comp ρ]
  congr 1
  refine Finset.sum_congr rfl fun l _ => ?_
  rw [hA, rowSeq_perm hW]

theorem mtdRes_perm (hl : ∀ i, lags' (σ i) = lags i)
    (hW : W'.submatrix (1 : Equiv.Perm (Fin T)) ρ = W) (hw : ∀ i, w' (σ i) = w i)
    (hA : ∀ i a b, A' (σ i) (ρ a) (ρ b) = A i a b) :
    (mtdRes lags' W' w' A').submatrix (1 : Equiv.Perm (Fin T)) ρ = mtdRes lags W w A := by
  ext t j
  simp only [Matrix.submatrix_apply, Equiv.Perm.coe_one, id_eq, mtdRes]
  rw [topLag_perm hl, mtdStep_perm hl hW hw hA]
  have := submatrix_eq_iff.1 hW t j
  simp only [Equiv.Perm.coe_one, id_eq] at this
  rw [this]

theorem mtdAdj_perm (hl : ∀ i, lags' (σ i) = lags i)
    (hR : R'.submatrix (1 : Equiv.Perm (Fin T)) ρ = R) (hw : ∀ i, w' (σ i) = w i)
    (hA : ∀ i a b, A' (σ i) (ρ a) (ρ b) = A i a b) :
    (mtdAdj lags' w' A' R').submatrix (1 : Equiv.Perm (Fin T)) ρ = mtdAdj lags w A R := by
  ext t j
  simp only [Matrix.submatrix_apply, Equiv.Perm.coe_one, id_eq, mtdAdj]
  have h1 := submatrix_eq_iff.1 hR t j
  simp only [Equiv.Perm.coe_one, id_eq] at h1
  rw [topLag_perm hl, h1, ← Equiv.sum_comp σ]
  congr 1
  refine Finset.sum_congr rfl fun i _ => ?_
  rw [hl, hw, ← Equiv.sum_comp ρ]
  simp only [hA, rowSeq_perm hR]

theorem mtdCoef_perm (hl : ∀ i, lags' (σ i) = lags i) (eps : K) :
    mtdCoef T k eps lags' = mtdCoef T k eps lags := by
  unfold mtdCoef
  rw [topLag_perm hl]

theorem mtdGradPen_perm (hl : ∀ i, lags' (σ i) = lags i)
    (hW : W'.submatrix (1 : Equiv.Perm (Fin T)) ρ = W) (hw : ∀ i, w' (σ i) = w i)
    (hA : ∀ i a b, A' (σ i) (ρ a) (ρ b) = A i a b) (eps : K) :
    (mtdGradPen eps lags' W' w' A').submatrix (1 : Equiv.Perm (Fin T)) ρ =
      mtdGradPen eps lags W w A := by
  unfold mtdGradPen
  rw [← mtdAdj_perm hl (mtdRes_perm hl hW hw hA) hw hA, mtdCoef_perm hl]
  rfl

theorem rowsFrom_gram (hR : R'.submatrix (1 : Equiv.Perm (Fin T)) ρ = R)
    (hW : W'.submatrix (1 : Equiv.Perm (Fin T)) ρ = W) (a b n : ℕ) (i j : Fin k) :
    ((rowsFrom a n R')ᵀ * rowsFrom b n W' : Matrix (Fin k) (Fin k) K) (ρ i) (ρ j) =
      ((rowsFrom a n R)ᵀ * rowsFrom b n W : Matrix (Fin k) (Fin k) K) i j := by
  rw [Matrix.mul_apply, Matrix.mul_apply]
  refine Finset.sum_congr rfl fun r _ => ?_
  simp only [Matrix.transpose_apply, rowsFrom, rowSeq_perm hR, rowSeq_perm hW]

theorem mtdGradTM_perm (hl : ∀ i, lags' (σ i) = lags i)
    (hW : W'.submatrix (1 : Equiv.Perm (Fin T)) ρ = W) (hw : ∀ i, w' (σ i) = w i)
    (hA : ∀ i a b, A' (σ i) (ρ a) (ρ b) = A i a b) (eps : K) (i : Fin p) (a b : Fin k) :
    mtdGradTM eps lags' W' w' A' (σ i) (ρ a) (ρ b) = mtdGradTM eps lags W w A i a b := by
  unfold mtdGradTM
  rw [mtdCoef_perm hl, hw, hl, topLag_perm hl]
  simp only [Matrix.smul_apply]
  rw [rowsFrom_gram (mtdRes_perm hl hW hw hA) hW]

theorem mtdGradOW_perm (hl : ∀ i, lags' (σ i) = lags i)
    (hW : W'.submatrix (1 : Equiv.Perm (Fin T)) ρ = W) (hw : ∀ i, w' (σ i) = w i)
    (hA : ∀ i a b, A' (σ i) (ρ a) (ρ b) = A i a b) (eps : K) (i : Fin p) :
    mtdGradOW eps lags' W' w' A' (σ i) = mtdGradOW eps lags W w A i := by
  unfold mtdGradOW
  rw [mtdCoef_perm hl, hl, topLag_perm hl]
  congr 1
  rw [← Equiv.sum_comp ρ]
  refine Finset.sum_congr rfl fun a _ => ?_
  rw [← Equiv.sum_comp ρ]
  refine Finset.sum_congr rfl fun b _ => ?_
  rw [hA, rowsFrom_gram (mtdRes_perm hl hW hw hA) hW]

theorem mtdPenalty_perm (hl : ∀ i, lags' (σ i) = lags i)
    (hW : W'.submatrix (1 : Equiv.Perm (Fin T)) ρ = W) (hw : ∀ i, w' (σ i) = w i)
    (hA : ∀ i a b, A' (σ i) (ρ a) (ρ b) = A i a b) (eps : K) :
    mtdPenalty eps lags' W' w' A' = mtdPenalty eps lags W w A := by
  rw [mtdPenalty_eq, mtdPenalty_eq, mtdCoef_perm hl, ← mtdRes_perm hl hW hw hA, frobSq_eq_inner,
    frobSq_eq_inner, inner_submatrix]

/-! ### Projections -/

theorem projectVector_perm {v v' : Fin p → K} (h : ∀ i, v' (σ i) = v i) (i : Fin p) :
    simplexProjectVector v' (σ i) = simplexProjectVector v i := by
  have hp : 1 ≤ p := Fin.pos i
  have := congrFun (project_perm hp v' σ) i
  have e : (fun j => v' (σ j)) = v := funext h
  rw [e] at this
  exact this.symm

theorem projectMatrices_perm (h : ∀ i a b, A' (σ i) (ρ a) (ρ b) = A i a b) (i : Fin p)
    (a b : Fin k) : projectMatrices A' (σ i) (ρ a) (ρ b) = projectMatrices A i a b := by
  have e1 := congrFun (projectColumns_apply (A' (σ i)) (ρ b)) (ρ a)
  have e2 := congrFun (projectColumns_apply (A i) b) a
  unfold projectMatrices
  exact e1.trans ((projectVector_perm (fun a => h i a b) a).trans e2.symm)

theorem vecMulSum_perm {v v' u u' : Fin p → K} (h : ∀ i, v' (σ i) = v i) (hu : ∀ i, u' (σ i) = u i) :
    vecMulSum v' u' = vecMulSum v u := by
  unfold vecMulSum
  rw [← Equiv.sum_comp σ]
  exact Finset.sum_congr rfl fun i _ => by rw [h, hu]

theorem mulSum3_perm {B B' : Fin p → Matrix (Fin k) (Fin k) K}
    (h : ∀ i a b, A' (σ i) (ρ a) (ρ b) = A i a b)
    (hB : ∀ i a b, B' (σ i) (ρ a) (ρ b) = B i a b) : mulSum3 A' B' = mulSum3 A B := by
  unfold mulSum3
  rw [← Equiv.sum_comp σ]
  refine Finset.sum_congr rfl fun i _ => ?_
  exact inner_rel0 (π := ρ) (ρ := ρ) (submatrix_eq_iff.2 (h i)) (submatrix_eq_iff.2 (hB i))

end

/-- The settings of the two fits: the lags are relabelled. -/
structure MTDConfig.SymRel (σ : Equiv.Perm (Fin p)) (c c' : MTDConfig p K) : Prop where
  lags : ∀ i, c'.lags (σ i) = c.lags i
  epsilonStates : c'.epsilonStates = c.epsilonStates
  epsilonWeights : c'.epsilonWeights = c.epsilonWeights
  ls : c'.ls = c.ls

theorem MTDConfig.SymRel.maxLag {σ : Equiv.Perm (Fin p)} {c c' : MTDConfig p K}
    (h : MTDConfig.SymRel σ c c') : c'.maxLag = c.maxLag := topLag_perm h.lags

namespace MTDState

variable {ρ : Equiv.Perm (Fin k)} {σ : Equiv.Perm (Fin p)} {Q : Matrix (Fin D) (Fin D) K}
  {b : Fin D → K} {c c' : MTDConfig p K}

/-- The state of the second fit is that of the first one moved and relabelled. -/
structure SymRel (ρ : Equiv.Perm (Fin k)) (σ : Equiv.Perm (Fin p)) (Q : Matrix (Fin D) (Fin D) K)
    (b : Fin D → K) (c c' : MTDConfig p K) (s t : MTDState T D k p K) : Prop where
  base : GPNHState.SymRel 1 ρ Q b s.toGPNHState t.toGPNHState
  ZS : s.Z = mtdPredictedWeights c.lags c.maxLag s.Gamma s.orderWeights s.transitionMatrices
  ZT : t.Z = mtdPredictedWeights c'.lags c'.maxLag t.Gamma t.orderWeights t.transitionMatrices
  orderWeights : ∀ i, t.orderWeights (σ i) = s.orderWeights i
  transitionMatrices : ∀ i a b, t.transitionMatrices (σ i) (ρ a) (ρ b) = s.transitionMatrices i a b
  alphaParameters : t.alphaParameters = s.alphaParameters
  fParametersMem : t.fParametersMem = s.fParametersMem

theorem SymRel.goodS {s t : MTDState T D k p K} (h : SymRel ρ σ Q b c c' s t) : s.Good c :=
  ⟨h.base.SStS, h.ZS⟩

theorem SymRel.goodT {s t : MTDState T D k p K} (h : SymRel ρ σ Q b c c' s t) : t.Good c' :=
  ⟨h.base.SStT, h.ZT⟩

section

variable {X X' : Matrix (Fin T) (Fin D) K} {W W' : Matrix (Fin T) (Fin k) K}
  {S S' : Matrix (Fin k) (Fin D) K} {w w' : Fin p → K} {A A' : Fin p → Matrix (Fin k) (Fin k) K}

theorem mtdCost_rel (hQ : Q * Qᵀ = 1) (hC : MTDConfig.SymRel σ c c') (hX : Moved 1 Q b X X')
    (hW : W'.submatrix (1 : Equiv.Perm (Fin T)) ρ = W) (hS : Moved ρ Q b S S') (h : SumsW b W)
    (hw : ∀ i, w' (σ i) = w i) (hA : ∀ i a b, A' (σ i) (ρ a) (ρ b) = A i a b) :
    mtdCost c'.epsilonStates c'.epsilonWeights c'.lags X' W' S' w' A' =
      mtdCost c.epsilonStates c.epsilonWeights c.lags X W S w A := by
  unfold mtdCost
  rw [hC.epsilonStates, hC.epsilonWeights, gpnhCost_rel hQ hX hW hS h,
    mtdPenalty_perm hC.lags hW hw hA]

theorem mtdGradW_rel (hQ : Q * Qᵀ = 1) (hC : MTDConfig.SymRel σ c c') (hX : Moved 1 Q b X X')
    (hW : W'.submatrix (1 : Equiv.Perm (Fin T)) ρ = W) (hS : Moved ρ Q b S S') (h : SumsW b W)
    (hw : ∀ i, w' (σ i) = w i) (hA : ∀ i a b, A' (σ i) (ρ a) (ρ b) = A i a b) :
    ∃ v : Fin T → K, (b = 0 → v = 0) ∧
      (mtdGradW c' X' W' S' w' A').submatrix (1 : Equiv.Perm (Fin T)) ρ =
        fun i a => mtdGradW c X W S w A i a + v i := by
  obtain ⟨v, hv, e⟩ := gradWOf_rel hQ hX hW hS h
  refine ⟨v, hv, ?_⟩
  unfold mtdGradW
  rw [hC.epsilonWeights]
  have e1 := mtdGradPen_perm hC.lags hW hw hA c.epsilonWeights
  ext i a
  have e2 := congrFun (congrFun e i) a
  have e3 := congrFun (congrFun e1 i) a
  simp only [Matrix.submatrix_apply, Matrix.add_apply] at e2 e3 ⊢
  rw [e2, e3]
  ring

end

theorem SymRel.objective (hQ : Q * Qᵀ = 1) (hC : MTDConfig.SymRel σ c c') {s t : MTDState T D k p K}
    (h : SymRel ρ σ Q b c c' s t) : t.objective c' = s.objective c :=
  mtdCost_rel hQ hC h.base.X h.base.Gamma h.base.S h.base.sums h.orderWeights h.transitionMatrices

theorem updateWeights_sym (hQ : Q * Qᵀ = 1) (hC : MTDConfig.SymRel σ c c')
    {s t : MTDState T D k p K} (h : SymRel ρ σ Q b c c' s t) :
    PyRel (SymRel ρ σ Q b c c') (s.updateWeights c) (t.updateWeights c') := by
  by_cases hT : T = c.maxLag
  · unfold updateWeights
    rw [if_pos hT, if_pos (hT.trans hC.maxLag.symm)]
    rfl
  rw [updateWeights_eq h.goodS hT, updateWeights_eq h.goodT (by rwa [hC.maxLag]),
    h.objective hQ hC]
  obtain ⟨⟨hs, ht, eX, eW, eS, hsums, aS, aG, mS, mG⟩, zs, zt, eo, eA, aP, mP⟩ := h
  obtain ⟨v, hv0, hv⟩ := mtdGradW_rel (c := c) (c' := c') hQ hC eX eW eS hsums eo eA
  have hinc : (t.dirW c').submatrix (1 : Equiv.Perm (Fin T)) ρ = s.dirW c := by
    unfold dirW
    rw [aG]
    exact projectedStep_rel eW hv s.alphaGamma
  have hsum : b = 0 ∨ ∀ i, ∑ a, s.dirW c i a = 0 := hsums.imp id fun h => projectedStep_sum h _
  have esl : t.slopeW c' = s.slopeW c := inner_rel (hsum.imp hv0 id) hinc hv
  rw [mG, esl, hC.ls]
  refine (lineSearch_retry (weightsTrial_retriable c) (weightsTrial_retriable c')
    fun x => ?_).bind ?_
  · rw [weightsTrial_cost, weightsTrial_cost]
    exact (mtdCost_rel hQ hC eX (submatrix_move eW hinc x) eS (hsums.move _ x) eo eA).symm
  · rintro ⟨m1, l1, s1, c1, n1⟩ ⟨m2, l2, s2, c2, n2⟩ ⟨h1, h2, h3, h4⟩
    simp only at h1 h2 h3 h4
    subst h1; subst h2; subst h3; subst h4
    have eW' := submatrix_move eW hinc l1
    have sW' : SumsW b (s.Gamma + l1 • s.dirW c) := hsums.move _ l1
    obtain ⟨v', hv0', hv'⟩ := mtdGradW_rel (c := c) (c' := c') hQ hC eX eW' eS sW' eo eA
    have hd := sub_rel hv' hv
    have g1 : (updateWeightsGradient c
        { (weightsTrial c (s.weightsStart c) l1).1 with fGammaMem := m1 }).gradGamma =
        mtdGradW c s.X (s.Gamma + l1 • s.dirW c) s.S s.orderWeights s.transitionMatrices :=
      updateWeightsGradient_gradGamma
        (s := { (weightsTrial c (s.weightsStart c) l1).1 with fGammaMem := m1 }) ⟨rfl, rfl⟩ rfl
    have g2 : (updateWeightsGradient c'
        { (weightsTrial c' (t.weightsStart c') l1).1 with fGammaMem := m1 }).gradGamma =
        mtdGradW c' t.X (t.Gamma + l1 • t.dirW c') t.S t.orderWeights t.transitionMatrices :=
      updateWeightsGradient_gradGamma
        (s := { (weightsTrial c' (t.weightsStart c') l1).1 with fGammaMem := m1 }) ⟨rfl, rfl⟩ rfl
    refine ⟨⟨rfl, rfl, eX, eW', eS, sW', aS, ?_, mS, rfl⟩, rfl, rfl, eo, eA, aP, mP⟩
    simp only [g1, g2, mulSum_eq_inner]
    change nextSpgAlpha (l1 * inner (t.dirW c') (_ - mtdGradW c' t.X t.Gamma t.S t.orderWeights
        t.transitionMatrices)) (l1 ^ 2 * inner (t.dirW c') (t.dirW c')) _ _ =
      nextSpgAlpha (l1 * inner (s.dirW c) (_ - mtdGradW c s.X s.Gamma s.S s.orderWeights
        s.transitionMatrices)) (l1 ^ 2 * inner (s.dirW c) (s.dirW c)) _ _
    rw [inner_rel (hsum.imp (fun h => by rw [hv0 h, hv0' h]; exact sub_self _) id) hinc hd,
      inner_rel0 hinc hinc]

theorem updateDictionary_sym (hQ : Q * Qᵀ = 1) (hC : MTDConfig.SymRel σ c c')
    {s t : MTDState T D k p K} (h : SymRel ρ σ Q b c c' s t) :
    PyRel (SymRel ρ σ Q b c c') (s.updateDictionary c) (t.updateDictionary c') := by
  rw [updateDictionary_eq h.goodS, updateDictionary_eq h.goodT, h.objective hQ hC]
  have gS := h.goodS
  have gT := h.goodT
  obtain ⟨⟨hs, ht, eX, eW, eS, hsums, aS, aG, mS, mG⟩, zs, zt, eo, eA, aP, mP⟩ := h
  have hc := gradSOf_rel eX eW eS hsums c.epsilonStates
  have hinc : Moved ρ Q 0 (-(s.alphaS • gradSOf c.epsilonStates s.X s.Gamma s.S))
      (-(t.alphaS • gradSOf c'.epsilonStates t.X t.Gamma t.S)) := by
    have := hc.smul (-s.alphaS)
    rw [aS, hC.epsilonStates]
    simpa using this
  have esl : t.slopeS c' = s.slopeS c := by
    unfold slopeS
    rw [hC.epsilonStates] at hinc ⊢
    exact hinc.inner hQ hc
  rw [mS, esl, hC.ls]
  refine (lineSearch_retry (dictionaryTrial_retriable c) (dictionaryTrial_retriable c')
    fun x => ?_).bind ?_
  · rw [dictionaryTrial_cost gS, dictionaryTrial_cost gT]
    exact (mtdCost_rel hQ hC eX eW (eS.step hinc x) hsums eo eA).symm
  · rintro ⟨m1, l1, s1, c1, n1⟩ ⟨m2, l2, s2, c2, n2⟩ ⟨h1, h2, h3, h4⟩
    simp only at h1 h2 h3 h4
    subst h1; subst h2; subst h3; subst h4
    have eS' := eS.step hinc l1
    have hc' := gradSOf_rel eX eW eS' hsums c.epsilonStates
    have hd := hc'.step hc (-1)
    rw [neg_one_smul, neg_one_smul, ← sub_eq_add_neg, ← sub_eq_add_neg] at hd
    have g1 : updateDictionaryGradient c
        { (dictionaryTrial c (s.dictStart c) l1).1 with fSMem := m1 } =
        { (dictionaryTrial c (s.dictStart c) l1).1 with
          fSMem := m1
          gradS := gradSOf c.epsilonStates s.X s.Gamma
            (s.S + l1 • -(s.alphaS • gradSOf c.epsilonStates s.X s.Gamma s.S)) } := by
      unfold updateDictionaryGradient
      rw [GPNHState.updateDictionaryGradient_eq, GPNHState.gradS_update _ _ rfl rfl]
      rfl
    have g2 : updateDictionaryGradient c'
        { (dictionaryTrial c' (t.dictStart c') l1).1 with fSMem := m1 } =
        { (dictionaryTrial c' (t.dictStart c') l1).1 with
          fSMem := m1
          gradS := gradSOf c'.epsilonStates t.X t.Gamma
            (t.S + l1 • -(t.alphaS • gradSOf c'.epsilonStates t.X t.Gamma t.S)) } := by
      unfold updateDictionaryGradient
      rw [GPNHState.updateDictionaryGradient_eq, GPNHState.gradS_update _ _ rfl rfl]
      rfl
    simp only [g1, g2, mulSum_eq_inner]
    refine ⟨⟨rfl, rfl, eX, eW, eS', hsums, ?_, aG, rfl, mG⟩, zs, zt, eo, eA, aP, mP⟩
    have e1 := hinc.inner hQ hinc
    have e2 : inner (-(t.alphaS • gradSOf c'.epsilonStates t.X t.Gamma t.S))
        (gradSOf c'.epsilonStates t.X t.Gamma
            (t.S + l1 • -(t.alphaS • gradSOf c'.epsilonStates t.X t.Gamma t.S)) -
          gradSOf c'.epsilonStates t.X t.Gamma t.S) =
        inner (-(s.alphaS • gradSOf c.epsilonStates s.X s.Gamma s.S))
        (gradSOf c.epsilonStates s.X s.Gamma
            (s.S + l1 • -(s.alphaS • gradSOf c.epsilonStates s.X s.Gamma s.S)) -
          gradSOf c.epsilonStates s.X s.Gamma s.S) := by
      rw [hC.epsilonStates] at hinc hd ⊢
      exact hinc.inner hQ hd
    exact congrArg₂ (fun x y => nextSpgAlpha (l1 * x) (l1 ^ 2 * y) c.ls.alphaMin c.ls.alphaMax)
      e2 e1

theorem updateParameters_sym (hQ : Q * Qᵀ = 1) (hC : MTDConfig.SymRel σ c c')
    {s t : MTDState T D k p K} (h : SymRel ρ σ Q b c c' s t) :
    PyRel (SymRel ρ σ Q b c c') (s.updateParameters c) (t.updateParameters c') := by
  by_cases hT : T = c.maxLag
  · unfold updateParameters
    rw [if_pos hT, if_pos (hT.trans hC.maxLag.symm)]
    rfl
  rw [updateParameters_eq h.goodS hT, updateParameters_eq h.goodT (by rwa [hC.maxLag]),
    h.objective hQ hC]
  have gS := h.goodS
  have gT := h.goodT
  obtain ⟨⟨hs, ht, eX, eW, eS, hsums, aS, aG, mS, mG⟩, zs, zt, eo, eA, aP, mP⟩ := h
  have kO := mtdGradOW_perm hC.lags eW eo eA c.epsilonWeights
  have kA := mtdGradTM_perm hC.lags eW eo eA c.epsilonWeights
  have kO' : ∀ i, mtdGradOW c'.epsilonWeights c'.lags t.Gamma t.orderWeights t.transitionMatrices (σ i) =
      mtdGradOW c.epsilonWeights c.lags s.Gamma s.orderWeights s.transitionMatrices i := by
    rw [hC.epsilonWeights]; exact kO
  have kA' : ∀ i a b, mtdGradTM c'.epsilonWeights c'.lags t.Gamma t.orderWeights t.transitionMatrices
      (σ i) (ρ a) (ρ b) =
      mtdGradTM c.epsilonWeights c.lags s.Gamma s.orderWeights s.transitionMatrices i a b := by
    rw [hC.epsilonWeights]; exact kA
  have dO : ∀ i, t.dirOW c' (σ i) = s.dirOW c i := by
    intro i
    unfold dirOW
    simp only [Pi.sub_apply]
    rw [projectVector_perm (v := s.orderWeights - s.alphaParameters •
      mtdGradOW c.epsilonWeights c.lags s.Gamma s.orderWeights s.transitionMatrices) ?_ i, eo]
    intro i
    simp only [Pi.sub_apply, Pi.smul_apply, eo, aP, kO, hC.epsilonWeights]
  have dA : ∀ i a b, t.dirTM c' (σ i) (ρ a) (ρ b) = s.dirTM c i a b := by
    intro i a b
    unfold dirTM
    simp only [Pi.sub_apply, Matrix.sub_apply]
    rw [projectMatrices_perm (A := s.transitionMatrices - s.alphaParameters •
      mtdGradTM c.epsilonWeights c.lags s.Gamma s.orderWeights s.transitionMatrices) ?_ i a b, eA]
    intro i a b
    simp only [Pi.sub_apply, Pi.smul_apply, Matrix.sub_apply, Matrix.smul_apply, eA, aP, kA,
      hC.epsilonWeights]
  have esl : t.slopeP c' = s.slopeP c := by
    unfold slopeP
    rw [vecMulSum_perm dO kO', mulSum3_perm dA kA']
  rw [mP, esl, hC.ls]
  have mO : ∀ (x : K) i, (t.orderWeights + x • t.dirOW c') (σ i) = (s.orderWeights + x • s.dirOW c) i := by
    intro x i
    simp only [Pi.add_apply, Pi.smul_apply, eo, dO]
  have mA : ∀ (x : K) i a b, (t.transitionMatrices + x • t.dirTM c') (σ i) (ρ a) (ρ b) =
      (s.transitionMatrices + x • s.dirTM c) i a b := by
    intro x i a b
    simp only [Pi.add_apply, Pi.smul_apply, Matrix.add_apply, Matrix.smul_apply, eA, dA]
  refine (lineSearch_retry (parametersTrial_retriable c) (parametersTrial_retriable c')
    fun x => ?_).bind ?_
  · rw [parametersTrial_cost gS, parametersTrial_cost gT]
    exact (mtdCost_rel hQ hC eX eW eS hsums (mO x) (mA x)).symm
  · rintro ⟨m1, l1, s1, c1, n1⟩ ⟨m2, l2, s2, c2, n2⟩ ⟨h1, h2, h3, h4⟩
    simp only at h1 h2 h3 h4
    subst h1; subst h2; subst h3; subst h4
    have kO1 := mtdGradOW_perm hC.lags eW (mO l1) (mA l1) c.epsilonWeights
    have kA1 := mtdGradTM_perm hC.lags eW (mO l1) (mA l1) c.epsilonWeights
    have g1 := updateParametersGradient_gradOW (c := c)
      (s := { (parametersTrial c (s.paramsStart c) l1).1 with fParametersMem := m1 }) ⟨hs, rfl⟩
    have g2 := updateParametersGradient_gradOW (c := c')
      (s := { (parametersTrial c' (t.paramsStart c') l1).1 with fParametersMem := m1 }) ⟨ht, rfl⟩
    have g3 := updateParametersGradient_gradTM (c := c)
      (s := { (parametersTrial c (s.paramsStart c) l1).1 with fParametersMem := m1 }) ⟨hs, rfl⟩
    have g4 := updateParametersGradient_gradTM (c := c')
      (s := { (parametersTrial c' (t.paramsStart c') l1).1 with fParametersMem := m1 }) ⟨ht, rfl⟩
    refine ⟨⟨hs, ht, eX, eW, eS, hsums, aS, aG, mS, mG⟩, rfl, rfl, mO l1, mA l1, ?_, rfl⟩
    simp only [g1, g2, g3, g4]
    have q1 : ∀ i, (mtdGradOW c.epsilonWeights c'.lags t.Gamma (t.orderWeights + l1 • t.dirOW c')
          (t.transitionMatrices + l1 • t.dirTM c') -
        mtdGradOW c'.epsilonWeights c'.lags t.Gamma t.orderWeights t.transitionMatrices) (σ i) =
      (mtdGradOW c.epsilonWeights c.lags s.Gamma (s.orderWeights + l1 • s.dirOW c)
          (s.transitionMatrices + l1 • s.dirTM c) -
        mtdGradOW c.epsilonWeights c.lags s.Gamma s.orderWeights s.transitionMatrices) i := by
      intro i
      simp only [Pi.sub_apply, kO1, kO']
    have q2 : ∀ i a b, (mtdGradTM c.epsilonWeights c'.lags t.Gamma
          (t.orderWeights + l1 • t.dirOW c') (t.transitionMatrices + l1 • t.dirTM c') -
        mtdGradTM c'.epsilonWeights c'.lags t.Gamma t.orderWeights t.transitionMatrices)
          (σ i) (ρ a) (ρ b) =
      (mtdGradTM c.epsilonWeights c.lags s.Gamma (s.orderWeights + l1 • s.dirOW c)
          (s.transitionMatrices + l1 • s.dirTM c) -
        mtdGradTM c.epsilonWeights c.lags s.Gamma s.orderWeights s.transitionMatrices) i a b := by
      intro i a b
      simp only [Pi.sub_apply, Matrix.sub_apply, kA1, kA']
    rw [hC.epsilonWeights] at q1 q2 ⊢
    change nextSpgAlpha (l1 * (vecMulSum (t.dirOW c') (_ - mtdGradOW c'.epsilonWeights c'.lags
        t.Gamma t.orderWeights t.transitionMatrices) + mulSum3 (t.dirTM c') (_ - mtdGradTM
        c'.epsilonWeights c'.lags t.Gamma t.orderWeights t.transitionMatrices)))
        (l1 ^ 2 * (vecMulSum (t.dirOW c') (t.dirOW c') + mulSum3 (t.dirTM c') (t.dirTM c'))) _ _ =
      nextSpgAlpha (l1 * (vecMulSum (s.dirOW c) (_ - mtdGradOW c.epsilonWeights c.lags
        s.Gamma s.orderWeights s.transitionMatrices) + mulSum3 (s.dirTM c) (_ - mtdGradTM
        c.epsilonWeights c.lags s.Gamma s.orderWeights s.transitionMatrices)))
        (l1 ^ 2 * (vecMulSum (s.dirOW c) (s.dirOW c) + mulSum3 (s.dirTM c) (s.dirTM c))) _ _
    rw [hC.epsilonWeights]
    rw [vecMulSum_perm dO dO, mulSum3_perm dA dA]
    congr 3
    · exact vecMulSum_perm dO q1
    · exact mulSum3_perm dA q2

theorem initializeWorkspace_sym (hC : MTDConfig.SymRel σ c c') {X X' : Matrix (Fin T) (Fin D) K}
    {W W' : Matrix (Fin T) (Fin k) K} {S S' : Matrix (Fin k) (Fin D) K} {w w' : Fin p → K}
    {A A' : Fin p → Matrix (Fin k) (Fin k) K} (hX : Moved 1 Q b X X')
    (hW : W'.submatrix (1 : Equiv.Perm (Fin T)) ρ = W) (hS : Moved ρ Q b S S') (h : SumsW b W)
    (hw : ∀ i, w' (σ i) = w i) (hA : ∀ i a b, A' (σ i) (ρ a) (ρ b) = A i a b) :
    SymRel ρ σ Q b c c' (initializeWorkspace c X W S w A)
      (initializeWorkspace c' X' W' S' w' A') := by
  refine ⟨⟨rfl, rfl, hX, hW, hS, h, rfl, rfl, ?_, ?_⟩, rfl, rfl, hw, hA, rfl, ?_⟩
  all_goals
    change List.replicate c'.ls.memory 0 = List.replicate c.ls.memory 0
    rw [hC.ls]

end MTDState

section

variable {ρ : Equiv.Perm (Fin k)} {σ : Equiv.Perm (Fin p)} {Q : Matrix (Fin D) (Fin D) K}
  {b : Fin D → K} {c c' : MTDConfig p K}

theorem mtdIterate_sym (hQ : Q * Qᵀ = 1) (hC : MTDConfig.SymRel σ c c') {require : Bool} {tol : K}
    {maxIter : ℕ} {ud uw up : Bool} {s t : MTDState T D k p K}
    (h : MTDState.SymRel ρ σ Q b c c' s t) :
    PyRel (fun r r' => MTDState.SymRel ρ σ Q b c c' r.state r'.state ∧ r.cost = r'.cost ∧
        r.nIter = r'.nIter ∧ r.trace = r'.trace)
      (mtdIterate c require tol maxIter ud uw up s)
      (mtdIterate c' require tol maxIter ud uw up t) := by
  unfold mtdIterate
  rw [hC.maxLag]
  by_cases h0 : D * T = 0
  · rw [if_pos h0, if_pos h0]
    rfl
  rw [if_neg h0, if_neg h0]
  by_cases h1 : k ≠ 1 ∧ T = c.maxLag
  · rw [if_pos h1, if_pos h1]
    rfl
  rw [if_neg h1, if_neg h1]
  refine iterate_rel (R := MTDState.SymRel ρ σ Q b c c') ?_ ?_ h
  · intro s t hst
    refine ⟨hst, ?_⟩
    simp only
    rw [MTDState.evaluateCost_eq hst.goodS, MTDState.evaluateCost_eq hst.goodT]
    exact (hst.objective hQ hC).symm
  · have e1 : ∀ s t, MTDState.SymRel ρ σ Q b c c' s t → PyRel (MTDState.SymRel (T := T) ρ σ Q b c c')
        (s.updateDictionary c) (t.updateDictionary c') :=
      fun s t h => MTDState.updateDictionary_sym hQ hC h
    have e2 : ∀ s t, MTDState.SymRel ρ σ Q b c c' s t → PyRel (MTDState.SymRel (T := T) ρ σ Q b c c')
        (s.updateWeights c) (t.updateWeights c') := fun s t h => MTDState.updateWeights_sym hQ hC h
    have e3 : ∀ s t, MTDState.SymRel ρ σ Q b c c' s t → PyRel (MTDState.SymRel (T := T) ρ σ Q b c c')
        (s.updateParameters c) (t.updateParameters c') :=
      fun s t h => MTDState.updateParameters_sym hQ hC h
    cases ud <;> cases uw <;> cases up <;>
      simp only [Bool.false_eq_true, if_false, if_true, List.nil_append, List.append_nil,
        List.cons_append, List.forall₂_cons, List.forall₂_nil_left_iff, and_true] <;>
      trivial

/-- Two starting points that correspond. -/
structure MTDPoint.SymRel (ρ : Equiv.Perm (Fin k)) (σ : Equiv.Perm (Fin p))
    (Q : Matrix (Fin D) (Fin D) K) (b : Fin D → K) (q q' : MTDPoint T D k p K) : Prop where
  S : Moved ρ Q b q.1 q'.1
  Gamma : q'.2.1.submatrix (1 : Equiv.Perm (Fin T)) ρ = q.2.1
  orderWeights : ∀ i, q'.2.2.1 (σ i) = q.2.2.1 i
  transitionMatrices : ∀ i a b, q'.2.2.2 (σ i) (ρ a) (ρ b) = q.2.2.2 i a b

theorem mtdSolve_sym (hQ : Q * Qᵀ = 1) (hC : MTDConfig.SymRel σ c c') {require : Bool} {tol : K}
    {maxIter : ℕ} {fl : MTDFlags} {X X' : Matrix (Fin T) (Fin D) K} (hX : Moved 1 Q b X X')
    {q q' : MTDPoint T D k p K} (hq : MTDPoint.SymRel ρ σ Q b q q') (h : SumsW b q.2.1) :
    PyRel (fun r r' => MTDState.SymRel ρ σ Q b c c' r.state r'.state ∧ r.cost = r'.cost ∧
        r.nIter = r'.nIter ∧ r.trace = r'.trace)
      (mtdSolve c require tol maxIter fl X q) (mtdSolve c' require tol maxIter fl X' q') := by
  unfold mtdSolve
  by_cases hp : p = 0
  · rw [if_pos hp, if_pos hp]
    rfl
  rw [if_neg hp, if_neg hp]
  exact mtdIterate_sym hQ hC (MTDState.initializeWorkspace_sym hC hX hq.Gamma hq.S h
    hq.orderWeights hq.transitionMatrices)

end

/-! ### Fits -/

theorem mtdStart_moved (env : Env K) {Q : Matrix (Fin D) (Fin D) K}
    (hQ : Q * Qᵀ = 1) {b : Fin D → K} {X Y : Matrix (Fin T) (Fin D) K} (h : Moved 1 Q b X Y) (k p : ℕ)
    {init : Option String} (args : MTDArgs K) {d' : Option (Arr2 K)}
    (hd : MovedArg Q b args.dictionary d') (fl : MTDFlags)
    (hinit : init = some "custom" ∨ init = some "furthest_sum" ∨ fl.updateDictionary = false)
    (kw : InitKwargs) (g : env.rng.G) :
    PyRel (fun a a' => Moved 1 Q b a.1.1 a'.1.1 ∧ a'.1.2 = a.1.2 ∧ a'.2 = a.2)
      (mtdStart env X k p init args fl kw g)
      (mtdStart env Y k p init { args with dictionary := d' } fl kw g) := by
  unfold mtdStart
  by_cases h1 : init = some "custom"
  · rw [if_pos h1, if_pos h1]
    refine PyRel.bind_same fun w => ?_
    refine (gpnhCheckInitDictionary_moved hd k).bind fun a a' ha => ?_
    refine PyRel.bind_same fun ow => PyRel.bind_same fun A => ?_
    exact ⟨ha, rfl, rfl⟩
  rw [if_neg h1, if_neg h1]
  have hD : PyRel (fun a a' => Moved 1 Q b a.1 a'.1 ∧ a'.2 = a.2)
      (mtdStartDictionary env X k init args fl kw g)
      (mtdStartDictionary env Y k init { args with dictionary := d' } fl kw g) := by
    unfold mtdStartDictionary
    by_cases h2 : fl.updateDictionary = true
    · rw [if_pos h2, if_pos h2]
      have hfs : init = some "furthest_sum" := by
        rcases hinit with h3 | h3 | h3
        · exact absurd h3 h1
        · exact h3
        · rw [h2] at h3
          simp at h3
      subst hfs
      exact gpnhInitDictionaryFurthestSum_moved env hQ h k kw g
    · rw [if_neg h2, if_neg h2]
      refine (gpnhCheckInitDictionary_moved hd k).bind fun a a' ha => ?_
      exact ⟨ha, rfl⟩
  refine hD.bind fun a a' ha => ?_
  rw [ha.2]
  refine PyRel.bind_same fun w => PyRel.bind_same fun q => ?_
  exact ⟨ha.1, rfl, rfl⟩

/-- The rows of the weights of the start have sum 1, unless those of the caller have not. -/
theorem mtdStart_weights_sums {env : Env K} (hR : env.rng.Lawful) {k p : ℕ} (hk : 1 ≤ k)
    {X : Matrix (Fin T) (Fin D) K} {init : Option String} {args : MTDArgs K} {fl : MTDFlags}
    {kw : InitKwargs} {g : env.rng.G}
    (hw : (init = some "custom" ∨ fl.updateWeights = false) →
      ∀ W, args.weights = some W → ∀ i, ∑ a, W.val i a = 1)
    {start : MTDPoint T D k p K × env.rng.G}
    (h : mtdStart env X k p init args fl kw g = Py.ok start) : ∀ i, ∑ a, start.1.2.1 i a = 1 := by
  by_cases hc : init = some "custom"
  · subst hc
    unfold mtdStart at h
    rw [if_pos rfl] at h
    obtain ⟨w, hw', h⟩ := Py.bind_eq_ok.1 h
    obtain ⟨d, -, h⟩ := Py.bind_eq_ok.1 h
    obtain ⟨o, -, h⟩ := Py.bind_eq_ok.1 h
    obtain ⟨A, -, h⟩ := Py.bind_eq_ok.1 h
    simp only [Py.pure_eq, Py.ok.injEq] at h
    subst h
    exact hw (Or.inl rfl) _ (gpnhCheckInitWeights_ok hw').1
  cases hf : fl.updateWeights with
  | true => exact fun i => (mtdStart_weights_drawn hR hk hc hf h i).2
  | false =>
    obtain ⟨g1, g2, -, hd, -⟩ := mtdStart_parts hc h
    unfold mtdStartWeights at hd
    rw [if_neg (by simp [hf])] at hd
    obtain ⟨w, hw', hd⟩ := Py.bind_eq_ok.1 hd
    simp only [Py.pure_eq, Py.ok.injEq, Prod.mk.injEq] at hd
    rw [← hd.1]
    exact hw (Or.inr hf) _ (gpnhCheckInitWeights_ok hw').1

/-- The second fit ends with the same cost and history as the first, and with attributes that are
moved and relabelled. -/
def MTDFitMoved (R : Rng K) (ρ : Equiv.Perm (Fin k)) (σ : Equiv.Perm (Fin p))
    (Q : Matrix (Fin D) (Fin D) K) (b : Fin D → K) (T : ℕ) (r r' : MTDObj R p × FitInfo K) : Prop :=
  r'.2 = r.2 ∧ ∃ q q' : MTDPoint T D k p K,
    r.1.vars = some ⟨T, D, k, q.2.1, q.1, q.2.2.1, q.2.2.2⟩ ∧
    r'.1 = { r.1 with lags := r'.1.lags, vars := some ⟨T, D, k, q'.2.1, q'.1, q'.2.2.1, q'.2.2.2⟩ } ∧
    MTDPoint.SymRel ρ σ Q b q q' ∧ SumsW b q.2.1

theorem mtdConvexCoding_moved {env : Env K} (hR : env.rng.Lawful) (obj : MTDObj env.rng p)
    {Q : Matrix (Fin D) (Fin D) K} (hQ : Q * Qᵀ = 1) {b : Fin D → K}
    {X Y : Matrix (Fin T) (Fin D) K} (h : Moved 1 Q b X Y) (args : MTDArgs K) {d' : Option (Arr2 K)}
    (hd : MovedArg Q b args.dictionary d') (fl : MTDFlags) (kw : InitKwargs)
    (hinit : obj.init = some "custom" ∨ obj.init = some "furthest_sum" ∨
      fl.updateDictionary = false)
    (hw : (obj.init = some "custom" ∨ fl.updateWeights = false) →
      ∀ W, args.weights = some W → ∀ i, ∑ a, W.val i a = 1) :
    PyRel (fun r r' => r'.1.lags = r.1.lags ∧ ∃ k, MTDFitMoved env.rng (1 : Equiv.Perm (Fin k))
        (1 : Equiv.Perm (Fin p)) Q b T r r')
      (mtdConvexCoding env obj (Arr2.of X) args fl kw)
      (mtdConvexCoding env obj (Arr2.of Y) { args with dictionary := d' } fl kw) := by
  unfold mtdConvexCoding
  simp only
  change PyRel _ (checkParams (defaultComponents obj.nComponents D) obj.maxIterations
    obj.tolerance >>= _) (checkParams (defaultComponents obj.nComponents D) obj.maxIterations
    obj.tolerance >>= _)
  cases hp : checkParams (defaultComponents obj.nComponents D) obj.maxIterations obj.tolerance with
  | raise e => rfl
  | diverge => trivial
  | ok q =>
    simp only [Py.ok_bind]
    have hk := (checkParams_ok hp).2.2.2.1
    refine PyRel.bind ((mtdStart_moved env hQ h q.1 p args hd fl hinit kw
      obj.randomState).imp fun a a' ha _ hP => And.intro hP (mtdStart_weights_sums hR hk hw ha))
      fun a a' ha => ?_
    obtain ⟨⟨h1, h2, h3⟩, h4⟩ := ha
    have hq : MTDPoint.SymRel (1 : Equiv.Perm (Fin q.1)) (1 : Equiv.Perm (Fin p)) Q b a.1 a'.1 := by
      refine ⟨h1, ?_, ?_, ?_⟩ <;> rw [h2]
      · rfl
      · exact fun _ => rfl
      · exact fun _ _ _ => rfl
    refine (mtdSolve_sym hQ (σ := 1) (c := obj.config) (c' := obj.config)
      ⟨fun _ => rfl, rfl, rfl, rfl⟩ h hq (Or.inr h4)).bind fun r r' hr => ?_
    obtain ⟨hs, hc, hn, ht⟩ := hr
    refine ⟨rfl, q.1, ?_, (r.state.S, r.state.Gamma, r.state.orderWeights, r.state.transitionMatrices),
      (r'.state.S, r'.state.Gamma, r'.state.orderWeights, r'.state.transitionMatrices), rfl, ?_,
      ⟨hs.base.S, hs.base.Gamma, hs.orderWeights, hs.transitionMatrices⟩, hs.base.sums⟩
    · simp only [hc, hn, ht]
    · rw [h3]
      rfl

/-! ### Relabelled custom starts -/

theorem mtdCheckInitOrderWeights_perm {σ : Equiv.Perm (Fin p)} {w w' : Fin p → K}
    (h : ∀ i, w' (σ i) = w i) :
    PyRel (fun v v' => ∀ i, v' (σ i) = v i) (mtdCheckInitOrderWeights (some (Arr1.of w)) p)
      (mtdCheckInitOrderWeights (some (Arr1.of w')) p) := by
  have e : ∀ u : Fin p → K, mtdCheckInitOrderWeights (some (Arr1.of u)) p =
      if iscloseOne (∑ i, u i) then Py.ok u else Py.raise .valueError := by
    intro u
    unfold mtdCheckInitOrderWeights
    exact dif_pos rfl
  have es : ∑ i, w' i = ∑ i, w i := by
    rw [← Equiv.sum_comp σ]
    exact Finset.sum_congr rfl fun i _ => h i
  rw [e, e, es]
  split_ifs
  · exact h
  · rfl

theorem mtdCheckInitTransitionMatrices_perm {ρ : Equiv.Perm (Fin k)} {σ : Equiv.Perm (Fin p)}
    {A A' : Fin p → Matrix (Fin k) (Fin k) K} (h : ∀ i a b, A' (σ i) (ρ a) (ρ b) = A i a b) :
    PyRel (fun B B' => ∀ i a b, B' (σ i) (ρ a) (ρ b) = B i a b)
      (mtdCheckInitTransitionMatrices (some (Arr3.of A)) p k)
      (mtdCheckInitTransitionMatrices (some (Arr3.of A')) p k) := by
  have e : ∀ B : Fin p → Matrix (Fin k) (Fin k) K,
      mtdCheckInitTransitionMatrices (some (Arr3.of B)) p k =
        if ∀ i j, iscloseOne (∑ l, B i l j) then Py.ok B else Py.raise .valueError := by
    intro B
    unfold mtdCheckInitTransitionMatrices
    exact dif_pos ⟨rfl, rfl, rfl⟩
  have es : ∀ i j, ∑ l, A' (σ i) l (ρ j) = ∑ l, A i l j := by
    intro i j
    rw [← Equiv.sum_comp ρ]
    exact Finset.sum_congr rfl fun l _ => h i l j
  have ec : (∀ i j, iscloseOne (∑ l, A' i l j)) ↔ ∀ i j, iscloseOne (∑ l, A i l j) := by
    constructor
    · intro hA i j
      rw [← es]
      exact hA _ _
    · intro hA i j
      have := hA (σ.symm i) (ρ.symm j)
      rwa [← es, Equiv.apply_symm_apply, Equiv.apply_symm_apply] at this
  rw [e, e]
  by_cases hA : ∀ i j, iscloseOne (∑ l, A i l j)
  · rw [if_pos hA, if_pos (ec.2 hA)]
    exact h
  · rw [if_neg hA, if_neg fun h => hA (ec.1 h)]
    rfl

/-- Two custom fits, the second with components and lags relabelled. -/
theorem mtdConvexCoding_relabel {env : Env K} (obj : MTDObj env.rng p)
    (hinit : obj.init = some "custom") (ρ : Equiv.Perm (Fin k)) (σ : Equiv.Perm (Fin p))
    {lags' : Fin p → ℕ} (hl : ∀ i, lags' (σ i) = obj.lags i) (X : Matrix (Fin T) (Fin D) K)
    {W W' : Matrix (Fin T) (Fin k) K} (hW : ∀ t a, W' t (ρ a) = W t a)
    {S S' : Matrix (Fin k) (Fin D) K} (hS : ∀ a d, S' (ρ a) d = S a d) {w w' : Fin p → K}
    (hw : ∀ i, w' (σ i) = w i) {A A' : Fin p → Matrix (Fin k) (Fin k) K}
    (hA : ∀ i a b, A' (σ i) (ρ a) (ρ b) = A i a b) (fl : MTDFlags) (kw : InitKwargs) :
    PyRel (fun r r' => r.1.lags = obj.lags ∧ r'.1.lags = lags' ∧
        MTDFitMoved (D := D) env.rng ρ σ 1 0 T r r')
      (mtdConvexCoding env obj (Arr2.of X) ⟨some (Arr2.of S), some (Arr2.of W), some (Arr1.of w),
        some (Arr3.of A)⟩ fl kw)
      (mtdConvexCoding env { obj with lags := lags' } (Arr2.of X) ⟨some (Arr2.of S'),
        some (Arr2.of W'), some (Arr1.of w'), some (Arr3.of A')⟩ fl kw) := by
  have hm : ∀ {m : ℕ} (τ : Equiv.Perm (Fin m)) (M M' : Matrix (Fin m) (Fin D) K),
      Moved τ 1 0 M M' ↔ ∀ a d, M' (τ a) d = M a d := by
    intro m τ M M'
    unfold Moved
    rw [submatrix_eq_iff]
    simp [moveRows]
  have hQ : (1 : Matrix (Fin D) (Fin D) K) * 1ᵀ = 1 := by simp
  unfold mtdConvexCoding
  simp only
  change PyRel _ (checkParams (defaultComponents obj.nComponents D) obj.maxIterations
    obj.tolerance >>= _) (checkParams (defaultComponents obj.nComponents D) obj.maxIterations
    obj.tolerance >>= _)
  refine PyRel.bind_same fun q => ?_
  obtain ⟨k', q⟩ := q
  unfold mtdStart
  rw [if_pos hinit, if_pos hinit]
  by_cases hk : k' = k
  swap
  · change PyRel _ ((gpnhCheckInitWeights (some (Arr2.of W)) T k' >>= _) >>= _)
      ((gpnhCheckInitWeights (some (Arr2.of W')) T k' >>= _) >>= _)
    rw [gpnhCheckInitWeights_mismatch _ fun h => hk h.2.symm,
      gpnhCheckInitWeights_mismatch _ fun h => hk h.2.symm]
    rfl
  subst hk
  have eW : W'.submatrix (1 : Equiv.Perm (Fin T)) ρ = W := submatrix_eq_iff.2 hW
  have e1 : PyRel (fun w w' => w'.submatrix (1 : Equiv.Perm (Fin T)) ρ = w)
      (gpnhCheckInitWeights (some (Arr2.of W)) T k')
      (gpnhCheckInitWeights (some (Arr2.of W')) T k') := by
    rw [← eW, gpnhCheckInitWeights_submatrix]
    cases gpnhCheckInitWeights (some (Arr2.of W')) T k' <;> simp [PyRel, Py.ok_bind]
  have e2 : PyRel (Moved ρ 1 0) (gpnhCheckInitDictionary (some (Arr2.of S)) k' D)
      (gpnhCheckInitDictionary (some (Arr2.of S')) k' D) := by
    rw [gpnhCheckInitDictionary_of, gpnhCheckInitDictionary_of]
    split_ifs
    · rfl
    · exact (hm ρ S S').2 hS
  have e3 : PyRel (fun a a' => MTDPoint.SymRel (T := T) (D := D) ρ σ 1 0 a.1 a'.1 ∧ a'.2 = a.2)
      (mtdCheckInitWeights (some (Arr2.of W)) T k' >>= fun v =>
        mtdCheckInitDictionary (some (Arr2.of S)) k' D >>= fun d =>
        mtdCheckInitOrderWeights (some (Arr1.of w)) p >>= fun ow =>
        mtdCheckInitTransitionMatrices (some (Arr3.of A)) p k' >>= fun B =>
          pure ((d, v, ow, B), obj.randomState))
      (mtdCheckInitWeights (some (Arr2.of W')) T k' >>= fun v =>
        mtdCheckInitDictionary (some (Arr2.of S')) k' D >>= fun d =>
        mtdCheckInitOrderWeights (some (Arr1.of w')) p >>= fun ow =>
        mtdCheckInitTransitionMatrices (some (Arr3.of A')) p k' >>= fun B =>
          pure ((d, v, ow, B), obj.randomState)) :=
    e1.bind fun v v' hv => e2.bind fun d d' hd => (mtdCheckInitOrderWeights_perm hw).bind
      fun o o' ho => (mtdCheckInitTransitionMatrices_perm hA).bind fun B B' hB =>
        ⟨⟨hd, hv, ho, hB⟩, rfl⟩
  refine e3.bind fun a a' ha => ?_
  obtain ⟨hq, h3⟩ := ha
  refine (mtdSolve_sym hQ (σ := σ) (c := obj.config)
    (c' := { obj with lags := lags' }.config)
    ⟨hl, rfl, rfl, rfl⟩ ((hm 1 X X).2 fun _ _ => rfl) hq (Or.inl rfl)).bind fun r r' hr => ?_
  obtain ⟨hs, hc, hn, ht⟩ := hr
  refine ⟨rfl, rfl, ?_, (r.state.S, r.state.Gamma, r.state.orderWeights, r.state.transitionMatrices),
    (r'.state.S, r'.state.Gamma, r'.state.orderWeights, r'.state.transitionMatrices), rfl, ?_,
    ⟨hs.base.S, hs.base.Gamma, hs.orderWeights, hs.transitionMatrices⟩, hs.base.sums⟩
  · simp only [hc, hn, ht]
  · rw [h3]
    rfl

end Reor
