import Verif.Proofs.MTD

/-!
Slopes of the MTD model along the directions of the weights and parameters updates.
-/

namespace Reor

set_option linter.unusedSectionVars false

open scoped BigOperators Matrix
open Spec

variable {K : Type} [Field K] [LinearOrder K] [IsStrictOrderedRing K]
variable {T D k p : ℕ}

namespace MTDState

theorem slopeW_le {c : MTDConfig p K} {s : MTDState T D k p K} (hk : 1 ≤ k)
    (hs : RowStochastic s.Gamma) : frobSq (s.dirW c) + s.alphaGamma * s.slopeW c ≤ 0 :=
  projected_slope hk hs _

/-- Squared length of the step in the parameters. -/
def stepP (c : MTDConfig p K) (s : MTDState T D k p K) : K :=
  ∑ i, s.dirOW c i ^ 2 + ∑ i, frobSq (s.dirTM c i)

theorem slopeP_le {c : MTDConfig p K} {s : MTDState T D k p K} (hk : 1 ≤ k) (hp : 1 ≤ p)
    (hw : IsProb s.orderWeights) (hA : ∀ i, ColStochastic (s.transitionMatrices i)) :
    s.stepP c + s.alphaParameters * s.slopeP c ≤ 0 := by
  set gw := mtdGradOW c.epsilonWeights c.lags s.Gamma s.orderWeights s.transitionMatrices with hgw
  set gA := mtdGradTM c.epsilonWeights c.lags s.Gamma s.orderWeights s.transitionMatrices with hgA
  have h1 : ∑ i, s.dirOW c i ^ 2 + s.alphaParameters * vecMulSum (s.dirOW c) gw ≤ 0 := by
    refine le_trans (le_of_eq ?_) (project_vi hp (s.orderWeights - s.alphaParameters • gw)
      s.orderWeights hw)
    unfold vecMulSum
    rw [Finset.mul_sum, ← Finset.sum_add_distrib]
    refine Finset.sum_congr rfl fun i _ => ?_
    simp only [dirOW, Pi.sub_apply, Pi.smul_apply, smul_eq_mul, ← hgw]
    ring
  have h2 : ∀ i, frobSq (s.dirTM c i) + s.alphaParameters * mulSum (s.dirTM c i) (gA i) ≤ 0 := by
    intro i
    have h3 : ∑ j, ∑ l, ((s.transitionMatrices i l j - s.alphaParameters * gA i l j -
        projectMatrices (s.transitionMatrices - s.alphaParameters • gA) i l j) *
        (s.transitionMatrices i l j -
          projectMatrices (s.transitionMatrices - s.alphaParameters • gA) i l j)) ≤ 0 := by
      refine Finset.sum_nonpos fun j _ => ?_
      have h4 := project_vi hk (fun l => (s.transitionMatrices - s.alphaParameters • gA) i l j)
        (fun l => s.transitionMatrices i l j) (hA i j)
      rw [← projectColumns_apply] at h4
      exact h4
    refine le_trans (le_of_eq ?_) h3
    rw [Finset.sum_comm]
    unfold frobSq mulSum
    rw [Finset.mul_sum, ← Finset.sum_add_distrib]
    refine Finset.sum_congr rfl fun l _ => ?_
    rw [Finset.mul_sum, ← Finset.sum_add_distrib]
    refine Finset.sum_congr rfl fun j _ => ?_
    simp only [dirTM, Pi.sub_apply, Matrix.sub_apply, ← hgA]
    ring
  have h3 : ∑ i, frobSq (s.dirTM c i) + s.alphaParameters * mulSum3 (s.dirTM c) gA ≤ 0 := by
    unfold mulSum3
    rw [Finset.mul_sum, ← Finset.sum_add_distrib]
    exact Finset.sum_nonpos fun i _ => h2 i
  unfold stepP slopeP
  rw [← hgw, ← hgA]
  linarith

theorem stepP_nonneg (c : MTDConfig p K) (s : MTDState T D k p K) : 0 ≤ s.stepP c :=
  add_nonneg (Finset.sum_nonneg fun _ _ => sq_nonneg _)
    (Finset.sum_nonneg fun _ _ => frobSq_nonneg _)

theorem stepP_eq_zero {c : MTDConfig p K} {s : MTDState T D k p K} (h : s.stepP c = 0) :
    s.dirOW c = 0 ∧ s.dirTM c = 0 := by
  have a : 0 ≤ ∑ i, s.dirOW c i ^ 2 := Finset.sum_nonneg fun _ _ => sq_nonneg _
  have b : 0 ≤ ∑ i, frobSq (s.dirTM c i) := Finset.sum_nonneg fun _ _ => frobSq_nonneg _
  unfold stepP at h
  have ha : ∑ i, s.dirOW c i ^ 2 = 0 := by linarith
  have hb : ∑ i, frobSq (s.dirTM c i) = 0 := by linarith
  constructor
  · funext i
    have := (Finset.sum_eq_zero_iff_of_nonneg fun i _ => sq_nonneg _).1 ha i (Finset.mem_univ i)
    exact pow_eq_zero_iff (two_ne_zero) |>.1 this
  · funext i
    have := (Finset.sum_eq_zero_iff_of_nonneg fun i _ => frobSq_nonneg _).1 hb i (Finset.mem_univ i)
    exact frobSq_eq_zero this.le

theorem slopeW_nonpos {c : MTDConfig p K} {s : MTDState T D k p K} (hk : 1 ≤ k)
    (hs : RowStochastic s.Gamma) (ha : 0 ≤ s.alphaGamma) : s.slopeW c ≤ 0 :=
  projected_slope_nonpos hk hs ha

theorem slopeP_nonpos {c : MTDConfig p K} {s : MTDState T D k p K} (hk : 1 ≤ k) (hp : 1 ≤ p)
    (hw : IsProb s.orderWeights) (hA : ∀ i, ColStochastic (s.transitionMatrices i))
    (ha : 0 ≤ s.alphaParameters) : s.slopeP c ≤ 0 :=
  slope_nonpos_of_nonneg ha (slopeP_le hk hp hw hA) (stepP_nonneg c s) (fun h => by
    obtain ⟨a, b⟩ := stepP_eq_zero h
    unfold slopeP
    rw [a, b]
    unfold vecMulSum mulSum3 mulSum
    simp)

end MTDState

end Reor
