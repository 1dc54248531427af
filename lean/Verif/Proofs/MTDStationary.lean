import Verif.Proofs.MTDDescent
import Verif.Proofs.Stationary

/-!
Fixed points of the updates of the MTD model and minimisers of its subproblems.
-/

namespace Reor

set_option linter.unusedSectionVars false

open scoped BigOperators Matrix
open Spec

variable {K : Type} [Field K] [LinearOrder K] [IsStrictOrderedRing K]
variable {T D k p : ℕ}

/-- For a function that is a convex quadratic on every line through `x`, nonnegative slopes mean
minimality over a set that is star-shaped about `x`. -/
theorem minimal_iff_slopes_on {E : Type} [AddCommGroup E] [Module K E] {C : E → Prop}
    {f q L : E → K} {x : E}
    (hC : ∀ y, C y → ∀ t : K, 0 ≤ t → t ≤ 1 → C (x + t • (y - x)))
    (hf : ∀ H (t : K), f (x + t • H) = f x + t * L H + t ^ 2 * q H) (hq : ∀ H, 0 ≤ q H) :
    (∀ y, C y → 0 ≤ L (y - x)) ↔ ∀ y, C y → f x ≤ f y := by
  constructor
  · intro h y hy
    have h1 := hf (y - x) 1
    rw [one_smul, add_sub_cancel] at h1
    have := h y hy
    have := hq (y - x)
    rw [h1]; linarith
  · intro h y hy
    refine slope_nonneg_of_values (q := q (y - x)) fun t h0 h1 => ?_
    have h2 := h _ (hC y hy t h0.le h1)
    rw [hf] at h2
    linarith

theorem add_smul_eq_self_iff' {E : Type} [AddCommGroup E] [Module K E] {x v : E} {lam : K}
    (h : 0 < lam) : x + lam • v = x ↔ v = 0 := by
  rw [add_eq_left, smul_eq_zero, or_iff_right h.ne']

theorem colStochastic_step' {n : ℕ} {A B : Matrix (Fin n) (Fin n) K} (hA : ColStochastic A)
    (hB : ColStochastic B) {t : K} (h0 : 0 ≤ t) (h1 : t ≤ 1) :
    ColStochastic (A + t • (B - A)) := fun j => isProb_step (hA j) (hB j) h0 h1

/-- A projected step of a vector. -/
theorem projectVector_slope {n : ℕ} (hn : 1 ≤ n) {x g : Fin n → K} (hx : IsProb x) (alpha : K) :
    ∑ i, (simplexProjectVector (x - alpha • g) - x) i ^ 2 +
      alpha * vecMulSum (simplexProjectVector (x - alpha • g) - x) g ≤ 0 := by
  refine le_trans (le_of_eq ?_) (project_vi hn (x - alpha • g) x hx)
  unfold vecMulSum
  rw [Finset.mul_sum, ← Finset.sum_add_distrib]
  refine Finset.sum_congr rfl fun i _ => ?_
  simp only [Pi.sub_apply, Pi.smul_apply, smul_eq_mul]
  ring

theorem projectVector_step_fixed_iff {n : ℕ} (hn : 1 ≤ n) {x g : Fin n → K} (hx : IsProb x)
    {alpha : K} (ha : 0 < alpha) :
    simplexProjectVector (x - alpha • g) = x ↔ ∀ y, IsProb y → 0 ≤ vecMulSum (y - x) g := by
  constructor
  · intro h y hy
    have h1 := project_vi hn (x - alpha • g) y hy
    rw [h] at h1
    have e : ∑ i, ((x - alpha • g) i - x i) * (y i - x i) = -(alpha * vecMulSum (y - x) g) := by
      unfold vecMulSum
      rw [Finset.mul_sum, ← Finset.sum_neg_distrib]
      refine Finset.sum_congr rfl fun i _ => ?_
      simp only [Pi.sub_apply, Pi.smul_apply, smul_eq_mul]
      ring
    rw [e] at h1
    exact nonneg_of_mul_nonneg_right (by linarith) ha
  · intro h
    have h1 := h _ (project_isProb hn (x - alpha • g))
    have h2 := projectVector_slope (g := g) hn hx alpha
    have h3 := mul_nonneg ha.le h1
    refine sqDist_eq_zero ?_
    unfold sqDist
    simp only [Pi.sub_apply] at h2
    have h4 : ∑ i, (simplexProjectVector (x - alpha • g) i - x i) ^ 2 ≤ 0 := by linarith
    exact h4

/-- Transition matrices stay exactly if no admissible direction has negative slope. -/
theorem projectMatrices_step_fixed_iff (hk : 1 ≤ k) {A G : Fin p → Matrix (Fin k) (Fin k) K}
    (hA : ∀ i, ColStochastic (A i)) {alpha : K} (ha : 0 < alpha) :
    projectMatrices (A - alpha • G) = A ↔
      ∀ B : Fin p → Matrix (Fin k) (Fin k) K, (∀ i, ColStochastic (B i)) →
        0 ≤ mulSum3 (B - A) G := by
  have e : ∀ B : Fin p → Matrix (Fin k) (Fin k) K, mulSum3 (B - A) G =
      ∑ i, ∑ j, vecMulSum ((fun l => B i l j) - fun l => A i l j) (fun l => G i l j) := by
    intro B
    unfold mulSum3 mulSum vecMulSum
    refine Finset.sum_congr rfl fun i _ => ?_
    rw [Finset.sum_comm]
    rfl
  have hcol : ∀ i j, (fun l => projectMatrices (A - alpha • G) i l j) =
      simplexProjectVector ((fun l => A i l j) - alpha • fun l => G i l j) := by
    intro i j
    unfold projectMatrices
    rw [projectColumns_apply]
    rfl
  constructor
  · intro h B hB
    rw [e]
    refine Finset.sum_nonneg fun i _ => Finset.sum_nonneg fun j _ => ?_
    refine (projectVector_step_fixed_iff hk (hA i j) ha).1 ?_ _ (hB i j)
    rw [← hcol, h]
  · intro h
    funext i
    ext l j
    refine congrFun ((hcol i j).trans ((projectVector_step_fixed_iff hk (hA i j) ha).2 ?_)) l
    intro y hy
    let B : Fin p → Matrix (Fin k) (Fin k) K := fun i' l' j' =>
      if i' = i ∧ j' = j then y l' else A i' l' j'
    have hB : ∀ i', ColStochastic (B i') := by
      intro i' j'
      by_cases hij : i' = i ∧ j' = j
      · have : (fun l' => B i' l' j') = y := by funext l'; exact if_pos hij
        rw [this]; exact hy
      · have : (fun l' => B i' l' j') = fun l' => A i' l' j' := by funext l'; exact if_neg hij
        rw [this]; exact hA i' j'
    have h1 := h B hB
    rw [e, Finset.sum_eq_single i, Finset.sum_eq_single j] at h1
    · have : (fun l' => B i l' j) = y := by funext l'; exact if_pos ⟨rfl, rfl⟩
      rwa [this] at h1
    · intro j' _ hj
      have : (fun l' => B i l' j') = fun l' => A i l' j' := by
        funext l'; exact if_neg fun h => hj h.2
      rw [this, sub_self]
      simp [vecMulSum]
    · simp
    · intro i' _ hi
      refine Finset.sum_eq_zero fun j' _ => ?_
      have : (fun l' => B i' l' j') = fun l' => A i' l' j' := by
        funext l'; exact if_neg fun h => hi h.1
      rw [this, sub_self]
      simp [vecMulSum]
    · simp

/-! ### The objective along one block -/

theorem mtdCoef_nonneg {eps : K} (he : 0 ≤ eps) (lags : Fin p → ℕ) : 0 ≤ mtdCoef T k eps lags := by
  unfold mtdCoef
  positivity

theorem mtdPenalty_nonneg {eps : K} (he : 0 ≤ eps) (lags : Fin p → ℕ) (W : Matrix (Fin T) (Fin k) K)
    (w : Fin p → K) (A : Fin p → Matrix (Fin k) (Fin k) K) : 0 ≤ mtdPenalty eps lags W w A := by
  rw [mtdPenalty_eq]
  split_ifs
  · exact le_rfl
  · exact mul_nonneg (mtdCoef_nonneg he lags) (frobSq_nonneg _)

theorem mtdPenalty_add_w (hk : k ≠ 1) (eps : K) (lags : Fin p → ℕ)
    (W : Matrix (Fin T) (Fin k) K) (w v : Fin p → K) (A : Fin p → Matrix (Fin k) (Fin k) K)
    (lam : K) :
    mtdPenalty eps lags W (w + lam • v) A = mtdPenalty eps lags W w A +
      lam * vecMulSum v (mtdGradOW eps lags W w A) +
      lam ^ 2 * (mtdCoef T k eps lags * frobSq (mtdPred lags W v A)) := by
  have h1 := mtdPenalty_add_params hk eps lags W w v A 0 lam
  have h2 := mtd_params_slope eps lags W w v A 0
  have e : mulSum3 (0 : Fin p → Matrix (Fin k) (Fin k) K) (mtdGradTM eps lags W w A) = 0 := by
    simp [mulSum3, mulSum]
  rw [e, add_zero] at h2
  rw [smul_zero, add_zero, h2, MTDState.mtdPred_zero_right, MTDState.mtdPred_zero_right, smul_zero,
    add_zero, add_zero, inner_zero_right, mul_zero, sub_zero] at h1
  exact h1

theorem mtdPenalty_add_A (hk : k ≠ 1) (eps : K) (lags : Fin p → ℕ)
    (W : Matrix (Fin T) (Fin k) K) (w : Fin p → K) (A B : Fin p → Matrix (Fin k) (Fin k) K)
    (lam : K) :
    mtdPenalty eps lags W w (A + lam • B) = mtdPenalty eps lags W w A +
      lam * mulSum3 B (mtdGradTM eps lags W w A) +
      lam ^ 2 * (mtdCoef T k eps lags * frobSq (mtdPred lags W w B)) := by
  have h1 := mtdPenalty_add_params hk eps lags W w 0 A B lam
  have h2 := mtd_params_slope eps lags W w 0 A B
  have e : vecMulSum (0 : Fin p → K) (mtdGradOW eps lags W w A) = 0 := by
    simp [vecMulSum]
  rw [e, zero_add] at h2
  rw [smul_zero, add_zero, h2, MTDState.mtdPred_zero_left, MTDState.mtdPred_zero_left, smul_zero,
    add_zero, zero_add, inner_zero_right, mul_zero, sub_zero] at h1
  exact h1

end Reor
