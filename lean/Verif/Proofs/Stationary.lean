import Verif.Proofs.KernelAAFit

/-!
Fixed points of the updates and minimisers of the subproblems.
-/

namespace Reor

set_option linter.unusedSectionVars false

open scoped BigOperators Matrix
open Spec

variable {K : Type} [Field K] [LinearOrder K] [IsStrictOrderedRing K]

/-- Variational inequality of the row projection. -/
theorem projectRows_vi {m n : ℕ} (hn : 1 ≤ n) (A B : Matrix (Fin m) (Fin n) K)
    (hB : RowStochastic B) :
    inner (A - simplexProjectRows A) (B - simplexProjectRows A) ≤ 0 := by
  unfold inner
  refine Finset.sum_nonpos fun i _ => ?_
  have h1 := project_vi hn (fun j => A i j) (fun j => B i j) (hB i)
  rw [← projectRows_apply] at h1
  simpa [Matrix.sub_apply] using h1

/-- A projected step stays where it is exactly if no admissible direction has negative slope. -/
theorem projectRows_step_fixed_iff {m n : ℕ} (hn : 1 ≤ n) {A G : Matrix (Fin m) (Fin n) K}
    (hA : RowStochastic A) {alpha : K} (ha : 0 < alpha) :
    simplexProjectRows (A - alpha • G) = A ↔
      ∀ B, RowStochastic B → 0 ≤ inner (B - A) G := by
  constructor
  · intro h B hB
    have h1 := projectRows_vi hn (A - alpha • G) B hB
    rw [h, sub_sub_cancel_left, inner_neg_left, inner_smul_left, inner_comm] at h1
    have : 0 ≤ alpha * inner (B - A) G := by linarith
    exact nonneg_of_mul_nonneg_right this ha
  · intro h
    have h1 := h _ (projectRows_rowStochastic hn (A - alpha • G))
    have h2 := projected_slope (G := G) hn hA alpha
    have h3 : 0 ≤ alpha * inner (simplexProjectRows (A - alpha • G) - A) G := mul_nonneg ha.le h1
    exact sub_eq_zero.1 (frobSq_eq_zero (by linarith))

/-- A bound on a slope from values along a short segment. -/
theorem slope_nonneg_of_values {a q : K} (h : ∀ t, 0 < t → t ≤ 1 → 0 ≤ t * a + t ^ 2 * q) :
    0 ≤ a := by
  by_contra hneg
  push Not at hneg
  have hq : 0 < |q| + -a + 1 := by have := abs_nonneg q; linarith
  have ht : 0 < -a / (|q| + -a + 1) / 2 := by
    have : 0 < -a := by linarith
    positivity
  have h1 : -a / (|q| + -a + 1) ≤ 1 := by
    rw [div_le_one hq]; have := abs_nonneg q; linarith
  set t := -a / (|q| + -a + 1) / 2 with htdef
  have h2 := h t ht (by linarith)
  have h3 : t * (|q| + -a + 1) = -a / 2 := by
    rw [htdef]; field_simp
  have h4 : t * q ≤ t * |q| := mul_le_mul_of_nonneg_left (le_abs_self q) ht.le
  have h5 : t * q ≤ -a / 2 := by nlinarith
  have h6 : t * a + t ^ 2 * q ≤ t * (a / 2) := by nlinarith
  have h7 : t * (a / 2) < 0 := mul_neg_of_pos_of_neg ht (by linarith)
  linarith

/-- For a convex quadratic, nonnegative slopes mean minimality over the row-stochastic matrices. -/
theorem minimal_iff_slopes {m n : ℕ} {f q : Matrix (Fin m) (Fin n) K → K}
    {A G : Matrix (Fin m) (Fin n) K} (hA : RowStochastic A)
    (hf : ∀ H t, f (A + t • H) = f A + t * inner H G + t ^ 2 * q H) (hq : ∀ H, 0 ≤ q H) :
    (∀ B, RowStochastic B → 0 ≤ inner (B - A) G) ↔ ∀ B, RowStochastic B → f A ≤ f B := by
  constructor
  · intro h B hB
    have h1 := hf (B - A) 1
    rw [one_smul, add_sub_cancel] at h1
    have := h B hB
    have := hq (B - A)
    rw [h1]; linarith
  · intro h B hB
    refine slope_nonneg_of_values (q := q (B - A)) fun t h0 h1 => ?_
    have h2 := h _ (rowStochastic_step hA hB h0.le h1)
    rw [hf] at h2
    linarith

/-- The same without constraints. -/
theorem minimal_iff_gradient {m n : ℕ} {f q : Matrix (Fin m) (Fin n) K → K}
    {A G : Matrix (Fin m) (Fin n) K}
    (hf : ∀ H t, f (A + t • H) = f A + t * inner H G + t ^ 2 * q H) (hq : ∀ H, 0 ≤ q H) :
    G = 0 ↔ ∀ B, f A ≤ f B := by
  constructor
  · intro h B
    have h1 := hf (B - A) 1
    rw [one_smul, add_sub_cancel, h] at h1
    have := hq (B - A)
    have e : inner (B - A) (0 : Matrix (Fin m) (Fin n) K) = 0 := by simp [inner]
    rw [h1, e]; linarith
  · intro h
    have h1 : 0 ≤ inner (-G) G := slope_nonneg_of_values (q := q (-G)) fun t h0 _ => by
      have h2 := h (A + t • -G)
      rw [hf] at h2
      linarith
    rw [inner_neg_left, ← frobSq_eq_inner] at h1
    exact frobSq_eq_zero (by linarith)

theorem add_smul_eq_self_iff {m n : ℕ} {A P : Matrix (Fin m) (Fin n) K} {lam : K} (h : 0 < lam) :
    A + lam • P = A ↔ P = 0 := by
  rw [add_eq_left]
  constructor
  · intro h0
    ext i j
    have := congrFun (congrFun h0 i) j
    simp only [Matrix.smul_apply, smul_eq_mul, Matrix.zero_apply, mul_eq_zero] at this
    exact this.resolve_left h.ne'
  · rintro rfl
    exact smul_zero _

/-! ### Convexity of the costs in each factor -/

theorem gpnhCost_convex_S {T D k : ℕ} {eps : K} (he : 0 ≤ eps) (W : Matrix (Fin T) (Fin k) K)
    (H : Matrix (Fin k) (Fin D) K) : 0 ≤ gpnhCost eps 0 W H := by
  rw [gpnhCost_eq]
  have h1 := frobSq_nonneg ((0 : Matrix (Fin T) (Fin D) K) - W * H)
  have h2 := inner_centring_nonneg H
  have h3 := GPNHState.pen_denominator_nonneg (K := K) k D
  positivity

/-- A quadratic form that takes no negative values. -/
theorem trace_gram_nonneg {n k m : ℕ} {A : Matrix (Fin n) (Fin n) K}
    (hA : ∀ v : Fin n → K, 0 ≤ ∑ i, ∑ j, v i * A i j * v j)
    (S : Matrix (Fin m) (Fin k) K) (C : Matrix (Fin k) (Fin n) K) :
    0 ≤ ((Sᵀ * S) * (C * A * Cᵀ)).trace := by
  have e : ((Sᵀ * S) * (C * A * Cᵀ)).trace = ((S * C) * A * (S * C)ᵀ).trace := by
    rw [Matrix.mul_assoc, Matrix.trace_mul_comm, Matrix.transpose_mul]
    simp only [Matrix.mul_assoc]
  rw [e]
  unfold Matrix.trace
  refine Finset.sum_nonneg fun i _ => ?_
  have := hA (fun j => (S * C) i j)
  refine this.trans (le_of_eq ?_)
  simp only [Matrix.diag_apply, Matrix.mul_apply (M := (S * C) * A), Matrix.mul_apply (M := S * C) (N := A),
    Matrix.transpose_apply, Finset.sum_mul]
  rw [Finset.sum_comm]

end Reor
