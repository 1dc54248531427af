import Verif.Spec
import Verif.Model.Init
import Mathlib.LinearAlgebra.Matrix.Trace
import Mathlib.Algebra.Order.BigOperators.Ring.Finset
import Mathlib.Tactic.Ring
import Mathlib.Tactic.Linarith
import Mathlib.Tactic.FieldSimp

/-!
Frobenius inner products of matrices.
-/

namespace Reor

set_option linter.unusedSectionVars false

open scoped BigOperators Matrix
open Spec

variable {K : Type} [Field K] [LinearOrder K] [IsStrictOrderedRing K]
variable {m n p : ℕ}

theorem mulSum_eq_inner (A B : Matrix (Fin m) (Fin n) K) : mulSum A B = inner A B := rfl

theorem normSq_eq_frobSq (A : Matrix (Fin m) (Fin n) K) : normSq A = frobSq A := rfl

theorem inner_eq_trace (A B : Matrix (Fin m) (Fin n) K) : inner A B = (Aᵀ * B).trace := by
  unfold inner Matrix.trace
  rw [Finset.sum_comm]
  simp [Matrix.mul_apply]

theorem frobSq_eq_inner (A : Matrix (Fin m) (Fin n) K) : frobSq A = inner A A := by
  unfold frobSq inner; simp [sq]

theorem frobSq_nonneg (A : Matrix (Fin m) (Fin n) K) : 0 ≤ frobSq A :=
  Finset.sum_nonneg fun _ _ => Finset.sum_nonneg fun _ _ => sq_nonneg _

theorem frobSq_eq_zero {A : Matrix (Fin m) (Fin n) K} (h : frobSq A ≤ 0) : A = 0 := by
  have h0 : frobSq A = 0 := le_antisymm h (frobSq_nonneg A)
  ext i j
  have h1 := (Finset.sum_eq_zero_iff_of_nonneg
    (fun i _ => Finset.sum_nonneg fun j _ => sq_nonneg (A i j))).mp h0 i (Finset.mem_univ i)
  have h2 := (Finset.sum_eq_zero_iff_of_nonneg (fun j _ => sq_nonneg (A i j))).mp h1 j
    (Finset.mem_univ j)
  simpa using h2

theorem inner_comm (A B : Matrix (Fin m) (Fin n) K) : inner A B = inner B A := by
  unfold inner
  exact Finset.sum_congr rfl fun i _ => Finset.sum_congr rfl fun j _ => mul_comm _ _

theorem inner_add_left (A B C : Matrix (Fin m) (Fin n) K) :
    inner (A + B) C = inner A C + inner B C := by
  unfold inner; simp only [Matrix.add_apply, add_mul, Finset.sum_add_distrib]

theorem inner_add_right (A B C : Matrix (Fin m) (Fin n) K) :
    inner A (B + C) = inner A B + inner A C := by
  rw [inner_comm, inner_add_left, inner_comm B, inner_comm C]

theorem inner_smul_left (c : K) (A B : Matrix (Fin m) (Fin n) K) :
    inner (c • A) B = c * inner A B := by
  unfold inner; simp only [Matrix.smul_apply, smul_eq_mul, Finset.mul_sum, mul_assoc]

theorem inner_smul_right (c : K) (A B : Matrix (Fin m) (Fin n) K) :
    inner A (c • B) = c * inner A B := by
  rw [inner_comm, inner_smul_left, inner_comm]

theorem inner_neg_left (A B : Matrix (Fin m) (Fin n) K) : inner (-A) B = -inner A B := by
  have := inner_smul_left (-1) A B
  simpa using this

theorem inner_neg_right (A B : Matrix (Fin m) (Fin n) K) : inner A (-B) = -inner A B := by
  rw [inner_comm, inner_neg_left, inner_comm]

theorem inner_sub_left (A B C : Matrix (Fin m) (Fin n) K) :
    inner (A - B) C = inner A C - inner B C := by
  rw [sub_eq_add_neg, inner_add_left, inner_neg_left, sub_eq_add_neg]

theorem inner_sub_right (A B C : Matrix (Fin m) (Fin n) K) :
    inner A (B - C) = inner A B - inner A C := by
  rw [inner_comm, inner_sub_left, inner_comm B, inner_comm C]

@[simp] theorem inner_zero_left (B : Matrix (Fin m) (Fin n) K) : inner 0 B = 0 := by
  simp [inner]

@[simp] theorem inner_zero_right (B : Matrix (Fin m) (Fin n) K) : inner B 0 = 0 := by
  simp [inner]

/-- `⟨A B, C⟩ = ⟨B, Aᵀ C⟩`. -/
theorem inner_mul_left (A : Matrix (Fin m) (Fin p) K) (B : Matrix (Fin p) (Fin n) K)
    (C : Matrix (Fin m) (Fin n) K) : inner (A * B) C = inner B (Aᵀ * C) := by
  rw [inner_eq_trace, inner_eq_trace, Matrix.transpose_mul, Matrix.mul_assoc]

/-- `⟨A B, C⟩ = ⟨A, C Bᵀ⟩`. -/
theorem inner_mul_right (A : Matrix (Fin m) (Fin p) K) (B : Matrix (Fin p) (Fin n) K)
    (C : Matrix (Fin m) (Fin n) K) : inner (A * B) C = inner A (C * Bᵀ) := by
  rw [inner_eq_trace, inner_eq_trace, Matrix.transpose_mul, Matrix.mul_assoc, Matrix.trace_mul_comm,
    Matrix.mul_assoc]

theorem inner_transpose (A B : Matrix (Fin m) (Fin n) K) : inner Aᵀ Bᵀ = inner A B := by
  unfold inner
  rw [Finset.sum_comm]
  rfl

theorem frobSq_add_smul (A B : Matrix (Fin m) (Fin n) K) (t : K) :
    frobSq (A + t • B) = frobSq A + t * (2 * inner A B) + t ^ 2 * frobSq B := by
  simp only [frobSq_eq_inner, inner_add_left, inner_add_right, inner_smul_left, inner_smul_right,
    inner_comm B A]
  ring

theorem frobSq_sub_smul (A B : Matrix (Fin m) (Fin n) K) (t : K) :
    frobSq (A - t • B) = frobSq A + t * (-2 * inner A B) + t ^ 2 * frobSq B := by
  simp only [frobSq_eq_inner, inner_sub_left, inner_sub_right, inner_smul_left, inner_smul_right,
    inner_comm B A]
  ring

theorem frobSq_smul (A : Matrix (Fin m) (Fin n) K) (t : K) : frobSq (t • A) = t ^ 2 * frobSq A := by
  simp only [frobSq_eq_inner, inner_smul_left, inner_smul_right]; ring

theorem frobSq_neg (A : Matrix (Fin m) (Fin n) K) : frobSq (-A) = frobSq A := by
  unfold frobSq; simp

theorem frobSq_transpose (A : Matrix (Fin m) (Fin n) K) : frobSq Aᵀ = frobSq A := by
  rw [frobSq_eq_inner, inner_transpose, frobSq_eq_inner]

/-- `‖A B‖² ≤ ‖A‖² ‖B‖²`. -/
theorem frobSq_mul_le (A : Matrix (Fin m) (Fin p) K) (B : Matrix (Fin p) (Fin n) K) :
    frobSq (A * B) ≤ frobSq A * frobSq B := by
  have h : ∀ i j, ((A * B) i j) ^ 2 ≤ (∑ l, A i l ^ 2) * (∑ l, B l j ^ 2) := fun i j => by
    rw [Matrix.mul_apply]
    exact Finset.sum_mul_sq_le_sq_mul_sq _ _ _
  calc frobSq (A * B) ≤ ∑ i, ∑ j, (∑ l, A i l ^ 2) * (∑ l, B l j ^ 2) :=
        Finset.sum_le_sum fun i _ => Finset.sum_le_sum fun j _ => h i j
    _ = frobSq A * frobSq B := by
        unfold frobSq
        rw [Finset.sum_mul]
        refine Finset.sum_congr rfl fun i _ => ?_
        rw [← Finset.mul_sum]
        congr 1
        exact Finset.sum_comm

/-- Cauchy–Schwarz. -/
theorem inner_sq_le (A B : Matrix (Fin m) (Fin n) K) : inner A B ^ 2 ≤ frobSq A * frobSq B := by
  unfold inner frobSq
  simp only [← Finset.sum_product']
  exact Finset.sum_mul_sq_le_sq_mul_sq _ _ _

theorem trace_mul_eq_inner (A : Matrix (Fin m) (Fin n) K) (B : Matrix (Fin n) (Fin m) K) :
    (A * B).trace = inner Aᵀ B := by
  rw [inner_eq_trace, Matrix.transpose_transpose]

end Reor
