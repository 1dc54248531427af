import Verif.Proofs.MatrixCalc
import Verif.Model.KernelAA

/-!
The cost and the gradients of the KernelAA model.
-/

namespace Reor

set_option linter.unusedSectionVars false

open scoped BigOperators Matrix
open Spec

variable {K : Type} [Field K] [LinearOrder K] [IsStrictOrderedRing K]
variable {n k : ℕ}

theorem kaaCost_eq_trace (A : Matrix (Fin n) (Fin n) K) (S : Matrix (Fin n) (Fin k) K)
    (C : Matrix (Fin k) (Fin n) K) :
    kaaCost A S C = A.trace - 2 * (S * (C * A)).trace + ((Sᵀ * S) * (C * A * Cᵀ)).trace := by
  have e1 : (S * (C * A)).trace = ∑ t, ∑ j, (∑ i, S t i * C i j) * A j t := by
    rw [← Matrix.mul_assoc]
    unfold Matrix.trace
    simp only [Matrix.diag_apply, Matrix.mul_apply]
  have e2 : ((Sᵀ * S) * (C * A * Cᵀ)).trace =
      ∑ t, ∑ i, ∑ j, (∑ l, S t l * C l i) * A i j * (∑ l, S t l * C l j) := by
    have : ((Sᵀ * S) * (C * A * Cᵀ)).trace = (((S * C) * A) * (S * C)ᵀ).trace := by
      rw [Matrix.mul_assoc, Matrix.trace_mul_comm, Matrix.transpose_mul]
      simp only [Matrix.mul_assoc]
    rw [this]
    unfold Matrix.trace
    refine Finset.sum_congr rfl fun t _ => ?_
    simp only [Matrix.diag_apply, Matrix.mul_apply, Matrix.transpose_apply, Finset.sum_mul]
    rw [Finset.sum_comm]
  rw [e1, e2]
  unfold kaaCost Matrix.trace
  simp only [Matrix.diag_apply]
  rw [Finset.mul_sum, ← Finset.sum_sub_distrib, ← Finset.sum_add_distrib]

/-- The objective through Frobenius inner products. -/
theorem kaaCost_eq_inner (A : Matrix (Fin n) (Fin n) K) (S : Matrix (Fin n) (Fin k) K)
    (C : Matrix (Fin k) (Fin n) K) :
    kaaCost A S C = A.trace - 2 * inner Sᵀ (C * A) + inner (Sᵀ * S * C) (C * A) := by
  rw [kaaCost_eq_trace, trace_mul_eq_inner, trace_mul_eq_inner]
  rw [inner_comm (Sᵀ * S)ᵀ, inner_mul_right, Matrix.transpose_transpose,
    Matrix.transpose_mul, Matrix.transpose_transpose, inner_comm (C * A)]

/-- Gradient with respect to the weights. -/
def kaaGradS (A : Matrix (Fin n) (Fin n) K) (S : Matrix (Fin n) (Fin k) K)
    (C : Matrix (Fin k) (Fin n) K) : Matrix (Fin n) (Fin k) K :=
  (-2 : K) • (Aᵀ * Cᵀ) + (2 : K) • (S * (C * A * Cᵀ))

/-- Gradient with respect to the dictionary. -/
def kaaGradC (A : Matrix (Fin n) (Fin n) K) (S : Matrix (Fin n) (Fin k) K)
    (C : Matrix (Fin k) (Fin n) K) : Matrix (Fin k) (Fin n) K :=
  (-2 : K) • (Sᵀ * Aᵀ) + (2 : K) • ((Sᵀ * S) * (C * A))

/-- Expansion in the weights. -/
theorem kaaCost_add_S {A : Matrix (Fin n) (Fin n) K} (hA : Aᵀ = A) (S H : Matrix (Fin n) (Fin k) K)
    (C : Matrix (Fin k) (Fin n) K) (t : K) :
    kaaCost A (S + t • H) C = kaaCost A S C + t * inner H (kaaGradS A S C) +
      t ^ 2 * ((Hᵀ * H) * (C * A * Cᵀ)).trace := by
  have hM : (C * A * Cᵀ)ᵀ = C * A * Cᵀ := by
    simp only [Matrix.transpose_mul, Matrix.transpose_transpose, hA, Matrix.mul_assoc]
  set M := C * A * Cᵀ with hMdef
  have e : ∀ B : Matrix (Fin n) (Fin k) K, ((Bᵀ * B) * M).trace = inner B (B * M) := by
    intro B
    rw [Matrix.mul_assoc, inner_eq_trace]
  have e2 : ∀ B : Matrix (Fin n) (Fin k) K, (B * (C * A)).trace = inner B (Aᵀ * Cᵀ) := by
    intro B
    rw [trace_mul_eq_inner, ← inner_transpose, Matrix.transpose_transpose, Matrix.transpose_mul]
  have e3 : inner S (H * M) = inner H (S * M) := by
    rw [inner_comm, inner_mul_right, hM]
  rw [kaaCost_eq_trace, kaaCost_eq_trace, ← hMdef, e, e, e, e2, e2]
  unfold kaaGradS
  rw [← hMdef]
  simp only [inner_add_left, inner_add_right, inner_smul_left, inner_smul_right, Matrix.add_mul,
    Matrix.smul_mul, e3]
  ring

/-- Expansion in the dictionary. -/
theorem kaaCost_add_C {A : Matrix (Fin n) (Fin n) K} (hA : Aᵀ = A) (S : Matrix (Fin n) (Fin k) K)
    (C H : Matrix (Fin k) (Fin n) K) (t : K) :
    kaaCost A S (C + t • H) = kaaCost A S C + t * inner H (kaaGradC A S C) +
      t ^ 2 * ((Sᵀ * S) * (H * A * Hᵀ)).trace := by
  have e0 : ((Sᵀ * S) * (H * A * Hᵀ)).trace = inner (Sᵀ * S * H) (H * A) := by
    rw [trace_mul_eq_inner, inner_comm, inner_mul_right, Matrix.transpose_transpose,
      Matrix.transpose_mul, Matrix.transpose_transpose, inner_comm]
  have hP : (Sᵀ * S)ᵀ = Sᵀ * S := by rw [Matrix.transpose_mul, Matrix.transpose_transpose]
  rw [kaaCost_eq_inner, kaaCost_eq_inner, e0]
  unfold kaaGradC
  set P := Sᵀ * S with hPdef
  have e1 : inner (P * C) (H * A) = inner H (P * (C * A)) := by
    rw [inner_comm, inner_mul_right, hA, Matrix.mul_assoc]
  have e2 : inner (P * H) (C * A) = inner H (P * (C * A)) := by
    rw [inner_mul_left, hP]
  have e3 : inner Sᵀ (H * A) = inner H (Sᵀ * Aᵀ) := by
    rw [inner_comm, inner_mul_right]
  simp only [inner_add_left, inner_add_right, inner_smul_left, inner_smul_right, Matrix.add_mul,
    Matrix.mul_add, Matrix.smul_mul, Matrix.mul_smul, e1, e2, e3]
  ring

namespace KAAState

theorem refreshCK_eq (delta : K) (s : KAAState n k K) (h : s.alpha = fun _ => 1) :
    s.refreshCK delta = { s with CK := s.C * s.Kmat, CKCt := s.C * s.Kmat * s.Cᵀ } := by
  have hd : Matrix.diagonal s.alpha = (1 : Matrix (Fin k) (Fin k) K) := by rw [h]; exact Matrix.diagonal_one
  unfold refreshCK diagAlpha
  by_cases hdel : delta > 0
  · simp [hdel, hd]
  · simp [hdel]

theorem evaluateCost_eq (delta : K) (s : KAAState n k K) (h : s.alpha = fun _ => 1) :
    s.evaluateCost delta =
      ({ s with StS := s.Sᵀ * s.S, CK := s.C * s.Kmat, CKCt := s.C * s.Kmat * s.Cᵀ },
        kaaCost s.Kmat s.S s.C) := by
  unfold evaluateCost
  simp only
  rw [refreshCK_eq _ _ (by exact h), kaaCost_eq_trace]
  simp only [Prod.mk.injEq, true_and]
  ring

theorem prepareWeights_eq (delta : K) (s : KAAState n k K) (h : s.alpha = fun _ => 1) :
    s.prepareWeights delta = { s with
      CK := s.C * s.Kmat, CKCt := s.C * s.Kmat * s.Cᵀ
      gradS := kaaGradS s.Kmat s.S s.C
      incrS := simplexProjectRows (s.S - s.alphaS • kaaGradS s.Kmat s.S s.C) - s.S } := by
  have hd : Matrix.diagonal s.alpha = (1 : Matrix (Fin k) (Fin k) K) := by rw [h]; exact Matrix.diagonal_one
  have hg : s.Kmatᵀ * ((-2 : K) • s.Cᵀ) + s.S * ((2 : K) • (s.C * s.Kmat * s.Cᵀ)) =
      kaaGradS s.Kmat s.S s.C := by
    unfold kaaGradS; rw [Matrix.mul_smul, Matrix.mul_smul]
  unfold prepareWeights
  rw [refreshCK_eq _ _ h]
  unfold updateWeightsGradient diagAlpha
  by_cases hdel : delta > 0
  · simp only [hdel, if_true, hd, Matrix.mul_one, hg]
  · simp only [hdel, if_false, hg]

theorem prepareDictionary_eq (delta : K) (s : KAAState n k K) (h : s.alpha = fun _ => 1) :
    s.prepareDictionary delta = { s with
      StS := s.Sᵀ * s.S
      CK := s.C * s.Kmat, CKCt := s.C * s.Kmat * s.Cᵀ
      gradC := kaaGradC s.Kmat s.S s.C
      incrC := simplexProjectRows (s.C - s.alphaC • kaaGradC s.Kmat s.S s.C) - s.C } := by
  have hd : Matrix.diagonal s.alpha = (1 : Matrix (Fin k) (Fin k) K) := by rw [h]; exact Matrix.diagonal_one
  have hg : s.Sᵀ * ((-2 : K) • s.Kmatᵀ) + (2 : K) • (s.Sᵀ * s.S * (s.C * s.Kmat)) =
      kaaGradC s.Kmat s.S s.C := by
    unfold kaaGradC; rw [Matrix.mul_smul]
  unfold prepareDictionary
  simp only
  rw [refreshCK_eq _ _ (by exact h)]
  unfold updateDictionaryGradient diagAlpha
  by_cases hdel : delta > 0
  · simp only [hdel, if_true, hd, Matrix.one_mul, hg]
  · simp only [hdel, if_false, hg]

/-- Cached cost from correct caches. -/
theorem cachedCost_eq (s : KAAState n k K) (h1 : s.traceK = s.Kmat.trace)
    (h2 : s.CK = s.C * s.Kmat) (h3 : s.CKCt = s.C * s.Kmat * s.Cᵀ) (h4 : s.StS = s.Sᵀ * s.S) :
    s.cachedCost = kaaCost s.Kmat s.S s.C := by
  unfold cachedCost
  rw [h1, h2, h3, h4, kaaCost_eq_trace]

theorem dictionaryTrial_eq (delta : K) (s : KAAState n k K) (h : s.alpha = fun _ => 1) (t : K) :
    dictionaryTrial delta s t = (let C := s.COld + t • s.incrC
      let s' := { s with C := C, CK := C * s.Kmat, CKCt := C * s.Kmat * Cᵀ }
      (s', s'.cachedCost)) := by
  unfold dictionaryTrial
  simp only
  rw [refreshCK_eq _ _ (by exact h)]

end KAAState

end Reor
