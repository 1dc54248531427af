import Verif.Proofs.MatrixCalc
import Verif.Model.GPNH
import Mathlib.Tactic.Abel

/-!
The GPNH cost as a quadratic function of the dictionary and of the weights.
-/

namespace Reor

set_option linter.unusedSectionVars false

open scoped BigOperators Matrix
open Spec

variable {K : Type} [Field K] [LinearOrder K] [IsStrictOrderedRing K]
variable {T D k : ℕ}

/-- `k I - 1 1ᵀ`. -/
def centring (k : ℕ) : Matrix (Fin k) (Fin k) K := fun i j => (k : K) * (if i = j then 1 else 0) - 1

theorem centring_transpose : (centring k : Matrix (Fin k) (Fin k) K)ᵀ = centring k := by
  ext i j
  simp [centring, Matrix.transpose_apply, eq_comm]

theorem centring_mul_apply (S : Matrix (Fin k) (Fin D) K) (i : Fin k) (d : Fin D) :
    (centring k * S : Matrix (Fin k) (Fin D) K) i d = (k : K) * S i d - ∑ j, S j d := by
  rw [Matrix.mul_apply]
  simp [centring, sub_mul, Finset.sum_sub_distrib]

theorem pairSum_eq (S : Matrix (Fin k) (Fin D) K) :
    ∑ i, ∑ j, sqDist (fun d => S i d) (fun d => S j d) = 2 * inner (centring k * S) S := by
  unfold sqDist inner
  simp only [centring_mul_apply]
  have h1 : ∑ i, ∑ j, ∑ d, (S i d - S j d) ^ 2 = ∑ d, ∑ i, ∑ j, (S i d - S j d) ^ 2 := by
    rw [Finset.sum_comm' (t' := Finset.univ) (s' := fun _ => Finset.univ) (by simp)]
    rw [Finset.sum_congr rfl fun i _ => Finset.sum_comm]
    rw [Finset.sum_comm]
    refine Finset.sum_congr rfl fun d _ => Finset.sum_comm
  rw [h1, Finset.sum_comm (s := Finset.univ) (t := Finset.univ)
    (f := fun i d => ((k : K) * S i d - ∑ j, S j d) * S i d), Finset.mul_sum]
  refine Finset.sum_congr rfl fun d _ => ?_
  have e : ∀ i j, (S i d - S j d) ^ 2 = S i d ^ 2 - 2 * S i d * S j d + S j d ^ 2 := fun i j => by
    ring
  simp only [e, Finset.sum_add_distrib, Finset.sum_sub_distrib, Finset.sum_const, Finset.card_univ,
    Fintype.card_fin, nsmul_eq_mul, sub_mul, ← Finset.mul_sum, ← Finset.sum_mul]
  have e3 : ∑ i, (k : K) * S i d * S i d = k * ∑ i, S i d ^ 2 := by
    rw [Finset.mul_sum]; exact Finset.sum_congr rfl fun i _ => by ring
  rw [e3]
  ring

theorem gpnhCost_eq (eps : K) (X : Matrix (Fin T) (Fin D) K) (W : Matrix (Fin T) (Fin k) K)
    (S : Matrix (Fin k) (Fin D) K) :
    gpnhCost eps X W S = frobSq (X - W * S) / ((D : K) * (T : K)) +
      eps * (2 * inner (centring k * S) S / ((k : K) * ((k : K) - 1) * (D : K))) := by
  unfold gpnhCost
  rw [pairSum_eq]
  rfl

theorem inner_centring_comm (S H : Matrix (Fin k) (Fin D) K) :
    inner (centring k * S) H = inner (centring k * H) S := by
  rw [inner_mul_left, centring_transpose, inner_comm]

theorem inner_centring_nonneg (S : Matrix (Fin k) (Fin D) K) : 0 ≤ inner (centring k * S) S := by
  have := pairSum_eq S
  have h : 0 ≤ ∑ i, ∑ j, sqDist (fun d => S i d) (fun d => S j d) :=
    Finset.sum_nonneg fun _ _ => Finset.sum_nonneg fun _ _ => Finset.sum_nonneg fun _ _ =>
      sq_nonneg _
  linarith

theorem matSum_mul_transpose (S : Matrix (Fin k) (Fin D) K) :
    (k : K) * (S * Sᵀ).trace - matSum (S * Sᵀ) = inner (centring k * S) S := by
  have h1 : (S * Sᵀ).trace = inner S S := by
    rw [trace_mul_eq_inner, inner_transpose]
  have h2 : matSum (S * Sᵀ) = ∑ d, (∑ i, S i d) * (∑ i, S i d) := by
    unfold matSum
    simp only [Matrix.mul_apply, Matrix.transpose_apply, Finset.sum_mul_sum]
    rw [Finset.sum_congr rfl fun i _ => Finset.sum_comm]
    rw [Finset.sum_comm]
  rw [h1, h2]
  unfold inner
  simp only [centring_mul_apply, sub_mul, Finset.sum_sub_distrib]
  congr 1
  · rw [Finset.mul_sum]
    refine Finset.sum_congr rfl fun i _ => ?_
    rw [Finset.mul_sum]
    exact Finset.sum_congr rfl fun j _ => by ring
  · rw [Finset.sum_comm]
    refine Finset.sum_congr rfl fun d _ => ?_
    rw [← Finset.mul_sum]

/-- With an up-to-date `SSt`, the code evaluates the documented objective. -/
theorem GPNHState.evaluateCost_eq (eps : K) (s : GPNHState T D k K) (h : s.SSt = s.S * s.Sᵀ) :
    s.evaluateCost eps = gpnhCost eps s.X s.Gamma s.S := by
  rw [gpnhCost_eq]
  unfold evaluateCost evaluateLossFunction evaluateDictionaryPenalty
  rw [normSq_eq_frobSq]
  congr 1
  · simp only; rw [one_div, inv_mul_eq_div]
  · split_ifs with hk
    · subst hk; simp
    · simp only
      rw [← matSum_mul_transpose, h]
      congr 1
      rw [zero_add]
      rw [show (k : K) * ((k : K) - 1) * (D : K) = (k : K) * (D : K) * ((k : K) - 1) by ring]
      ring

/-- Gradient with respect to the dictionary. -/
def gradSOf (eps : K) (X : Matrix (Fin T) (Fin D) K) (W : Matrix (Fin T) (Fin k) K)
    (S : Matrix (Fin k) (Fin D) K) : Matrix (Fin k) (Fin D) K :=
  (4 * eps / ((k : K) * ((k : K) - 1) * (D : K))) • (centring k * S) +
    (-2 / ((D : K) * (T : K))) • (Wᵀ * X) + (2 / ((D : K) * (T : K))) • (Wᵀ * W * S)

/-- Gradient with respect to the weights. -/
def gradWOf (X : Matrix (Fin T) (Fin D) K) (W : Matrix (Fin T) (Fin k) K)
    (S : Matrix (Fin k) (Fin D) K) : Matrix (Fin T) (Fin k) K :=
  (-2 / ((D : K) * (T : K))) • (X * Sᵀ) + (2 / ((D : K) * (T : K))) • (W * (S * Sᵀ))

/-- Exact expansion along a dictionary direction. -/
theorem gpnhCost_add_S (eps : K) (X : Matrix (Fin T) (Fin D) K) (W : Matrix (Fin T) (Fin k) K)
    (S H : Matrix (Fin k) (Fin D) K) (t : K) :
    gpnhCost eps X W (S + t • H) =
      gpnhCost eps X W S + t * inner (gradSOf eps X W S) H + t ^ 2 * gpnhCost eps 0 W H := by
  simp only [gpnhCost_eq, gradSOf]
  have h1 : X - W * (S + t • H) = (X - W * S) - t • (W * H) := by
    rw [Matrix.mul_add, Matrix.mul_smul]; abel
  have h2 : inner (X - W * S) (W * H) = inner (Wᵀ * X) H - inner (Wᵀ * W * S) H := by
    rw [inner_comm, inner_mul_left, Matrix.mul_sub, inner_sub_right, ← Matrix.mul_assoc, inner_comm,
      inner_comm H]
  have h3 : inner (centring k * (S + t • H)) (S + t • H) =
      inner (centring k * S) S + 2 * t * inner (centring k * S) H +
        t ^ 2 * inner (centring k * H) H := by
    simp only [Matrix.mul_add, Matrix.mul_smul, inner_add_left, inner_add_right, inner_smul_left,
      inner_smul_right, inner_centring_comm H S]
    ring
  rw [h1, frobSq_sub_smul, h2, h3, zero_sub, frobSq_neg, inner_add_left, inner_add_left,
    inner_smul_left, inner_smul_left, inner_smul_left]
  ring

/-- Exact expansion along a weights direction. -/
theorem gpnhCost_add_W (eps : K) (X : Matrix (Fin T) (Fin D) K) (W H : Matrix (Fin T) (Fin k) K)
    (S : Matrix (Fin k) (Fin D) K) (t : K) :
    gpnhCost eps X (W + t • H) S =
      gpnhCost eps X W S + t * inner (gradWOf X W S) H +
        t ^ 2 * (frobSq (H * S) / ((D : K) * (T : K))) := by
  simp only [gpnhCost_eq, gradWOf]
  have h1 : X - (W + t • H) * S = (X - W * S) - t • (H * S) := by
    rw [Matrix.add_mul, Matrix.smul_mul]; abel
  have h2 : inner (X - W * S) (H * S) = inner (X * Sᵀ) H - inner (W * (S * Sᵀ)) H := by
    rw [inner_comm, inner_mul_right, Matrix.sub_mul, inner_sub_right, Matrix.mul_assoc, inner_comm,
      inner_comm H]
  rw [h1, frobSq_sub_smul, h2, inner_add_left, inner_smul_left, inner_smul_left]
  ring

namespace GPNHState

variable (s : GPNHState T D k K)

theorem gradS_update (eps : K) (h1 : s.GtX = s.Gammaᵀ * s.X) (h2 : s.GtG = s.Gammaᵀ * s.Gamma) :
    (s.updateDictionaryGradient eps).gradS = gradSOf eps s.X s.Gamma s.S := by
  unfold updateDictionaryGradient dictionaryPenaltyGradient gradSOf
  rw [show (k : K) * ((k : K) - 1) * (D : K) = (D : K) * (k : K) * ((k : K) - 1) by ring]
  by_cases hk : k = 1
  · subst hk
    simp [h1, h2, div_eq_mul_inv, mul_comm]
  · simp only [hk, if_false, h1, h2]
    rw [mul_one_div, mul_one_div]
    congr 2
    exact Matrix.mul_smul (centring k) _ s.S

theorem gradGamma_update (h1 : s.XSt = s.X * s.Sᵀ) (h2 : s.SSt = s.S * s.Sᵀ) :
    s.updateWeightsGradient.gradGamma = gradWOf s.X s.Gamma s.S := by
  unfold updateWeightsGradient gradWOf
  simp only [h1, h2, zero_add]
  rw [mul_one_div, mul_one_div]

/-- What `prepareDictionary` leaves behind. -/
theorem prepareDictionary_eq (eps : K) :
    s.prepareDictionary eps =
      { s with
        SSt := s.S * s.Sᵀ, GtX := s.Gammaᵀ * s.X, GtG := s.Gammaᵀ * s.Gamma
        gradS := gradSOf eps s.X s.Gamma s.S
        incrS := -(s.alphaS • gradSOf eps s.X s.Gamma s.S) } := by
  have h := gradS_update
    { s with SSt := s.S * s.Sᵀ, GtX := s.Gammaᵀ * s.X, GtG := s.Gammaᵀ * s.Gamma } eps rfl rfl
  have hrest : ∀ s : GPNHState T D k K, s.updateDictionaryGradient eps =
      { s with gradS := (s.updateDictionaryGradient eps).gradS } := by
    intro s
    unfold updateDictionaryGradient dictionaryPenaltyGradient
    split_ifs <;> rfl
  unfold prepareDictionary
  simp only
  rw [hrest, h]
  simp only [GPNHState.mk.injEq, true_and, and_true]
  abel

theorem updateDictionaryGradient_eq (eps : K) :
    s.updateDictionaryGradient eps =
      { s with gradS := (s.updateDictionaryGradient eps).gradS } := by
  unfold updateDictionaryGradient dictionaryPenaltyGradient
  split_ifs <;> rfl

/-- What `prepareWeights` leaves behind. -/
theorem prepareWeights_eq :
    s.prepareWeights =
      { s with
        SSt := s.S * s.Sᵀ, XSt := s.X * s.Sᵀ
        gradGamma := gradWOf s.X s.Gamma s.S
        incrGamma := simplexProjectRows (s.Gamma - s.alphaGamma • gradWOf s.X s.Gamma s.S)
          - s.Gamma } := by
  have h := gradGamma_update { s with SSt := s.S * s.Sᵀ, XSt := s.X * s.Sᵀ } rfl rfl
  unfold prepareWeights
  simp only
  have hrest : ∀ s : GPNHState T D k K, s.updateWeightsGradient =
      { s with gradGamma := s.updateWeightsGradient.gradGamma } := fun s => rfl
  rw [hrest, h]

end GPNHState

end Reor
