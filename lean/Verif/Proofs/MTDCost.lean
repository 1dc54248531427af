import Verif.Proofs.GPNHCost
import Verif.Model.MTD
import Mathlib.Algebra.BigOperators.Field

/-!
The MTD cost as a function of the weights and of the transition parameters.
-/

namespace Reor

set_option linter.unusedSectionVars false

open scoped BigOperators Matrix
open Spec

variable {K : Type} [Field K] [LinearOrder K] [IsStrictOrderedRing K]
variable {T D k p : ℕ}

/-- The largest lag. -/
def topLag (lags : Fin p → ℕ) : ℕ := Finset.univ.sup lags

theorem topLag_le_iff {lags : Fin p → ℕ} {t : ℕ} : topLag lags ≤ t ↔ ∀ i, lags i ≤ t := by
  unfold topLag
  rw [Finset.sup_le_iff]
  simp

theorem lag_le_topLag (lags : Fin p → ℕ) (i : Fin p) : lags i ≤ topLag lags :=
  Finset.le_sup (f := lags) (Finset.mem_univ i)

theorem mtdSamples_eq (lags : Fin p → ℕ) (T : ℕ) : mtdSamples lags T = T - topLag lags := by
  unfold mtdSamples
  simp only [← topLag_le_iff]
  have e : ((Finset.range T).filter fun t => topLag lags ≤ t) = Finset.Ico (topLag lags) T := by
    ext t; simp; omega
  rw [← Nat.card_Ico, ← e, Finset.card_filter, Finset.card_filter,
    Fin.sum_univ_eq_sum_range (fun t => if topLag lags ≤ t then 1 else 0) T]

theorem rowAt_eq_rowSeq (A : Matrix (Fin T) (Fin k) K) (r : ℕ) : rowAt A r = rowSeq A r := rfl

theorem rowSeq_apply (A : Matrix (Fin T) (Fin k) K) (t : Fin T) : rowSeq A t = A t := by
  unfold rowSeq; simp

theorem rowSeq_add (A B : Matrix (Fin T) (Fin k) K) (r : ℕ) :
    rowSeq (A + B) r = rowSeq A r + rowSeq B r := by
  unfold rowSeq
  split_ifs
  · rfl
  · funext j; simp

theorem rowSeq_smul (c : K) (A : Matrix (Fin T) (Fin k) K) (r : ℕ) :
    rowSeq (c • A) r = c • rowSeq A r := by
  unfold rowSeq
  split_ifs
  · rfl
  · funext j; simp

theorem foldl_mask {α : Type} (l : List α) (P : Fin T → Prop) [DecidablePred P]
    (f : α → Fin T → Fin k → K) (Z : Fin T → Fin k → K) (t : Fin T) (j : Fin k) :
    l.foldl (fun Z i => fun t j => if P t then Z t j + f i t j else Z t j) Z t j = Z t j + if P t then (l.map fun i => f i t j).sum else 0 := by
  induction l generalizing Z with
  | nil => simp
  | cons a l ih =>
    rw [List.foldl_cons, ih]
    by_cases h : P t
    · simp only [h, if_true, List.map_cons, List.sum_cons]; ring
    · simp [h]

theorem foldl_mask' {α : Type} (l : List α) (P : α → Fin T → Prop) [∀ a, DecidablePred (P a)]
    (f : α → Fin T → Fin k → K) (Z : Fin T → Fin k → K) (t : Fin T) (j : Fin k) :
    l.foldl (fun Z i => fun t j => if P i t then Z t j + f i t j else Z t j) Z t j =
        Z t j + (l.map fun i => if P i t then f i t j else 0).sum := by
  induction l generalizing Z with
  | nil => simp
  | cons a l ih =>
    rw [List.foldl_cons, ih]
    by_cases h : P a t
    · simp only [h, if_true, List.map_cons, List.sum_cons]; ring
    · simp [h]

theorem sum_finRange_map (f : Fin p → K) : ((List.finRange p).map f).sum = ∑ i, f i := by
  rw [← List.ofFn_eq_map, List.sum_ofFn]

/-- The predicted weights used in the regulariser. -/
theorem mtdPredictedWeights_apply (lags : Fin p → ℕ) (W : Matrix (Fin T) (Fin k) K) (w : Fin p → K)
    (A : Fin p → Matrix (Fin k) (Fin k) K) (t : Fin T) (j : Fin k) :
    mtdPredictedWeights lags (topLag lags) W w A t j =
      if topLag lags ≤ t then mtdStep lags w A (rowSeq W) t j else W t j := by
  unfold mtdPredictedWeights
  have := foldl_mask (List.finRange p) (fun t : Fin T => topLag lags ≤ (t : ℕ))
    (fun i t j => w i * ∑ l, rowAt W (topLag lags - lags i + ((t : ℕ) - topLag lags)) l *
      (A i)ᵀ l j) (fun t j => if (t : ℕ) < topLag lags then W t j else 0) t j
  refine Eq.trans this ?_
  by_cases h : topLag lags ≤ t
  · have h' : ¬ (t : ℕ) < topLag lags := by omega
    simp only [h, h', if_true, if_false, zero_add]
    rw [sum_finRange_map]
    unfold mtdStep
    refine Finset.sum_congr rfl fun i _ => ?_
    have e : topLag lags - lags i + ((t : ℕ) - topLag lags) = t - lags i := by
      have := lag_le_topLag lags i; omega
    rw [e]
    congr 1
    exact Finset.sum_congr rfl fun l _ => by rw [Matrix.transpose_apply, mul_comm]; rfl
  · have h' : (t : ℕ) < topLag lags := by omega
    simp [h, h']

/-- The difference between the weights and their prediction. -/
def mtdRes (lags : Fin p → ℕ) (W : Matrix (Fin T) (Fin k) K) (w : Fin p → K)
    (A : Fin p → Matrix (Fin k) (Fin k) K) : Matrix (Fin T) (Fin k) K :=
  fun t j => if topLag lags ≤ t then W t j - mtdStep lags w A (rowSeq W) t j else 0

theorem sub_predicted (lags : Fin p → ℕ) (W : Matrix (Fin T) (Fin k) K) (w : Fin p → K)
    (A : Fin p → Matrix (Fin k) (Fin k) K) :
    W - mtdPredictedWeights lags (topLag lags) W w A = mtdRes lags W w A := by
  ext t j
  rw [Matrix.sub_apply, mtdPredictedWeights_apply]
  unfold mtdRes
  split_ifs <;> simp

/-- The constant in front of the squared residual. -/
def mtdCoef (T k : ℕ) (eps : K) (lags : Fin p → ℕ) : K :=
  eps / ((k : K) * ((T - topLag lags : ℕ) : K))

theorem mtdPenalty_eq (eps : K) (lags : Fin p → ℕ) (W : Matrix (Fin T) (Fin k) K) (w : Fin p → K)
    (A : Fin p → Matrix (Fin k) (Fin k) K) :
    mtdPenalty eps lags W w A =
      if k = 1 then 0 else mtdCoef T k eps lags * frobSq (mtdRes lags W w A) := by
  unfold mtdPenalty mtdCoef
  split_ifs with hk
  · rfl
  · rw [mtdSamples_eq, mul_div_assoc', div_mul_eq_mul_div]
    congr 2
    unfold frobSq mtdRes sqDist
    refine Finset.sum_congr rfl fun t _ => ?_
    simp only [← topLag_le_iff]
    split_ifs <;> simp

namespace MTDState

/-- The derived quantities are up to date. -/
structure Good (c : MTDConfig p K) (s : MTDState T D k p K) : Prop where
  SSt : s.SSt = s.S * s.Sᵀ
  Z : s.Z = mtdPredictedWeights c.lags c.maxLag s.Gamma s.orderWeights s.transitionMatrices

/-- The objective at a state. -/
def objective (c : MTDConfig p K) (s : MTDState T D k p K) : K :=
  mtdCost c.epsilonStates c.epsilonWeights c.lags s.X s.Gamma s.S s.orderWeights
    s.transitionMatrices

theorem maxLag_eq (c : MTDConfig p K) : c.maxLag = topLag c.lags := rfl

theorem Good.sub_Z {c : MTDConfig p K} {s : MTDState T D k p K} (h : s.Good c) :
    s.Gamma - s.Z = mtdRes c.lags s.Gamma s.orderWeights s.transitionMatrices := by
  rw [h.Z, maxLag_eq, sub_predicted]

theorem mtdRes_eq_zero_of_le {lags : Fin p → ℕ} (h : T ≤ topLag lags)
    (W : Matrix (Fin T) (Fin k) K) (w : Fin p → K) (A : Fin p → Matrix (Fin k) (Fin k) K) :
    mtdRes lags W w A = 0 := by
  ext t j
  unfold mtdRes
  rw [if_neg (by have := t.2; omega)]
  rfl

/-- The constant of the code; the subtraction is exact there. -/
theorem normalization_eq (c : MTDConfig p K) (s : MTDState T D k p K) (hT : c.maxLag < T) :
    c.epsilonWeights * s.weightsNormalization c = mtdCoef T k c.epsilonWeights c.lags := by
  unfold weightsNormalization mtdCoef
  rw [Nat.cast_sub (by rw [← maxLag_eq]; omega), mul_one_div, maxLag_eq]

theorem evaluateWeightsPenalty_eq {c : MTDConfig p K} {s : MTDState T D k p K} (h : s.Good c) :
    s.evaluateWeightsPenalty c =
      mtdPenalty c.epsilonWeights c.lags s.Gamma s.orderWeights s.transitionMatrices := by
  rw [mtdPenalty_eq]
  unfold evaluateWeightsPenalty
  split_ifs with hk
  · rfl
  · simp only [zero_add]
    have e : (∑ t : Fin T, if c.maxLag ≤ (t : ℕ) then ∑ j, (s.Gamma t j - s.Z t j) ^ 2 else 0) =
        frobSq (mtdRes c.lags s.Gamma s.orderWeights s.transitionMatrices) := by
      rw [← h.sub_Z]
      unfold frobSq
      refine Finset.sum_congr rfl fun t _ => ?_
      split_ifs with ht
      · rfl
      · have := h.sub_Z
        refine (Finset.sum_eq_zero fun j _ => ?_).symm
        rw [this]
        unfold mtdRes
        rw [if_neg (by rwa [← maxLag_eq])]
        ring
    rw [e]
    rcases lt_or_ge c.maxLag T with hT | hT
    · rw [normalization_eq c s hT]
    · rw [mtdRes_eq_zero_of_le (by rwa [← maxLag_eq])]
      simp [frobSq]

/-- At a coherent state the code evaluates the documented objective. -/
theorem evaluateCost_eq {c : MTDConfig p K} {s : MTDState T D k p K} (h : s.Good c) :
    s.evaluateCost c = s.objective c := by
  unfold evaluateCost objective mtdCost
  rw [evaluateWeightsPenalty_eq h]
  congr 1
  exact GPNHState.evaluateCost_eq c.epsilonStates s.toGPNHState h.SSt

end MTDState

/-! ### Dependence on the weights -/

theorem mtdStep_add (lags : Fin p → ℕ) (w : Fin p → K) (A : Fin p → Matrix (Fin k) (Fin k) K)
    (W H : Matrix (Fin T) (Fin k) K) (lam : K) (t : ℕ) (j : Fin k) :
    mtdStep lags w A (rowSeq (W + lam • H)) t j =
      mtdStep lags w A (rowSeq W) t j + lam * mtdStep lags w A (rowSeq H) t j := by
  unfold mtdStep
  rw [Finset.mul_sum, ← Finset.sum_add_distrib]
  refine Finset.sum_congr rfl fun i _ => ?_
  rw [rowSeq_add, rowSeq_smul]
  simp only [Pi.add_apply, Pi.smul_apply, smul_eq_mul, mul_add, Finset.sum_add_distrib]
  congr 1
  rw [← mul_assoc, mul_comm lam, mul_assoc]
  congr 1
  rw [Finset.mul_sum]
  exact Finset.sum_congr rfl fun l _ => by ring

theorem mtdRes_add (lags : Fin p → ℕ) (w : Fin p → K) (A : Fin p → Matrix (Fin k) (Fin k) K)
    (W H : Matrix (Fin T) (Fin k) K) (lam : K) :
    mtdRes lags (W + lam • H) w A = mtdRes lags W w A + lam • mtdRes lags H w A := by
  ext t j
  simp only [mtdRes, Matrix.add_apply, Matrix.smul_apply, smul_eq_mul, mtdStep_add]
  split_ifs
  · ring
  · simp

/-- Shifting a sum over the samples by a lag. -/
theorem sum_shift (lag : ℕ) (f : ℕ → ℕ → K) :
    (∑ t : Fin T, if lag ≤ (t : ℕ) then f t (t - lag) else 0) =
      ∑ s : Fin T, if (s : ℕ) < T - lag then f (lag + s) s else 0 := by
  rw [Fin.sum_univ_eq_sum_range (fun t => if lag ≤ t then f t (t - lag) else 0) T,
    Fin.sum_univ_eq_sum_range (fun s => if s < T - lag then f (lag + s) s else 0) T]
  rcases le_or_gt lag T with h | h
  · obtain ⟨n, rfl⟩ := Nat.exists_eq_add_of_le h
    rw [Finset.sum_range_add]
    rw [Finset.sum_eq_zero (s := Finset.range lag)
      (fun t ht => if_neg (by have := Finset.mem_range.1 ht; omega)), zero_add]
    have e : lag + n - lag = n := by omega
    rw [e, Nat.add_comm lag n, Finset.sum_range_add]
    rw [Finset.sum_eq_zero (s := Finset.range lag) (fun t ht => if_neg (by omega)), add_zero]
    refine Finset.sum_congr rfl fun t ht => ?_
    rw [if_pos (by omega), if_pos (Finset.mem_range.1 ht)]
    congr 1
    omega
  · rw [Finset.sum_eq_zero (fun t ht => if_neg (by have := Finset.mem_range.1 ht; omega)),
      Finset.sum_eq_zero (fun t ht => if_neg (by omega))]

/-- The gradient of half the squared residual with respect to the weights. -/
def mtdAdj (lags : Fin p → ℕ) (w : Fin p → K) (A : Fin p → Matrix (Fin k) (Fin k) K)
    (R : Matrix (Fin T) (Fin k) K) : Matrix (Fin T) (Fin k) K :=
  fun t j => (if topLag lags ≤ t then R t j else 0) -
    ∑ i, if (t : ℕ) < T - lags i then w i * ∑ l, rowSeq R (lags i + t) l * A i l j else 0

theorem inner_mtdRes (lags : Fin p → ℕ) (w : Fin p → K) (A : Fin p → Matrix (Fin k) (Fin k) K)
    (R H : Matrix (Fin T) (Fin k) K) (hR : ∀ t : Fin T, (t : ℕ) < topLag lags → ∀ j, R t j = 0) :
    inner R (mtdRes lags H w A) = inner (mtdAdj lags w A R) H := by
  have h1 : inner R (mtdRes lags H w A) = inner R H -
      ∑ i, w i * ∑ t : Fin T, if lags i ≤ (t : ℕ) then
        ∑ j, ∑ l, rowSeq R t j * A i j l * rowSeq H (t - lags i) l else 0 := by
    have e : ∀ t : Fin T, ∑ j, R t j * mtdRes lags H w A t j = ∑ j, R t j * H t j -
        ∑ i, w i * if lags i ≤ (t : ℕ) then
          ∑ j, ∑ l, rowSeq R t j * A i j l * rowSeq H (t - lags i) l else 0 := by
      intro t
      by_cases ht : topLag lags ≤ (t : ℕ)
      · simp only [mtdRes, if_pos ht, mul_sub, Finset.sum_sub_distrib]
        congr 1
        unfold mtdStep
        simp only [Finset.mul_sum]
        rw [Finset.sum_comm]
        refine Finset.sum_congr rfl fun i _ => ?_
        rw [if_pos (topLag_le_iff.1 ht i), Finset.mul_sum]
        refine Finset.sum_congr rfl fun j _ => ?_
        rw [Finset.mul_sum]
        refine Finset.sum_congr rfl fun l _ => ?_
        rw [rowSeq_apply]; ring
      · have h0 := hR t (by omega)
        simp [h0, rowSeq_apply]
    unfold inner
    simp only [e, Finset.sum_sub_distrib]
    congr 1
    rw [Finset.sum_comm]
    exact Finset.sum_congr rfl fun i _ => by rw [Finset.mul_sum]
  have h2 : inner (mtdAdj lags w A R) H = inner R H -
      ∑ i, w i * ∑ t : Fin T, if (t : ℕ) < T - lags i then
        ∑ j, ∑ l, rowSeq R (lags i + t) j * A i j l * rowSeq H t l else 0 := by
    have e : ∀ t : Fin T, ∑ j, mtdAdj lags w A R t j * H t j = ∑ j, R t j * H t j -
        ∑ i, w i * if (t : ℕ) < T - lags i then
          ∑ j, ∑ l, rowSeq R (lags i + t) j * A i j l * rowSeq H t l else 0 := by
      intro t
      simp only [mtdAdj, sub_mul, Finset.sum_sub_distrib]
      congr 1
      · refine Finset.sum_congr rfl fun j _ => ?_
        by_cases ht : topLag lags ≤ (t : ℕ)
        · rw [if_pos ht]
        · rw [if_neg ht, hR t (by omega)]
      · simp only [Finset.sum_mul]
        rw [Finset.sum_comm]
        refine Finset.sum_congr rfl fun i _ => ?_
        by_cases ht : (t : ℕ) < T - lags i
        · simp only [if_pos ht]
          rw [Finset.sum_comm (f := fun j l => rowSeq R (lags i + t) j * A i j l * rowSeq H t l),
            Finset.mul_sum]
          refine Finset.sum_congr rfl fun l _ => ?_
          rw [Finset.mul_sum, Finset.mul_sum, Finset.sum_mul]
          refine Finset.sum_congr rfl fun j _ => ?_
          rw [rowSeq_apply]; ring
        · simp [if_neg ht]
    unfold inner
    simp only [e, Finset.sum_sub_distrib]
    congr 1
    rw [Finset.sum_comm]
    exact Finset.sum_congr rfl fun i _ => by rw [Finset.mul_sum]
  rw [h1, h2]
  congr 1
  refine Finset.sum_congr rfl fun i _ => ?_
  congr 1
  exact sum_shift (T := T) (lags i) fun t s => ∑ j, ∑ l, rowSeq R t j * A i j l * rowSeq H s l

theorem mtdRes_masked (lags : Fin p → ℕ) (W : Matrix (Fin T) (Fin k) K) (w : Fin p → K)
    (A : Fin p → Matrix (Fin k) (Fin k) K) (t : Fin T) (h : (t : ℕ) < topLag lags) (j : Fin k) :
    mtdRes lags W w A t j = 0 := by
  unfold mtdRes
  rw [if_neg (by omega)]

/-- Gradient of the squared residual with respect to the weights. -/
def mtdGradPen (eps : K) (lags : Fin p → ℕ) (W : Matrix (Fin T) (Fin k) K) (w : Fin p → K)
    (A : Fin p → Matrix (Fin k) (Fin k) K) : Matrix (Fin T) (Fin k) K :=
  (2 * mtdCoef T k eps lags) • mtdAdj lags w A (mtdRes lags W w A)

theorem mtdPenalty_add_W (hk : k ≠ 1) (eps : K) (lags : Fin p → ℕ) (W H : Matrix (Fin T) (Fin k) K)
    (w : Fin p → K) (A : Fin p → Matrix (Fin k) (Fin k) K) (lam : K) :
    mtdPenalty eps lags (W + lam • H) w A = mtdPenalty eps lags W w A +
      lam * inner (mtdGradPen eps lags W w A) H + lam ^ 2 * mtdPenalty eps lags H w A := by
  simp only [mtdPenalty_eq, if_neg hk, mtdGradPen]
  rw [mtdRes_add, frobSq_add_smul, inner_mtdRes _ _ _ _ _ (mtdRes_masked lags W w A),
    inner_smul_left]
  ring

/-! ### Dependence on the parameters -/

/-- The predicted part of the residual. -/
def mtdPred (lags : Fin p → ℕ) (W : Matrix (Fin T) (Fin k) K) (w : Fin p → K)
    (A : Fin p → Matrix (Fin k) (Fin k) K) : Matrix (Fin T) (Fin k) K :=
  fun t j => if topLag lags ≤ t then mtdStep lags w A (rowSeq W) t j else 0

theorem mtdStep_add_params (lags : Fin p → ℕ) (w v : Fin p → K)
    (A B : Fin p → Matrix (Fin k) (Fin k) K) (q : ℕ → Fin k → K) (lam : K) (t : ℕ) (j : Fin k) :
    mtdStep lags (w + lam • v) (A + lam • B) q t j = mtdStep lags w A q t j +
      lam * (mtdStep lags v A q t j + mtdStep lags w B q t j) +
        lam ^ 2 * mtdStep lags v B q t j := by
  unfold mtdStep
  simp only [← Finset.sum_add_distrib, Finset.mul_sum]
  refine Finset.sum_congr rfl fun i _ => ?_
  refine Finset.sum_congr rfl fun l _ => ?_
  simp only [Pi.add_apply, Pi.smul_apply, Matrix.add_apply, Matrix.smul_apply, smul_eq_mul]
  ring

theorem mtdRes_add_params (lags : Fin p → ℕ) (W : Matrix (Fin T) (Fin k) K) (w v : Fin p → K)
    (A B : Fin p → Matrix (Fin k) (Fin k) K) (lam : K) :
    mtdRes lags W (w + lam • v) (A + lam • B) = mtdRes lags W w A -
      lam • (mtdPred lags W v A + mtdPred lags W w B + lam • mtdPred lags W v B) := by
  ext t j
  simp only [mtdRes, mtdPred, Matrix.sub_apply, Matrix.smul_apply, Matrix.add_apply, smul_eq_mul,
    mtdStep_add_params]
  split_ifs
  · ring
  · simp

/-- Exact expansion of the penalty along a direction in both parameter blocks. -/
theorem mtdPenalty_add_params (hk : k ≠ 1) (eps : K) (lags : Fin p → ℕ)
    (W : Matrix (Fin T) (Fin k) K) (w v : Fin p → K) (A B : Fin p → Matrix (Fin k) (Fin k) K)
    (lam : K) :
    mtdPenalty eps lags W (w + lam • v) (A + lam • B) = mtdPenalty eps lags W w A +
      lam * (-2 * mtdCoef T k eps lags *
        inner (mtdRes lags W w A) (mtdPred lags W v A + mtdPred lags W w B)) +
      lam ^ 2 * (mtdCoef T k eps lags *
        (frobSq (mtdPred lags W v A + mtdPred lags W w B + lam • mtdPred lags W v B) -
          2 * inner (mtdRes lags W w A) (mtdPred lags W v B))) := by
  simp only [mtdPenalty_eq, if_neg hk]
  rw [mtdRes_add_params, frobSq_sub_smul, inner_add_right _ _ (lam • _), inner_smul_right]
  ring

/-- Rows of a matrix from row `a` on. -/
def rowsFrom (a n : ℕ) (W : Matrix (Fin T) (Fin k) K) : Matrix (Fin n) (Fin k) K :=
  fun r => rowSeq W (a + r)

theorem sum_from (m : ℕ) (f : ℕ → K) :
    (∑ t : Fin T, if m ≤ (t : ℕ) then f t else 0) = ∑ r : Fin (T - m), f (m + r) := by
  have := sum_shift (T := T) m (fun t _ => f t)
  rw [this, Fin.sum_univ_eq_sum_range (fun s => if s < T - m then f (m + s) else 0) T,
    Fin.sum_univ_eq_sum_range (fun s => f (m + s)) (T - m), ← Finset.sum_filter]
  refine Finset.sum_congr ?_ fun _ _ => rfl
  ext s; simp; omega

theorem inner_mtdPred (lags : Fin p → ℕ) (W R : Matrix (Fin T) (Fin k) K) (w : Fin p → K)
    (A : Fin p → Matrix (Fin k) (Fin k) K) :
    inner R (mtdPred lags W w A) = ∑ i, w i * ∑ j, ∑ l, A i j l *
      ((rowsFrom (topLag lags) (T - topLag lags) R)ᵀ *
        rowsFrom (topLag lags - lags i) (T - topLag lags) W : Matrix (Fin k) (Fin k) K) j l := by
  have h1 : inner R (mtdPred lags W w A) = ∑ t : Fin T, if topLag lags ≤ (t : ℕ) then
      ∑ i, w i * ∑ j, ∑ l, A i j l * (rowSeq R t j * rowSeq W (t - lags i) l) else 0 := by
    unfold inner
    refine Finset.sum_congr rfl fun t _ => ?_
    by_cases ht : topLag lags ≤ (t : ℕ)
    · simp only [mtdPred, if_pos ht, mtdStep, Finset.mul_sum]
      rw [Finset.sum_comm]
      refine Finset.sum_congr rfl fun i _ => Finset.sum_congr rfl fun j _ =>
        Finset.sum_congr rfl fun l _ => ?_
      rw [rowSeq_apply]; ring
    · simp [mtdPred, if_neg ht]
  rw [h1, sum_from (T := T) (topLag lags) fun t =>
    ∑ i, w i * ∑ j, ∑ l, A i j l * (rowSeq R t j * rowSeq W (t - lags i) l)]
  rw [Finset.sum_comm]
  refine Finset.sum_congr rfl fun i _ => ?_
  rw [← Finset.mul_sum]
  congr 1
  rw [Finset.sum_comm]
  refine Finset.sum_congr rfl fun j _ => ?_
  rw [Finset.sum_comm]
  refine Finset.sum_congr rfl fun l _ => ?_
  rw [← Finset.mul_sum, Matrix.mul_apply]
  congr 1
  refine Finset.sum_congr rfl fun r _ => ?_
  have e : topLag lags + (r : ℕ) - lags i = topLag lags - lags i + r := by
    have := lag_le_topLag lags i; omega
  simp only [Matrix.transpose_apply, rowsFrom, e]

/-- Gradient with respect to the order weights. -/
def mtdGradOW (eps : K) (lags : Fin p → ℕ) (W : Matrix (Fin T) (Fin k) K) (w : Fin p → K)
    (A : Fin p → Matrix (Fin k) (Fin k) K) : Fin p → K := fun i =>
  -2 * mtdCoef T k eps lags * ∑ j, ∑ l, A i j l *
    ((rowsFrom (topLag lags) (T - topLag lags) (mtdRes lags W w A))ᵀ *
      rowsFrom (topLag lags - lags i) (T - topLag lags) W : Matrix (Fin k) (Fin k) K) j l

/-- Gradient with respect to the transition matrices. -/
def mtdGradTM (eps : K) (lags : Fin p → ℕ) (W : Matrix (Fin T) (Fin k) K) (w : Fin p → K)
    (A : Fin p → Matrix (Fin k) (Fin k) K) : Fin p → Matrix (Fin k) (Fin k) K := fun i =>
  (-2 * mtdCoef T k eps lags * w i) •
    ((rowsFrom (topLag lags) (T - topLag lags) (mtdRes lags W w A))ᵀ *
      rowsFrom (topLag lags - lags i) (T - topLag lags) W)

/-- The slope along a direction in both parameter blocks. -/
theorem mtd_params_slope (eps : K) (lags : Fin p → ℕ) (W : Matrix (Fin T) (Fin k) K)
    (w v : Fin p → K) (A B : Fin p → Matrix (Fin k) (Fin k) K) :
    -2 * mtdCoef T k eps lags *
        inner (mtdRes lags W w A) (mtdPred lags W v A + mtdPred lags W w B) =
      vecMulSum v (mtdGradOW eps lags W w A) + mulSum3 B (mtdGradTM eps lags W w A) := by
  rw [inner_add_right, inner_mtdPred, inner_mtdPred, mul_add]
  congr 1
  · unfold vecMulSum mtdGradOW
    rw [Finset.mul_sum]
    exact Finset.sum_congr rfl fun i _ => by ring
  · unfold mulSum3 mtdGradTM
    rw [Finset.mul_sum]
    refine Finset.sum_congr rfl fun i _ => ?_
    rw [mulSum_eq_inner, inner_smul_right]
    unfold inner
    ring

end Reor
