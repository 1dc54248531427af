import Verif.Proofs.ConvergeGPNH
import Verif.Proofs.MTDStationary

/-!
MTD fits that stop are nearly optimal in each block.
-/

namespace Reor

set_option linter.unusedSectionVars false

open scoped BigOperators Matrix
open Spec

variable {K : Type} [Field K] [LinearOrder K] [IsStrictOrderedRing K]
variable {T D k p : ℕ}

/-! ### Line searches and projected steps -/

/-- With one remembered cost, a line search along a function below a quadratic lowers the cost by a
fixed multiple of the slope. -/
theorem lineSearch_slope_progress {σ : Type} {cfg : LSConfig K} {trial : σ → K → σ × K}
    (hd : cfg.Descends) (hre : Retriable trial) {m0 : K} {s : σ} {f0 δ q N L alpha top b : K}
    (hquad : ∀ lam, 0 < lam → lam ≤ 1 → (trial s lam).2 ≤ f0 + lam * δ + lam ^ 2 * q)
    (ha : 0 < alpha) (htop : alpha ≤ top) (hδ : N + alpha * δ ≤ 0) (hN : 0 ≤ N) (hL : 0 ≤ L)
    (hq : q ≤ L * N) (hb0 : 0 < b) (hb1 : b ≤ 1) (hb2 : b ≤ cfg.sigmaOne)
    (hb3 : 2 * b * (top * L) ≤ 1 - cfg.gamma) (hbt : cfg.stepSizeTolerance ≤ b) {r : LSResult σ K}
    (hr : lineSearch cfg trial [m0] s f0 δ = Py.ok r) :
    r.cost ≤ f0 + cfg.gamma * b * δ := by
  have htop0 : 0 < top := ha.trans_le htop
  have harm : ∀ lam, 0 < lam → lam ≤ 1 → lam ≤ 2 * b →
      (trial s lam).2 ≤ f0 + cfg.gamma * δ * lam := by
    intro lam h0 h1 hl'
    refine (hquad lam h0 h1).trans (armijo_of_quadratic hq hL ha hδ hN h0.le (le_trans ?_ hb3))
    exact mul_le_mul hl' (mul_le_mul_of_nonneg_right htop hL) (mul_nonneg ha.le hL)
      (by linarith)
  have hdd := lineSearch_descends' hd.sigmaOne hd.sigmaTwo hre harm
    (hbt.trans hb2) (by linarith) hr
  have hge : b ≤ r.stepSize := by
    obtain ⟨hne, hmem, fMax, hM, hb⟩ := lineSearch_eq_ok.1 hr
    have : fMax = f0 := by
      simp [foldMax, maxStep] at hM
      exact hM.symm
    subst this
    exact backtrack_step_ge (Inv := fun x => ∀ b, trial x b = trial s b) hd.sigmaOne hd.sigmaTwo
      (fun x lam hx b => by rw [hre, hx])
      (fun x lam hx h3 h4 h5 => by rw [hx]; exact harm lam h3 h4 h5) hb2 _ _ _ _ _ hb one_pos le_rfl
      hb1 (fun b => by rw [hre]) ⟨s, fun _ => rfl, rfl⟩
  have hneg := slope_nonpos ha hδ hN
  have h3 : cfg.gamma * b * -δ ≤ cfg.gamma * r.stepSize * -δ :=
    mul_le_mul_of_nonneg_right (mul_le_mul_of_nonneg_left hge hd.gamma0.le) (by linarith)
  have e2 : cfg.gamma * r.stepSize * -δ = -(cfg.gamma * δ * r.stepSize) := by ring
  linarith

/-- A projected step with small length and small slope leaves only small negative slopes. -/
theorem near_vi {ι : Type} [Fintype ι] {x g P y : ι → K} {alpha a0 η R τ : K}
    (hvi : ∑ i, (x i - alpha * g i - P i) * (y i - P i) ≤ 0) (ha0 : 0 < a0) (ha : a0 ≤ alpha)
    (hη : 0 ≤ η) (hR : 0 ≤ R) (hP : ∑ i, (P i - x i) ^ 2 ≤ η ^ 2)
    (hd : ∑ i, (y i - P i) ^ 2 ≤ R ^ 2) (hδ : -τ ≤ ∑ i, (P i - x i) * g i) :
    -(η * R / a0 + τ) ≤ ∑ i, (y i - x i) * g i := by
  have ha' : 0 < alpha := ha0.trans_le ha
  have hcs : |∑ i, (P i - x i) * (y i - P i)| ≤ η * R := by
    refine abs_le_of_sq_le_sq ((Finset.sum_mul_sq_le_sq_mul_sq _ _ _).trans ?_) (mul_nonneg hη hR)
    rw [mul_pow]
    exact mul_le_mul hP hd (Finset.sum_nonneg fun i _ => sq_nonneg _) (sq_nonneg _)
  have e1 : ∑ i, (x i - alpha * g i - P i) * (y i - P i) =
      -(∑ i, (P i - x i) * (y i - P i)) - alpha * ∑ i, (y i - P i) * g i := by
    rw [Finset.mul_sum, ← Finset.sum_neg_distrib, ← Finset.sum_sub_distrib]
    exact Finset.sum_congr rfl fun i _ => by ring
  have e2 : ∑ i, (y i - x i) * g i = ∑ i, (y i - P i) * g i + ∑ i, (P i - x i) * g i := by
    rw [← Finset.sum_add_distrib]
    exact Finset.sum_congr rfl fun i _ => by ring
  rw [e1] at hvi
  have h4 : -(η * R) / alpha ≤ ∑ i, (y i - P i) * g i := by
    rw [div_le_iff₀ ha']
    linarith [(abs_le.1 hcs).2]
  have h5 : -(η * R / a0) ≤ -(η * R) / alpha := by
    rw [neg_div]
    exact neg_le_neg (div_le_div_of_nonneg_left (mul_nonneg hη hR) ha0 ha)
  rw [e2]
  linarith

/-! ### Bounds of predictions -/

/-- Squared length of order weights. -/
def vsq {n : ℕ} (v : Fin n → K) : K := ∑ i, v i ^ 2

/-- Squared length of transition matrices. -/
def msq (A : Fin p → Matrix (Fin k) (Fin k) K) : K := ∑ i, frobSq (A i)

theorem vsq_nonneg {n : ℕ} (v : Fin n → K) : 0 ≤ vsq v := Finset.sum_nonneg fun _ _ => sq_nonneg _

theorem msq_nonneg (A : Fin p → Matrix (Fin k) (Fin k) K) : 0 ≤ msq A :=
  Finset.sum_nonneg fun _ _ => frobSq_nonneg _

theorem vsq_le_one {n : ℕ} {v : Fin n → K} (h : IsProb v) : vsq v ≤ 1 := by
  unfold vsq
  rw [← h.2]
  refine Finset.sum_le_sum fun j _ => ?_
  have h0 := h.1 j
  have h1 : v j ≤ 1 := by
    rw [← h.2]
    exact Finset.single_le_sum (fun j _ => h.1 j) (Finset.mem_univ j)
  nlinarith

theorem msq_le {A : Fin p → Matrix (Fin k) (Fin k) K} (h : ∀ i, ColStochastic (A i)) :
    msq A ≤ p * k := by
  have h1 : ∀ i ∈ (Finset.univ : Finset (Fin p)), frobSq (A i) ≤ (k : K) := by
    intro i _
    rw [← frobSq_transpose]
    exact frobSq_rowStochastic (A := (A i)ᵀ) fun j => h i j
  refine (Finset.sum_le_sum h1).trans (le_of_eq ?_)
  simp

theorem vsq_sub_le {n : ℕ} (v w : Fin n → K) : vsq (v - w) ≤ 2 * vsq v + 2 * vsq w := by
  unfold vsq
  rw [Finset.mul_sum, Finset.mul_sum, ← Finset.sum_add_distrib]
  refine Finset.sum_le_sum fun i _ => ?_
  rw [Pi.sub_apply]
  nlinarith [sq_nonneg (v i + w i)]

theorem msq_sub_le (A B : Fin p → Matrix (Fin k) (Fin k) K) :
    msq (A - B) ≤ 2 * msq A + 2 * msq B := by
  unfold msq
  rw [Finset.mul_sum, Finset.mul_sum, ← Finset.sum_add_distrib]
  refine Finset.sum_le_sum fun i _ => ?_
  have := frobSq_add_le (A i) (-(B i))
  rw [frobSq_neg, ← sub_eq_add_neg] at this
  exact this

theorem rowSeq_sq_le (W : Matrix (Fin T) (Fin k) K) (t : ℕ) : ∑ l, rowSeq W t l ^ 2 ≤ frobSq W := by
  unfold rowSeq
  split_ifs with h
  · exact Finset.single_le_sum (f := fun t => ∑ l, W t l ^ 2)
      (fun t _ => Finset.sum_nonneg fun _ _ => sq_nonneg _) (Finset.mem_univ (⟨t, h⟩ : Fin T))
  · simpa using frobSq_nonneg W

theorem frobSq_mtdPred_le (lags : Fin p → ℕ) (W : Matrix (Fin T) (Fin k) K) (v : Fin p → K)
    (A : Fin p → Matrix (Fin k) (Fin k) K) :
    frobSq (mtdPred lags W v A) ≤ T * (vsq v * (msq A * frobSq W)) := by
  have hrow : ∀ t ∈ (Finset.univ : Finset (Fin T)), ∑ j, mtdPred lags W v A t j ^ 2 ≤
      vsq v * (msq A * frobSq W) := by
    intro t _
    have hnn : 0 ≤ vsq v * (msq A * frobSq W) :=
      mul_nonneg (vsq_nonneg v) (mul_nonneg (msq_nonneg A) (frobSq_nonneg W))
    have hj : ∀ j ∈ (Finset.univ : Finset (Fin k)), mtdPred lags W v A t j ^ 2 ≤
        vsq v * ∑ i, (∑ l, A i j l ^ 2) * frobSq W := by
      intro j _
      unfold mtdPred
      split_ifs
      · unfold mtdStep
        refine (Finset.sum_mul_sq_le_sq_mul_sq _ _ _).trans
          (mul_le_mul_of_nonneg_left (Finset.sum_le_sum fun i _ => ?_) (vsq_nonneg v))
        refine (Finset.sum_mul_sq_le_sq_mul_sq _ _ _).trans
          (mul_le_mul_of_nonneg_left (rowSeq_sq_le W _) (Finset.sum_nonneg fun _ _ => sq_nonneg _))
      · rw [zero_pow two_ne_zero]
        exact mul_nonneg (vsq_nonneg v) (Finset.sum_nonneg fun i _ =>
          mul_nonneg (Finset.sum_nonneg fun _ _ => sq_nonneg _) (frobSq_nonneg W))
    refine (Finset.sum_le_sum hj).trans (le_of_eq ?_)
    rw [← Finset.mul_sum, Finset.sum_comm]
    congr 1
    unfold msq frobSq
    rw [Finset.sum_mul]
    refine Finset.sum_congr rfl fun i _ => ?_
    rw [Finset.sum_mul]
  refine (Finset.sum_le_sum hrow).trans (le_of_eq ?_)
  simp

/-- The rows of the weights from the largest lag on. -/
def mtdTail (lags : Fin p → ℕ) (W : Matrix (Fin T) (Fin k) K) : Matrix (Fin T) (Fin k) K :=
  Matrix.of fun t j => if topLag lags ≤ t then W t j else 0

theorem mtdRes_eq_masked_sub (lags : Fin p → ℕ) (W : Matrix (Fin T) (Fin k) K) (w : Fin p → K)
    (A : Fin p → Matrix (Fin k) (Fin k) K) :
    mtdRes lags W w A = mtdTail lags W + -mtdPred lags W w A := by
  ext t j
  simp only [mtdRes, mtdPred, mtdTail, Matrix.of_apply, Matrix.add_apply, Matrix.neg_apply]
  split_ifs <;> ring

theorem frobSq_mtdRes_le (lags : Fin p → ℕ) (W : Matrix (Fin T) (Fin k) K) {w : Fin p → K}
    {A : Fin p → Matrix (Fin k) (Fin k) K} (hw : IsProb w) (hA : ∀ i, ColStochastic (A i)) :
    frobSq (mtdRes lags W w A) ≤ (2 + 2 * (T * (p * k))) * frobSq W := by
  rw [mtdRes_eq_masked_sub]
  refine (frobSq_add_le _ _).trans ?_
  rw [frobSq_neg]
  have hW := frobSq_nonneg W
  have h1 : frobSq (mtdTail lags W) ≤ frobSq W := by
    unfold frobSq mtdTail
    refine Finset.sum_le_sum fun t _ => Finset.sum_le_sum fun j _ => ?_
    rw [Matrix.of_apply]
    split_ifs
    · exact le_rfl
    · rw [zero_pow two_ne_zero]; exact sq_nonneg _
  have h2 := frobSq_mtdPred_le lags W w A
  have h3 : vsq w * (msq A * frobSq W) ≤ 1 * (p * k * frobSq W) :=
    mul_le_mul (vsq_le_one hw) (mul_le_mul_of_nonneg_right (msq_le hA) hW)
      (mul_nonneg (msq_nonneg A) hW) zero_le_one
  have h4 := mul_le_mul_of_nonneg_left h3 (Nat.cast_nonneg T : (0 : K) ≤ T)
  linarith

/-! ### Continuity of the objective -/

theorem frobSq_le_of_near {m n : ℕ} {A B : Matrix (Fin m) (Fin n) K} {a M : K} (ha : 0 ≤ a)
    (hM : 0 ≤ M) (hAB : frobSq (A - B) ≤ a ^ 2) (hA : frobSq A ≤ M ^ 2) (hB : frobSq B ≤ M ^ 2) :
    frobSq A ≤ frobSq B + a * (2 * M) := by
  have h1 : frobSq (A + B) ≤ (2 * M) ^ 2 := by
    have := frobSq_add_le A B
    nlinarith
  have h2 := (abs_le.1 (abs_inner_le ha (by positivity : 0 ≤ 2 * M) hAB h1)).2
  have e : inner (A - B) (A + B) = frobSq A - frobSq B := by
    rw [inner_sub_left, inner_add_right, inner_add_right, frobSq_eq_inner, frobSq_eq_inner,
      inner_comm B A]
    ring
  linarith

theorem mtdPenalty_le_of_near {eps : K} (he : 0 ≤ eps) (lags : Fin p → ℕ)
    {W W' : Matrix (Fin T) (Fin k) K} {w w' : Fin p → K}
    {A A' : Fin p → Matrix (Fin k) (Fin k) K} {a M : K} (ha : 0 ≤ a) (hM : 0 ≤ M)
    (h : frobSq (mtdRes lags W w A - mtdRes lags W' w' A') ≤ a ^ 2)
    (h1 : frobSq (mtdRes lags W w A) ≤ M ^ 2) (h2 : frobSq (mtdRes lags W' w' A') ≤ M ^ 2) :
    mtdPenalty eps lags W w A ≤ mtdPenalty eps lags W' w' A' +
      mtdCoef T k eps lags * (a * (2 * M)) := by
  have hc := mtdCoef_nonneg (T := T) (k := k) he lags
  have := mul_le_mul_of_nonneg_left (frobSq_le_of_near ha hM h h1 h2) hc
  rw [mtdPenalty_eq, mtdPenalty_eq]
  split_ifs
  · have := mul_nonneg hc (mul_nonneg ha (by positivity : 0 ≤ 2 * M))
    linarith
  · linarith

theorem mtdCost_cont_W (epsS : K) {epsW : K} (he : 0 ≤ epsW) (lags : Fin p → ℕ)
    (X : Matrix (Fin T) (Fin D) K) (k : ℕ) {R : K} (hR : 0 ≤ R) :
    ∃ Λ : K, 0 ≤ Λ ∧ ∀ (η : K) (W W' : Matrix (Fin T) (Fin k) K) (S : Matrix (Fin k) (Fin D) K)
      (w : Fin p → K) (A : Fin p → Matrix (Fin k) (Fin k) K), 0 ≤ η → RowStochastic W →
      RowStochastic W' → IsProb w → (∀ i, ColStochastic (A i)) → frobSq S ≤ R →
      frobSq (W - W') ≤ η ^ 2 →
      mtdCost epsS epsW lags X W S w A ≤ mtdCost epsS epsW lags X W' S w A + Λ * η := by
  have hX := frobSq_nonneg X
  obtain ⟨M1, hM1, hM1'⟩ := exists_sq_ge (K := K) (M := 2 * frobSq X + 2 * (T * R))
    (by positivity)
  obtain ⟨c1, hc1, hc1'⟩ := exists_sq_ge (K := K) (M := R) hR
  obtain ⟨M2, hM2, hM2'⟩ := exists_sq_ge (K := K) (M := (2 + 2 * (T * (p * k))) * T) (by positivity)
  obtain ⟨c2, hc2, hc2'⟩ := exists_sq_ge (K := K) (M := (2 + 2 * ((T : K) * (p * k))))
    (by positivity)
  have hco := mtdCoef_nonneg (T := T) (k := k) he lags
  refine ⟨c1 * (2 * M1) / ((D : K) * (T : K)) + mtdCoef T k epsW lags * (c2 * (2 * M2)),
    by positivity, fun η W W' S w A hη hW hW' hw hA hS hd => ?_⟩
  have hpen := mtdPenalty_le_of_near (k := k) he lags (W := W) (W' := W') (w := w) (w' := w)
    (A := A) (A' := A) (a := c2 * η) (M := M2) (by positivity) hM2 (by
      have e := mtdRes_add lags w A W' (W - W') 1
      rw [one_smul, one_smul, add_sub_cancel] at e
      rw [e, add_sub_cancel_left, mul_pow]
      exact (frobSq_mtdRes_le lags _ hw hA).trans
        (mul_le_mul hc2' hd (frobSq_nonneg _) (sq_nonneg _)))
    ((frobSq_mtdRes_le lags _ hw hA).trans (le_trans (mul_le_mul_of_nonneg_left
      (frobSq_rowStochastic hW) (by positivity)) hM2'))
    ((frobSq_mtdRes_le lags _ hw hA).trans (le_trans (mul_le_mul_of_nonneg_left
      (frobSq_rowStochastic hW') (by positivity)) hM2'))
  have hb : ∀ V : Matrix (Fin T) (Fin k) K, RowStochastic V → frobSq (X - V * S) ≤ M1 ^ 2 := by
    intro V hV
    have h3 := frobSq_add_le X (-(V * S))
    rw [frobSq_neg, ← sub_eq_add_neg] at h3
    have h4 : frobSq (V * S) ≤ T * R := frobSq_mul_le_of (frobSq_rowStochastic hV) hS
    linarith
  have hfit := frobSq_le_of_near (A := X - W * S) (B := X - W' * S) (a := c1 * η) (M := M1)
    (by positivity) hM1 (by
      have e : X - W * S - (X - W' * S) = -((W - W') * S) := by rw [Matrix.sub_mul]; abel
      rw [e, frobSq_neg, mul_pow, mul_comm (c1 ^ 2)]
      exact frobSq_mul_le_of hd (hS.trans hc1')) (hb W hW) (hb W' hW')
  have hfit' := div_le_div_of_nonneg_right hfit (by positivity : (0 : K) ≤ (D : K) * (T : K))
  unfold mtdCost
  rw [gpnhCost_eq, gpnhCost_eq]
  rw [add_div] at hfit'
  have e1 : c1 * η * (2 * M1) / ((D : K) * (T : K)) =
    c1 * (2 * M1) / ((D : K) * (T : K)) * η := by ring
  rw [e1] at hfit'
  have e2 : mtdCoef T k epsW lags * (c2 * η * (2 * M2)) =
    mtdCoef T k epsW lags * (c2 * (2 * M2)) * η := by ring
  rw [e2] at hpen
  rw [add_mul]
  linarith

theorem mtdCost_cont_params (epsS : K) {epsW : K} (he : 0 ≤ epsW) (lags : Fin p → ℕ)
    (X : Matrix (Fin T) (Fin D) K) (k : ℕ) :
    ∃ Λ : K, 0 ≤ Λ ∧ ∀ (η : K) (W : Matrix (Fin T) (Fin k) K) (S : Matrix (Fin k) (Fin D) K)
      (w w' : Fin p → K) (A A' : Fin p → Matrix (Fin k) (Fin k) K), 0 ≤ η → RowStochastic W →
      IsProb w → IsProb w' → (∀ i, ColStochastic (A i)) → (∀ i, ColStochastic (A' i)) →
      vsq (w' - w) ≤ η ^ 2 → msq (A' - A) ≤ η ^ 2 →
      mtdCost epsS epsW lags X W S w A ≤ mtdCost epsS epsW lags X W S w' A' + Λ * η := by
  obtain ⟨M2, hM2, hM2'⟩ := exists_sq_ge (K := K) (M := (2 + 2 * (T * (p * k))) * T) (by positivity)
  obtain ⟨c2, hc2, hc2'⟩ := exists_sq_ge (K := K)
    (M := 2 * (T * (p * k * T)) + 2 * ((T : K) * T)) (by positivity)
  have hco := mtdCoef_nonneg (T := T) (k := k) he lags
  refine ⟨mtdCoef T k epsW lags * (c2 * (2 * M2)), by positivity,
    fun η W S w w' A A' hη hW hw hw' hA hA' hdw hdA => ?_⟩
  have hWT := frobSq_rowStochastic hW
  have hpen := mtdPenalty_le_of_near (k := k) he lags (W := W) (W' := W) (w := w) (w' := w')
    (A := A) (A' := A') (a := c2 * η) (M := M2) (by positivity) hM2 (by
      have e1 : mtdRes lags W w A - mtdRes lags W w' A' =
          mtdPred lags W (w' - w) A + mtdPred lags W w' (A' - A) := by
        ext t j
        simp only [mtdRes, mtdPred, Matrix.sub_apply, Matrix.add_apply]
        split_ifs
        · simp only [mtdStep, Pi.sub_apply, Matrix.sub_apply, sub_mul, mul_sub,
            Finset.sum_sub_distrib]
          ring
        · ring
      rw [e1]
      refine (frobSq_add_le _ _).trans ?_
      have h1 := frobSq_mtdPred_le lags W (w' - w) A
      have h2 := frobSq_mtdPred_le lags W w' (A' - A)
      have h3 : vsq (w' - w) * (msq A * frobSq W) ≤ η ^ 2 * (p * k * T) :=
        mul_le_mul hdw (mul_le_mul (msq_le hA) hWT (frobSq_nonneg _) (by positivity))
          (mul_nonneg (msq_nonneg A) (frobSq_nonneg W)) (sq_nonneg _)
      have h4 : vsq w' * (msq (A' - A) * frobSq W) ≤ 1 * (η ^ 2 * T) :=
        mul_le_mul (vsq_le_one hw') (mul_le_mul hdA hWT (frobSq_nonneg _) (sq_nonneg _))
          (mul_nonneg (msq_nonneg _) (frobSq_nonneg W)) zero_le_one
      have h5 := mul_le_mul_of_nonneg_left h3 (Nat.cast_nonneg T : (0 : K) ≤ T)
      have h6 := mul_le_mul_of_nonneg_left h4 (Nat.cast_nonneg T : (0 : K) ≤ T)
      have h7 := mul_le_mul_of_nonneg_right hc2' (sq_nonneg η)
      rw [mul_pow]
      linarith)
    ((frobSq_mtdRes_le lags _ hw hA).trans (le_trans (mul_le_mul_of_nonneg_left
      hWT (by positivity)) hM2'))
    ((frobSq_mtdRes_le lags _ hw' hA').trans (le_trans (mul_le_mul_of_nonneg_left
      hWT (by positivity)) hM2'))
  unfold mtdCost
  have e2 : mtdCoef T k epsW lags * (c2 * η * (2 * M2)) =
    mtdCoef T k epsW lags * (c2 * (2 * M2)) * η := by ring
  rw [e2] at hpen
  linarith

end Reor
