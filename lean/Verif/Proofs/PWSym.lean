import Verif.Proofs.PWVARX
import Verif.Proofs.VARXSym

/-!
Two piecewise VARX fits side by side, to data that are rotated and translated.
-/

namespace Reor

set_option linter.unusedSectionVars false

open scoped BigOperators Matrix
open Spec

section Turn

variable {m D E p s : ℕ} {trend : Bool}

/-- The squared norm of the parameters is that of the coefficients. -/
theorem frobSq_pwParams (q : Matrix (Fin (trendCols trend + (p * D + s * E))) (Fin D) ℝ) :
    frobSq q = ∑ d, (pwReadMu q).getD 0 d ^ 2 + ∑ i, frobSq (pwReadA q i) +
      ∑ i, frobSq (pwReadB q i) := by
  let g : ℕ → ℝ := fun j => if h : j < trendCols trend + (p * D + s * E) then ∑ d, q ⟨j, h⟩ d ^ 2 else 0
  have hg : ∀ j (h : j < trendCols trend + (p * D + s * E)), g j = ∑ d, q ⟨j, h⟩ d ^ 2 :=
    fun j h => dif_pos h
  have hsum : frobSq q = ∑ j ∈ Finset.range (trendCols trend + (p * D + s * E)), g j := by
    rw [Finset.sum_range]
    exact Finset.sum_congr rfl fun j _ => (hg j j.2).symm
  have hDp : D * p = p * D := Nat.mul_comm _ _
  rw [hsum, Finset.sum_range_add, Finset.sum_range_add, sum_range_block, sum_range_block, ← add_assoc]
  refine congrArg₂ _ (congrArg₂ _ ?_ ?_) ?_
  · cases trend with
    | true =>
      rw [show trendCols true = 1 from rfl, Finset.sum_range_one, hg 0 (by change 0 < 1 + _; omega)]
      rfl
    | false =>
      rw [show trendCols false = 0 from rfl, Finset.sum_range_zero]
      symm
      refine Finset.sum_eq_zero fun d _ => ?_
      exact zero_pow two_ne_zero
  · refine Finset.sum_congr rfl fun i _ => ?_
    unfold frobSq
    rw [Finset.sum_comm]
    refine Finset.sum_congr rfl fun b _ => ?_
    have hlt := mul_add_lt i.2 b.2
    rw [hg _ (by omega)]
    rfl
  · refine Finset.sum_congr rfl fun i _ => ?_
    unfold frobSq
    rw [Finset.sum_comm]
    refine Finset.sum_congr rfl fun b _ => ?_
    have hlt := mul_add_lt i.2 b.2
    rw [hg _ (by omega)]
    unfold pwReadB
    simp only [hDp, ← add_assoc]

theorem takeRows_residual (x : Matrix (Fin m) (Fin (p * D + s * E)) ℝ) (y : Matrix (Fin m) (Fin D) ℝ)
    (rows : List (Fin m)) (q : Matrix (Fin (trendCols trend + (p * D + s * E))) (Fin D) ℝ) :
    takeRows y rows - pwDesign trend (takeRows x rows) * q =
      takeRows (y - pwDesign trend x * q) rows := by
  ext r d
  rw [Matrix.sub_apply, Matrix.mul_apply, pwDesign_takeRows]
  rfl

theorem takeRows_mul {w w' : ℕ} (a : Matrix (Fin m) (Fin w) ℝ) (Q : Matrix (Fin w) (Fin w') ℝ)
    (rows : List (Fin m)) : takeRows (a * Q) rows = takeRows a rows * Q := by
  ext r d
  rfl

/-- The data of a fit: the rows of the design matrix predict the samples at the times `τ`. -/
structure PWData (trend : Bool) (p s : ℕ) (x : Matrix (Fin m) (Fin (p * D + s * E)) ℝ)
    (Y : Matrix (Fin m) (Fin D) ℝ) (y : ℕ → Fin D → ℝ) (u : ℕ → Fin E → ℝ) (τ : Fin m → ℕ) : Prop where
  target : ∀ t, Y t = y (τ t)
  design : ∀ (q : Matrix (Fin (trendCols trend + (p * D + s * E))) (Fin D) ℝ) t d,
    (pwDesign trend x * q) t d =
      varxPrediction ((pwReadMu q).getD 0) (pwReadA q) (pwReadB q) 0 y u (τ t) d

variable {x x' : Matrix (Fin m) (Fin (p * D + s * E)) ℝ} {Y Y' : Matrix (Fin m) (Fin D) ℝ}
  {y y' : ℕ → Fin D → ℝ} {u u' : ℕ → Fin E → ℝ} {τ : Fin m → ℕ}
  {Q : Matrix (Fin D) (Fin D) ℝ} {b : Fin D → ℝ} {M : Matrix (Fin E) (Fin E) ℝ} {c : Fin E → ℝ}
  {q q' : Matrix (Fin (trendCols trend + (p * D + s * E))) (Fin D) ℝ}

/-- Coefficients of the original data for coefficients of the moved data. -/
structure PWCoeffs (Q : Matrix (Fin D) (Fin D) ℝ) (b : Fin D → ℝ) (M : Matrix (Fin E) (Fin E) ℝ)
    (c : Fin E → ℝ) (q q' : Matrix (Fin (trendCols trend + (p * D + s * E))) (Fin D) ℝ) : Prop where
  mu : (pwReadMu q).getD 0 = Q *ᵥ ((pwReadMu q').getD 0 - b + ∑ i, pwReadA q' i *ᵥ b +
    ∑ i, pwReadB q' i *ᵥ c)
  A : ∀ i, pwReadA q i = Q * pwReadA q' i * Qᵀ
  B : ∀ i, pwReadB q i = Q * pwReadB q' i * Mᵀ

theorem PWCoeffs.exists_left (hb : trend = false → b = 0 ∧ c = 0)
    (q' : Matrix (Fin (trendCols trend + (p * D + s * E))) (Fin D) ℝ) :
    ∃ q, PWCoeffs Q b M c q q' := by
  have hmu : trend = false → Q *ᵥ ((pwReadMu q').getD 0 - b + ∑ i, pwReadA q' i *ᵥ b +
      ∑ i, pwReadB q' i *ᵥ c) = 0 := by
    intro ht
    obtain ⟨rfl, rfl⟩ := hb ht
    have : (pwReadMu q').getD 0 = 0 := by
      unfold pwReadMu
      rw [dif_neg (by simp [ht])]
      rfl
    rw [this]
    simp only [Matrix.mulVec_zero, Finset.sum_const_zero, add_zero, sub_zero]
  obtain ⟨q, h1, h2, h3⟩ := exists_pwParams (trend := trend) _ hmu
    (fun i => Q * pwReadA q' i * Qᵀ) (fun i => Q * pwReadB q' i * Mᵀ)
  exact ⟨q, h1, congrFun h2, congrFun h3⟩

theorem PWCoeffs.residual (hQ : Qᵀ * Q = 1) (hd : PWData trend p s x Y y u τ)
    (hd' : PWData trend p s x' Y' y' u' τ) (hy : ∀ t, ∀ σ ≤ τ t, y' σ = Qᵀ *ᵥ y σ + b)
    (hu : ∀ t, ∀ σ ≤ τ t, u' σ = Mᵀ *ᵥ u σ + c) (h : PWCoeffs Q b M c q q') :
    Y' - pwDesign trend x' * q' = (Y - pwDesign trend x * q) * Q := by
  ext t d
  have e3 := varxPrediction_moved hQ b M c ((pwReadMu q').getD 0) (pwReadA q') (pwReadB q') 0
    (hy t) (hu t)
  have a1 : Q *ᵥ ((pwReadMu q').getD 0 - b + ∑ i, pwReadA q' i *ᵥ b + ∑ i, pwReadB q' i *ᵥ c +
      (0 : Matrix (Fin D) (Fin E) ℝ) *ᵥ c) = (pwReadMu q).getD 0 := by
    rw [h.mu, Matrix.zero_mulVec, add_zero]
  have a4 : Q * (0 : Matrix (Fin D) (Fin E) ℝ) * Mᵀ = 0 := by
    rw [Matrix.mul_zero, Matrix.zero_mul]
  rw [a1, a4, ← funext h.A, ← funext h.B] at e3
  rw [Matrix.sub_apply, hd'.design, hd'.target, hy t _ le_rfl, e3]
  simp only [Pi.add_apply, Matrix.mulVec, dotProduct, Matrix.transpose_apply, Matrix.mul_apply,
    add_sub_add_right_eq_sub, ← Finset.sum_sub_distrib]
  refine Finset.sum_congr rfl fun l _ => ?_
  rw [Matrix.sub_apply, hd.target, hd.design]
  ring

/-- The residuals of the samples of a component of the moved data are rotated. -/
theorem pw_residual_moved (hQ : Q * Qᵀ = 1) {N : Matrix (Fin E) (Fin E) ℝ} (hM : M * N = 1)
    (hb : trend = false → b = 0 ∧ c = 0) (hd : PWData trend p s x Y y u τ)
    (hd' : PWData trend p s x' Y' y' u' τ) (hy : ∀ t, ∀ σ ≤ τ t, y' σ = Qᵀ *ᵥ y σ + b)
    (hu : ∀ t, ∀ σ ≤ τ t, u' σ = Mᵀ *ᵥ u σ + c) (rows : List (Fin m))
    (hq : ∀ z, lsError (pwDesign trend (takeRows x rows)) (takeRows Y rows) q ≤
      lsError (pwDesign trend (takeRows x rows)) (takeRows Y rows) z)
    (hq' : ∀ z, lsError (pwDesign trend (takeRows x' rows)) (takeRows Y' rows) q' ≤
      lsError (pwDesign trend (takeRows x' rows)) (takeRows Y' rows) z) :
    takeRows (Y' - pwDesign trend x' * q') rows = takeRows (Y - pwDesign trend x * q) rows * Q := by
  have hQ' : Qᵀ * Q = 1 := mul_eq_one_comm.1 hQ
  have hN : N * M = 1 := mul_eq_one_comm.1 hM
  have key := least_corr hQ (a := pwDesign trend (takeRows x rows)) (b := takeRows Y rows)
    (a' := pwDesign trend (takeRows x' rows)) (b' := takeRows Y' rows) ?_ ?_ hq hq'
  · rwa [takeRows_residual, takeRows_residual] at key
  · intro z'
    obtain ⟨z, hz⟩ := PWCoeffs.exists_left (Q := Q) (M := M) hb z'
    refine ⟨z, ?_⟩
    rw [takeRows_residual, takeRows_residual, hz.residual hQ' hd hd' hy hu, takeRows_mul]
  · intro z
    obtain ⟨z', hz⟩ := PWCoeffs.exists_left (Q := Qᵀ) (M := N) (b := -(Q *ᵥ b)) (c := -(Nᵀ *ᵥ c))
      (fun ht => by
        obtain ⟨rfl, rfl⟩ := hb ht
        simp) z
    refine ⟨z', ?_⟩
    have := hz.residual (by rw [Matrix.transpose_transpose]; exact hQ) hd' hd
      (fun t σ hσ => by
        rw [hy t σ hσ, Matrix.transpose_transpose, Matrix.mulVec_add, Matrix.mulVec_mulVec, hQ,
          Matrix.one_mulVec]
        abel)
      (fun t σ hσ => by
        rw [hu t σ hσ, Matrix.mulVec_add, Matrix.mulVec_mulVec, ← Matrix.transpose_mul, hM,
          Matrix.transpose_one, Matrix.one_mulVec]
        abel)
    rw [takeRows_residual, takeRows_residual, this, takeRows_mul, Matrix.mul_assoc, hQ', Matrix.mul_one]

/-- The coefficients of least norm of the rotated data are rotated. -/
theorem pw_minNorm_turned (hQ : Q * Qᵀ = 1) (hM : M * Mᵀ = 1) (hd : PWData trend p s x Y y u τ)
    (hd' : PWData trend p s x' Y' y' u' τ) (hy : ∀ t, ∀ σ ≤ τ t, y' σ = Qᵀ *ᵥ y σ)
    (hu : ∀ t, ∀ σ ≤ τ t, u' σ = Mᵀ *ᵥ u σ) (rows : List (Fin m))
    (hq : MinNormSol (pwDesign trend (takeRows x rows)) (takeRows Y rows) q)
    (hq' : MinNormSol (pwDesign trend (takeRows x' rows)) (takeRows Y' rows) q') :
    (pwReadMu q').getD 0 = Qᵀ *ᵥ (pwReadMu q).getD 0 ∧
      (∀ i, pwReadA q' i = Qᵀ * pwReadA q i * Q) ∧ ∀ i, pwReadB q' i = Qᵀ * pwReadB q i * M := by
  have hQ' : Qᵀ * Q = 1 := mul_eq_one_comm.1 hQ
  have hM' : Mᵀ * M = 1 := mul_eq_one_comm.1 hM
  have herr : ∀ {z z' : Matrix (Fin (trendCols trend + (p * D + s * E))) (Fin D) ℝ},
      PWCoeffs Q 0 M 0 z z' →
      lsError (pwDesign trend (takeRows x' rows)) (takeRows Y' rows) z' =
      lsError (pwDesign trend (takeRows x rows)) (takeRows Y rows) z ∧ frobSq z' = frobSq z := by
    intro z z' hz
    constructor
    · unfold lsError
      rw [takeRows_residual, takeRows_residual, hz.residual hQ' hd hd'
        (fun t σ hσ => by rw [hy t σ hσ, add_zero]) (fun t σ hσ => by rw [hu t σ hσ, add_zero]),
        takeRows_mul, frobSq_mul_orthogonal hQ]
    · rw [frobSq_pwParams, frobSq_pwParams, hz.mu]
      have e := fun {w : ℕ} {P : Matrix (Fin w) (Fin w) ℝ} (hP : Pᵀ * P = 1) =>
        frobSq_turn (Q := Qᵀ) (by rw [Matrix.transpose_transpose]; exact hQ') (M := Pᵀ)
          (by rw [Matrix.transpose_transpose]; exact hP)
      have e1 := sum_sq_turn (Q := Qᵀ) (by rw [Matrix.transpose_transpose]; exact hQ')
      simp only [Matrix.transpose_transpose] at e e1
      refine congrArg₂ _ (congrArg₂ _ ?_ ?_) ?_
      · simp only [Matrix.mulVec_zero, Finset.sum_const_zero, add_zero, sub_zero]
        exact (e1 _).symm
      · exact Finset.sum_congr rfl fun i _ => by rw [hz.A]; exact (e hQ' _).symm
      · exact Finset.sum_congr rfl fun i _ => by rw [hz.B]; exact (e hM' _).symm
  obtain ⟨z', hz'⟩ : ∃ z', PWCoeffs Q 0 M 0 q z' := by
    obtain ⟨z', h⟩ := PWCoeffs.exists_left (Q := Qᵀ) (M := Mᵀ) (b := 0) (c := 0)
      (fun _ => ⟨rfl, rfl⟩) q
    refine ⟨z', ?_, fun i => ?_, fun i => ?_⟩
    · rw [h.mu]
      simp only [Matrix.mulVec_zero, Finset.sum_const_zero, add_zero, sub_zero]
      rw [Matrix.mulVec_mulVec, hQ, Matrix.one_mulVec]
    · rw [h.A, Matrix.transpose_transpose, ← Matrix.mul_assoc, ← Matrix.mul_assoc, hQ, Matrix.one_mul,
        Matrix.mul_assoc, hQ, Matrix.mul_one]
    · rw [h.B, Matrix.transpose_transpose, ← Matrix.mul_assoc, ← Matrix.mul_assoc, hQ, Matrix.one_mul,
        Matrix.mul_assoc, hM, Matrix.mul_one]
  have hmin : MinNormSol (pwDesign trend (takeRows x' rows)) (takeRows Y' rows) z' := by
    have hleast : ∀ w, lsError (pwDesign trend (takeRows x' rows)) (takeRows Y' rows) z' ≤
        lsError (pwDesign trend (takeRows x' rows)) (takeRows Y' rows) w := by
      intro w
      obtain ⟨v, hv⟩ := PWCoeffs.exists_left (Q := Q) (M := M) (b := 0) (c := 0)
        (fun _ => ⟨rfl, rfl⟩) w
      rw [(herr hz').1, (herr hv).1]
      exact hq.1 v
    refine ⟨hleast, fun w hw => ?_⟩
    obtain ⟨v, hv⟩ := PWCoeffs.exists_left (Q := Q) (M := M) (b := 0) (c := 0)
      (fun _ => ⟨rfl, rfl⟩) w
    rw [(herr hz').2, (herr hv).2]
    refine hq.2 v fun k => ?_
    rw [← (herr hv).1]
    refine (hw z').trans ?_
    rw [(herr hz').1]
    exact hq.1 k
  obtain rfl := minNorm_unique hq' hmin
  refine ⟨?_, fun i => ?_, fun i => ?_⟩
  · rw [hz'.mu]
    simp only [Matrix.mulVec_zero, Finset.sum_const_zero, add_zero, sub_zero]
    rw [Matrix.mulVec_mulVec, hQ', Matrix.one_mulVec]
  · rw [hz'.A, ← Matrix.mul_assoc, ← Matrix.mul_assoc, hQ', Matrix.one_mul, Matrix.mul_assoc, hQ',
      Matrix.mul_one]
  · rw [hz'.B, ← Matrix.mul_assoc, ← Matrix.mul_assoc, hQ', Matrix.one_mul, Matrix.mul_assoc, hM',
      Matrix.mul_one]

end Turn

end Reor
