import Verif.Proofs.FEMSym
import Verif.Proofs.FEMVARX

/-!
Two FEM-BV-VARX fits side by side, to data that are rotated and translated.
-/

namespace Reor

set_option linter.unusedSectionVars false

open scoped BigOperators Matrix
open Spec

/-! ### Least squares -/

section LeastSquares

variable {m n n' r : ℕ}

theorem frobSq_eq_zero' {A : Matrix (Fin m) (Fin r) ℝ} (h : frobSq A ≤ 0) : A = 0 := by
  have h0 : ∀ i, 0 ≤ ∑ j, A i j ^ 2 := fun i => Finset.sum_nonneg fun j _ => sq_nonneg _
  have h1 : ∑ i, ∑ j, A i j ^ 2 = 0 := le_antisymm h (Finset.sum_nonneg fun i _ => h0 i)
  ext i j
  have h2 := (Finset.sum_eq_zero_iff_of_nonneg fun i _ => h0 i).1 h1 i (Finset.mem_univ _)
  have h3 := (Finset.sum_eq_zero_iff_of_nonneg fun j _ => sq_nonneg _).1 h2 j (Finset.mem_univ _)
  exact pow_eq_zero_iff (two_ne_zero) |>.1 h3

/-- The fitted values of a least-squares problem are unique. -/
theorem least_unique {a : Matrix (Fin m) (Fin n) ℝ} {b : Matrix (Fin m) (Fin r) ℝ}
    {x y : Matrix (Fin n) (Fin r) ℝ} (hx : ∀ z, lsError a b x ≤ lsError a b z)
    (hy : ∀ z, lsError a b y ≤ lsError a b z) : a * x = a * y := by
  have hmid := hx ((1 / 2 : ℝ) • (x + y))
  have hxy := hy x
  have key : lsError a b ((1 / 2 : ℝ) • (x + y)) =
      1 / 2 * lsError a b x + 1 / 2 * lsError a b y - 1 / 4 * frobSq (a * x - a * y) := by
    unfold lsError frobSq
    rw [Matrix.mul_smul, Matrix.mul_add, Finset.mul_sum, Finset.mul_sum, Finset.mul_sum,
      ← Finset.sum_add_distrib, ← Finset.sum_sub_distrib]
    refine Finset.sum_congr rfl fun i _ => ?_
    rw [Finset.mul_sum, Finset.mul_sum, Finset.mul_sum, ← Finset.sum_add_distrib,
      ← Finset.sum_sub_distrib]
    refine Finset.sum_congr rfl fun j _ => ?_
    simp only [Matrix.sub_apply, Matrix.smul_apply, Matrix.add_apply, smul_eq_mul]
    ring
  have : frobSq (a * x - a * y) ≤ 0 := by
    rw [key] at hmid
    linarith
  exact sub_eq_zero.1 (frobSq_eq_zero' this)

theorem frobSq_mul_orthogonal {Q : Matrix (Fin r) (Fin r) ℝ} (hQ : Q * Qᵀ = 1)
    (A : Matrix (Fin m) (Fin r) ℝ) : frobSq (A * Q) = frobSq A := by
  unfold frobSq
  refine Finset.sum_congr rfl fun i _ => ?_
  exact sum_sq_mul_orthogonal hQ (fun l => A i l)

/-- Least-squares problems whose possible residuals are each other's rotations have residuals that are
each other's rotations. -/
theorem least_corr {a : Matrix (Fin m) (Fin n) ℝ} {b : Matrix (Fin m) (Fin r) ℝ}
    {a' : Matrix (Fin m) (Fin n') ℝ} {b' : Matrix (Fin m) (Fin r) ℝ} {Q : Matrix (Fin r) (Fin r) ℝ}
    (hQ : Q * Qᵀ = 1) (h1 : ∀ x', ∃ x, b' - a' * x' = (b - a * x) * Q)
    (h2 : ∀ x, ∃ x', b' - a' * x' = (b - a * x) * Q) {x : Matrix (Fin n) (Fin r) ℝ}
    {x' : Matrix (Fin n') (Fin r) ℝ} (hx : ∀ z, lsError a b x ≤ lsError a b z)
    (hx' : ∀ z, lsError a' b' x' ≤ lsError a' b' z) : b' - a' * x' = (b - a * x) * Q := by
  obtain ⟨y, hy⟩ := h1 x'
  have hmin : ∀ z, lsError a b y ≤ lsError a b z := by
    intro z
    obtain ⟨z', hz'⟩ := h2 z
    have := hx' z'
    unfold lsError at this ⊢
    rw [hy, hz', frobSq_mul_orthogonal hQ, frobSq_mul_orthogonal hQ] at this
    exact this
  rw [hy, least_unique hmin hx]

end LeastSquares

/-! ### Predictions -/

section Prediction

variable {p s D E : ℕ}

theorem varxPrediction_vec (mu : Fin D → ℝ) (A : Fin p → Matrix (Fin D) (Fin D) ℝ)
    (B : Fin s → Matrix (Fin D) (Fin E) ℝ) (B0 : Matrix (Fin D) (Fin E) ℝ) (y : ℕ → Fin D → ℝ)
    (u : ℕ → Fin E → ℝ) (t : ℕ) : varxPrediction mu A B B0 y u t =
      mu + ∑ i : Fin p, A i *ᵥ y (t - (i + 1)) + ∑ i : Fin s, B i *ᵥ u (t - (i + 1)) + B0 *ᵥ u t := by
  funext d
  simp only [varxPrediction, Pi.add_apply, Finset.sum_apply, Matrix.mulVec, dotProduct]

/-- The coefficients of the original data which correspond to coefficients of the moved data. -/
theorem varxPrediction_moved {Q : Matrix (Fin D) (Fin D) ℝ} (hQ : Qᵀ * Q = 1) (b : Fin D → ℝ)
    (M : Matrix (Fin E) (Fin E) ℝ) (c : Fin E → ℝ) (mu' : Fin D → ℝ)
    (A' : Fin p → Matrix (Fin D) (Fin D) ℝ) (B' : Fin s → Matrix (Fin D) (Fin E) ℝ)
    (B0' : Matrix (Fin D) (Fin E) ℝ) {y y' : ℕ → Fin D → ℝ} {u u' : ℕ → Fin E → ℝ} {t : ℕ}
    (hy : ∀ τ ≤ t, y' τ = Qᵀ *ᵥ y τ + b) (hu : ∀ τ ≤ t, u' τ = Mᵀ *ᵥ u τ + c) :
    varxPrediction mu' A' B' B0' y' u' t =
      Qᵀ *ᵥ varxPrediction (Q *ᵥ (mu' - b + ∑ i, A' i *ᵥ b + ∑ i, B' i *ᵥ c + B0' *ᵥ c))
        (fun i => Q * A' i * Qᵀ) (fun i => Q * B' i * Mᵀ) (Q * B0' * Mᵀ) y u t + b := by
  have key : ∀ (w : ℕ) (C : Matrix (Fin D) (Fin w) ℝ), Qᵀ * (Q * C) = C := fun w C => by
    rw [← Matrix.mul_assoc, hQ, Matrix.one_mul]
  have hsum : ∀ (w : ℕ) (v : Fin w → Fin D → ℝ), Qᵀ *ᵥ (∑ i, v i) = ∑ i, Qᵀ *ᵥ v i := by
    intro w v
    have := map_sum (Matrix.mulVecLin Qᵀ) v Finset.univ
    simpa only [Matrix.mulVecLin_apply] using this
  rw [varxPrediction_vec, varxPrediction_vec]
  have h1 : ∀ i : Fin p, A' i *ᵥ y' (t - (i + 1)) = (A' i * Qᵀ) *ᵥ y (t - (i + 1)) + A' i *ᵥ b := by
    intro i
    rw [hy _ (Nat.sub_le _ _), Matrix.mulVec_add, Matrix.mulVec_mulVec]
  have h2 : ∀ i : Fin s, B' i *ᵥ u' (t - (i + 1)) = (B' i * Mᵀ) *ᵥ u (t - (i + 1)) + B' i *ᵥ c := by
    intro i
    rw [hu _ (Nat.sub_le _ _), Matrix.mulVec_add, Matrix.mulVec_mulVec]
  have h3 : B0' *ᵥ u' t = (B0' * Mᵀ) *ᵥ u t + B0' *ᵥ c := by
    rw [hu t le_rfl, Matrix.mulVec_add, Matrix.mulVec_mulVec]
  simp only [h1, h2, h3, Finset.sum_add_distrib, Matrix.mulVec_add, hsum, Matrix.mulVec_mulVec,
    Matrix.mul_assoc, key, hQ, Matrix.one_mulVec]
  abel

end Prediction

/-! ### Local models -/

section Models

variable {D E : ℕ}

theorem rowsMoved_seq {n w : ℕ} {Q : Matrix (Fin w) (Fin w) ℝ} {b : Fin w → ℝ}
    {X Y : Matrix (Fin n) (Fin w) ℝ} (h : RowsMoved Q b X Y) {t : ℕ} (ht : t < n) :
    rowSeq Y t = Qᵀ *ᵥ rowSeq X t + b := by
  funext d
  unfold rowSeq
  rw [dif_pos ht, dif_pos ht, h]
  simp only [Matrix.mul_apply, Matrix.mulVec, dotProduct, Matrix.transpose_apply, Pi.add_apply]
  congr 1
  exact Finset.sum_congr rfl fun l _ => mul_comm _ _

theorem rowsMoved_inv {n w : ℕ} {Q N : Matrix (Fin w) (Fin w) ℝ} (hQ : Q * N = 1) {b : Fin w → ℝ}
    {X Y : Matrix (Fin n) (Fin w) ℝ} (h : RowsMoved Q b X Y) :
    RowsMoved N (fun d => -∑ l, b l * N l d) Y X := by
  intro t d
  have e : Y = X * Q + Matrix.of fun _ d => b d := by
    ext t d
    exact h t d
  rw [e, Matrix.add_mul, Matrix.mul_assoc, hQ, Matrix.mul_one, Matrix.add_apply]
  simp only [Matrix.mul_apply, Matrix.of_apply]
  ring

/-- Local models of data of which one is the other, moved. -/
inductive VARXModel.Moved (mem mem' : Memory) (Q : Matrix (Fin D) (Fin D) ℝ) (b : Fin D → ℝ)
    (M : Matrix (Fin E) (Fin E) ℝ) (c : Fin E → ℝ) : VARXModel D E → VARXModel D E → Prop
  | mk {n p s : ℕ} (hn : max p s ≤ n) {y y' : Matrix (Fin n) (Fin D) ℝ} {u u' : Matrix (Fin n) (Fin E) ℝ}
      (hy : RowsMoved Q b y y') (hu : RowsMoved M c u u') :
      Moved mem mem' Q b M c ⟨n, p, s, y, u, varxRegressors mem p s y u⟩
        ⟨n, p, s, y', u', varxRegressors mem' p s y' u'⟩

variable {mem mem' : Memory} {Q : Matrix (Fin D) (Fin D) ℝ} {b : Fin D → ℝ}
  {M : Matrix (Fin E) (Fin E) ℝ} {c : Fin E → ℝ}

section Data

variable {n p s : ℕ} (hn : max p s ≤ n) {y y' : Matrix (Fin n) (Fin D) ℝ}
  {u u' : Matrix (Fin n) (Fin E) ℝ}

include hn in
theorem residual_corr (hQ : Qᵀ * Q = 1) (hy : RowsMoved Q b y y') (hu : RowsMoved M c u u')
    (x' : Matrix (Fin (1 + p * D + E * (1 + s))) (Fin D) ℝ) :
    ∃ x : Matrix (Fin (1 + p * D + E * (1 + s))) (Fin D) ℝ,
      lagRows (max p s) y' 0 - varxRegressors mem' p s y' u' * x' =
        (lagRows (max p s) y 0 - varxRegressors mem p s y u * x) * Q := by
  let m : VARXModel D E := ⟨n, p, s, y, u, varxRegressors mem p s y u⟩
  let m' : VARXModel D E := ⟨n, p, s, y', u', varxRegressors mem' p s y' u'⟩
  have hm : m.Made mem := ⟨rfl, hn⟩
  have hm' : m'.Made mem' := ⟨rfl, hn⟩
  obtain ⟨x, h1, h2, h3, h4⟩ := exists_params m
    (Q *ᵥ (m'.readMu x' - b + ∑ i, m'.readA x' i *ᵥ b + ∑ i, m'.readB x' i *ᵥ c +
      m'.readB0 x' *ᵥ c))
    (fun i => Q * m'.readA x' i * Qᵀ) (fun i => Q * m'.readB x' i * Mᵀ) (Q * m'.readB0 x' * Mᵀ)
  refine ⟨x, ?_⟩
  ext t d
  have ht : (t : ℕ) + max p s < n := by have := t.2; omega
  have e1 : (varxRegressors mem' p s y' u' * x') t d = _ := z_mul_params hm' x' t d
  have e2 : ∀ d, (varxRegressors mem p s y u * x) t d = _ := fun d => z_mul_params hm x t d
  rw [h1, h2, h3, h4] at e2
  have e3 := varxPrediction_moved hQ b M c (m'.readMu x') (m'.readA x') (m'.readB x') (m'.readB0 x')
    (y := rowSeq y) (y' := rowSeq y') (u := rowSeq u) (u' := rowSeq u') (t := t + max p s)
    (fun τ hτ => rowsMoved_seq hy (lt_of_le_of_lt hτ ht))
    (fun τ hτ => rowsMoved_seq hu (lt_of_le_of_lt hτ ht))
  rw [Matrix.sub_apply, e1, lagRows_rowSeq (Nat.zero_le _), Nat.sub_zero, rowsMoved_seq hy ht]
  have e4 := congrFun e3 d
  refine (congrArg (fun z => (Qᵀ *ᵥ rowSeq y (t + max p s) + b) d - z) e4).trans ?_
  simp only [Pi.add_apply, Matrix.mulVec, dotProduct, Matrix.transpose_apply, Matrix.mul_apply,
    add_sub_add_right_eq_sub, ← Finset.sum_sub_distrib]
  refine Finset.sum_congr rfl fun l _ => ?_
  rw [Matrix.sub_apply, lagRows_rowSeq (Nat.zero_le _), Nat.sub_zero, e2 l]
  change _ = (_ - varxPrediction _ _ _ _ (rowSeq y) (rowSeq u) (t + max p s) l) * _
  ring_nf
  rfl

include hn in
theorem residual_corr_back (hQ : Q * Qᵀ = 1) {N : Matrix (Fin E) (Fin E) ℝ} (hM : M * N = 1)
    (hy : RowsMoved Q b y y') (hu : RowsMoved M c u u')
    (x : Matrix (Fin (1 + p * D + E * (1 + s))) (Fin D) ℝ) :
    ∃ x' : Matrix (Fin (1 + p * D + E * (1 + s))) (Fin D) ℝ,
      lagRows (max p s) y' 0 - varxRegressors mem' p s y' u' * x' =
        (lagRows (max p s) y 0 - varxRegressors mem p s y u * x) * Q := by
  have hQ' : Qᵀ * Q = 1 := mul_eq_one_comm.1 hQ
  obtain ⟨x', h⟩ := residual_corr (mem := mem') (mem' := mem) (y := y') (y' := y) (u := u') (u' := u)
    hn (Q := Qᵀ) (by rw [Matrix.transpose_transpose]; exact hQ) (rowsMoved_inv hQ hy)
    (rowsMoved_inv hM hu) x
  refine ⟨x', ?_⟩
  rw [h, Matrix.mul_assoc, hQ', Matrix.mul_one]

end Data

/-- Residuals of which one are the other, rotated. -/
def VARXFitMoved (Q : Matrix (Fin D) (Fin D) ℝ) {m m' : VARXModel D E} (f : VARXFit m) (f' : VARXFit m') :
    Prop := m.n = m'.n ∧ ∀ t d, rowSeq f'.residuals t d = ∑ l, rowSeq f.residuals t l * Q l d

theorem sqResidual_seq {m : VARXModel D E} (f : VARXFit m) (t : ℕ) :
    sqResidual f t = ∑ d, rowSeq f.residuals t d ^ 2 := by
  unfold sqResidual rowSeq
  split_ifs with h
  · refine Finset.sum_congr rfl fun j _ => ?_
    rw [Finset.sum_eq_single j]
    · rw [Matrix.one_apply_eq]
      ring
    · intro l _ hl
      rw [Matrix.one_apply_ne (Ne.symm hl)]
      ring
    · intro h
      exact absurd (Finset.mem_univ _) h
  · simp

theorem VARXFitMoved.sqResidual (hQ : Q * Qᵀ = 1) {m m' : VARXModel D E} {f : VARXFit m} {f' : VARXFit m'}
    (h : VARXFitMoved Q f f') (t : ℕ) : sqResidual f t = sqResidual f' t := by
  rw [sqResidual_seq, sqResidual_seq, ← sum_sq_mul_orthogonal hQ]
  exact Finset.sum_congr rfl fun d _ => by rw [h.2]

theorem covariance_moved {l : ℕ} (r : Matrix (Fin l) (Fin D) ℝ) (df : ℝ) :
    covariance (r * Q) df = (covariance r df).map fun S => Qᵀ * S * Q := by
  have e : ∀ A : Matrix (Fin D) (Fin D) ℝ, (fun a b => A a b / df : Matrix (Fin D) (Fin D) ℝ) =
      df⁻¹ • A := by
    intro A
    ext a b
    rw [Matrix.smul_apply, smul_eq_mul, ← div_eq_inv_mul]
  have e' : ∀ {l : ℕ} (r : Matrix (Fin l) (Fin D) ℝ), covariance r df =
      if df = 0 then none else some (df⁻¹ • (rᵀ * r)) := by
    intro l r
    unfold covariance
    rw [e]
  rw [e', e']
  split_ifs with h
  · rfl
  · rw [Option.map_some, Matrix.transpose_mul, Matrix.mul_smul, Matrix.smul_mul]
    simp only [Matrix.mul_assoc]

theorem npInv_moved (hQ : Q * Qᵀ = 1) (S : Option (Matrix (Fin D) (Fin D) ℝ)) :
    PyRel (fun _ _ => True) (npInv S) (npInv (S.map fun S => Qᵀ * S * Q)) := by
  cases S with
  | none => exact PyRel.ok trivial
  | some S =>
    have hd : (Qᵀ * S * Q).det = S.det := by
      rw [Matrix.det_mul, Matrix.det_mul, mul_comm, ← mul_assoc, ← Matrix.det_mul, hQ,
        Matrix.det_one, one_mul]
    simp only [npInv, Option.map_some, hd]
    split_ifs
    · exact rfl
    · exact PyRel.ok trivial

/-- Results of the two fits, given that the residuals past the presample are rotated. -/
theorem finish_moved (hQ : Q * Qᵀ = 1) {n p s : ℕ} {y y' : Matrix (Fin n) (Fin D) ℝ}
    {u u' : Matrix (Fin n) (Fin E) ℝ}
    {z z' : Matrix (Fin (n - max p s)) (Fin (1 + p * D + E * (1 + s))) ℝ}
    {x x' : Matrix (Fin (1 + p * D + E * (1 + s))) (Fin D) ℝ}
    (h : lagRows (max p s) y' 0 - z' * x' = (lagRows (max p s) y 0 - z * x) * Q)
    (S : Option (Matrix (Fin D) (Fin D) ℝ)) :
    PyRel (fun (f : VARXFit ⟨n, p, s, y, u, z⟩) (f' : VARXFit ⟨n, p, s, y', u', z'⟩) =>
        VARXFitMoved Q f f' ∧ f.From x ∧ f'.From x')
      ((⟨n, p, s, y, u, z⟩ : VARXModel D E).finish x S)
      ((⟨n, p, s, y', u', z'⟩ : VARXModel D E).finish x' (S.map fun S => Qᵀ * S * Q)) := by
  unfold VARXModel.finish
  refine (npInv_moved hQ S).bind fun _ _ _ => PyRel.ok ⟨⟨rfl, fun t d => ?_⟩, ⟨rfl, rfl, rfl, rfl, rfl⟩,
    ⟨rfl, rfl, rfl, rfl, rfl⟩⟩
  unfold rowSeq
  simp only
  by_cases ht : t < n
  · rw [dif_pos ht, dif_pos ht]
    unfold VARXModel.residuals VARXModel.target
    simp only
    by_cases hp : max p s ≤ t
    · simp only [dif_pos hp]
      exact congrFun (congrFun h ⟨t - max p s, by omega⟩) d
    · simp only [dif_neg hp, zero_mul, Finset.sum_const_zero]
  · rw [dif_neg ht, dif_neg ht]
    simp

theorem tailResiduals_eq (m : VARXModel D E) (x : Matrix (Fin m.nCols) (Fin D) ℝ) :
    m.tailResiduals x = m.target - m.z * x := by
  ext t d
  unfold VARXModel.tailResiduals lagRows VARXModel.residuals
  rw [dif_pos (by simp only; omega)]
  have : (⟨(t : ℕ) + (m.presample - 0) - m.presample, by have := t.2; omega⟩ :
      Fin (m.n - m.presample)) = t := Fin.ext (by simp only; omega)
  simp only [this]
  rfl

/-- Fits without weights to moved data. -/
theorem fitPlain_moved (hQ : Q * Qᵀ = 1) {N : Matrix (Fin E) (Fin E) ℝ} (hM : M * N = 1)
    {lstsq : LstSq} (hl : lstsq.Exact) (htot : ∀ m n r a b, ∃ x, lstsq m n r a b = Py.ok x)
    {m m' : VARXModel D E} (h : m.Moved mem mem' Q b M c m') :
    PyRel (VARXFitMoved Q) (m.fitPlain lstsq) (m'.fitPlain lstsq) := by
  obtain ⟨hn, hy, hu⟩ := h
  rename_i n p s y y' u u'
  let m : VARXModel D E := ⟨n, p, s, y, u, varxRegressors mem p s y u⟩
  let m' : VARXModel D E := ⟨n, p, s, y', u', varxRegressors mem' p s y' u'⟩
  obtain ⟨x, hx⟩ := htot _ _ _ m.z m.target
  obtain ⟨x', hx'⟩ := htot _ _ _ m'.z m'.target
  have hcorr : m'.target - m'.z * x' = (m.target - m.z * x) * Q :=
    least_corr hQ (fun x' => residual_corr hn (mul_eq_one_comm.1 hQ) hy hu x')
      (fun x => residual_corr_back hn hQ hM hy hu x) (hl _ _ _ _ _ _ hx) (hl _ _ _ _ _ _ hx')
  change PyRel _ (m.fitPlain lstsq) (m'.fitPlain lstsq)
  unfold VARXModel.fitPlain
  rw [hx, hx', Py.ok_bind, Py.ok_bind, tailResiduals_eq, tailResiduals_eq, hcorr]
  simp only [covariance_moved]
  exact (finish_moved hQ hcorr _).mono fun _ _ h => h.1

end Models

/-! ### Least norm -/

section MinNorm

/-- `x` is, among the minimisers of the squared error, the one of least norm. -/
def MinNormSol {m n r : ℕ} (a : Matrix (Fin m) (Fin n) ℝ) (b : Matrix (Fin m) (Fin r) ℝ)
    (x : Matrix (Fin n) (Fin r) ℝ) : Prop :=
  (∀ z, lsError a b x ≤ lsError a b z) ∧
    ∀ y, (∀ z, lsError a b y ≤ lsError a b z) → frobSq x ≤ frobSq y

/-- A least-squares routine which always returns the minimiser of least norm. -/
def LstSq.MinNorm (lstsq : LstSq) : Prop :=
  ∀ m n r a b, ∃ x, lstsq m n r a b = Py.ok x ∧ MinNormSol a b x

theorem LstSq.MinNorm.exact {lstsq : LstSq} (h : lstsq.MinNorm) : lstsq.Exact := by
  intro m n r a b x hx
  obtain ⟨y, hy, hy'⟩ := h m n r a b
  rw [hx] at hy
  obtain rfl := Py.ok.inj hy
  exact hy'.1

theorem minNorm_unique {m n r : ℕ} {a : Matrix (Fin m) (Fin n) ℝ} {b : Matrix (Fin m) (Fin r) ℝ}
    {x y : Matrix (Fin n) (Fin r) ℝ} (hx : MinNormSol a b x) (hy : MinNormSol a b y) : x = y := by
  have hax := least_unique hx.1 hy.1
  have hmid : ∀ z, lsError a b ((1 / 2 : ℝ) • (x + y)) ≤ lsError a b z := by
    intro z
    have : a * ((1 / 2 : ℝ) • (x + y)) = a * x := by
      rw [Matrix.mul_smul, Matrix.mul_add, ← hax, ← two_smul ℝ, smul_smul]
      norm_num
    have h2 : lsError a b ((1 / 2 : ℝ) • (x + y)) = lsError a b x := by
      unfold lsError
      rw [this]
    rw [h2]
    exact hx.1 z
  have h1 := hx.2 _ hmid
  have h2 := hy.2 _ hx.1
  have h3 := hx.2 _ hy.1
  have key : frobSq ((1 / 2 : ℝ) • (x + y)) =
      1 / 2 * frobSq x + 1 / 2 * frobSq y - 1 / 4 * frobSq (x - y) := by
    unfold frobSq
    rw [Finset.mul_sum, Finset.mul_sum, Finset.mul_sum, ← Finset.sum_add_distrib,
      ← Finset.sum_sub_distrib]
    refine Finset.sum_congr rfl fun i _ => ?_
    rw [Finset.mul_sum, Finset.mul_sum, Finset.mul_sum, ← Finset.sum_add_distrib,
      ← Finset.sum_sub_distrib]
    refine Finset.sum_congr rfl fun j _ => ?_
    simp only [Matrix.sub_apply, Matrix.smul_apply, Matrix.add_apply, smul_eq_mul]
    ring
  have : frobSq (x - y) ≤ 0 := by
    rw [key] at h1
    linarith
  exact sub_eq_zero.1 (frobSq_eq_zero' this)

theorem exists_minNorm_column {m n : ℕ} (a : Matrix (Fin m) (Fin n) ℝ) (b : Fin m → ℝ) :
    ∃ x : Fin n → ℝ, (∀ x' : Fin n → ℝ,
        ∑ t, (b t - ∑ j, a t j * x j) ^ 2 ≤ ∑ t, (b t - ∑ j, a t j * x' j) ^ 2) ∧
      ∀ y : Fin n → ℝ, (∀ t, ∑ j, a t j * y j = ∑ j, a t j * x j) → ∑ j, x j ^ 2 ≤ ∑ j, y j ^ 2 := by
  obtain ⟨x0, hx0⟩ := exists_least_column a b
  let S : Set (EuclideanSpace ℝ (Fin n)) := {v | ∀ t, ∑ j, a t j * v j = ∑ j, a t j * x0 j}
  have hne : S.Nonempty := ⟨(WithLp.linearEquiv 2 ℝ (Fin n → ℝ)).symm x0, fun t => rfl⟩
  have hcl : IsClosed S := by
    have : S = ⋂ t, {v : EuclideanSpace ℝ (Fin n) | ∑ j, a t j * v j = ∑ j, a t j * x0 j} := by
      ext v
      simp [S]
    rw [this]
    refine isClosed_iInter fun t => isClosed_eq ?_ continuous_const
    fun_prop
  have hcv : Convex ℝ S := by
    intro v hv w hw α β _ _ hαβ t
    have hv := hv t
    have hw := hw t
    have : ∑ j, a t j * (α • v + β • w : EuclideanSpace ℝ (Fin n)) j =
        α * ∑ j, a t j * v j + β * ∑ j, a t j * w j := by
      rw [Finset.mul_sum, Finset.mul_sum, ← Finset.sum_add_distrib]
      refine Finset.sum_congr rfl fun j _ => ?_
      simp only [PiLp.add_apply, PiLp.smul_apply, smul_eq_mul]
      ring
    rw [this, hv, hw, ← add_mul, hαβ, one_mul]
  obtain ⟨v, hv, hmin⟩ := exists_norm_eq_iInf_of_complete_convex hne hcl.isComplete hcv 0
  refine ⟨fun j => v j, fun x' => ?_, fun y hy => ?_⟩
  · have : ∀ t, ∑ j, a t j * v j = ∑ j, a t j * x0 j := hv
    simp only [this]
    exact hx0 x'
  · let w : EuclideanSpace ℝ (Fin n) := (WithLp.linearEquiv 2 ℝ (Fin n → ℝ)).symm y
    have hw : w ∈ S := fun t => (hy t).trans (hv t)
    have hle : ‖(0 : EuclideanSpace ℝ (Fin n)) - v‖ ≤ ‖(0 : EuclideanSpace ℝ (Fin n)) - w‖ := by
      rw [hmin]
      exact ciInf_le ⟨0, by rintro _ ⟨y, rfl⟩; exact norm_nonneg _⟩ (⟨w, hw⟩ : S)
    have hsq := pow_le_pow_left₀ (norm_nonneg _) hle 2
    rw [zero_sub, zero_sub, norm_neg, norm_neg, EuclideanSpace.norm_sq_eq,
      EuclideanSpace.norm_sq_eq] at hsq
    simp only [Real.norm_eq_abs, sq_abs] at hsq
    exact hsq

/-- There is a least-squares routine that returns the minimiser of least norm. -/
theorem exists_minNorm_lstsq : ∃ lstsq : LstSq, lstsq.MinNorm := by
  have h : ∀ (m n r : ℕ) (a : Matrix (Fin m) (Fin n) ℝ) (b : Matrix (Fin m) (Fin r) ℝ),
      ∃ x, MinNormSol a b x := by
    intro m n r a b
    choose f hf using fun c => exists_minNorm_column a fun t => b t c
    have h1 : ∀ x', lsError a b (fun j c => f c j) ≤ lsError a b x' := by
      intro x'
      unfold lsError frobSq
      refine (le_of_eq Finset.sum_comm).trans (le_trans ?_ (le_of_eq Finset.sum_comm))
      exact Finset.sum_le_sum fun c _ => (hf c).1 fun j => x' j c
    refine ⟨fun j c => f c j, h1, fun y hy => ?_⟩
    have hay := least_unique hy h1
    unfold frobSq
    refine (le_of_eq Finset.sum_comm).trans (le_trans ?_ (le_of_eq Finset.sum_comm))
    exact Finset.sum_le_sum fun c _ => (hf c).2 (fun j => y j c) fun t =>
      congrFun (congrFun hay t) c
  choose f hf using h
  exact ⟨fun m n r a b => Py.ok (f m n r a b), fun m n r a b => ⟨_, rfl, hf m n r a b⟩⟩

end MinNorm

/-! ### Rotations -/

section Turn

variable {D E : ℕ}

/-- The squared norm of the parameters is that of the coefficients. -/
theorem frobSq_params (m : VARXModel D E) (x : Matrix (Fin m.nCols) (Fin D) ℝ) :
    frobSq x = ∑ d, m.readMu x d ^ 2 + ∑ i, frobSq (m.readA x i) + ∑ i, frobSq (m.readB x i) +
      frobSq (m.readB0 x) := by
  have hN : m.nCols = 1 + m.p * D + (m.s * E + E) := by
    unfold VARXModel.nCols
    ring
  let g : ℕ → ℝ := fun j => if h : j < m.nCols then ∑ d, x ⟨j, h⟩ d ^ 2 else 0
  have hg : ∀ j (h : j < m.nCols), g j = ∑ d, x ⟨j, h⟩ d ^ 2 := fun j h => dif_pos h
  have hsum : frobSq x = ∑ j ∈ Finset.range m.nCols, g j := by
    rw [Finset.sum_range]
    exact Finset.sum_congr rfl fun j _ => (hg j j.2).symm
  have hDp : D * m.p = m.p * D := Nat.mul_comm _ _
  rw [hsum, hN, Finset.sum_range_add, Finset.sum_range_add, Finset.sum_range_add, sum_range_block,
    sum_range_block, Finset.sum_range_one, Finset.sum_range fun b => g (1 + m.p * D + (m.s * E + b)),
    ← add_assoc]
  refine congrArg₂ _ (congrArg₂ _ (congrArg₂ _ ?_ ?_) ?_) ?_
  · rw [hg 0 (by rw [hN]; omega)]
    rfl
  · refine Finset.sum_congr rfl fun i _ => ?_
    unfold frobSq
    rw [Finset.sum_comm]
    refine Finset.sum_congr rfl fun b _ => ?_
    have hlt := mul_add_lt i.2 b.2
    rw [hg _ (by rw [hN]; omega)]
    rfl
  · refine Finset.sum_congr rfl fun i _ => ?_
    unfold frobSq
    rw [Finset.sum_comm]
    refine Finset.sum_congr rfl fun b _ => ?_
    have hlt := mul_add_lt i.2 b.2
    rw [hg _ (by rw [hN]; omega)]
    unfold VARXModel.readB
    simp only [hDp]
  · unfold frobSq
    rw [Finset.sum_comm]
    refine Finset.sum_congr rfl fun b _ => ?_
    have hb := b.2
    rw [hg _ (by rw [hN]; omega)]
    unfold VARXModel.readB0
    simp only [hDp, ← add_assoc]

theorem frobSq_transposed {m n : ℕ} (A : Matrix (Fin m) (Fin n) ℝ) : frobSq Aᵀ = frobSq A :=
  Finset.sum_comm

theorem frobSq_turn {m n : ℕ} {Q : Matrix (Fin m) (Fin m) ℝ} (hQ : Q * Qᵀ = 1)
    {M : Matrix (Fin n) (Fin n) ℝ} (hM : M * Mᵀ = 1) (A : Matrix (Fin m) (Fin n) ℝ) :
    frobSq (Qᵀ * A * M) = frobSq A := by
  rw [frobSq_mul_orthogonal hM, ← frobSq_transposed, Matrix.transpose_mul, Matrix.transpose_transpose,
    frobSq_mul_orthogonal hQ, frobSq_transposed]

theorem sum_sq_turn {m : ℕ} {Q : Matrix (Fin m) (Fin m) ℝ} (hQ : Q * Qᵀ = 1) (v : Fin m → ℝ) :
    ∑ d, (Qᵀ *ᵥ v) d ^ 2 = ∑ d, v d ^ 2 := by
  rw [← sum_sq_mul_orthogonal hQ v]
  refine Finset.sum_congr rfl fun d _ => ?_
  congr 1
  simp only [Matrix.mulVec, dotProduct, Matrix.transpose_apply]
  exact Finset.sum_congr rfl fun l _ => mul_comm _ _

/-- Parameters with rotated coefficients. -/
structure ParamsTurned (Q : Matrix (Fin D) (Fin D) ℝ) (M : Matrix (Fin E) (Fin E) ℝ) {n p s : ℕ}
    (y y' : Matrix (Fin n) (Fin D) ℝ) (u u' : Matrix (Fin n) (Fin E) ℝ)
    (z z' : Matrix (Fin (n - max p s)) (Fin (1 + p * D + E * (1 + s))) ℝ)
    (x x' : Matrix (Fin (1 + p * D + E * (1 + s))) (Fin D) ℝ) : Prop where
  mu : (⟨n, p, s, y', u', z'⟩ : VARXModel D E).readMu x' =
    Qᵀ *ᵥ (⟨n, p, s, y, u, z⟩ : VARXModel D E).readMu x
  A : ∀ i : Fin p, (⟨n, p, s, y', u', z'⟩ : VARXModel D E).readA x' i =
    Qᵀ * (⟨n, p, s, y, u, z⟩ : VARXModel D E).readA x i * Q
  B : ∀ i : Fin s, (⟨n, p, s, y', u', z'⟩ : VARXModel D E).readB x' i =
    Qᵀ * (⟨n, p, s, y, u, z⟩ : VARXModel D E).readB x i * M
  B0 : (⟨n, p, s, y', u', z'⟩ : VARXModel D E).readB0 x' =
    Qᵀ * (⟨n, p, s, y, u, z⟩ : VARXModel D E).readB0 x * M

section Params

variable {Q : Matrix (Fin D) (Fin D) ℝ} {M : Matrix (Fin E) (Fin E) ℝ} {n p s : ℕ}
  {y y' : Matrix (Fin n) (Fin D) ℝ} {u u' : Matrix (Fin n) (Fin E) ℝ}
  {z z' : Matrix (Fin (n - max p s)) (Fin (1 + p * D + E * (1 + s))) ℝ}
  {x x' : Matrix (Fin (1 + p * D + E * (1 + s))) (Fin D) ℝ} {mem mem' : Memory}

theorem ParamsTurned.exists_right (Q : Matrix (Fin D) (Fin D) ℝ) (M : Matrix (Fin E) (Fin E) ℝ)
    (x : Matrix (Fin (1 + p * D + E * (1 + s))) (Fin D) ℝ) :
    ∃ x', ParamsTurned Q M y y' u u' z z' x x' := by
  obtain ⟨x', h1, h2, h3, h4⟩ := exists_params (⟨n, p, s, y', u', z'⟩ : VARXModel D E)
    (Qᵀ *ᵥ (⟨n, p, s, y, u, z⟩ : VARXModel D E).readMu x)
    (fun i => Qᵀ * (⟨n, p, s, y, u, z⟩ : VARXModel D E).readA x i * Q)
    (fun i => Qᵀ * (⟨n, p, s, y, u, z⟩ : VARXModel D E).readB x i * M)
    (Qᵀ * (⟨n, p, s, y, u, z⟩ : VARXModel D E).readB0 x * M)
  exact ⟨x', h1, congrFun h2, congrFun h3, h4⟩

theorem ParamsTurned.exists_left (hQ : Q * Qᵀ = 1) (hM : M * Mᵀ = 1)
    (x' : Matrix (Fin (1 + p * D + E * (1 + s))) (Fin D) ℝ) :
    ∃ x, ParamsTurned Q M y y' u u' z z' x x' := by
  have hQ' : Qᵀ * Q = 1 := mul_eq_one_comm.1 hQ
  have hM' : Mᵀ * M = 1 := mul_eq_one_comm.1 hM
  obtain ⟨x, h1, h2, h3, h4⟩ := exists_params (⟨n, p, s, y, u, z⟩ : VARXModel D E)
    (Q *ᵥ (⟨n, p, s, y', u', z'⟩ : VARXModel D E).readMu x')
    (fun i => Q * (⟨n, p, s, y', u', z'⟩ : VARXModel D E).readA x' i * Qᵀ)
    (fun i => Q * (⟨n, p, s, y', u', z'⟩ : VARXModel D E).readB x' i * Mᵀ)
    (Q * (⟨n, p, s, y', u', z'⟩ : VARXModel D E).readB0 x' * Mᵀ)
  have key : ∀ {w : ℕ} (P : Matrix (Fin w) (Fin w) ℝ) (_ : Pᵀ * P = 1)
      (C : Matrix (Fin D) (Fin w) ℝ), Qᵀ * (Q * C * Pᵀ) * P = C := by
    intro w P hP C
    rw [Matrix.mul_assoc, Matrix.mul_assoc, hP, Matrix.mul_one, ← Matrix.mul_assoc, hQ',
      Matrix.one_mul]
  refine ⟨x, ⟨?_, fun i => ?_, fun i => ?_, ?_⟩⟩
  · rw [h1, Matrix.mulVec_mulVec, hQ', Matrix.one_mulVec]
  · rw [h2, key Q hQ']
  · rw [h3, key M hM']
  · rw [h4, key M hM']

theorem ParamsTurned.frobSq (h : ParamsTurned Q M y y' u u' z z' x x') (hQ : Q * Qᵀ = 1)
    (hM : M * Mᵀ = 1) : frobSq x' = frobSq x := by
  refine (frobSq_params (⟨n, p, s, y', u', z'⟩ : VARXModel D E) x').trans
    (Eq.trans ?_ (frobSq_params (⟨n, p, s, y, u, z⟩ : VARXModel D E) x).symm)
  rw [h.mu, h.B0, sum_sq_turn hQ, frobSq_turn hQ hM]
  refine congrArg₂ _ (congrArg₂ _ (congrArg₂ _ rfl ?_) ?_) rfl
  · exact Finset.sum_congr rfl fun i _ => by rw [h.A, frobSq_turn hQ hQ]
  · exact Finset.sum_congr rfl fun i _ => by rw [h.B, frobSq_turn hQ hM]

theorem ParamsTurned.residual (hn : max p s ≤ n) (hQ : Q * Qᵀ = 1) (hM : M * Mᵀ = 1)
    (hy : RowsMoved Q 0 y y') (hu : RowsMoved M 0 u u')
    (h : ParamsTurned Q M y y' u u' (varxRegressors mem p s y u) (varxRegressors mem' p s y' u') x x') :
    lagRows (max p s) y' 0 - varxRegressors mem' p s y' u' * x' =
      (lagRows (max p s) y 0 - varxRegressors mem p s y u * x) * Q := by
  let m : VARXModel D E := ⟨n, p, s, y, u, varxRegressors mem p s y u⟩
  let m' : VARXModel D E := ⟨n, p, s, y', u', varxRegressors mem' p s y' u'⟩
  have hm : m.Made mem := ⟨rfl, hn⟩
  have hm' : m'.Made mem' := ⟨rfl, hn⟩
  have hQ' : Qᵀ * Q = 1 := mul_eq_one_comm.1 hQ
  have key : ∀ {w : ℕ} (P : Matrix (Fin w) (Fin w) ℝ) (_ : P * Pᵀ = 1)
      (C : Matrix (Fin D) (Fin w) ℝ), Q * (Qᵀ * C * P) * Pᵀ = C := by
    intro w P hP C
    rw [Matrix.mul_assoc, Matrix.mul_assoc, hP, Matrix.mul_one, ← Matrix.mul_assoc, hQ,
      Matrix.one_mul]
  ext t d
  have ht : (t : ℕ) + max p s < n := by have := t.2; omega
  have e1 : (varxRegressors mem' p s y' u' * x') t d = _ := z_mul_params hm' x' t d
  have e2 : ∀ d, (varxRegressors mem p s y u * x) t d = _ := fun d => z_mul_params hm x t d
  have e3 := varxPrediction_moved hQ' 0 M 0 (m'.readMu x') (m'.readA x') (m'.readB x') (m'.readB0 x')
    (y := rowSeq y) (y' := rowSeq y') (u := rowSeq u) (u' := rowSeq u') (t := t + max p s)
    (fun τ hτ => rowsMoved_seq hy (lt_of_le_of_lt hτ ht))
    (fun τ hτ => rowsMoved_seq hu (lt_of_le_of_lt hτ ht))
  have a1 : Q *ᵥ (m'.readMu x' - 0 + ∑ i, m'.readA x' i *ᵥ (0 : Fin D → ℝ) +
      ∑ i, m'.readB x' i *ᵥ (0 : Fin E → ℝ) + m'.readB0 x' *ᵥ (0 : Fin E → ℝ)) = m.readMu x := by
    simp only [Matrix.mulVec_zero, Finset.sum_const_zero, add_zero, sub_zero]
    rw [h.mu, Matrix.mulVec_mulVec, hQ, Matrix.one_mulVec]
  have a2 : (fun i => Q * m'.readA x' i * Qᵀ) = m.readA x := funext fun i => by
    rw [h.A]; exact key Q hQ _
  have a3 : (fun i => Q * m'.readB x' i * Mᵀ) = m.readB x := funext fun i => by
    rw [h.B]; exact key M hM _
  have a4 : Q * m'.readB0 x' * Mᵀ = m.readB0 x := by rw [h.B0]; exact key M hM _
  rw [a1, a2, a3, a4] at e3
  rw [Matrix.sub_apply, e1, lagRows_rowSeq (Nat.zero_le _), Nat.sub_zero, rowsMoved_seq hy ht]
  have e4 := congrFun e3 d
  refine (congrArg (fun z => (Qᵀ *ᵥ rowSeq y (t + max p s) + 0) d - z) e4).trans ?_
  simp only [Pi.add_apply, Matrix.mulVec, dotProduct, Matrix.transpose_apply, Matrix.mul_apply,
    add_sub_add_right_eq_sub, ← Finset.sum_sub_distrib]
  refine Finset.sum_congr rfl fun l _ => ?_
  rw [Matrix.sub_apply, lagRows_rowSeq (Nat.zero_le _), Nat.sub_zero, e2 l]
  change _ = (_ - varxPrediction _ _ _ _ (rowSeq y) (rowSeq u) (t + max p s) l) * _
  ring_nf

theorem scaleRows_sub_mul {l c r : ℕ} (w : Fin l → ℝ) (a : Matrix (Fin l) (Fin c) ℝ)
    (b : Matrix (Fin l) (Fin r) ℝ) (x : Matrix (Fin c) (Fin r) ℝ) :
    scaleRows w b - scaleRows w a * x = scaleRows w (b - a * x) := by
  ext t d
  simp only [scaleRows, Matrix.sub_apply, Matrix.mul_apply, mul_sub, Finset.mul_sum, mul_assoc]

theorem scaleRows_mul_right {l r c : ℕ} (w : Fin l → ℝ) (a : Matrix (Fin l) (Fin r) ℝ)
    (Q : Matrix (Fin r) (Fin c) ℝ) : scaleRows w (a * Q) = scaleRows w a * Q := by
  ext t d
  simp only [scaleRows, Matrix.mul_apply, Finset.mul_sum, mul_assoc]

theorem scaleRows_one {l c : ℕ} (a : Matrix (Fin l) (Fin c) ℝ) : scaleRows (fun _ => 1) a = a := by
  ext t d
  simp [scaleRows]

/-- The minimisers of least norm have rotated coefficients. -/
theorem minNorm_turned (hn : max p s ≤ n) (hQ : Q * Qᵀ = 1) (hM : M * Mᵀ = 1)
    (hy : RowsMoved Q 0 y y') (hu : RowsMoved M 0 u u') (w : Fin (n - max p s) → ℝ)
    (hx : MinNormSol (scaleRows w (varxRegressors mem p s y u)) (scaleRows w (lagRows (max p s) y 0)) x)
    (hx' : MinNormSol (scaleRows w (varxRegressors mem' p s y' u'))
      (scaleRows w (lagRows (max p s) y' 0)) x') :
    ParamsTurned Q M y y' u u' (varxRegressors mem p s y u) (varxRegressors mem' p s y' u') x x' := by
  have herr : ∀ {v v' : Matrix (Fin (1 + p * D + E * (1 + s))) (Fin D) ℝ},
      ParamsTurned Q M y y' u u' (varxRegressors mem p s y u) (varxRegressors mem' p s y' u') v v' →
      lsError (scaleRows w (varxRegressors mem' p s y' u')) (scaleRows w (lagRows (max p s) y' 0)) v' =
      lsError (scaleRows w (varxRegressors mem p s y u)) (scaleRows w (lagRows (max p s) y 0)) v := by
    intro v v' hv
    unfold lsError
    rw [scaleRows_sub_mul, scaleRows_sub_mul, hv.residual hn hQ hM hy hu, scaleRows_mul_right,
      frobSq_mul_orthogonal hQ]
  obtain ⟨v, hv⟩ := ParamsTurned.exists_right (p := p) (s := s) (y := y) (y' := y') (u := u) (u' := u')
    (z := varxRegressors mem p s y u) (z' := varxRegressors mem' p s y' u') Q M x
  have hmin : MinNormSol (scaleRows w (varxRegressors mem' p s y' u'))
      (scaleRows w (lagRows (max p s) y' 0)) v := by
    refine ⟨fun q' => ?_, fun q' hq' => ?_⟩
    · obtain ⟨q, hq⟩ := ParamsTurned.exists_left (y := y) (y' := y') (u := u) (u' := u')
        (z := varxRegressors mem p s y u) (z' := varxRegressors mem' p s y' u') hQ hM q'
      rw [herr hv, herr hq]
      exact hx.1 q
    · obtain ⟨q, hq⟩ := ParamsTurned.exists_left (y := y) (y' := y') (u := u) (u' := u')
        (z := varxRegressors mem p s y u) (z' := varxRegressors mem' p s y' u') hQ hM q'
      rw [hv.frobSq hQ hM, hq.frobSq hQ hM]
      refine hx.2 q fun r => ?_
      obtain ⟨r', hr⟩ := ParamsTurned.exists_right (p := p) (s := s) (y := y) (y' := y') (u := u) (u' := u')
        (z := varxRegressors mem p s y u) (z' := varxRegressors mem' p s y' u') Q M r
      rw [← herr hq, ← herr hr]
      exact hq' r'
  rw [minNorm_unique hx' hmin]
  exact hv

end Params

/-- Results of fits of which one are the other, rotated. -/
structure VARXFitTurned (Q : Matrix (Fin D) (Fin D) ℝ) (M : Matrix (Fin E) (Fin E) ℝ)
    {m m' : VARXModel D E} (f : VARXFit m) (f' : VARXFit m') : Prop where
  moved : VARXFitMoved Q f f'
  mu : f'.mu = Qᵀ *ᵥ f.mu
  A : ∀ l (h : l < m.p) (h' : l < m'.p), f'.A ⟨l, h'⟩ = Qᵀ * f.A ⟨l, h⟩ * Q
  B0 : f'.B0 = Qᵀ * f.B0 * M

section Fits

variable {Q : Matrix (Fin D) (Fin D) ℝ} {M : Matrix (Fin E) (Fin E) ℝ} {mem mem' : Memory}
  {lstsq : LstSq}

theorem fitTurned_of {n p s : ℕ}
    {y y' : Matrix (Fin n) (Fin D) ℝ} {u u' : Matrix (Fin n) (Fin E) ℝ}
    {z z' : Matrix (Fin (n - max p s)) (Fin (1 + p * D + E * (1 + s))) ℝ}
    {x x' : Matrix (Fin (1 + p * D + E * (1 + s))) (Fin D) ℝ}
    (h : ParamsTurned Q M y y' u u' z z' x x') {f : VARXFit (⟨n, p, s, y, u, z⟩ : VARXModel D E)}
    {f' : VARXFit (⟨n, p, s, y', u', z'⟩ : VARXModel D E)} (hf : VARXFitMoved Q f f') (h1 : f.From x)
    (h2 : f'.From x') : VARXFitTurned Q M f f' :=
  ⟨hf, by rw [h2.mu, h1.mu, h.mu], fun l hl hl' => by rw [h2.A, h1.A]; exact h.A ⟨l, hl⟩,
    by rw [h2.B0, h1.B0, h.B0]⟩

/-- Fits to rotated data, with weights or without. -/
theorem fit_turned (hQ : Q * Qᵀ = 1) (hM : M * Mᵀ = 1) (hl : lstsq.MinNorm) {m m' : VARXModel D E}
    (h : m.Moved mem mem' Q 0 M 0 m') (w : Option (Σ l : ℕ, Fin l → ℝ)) :
    PyRel (VARXFitTurned Q M) (m.fit lstsq w) (m'.fit lstsq w) := by
  obtain ⟨hn, hy, hu⟩ := h
  rename_i n p s y y' u u'
  cases w with
  | none =>
    let m : VARXModel D E := ⟨n, p, s, y, u, varxRegressors mem p s y u⟩
    let m' : VARXModel D E := ⟨n, p, s, y', u', varxRegressors mem' p s y' u'⟩
    obtain ⟨x, hx, hxm⟩ := hl _ _ _ m.z m.target
    obtain ⟨x', hx', hxm'⟩ := hl _ _ _ m'.z m'.target
    have hturn := minNorm_turned (mem := mem) (mem' := mem') (x := x) (x' := x') hn hQ hM hy hu
      (fun _ => 1)
      (by rw [scaleRows_one, scaleRows_one]; exact hxm)
      (by rw [scaleRows_one, scaleRows_one]; exact hxm')
    have hcorr : m'.target - m'.z * x' = (m.target - m.z * x) * Q :=
      hturn.residual hn hQ hM hy hu
    change PyRel _ (m.fitPlain lstsq) (m'.fitPlain lstsq)
    unfold VARXModel.fitPlain
    rw [hx, hx', Py.ok_bind, Py.ok_bind, tailResiduals_eq, tailResiduals_eq, hcorr]
    simp only [covariance_moved]
    exact (finish_moved hQ hcorr _).mono fun _ _ h => fitTurned_of hturn h.1 h.2.1 h.2.2
  | some w =>
    unfold VARXModel.fit
    simp only
    by_cases hw : n = w.1
    · rw [dif_pos hw, dif_pos hw]
      let m : VARXModel D E := ⟨n, p, s, y, u, varxRegressors mem p s y u⟩
      let m' : VARXModel D E := ⟨n, p, s, y', u', varxRegressors mem' p s y' u'⟩
      let ω : Fin n → ℝ := fun t => w.2 (Fin.cast hw t)
      change PyRel _ (m.fitWeighted lstsq ω) (m'.fitWeighted lstsq ω)
      unfold VARXModel.fitWeighted
      by_cases hneg : ∃ t, m.tailWeights ω t < 0
      · have hneg' : ∃ t, m'.tailWeights ω t < 0 := hneg
        rw [if_pos hneg, if_pos hneg']
        exact rfl
      · have hneg' : ¬∃ t, m'.tailWeights ω t < 0 := hneg
        rw [if_neg hneg, if_neg hneg']
        let v : Fin (n - max p s) → ℝ := fun t => Real.sqrt (m.tailWeights ω t)
        obtain ⟨x, hx, hxm⟩ := hl _ _ _ (scaleRows v m.z) (scaleRows v m.target)
        obtain ⟨x', hx', hxm'⟩ := hl _ _ _ (scaleRows v m'.z) (scaleRows v m'.target)
        have hturn := minNorm_turned (mem := mem) (mem' := mem') hn hQ hM hy hu v hxm hxm'
        have hcorr : m'.target - m'.z * x' = (m.target - m.z * x) * Q :=
          hturn.residual hn hQ hM hy hu
        have e1 : lstsq _ _ _ (scaleRows (fun t => Real.sqrt (m.tailWeights ω t)) m.z)
          (scaleRows (fun t => Real.sqrt (m.tailWeights ω t)) m.target) = Py.ok x := hx
        have e2 : lstsq _ _ _ (scaleRows (fun t => Real.sqrt (m'.tailWeights ω t)) m'.z)
          (scaleRows (fun t => Real.sqrt (m'.tailWeights ω t)) m'.target) = Py.ok x' := hx'
        simp only [e1, e2, Py.ok_bind, tailResiduals_eq, hcorr, scaleRows_mul_right, covariance_moved]
        exact (finish_moved hQ hcorr _).mono fun _ _ h => fitTurned_of hturn h.1 h.2.1 h.2.2
    · rw [dif_neg hw, dif_neg hw]
      exact rfl

end Fits

end Turn

/-! ### Whole fits -/

section Runs

/-- What two families of local models must have in common; with `up`, also for weighted fits. -/
structure VARXCorr {D E E' : ℕ} (lstsq : LstSq) (up : Bool)
    (Rm : VARXModel D E → VARXModel D E' → Prop)
    (Rf : ∀ {m : VARXModel D E} {m' : VARXModel D E'}, VARXFit m → VARXFit m' → Prop)
    (Rmu : (Fin D → ℝ) → (Fin D → ℝ) → Prop)
    (RA : Matrix (Fin D) (Fin D) ℝ → Matrix (Fin D) (Fin D) ℝ → Prop)
    (RB : Matrix (Fin D) (Fin E) ℝ → Matrix (Fin D) (Fin E') ℝ → Prop) : Prop where
  n : ∀ {m m'}, Rm m m' → m.n = m'.n
  p : ∀ {m m'}, Rm m m' → m.p = m'.p
  plain : ∀ {m m'}, Rm m m' → PyRel (Rf (m := m) (m' := m')) (m.fit lstsq none) (m'.fit lstsq none)
  weighted : up = true → ∀ {m m'}, Rm m m' → ∀ w,
    PyRel (Rf (m := m) (m' := m')) (m.fit lstsq (some w)) (m'.fit lstsq (some w))
  dist : ∀ {m m'} {f : VARXFit m} {f' : VARXFit m'}, Rf f f' → ∀ t, sqResidual f t = sqResidual f' t
  mu : up = true → ∀ {m m'} {f : VARXFit m} {f' : VARXFit m'}, Rf f f' → Rmu f.mu f'.mu
  A : up = true → ∀ {m m'} {f : VARXFit m} {f' : VARXFit m'}, Rf f f' → ∀ l (h : l < m.p) (h' : l < m'.p),
    RA (f.A ⟨l, h⟩) (f'.A ⟨l, h'⟩)
  B0 : up = true → ∀ {m m'} {f : VARXFit m} {f' : VARXFit m'}, Rf f f' → RB f.B0 f'.B0
  zeroMu : Rmu 0 0
  zeroA : RA 0 0
  zeroB : RB 0 0

theorem pyPi_rel : ∀ {k : ℕ} {β β' : Fin k → Type} {P : ∀ i, β i → β' i → Prop}
    {f : (i : Fin k) → Py (β i)} {f' : (i : Fin k) → Py (β' i)} (_ : ∀ i, PyRel (P i) (f i) (f' i)),
    PyRel (fun a a' => ∀ i, P i (a i) (a' i)) (pyPi f) (pyPi f')
  | 0, _, _, _, _, _, _ => PyRel.ok fun i => i.elim0
  | k + 1, β, β', P, f, f', h => by
    unfold pyPi
    refine (h 0).bind fun a a' ha => ?_
    refine (pyPi_rel fun i => h i.succ).bind fun r r' hr => PyRel.ok fun i => ?_
    refine Fin.cases ?_ (fun i => ?_) i
    · exact ha
    · exact hr i

variable {D E E' : ℕ} {lstsq : LstSq} {up : Bool} {Rm : VARXModel D E → VARXModel D E' → Prop}
  {Rf : ∀ {m : VARXModel D E} {m' : VARXModel D E'}, VARXFit m → VARXFit m' → Prop}
  {Rmu : (Fin D → ℝ) → (Fin D → ℝ) → Prop}
  {RA : Matrix (Fin D) (Fin D) ℝ → Matrix (Fin D) (Fin D) ℝ → Prop}
  {RB : Matrix (Fin D) (Fin E) ℝ → Matrix (Fin D) (Fin E') ℝ → Prop}

/-- Parameters that correspond. -/
structure VARXParams.Corr
    (Rf : ∀ {m : VARXModel D E} {m' : VARXModel D E'}, VARXFit m → VARXFit m' → Prop)
    (Rmu : (Fin D → ℝ) → (Fin D → ℝ) → Prop)
    (RA : Matrix (Fin D) (Fin D) ℝ → Matrix (Fin D) (Fin D) ℝ → Prop)
    (RB : Matrix (Fin D) (Fin E) ℝ → Matrix (Fin D) (Fin E') ℝ → Prop)
    {k L : ℕ} {models : Fin k → VARXModel D E}
    {models' : Fin k → VARXModel D E'} (p : VARXParams models L) (p' : VARXParams models' L) : Prop where
  fits : ∀ i, Rf (p.fits i) (p'.fits i)
  mu : ∀ i, Rmu (p.mu i) (p'.mu i)
  A : ∀ i l, RA (p.A i l) (p'.A i l)
  B0 : ∀ i, RB (p.B0 i) (p'.B0 i)

/-- Components set up alike. -/
inductive VARXStart.Corr (Rm : VARXModel D E → VARXModel D E' → Prop)
    (Rf : ∀ {m : VARXModel D E} {m' : VARXModel D E'}, VARXFit m → VARXFit m' → Prop)
    (Rmu : (Fin D → ℝ) → (Fin D → ℝ) → Prop)
    (RA : Matrix (Fin D) (Fin D) ℝ → Matrix (Fin D) (Fin D) ℝ → Prop)
    (RB : Matrix (Fin D) (Fin E) ℝ → Matrix (Fin D) (Fin E') ℝ → Prop)
    {k : ℕ} : VARXStart k D E → VARXStart k D E' → Prop
  | mk {L : ℕ} {models : Fin k → VARXModel D E} {models' : Fin k → VARXModel D E'}
      (hm : ∀ i, Rm (models i) (models' i)) {p : VARXParams models L} {p' : VARXParams models' L}
      (hp : p.Corr Rf Rmu RA RB p') : Corr Rm Rf Rmu RA RB ⟨L, models, p⟩ ⟨L, models', p'⟩

section

variable {k L T : ℕ} {models : Fin k → VARXModel D E} {models' : Fin k → VARXModel D E'}

theorem VARXCorr.distance (hc : VARXCorr lstsq up Rm Rf Rmu RA RB)
    (hm : ∀ i, Rm (models i) (models' i)) {p : VARXParams models L} {p' : VARXParams models' L}
    (hp : p.Corr Rf Rmu RA RB p') : varxDistance T p = varxDistance T p' := by
  funext t i
  unfold varxDistance
  rw [hc.n (hm i), hc.dist (hp.fits i), hc.dist (hp.fits i)]

theorem VARXCorr.update (hc : VARXCorr lstsq true Rm Rf Rmu RA RB)
    (hm : ∀ i, Rm (models i) (models' i)) (G : Matrix (Fin T) (Fin k) ℝ) {p : VARXParams models L}
    {p' : VARXParams models' L} (hp : p.Corr Rf Rmu RA RB p') :
    PyRel (VARXParams.Corr Rf Rmu RA RB) (varxUpdate lstsq G p) (varxUpdate lstsq G p') := by
  unfold varxUpdate
  refine (pyPi_rel (P := fun i => Rf (m := models i) (m' := models' i)) fun i => ?_).bind
    fun f f' hf => PyRel.ok ⟨hf, fun i => hc.mu rfl (hf i), fun i l => ?_, fun i => hc.B0 rfl (hf i)⟩
  · rw [← hc.p (hm i)]
    exact hc.weighted rfl (hm i) _
  · simp only
    by_cases h : (l : ℕ) < (models i).p
    · have h' : (l : ℕ) < (models' i).p := by rw [← hc.p (hm i)]; exact h
      rw [dif_pos h, dif_pos h']
      exact hc.A rfl (hf i) l h h'
    · have h' : ¬(l : ℕ) < (models' i).p := by rw [← hc.p (hm i)]; exact h
      rw [dif_neg h, dif_neg h']
      exact hp.A i l

/-- Without updates of the parameters it does not matter how they would be made. -/
theorem femIterate_no_update {P : Type} {T k e : ℕ} (comp : FEMComp P T k ℝ)
    (upd : Matrix (Fin T) (Fin k) ℝ → P → Py P) (solver : LPSolver ℝ)
    (con : Option (FEMConstraints (k * T + e) ℝ)) (require : Bool) (tolerance : ℝ) (maxIter : ℕ)
    (uw : Bool) (s : FEMState P T k ℝ) :
    femIterate comp solver con require tolerance maxIter false uw s =
      femIterate ⟨comp.distance, upd⟩ solver con require tolerance maxIter false uw s := by
  have hstep : ∀ n s c, femStep comp solver con require tolerance false uw n s c =
      femStep ⟨comp.distance, upd⟩ solver con require tolerance false uw n s c := fun _ _ _ => rfl
  have hloop : ∀ (is : List ℕ) s c last tr f,
      femLoop comp solver con require tolerance false uw is s c last tr f =
        femLoop ⟨comp.distance, upd⟩ solver con require tolerance false uw is s c last tr f := by
    intro is
    induction is with
    | nil => intros; rfl
    | cons i is ih =>
      intro s c last tr f
      simp only [femLoop, hstep, ih]
  unfold femIterate
  exact hloop _ _ _ _ _ _

theorem VARXCorr.iterate (hc : VARXCorr lstsq up Rm Rf Rmu RA RB) {e : ℕ}
    (hm : ∀ i, Rm (models i) (models' i)) {p : VARXParams models L} {p' : VARXParams models' L}
    (hp : p.Corr Rf Rmu RA RB p') (G : Matrix (Fin T) (Fin k) ℝ) (solver : LPSolver ℝ)
    (con : Option (FEMConstraints (k * T + e) ℝ)) (require : Bool) (tolerance : ℝ) (maxIter : ℕ)
    (uw : Bool) :
    PyRel (FEMResult.Corr (VARXParams.Corr Rf Rmu RA RB))
      (femIterate (varxComp models L T lstsq) solver con require tolerance maxIter up uw
        ⟨G, p, varxDistance T p⟩)
      (femIterate (varxComp models' L T lstsq) solver con require tolerance maxIter up uw
        ⟨G, p', varxDistance T p'⟩) := by
  cases up with
  | true =>
    have hcorr : FEMCorr (VARXParams.Corr Rf Rmu RA RB) (varxComp models L T lstsq)
        (varxComp models' L T lstsq) :=
      ⟨fun h => hc.distance hm h, fun G h => hc.update hm G h⟩
    exact hcorr.iterate ⟨rfl, hp, hc.distance hm hp⟩ solver con require tolerance maxIter true uw
  | false =>
    rw [femIterate_no_update (varxComp models L T lstsq) fun _ p => Py.ok p,
      femIterate_no_update (varxComp models' L T lstsq) fun _ p => Py.ok p]
    have hcorr : FEMCorr (VARXParams.Corr Rf Rmu RA RB)
        (⟨(varxComp models L T lstsq).distance, fun _ p => Py.ok p⟩ :
          FEMComp (VARXParams models L) T k ℝ)
        (⟨(varxComp models' L T lstsq).distance, fun _ p => Py.ok p⟩ :
          FEMComp (VARXParams models' L) T k ℝ) :=
      ⟨fun h => hc.distance hm h, fun G h => PyRel.ok h⟩
    exact hcorr.iterate ⟨rfl, hp, hc.distance hm hp⟩ solver con require tolerance maxIter false uw

end

end Runs

section Fit

variable {n D : ℕ} {X Y : Matrix (Fin n) (Fin D) ℝ} {u u' : Option (Arr2 ℝ)} {mem mem' : Memory}
  {lstsq : LstSq} {up : Bool} {Rm : VARXModel D (exogCols u) → VARXModel D (exogCols u') → Prop}
  {Rf : ∀ {m : VARXModel D (exogCols u)} {m' : VARXModel D (exogCols u')}, VARXFit m → VARXFit m' → Prop}
  {Rmu : (Fin D → ℝ) → (Fin D → ℝ) → Prop}
  {RA : Matrix (Fin D) (Fin D) ℝ → Matrix (Fin D) (Fin D) ℝ → Prop}
  {RB : Matrix (Fin D) (Fin (exogCols u)) ℝ → Matrix (Fin D) (Fin (exogCols u')) ℝ → Prop}

theorem VARXCorr.init (hc : VARXCorr lstsq up Rm Rf Rmu RA RB)
    (hu : varxCheckExog n u = varxCheckExog n u')
    (hmod : ∀ c p, PyRel Rm (varxModel mem (dropRows X c) (.int p) u (.int 0))
      (varxModel mem' (dropRows Y c) (.int p) u' (.int 0))) {k : ℕ} (memory : Fin k → ℤ) (L : ℤ) :
    PyRel (VARXStart.Corr Rm Rf Rmu RA RB) (varxInit mem lstsq X memory L u)
      (varxInit mem' lstsq Y memory L u') := by
  unfold varxInit
  refine PyRel.bind_eqs hu fun _ => ?_
  refine (pyPi_rel (P := fun _ => Rm) fun i => hmod _ _).bind fun models models' hm => ?_
  refine (pyPi_rel (P := fun i => Rf (m := models i) (m' := models' i)) fun i =>
    hc.plain (hm i)).bind fun f f' hf => ?_
  have hsh : varxCheckShapes models L.toNat (n - L.toNat) =
      varxCheckShapes models' L.toNat (n - L.toNat) := by
    unfold varxCheckShapes
    simp only [fun i => hc.n (hm i)]
  exact PyRel.bind_eqs hsh fun _ => PyRel.ok
    (VARXStart.Corr.mk hm ⟨hf, fun _ => hc.zeroMu, fun _ _ => hc.zeroA, fun _ => hc.zeroB⟩)

/-- Two fits that correspond: what they report. -/
def VARXReports {R : Rng ℝ} (obj : FEMVARXObj R) (u u' : Option (Arr2 ℝ))
    (Rmu : (Fin D → ℝ) → (Fin D → ℝ) → Prop)
    (RA : Matrix (Fin D) (Fin D) ℝ → Matrix (Fin D) (Fin D) ℝ → Prop)
    (RB : Matrix (Fin D) (Fin (exogCols u)) ℝ → Matrix (Fin D) (Fin (exogCols u')) ℝ → Prop)
    (r r' : FEMVARXObj R × FEMInfo ℝ) : Prop :=
  ∃ (k L : ℕ) (mu mu' : Matrix (Fin k) (Fin D) ℝ) (A A' : Fin k → Fin L → Matrix (Fin D) (Fin D) ℝ)
    (B : Fin k → Matrix (Fin D) (Fin (exogCols u)) ℝ) (B' : Fin k → Matrix (Fin D) (Fin (exogCols u')) ℝ),
    (∀ i, Rmu (mu i) (mu' i)) ∧ (∀ i l, RA (A i l) (A' i l)) ∧ (∀ i, RB (B i) (B' i)) ∧
    r.1.mu = some (Arr2.of mu) ∧ r.1.A = (if L > 0 then some ⟨k, L, D, D, A⟩ else obj.A) ∧
    r.1.B0 = (if u.isSome then some (Arr3.of B) else obj.B0) ∧
    r' = ({ r.1 with
      mu := some (Arr2.of mu')
      A := if L > 0 then some ⟨k, L, D, D, A'⟩ else obj.A
      B0 := if u'.isSome then some (Arr3.of B') else obj.B0 }, r.2)

theorem VARXCorr.run {R : Rng ℝ} {solver : LPSolver ℝ} {args : FEMVARXArgs}
    (hargs : args.externalFactors = u) (hup : args.updateParameters = up)
    (hc : VARXCorr lstsq up Rm Rf Rmu RA RB) (hu : varxCheckExog n u = varxCheckExog n u')
    (hmod : ∀ c p, PyRel Rm (varxModel mem (dropRows X c) (.int p) u (.int 0))
      (varxModel mem' (dropRows Y c) (.int p) u' (.int 0))) (obj : FEMVARXObj R) :
    PyRel (VARXReports obj u u' Rmu RA RB) (femVARXRun R solver lstsq mem obj (Arr2.of X) args)
      (femVARXRun R solver lstsq mem' obj (Arr2.of Y) { args with externalFactors := u' }) := by
  subst hargs hup
  unfold femVARXRun
  simp only [Arr2.of]
  refine PyRel.bind_same fun p => ?_
  by_cases h : p.1 = obj.memory.length
  · rw [dif_pos h, dif_pos h]
    refine (hc.init hu hmod (fun i : Fin p.1 => obj.memory.get (Fin.cast h i))
      (maxMemory obj.memory)).bind fun start start' hst => ?_
    obtain ⟨hm, hp⟩ := hst
    rename_i L models models' P P'
    have hit : PyRel (fun r r' => FEMResult.Corr (VARXParams.Corr Rf Rmu RA RB) r.1 r'.1 ∧ r.2 = r'.2)
        (femVARXIterate R solver lstsq { obj with nComponents := defaultComponents obj.nComponents D } n
          p.1 p.2.1 p.2.2 args ⟨L, models, P⟩)
        (femVARXIterate R solver lstsq { obj with nComponents := defaultComponents obj.nComponents D } n
          p.1 p.2.1 p.2.2 { args with externalFactors := u' } ⟨L, models', P'⟩) := by
      unfold femVARXIterate
      refine PyRel.bind_same fun gamma => PyRel.bind_same fun tv => PyRel.bind_same fun con => ?_
      exact (hc.iterate hm hp gamma.1 solver con obj.require p.2.2 p.2.1 args.updateWeights).bind
        fun r r' hr => PyRel.ok ⟨hr, rfl⟩
    refine hit.bind fun r r' hr => ?_
    obtain ⟨⟨⟨h1, h2, -⟩, h3, h4, h5, h6⟩, h7⟩ := hr
    refine PyRel.ok ⟨p.1, L, r.1.state.params.mu, r'.1.state.params.mu, r.1.state.params.A,
      r'.1.state.params.A, r.1.state.params.B0, r'.1.state.params.B0, h2.mu, h2.A, h2.B0, rfl, rfl, rfl,
      ?_⟩
    simp only [h1, h3, h4, h5, h6, h7]
    rfl
  · rw [dif_neg h, dif_neg h]
    exact rfl

end Fit

/-! ### Moved data -/

section Data

variable {n D : ℕ} {X Y : Matrix (Fin n) (Fin D) ℝ} {Q : Matrix (Fin D) (Fin D) ℝ} {b : Fin D → ℝ}

theorem checkArray_of {m w : ℕ} (A : Matrix (Fin m) (Fin w) ℝ) : checkArray (some (Arr2.of A)) =
    if m = 0 ∨ w = 0 then Py.raise .valueError else Py.ok (Arr2.of A) := rfl

theorem checkArray_rel {m w : ℕ} (A A' : Matrix (Fin m) (Fin w) ℝ) :
    PyRel (fun _ _ => True) (checkArray (some (Arr2.of A))) (checkArray (some (Arr2.of A'))) := by
  rw [checkArray_of, checkArray_of]
  split_ifs
  · exact rfl
  · exact PyRel.ok trivial

theorem varxAlloc_moved (mem mem' : Memory) {E : ℕ} {M : Matrix (Fin E) (Fin E) ℝ} {c : Fin E → ℝ}
    {n p s : ℕ} {y y' : Matrix (Fin n) (Fin D) ℝ} {u u' : Matrix (Fin n) (Fin E) ℝ}
    (hy : RowsMoved Q b y y') (hu : RowsMoved M c u u') :
    PyRel (VARXModel.Moved mem mem' Q b M c) (varxAlloc mem p s y u) (varxAlloc mem' p s y' u') := by
  unfold varxAlloc
  by_cases h : n < max p s
  · rw [if_pos h, if_pos h]
    exact rfl
  · rw [if_neg h, if_neg h]
    exact PyRel.ok (VARXModel.Moved.mk (le_of_not_gt h) hy hu)

theorem varxModel_moved_none (mem mem' : Memory) (M : Matrix (Fin 0) (Fin 0) ℝ) (c : Fin 0 → ℝ)
    (hY : RowsMoved Q b X Y) (a : ℕ) (p s : NumArg ℝ) :
    PyRel (VARXModel.Moved (E := 0) mem mem' Q b M c) (varxModel mem (dropRows X a) p none s)
      (varxModel mem' (dropRows Y a) p none s) := by
  unfold varxModel
  refine PyRel.bind_same fun p => ?_
  refine (checkArray_rel _ _).bind fun _ _ _ => ?_
  exact varxAlloc_moved mem mem' (fun t d => hY _ d) fun t e => e.elim0

theorem varxModel_moved_some (mem mem' : Memory) {E m : ℕ} {M : Matrix (Fin E) (Fin E) ℝ} {c : Fin E → ℝ}
    (hY : RowsMoved Q b X Y) {U U' : Matrix (Fin m) (Fin E) ℝ} (hU : RowsMoved M c U U') (a : ℕ)
    (p s : NumArg ℝ) :
    PyRel (VARXModel.Moved (E := E) mem mem' Q b M c)
      (varxModel mem (dropRows X a) p (some (Arr2.of U)) s)
      (varxModel mem' (dropRows Y a) p (some (Arr2.of U')) s) := by
  unfold varxModel
  refine PyRel.bind_same fun p => ?_
  refine (checkArray_rel _ _).bind fun _ _ _ => ?_
  change PyRel _ (varxExog mem (dropRows X a) p (Arr2.of U) s)
    (varxExog mem' (dropRows Y a) p (Arr2.of U') s)
  unfold varxExog
  refine (checkArray_rel _ _).bind fun _ _ _ => ?_
  by_cases h : m = n - a
  · subst h
    rw [dif_pos (show (Arr2.of U).rows = n - a from rfl), dif_pos (show (Arr2.of U').rows = n - a from rfl)]
    refine PyRel.bind_same fun s => ?_
    exact varxAlloc_moved mem mem' (fun t d => hY _ d) hU
  · rw [dif_neg (show ¬(Arr2.of U).rows = n - a from h), dif_neg (show ¬(Arr2.of U').rows = n - a from h)]
    exact rfl

theorem varxCheckExog_some {E m : ℕ} (U U' : Matrix (Fin m) (Fin E) ℝ) :
    varxCheckExog n (some (Arr2.of U)) = varxCheckExog n (some (Arr2.of U')) := by
  unfold varxCheckExog
  simp only [checkArray_of]
  by_cases h : m = 0 ∨ E = 0
  · rw [if_pos h, if_pos h]
    rfl
  · rw [if_neg h, if_neg h]
    rfl

/-- Rotated data, least-squares solutions of least norm. -/
theorem turnedCorr {E : ℕ} {M : Matrix (Fin E) (Fin E) ℝ} {lstsq : LstSq} (up : Bool) (mem mem' : Memory)
    (hQ : Q * Qᵀ = 1) (hM : M * Mᵀ = 1) (hl : lstsq.MinNorm) :
    VARXCorr lstsq up (VARXModel.Moved (E := E) mem mem' Q 0 M 0) (VARXFitTurned Q M)
      (fun v v' => v' = Qᵀ *ᵥ v) (fun A A' => A' = Qᵀ * A * Q) (fun B B' => B' = Qᵀ * B * M) where
  n := fun h => by cases h; rfl
  p := fun h => by cases h; rfl
  plain := fun h => fit_turned hQ hM hl h none
  weighted := fun _ {_ _} h w => fit_turned hQ hM hl h (some w)
  dist := fun h t => h.moved.sqResidual hQ t
  mu := fun _ {_ _ _ _} h => h.mu
  A := fun _ {_ _ _ _} h => h.A
  B0 := fun _ {_ _ _ _} h => h.B0
  zeroMu := by simp
  zeroA := by simp
  zeroB := by simp

/-- Moved data, no updates of the parameters. -/
theorem movedCorr {E : ℕ} {M N : Matrix (Fin E) (Fin E) ℝ} {c : Fin E → ℝ} {lstsq : LstSq}
    (mem mem' : Memory) (hQ : Q * Qᵀ = 1) (hM : M * N = 1) (hl : lstsq.Exact)
    (htot : ∀ m n r a b, ∃ x, lstsq m n r a b = Py.ok x) :
    VARXCorr lstsq false (VARXModel.Moved (E := E) mem mem' Q b M c) (VARXFitMoved Q)
      (fun v v' => v' = v) (fun A A' => A' = A) (fun B B' => B' = B) where
  n := fun h => by cases h; rfl
  p := fun h => by cases h; rfl
  plain := fun h => fitPlain_moved hQ hM hl htot h
  weighted := fun h => absurd h (by simp)
  dist := fun h t => h.sqResidual hQ t
  mu := fun h => absurd h (by simp)
  A := fun h => absurd h (by simp)
  B0 := fun h => absurd h (by simp)
  zeroMu := rfl
  zeroA := rfl
  zeroB := rfl

end Data

end Reor
