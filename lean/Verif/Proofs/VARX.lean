import Verif.Model.VARX
import Verif.Spec
import Mathlib.Tactic.Linarith

/-!
Layout of the regressors of `FEMBVVARXLocalLinearModel`, and its fits.
-/

set_option linter.unusedSectionVars false

namespace Reor

open scoped BigOperators
open Spec

/-! ### Writing lagged blocks -/

section Write

variable {K : Type} {n w N : ℕ} {L : ℕ} {x : Matrix (Fin n) (Fin w) K}

theorem writeLags_col (is : List ℕ) (r : Matrix (Fin (n - L)) (Fin N) K × ℕ) :
    (writeLags L x is r).2 = r.2 + is.length * w := by
  induction is generalizing r with
  | nil => simp [writeLags]
  | cons i is ih =>
    rw [writeLags, ih, List.length_cons]
    change r.2 + w + _ = _
    ring

theorem writeLags_outside (is : List ℕ) (r : Matrix (Fin (n - L)) (Fin N) K × ℕ)
    (t : Fin (n - L)) (j : Fin N) (hj : (j : ℕ) < r.2 ∨ r.2 + is.length * w ≤ j) :
    (writeLags L x is r).1 t j = r.1 t j := by
  induction is generalizing r with
  | nil => rfl
  | cons i is ih =>
    have hl : (is.length + 1) * w = is.length * w + w := by ring
    rw [List.length_cons, hl] at hj
    rw [writeLags, ih]
    · have : ¬ (r.2 ≤ (j : ℕ) ∧ (j : ℕ) < r.2 + w) := by omega
      exact dif_neg this
    · change (j : ℕ) < r.2 + w ∨ r.2 + w + is.length * w ≤ j
      omega

theorem writeLags_inside (is : List ℕ) (r : Matrix (Fin (n - L)) (Fin N) K × ℕ)
    (t : Fin (n - L)) (j : Fin N) (i : ℕ) (hi : i < is.length) (b : Fin w)
    (hj : (j : ℕ) = r.2 + (i * w + b)) :
    (writeLags L x is r).1 t j = lagRows L x is[i] t b := by
  induction is generalizing r i with
  | nil => simp at hi
  | cons a is ih =>
    have hb := b.2
    cases i with
    | zero =>
      rw [writeLags, writeLags_outside]
      · have : r.2 ≤ (j : ℕ) ∧ (j : ℕ) < r.2 + w := by omega
        refine (dif_pos this).trans ?_
        change lagRows L x a t _ = lagRows L x a t b
        congr 1
        ext
        change (j : ℕ) - r.2 = b
        omega
      · left
        change (j : ℕ) < r.2 + w
        omega
    | succ i =>
      rw [writeLags]
      have hl : (i + 1) * w = i * w + w := by ring
      refine (ih _ i (by simpa using hi) ?_).trans rfl
      change (j : ℕ) = r.2 + w + (i * w + b)
      omega

theorem lagRange_length (p : ℕ) : (lagRange p).length = p := by simp [lagRange]

theorem lagRange_get (p i : ℕ) (h : i < (lagRange p).length) : (lagRange p)[i] = i + 1 := by
  simp [lagRange]

end Write

/-! ### Sums over the columns -/

theorem sum_range_block {K : Type} [AddCommMonoid K] (p D : ℕ) (g : ℕ → K) :
    ∑ j ∈ Finset.range (p * D), g j = ∑ i : Fin p, ∑ b : Fin D, g (i * D + b) := by
  induction p with
  | zero => simp
  | succ p ih =>
    rw [Nat.succ_mul, Finset.sum_range_add, ih, Fin.sum_univ_castSucc,
      Finset.sum_range fun b => g (p * D + b)]
    rfl

/-! ### The regressors -/

section Regressors

variable {D E : ℕ}

/-- A local model as its constructor makes it. -/
structure VARXModel.Made (mem : Memory) (m : VARXModel D E) : Prop where
  z : m.z = varxRegressors mem m.p m.s m.y m.u
  enough : max m.p m.s ≤ m.n

variable {mem : Memory} {n p s : ℕ} {y : Matrix (Fin n) (Fin D) ℝ} {u : Matrix (Fin n) (Fin E) ℝ}

theorem varxRegressors_eq : varxRegressors mem p s y u =
    setCols (writeLags (max p s) u (lagRange s) (writeLags (max p s) y (lagRange p)
        (firstColumnOnes (mem _ _), 1))).1
      (writeLags (N := 1 + p * D + E * (1 + s)) (max p s) u (lagRange s)
        (writeLags (max p s) y (lagRange p) (firstColumnOnes (mem _ _), 1))).2
      (lagRows (max p s) u 0) := rfl

theorem varxRegressors_zero (t : Fin (n - max p s)) (j : Fin (1 + p * D + E * (1 + s)))
    (hj : (j : ℕ) = 0) : varxRegressors mem p s y u t j = 1 := by
  rw [varxRegressors_eq]
  unfold setCols
  rw [dif_neg]
  · rw [writeLags_outside, writeLags_outside]
    · exact if_pos hj
    · left; change (j : ℕ) < 1; omega
    · left; rw [writeLags_col]; change (j : ℕ) < 1 + _; omega
  · rw [writeLags_col, writeLags_col]
    change ¬ (1 + _ + _ ≤ (j : ℕ) ∧ _)
    omega

theorem varxRegressors_endog (t : Fin (n - max p s)) (j : Fin (1 + p * D + E * (1 + s)))
    (i : Fin p) (b : Fin D) (hj : (j : ℕ) = 1 + (i * D + b)) :
    varxRegressors mem p s y u t j = lagRows (max p s) y (i + 1) t b := by
  have hlt := mul_add_lt i.2 b.2
  rw [varxRegressors_eq]
  unfold setCols
  rw [dif_neg]
  · rw [writeLags_outside, writeLags_inside (lagRange p) _ t j i (by rw [lagRange_length]; exact i.2)
      b hj, lagRange_get]
    left
    rw [writeLags_col, lagRange_length]
    change (j : ℕ) < 1 + _
    omega
  · rw [writeLags_col, writeLags_col, lagRange_length]
    change ¬ (1 + _ + _ ≤ (j : ℕ) ∧ _)
    omega

theorem varxRegressors_exog (t : Fin (n - max p s)) (j : Fin (1 + p * D + E * (1 + s)))
    (i : Fin s) (b : Fin E) (hj : (j : ℕ) = 1 + p * D + (i * E + b)) :
    varxRegressors mem p s y u t j = lagRows (max p s) u (i + 1) t b := by
  have hlt := mul_add_lt i.2 b.2
  rw [varxRegressors_eq]
  unfold setCols
  rw [dif_neg]
  · rw [writeLags_inside (lagRange s) _ t j i (by rw [lagRange_length]; exact i.2) b ?_,
      lagRange_get]
    rw [writeLags_col, lagRange_length]
    exact hj
  · rw [writeLags_col, writeLags_col, lagRange_length, lagRange_length]
    change ¬ (1 + _ + _ ≤ (j : ℕ) ∧ _)
    omega

theorem varxRegressors_current (t : Fin (n - max p s)) (j : Fin (1 + p * D + E * (1 + s)))
    (b : Fin E) (hj : (j : ℕ) = 1 + p * D + s * E + b) :
    varxRegressors mem p s y u t j = lagRows (max p s) u 0 t b := by
  have hb := b.2
  rw [varxRegressors_eq]
  unfold setCols
  have hc : (writeLags (N := 1 + p * D + E * (1 + s)) (max p s) u (lagRange s)
      (writeLags (max p s) y (lagRange p) (firstColumnOnes (mem _ _), 1))).2 =
      1 + p * D + s * E := by
    rw [writeLags_col, writeLags_col, lagRange_length, lagRange_length]
  rw [dif_pos (by rw [hc]; omega)]
  congr 1
  ext
  simp only [hc]
  omega

end Regressors

/-! ### Predictions -/

section Predictions

variable {D E : ℕ} {mem : Memory} {m : VARXModel D E}

theorem lagRows_rowSeq {n w : ℕ} {L i : ℕ} (hi : i ≤ L) (x : Matrix (Fin n) (Fin w) ℝ)
    (t : Fin (n - L)) (b : Fin w) : lagRows L x i t b = rowSeq x (t + L - i) b := by
  have ht := t.2
  unfold rowSeq lagRows
  have h : (t : ℕ) + L - i < n := by omega
  rw [dif_pos h]
  have : (t : ℕ) + (L - i) = t + L - i := by omega
  simp only [this]

/-- The product of the regressors with the parameters is the prediction from the coefficients read
off the parameters. -/
theorem z_mul_params (hm : m.Made mem) (params : Matrix (Fin m.nCols) (Fin D) ℝ)
    (t : Fin (m.n - m.presample)) (d : Fin D) :
    (m.z * params) t d = varxPrediction (m.readMu params) (m.readA params) (m.readB params)
      (m.readB0 params) (rowSeq m.y) (rowSeq m.u) (t + m.presample) d := by
  have hN : m.nCols = 1 + m.p * D + (m.s * E + E) := by
    unfold VARXModel.nCols
    ring
  let g : ℕ → ℝ := fun j => if h : j < m.nCols then m.z t ⟨j, h⟩ * params ⟨j, h⟩ d else 0
  have hg : ∀ j (h : j < m.nCols), g j = m.z t ⟨j, h⟩ * params ⟨j, h⟩ d := fun j h => dif_pos h
  have hsum : (m.z * params) t d = ∑ j ∈ Finset.range m.nCols, g j := by
    rw [Finset.sum_range, Matrix.mul_apply]
    exact Finset.sum_congr rfl fun j _ => (hg j j.2).symm
  have hDp : D * m.p = m.p * D := Nat.mul_comm _ _
  rw [hsum, hN, Finset.sum_range_add, Finset.sum_range_add, Finset.sum_range_add, sum_range_block,
    sum_range_block, Finset.sum_range_one, Finset.sum_range fun b => g (1 + m.p * D + (m.s * E + b)),
    ← add_assoc]
  unfold varxPrediction
  have hz := hm.z
  refine congrArg₂ _ (congrArg₂ _ (congrArg₂ _ ?_ ?_) ?_) ?_
  · rw [hg 0 (by rw [hN]; omega), hz, varxRegressors_zero _ _ rfl, one_mul]
    rfl
  · refine Finset.sum_congr rfl fun i _ => Finset.sum_congr rfl fun b _ => ?_
    have hlt := mul_add_lt i.2 b.2
    have hle : (i : ℕ) + 1 ≤ m.presample := le_trans i.2 (le_max_left _ _)
    rw [hg _ (by rw [hN]; omega), hz, varxRegressors_endog _ _ i b rfl, lagRows_rowSeq hle, mul_comm]
    rfl
  · refine Finset.sum_congr rfl fun i _ => Finset.sum_congr rfl fun b _ => ?_
    have hlt := mul_add_lt i.2 b.2
    have hle : (i : ℕ) + 1 ≤ m.presample := le_trans i.2 (le_max_right _ _)
    rw [hg _ (by rw [hN]; omega), hz, varxRegressors_exog _ _ i b rfl, lagRows_rowSeq hle, mul_comm]
    unfold VARXModel.readB
    simp only [hDp]
  · refine Finset.sum_congr rfl fun b _ => ?_
    have hb := b.2
    rw [hg _ (by rw [hN]; omega), hz, varxRegressors_current _ _ b (by simp only; omega),
      lagRows_rowSeq (Nat.zero_le _), mul_comm]
    unfold VARXModel.readB0
    simp only [hDp, Nat.sub_zero, ← add_assoc]

/-- Every choice of coefficients is read off some parameters. -/
theorem exists_params (m : VARXModel D E) (mu : Fin D → ℝ) (A : Fin m.p → Matrix (Fin D) (Fin D) ℝ)
    (B : Fin m.s → Matrix (Fin D) (Fin E) ℝ) (B0 : Matrix (Fin D) (Fin E) ℝ) :
    ∃ params : Matrix (Fin m.nCols) (Fin D) ℝ, m.readMu params = mu ∧ m.readA params = A ∧
      m.readB params = B ∧ m.readB0 params = B0 := by
  have key : ∀ {w q : ℕ} (i : ℕ) (b : ℕ), b < w → (i * w + b) / w = i ∧ (i * w + b) % w = b := by
    intro w q i b hb
    have hw : 0 < w := by omega
    rw [Nat.mul_comm, Nat.mul_add_div hw, Nat.mul_add_mod, Nat.div_eq_of_lt hb, Nat.mod_eq_of_lt hb]
    exact ⟨rfl, rfl⟩
  let g : ℕ → Fin D → ℝ := fun j a =>
    if j = 0 then mu a
    else if j < 1 + m.p * D then
      if h : (j - 1) / D < m.p ∧ (j - 1) % D < D then A ⟨(j - 1) / D, h.1⟩ a ⟨(j - 1) % D, h.2⟩ else 0
    else if j < 1 + m.p * D + m.s * E then
      if h : (j - (1 + m.p * D)) / E < m.s ∧ (j - (1 + m.p * D)) % E < E then
        B ⟨(j - (1 + m.p * D)) / E, h.1⟩ a ⟨(j - (1 + m.p * D)) % E, h.2⟩ else 0
    else if h : j - (1 + m.p * D + m.s * E) < E then B0 a ⟨j - (1 + m.p * D + m.s * E), h⟩ else 0
  have hDp : D * m.p = m.p * D := Nat.mul_comm _ _
  refine ⟨fun j a => g j a, ?_, ?_, ?_, ?_⟩
  · rfl
  · funext i
    ext a b
    have hlt := mul_add_lt i.2 b.2
    obtain ⟨h1, h2⟩ := key (q := 0) (i : ℕ) b b.2
    change g (1 + (i * D + b)) a = _
    simp only [g]
    rw [if_neg (by omega), if_pos (by omega)]
    have h0 : 1 + ((i : ℕ) * D + b) - 1 = i * D + b := by omega
    simp only [h0, h1, h2, Fin.is_lt, and_self, dite_true, Fin.eta]
  · funext i
    ext a b
    have hlt := mul_add_lt i.2 b.2
    obtain ⟨h1, h2⟩ := key (q := 0) (i : ℕ) b b.2
    change g (1 + D * m.p + (i * E + b)) a = _
    rw [hDp]
    simp only [g]
    rw [if_neg (by omega), if_neg (by omega), if_pos (by omega)]
    have h0 : 1 + m.p * D + ((i : ℕ) * E + b) - (1 + m.p * D) = i * E + b := by omega
    simp only [h0, h1, h2, Fin.is_lt, and_self, dite_true, Fin.eta]
  · ext a b
    have hb := b.2
    change g (1 + D * m.p + m.s * E + b) a = _
    rw [hDp]
    simp only [g]
    rw [if_neg (by omega), if_neg (by omega), if_neg (by omega)]
    have h0 : 1 + m.p * D + m.s * E + (b : ℕ) - (1 + m.p * D + m.s * E) = b := by omega
    simp only [h0, Fin.is_lt, dite_true, Fin.eta]

/-- The residuals are the prediction errors of the coefficients read off the parameters. -/
theorem residuals_eq (hm : m.Made mem) (params : Matrix (Fin m.nCols) (Fin D) ℝ) (t : Fin m.n)
    (ht : m.presample ≤ t) (d : Fin D) :
    m.residuals params t d = m.y t d - varxPrediction (m.readMu params) (m.readA params)
      (m.readB params) (m.readB0 params) (rowSeq m.y) (rowSeq m.u) t d := by
  unfold VARXModel.residuals
  rw [dif_pos ht]
  simp only
  rw [z_mul_params hm]
  have h1 : (t : ℕ) - m.presample + m.presample = t := by omega
  simp only [h1]
  congr 1
  unfold VARXModel.target lagRows
  simp only [Nat.sub_zero, h1]

end Predictions

end Reor
