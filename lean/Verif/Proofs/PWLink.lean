import Verif.Proofs.PWVARX
import Verif.Proofs.VARXMean

/-!
A component of a piecewise VARX fit and a local model of FEM-BV-VARX with the indicator of the component
as weights.
-/

namespace Reor

set_option linter.unusedSectionVars false

open scoped BigOperators Matrix
open Spec

variable {lstsq : LstSq} {mem : Memory} {n D p : ℕ}

/-- The local model without external factors. -/
def plainModel (mem : Memory) (p : ℕ) (X : Matrix (Fin n) (Fin D) ℝ) : VARXModel D 0 :=
  ⟨n, p, 0, X, fun _ e => e.elim0, varxRegressors mem p 0 X fun _ e => e.elim0⟩

theorem varxModel_plain (hn : 0 < n) (hD : 0 < D) (hp : p ≤ n) (X : Matrix (Fin n) (Fin D) ℝ)
    (sa : NumArg ℝ) : varxModel mem X (.int p) none sa = Py.ok (plainModel mem p X) := by
  unfold varxModel varxExternal varxAlloc
  have h : varxOrder (.int (p : ℤ)) = Py.ok p := by
    change (if (p : ℤ) < 0 then Py.raise .valueError else Py.ok (p : ℤ).toNat) = _
    rw [if_neg (by omega), Int.toNat_natCast]
  rw [h, Py.ok_bind, checkArray_of,
    if_neg (by omega), Py.ok_bind, if_neg (by omega)]
  rfl

/-- The two design matrices are the same. -/
theorem pwDesign_plain (X : Matrix (Fin n) (Fin D) ℝ)
    {x : Matrix (Fin (n - max p 0)) (Fin (p * D + 0 * 0)) ℝ}
    (hx : stackPredictors p 0 (Arr2.of X) none = Py.ok x) :
    pwDesign true x = (plainModel mem p X).z := by
  funext t j
  have hj : (j : ℕ) < 1 + (p * D + 0 * 0) := j.2
  by_cases h0 : (j : ℕ) = 0
  · rw [pwDesign_zero x t j h0]
    exact (varxRegressors_zero (mem := mem) (p := p) (s := 0) (y := X) (u := fun _ e => e.elim0) t
      (j : Fin (1 + p * D + 0 * (1 + 0))) h0).symm
  · have hD : 0 < D := by
      rcases Nat.eq_zero_or_pos D with rfl | h
      · simp at hj
        omega
      · exact h
    have hlt : (j : ℕ) - 1 < p * D := by omega
    have h1 := Nat.div_add_mod' ((j : ℕ) - 1) D
    have h2 : (j : ℕ) = 1 + (((j : ℕ) - 1) / D * D + ((j : ℕ) - 1) % D) := by omega
    have hi : ((j : ℕ) - 1) / D < p := Nat.div_lt_of_lt_mul (lt_of_lt_of_eq hlt (Nat.mul_comm p D))
    have hb := Nat.mod_lt ((j : ℕ) - 1) hD
    rw [pwDesign_shift true x t j ⟨(j : ℕ) - 1, by omega⟩
      (by change (j : ℕ) = 1 + ((j : ℕ) - 1); omega)]
    refine (stackPredictors_endog hx t _ ⟨_, hi⟩ ⟨_, hb⟩ h1.symm).trans ?_
    refine ((varxRegressors_endog (mem := mem) (p := p) (s := 0) (y := X)
      (u := fun _ e => e.elim0) t (j : Fin (1 + p * D + 0 * (1 + 0))) ⟨_, hi⟩ ⟨_, hb⟩ h2).trans ?_).symm
    exact lagRows_rowSeq (le_trans hi (le_max_left _ _)) X t _

/-- Taking rows and multiplying the others by 0 are the same for the squared error. -/
theorem lsError_rows {m c r : ℕ} (a : Matrix (Fin m) (Fin c) ℝ) (b : Matrix (Fin m) (Fin r) ℝ)
    {labels : Fin m → ℤ} {k : ℕ} {w : Fin m → ℝ} (hw : ∀ t, w t = if labels t = k then 1 else 0)
    (z : Matrix (Fin c) (Fin r) ℝ) :
    lsError (takeRows a (maskRows labels k)) (takeRows b (maskRows labels k)) z =
      lsError (scaleRows w a) (scaleRows w b) z := by
  unfold lsError frobSq
  have h := sum_maskRows (labels := labels) (k := k) fun t => ∑ j, (b t j - (a * z) t j) ^ 2
  refine h.trans (Finset.sum_congr rfl fun t _ => ?_)
  rw [scaleRows_sub_mul]
  unfold scaleRows
  rw [hw t]
  split_ifs
  · refine Finset.sum_congr rfl fun j _ => ?_
    rw [one_mul]
    rfl
  · exact (Finset.sum_eq_zero fun j _ => by rw [zero_mul]; norm_num).symm

theorem minNorm_rows {m c r : ℕ} {a : Matrix (Fin m) (Fin c) ℝ} {b : Matrix (Fin m) (Fin r) ℝ}
    {labels : Fin m → ℤ} {k : ℕ} {w : Fin m → ℝ} (hw : ∀ t, w t = if labels t = k then 1 else 0)
    {z : Matrix (Fin c) (Fin r) ℝ}
    (h : MinNormSol (takeRows a (maskRows labels k)) (takeRows b (maskRows labels k)) z) :
    MinNormSol (scaleRows w a) (scaleRows w b) z := by
  unfold MinNormSol at h ⊢
  simp only [lsError_rows a b hw] at h
  exact h

/-- The routine finds the same parameters. -/
theorem lstsq_rows (hl : lstsq.MinNorm) {m c r : ℕ} {a : Matrix (Fin m) (Fin c) ℝ}
    {b : Matrix (Fin m) (Fin r) ℝ}
    {labels : Fin m → ℤ} {k : ℕ} {w : Fin m → ℝ} (hw : ∀ t, w t = if labels t = k then 1 else 0)
    {z : Matrix (Fin c) (Fin r) ℝ}
    (h : lstsq _ _ _ (takeRows a (maskRows labels k)) (takeRows b (maskRows labels k)) = Py.ok z) :
    lstsq _ _ _ (scaleRows w a) (scaleRows w b) = Py.ok z := by
  obtain ⟨z1, h1, h2⟩ := hl _ _ _ (takeRows a (maskRows labels k)) (takeRows b (maskRows labels k))
  obtain ⟨z2, h3, h4⟩ := hl _ _ _ (scaleRows w a) (scaleRows w b)
  rw [h] at h1
  obtain rfl := Py.ok.inj h1
  rw [h3, minNorm_unique h4 (minNorm_rows hw h2)]

/-- The products of residuals. -/
theorem gram_rows {m r : ℕ} (a : Matrix (Fin m) (Fin r) ℝ) {labels : Fin m → ℤ} {k : ℕ} {w : Fin m → ℝ}
    (hw : ∀ t, w t = if labels t = k then 1 else 0) (i j : Fin r) :
    ((scaleRows w a)ᵀ * scaleRows w a) i j = ∑ t, if labels t = k then a t i * a t j else 0 := by
  rw [Matrix.mul_apply]
  refine Finset.sum_congr rfl fun t _ => ?_
  change w t * a t i * (w t * a t j) = _
  rw [hw t]
  split_ifs <;> ring

/-- Residuals of a local model past the presample. -/
theorem plain_tailResiduals (X : Matrix (Fin n) (Fin D) ℝ)
    (params : Matrix (Fin (plainModel mem p X).nCols) (Fin D) ℝ) (t : Fin (n - max p 0)) (d : Fin D) :
    (plainModel mem p X).tailResiduals params t d =
      lagRows (max p 0) X 0 t d - ((plainModel mem p X).z * params) t d := by
  have h := congrFun (congrFun (tailResiduals_eq (plainModel mem p X) params) t) d
  exact h

/-- A component of a piecewise fit as a weighted local model. -/
theorem plain_fitWeighted (hl : lstsq.MinNorm) {K : ℕ} (X : Matrix (Fin n) (Fin D) ℝ)
    {x : Matrix (Fin (n - max p 0)) (Fin (p * D + 0 * 0)) ℝ}
    (hx : stackPredictors p 0 (Arr2.of X) none = Py.ok x) {labels : Fin (n - max p 0) → ℤ}
    {st : PWState K (n - max p 0) D p 0 0} {k : Fin K}
    {params : Matrix (Fin (trendCols true + (p * D + 0 * 0))) (Fin D) ℝ}
    (hd : PWDone lstsq true (lagRows (max p 0) X 0) x labels st k 0 params)
    {w : Fin n → ℝ} (hw : ∀ t, (plainModel mem p X).tailWeights w t = if labels t = (k : ℕ) then 1 else 0) :
    (plainModel mem p X).fitWeighted lstsq w = (plainModel mem p X).finish params
      (covariance (scaleRows (fun t => if labels t = (k : ℕ) then 1 else 0)
        ((plainModel mem p X).tailResiduals params)) (∑ t, (if labels t = (k : ℕ) then 1 else 0) - 1)) := by
  have hsq : ∀ t, Real.sqrt ((plainModel mem p X).tailWeights w t) =
      if labels t = (k : ℕ) then 1 else 0 := by
    intro t
    rw [hw t]
    split_ifs
    · exact Real.sqrt_one
    · exact Real.sqrt_zero
  have hfit : lstsq _ _ _ (scaleRows (fun t => Real.sqrt ((plainModel mem p X).tailWeights w t))
      (plainModel mem p X).z) (scaleRows (fun t => Real.sqrt ((plainModel mem p X).tailWeights w t))
      (plainModel mem p X).target) = Py.ok params := by
    refine lstsq_rows hl hsq ?_
    have h := hd.fit
    rw [show pwDesign true (takeRows x (maskRows labels k)) =
      takeRows (pwDesign true x) (maskRows labels k) from funext fun r => pwDesign_takeRows _ _ _ _,
      pwDesign_plain (mem := mem) X hx] at h
    exact h
  unfold VARXModel.fitWeighted
  rw [if_neg]
  · refine (congrArg (fun y => Py.bind y _) hfit).trans ?_
    refine congrArg₂ (fun a b => (plainModel mem p X).finish params (covariance (scaleRows a _) (b - 1)))
      (funext hsq) (Finset.sum_congr rfl fun t _ => hw t)
  · rintro ⟨t, ht⟩
    rw [hw t] at ht
    split_ifs at ht <;> norm_num at ht

/-- A component with all samples as a local model without weights. -/
theorem plain_fitPlain (hl : lstsq.MinNorm) {K : ℕ} (X : Matrix (Fin n) (Fin D) ℝ)
    {x : Matrix (Fin (n - max p 0)) (Fin (p * D + 0 * 0)) ℝ}
    (hx : stackPredictors p 0 (Arr2.of X) none = Py.ok x) {labels : Fin (n - max p 0) → ℤ}
    {st : PWState K (n - max p 0) D p 0 0} {k : Fin K}
    {params : Matrix (Fin (trendCols true + (p * D + 0 * 0))) (Fin D) ℝ}
    (hd : PWDone lstsq true (lagRows (max p 0) X 0) x labels st k 0 params)
    (hall : ∀ t, labels t = (k : ℕ)) :
    (plainModel mem p X).fitPlain lstsq = (plainModel mem p X).finish params
      (covariance ((plainModel mem p X).tailResiduals params) ((n : ℝ) - p - p * D - 1)) := by
  have hfit : lstsq _ _ _ (plainModel mem p X).z (plainModel mem p X).target = Py.ok params := by
    have h := hd.fit
    rw [show pwDesign true (takeRows x (maskRows labels k)) =
      takeRows (pwDesign true x) (maskRows labels k) from funext fun r => pwDesign_takeRows _ _ _ _,
      pwDesign_plain (mem := mem) X hx] at h
    have h := lstsq_rows hl (w := fun _ => 1) (fun t => (if_pos (hall t)).symm) h
    exact (congrArg₂ (fun a b => lstsq _ _ _ a b) (scaleRows_one _) (scaleRows_one _)).symm.trans h
  unfold VARXModel.fitPlain
  refine (congrArg (fun y => Py.bind y _) hfit).trans ?_
  refine congrArg (fun a => (plainModel mem p X).finish params (covariance _ a)) ?_
  have e : ((plainModel mem p X).presample : ℝ) = p := by
    change ((max p 0 : ℕ) : ℝ) = p
    rw [Nat.max_zero]
  rw [e]
  change (n : ℝ) - p - p * D - 1 - ((0 : ℕ) : ℝ) * _ = _
  rw [Nat.cast_zero, zero_mul, sub_zero]

theorem covariance_congr {l l' : ℕ} {r : Matrix (Fin l) (Fin D) ℝ} {r' : Matrix (Fin l') (Fin D) ℝ}
    {df df' : ℝ} (hdf : df = df') (h : ∀ a b, (rᵀ * r) a b = (r'ᵀ * r') a b) :
    covariance r df = covariance r' df' := by
  unfold covariance
  rw [hdf]
  simp only [h]

/-- The residuals of the samples of the component are the same. -/
theorem plain_residuals {K : ℕ} (X : Matrix (Fin n) (Fin D) ℝ)
    {x : Matrix (Fin (n - max p 0)) (Fin (p * D + 0 * 0)) ℝ}
    (hx : stackPredictors p 0 (Arr2.of X) none = Py.ok x) {labels : Fin (n - max p 0) → ℤ}
    {st : PWState K (n - max p 0) D p 0 0} {k : Fin K}
    {params : Matrix (Fin (trendCols true + (p * D + 0 * 0))) (Fin D) ℝ}
    (hd : PWDone lstsq true (lagRows (max p 0) X 0) x labels st k 0 params) (t : Fin (n - max p 0))
    (ht : labels t = (k : ℕ)) (d : Fin D) :
    (plainModel mem p X).tailResiduals params t d = st.residuals t d := by
  refine (plain_tailResiduals _ _ _ _).trans ((hd.residuals t ht d).trans ?_).symm
  rw [pwDesign_plain (mem := mem) X hx]
  rfl

theorem covariance_some {l : ℕ} {r : Matrix (Fin l) (Fin D) ℝ} {df : ℝ} {S : Matrix (Fin D) (Fin D) ℝ}
    (h : covariance r df = some S) (a b : Fin D) : df * S a b = (rᵀ * r) a b := by
  unfold covariance at h
  split_ifs at h with h0
  rw [← Option.some.inj h, mul_div_cancel₀ _ h0]

theorem residuals_tail {E : ℕ} (m : VARXModel D E) (params : Matrix (Fin m.nCols) (Fin D) ℝ)
    (t : Fin (m.n - m.presample)) (d : Fin D) :
    rowSeq (m.residuals params) (t + m.presample) d = m.tailResiduals params t d :=
  (lagRows_rowSeq (Nat.zero_le _) _ t d).symm

/-- The coefficients read off the same parameters. -/
theorem plain_read (X : Matrix (Fin n) (Fin D) ℝ)
    (params : Matrix (Fin (trendCols true + (p * D + 0 * 0))) (Fin D) ℝ) :
    (plainModel mem p X).readMu params = (pwReadMu (p := p) (s := 0) (E := 0) params).getD 0 ∧
      (plainModel mem p X).readA params = pwReadA (p := p) (s := 0) (E := 0) params :=
  ⟨rfl, rfl⟩

end Reor
