import Verif.Proofs.PWLink

/-!
Normal equations of the local models of FEM-BV-VARX, and series which follow a relation exactly.
-/

set_option linter.unusedSectionVars false

namespace Reor

open scoped BigOperators Matrix
open Spec

namespace Spec

/-- A combination of the features that, at the times from `L` on with weight other than 0, is exactly an
affine function of `p` lags of the series and of `s` lags and the current value of the external
factors. -/
def ExactRelation {n D E : ℕ} (L p s : ℕ) (w : Fin n → ℝ) (y : ℕ → Fin D → ℝ) (u : ℕ → Fin E → ℝ) :
    Prop :=
  ∃ v : Fin D → ℝ, v ≠ 0 ∧ ∃ (c : ℝ) (a : Fin p → Fin D → ℝ) (b : Fin s → Fin E → ℝ) (b0 : Fin E → ℝ),
    ∀ t : Fin n, L ≤ t → w t ≠ 0 → ∑ d, v d * y t d =
      c + ∑ i : Fin p, ∑ e, a i e * y (t - (i + 1)) e + ∑ i : Fin s, ∑ e, b i e * u (t - (i + 1)) e +
        ∑ e, b0 e * u t e

end Spec

/-! ### Least squares -/

section LeastSquares

variable {l c r : ℕ} {a : Matrix (Fin l) (Fin c) ℝ} {b : Matrix (Fin l) (Fin r) ℝ}
  {x : Matrix (Fin c) (Fin r) ℝ}

/-- The errors of a minimiser are orthogonal to everything the regressors can produce. -/
theorem ls_orthogonal (h : ∀ x', lsError a b x ≤ lsError a b x') (x' : Matrix (Fin c) (Fin r) ℝ) :
    ∑ t, ∑ d, (b - a * x) t d * (a * x') t d = 0 := by
  have key : ∀ ε : ℝ, lsError a b (x + ε • x') = lsError a b x -
      2 * ε * (∑ t, ∑ d, (b - a * x) t d * (a * x') t d) + ε ^ 2 * frobSq (a * x') := by
    intro ε
    have e : b - a * (x + ε • x') = (b - a * x) - ε • (a * x') := by
      rw [Matrix.mul_add, Matrix.mul_smul, sub_sub]
    unfold lsError
    rw [e]
    unfold frobSq
    rw [Finset.mul_sum, Finset.mul_sum, ← Finset.sum_sub_distrib, ← Finset.sum_add_distrib]
    refine Finset.sum_congr rfl fun t _ => ?_
    rw [Finset.mul_sum, Finset.mul_sum, ← Finset.sum_sub_distrib, ← Finset.sum_add_distrib]
    refine Finset.sum_congr rfl fun d _ => ?_
    change ((b - a * x) t d - ε * (a * x') t d) ^ 2 = _
    ring
  set S := ∑ t, ∑ d, (b - a * x) t d * (a * x') t d with hS
  set q := frobSq (a * x') with hq
  have hq0 : 0 ≤ q := Finset.sum_nonneg fun _ _ => Finset.sum_nonneg fun _ _ => sq_nonneg _
  by_contra hne
  have h1 := h (x + (S / (q + 1)) • x')
  rw [key] at h1
  have h2 : 0 ≤ -(2 * (S / (q + 1)) * S) + (S / (q + 1)) ^ 2 * q := by linarith
  have h3 : -(2 * (S / (q + 1)) * S) + (S / (q + 1)) ^ 2 * q = -(S ^ 2 * (q + 2) / (q + 1) ^ 2) := by
    field_simp
    ring
  have h4 : 0 < S ^ 2 * (q + 2) / (q + 1) ^ 2 := by positivity
  linarith

theorem ls_orthogonal_column (h : ∀ x', lsError a b x ≤ lsError a b x') (d : Fin r) (β : Fin c → ℝ) :
    ∑ t, (b - a * x) t d * ∑ j, a t j * β j = 0 := by
  have h1 := ls_orthogonal h (Matrix.of fun j e => if e = d then β j else 0)
  refine Eq.trans (Finset.sum_congr rfl fun t _ => ?_) h1
  rw [Finset.sum_eq_single d]
  · congr 1
    rw [Matrix.mul_apply]
    simp
  · intro e _ he
    rw [Matrix.mul_apply]
    simp [he]
  · simp

/-- The errors of a minimiser are linearly dependent exactly if a combination of the targets is
produced exactly. -/
theorem ls_dependent (h : ∀ x', lsError a b x ≤ lsError a b x') :
    (∃ v : Fin r → ℝ, v ≠ 0 ∧ ∀ t, ∑ d, (b - a * x) t d * v d = 0) ↔
      ∃ v : Fin r → ℝ, v ≠ 0 ∧ ∃ β : Fin c → ℝ, ∀ t, ∑ d, b t d * v d = ∑ j, a t j * β j := by
  have split : ∀ (v : Fin r → ℝ) t, ∑ d, (b - a * x) t d * v d =
      ∑ d, b t d * v d - ∑ j, a t j * (x *ᵥ v) j := by
    intro v t
    have e : ∑ j, a t j * (x *ᵥ v) j = ∑ d, (a * x) t d * v d := by
      change (a *ᵥ (x *ᵥ v)) t = ((a * x) *ᵥ v) t
      rw [Matrix.mulVec_mulVec]
    rw [e, ← Finset.sum_sub_distrib]
    refine Finset.sum_congr rfl fun d _ => ?_
    rw [Matrix.sub_apply]
    ring
  constructor
  · rintro ⟨v, hv, h0⟩
    refine ⟨v, hv, x *ᵥ v, fun t => ?_⟩
    have := h0 t
    rw [split] at this
    linarith
  · rintro ⟨v, hv, β, hβ⟩
    refine ⟨v, hv, ?_⟩
    have e : ∀ t, ∑ d, (b - a * x) t d * v d = ∑ j, a t j * (β - x *ᵥ v) j := by
      intro t
      rw [split, hβ, ← Finset.sum_sub_distrib]
      refine Finset.sum_congr rfl fun j _ => ?_
      rw [Pi.sub_apply]
      ring
    have hz : ∑ t, (∑ d, (b - a * x) t d * v d) ^ 2 = 0 := by
      have h1 : ∀ t, (∑ d, (b - a * x) t d * v d) ^ 2 =
          ∑ d, v d * ((b - a * x) t d * ∑ j, a t j * (β - x *ᵥ v) j) := by
        intro t
        rw [sq]
        nth_rewrite 2 [e t]
        rw [Finset.sum_mul]
        exact Finset.sum_congr rfl fun d _ => by ring
      simp only [h1]
      rw [Finset.sum_comm]
      refine Finset.sum_eq_zero fun d _ => ?_
      rw [← Finset.mul_sum, ls_orthogonal_column h, mul_zero]
    intro t
    exact pow_eq_zero_iff two_ne_zero |>.1
      ((Finset.sum_eq_zero_iff_of_nonneg fun t _ => sq_nonneg _).1 hz t (Finset.mem_univ _))

end LeastSquares

/-! ### The local models -/

section Local

variable {D E : ℕ} {mem : Memory} {m : VARXModel D E} {lstsq : LstSq}

/-- A combination of the targets is produced exactly by the regressors (at the samples with weight
other than 0) exactly if the series follows a relation. -/
theorem produced_iff (hm : m.Made mem) (hD : 0 < D) (w : Fin m.n → ℝ) :
    (∃ v : Fin D → ℝ, v ≠ 0 ∧ ∃ β : Fin m.nCols → ℝ, ∀ t, m.tailWeights w t ≠ 0 →
      ∑ d, m.target t d * v d = ∑ j, m.z t j * β j) ↔
    ExactRelation m.presample m.p m.s w (rowSeq m.y) (rowSeq m.u) := by
  refine exists_congr fun v => and_congr_right fun _ => ?_
  have htar : ∀ t : Fin (m.n - m.presample),
      ∑ d, m.target t d * v d = ∑ d, v d * rowSeq m.y (t + m.presample) d := by
    intro t
    refine Finset.sum_congr rfl fun d _ => ?_
    rw [mul_comm]
    congr 1
    exact lagRows_rowSeq (Nat.zero_le _) m.y t d
  have hz : ∀ (params : Matrix (Fin m.nCols) (Fin D) ℝ) (t : Fin (m.n - m.presample)) (d : Fin D),
      ∑ j, m.z t j * params j d = varxPrediction (m.readMu params) (m.readA params) (m.readB params)
      (m.readB0 params) (rowSeq m.y) (rowSeq m.u) (t + m.presample) d := by
    intro params t d
    rw [← z_mul_params hm, Matrix.mul_apply]
  constructor
  · rintro ⟨β, hβ⟩
    refine ⟨m.readMu (fun j _ => β j) ⟨0, hD⟩, fun i => m.readA (fun j _ => β j) i ⟨0, hD⟩,
      fun i => m.readB (fun j _ => β j) i ⟨0, hD⟩, m.readB0 (fun j _ => β j) ⟨0, hD⟩, fun t ht hw => ?_⟩
    have hlt : (t : ℕ) - m.presample < m.n - m.presample := by have := t.2; omega
    have hback : (t : ℕ) - m.presample + m.presample = t := by omega
    have hwt : m.tailWeights w ⟨t - m.presample, hlt⟩ = w t := by
      unfold VARXModel.tailWeights
      simp only [hback]
    have h1 := hβ ⟨t - m.presample, hlt⟩ (by rw [hwt]; exact hw)
    rw [htar, hz (fun j _ => β j) _ ⟨0, hD⟩] at h1
    simp only [hback] at h1
    exact h1
  · rintro ⟨c, a, b, b0, h⟩
    obtain ⟨params, h1, h2, h3, h4⟩ := exists_params m (fun _ => c) (fun i _ e => a i e)
      (fun i _ e => b i e) (fun _ e => b0 e)
    refine ⟨fun j => params j ⟨0, hD⟩, fun t ht => ?_⟩
    rw [htar, hz, h1, h2, h3, h4]
    exact h ⟨t + m.presample, by have := t.2; omega⟩ (Nat.le_add_left _ _) ht

/-- The weighted errors of the minimiser are linearly dependent exactly if the series follows a
relation. -/
theorem weighted_dependent (hm : m.Made mem) (hD : 0 < D) {w : Fin m.n → ℝ}
    (hw : ∀ t, 0 ≤ m.tailWeights w t) {params : Matrix (Fin m.nCols) (Fin D) ℝ}
    (h : ∀ x', lsError (scaleRows (fun t => Real.sqrt (m.tailWeights w t)) m.z)
        (scaleRows (fun t => Real.sqrt (m.tailWeights w t)) m.target) params ≤
      lsError (scaleRows (fun t => Real.sqrt (m.tailWeights w t)) m.z)
        (scaleRows (fun t => Real.sqrt (m.tailWeights w t)) m.target) x') :
    (∃ v : Fin D → ℝ, v ≠ 0 ∧ ∀ t, ∑ d, scaleRows (fun t => Real.sqrt (m.tailWeights w t))
        (m.tailResiduals params) t d * v d = 0) ↔
      ExactRelation m.presample m.p m.s w (rowSeq m.y) (rowSeq m.u) := by
  have e : scaleRows (fun t => Real.sqrt (m.tailWeights w t)) (m.tailResiduals params) =
      scaleRows (fun t => Real.sqrt (m.tailWeights w t)) m.target -
        scaleRows (fun t => Real.sqrt (m.tailWeights w t)) m.z * params := by
    ext t d
    rw [Matrix.sub_apply, scaleRows_mul]
    change _ * m.tailResiduals params t d = _ * m.target t d - _
    rw [← mul_sub]
    congr 1
    exact congrFun (congrFun (tailResiduals_eq m params) t) d
  rw [e, ls_dependent h, ← produced_iff hm hD]
  refine exists_congr fun v => and_congr_right fun _ => exists_congr fun β => forall_congr' fun t => ?_
  have h1 : ∑ d, scaleRows (fun t => Real.sqrt (m.tailWeights w t)) m.target t d * v d =
      Real.sqrt (m.tailWeights w t) * ∑ d, m.target t d * v d := by
    rw [Finset.mul_sum]
    exact Finset.sum_congr rfl fun d _ => mul_assoc _ _ _
  have h2 : ∑ j, scaleRows (fun t => Real.sqrt (m.tailWeights w t)) m.z t j * β j =
      Real.sqrt (m.tailWeights w t) * ∑ j, m.z t j * β j := by
    rw [Finset.mul_sum]
    exact Finset.sum_congr rfl fun d _ => mul_assoc _ _ _
  rw [h1, h2, mul_eq_mul_left_iff, Real.sqrt_eq_zero (hw t)]
  tauto

/-- The weighted errors of the minimiser are orthogonal to every affine function of the lags. -/
theorem weighted_normal (hm : m.Made mem) {w : Fin m.n → ℝ}
    (hw : ∀ t, 0 ≤ m.tailWeights w t) {params : Matrix (Fin m.nCols) (Fin D) ℝ}
    (h : ∀ x', lsError (scaleRows (fun t => Real.sqrt (m.tailWeights w t)) m.z)
        (scaleRows (fun t => Real.sqrt (m.tailWeights w t)) m.target) params ≤
      lsError (scaleRows (fun t => Real.sqrt (m.tailWeights w t)) m.z)
        (scaleRows (fun t => Real.sqrt (m.tailWeights w t)) m.target) x')
    (d : Fin D) (c : ℝ) (a : Fin m.p → Fin D → ℝ) (b : Fin m.s → Fin E → ℝ) (b0 : Fin E → ℝ) :
    (∑ t : Fin m.n, if m.presample ≤ t then w t * m.residuals params t d *
      (c + ∑ i : Fin m.p, ∑ e, a i e * rowSeq m.y (t - (i + 1)) e +
        ∑ i : Fin m.s, ∑ e, b i e * rowSeq m.u (t - (i + 1)) e + ∑ e, b0 e * rowSeq m.u t e) else 0) =
      0 := by
  obtain ⟨x', h1, h2, h3, h4⟩ := exists_params m (fun _ => c) (fun i _ e => a i e)
    (fun i _ e => b i e) (fun _ e => b0 e)
  rw [sum_from_lag fun t => w t * m.residuals params t d *
      (c + ∑ i : Fin m.p, ∑ e, a i e * rowSeq m.y (t - (i + 1)) e +
        ∑ i : Fin m.s, ∑ e, b i e * rowSeq m.u (t - (i + 1)) e + ∑ e, b0 e * rowSeq m.u t e)]
  refine Eq.trans (Finset.sum_congr rfl fun t _ => ?_) (ls_orthogonal_column h d fun j => x' j d)
  have hz : (m.z * x') t d = varxPrediction (m.readMu x') (m.readA x') (m.readB x') (m.readB0 x')
      (rowSeq m.y) (rowSeq m.u) (t + m.presample) d := z_mul_params hm x' t d
  rw [h1, h2, h3, h4] at hz
  have e1 : ∑ j, scaleRows (fun t => Real.sqrt (m.tailWeights w t)) m.z t j * x' j d =
      Real.sqrt (m.tailWeights w t) * (m.z * x') t d := by
    rw [Matrix.mul_apply, Finset.mul_sum]
    exact Finset.sum_congr rfl fun d _ => mul_assoc _ _ _
  have e2 : (scaleRows (fun t => Real.sqrt (m.tailWeights w t)) m.target -
      scaleRows (fun t => Real.sqrt (m.tailWeights w t)) m.z * params) t d =
      Real.sqrt (m.tailWeights w t) * m.tailResiduals params t d := by
    rw [Matrix.sub_apply, scaleRows_mul]
    change _ * m.target t d - _ = _
    rw [← mul_sub]
    congr 1
    exact (congrFun (congrFun (tailResiduals_eq m params) t) d).symm
  rw [e1, e2, hz, show Real.sqrt (m.tailWeights w t) * m.tailResiduals params t d *
    (Real.sqrt (m.tailWeights w t) * varxPrediction (fun _ => c) (fun i _ e => a i e)
      (fun i _ e => b i e) (fun _ e => b0 e) (rowSeq m.y) (rowSeq m.u) (t + m.presample) d) =
    (Real.sqrt (m.tailWeights w t) * Real.sqrt (m.tailWeights w t)) * m.tailResiduals params t d *
      varxPrediction (fun _ => c) (fun i _ e => a i e)
      (fun i _ e => b i e) (fun _ e => b0 e) (rowSeq m.y) (rowSeq m.u) (t + m.presample) d by ring,
    Real.mul_self_sqrt (hw t)]
  rfl

/-- A minimiser of the plain problem minimises the problem with weights 1. -/
theorem plain_least (hm : m.Made mem) {params : Matrix (Fin m.nCols) (Fin D) ℝ}
    (h : ∀ x', lsError m.z m.target params ≤ lsError m.z m.target x') (x' : Matrix (Fin m.nCols) (Fin D) ℝ) :
    lsError (scaleRows (fun t => Real.sqrt (m.tailWeights (fun _ => 1) t)) m.z)
        (scaleRows (fun t => Real.sqrt (m.tailWeights (fun _ => 1) t)) m.target) params ≤
      lsError (scaleRows (fun t => Real.sqrt (m.tailWeights (fun _ => 1) t)) m.z)
        (scaleRows (fun t => Real.sqrt (m.tailWeights (fun _ => 1) t)) m.target) x' := by
  have h1 : ∀ t, (0 : ℝ) ≤ m.tailWeights (fun _ => 1) t := fun _ => zero_le_one
  rw [lsError_eq hm h1, lsError_eq hm h1, ← lsError_eq_plain hm, ← lsError_eq_plain hm]
  exact h x'

theorem scaleRows_tail_one {c : ℕ} (a : Matrix (Fin (m.n - m.presample)) (Fin c) ℝ) :
    scaleRows (fun t => Real.sqrt (m.tailWeights (fun _ => 1) t)) a = a := by
  ext t j
  change Real.sqrt 1 * a t j = a t j
  rw [Real.sqrt_one, one_mul]

/-- When the fit with weights fails. -/
theorem fitWeighted_or (hl : lstsq.Exact) (htot : ∀ m n r a b, ∃ x, lstsq m n r a b = Py.ok x)
    (hm : m.Made mem) (hD : 0 < D) {w : Fin m.n → ℝ} (hw : ∀ t, 0 ≤ m.tailWeights w t) :
    let bad := (∑ t : Fin m.n, if m.presample ≤ t then w t else 0) ≠ 1 ∧
      ExactRelation m.presample m.p m.s w (rowSeq m.y) (rowSeq m.u)
    (m.fitWeighted lstsq w = Py.raise .linAlgError ∧ bad) ∨
      (∃ f, m.fitWeighted lstsq w = Py.ok f) ∧ ¬bad := by
  intro bad
  unfold VARXModel.fitWeighted
  rw [if_neg (by push Not; exact hw)]
  obtain ⟨params, hp⟩ := htot _ _ _ (scaleRows (fun t => Real.sqrt (m.tailWeights w t)) m.z)
    (scaleRows (fun t => Real.sqrt (m.tailWeights w t)) m.target)
  have hdep := weighted_dependent hm hD hw (hl _ _ _ _ _ _ hp)
  have hcov := covariance_singular (scaleRows (fun t => Real.sqrt (m.tailWeights w t))
    (m.tailResiduals params)) (∑ t, m.tailWeights w t - 1)
  rw [hdep, sub_ne_zero] at hcov
  have hsum : (∑ t : Fin m.n, if m.presample ≤ t then w t else 0) = ∑ t, m.tailWeights w t :=
    sum_from_lag w
  have hb : bad ↔ _ := (iff_of_eq (congrArg (fun z => z ≠ 1 ∧ _) hsum)).trans hcov.symm
  rw [hb]
  simp only [hp, Py.ok_bind]
  rcases finish_or params (covariance (scaleRows (fun t => Real.sqrt (m.tailWeights w t))
    (m.tailResiduals params)) (∑ t, m.tailWeights w t - 1)) with h | ⟨f, h1, -, h2⟩
  · exact Or.inl h
  · exact Or.inr ⟨⟨f, h1⟩, fun ⟨S, h3, h4⟩ => h2 S h3 h4⟩

/-- When the fit without weights fails. -/
theorem fitPlain_or (hl : lstsq.Exact) (htot : ∀ m n r a b, ∃ x, lstsq m n r a b = Py.ok x)
    (hm : m.Made mem) (hD : 0 < D) :
    let bad := (m.n : ℝ) - m.presample - m.p * D - 1 - E * (1 + m.s) ≠ 0 ∧
      ExactRelation m.presample m.p m.s (fun _ : Fin m.n => 1) (rowSeq m.y) (rowSeq m.u)
    (m.fitPlain lstsq = Py.raise .linAlgError ∧ bad) ∨ (∃ f, m.fitPlain lstsq = Py.ok f) ∧ ¬bad := by
  intro bad
  unfold VARXModel.fitPlain
  obtain ⟨params, hp⟩ := htot _ _ _ m.z m.target
  have hdep := weighted_dependent hm hD (w := fun _ => 1) (fun _ => zero_le_one)
    (plain_least hm (hl _ _ _ _ _ _ hp))
  rw [scaleRows_tail_one] at hdep
  have hcov := covariance_singular (m.tailResiduals params)
    ((m.n : ℝ) - m.presample - m.p * D - 1 - E * (1 + m.s))
  rw [hdep] at hcov
  have hb : bad ↔ _ := hcov.symm
  rw [hb]
  simp only [hp, Py.ok_bind]
  rcases finish_or params (covariance (m.tailResiduals params)
    ((m.n : ℝ) - m.presample - m.p * D - 1 - E * (1 + m.s))) with h | ⟨f, h1, -, h2⟩
  · exact Or.inl h
  · exact Or.inr ⟨⟨f, h1⟩, fun ⟨S, h3, h4⟩ => h2 S h3 h4⟩

end Local

end Reor
