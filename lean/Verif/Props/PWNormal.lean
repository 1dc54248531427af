import Verif.Proofs.VARXNormal
import Verif.Props.PWLink

/-!
Residuals of piecewise VARX fits, and series without noise (C127).
-/

set_option linter.unusedSectionVars false

namespace Reor

open scoped BigOperators Matrix
open Spec

variable {lib : PWLib} {lstsq : LstSq} {obj obj' : PWObj lib} {endog : PWArr} {exog : Option PWArr}
  {labels : Σ m : ℕ, Fin m → ℤ}

/-! ### C127: normal equations -/

/-- C127.  If the least-squares routine returns minimisers, then for each component of a piecewise fit
the residuals of its samples sum to zero in every feature if there is a trend, and their products with
every lag of every feature and of every exogenous variable sum to zero. -/
theorem C127_pwvarx_residuals_orthogonal (hls : lstsq.Exact)
    (hu : ∀ u, exog = some u → u.matrix.rows = endog.matrix.rows)
    (h : obj.fitTransform lstsq endog exog = Py.ok (obj', labels)) :
    ∃ F : PWFitted obj obj' endog.matrix.rows endog.matrix.cols (exogCount exog),
      labels = ⟨_, F.lab⟩ ∧ ∀ (k : Fin F.K) d,
        (obj.includeTrend = true → ∑ t, (if F.lab t = (k : ℕ) then F.R t d else 0) = 0) ∧
        (∀ (i : Fin obj.p) e, ∑ t, (if F.lab t = (k : ℕ) then F.R t d *
          rowSeq endog.matrix.val (t + max obj.p obj.s - (i + 1)) e else 0) = 0) ∧
        ∀ (i : Fin obj.s) e, ∑ t, (if F.lab t = (k : ℕ) then F.R t d *
          pwExogSeq exog (t + max obj.p obj.s - (i + 1)) e else 0) = 0 := by
  obtain ⟨F, x, h1, hx, h3, -, -⟩ := pw_fit_spec h
  refine ⟨F, h1, fun k d => ?_⟩
  obtain ⟨params, hp⟩ := h3 k
  have key : ∀ (c : ℝ) (a : Fin obj.p → Fin endog.matrix.cols → ℝ)
      (b : Fin obj.s → Fin (exogCount exog) → ℝ), (obj.includeTrend = false → c = 0) →
      ∑ t, (if F.lab t = (k : ℕ) then F.R t d *
        (c + ∑ i : Fin obj.p, ∑ e, a i e * rowSeq endog.matrix.val (t + max obj.p obj.s - (i + 1)) e +
          ∑ i : Fin obj.s, ∑ e, b i e * pwExogSeq exog (t + max obj.p obj.s - (i + 1)) e) else 0) = 0 := by
    intro c a b hc
    obtain ⟨q, e1, e2, e3⟩ := exists_pwParams (trend := obj.includeTrend)
      (fun _ : Fin endog.matrix.cols => c) (fun ht => funext fun _ => hc ht) (fun i _ e => a i e)
      (fun i _ e => b i e)
    have horth := ls_orthogonal_column (hls _ _ _ _ _ _ hp.fit) d fun j => q j d
    rw [← sum_maskRows]
    refine Eq.trans (Finset.sum_congr rfl fun r _ => ?_) horth
    refine congrArg₂ (· * ·) ?_ ?_
    · have hr := hp.residuals ((maskRows F.lab k).get r)
        ((mem_maskRows _).1 (List.get_mem _ _)) d
      refine hr.trans ?_
      rw [Matrix.sub_apply]
      refine congrArg₂ (· - ·) rfl ?_
      rw [Matrix.mul_apply, Matrix.mul_apply]
      exact Finset.sum_congr rfl fun j _ => congrArg (· * _)
        (congrFun (pwDesign_takeRows obj.includeTrend x (maskRows F.lab k) r) j).symm
    · have hq := pw_design_predicts hx hu q ((maskRows F.lab k).get r) d
      rw [e1, e2, e3] at hq
      refine Eq.trans ?_ (hq.symm.trans ?_)
      · unfold varxPrediction
        simp
      · rw [Matrix.mul_apply]
        exact Finset.sum_congr rfl fun j _ => congrArg (· * _)
          (congrFun (pwDesign_takeRows obj.includeTrend x (maskRows F.lab k) r) j).symm
  refine ⟨fun ht => ?_, fun i e => ?_, fun i e => ?_⟩
  · refine Eq.trans (Finset.sum_congr rfl fun t _ => ?_) (key 1 0 0 fun h => by simp [ht] at h)
    simp
  · refine Eq.trans (Finset.sum_congr rfl fun t _ => ?_)
      (key 0 (fun i' e' => if i' = i then if e' = e then 1 else 0 else 0) 0 fun _ => rfl)
    rw [Finset.sum_eq_single i (fun i' _ hi => by simp [hi]) (by simp)]
    simp
  · refine Eq.trans (Finset.sum_congr rfl fun t _ => ?_)
      (key 0 0 (fun i' e' => if i' = i then if e' = e then 1 else 0 else 0) fun _ => rfl)
    rw [Finset.sum_eq_single i (fun i' _ hi => by simp [hi]) (by simp)]
    simp

/-! ### C127: series without noise -/

/-- The regressors of the samples of a component (with a constant if there is a trend) satisfy no linear
relation. -/
def PWFitted.Independent {n D E : ℕ} (F : PWFitted obj obj' n D E) (y : ℕ → Fin D → ℝ)
    (u : ℕ → Fin E → ℝ) (k : Fin F.K) : Prop :=
  ∀ (c : ℝ) (a : Fin obj.p → Fin D → ℝ) (b : Fin obj.s → Fin E → ℝ), (obj.includeTrend = false → c = 0) →
    (∀ t, F.lab t = (k : ℕ) → c + ∑ i, ∑ e, a i e * y (t + max obj.p obj.s - (i + 1)) e +
      ∑ i, ∑ e, b i e * u (t + max obj.p obj.s - (i + 1)) e = 0) → c = 0 ∧ a = 0 ∧ b = 0

/-- C127.  If the samples that a piecewise fit gives to a component follow some coefficients without
noise, their residuals are zero, so is their covariance (if it is finite), and the reported coefficients
reproduce the samples; and if the regressors of these samples satisfy no linear relation, the reported
coefficients are those that the samples follow. -/
theorem C127_pwvarx_noise_free (hls : lstsq.Exact)
    (hu : ∀ u, exog = some u → u.matrix.rows = endog.matrix.rows)
    (h : obj.fitTransform lstsq endog exog = Py.ok (obj', labels)) :
    ∃ F : PWFitted obj obj' endog.matrix.rows endog.matrix.cols (exogCount exog),
      labels = ⟨_, F.lab⟩ ∧ ∀ (k : Fin F.K) (mu : Fin endog.matrix.cols → ℝ)
        (A : Fin obj.p → Matrix (Fin endog.matrix.cols) (Fin endog.matrix.cols) ℝ)
        (B : Fin obj.s → Matrix (Fin endog.matrix.cols) (Fin (exogCount exog)) ℝ),
        (obj.includeTrend = false → mu = 0) →
        (∀ t, F.lab t = (k : ℕ) → rowSeq endog.matrix.val (t + max obj.p obj.s) =
          varxPrediction mu A B 0 (rowSeq endog.matrix.val) (pwExogSeq exog) (t + max obj.p obj.s)) →
        (∀ t, F.lab t = (k : ℕ) → F.R t = 0) ∧ (∀ S, F.S k = some S → S = 0) ∧
        (∀ t, F.lab t = (k : ℕ) → rowSeq endog.matrix.val (t + max obj.p obj.s) =
          F.forecast (rowSeq endog.matrix.val) (pwExogSeq exog) k (t + max obj.p obj.s)) ∧
        (F.Independent (rowSeq endog.matrix.val) (pwExogSeq exog) k →
          F.mu k = mu ∧ F.A k = A ∧ F.B k = B) := by
  obtain ⟨F, x, h1, hx, h3, -, -⟩ := pw_fit_spec h
  refine ⟨F, h1, fun k mu A B hmu hy => ?_⟩
  obtain ⟨params, hp⟩ := h3 k
  obtain ⟨q, e1, e2, e3⟩ := exists_pwParams mu hmu A B
  have hm : F.mu k = (pwReadMu params).getD 0 := hp.mu
  have hA : F.A k = pwReadA params := hp.A
  have hB : F.B k = pwReadB params := hp.B
  have htar : ∀ (t : Fin (endog.matrix.rows - max obj.p obj.s)) d,
      lagRows (max obj.p obj.s) endog.matrix.val 0 t d =
        rowSeq endog.matrix.val (t + max obj.p obj.s) d :=
    fun t d => lagRows_rowSeq (Nat.zero_le _) _ t d
  have hrow : ∀ (z : Matrix (Fin (trendCols obj.includeTrend +
      (obj.p * endog.matrix.cols + obj.s * exogCount exog))) (Fin endog.matrix.cols) ℝ) r d,
      (takeRows (lagRows (max obj.p obj.s) endog.matrix.val 0) (maskRows F.lab k) -
        pwDesign obj.includeTrend (takeRows x (maskRows F.lab k)) * z) r d =
      lagRows (max obj.p obj.s) endog.matrix.val 0 ((maskRows F.lab k).get r) d -
        (pwDesign obj.includeTrend x * z) ((maskRows F.lab k).get r) d := by
    intro z r d
    rw [Matrix.sub_apply]
    refine congrArg₂ (· - ·) rfl ?_
    rw [Matrix.mul_apply, Matrix.mul_apply]
    exact Finset.sum_congr rfl fun j _ => congrArg (· * _)
      (congrFun (pwDesign_takeRows obj.includeTrend x (maskRows F.lab k) r) j)
  have hzero : lsError (pwDesign obj.includeTrend (takeRows x (maskRows F.lab k)))
      (takeRows (lagRows (max obj.p obj.s) endog.matrix.val 0) (maskRows F.lab k)) q = 0 := by
    unfold lsError frobSq
    refine Finset.sum_eq_zero fun r _ => Finset.sum_eq_zero fun d _ => ?_
    rw [hrow, htar, pw_design_predicts hx hu, e1, e2, e3,
      hy _ ((mem_maskRows _).1 (List.get_mem _ _)), sub_self]
    exact zero_pow two_ne_zero
  have hle := hls _ _ _ _ _ _ hp.fit q
  rw [hzero] at hle
  have hE := frobSq_eq_zero' hle
  have hR : ∀ t, F.lab t = (k : ℕ) → F.R t = 0 := by
    intro t ht
    funext d
    obtain ⟨r, hr⟩ := List.mem_iff_get.1 ((mem_maskRows _).2 ht)
    have h5 := congrFun (congrFun hE r) d
    rw [hrow] at h5
    rw [hr] at h5
    exact (hp.residuals t ht d).trans h5
  have hfor : ∀ t, F.lab t = (k : ℕ) → rowSeq endog.matrix.val (t + max obj.p obj.s) =
      F.forecast (rowSeq endog.matrix.val) (pwExogSeq exog) k (t + max obj.p obj.s) := by
    intro t ht
    funext d
    have h5 : F.R t d = _ := hp.residuals t ht d
    rw [hR t ht, htar, pw_design_predicts hx hu, ← hm, ← hA, ← hB] at h5
    exact (sub_eq_zero.1 h5.symm)
  refine ⟨hR, fun S hS => ?_, hfor, fun hind => ?_⟩
  · have h5 : F.S k = _ := hp.sigmaU
    rw [h5] at hS
    unfold covariance at hS
    split_ifs at hS with h0
    rw [← Option.some.inj hS]
    funext a b
    refine (congrArg (· / _) (?_ : _ = (0 : ℝ))).trans (zero_div _)
    rw [Matrix.mul_apply]
    refine Finset.sum_eq_zero fun r _ => ?_
    refine (congrArg (_ * ·) (?_ : _ = (0 : ℝ))).trans (mul_zero _)
    exact congrFun (hR _ ((mem_maskRows _).1 (List.get_mem (maskRows F.lab k) r))) b
  · have hd : ∀ d, F.mu k d - mu d = 0 ∧ (fun i e => F.A k i d e - A i d e) = 0 ∧
        (fun i e => F.B k i d e - B i d e) = 0 := by
      intro d
      refine hind _ (fun i e => F.A k i d e - A i d e) (fun i e => F.B k i d e - B i d e)
        (fun ht => ?_) fun t ht => ?_
      · rw [F.mu_zero ht, hmu ht]
        exact sub_self _
      · have h5 := congrFun ((hfor t ht).symm.trans (hy t ht)) d
        unfold PWFitted.forecast varxPrediction at h5
        simp only [Matrix.zero_apply, zero_mul, Finset.sum_const_zero, add_zero] at h5
        simp only [sub_mul, Finset.sum_sub_distrib]
        linarith
    refine ⟨funext fun d => sub_eq_zero.1 (hd d).1, funext fun i => Matrix.ext fun d e => ?_,
      funext fun i => Matrix.ext fun d e => ?_⟩
    · exact sub_eq_zero.1 (congrFun (congrFun (hd d).2.1 i) e)
    · exact sub_eq_zero.1 (congrFun (congrFun (hd d).2.2 i) e)

/-! ### Examples -/

/-- The hypotheses are met by a fit with an exogenous variable. -/
example : ∃ (lstsq : LstSq) (obj' : PWObj demoPWLib) (F : PWFitted demoPW obj' 5 2 1),
    demoPW.fitTransform lstsq demoPWData (some demoPWExog) = Py.ok (obj', ⟨4, F.lab⟩) ∧
    ∀ (k : Fin F.K) (d : Fin 2), ∑ t, (if F.lab t = (k : ℕ) then F.R t d else 0) = 0 := by
  obtain ⟨lstsq, hl, ⟨o, l⟩, h⟩ := demoPW_runs
  obtain ⟨F, rfl, hF⟩ := C127_pwvarx_residuals_orthogonal hl (fun u hu => by cases hu; rfl) h
  exact ⟨lstsq, o, F, h, fun k d => (hF k d).1 rfl⟩

/-- The series 0, 1, 2, 3 adds 1 in every step: one component finds the intercept 1 and the coefficient
1. -/
example : ∃ (lstsq : LstSq) (obj' : PWObj constPWLib)
    (F : PWFitted { nComponents := .int (1 : ℕ), p := 1 } obj' 4 1 0) (k : Fin F.K),
    PWObj.fitTransform lstsq { nComponents := .int (1 : ℕ), p := 1 } (.vec 4 ![0, 1, 2, 3]) none =
      Py.ok (obj', ⟨3, F.lab⟩) ∧ F.mu k = (fun _ => 1) ∧ F.A k = (fun _ _ _ => 1) := by
  obtain ⟨lstsq, hl, htot⟩ := exists_exact_lstsq
  obtain ⟨⟨o, l⟩, h⟩ := pw_fit_succeeds (lib := constPWLib)
    (obj := { nComponents := .int (1 : ℕ), p := 1 }) (exog := none) (endog := .vec 4 ![0, 1, 2, 3])
    ⟨fun _ _ => ⟨_, rfl⟩, fun _ _ _ => ⟨_, rfl⟩, fun _ _ => ⟨_, rfl⟩⟩ htot (K := 1) rfl
    (by rintro a h; cases h) (by decide) (fun u h => by simp at h)
  obtain ⟨F, hlab, hF⟩ := C127_pwvarx_noise_free hl (fun u hu => by simp at hu) h
  have hK : F.K = 1 := by exact_mod_cast NumArg.int.inj F.components.symm
  have hl0 : F.lab = fun _ => 0 := by
    obtain ⟨F', x, h2, -, -, -, f, -, hf⟩ := pw_fit_spec h
    rw [hlab] at h2
    rw [eq_of_heq (Sigma.mk.inj h2).2, ← Py.ok.inj hf]
    rfl
  have hy : ∀ t : ℕ, t < 4 → rowSeq (PWArr.vec 4 ![0, 1, 2, 3]).matrix.val t = fun _ => (t : ℝ) := by
    intro t ht
    interval_cases t <;> funext d <;> simp [rowSeq, PWArr.matrix]
  have hf := hF ⟨0, by omega⟩ (fun _ => 1) (fun _ _ _ => 1) (fun i => i.elim0) (fun h => by simp at h)
    (fun t ht => ?_)
  · refine ⟨lstsq, o, F, ⟨0, by omega⟩, by rw [h, hlab]; rfl, ?_⟩
    have hi := hf.2.2.2 fun c a b _ hz => ?_
    · exact ⟨hi.1, hi.2.1⟩
    · have hz' : ∀ t : ℕ, t < 3 → c + a (0 : Fin 1) (0 : Fin 1) * (t : ℝ) = 0 := by
        intro t ht
        have h6 : c + ∑ i : Fin 1, ∑ e : Fin 1, a i e *
            rowSeq (PWArr.vec 4 ![0, 1, 2, 3]).matrix.val (t + 1 - (i + 1)) e + 0 = 0 :=
          hz ⟨t, ht⟩ (by rw [hl0]; rfl)
        rw [Fin.sum_univ_one, Fin.sum_univ_one, hy _ (by simp only [Fin.val_zero]; omega), add_zero] at h6
        rw [← h6]
        simp
      have h0 := hz' 0 (by norm_num)
      have h1 := hz' 1 (by norm_num)
      have hc : c = 0 := by simpa using h0
      have ha : a (0 : Fin 1) (0 : Fin 1) = 0 := by simpa [hc] using h1
      refine ⟨hc, ?_, funext fun i => i.elim0⟩
      funext i e
      rw [Subsingleton.elim (α := Fin 1) i 0, Subsingleton.elim (α := Fin 1) e 0]
      exact ha
  · have ht3 : (t : ℕ) < 3 := t.2
    refine (hy (t + 1) (by omega)).trans ?_
    funext d
    have h7 : ((t + 1 : ℕ) : ℝ) = 1 + ∑ i : Fin 1, ∑ e : Fin 1, (1 : ℝ) *
        rowSeq (PWArr.vec 4 ![0, 1, 2, 3]).matrix.val (t + 1 - (i + 1)) e + 0 + 0 := by
      rw [Fin.sum_univ_one, Fin.sum_univ_one, hy _ (by simp only [Fin.val_zero]; omega)]
      simp
      ring
    refine h7.trans ?_
    unfold varxPrediction
    refine congrArg₂ (· + ·) rfl (Finset.sum_eq_zero fun (e : Fin 0) _ => e.elim0).symm

end Reor
