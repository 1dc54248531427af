import Verif.Proofs.PWSym
import Verif.Props.PWVARX

/-!
Piecewise VARX fits of data that are rotated and translated.
-/

namespace Reor

set_option linter.unusedSectionVars false

open scoped BigOperators Matrix
open Spec

variable {lib : PWLib} {lstsq : LstSq} {obj o o' : PWObj lib} {labels : Σ m : ℕ, Fin m → ℤ}
  {n D E : ℕ}

/-! ### C116: piecewise VARX fits of moved data -/

/-- The residuals and the covariances of a fit are those of another, rotated. -/
structure PWFitted.ResidualsMoved (Q : Matrix (Fin D) (Fin D) ℝ) (F : PWFitted obj o n D E)
    (F' : PWFitted obj o' n D E) : Prop where
  labels : F'.lab = F.lab
  R : F'.R = F.R * Q
  S : ∀ (k : Fin F.K) (k' : Fin F'.K), (k : ℕ) = k' → F'.S k' = (F.S k).map fun S => Qᵀ * S * Q

/-- The coefficients of a fit are those of another, rotated. -/
structure PWFitted.CoefficientsTurned (Q : Matrix (Fin D) (Fin D) ℝ) (M : Matrix (Fin E) (Fin E) ℝ)
    (F : PWFitted obj o n D E) (F' : PWFitted obj o' n D E) : Prop where
  mu : ∀ (k : Fin F.K) (k' : Fin F'.K), (k : ℕ) = k' → F'.mu k' = Qᵀ *ᵥ F.mu k
  A : ∀ (k : Fin F.K) (k' : Fin F'.K), (k : ℕ) = k' → ∀ i, F'.A k' i = Qᵀ * F.A k i * Q
  B : ∀ (k : Fin F.K) (k' : Fin F'.K), (k : ℕ) = k' → ∀ i, F'.B k' i = Qᵀ * F.B k i * M

/-- What the fits below have in common. -/
theorem pw_residuals_moved (hl : lstsq.Exact) {Q : Matrix (Fin D) (Fin D) ℝ} (hQ : Q * Qᵀ = 1)
    {M N : Matrix (Fin E) (Fin E) ℝ} (hM : M * N = 1) {b : Fin D → ℝ} {c : Fin E → ℝ}
    (hb : obj.includeTrend = false → b = 0 ∧ c = 0)
    {x x' : Matrix (Fin (n - max obj.p obj.s)) (Fin (obj.p * D + obj.s * E)) ℝ}
    {Y Y' : Matrix (Fin (n - max obj.p obj.s)) (Fin D) ℝ} {y y' : ℕ → Fin D → ℝ}
    {u u' : ℕ → Fin E → ℝ} {τ : Fin (n - max obj.p obj.s) → ℕ}
    (hd : PWData obj.includeTrend obj.p obj.s x Y y u τ)
    (hd' : PWData obj.includeTrend obj.p obj.s x' Y' y' u' τ)
    (hy : ∀ t, ∀ σ ≤ τ t, y' σ = Qᵀ *ᵥ y σ + b) (hu : ∀ t, ∀ σ ≤ τ t, u' σ = Mᵀ *ᵥ u σ + c)
    {F : PWFitted obj o n D E} {F' : PWFitted obj o' n D E} (hlab : F'.lab = F.lab)
    (h : ∀ k, ∃ params, PWDone lstsq obj.includeTrend Y x
      F.lab (⟨F.mu, F.A, F.B, F.S, F.R⟩ : PWState F.K _ _ _ _ _) k 0 params)
    (h' : ∀ k, ∃ params, PWDone lstsq obj.includeTrend Y' x'
      F'.lab (⟨F'.mu, F'.A, F'.B, F'.S, F'.R⟩ : PWState F'.K _ _ _ _ _) k 0 params)
    (h0 : ∀ t, (∀ k : Fin F.K, F.lab t ≠ (k : ℕ)) → F.R t = 0)
    (h0' : ∀ t, (∀ k : Fin F'.K, F'.lab t ≠ (k : ℕ)) → F'.R t = 0) :
    F.ResidualsMoved Q F' := by
  have hK : F'.K = F.K := by exact_mod_cast NumArg.int.inj (F'.components.symm.trans F.components)
  have hR : F'.R = F.R * Q := by
    ext t d
    by_cases hex : ∃ k : Fin F.K, F.lab t = (k : ℕ)
    · obtain ⟨k, hk⟩ := hex
      obtain ⟨q, hq⟩ := h k
      obtain ⟨q', hq'⟩ := h' (Fin.cast hK.symm k)
      have hk' : F'.lab t = ((Fin.cast hK.symm k : Fin F'.K) : ℕ) := by rw [hlab]; exact hk
      have hf' := hq'.fit
      rw [hlab] at hf'
      have key := pw_residual_moved hQ hM hb hd hd' hy hu (maskRows F.lab k)
        (hl _ _ _ _ _ _ hq.fit) (hl _ _ _ _ _ _ hf')
      obtain ⟨r, hr⟩ := List.mem_iff_get.1 ((mem_maskRows (labels := F.lab) (k := (k : ℕ)) t).2 hk)
      have e : (Y' - pwDesign obj.includeTrend x' * q') t d =
          ((Y - pwDesign obj.includeTrend x * q) * Q) t d := by
        have := congrFun (congrFun (key.trans (takeRows_mul _ _ _).symm) r) d
        rw [← hr]
        exact this
      refine (hq'.residuals t hk' d).trans (e.trans ?_)
      rw [Matrix.mul_apply, Matrix.mul_apply]
      exact Finset.sum_congr rfl fun l _ => congrArg (· * Q l d) (hq.residuals t hk l).symm
    · push Not at hex
      have hz := h0 t hex
      have hz' := h0' t fun k => by
        rw [hlab]
        exact hex (Fin.cast hK k)
      rw [hz', Matrix.mul_apply]
      symm
      refine Finset.sum_eq_zero fun l _ => ?_
      rw [hz]
      exact zero_mul _
  refine ⟨hlab, hR, fun k k' hk => ?_⟩
  obtain ⟨q, hq⟩ := h k
  obtain ⟨q', hq'⟩ := h' k'
  have h1 : F.S k = _ := hq.sigmaU
  have h2 : F'.S k' = _ := hq'.sigmaU
  simp only at h1 h2
  rw [hlab, hR, ← hk, takeRows_mul, covariance_moved] at h2
  rw [h1, h2]

theorem pw_coefficients_turned (hl : lstsq.MinNorm) {Q : Matrix (Fin D) (Fin D) ℝ} (hQ : Q * Qᵀ = 1)
    {M : Matrix (Fin E) (Fin E) ℝ} (hM : M * Mᵀ = 1)
    {x x' : Matrix (Fin (n - max obj.p obj.s)) (Fin (obj.p * D + obj.s * E)) ℝ}
    {Y Y' : Matrix (Fin (n - max obj.p obj.s)) (Fin D) ℝ} {y y' : ℕ → Fin D → ℝ}
    {u u' : ℕ → Fin E → ℝ} {τ : Fin (n - max obj.p obj.s) → ℕ}
    (hd : PWData obj.includeTrend obj.p obj.s x Y y u τ)
    (hd' : PWData obj.includeTrend obj.p obj.s x' Y' y' u' τ)
    (hy : ∀ t, ∀ σ ≤ τ t, y' σ = Qᵀ *ᵥ y σ) (hu : ∀ t, ∀ σ ≤ τ t, u' σ = Mᵀ *ᵥ u σ)
    {F : PWFitted obj o n D E} {F' : PWFitted obj o' n D E} (hlab : F'.lab = F.lab)
    (h : ∀ k, ∃ params, PWDone lstsq obj.includeTrend Y x
      F.lab (⟨F.mu, F.A, F.B, F.S, F.R⟩ : PWState F.K _ _ _ _ _) k 0 params)
    (h' : ∀ k, ∃ params, PWDone lstsq obj.includeTrend Y' x'
      F'.lab (⟨F'.mu, F'.A, F'.B, F'.S, F'.R⟩ : PWState F'.K _ _ _ _ _) k 0 params) :
    F.CoefficientsTurned Q M F' := by
  have hmin : ∀ {m n r a b x}, lstsq m n r a b = Py.ok x → MinNormSol a b x := by
    intro m n r a b x hx
    obtain ⟨z, hz, hz'⟩ := hl m n r a b
    rw [hx] at hz
    obtain rfl := Py.ok.inj hz
    exact hz'
  have key : ∀ (k : Fin F.K) (k' : Fin F'.K), (k : ℕ) = k' → F'.mu k' = Qᵀ *ᵥ F.mu k ∧
      (∀ i, F'.A k' i = Qᵀ * F.A k i * Q) ∧ ∀ i, F'.B k' i = Qᵀ * F.B k i * M := by
    intro k k' hk
    obtain ⟨q, hq⟩ := h k
    obtain ⟨q', hq'⟩ := h' k'
    have hf' := hq'.fit
    rw [hlab, ← hk] at hf'
    obtain ⟨e1, e2, e3⟩ := pw_minNorm_turned hQ hM hd hd' hy hu (maskRows F.lab k) (hmin hq.fit)
      (hmin hf')
    have m1 : F.mu k = (pwReadMu q).getD 0 := hq.mu
    have m2 : F'.mu k' = (pwReadMu q').getD 0 := hq'.mu
    have a1 : F.A k = pwReadA q := hq.A
    have a2 : F'.A k' = pwReadA q' := hq'.A
    have b1 : F.B k = pwReadB q := hq.B
    have b2 : F'.B k' = pwReadB q' := hq'.B
    rw [m1, m2, a1, a2, b1, b2]
    exact ⟨e1, e2, e3⟩
  exact ⟨fun k k' hk => (key k k' hk).1, fun k k' hk => (key k k' hk).2.1,
    fun k k' hk => (key k k' hk).2.2⟩

/-- The design matrices of a fit. -/
theorem pwData_of_fit {endog : PWArr} {exog : Option PWArr}
    {x : Matrix (Fin (endog.matrix.rows - max obj.p obj.s))
      (Fin (obj.p * endog.matrix.cols + obj.s * exogCount exog)) ℝ}
    (hx : stackPredictors obj.p obj.s endog.matrix (exog.map PWArr.matrix) = Py.ok x)
    (hu : ∀ u, exog = some u → u.matrix.rows = endog.matrix.rows) :
    PWData obj.includeTrend obj.p obj.s x (lagRows (max obj.p obj.s) endog.matrix.val 0)
      (rowSeq endog.matrix.val) (pwExogSeq exog) fun t => t + max obj.p obj.s where
  target := fun t => funext fun d => by
    rw [lagRows_rowSeq (Nat.zero_le _), Nat.sub_zero]
  design := fun q t d => pw_design_predicts hx hu q t d

theorem lab_eq_of_labels {l l' : Fin (n - max obj.p obj.s) → ℤ}
    (h : labels = ⟨_, l⟩) (h' : labels = ⟨_, l'⟩) : l' = l :=
  (eq_of_heq (Sigma.mk.inj (h.symm.trans h')).2).symm

/-- C116.  Data whose rows are rotated and translated, and exogenous variables whose rows are mapped by
an invertible matrix and translated: if the samples get the same labels, the residuals and the
covariances are rotated, nothing else.  (Without a trend, if nothing is translated.) -/
theorem C116_pwvarx_residuals_moved (hl : lstsq.Exact) {Q : Matrix (Fin D) (Fin D) ℝ}
    (hQ : Q * Qᵀ = 1) {M N : Matrix (Fin E) (Fin E) ℝ} (hM : M * N = 1) {b : Fin D → ℝ}
    {c : Fin E → ℝ} (hb : obj.includeTrend = false → b = 0 ∧ c = 0)
    {X X' : Matrix (Fin n) (Fin D) ℝ} (hX : RowsMoved Q b X X') {U U' : Matrix (Fin n) (Fin E) ℝ}
    (hU : RowsMoved M c U U')
    (h : obj.fitTransform lstsq (.mat (Arr2.of X)) (some (.mat (Arr2.of U))) = Py.ok (o, labels))
    (h' : obj.fitTransform lstsq (.mat (Arr2.of X')) (some (.mat (Arr2.of U'))) = Py.ok (o', labels)) :
    ∃ (F : PWFitted obj o n D E) (F' : PWFitted obj o' n D E), labels = ⟨_, F.lab⟩ ∧
      F.ResidualsMoved Q F' := by
  obtain ⟨F, x, h1, hx, h3, h4, -⟩ := pw_fit_spec h
  obtain ⟨F', x', h1', hx', h3', h4', -⟩ := pw_fit_spec h'
  have hp : max obj.p obj.s ≤ n := (stackPredictors_ok hx).1
  refine ⟨F, F', h1, pw_residuals_moved hl hQ hM hb
    (pwData_of_fit hx fun u hu => by cases hu; rfl) (pwData_of_fit hx' fun u hu => by cases hu; rfl)
    (fun t σ hσ => rowsMoved_seq hX ?_) (fun t σ hσ => rowsMoved_seq hU ?_)
    (lab_eq_of_labels h1 h1') h3 h3' h4 h4'⟩ <;>
  · have : (t : ℕ) < n - max obj.p obj.s := t.2
    have : σ ≤ t + max obj.p obj.s := hσ
    omega

/-- C116: without exogenous variables. -/
theorem C116_pwvarx_residuals_moved_no_exog (hl : lstsq.Exact) {Q : Matrix (Fin D) (Fin D) ℝ}
    (hQ : Q * Qᵀ = 1) {b : Fin D → ℝ} (hb : obj.includeTrend = false → b = 0)
    {X X' : Matrix (Fin n) (Fin D) ℝ} (hX : RowsMoved Q b X X')
    (h : obj.fitTransform lstsq (.mat (Arr2.of X)) none = Py.ok (o, labels))
    (h' : obj.fitTransform lstsq (.mat (Arr2.of X')) none = Py.ok (o', labels)) :
    ∃ (F : PWFitted obj o n D 0) (F' : PWFitted obj o' n D 0), labels = ⟨_, F.lab⟩ ∧
      F.ResidualsMoved Q F' := by
  obtain ⟨F, x, h1, hx, h3, h4, -⟩ := pw_fit_spec h
  obtain ⟨F', x', h1', hx', h3', h4', -⟩ := pw_fit_spec h'
  have hp : max obj.p obj.s ≤ n := (stackPredictors_ok hx).1
  have hd := pwData_of_fit (endog := .mat (Arr2.of X)) (exog := none) hx fun u hu => by cases hu
  have hd' := pwData_of_fit (endog := .mat (Arr2.of X')) (exog := none) hx' fun u hu => by cases hu
  refine ⟨F, F', h1, pw_residuals_moved hl hQ (M := 1) (N := 1) (mul_one _) (c := 0)
    (fun ht => ⟨hb ht, rfl⟩)
    hd hd'
    (fun t σ hσ => rowsMoved_seq hX ?_) (fun t σ hσ => funext fun e => Fin.elim0 e)
    (lab_eq_of_labels h1 h1') h3 h3' h4 h4'⟩
  have : (t : ℕ) < n - max obj.p obj.s := t.2
  have : σ ≤ t + max obj.p obj.s := hσ
  omega

/-- C116: if the least-squares routine returns the solution of least norm, as the library does, and
nothing is translated, the coefficients are rotated as well, even where the samples of a component do
not determine them. -/
theorem C116_pwvarx_coefficients_rotated (hl : lstsq.MinNorm) {Q : Matrix (Fin D) (Fin D) ℝ}
    (hQ : Q * Qᵀ = 1) {M : Matrix (Fin E) (Fin E) ℝ} (hM : M * Mᵀ = 1)
    {X X' : Matrix (Fin n) (Fin D) ℝ} (hX : RowsMoved Q 0 X X') {U U' : Matrix (Fin n) (Fin E) ℝ}
    (hU : RowsMoved M 0 U U')
    (h : obj.fitTransform lstsq (.mat (Arr2.of X)) (some (.mat (Arr2.of U))) = Py.ok (o, labels))
    (h' : obj.fitTransform lstsq (.mat (Arr2.of X')) (some (.mat (Arr2.of U'))) = Py.ok (o', labels)) :
    ∃ (F : PWFitted obj o n D E) (F' : PWFitted obj o' n D E), labels = ⟨_, F.lab⟩ ∧
      F.CoefficientsTurned Q M F' := by
  obtain ⟨F, x, h1, hx, h3, h4, -⟩ := pw_fit_spec h
  obtain ⟨F', x', h1', hx', h3', h4', -⟩ := pw_fit_spec h'
  have hp : max obj.p obj.s ≤ n := (stackPredictors_ok hx).1
  refine ⟨F, F', h1, pw_coefficients_turned hl hQ hM
    (pwData_of_fit hx fun u hu => by cases hu; rfl) (pwData_of_fit hx' fun u hu => by cases hu; rfl)
    (fun t σ hσ => (rowsMoved_seq hX ?_).trans (add_zero _))
    (fun t σ hσ => (rowsMoved_seq hU ?_).trans (add_zero _))
    (lab_eq_of_labels h1 h1') h3 h3'⟩ <;>
  · have : (t : ℕ) < n - max obj.p obj.s := t.2
    have : σ ≤ t + max obj.p obj.s := hσ
    omega

/-- C116: without exogenous variables. -/
theorem C116_pwvarx_coefficients_rotated_no_exog (hl : lstsq.MinNorm) {Q : Matrix (Fin D) (Fin D) ℝ}
    (hQ : Q * Qᵀ = 1) {X X' : Matrix (Fin n) (Fin D) ℝ} (hX : RowsMoved Q 0 X X')
    (h : obj.fitTransform lstsq (.mat (Arr2.of X)) none = Py.ok (o, labels))
    (h' : obj.fitTransform lstsq (.mat (Arr2.of X')) none = Py.ok (o', labels)) :
    ∃ (F : PWFitted obj o n D 0) (F' : PWFitted obj o' n D 0), labels = ⟨_, F.lab⟩ ∧
      F.CoefficientsTurned Q 1 F' := by
  obtain ⟨F, x, h1, hx, h3, h4, -⟩ := pw_fit_spec h
  obtain ⟨F', x', h1', hx', h3', h4', -⟩ := pw_fit_spec h'
  have hp : max obj.p obj.s ≤ n := (stackPredictors_ok hx).1
  have hd := pwData_of_fit (endog := .mat (Arr2.of X)) (exog := none) hx fun u hu => by cases hu
  have hd' := pwData_of_fit (endog := .mat (Arr2.of X')) (exog := none) hx' fun u hu => by cases hu
  refine ⟨F, F', h1, pw_coefficients_turned hl hQ (Matrix.ext fun (e : Fin 0) _ => e.elim0)
    hd hd'
    (fun t σ hσ => (rowsMoved_seq hX ?_).trans (add_zero _)) (fun t σ hσ => funext fun e => Fin.elim0 e)
    (lab_eq_of_labels h1 h1') h3 h3'⟩
  have : (t : ℕ) < n - max obj.p obj.s := t.2
  have : σ ≤ t + max obj.p obj.s := hσ
  omega

/-! ### A concrete case

Samples are labelled 0 and 1 alternately. -/

/-- A classifier that alternates. -/
def altPWLib : PWLib where
  Clusterer := Unit
  newKMeans := fun _ => ()
  fitPredict := fun _ _ => Py.ok ((), fun t => (t : ℕ) % 2)
  Classifier := Unit
  newSVC := ()
  fit := fun _ _ _ => Py.ok ()
  predict := fun _ _ => Py.ok fun t => (t : ℕ) % 2

theorem altPWLib_total : altPWLib.Total :=
  ⟨fun _ _ => ⟨_, rfl⟩, fun _ _ _ => ⟨_, rfl⟩, fun _ _ => ⟨_, rfl⟩⟩

/-- C116: the trend is needed.  Without one (and without lags) the residuals are the data, so that
those of translated data differ although the labels agree. -/
theorem C116_pwvarx_translation_needs_trend : ∃ (lstsq : LstSq) (obj o o' : PWObj altPWLib)
    (labels : Σ m : ℕ, Fin m → ℤ) (X X' : Matrix (Fin 1) (Fin 2) ℝ) (b : Fin 2 → ℝ),
    lstsq.MinNorm ∧ obj.includeTrend = false ∧ RowsMoved 1 b X X' ∧
    obj.fitTransform lstsq (.mat (Arr2.of X)) none = Py.ok (o, labels) ∧
    obj.fitTransform lstsq (.mat (Arr2.of X')) none = Py.ok (o', labels) ∧
    o.residuals ≠ o'.residuals := by
  obtain ⟨lstsq, hl⟩ := exists_minNorm_lstsq
  have htot : ∀ m n r a b, ∃ z, lstsq m n r a b = Py.ok z := fun m n r a b =>
    (hl m n r a b).imp fun _ h => h.1
  have hn : max 0 0 ≤ 1 := by decide
  let obj : PWObj altPWLib := { nComponents := .int (1 : ℕ), p := 0, includeTrend := false }
  have run : ∀ X : Matrix (Fin 1) (Fin 2) ℝ, ∃ o,
      obj.fitTransform lstsq (.mat (Arr2.of X)) none = Py.ok (o, ⟨1, fun t => (t : ℕ) % 2⟩) ∧
      o.residuals = some (Arr2.of X) := by
    intro X
    obtain ⟨⟨o, l⟩, h⟩ := pw_fit_succeeds (lib := altPWLib) (obj := obj)
      (exog := none) (endog := .mat (Arr2.of X)) altPWLib_total htot (K := 1) rfl
      (by rintro a h; cases h; exact (by decide : (2 : ℕ) ≠ 1)) hn (by
        intro u h _
        cases h)
    obtain ⟨F, x, hlab, -, -, -, f, -, hf⟩ := pw_fit_spec h
    obtain ⟨G, hG, hR, -⟩ := C56_pwvarx_residuals (fun u h => by cases h) h
    have hGl : G.lab = F.lab := eq_of_heq (Sigma.mk.inj (hG.symm.trans hlab)).2
    have hfl : F.lab = fun t : Fin 1 => ((t : ℕ) : ℤ) % 2 := (Py.ok.inj hf).symm
    have hGK : G.K = 1 := by exact_mod_cast (NumArg.int.inj G.components).symm
    have hval : G.R = X := by
      refine funext fun (t : Fin 1) => funext fun d => ?_
      obtain rfl := Subsingleton.elim t 0
      refine (hR (0 : Fin 1) ⟨0, by omega⟩ (by rw [hGl, hfl]; rfl) d).trans ?_
      have e : G.forecast (rowSeq X) (pwExogSeq none) ⟨0, by omega⟩ 0 d = 0 := by
        unfold PWFitted.forecast varxPrediction
        rw [G.mu_zero rfl]
        refine (congrArg₂ (· + ·) (congrArg₂ (· + ·) (congrArg₂ (· + ·) rfl
          (Finset.sum_eq_zero fun (i : Fin 0) _ => i.elim0))
          (Finset.sum_eq_zero fun (i : Fin 0) _ => i.elim0))
          (Finset.sum_eq_zero fun (i : Fin 0) _ => i.elim0)).trans ?_
        simp
      refine (congrArg₂ (· - ·) (rfl : _ = X 0 d) e).trans (sub_zero _)
    refine ⟨o, ?_, ?_⟩
    · rw [h, hlab, hfl]
      rfl
    · rw [G.R_eq, hval]
      rfl
  obtain ⟨o, ho, hr⟩ := run 0
  obtain ⟨o', ho', hr'⟩ := run fun _ _ => 1
  refine ⟨lstsq, obj, o, o', _, 0, fun _ _ => 1, fun _ => 1, hl, rfl, fun t d => ?_, ho, ho', ?_⟩
  · simp
  · rw [hr, hr']
    intro h
    have h1 := congrArg (fun a : Arr2 ℝ => ∑ t : Fin a.rows, ∑ d : Fin a.cols, a.val t d)
      (Option.some.inj h)
    have h2 : (∑ t : Fin 1, ∑ d : Fin 2, (0 : ℝ)) = ∑ t : Fin 1, ∑ d : Fin 2, (1 : ℝ) := h1
    simp at h2

/-- C116: fits of data and of the same data, turned by a quarter (and exogenous variables reversed). -/
example : ∃ (lstsq : LstSq) (obj o o' : PWObj altPWLib) (labels : Σ m : ℕ, Fin m → ℤ)
    (X X' : Matrix (Fin 5) (Fin 2) ℝ) (U U' : Matrix (Fin 5) (Fin 1) ℝ) (Q : Matrix (Fin 2) (Fin 2) ℝ),
    lstsq.MinNorm ∧ Q * Qᵀ = 1 ∧ Q ≠ 1 ∧ RowsMoved Q 0 X X' ∧ RowsMoved (-1) 0 U U' ∧ X ≠ X' ∧ U ≠ U' ∧
    obj.fitTransform lstsq (.mat (Arr2.of X)) (some (.mat (Arr2.of U))) = Py.ok (o, labels) ∧
    obj.fitTransform lstsq (.mat (Arr2.of X')) (some (.mat (Arr2.of U'))) = Py.ok (o', labels) := by
  obtain ⟨lstsq, hl⟩ := exists_minNorm_lstsq
  have htot : ∀ m n r a b, ∃ z, lstsq m n r a b = Py.ok z := fun m n r a b =>
    (hl m n r a b).imp fun _ h => h.1
  have hn : max 1 1 ≤ 5 := by decide
  let obj : PWObj altPWLib := { nComponents := .int (2 : ℕ), p := 1, s := 1 }
  let X : Matrix (Fin 5) (Fin 2) ℝ := !![1, 0; -1, 2; 3, 1; -2, 5; 4, 4]
  let U : Matrix (Fin 5) (Fin 1) ℝ := Matrix.of fun t _ => t + 1
  let Q : Matrix (Fin 2) (Fin 2) ℝ := !![0, 1; -1, 0]
  have run : ∀ (X : Matrix (Fin 5) (Fin 2) ℝ) (U : Matrix (Fin 5) (Fin 1) ℝ), ∃ o,
      obj.fitTransform lstsq (.mat (Arr2.of X)) (some (.mat (Arr2.of U))) =
        Py.ok (o, ⟨4, fun t => (t : ℕ) % 2⟩) := by
    intro X U
    obtain ⟨⟨o, l⟩, h⟩ := pw_fit_succeeds (lib := altPWLib) (obj := obj)
      (exog := some (.mat (Arr2.of U))) (endog := .mat (Arr2.of X))
      altPWLib_total htot (K := 2) rfl
      (by rintro a h; cases h; exact (by decide : (2 : ℕ) ≠ 1)) hn (by
        intro u h _
        cases h
        exact Or.inl rfl)
    obtain ⟨F, x, rfl, -, -, -, f, -, hf⟩ := pw_fit_spec h
    refine ⟨o, h.trans ?_⟩
    rw [← Py.ok.inj hf]
    rfl
  obtain ⟨o, ho⟩ := run X U
  obtain ⟨o', ho'⟩ := run (X * Q) (U * (-1 : Matrix (Fin 1) (Fin 1) ℝ))
  refine ⟨lstsq, obj, o, o', _, X, X * Q, U, U * (-1 : Matrix (Fin 1) (Fin 1) ℝ), Q, hl, ?_, ?_,
    fun t d => (add_zero _).symm, fun t d => (add_zero _).symm, ?_, ?_, ho, ho'⟩
  · ext i j
    fin_cases i <;> fin_cases j <;> simp [Q, Matrix.mul_apply, Fin.sum_univ_two]
  · intro h
    have := congrFun (congrFun h 0) 0
    simp [Q] at this
  · intro h
    have := congrFun (congrFun h 0) 0
    simp [X, Q, Matrix.mul_apply, Fin.sum_univ_two] at this
  · intro h
    rw [Matrix.mul_neg, Matrix.mul_one] at h
    have := congrFun (congrFun h 0) 0
    simp [U] at this
    norm_num at this

end Reor
