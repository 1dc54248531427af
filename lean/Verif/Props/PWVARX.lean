import Verif.Proofs.PWVARX
import Verif.Props.VARX

/-!
Properties of `ClusterPWVARX`: C56, C57, C72-C75.
-/

set_option linter.unusedSectionVars false

namespace Reor

open scoped BigOperators
open Spec

variable {lib : PWLib} {lstsq : LstSq} {obj obj' : PWObj lib} {endog : PWArr} {exog : Option PWArr}
  {labels : Σ m : ℕ, Fin m → ℤ}

/-- The fitted attributes of `obj'` after a fit of `n` samples of `D` features and `E` exogenous
variables with the settings of `obj`.  Without a trend there is no intercept. -/
structure PWFitted (obj obj' : PWObj lib) (n D E : ℕ) where
  K : ℕ
  mu : Matrix (Fin K) (Fin D) ℝ
  A : Fin K → Fin obj.p → Matrix (Fin D) (Fin D) ℝ
  B : Fin K → Fin obj.s → Matrix (Fin D) (Fin E) ℝ
  S : Fin K → Option (Matrix (Fin D) (Fin D) ℝ)
  R : Matrix (Fin (n - max obj.p obj.s)) (Fin D) ℝ
  lab : Fin (n - max obj.p obj.s) → ℤ
  components : obj.nComponents = .int K
  mu_eq : obj.includeTrend = true → obj'.mu = some (Arr2.of mu)
  mu_zero : obj.includeTrend = false → mu = 0
  A_eq : 0 < obj.p → obj'.A = some ⟨K, obj.p, D, D, A⟩
  B_eq : 0 < obj.s * E → obj'.B = some ⟨K, obj.s, D, E, B⟩
  S_eq : obj'.sigmaU = some ⟨K, D, S⟩
  R_eq : obj'.residuals = some (Arr2.of R)

/-- Number of exogenous variables. -/
abbrev exogCount (exog : Option PWArr) : ℕ := exogCols (exog.map PWArr.matrix)

/-- What a fit that returns has done. -/
theorem pw_fit_spec (h : obj.fitTransform lstsq endog exog = Py.ok (obj', labels)) :
    ∃ (F : PWFitted obj obj' endog.matrix.rows endog.matrix.cols (exogCount exog))
      (x : Matrix (Fin (endog.matrix.rows - max obj.p obj.s))
        (Fin (obj.p * endog.matrix.cols + obj.s * exogCount exog)) ℝ),
      labels = ⟨_, F.lab⟩ ∧
      stackPredictors obj.p obj.s endog.matrix (exog.map PWArr.matrix) = Py.ok x ∧
      (∀ k, ∃ params, PWDone lstsq obj.includeTrend (lagRows (max obj.p obj.s) endog.matrix.val 0) x
        F.lab (⟨F.mu, F.A, F.B, F.S, F.R⟩ : PWState F.K _ _ _ _ _) k 0 params) ∧
      (∀ t, (∀ k : Fin F.K, F.lab t ≠ (k : ℕ)) → F.R t = 0) ∧
      (∃ f, obj'.classifier = some f ∧ lib.predict f (Arr2.of x) = Py.ok F.lab) := by
  unfold PWObj.fitTransform at h
  simp only at h
  obtain ⟨x, hx, h⟩ := Py.bind_eq_ok.1 h
  obtain ⟨_, -, h⟩ := Py.bind_eq_ok.1 h
  obtain ⟨⟨o1, lab⟩, hc, h⟩ := Py.bind_eq_ok.1 h
  obtain ⟨o2, ho, h⟩ := Py.bind_eq_ok.1 h
  have h := Py.ok.inj h
  rw [Prod.mk.injEq] at h
  obtain ⟨rfl, rfl⟩ := h
  unfold PWObj.classify at hc
  obtain ⟨c, -, hc⟩ := Py.bind_eq_ok.1 hc
  obtain ⟨f, -, hc⟩ := Py.bind_eq_ok.1 hc
  obtain ⟨l, hl, hc⟩ := Py.bind_eq_ok.1 hc
  have hc := Py.ok.inj hc
  obtain ⟨rfl, rfl⟩ := Prod.mk.inj hc
  unfold PWObj.fitVarModel at ho
  obtain ⟨K, hK, ho⟩ := Py.bind_eq_ok.1 ho
  obtain ⟨st, hst, ho⟩ := Py.bind_eq_ok.1 ho
  have ho := Py.ok.inj ho
  obtain ⟨h1, -, h3⟩ := pwLoop_spec (List.nodup_finRange K) hst
  have hcomp : obj.nComponents = .int K := by
    simp only at hK
    cases hn : obj.nComponents with
    | int z =>
      rw [hn] at hK
      unfold pwSize at hK
      simp only at hK
      split_ifs at hK with hz
      rw [← Py.ok.inj hK, Int.toNat_of_nonneg (by omega)]
    | _ => simp [hn, pwSize] at hK
  have hmu : obj.includeTrend = false → st.mu = 0 := by
    intro ht
    funext k
    obtain ⟨params, hp⟩ := h1 k (List.mem_finRange k)
    rw [hp.mu]
    unfold pwReadMu
    rw [dif_neg (by simp [ht])]
    rfl
  subst ho
  refine ⟨⟨K, st.mu, st.A, st.B, st.sigmaU, st.residuals, l, hcomp, fun ht => if_pos ht, hmu,
    fun hp => if_pos hp, fun hp => if_pos hp, rfl, rfl⟩, x, rfl, hx, fun k => ?_, fun t ht => ?_,
    f, rfl, hl⟩
  · exact h1 k (List.mem_finRange k)
  · exact h3 t fun k _ => ht k

/-- The one-step forecast of component `k` for the sample at time `t`. -/
noncomputable def PWFitted.forecast {n D E : ℕ} (F : PWFitted obj obj' n D E)
    (y : ℕ → Fin D → ℝ) (u : ℕ → Fin E → ℝ) (k : Fin F.K) (t : ℕ) : Fin D → ℝ :=
  varxPrediction (F.mu k) (F.A k) (F.B k) 0 y u t

/-- The exogenous variables as a sequence. -/
noncomputable abbrev pwExogSeq (exog : Option PWArr) : ℕ → Fin (exogCount exog) → ℝ :=
  exogSeq (exog.map PWArr.matrix)

/-- The rows of the design matrix predict. -/
theorem pw_design_predicts
    {x : Matrix (Fin (endog.matrix.rows - max obj.p obj.s))
      (Fin (obj.p * endog.matrix.cols + obj.s * exogCount exog)) ℝ}
    (hx : stackPredictors obj.p obj.s endog.matrix (exog.map PWArr.matrix) = Py.ok x)
    (hu : ∀ u, exog = some u → u.matrix.rows = endog.matrix.rows)
    (params : Matrix (Fin (trendCols obj.includeTrend +
      (obj.p * endog.matrix.cols + obj.s * exogCount exog))) (Fin endog.matrix.cols) ℝ)
    (t : Fin (endog.matrix.rows - max obj.p obj.s)) (d : Fin endog.matrix.cols) :
    (pwDesign obj.includeTrend x * params) t d =
      varxPrediction ((pwReadMu params).getD 0) (pwReadA params) (pwReadB params) 0
        (rowSeq endog.matrix.val) (pwExogSeq exog) (t + max obj.p obj.s) d := by
  refine pwDesign_mul x params _ _ t _ (fun i b h => ?_) (fun i b h => ?_) d
  · exact stackPredictors_endog hx t _ i b rfl
  · cases exog with
    | none => exact b.elim0
    | some u =>
      have hr := hu u rfl
      obtain ⟨block, hb, e⟩ := stackPredictors_exog hx t
        ⟨obj.p * endog.matrix.cols + (i * u.matrix.cols + b), h⟩ i b rfl
      rw [exogBlock_eq (by rw [hr])] at hb
      refine e.trans ?_
      rw [← Py.ok.inj hb]
      refine (lagRows_rowSeq (le_trans i.2 (le_max_right _ _)) _ _ _).trans ?_
      rfl

/-- C56.  After a fit, the residual of each sample is the error of the forecast, with the reported
coefficients, of the component that the sample is labelled with; samples with a label that is not a
component have residual 0. -/
theorem C56_pwvarx_residuals (hu : ∀ u, exog = some u → u.matrix.rows = endog.matrix.rows)
    (h : obj.fitTransform lstsq endog exog = Py.ok (obj', labels)) :
    ∃ F : PWFitted obj obj' endog.matrix.rows endog.matrix.cols (exogCount exog),
      labels = ⟨_, F.lab⟩ ∧
      (∀ t (k : Fin F.K), F.lab t = (k : ℕ) → ∀ d, F.R t d =
        rowSeq endog.matrix.val (t + max obj.p obj.s) d -
          F.forecast (rowSeq endog.matrix.val) (pwExogSeq exog) k (t + max obj.p obj.s) d) ∧
      (∀ t, (∀ k : Fin F.K, F.lab t ≠ (k : ℕ)) → ∀ d, F.R t d = 0) := by
  obtain ⟨F, x, h1, hx, h3, h4, -⟩ := pw_fit_spec h
  refine ⟨F, h1, fun t k hk d => ?_, fun t ht d => by rw [h4 t ht]; rfl⟩
  obtain ⟨params, hp⟩ := h3 k
  have hm : F.mu k = (pwReadMu params).getD 0 := hp.mu
  have hA : F.A k = pwReadA params := hp.A
  have hB : F.B k = pwReadB params := hp.B
  refine (hp.residuals t hk d).trans ?_
  rw [pw_design_predicts hx hu, lagRows_rowSeq (Nat.zero_le _), Nat.sub_zero]
  unfold PWFitted.forecast
  rw [hm, hA, hB]

/-- C72.  The reported coefficients of each component minimise the squared errors of the forecasts of
the samples with its label, among all coefficients (with intercept 0 if there is no trend). -/
theorem C72_pwvarx_least_squares (hls : lstsq.Exact)
    (hu : ∀ u, exog = some u → u.matrix.rows = endog.matrix.rows)
    (h : obj.fitTransform lstsq endog exog = Py.ok (obj', labels)) :
    ∃ F : PWFitted obj obj' endog.matrix.rows endog.matrix.cols (exogCount exog),
      labels = ⟨_, F.lab⟩ ∧ ∀ (k : Fin F.K) (mu : Fin endog.matrix.cols → ℝ)
        (A : Fin obj.p → Matrix (Fin endog.matrix.cols) (Fin endog.matrix.cols) ℝ)
        (B : Fin obj.s → Matrix (Fin endog.matrix.cols) (Fin (exogCount exog)) ℝ),
        (obj.includeTrend = false → mu = 0) →
        ∑ t, (if F.lab t = (k : ℕ) then sqDist (rowSeq endog.matrix.val (t + max obj.p obj.s))
          (F.forecast (rowSeq endog.matrix.val) (pwExogSeq exog) k (t + max obj.p obj.s)) else 0) ≤
        ∑ t, (if F.lab t = (k : ℕ) then sqDist (rowSeq endog.matrix.val (t + max obj.p obj.s))
          (varxPrediction mu A B 0 (rowSeq endog.matrix.val) (pwExogSeq exog)
            (t + max obj.p obj.s)) else 0) := by
  obtain ⟨F, x, h1, hx, h3, -, -⟩ := pw_fit_spec h
  refine ⟨F, h1, fun k mu A B hmu => ?_⟩
  obtain ⟨params, hp⟩ := h3 k
  obtain ⟨params', e1, e2, e3⟩ := exists_pwParams mu hmu A B
  have hm : F.mu k = (pwReadMu params).getD 0 := hp.mu
  have hA : F.A k = pwReadA params := hp.A
  have hB : F.B k = pwReadB params := hp.B
  have key : ∀ q : Matrix (Fin (trendCols obj.includeTrend +
      (obj.p * endog.matrix.cols + obj.s * exogCount exog))) (Fin endog.matrix.cols) ℝ,
      lsError (pwDesign obj.includeTrend (takeRows x (maskRows F.lab k)))
        (takeRows (lagRows (max obj.p obj.s) endog.matrix.val 0) (maskRows F.lab k)) q =
      ∑ t, (if F.lab t = (k : ℕ) then sqDist (rowSeq endog.matrix.val (t + max obj.p obj.s))
          (varxPrediction ((pwReadMu q).getD 0) (pwReadA q) (pwReadB q) 0 (rowSeq endog.matrix.val)
            (pwExogSeq exog) (t + max obj.p obj.s)) else 0) := by
    intro q
    rw [← sum_maskRows]
    unfold lsError frobSq sqDist
    refine Finset.sum_congr rfl fun r _ => Finset.sum_congr rfl fun d _ => ?_
    rw [Matrix.sub_apply, Matrix.mul_apply, pwDesign_takeRows, ← Matrix.mul_apply,
      pw_design_predicts hx hu]
    have := lagRows_rowSeq (i := 0) (Nat.zero_le _) endog.matrix.val ((maskRows F.lab k).get r) d
    rw [Nat.sub_zero] at this
    refine congrArg (fun z => (z - _) ^ 2) this
  have hle := hls _ _ _ _ _ _ hp.fit params'
  rw [key, key, e1, e2, e3] at hle
  unfold PWFitted.forecast
  rw [hm, hA, hB]
  exact hle

/-- The fitted attributes are those of the object. -/
theorem PWFitted.unique {n D E : ℕ} (F F' : PWFitted obj obj' n D E) :
    F.K = F'.K ∧ F.R = F'.R := by
  refine ⟨by exact_mod_cast NumArg.int.inj (F.components.symm.trans F'.components), ?_⟩
  have h := Option.some.inj (F.R_eq.symm.trans F'.R_eq)
  unfold Arr2.of at h
  simpa using h

/-- C75.  The covariance of a component is the sum of `r rᵀ` over the residuals of its samples divided
by the number of its samples less the number of coefficients per feature, and it is not finite exactly
if these numbers are equal. -/
theorem C75_pwvarx_covariance
    (h : obj.fitTransform lstsq endog exog = Py.ok (obj', labels)) :
    ∃ F : PWFitted obj obj' endog.matrix.rows endog.matrix.cols (exogCount exog),
      labels = ⟨_, F.lab⟩ ∧ ∀ k : Fin F.K,
        let df : ℤ := ((Finset.univ.filter fun t => F.lab t = (k : ℕ)).card : ℤ) -
          (obj.p * endog.matrix.cols + obj.s * exogCount exog +
            if obj.includeTrend then 1 else 0 : ℕ)
        (F.S k = none ↔ df = 0) ∧ ∀ S, F.S k = some S → ∀ a b,
          S a b = (∑ t, if F.lab t = (k : ℕ) then F.R t a * F.R t b else 0) / df := by
  obtain ⟨F, x, h1, hx, h3, h4, -⟩ := pw_fit_spec h
  refine ⟨F, h1, fun k => ?_⟩
  obtain ⟨params, hp⟩ := h3 k
  have hS : F.S k = _ := hp.sigmaU
  have hc : (maskRows F.lab k).length = (Finset.univ.filter fun t => F.lab t = (k : ℕ)).card := by
    rw [← List.toFinset_card_of_nodup maskRows_nodup]
    congr 1
    ext t
    simp [mem_maskRows]
  have hdf : ((maskRows F.lab k).length : ℝ) - obj.p * endog.matrix.cols -
      trendCols obj.includeTrend - exogCount exog * obj.s =
      ((((Finset.univ.filter fun t => F.lab t = (k : ℕ)).card : ℤ) -
          (obj.p * endog.matrix.cols + obj.s * exogCount exog +
            if obj.includeTrend then 1 else 0 : ℕ) : ℤ) : ℝ) := by
    rw [hc]
    unfold trendCols
    push_cast
    ring
  intro df
  rw [hdf] at hS
  change _ = covariance _ (df : ℝ) at hS
  clear_value df
  unfold covariance at hS
  refine ⟨?_, fun S h a b => ?_⟩
  · rw [hS]
    split_ifs with h0
    · simpa using h0
    · simpa using h0
  · rw [hS] at h
    split_ifs at h with h0
    rw [← Option.some.inj h]
    refine congrArg (· / _) ?_
    rw [Matrix.mul_apply, ← sum_maskRows (fun t => F.R t a * F.R t b)]
    rfl

/-- C73.  Labels from `transform` on the data of the fit are those the fit returned. -/
theorem C73_pwvarx_transform_repeats
    (h : obj.fitTransform lstsq endog exog = Py.ok (obj', labels)) :
    obj'.transform endog exog = Py.ok labels := by
  unfold PWObj.fitTransform at h
  simp only at h
  obtain ⟨x, hx, h⟩ := Py.bind_eq_ok.1 h
  obtain ⟨_, -, h⟩ := Py.bind_eq_ok.1 h
  obtain ⟨⟨o1, lab⟩, hc, h⟩ := Py.bind_eq_ok.1 h
  obtain ⟨o2, ho, h⟩ := Py.bind_eq_ok.1 h
  have h := Py.ok.inj h
  rw [Prod.mk.injEq] at h
  obtain ⟨rfl, rfl⟩ := h
  unfold PWObj.classify at hc
  obtain ⟨c, -, hc⟩ := Py.bind_eq_ok.1 hc
  obtain ⟨f, -, hc⟩ := Py.bind_eq_ok.1 hc
  obtain ⟨l, hl, hc⟩ := Py.bind_eq_ok.1 hc
  have hc := Py.ok.inj hc
  obtain ⟨rfl, rfl⟩ := Prod.mk.inj hc
  unfold PWObj.fitVarModel at ho
  obtain ⟨K, -, ho⟩ := Py.bind_eq_ok.1 ho
  obtain ⟨st, -, ho⟩ := Py.bind_eq_ok.1 ho
  have ho := Py.ok.inj ho
  subst ho
  unfold PWObj.transform
  simp only
  rw [hx]
  simp only [Py.ok_bind, hl]
  rfl

/-- C73: before the first fit, without a given classifier, no data can be transformed. -/
theorem C73_pwvarx_unfitted (hc : obj.classifier = none) (hn : max obj.p obj.s ≤ endog.matrix.rows)
    (hu : ∀ u, exog = some u → u.matrix.rows = endog.matrix.rows) :
    obj.transform endog exog = Py.raise .attributeError := by
  unfold PWObj.transform
  rcases stackPredictors_cases (p := obj.p) (s := obj.s) (endog := endog.matrix)
    (exog := exog.map PWArr.matrix) with ⟨-, x, hx⟩ | ⟨h', -⟩
  · rw [hx, Py.ok_bind, hc]
  · refine absurd ⟨hn, fun u h _ => ?_⟩ h'
    obtain ⟨v, rfl, rfl⟩ := Option.map_eq_some_iff.1 h
    rw [hu v rfl]
    exact Or.inl rfl

/-- C73: `transform` sees only the values, so that a vector and an array with one column are
transformed alike (while only the vector can be fitted, C57). -/
theorem C73_pwvarx_transform_column {n : ℕ} (x : Fin n → ℝ) :
    obj.transform (.mat ⟨n, 1, fun t _ => x t⟩) exog = obj.transform (.vec n x) exog := rfl

/-- C57.  Two-dimensional data with one column are always rejected with a ValueError. -/
theorem C57_pwvarx_single_column {a : Arr2 ℝ} (ha : a.cols = 1) :
    obj.fitTransform lstsq (.mat a) exog = Py.raise .valueError := by
  unfold PWObj.fitTransform
  simp only
  rcases stackPredictors_cases (p := obj.p) (s := obj.s) (endog := (PWArr.mat a).matrix)
    (exog := exog.map PWArr.matrix) with ⟨-, x, hx⟩ | ⟨-, hx⟩
  · rw [hx, Py.ok_bind, checkAxes, if_pos ha]
    rfl
  · rw [hx]
    rfl

/-- scikit-learn raises nothing. -/
def PWLib.Total (lib : PWLib) : Prop :=
  (∀ c z, ∃ r, lib.fitPredict c z = Py.ok r) ∧ (∀ f x l, ∃ r, lib.fit f x l = Py.ok r) ∧
    ∀ f x, ∃ r, lib.predict f x = Py.ok r

/-- C57, C74: apart from that, enough samples (and an admissible number of components) are all that is
needed. -/
theorem pw_fit_succeeds (hlib : lib.Total) (htot : ∀ m n r a b, ∃ z, lstsq m n r a b = Py.ok z)
    {K : ℕ} (hK : obj.nComponents = .int K) (ha : ∀ a, endog = .mat a → a.cols ≠ 1)
    (hn : max obj.p obj.s ≤ endog.matrix.rows)
    (hu : ExogFits (max obj.p obj.s) obj.s endog.matrix.rows (exog.map PWArr.matrix)) :
    ∃ r, obj.fitTransform lstsq endog exog = Py.ok r := by
  unfold PWObj.fitTransform
  simp only
  rcases stackPredictors_cases (p := obj.p) (s := obj.s) (endog := endog.matrix)
    (exog := exog.map PWArr.matrix) with ⟨-, x, hx⟩ | ⟨h', -⟩
  · have hax : checkAxes endog = Py.ok () := by
      cases endog with
      | vec n x => rfl
      | mat a => exact if_neg (ha a rfl)
    rw [hx, Py.ok_bind, hax, Py.ok_bind]
    unfold PWObj.classify
    obtain ⟨c, hc⟩ := hlib.1 (obj.clusterer.getD (lib.newKMeans obj.nComponents))
      (Arr2.of (hstack x (lagRows (max obj.p obj.s) endog.matrix.val 0)))
    obtain ⟨f, hf⟩ := hlib.2.1 (obj.classifier.getD lib.newSVC) (Arr2.of x) c.2
    obtain ⟨l, hl⟩ := hlib.2.2 f (Arr2.of x)
    rw [hc, Py.ok_bind, hf, Py.ok_bind, hl, Py.ok_bind]
    unfold PWObj.fitVarModel
    have hk : pwSize obj.nComponents = Py.ok K := by
      rw [hK, pwSize, if_neg (by omega)]
      rfl
    simp only [Py.pure_eq, Py.ok_bind, hk]
    obtain ⟨st, hst⟩ := pwLoop_total (trend := obj.includeTrend)
      (y := lagRows (max obj.p obj.s) endog.matrix.val 0) (x := x) (labels := l) htot
      (List.finRange K) ⟨0, fun _ _ => 0, fun _ _ => 0, fun _ => some 0, 0⟩
    rw [hst]
    exact ⟨_, rfl⟩
  · exact absurd ⟨hn, hu⟩ h'

/-- C57, in contrast: the same data as a vector are accepted. -/
theorem C57_pwvarx_vector_accepted (hlib : lib.Total)
    (htot : ∀ m n r a b, ∃ z, lstsq m n r a b = Py.ok z) {K : ℕ} (hK : obj.nComponents = .int K)
    {n : ℕ} (x : Fin n → ℝ) (hn : max obj.p obj.s ≤ n) :
    (∃ r, obj.fitTransform lstsq (.vec n x) none = Py.ok r) ∧
    obj.fitTransform lstsq (.mat ⟨n, 1, fun t _ => x t⟩) none = Py.raise .valueError :=
  ⟨pw_fit_succeeds hlib htot hK (fun a h => by simp at h) hn (fun u h => by simp at h),
    C57_pwvarx_single_column rfl⟩

/-- C74.  With lags of the exogenous variables, after the presample there must be as many samples of
them as of the data, or exactly one (which is then used for all times); otherwise both fitting and
transforming raise a ValueError. -/
theorem C74_pwvarx_exog_samples {u : PWArr} (hs : 0 < obj.s)
    (h1 : u.matrix.rows - max obj.p obj.s ≠ endog.matrix.rows - max obj.p obj.s)
    (h2 : u.matrix.rows - max obj.p obj.s ≠ 1) :
    obj.fitTransform lstsq endog (some u) = Py.raise .valueError ∧
    obj.transform endog (some u) = Py.raise .valueError := by
  have hx : stackPredictors obj.p obj.s endog.matrix ((some u).map PWArr.matrix) =
      Py.raise .valueError := by
    rcases stackPredictors_cases (p := obj.p) (s := obj.s) (endog := endog.matrix)
      (exog := (some u).map PWArr.matrix) with ⟨⟨-, h⟩, -⟩ | ⟨-, h⟩
    · rcases h _ rfl hs with h | h
      · exact absurd h h1
      · exact absurd h h2
    · exact h
  unfold PWObj.fitTransform PWObj.transform
  simp only
  rw [hx]
  exact ⟨rfl, rfl⟩

/-- C74: without lags of the exogenous variables they have no effect, whatever they are. -/
theorem C74_pwvarx_exog_unused (hs : obj.s = 0) (exog exog' : Option PWArr) :
    obj.fitTransform lstsq endog exog = obj.fitTransform lstsq endog exog' ∧
    obj.transform endog exog = obj.transform endog exog' := by
  constructor
  · unfold PWObj.fitTransform
    simp only
    refine (stackPredictors_same hs).bind_eq fun x x' hx => ?_
    refine congrArg _ (funext fun _ => ?_)
    rw [classify_same obj hx]
    refine congrArg _ (funext fun r => ?_)
    refine congrArg (· >>= _) (fitVarModel_same ({ obj with
      clusterer := r.1.clusterer, classifier := r.1.classifier,
      clusterLabels_ := r.1.clusterLabels_ } : PWObj lib) hs hx)
  · unfold PWObj.transform
    refine (stackPredictors_same hs).bind_eq fun x x' hx => ?_
    cases obj.classifier with
    | none => rfl
    | some f =>
      have : ∀ {m N N' : ℕ} {x : Matrix (Fin m) (Fin N) ℝ} {x' : Matrix (Fin m) (Fin N') ℝ},
          SameCols x x' → (lib.predict f (Arr2.of x) : Py (Fin m → ℤ)) = lib.predict f (Arr2.of x') := by
        intro m N N' x x' h
        obtain rfl := h.1
        rw [h.eq]
      exact congrArg (fun z : Py (Fin _ → ℤ) => z >>= fun l => Py.ok (⟨_, l⟩ : Σ m : ℕ, Fin m → ℤ))
        (this hx)

/-- C74: a fit without exogenous variables leaves the coefficients `B` of an earlier fit in place. -/
theorem C74_pwvarx_stale_exog_coefficients
    (h : obj.fitTransform lstsq endog none = Py.ok (obj', labels)) : obj'.B = obj.B := by
  unfold PWObj.fitTransform at h
  simp only at h
  obtain ⟨x, hx, h⟩ := Py.bind_eq_ok.1 h
  obtain ⟨_, -, h⟩ := Py.bind_eq_ok.1 h
  obtain ⟨⟨o1, lab⟩, hc, h⟩ := Py.bind_eq_ok.1 h
  obtain ⟨o2, ho, h⟩ := Py.bind_eq_ok.1 h
  have h := Py.ok.inj h
  rw [Prod.mk.injEq] at h
  obtain ⟨rfl, rfl⟩ := h
  unfold PWObj.fitVarModel at ho
  obtain ⟨K, -, ho⟩ := Py.bind_eq_ok.1 ho
  obtain ⟨st, -, ho⟩ := Py.bind_eq_ok.1 ho
  have ho := Py.ok.inj ho
  subst ho
  rfl

/-- C75: the divisor can be negative, and then so are the variances.  With two lags and a trend, a
component with the two samples 0 and 1 after equal histories gets a negative variance, whatever the
least-squares routine returns. -/
theorem C75_pwvarx_negative_variance {obj' : PWObj lib} {K : ℕ} (hK : 0 < K)
    (h : PWObj.fitTransform lstsq { nComponents := .int K, p := 2 } (.vec 4 ![0, 0, 0, 1]) none =
      Py.ok (obj', ⟨2, fun _ => 0⟩)) :
    ∃ (S : SigmaArr) (k : Fin S.size) (M : Matrix (Fin S.dim) (Fin S.dim) ℝ),
      obj'.sigmaU = some S ∧ S.val k = some M ∧ ∃ d, M d d < 0 := by
  obtain ⟨F, h1, h2, -⟩ := C56_pwvarx_residuals (fun u h => by simp at h) h
  obtain ⟨F', h1', h3⟩ := C75_pwvarx_covariance h
  obtain ⟨hKK, hR⟩ := PWFitted.unique F F'
  have hlab : F.lab = fun _ => 0 := (eq_of_heq (Sigma.mk.inj h1).2).symm
  have hlab' : F'.lab = fun _ => 0 := (eq_of_heq (Sigma.mk.inj h1').2).symm
  have hk : F.K = K := by exact_mod_cast (NumArg.int.inj F.components).symm
  have hk' : F'.K = K := hKK ▸ hk
  let k0 : Fin F.K := ⟨0, by omega⟩
  let k0' : Fin F'.K := ⟨0, by omega⟩
  have r0 := h2 (0 : Fin 2) k0 (congrFun hlab _) (0 : Fin 1)
  have r1 := h2 (1 : Fin 2) k0 (congrFun hlab _) (0 : Fin 1)
  have hd : F.R (1 : Fin 2) (0 : Fin 1) - F.R (0 : Fin 2) (0 : Fin 1) = 1 := by
    have hy : ∀ τ : ℕ, τ < 3 → rowSeq (PWArr.vec 4 ![0, 0, 0, 1]).matrix.val τ = fun _ => 0 := by
      intro τ hτ
      interval_cases τ <;> rfl
    have hf : ∀ τ : ℕ, 0 < τ → τ ≤ 3 → F.forecast (rowSeq (PWArr.vec 4 ![0, 0, 0, 1]).matrix.val)
        (pwExogSeq none) k0 τ (0 : Fin 1) = F.mu k0 (0 : Fin 1) := by
      intro τ h0 h3
      unfold PWFitted.forecast varxPrediction
      have s1 : ∀ z : ℕ, 0 < z → rowSeq (PWArr.vec 4 ![0, 0, 0, 1]).matrix.val (τ - z) = fun _ => 0 :=
        fun z hz => hy _ (by omega)
      rw [Finset.sum_eq_zero (fun i _ => Finset.sum_eq_zero fun b _ => by
        rw [s1 _ (Nat.succ_pos _), mul_zero])]
      rw [Finset.sum_eq_zero (fun i _ => Fin.elim0 i)]
      refine (congrArg₂ (· + ·) rfl (Finset.sum_eq_zero fun (e : Fin 0) _ => e.elim0)).trans ?_
      simp
    rw [r0, r1]
    refine (congrArg₂ _ (congrArg₂ _ ?_ (hf 3 (by decide) (by decide)))
      (congrArg₂ _ ?_ (hf 2 (by decide) (by decide)))).trans (?_ : (1 - F.mu k0 (0 : Fin 1)) -
        (0 - F.mu k0 (0 : Fin 1)) = 1)
    · rfl
    · rfl
    · ring
  obtain ⟨hn, hs⟩ := h3 k0'
  have hcard : (Finset.univ.filter fun t => F'.lab t = ((k0' : Fin F'.K) : ℕ)).card = 2 := by
    refine (congrArg Finset.card (Finset.filter_true_of_mem ?_)).trans rfl
    exact fun t _ => congrFun hlab' t
  rw [hcard] at hn hs
  have hdf : ((2 : ℕ) : ℤ) - ((2 * 1 + 0 * 0 + if true = true then 1 else 0 : ℕ) : ℤ) = -1 := by decide
  obtain ⟨M, hM⟩ : ∃ M, F'.S k0' = some M := by
    refine Option.ne_none_iff_exists'.1 fun h => ?_
    have := hn.1 h
    exact absurd (hdf.symm.trans this) (by decide)
  refine ⟨_, k0', M, F'.S_eq, hM, (0 : Fin 1), ?_⟩
  have hsum : M (0 : Fin 1) (0 : Fin 1) =
      (F.R (0 : Fin 2) (0 : Fin 1) * F.R (0 : Fin 2) (0 : Fin 1) +
        F.R (1 : Fin 2) (0 : Fin 1) * F.R (1 : Fin 2) (0 : Fin 1)) / ((-1 : ℤ) : ℝ) := by
    refine (hs M hM (0 : Fin 1) (0 : Fin 1)).trans ?_
    refine congrArg₂ _ ?_ (congrArg _ hdf)
    refine (Fin.sum_univ_two (M := ℝ) _).trans ?_
    rw [hR]
    exact congrArg₂ _ (if_pos (congrFun hlab' _)) (if_pos (congrFun hlab' _))
  rw [hsum]
  push_cast
  nlinarith [sq_nonneg (F.R (0 : Fin 2) (0 : Fin 1) + F.R (1 : Fin 2) (0 : Fin 1)), hd]

/-! ### A concrete case

Samples are labelled with the sign of the first predictor. -/

/-- A clusterer and a classifier. -/
noncomputable def demoPWLib : PWLib where
  Clusterer := Unit
  newKMeans := fun _ => ()
  fitPredict := fun _ z => Py.ok ((), fun t => if 0 < ∑ j : Fin z.cols, z.val t j then 1 else 0)
  Classifier := Unit
  newSVC := ()
  fit := fun _ _ _ => Py.ok ()
  predict := fun _ x => Py.ok fun t => if 0 < ∑ j : Fin x.cols, (if (j : ℕ) = 0 then x.val t j else 0) then 1 else 0

theorem demoPWLib_total : demoPWLib.Total :=
  ⟨fun _ _ => ⟨_, rfl⟩, fun _ _ _ => ⟨_, rfl⟩, fun _ _ => ⟨_, rfl⟩⟩

/-- Two components, one lag of two features and one of one exogenous variable. -/
def demoPW : PWObj demoPWLib where
  nComponents := .int 2
  p := 1
  s := 1

/-- Five samples of two features. -/
def demoPWData : PWArr := .mat ⟨5, 2, ![![1, 0], ![-1, 2], ![3, 1], ![-2, 5], ![4, 4]]⟩

/-- Five samples of one exogenous variable. -/
def demoPWExog : PWArr := .vec 5 ![1, 2, 3, 4, 5]

theorem demoPW_runs : ∃ lstsq : LstSq, lstsq.Exact ∧
    ∃ r, demoPW.fitTransform lstsq demoPWData (some demoPWExog) = Py.ok r := by
  obtain ⟨lstsq, hl, htot⟩ := exists_exact_lstsq
  refine ⟨lstsq, hl, pw_fit_succeeds demoPWLib_total htot (K := 2) rfl ?_ (by decide) ?_⟩
  · rintro a h
    cases h
    decide
  · intro u h _
    cases h
    exact Or.inl rfl

/-- C56, C72, C73, C75: fits with exogenous variables return, and their samples are as many as those
of the data. -/
example : ∃ lstsq : LstSq, lstsq.Exact ∧ ∃ obj' labels,
    demoPW.fitTransform lstsq demoPWData (some demoPWExog) = Py.ok (obj', labels) ∧
    ∀ u, some demoPWExog = some u → u.matrix.rows = demoPWData.matrix.rows := by
  obtain ⟨lstsq, hl, ⟨o, l⟩, h⟩ := demoPW_runs
  refine ⟨lstsq, hl, o, l, h, fun u hu => ?_⟩
  cases hu
  rfl

/-- C57: data with one column exist, and the vector of the same values is accepted. -/
example : ∃ lstsq : LstSq,
    (∃ r, demoPW.fitTransform lstsq (.vec 3 ![1, 2, 4]) none = Py.ok r) ∧
    demoPW.fitTransform lstsq (.mat ⟨3, 1, ![![1], ![2], ![4]]⟩) none = Py.raise .valueError := by
  obtain ⟨lstsq, -, htot⟩ := exists_exact_lstsq
  exact ⟨lstsq, (C57_pwvarx_vector_accepted demoPWLib_total htot (K := 2) rfl _ (by decide)).1,
    C57_pwvarx_single_column rfl⟩

/-- C73: an object that was not fitted. -/
example : demoPW.transform demoPWData none = Py.raise .attributeError :=
  C73_pwvarx_unfitted rfl (by decide) (fun u h => by simp at h)

/-- C74: three samples of the exogenous variable for five of the data. -/
example (lstsq : LstSq) :
    demoPW.fitTransform lstsq demoPWData (some (.vec 3 ![1, 2, 3])) = Py.raise .valueError :=
  (C74_pwvarx_exog_samples (by decide) (by decide) (by decide)).1

/-- C74: one sample after the presample is used for all times. -/
example : ∃ lstsq : LstSq,
    ∃ r, demoPW.fitTransform lstsq demoPWData (some (.vec 2 ![1, 2])) = Py.ok r := by
  obtain ⟨lstsq, -, htot⟩ := exists_exact_lstsq
  refine ⟨lstsq, pw_fit_succeeds demoPWLib_total htot (K := 2) rfl ?_ (by decide) ?_⟩
  · rintro a h
    cases h
    decide
  · intro u h _
    cases h
    exact Or.inr rfl

/-- C74: a fit without exogenous variables after one with them. -/
example : ∃ (lstsq : LstSq) (obj obj' : PWObj demoPWLib) (labels : _),
    obj.fitTransform lstsq demoPWData none = Py.ok (obj', labels) ∧ obj'.B ≠ none := by
  obtain ⟨lstsq, -, htot⟩ := exists_exact_lstsq
  obtain ⟨r, h⟩ := pw_fit_succeeds (obj := { demoPW with B := some ⟨2, 1, 2, 1, fun _ _ _ _ => 7⟩ })
    (exog := none) (endog := demoPWData) demoPWLib_total htot (K := 2) rfl
    (by rintro a h; cases h; decide) (by decide) (fun u h => by simp at h)
  refine ⟨lstsq, _, r.1, r.2, h, ?_⟩
  rw [C74_pwvarx_stale_exog_coefficients h]
  simp

/-- A classifier that knows one label. -/
def constPWLib : PWLib where
  Clusterer := Unit
  newKMeans := fun _ => ()
  fitPredict := fun _ _ => Py.ok ((), fun _ => 0)
  Classifier := Unit
  newSVC := ()
  fit := fun _ _ _ => Py.ok ()
  predict := fun _ _ => Py.ok fun _ => 0

/-- C75: the negative variance occurs. -/
example : ∃ (lstsq : LstSq) (obj' : PWObj constPWLib), lstsq.Exact ∧
    PWObj.fitTransform lstsq { nComponents := .int (1 : ℕ), p := 2 } (.vec 4 ![0, 0, 0, 1]) none =
      Py.ok (obj', ⟨2, fun _ => 0⟩) := by
  obtain ⟨lstsq, hl, htot⟩ := exists_exact_lstsq
  obtain ⟨⟨o, l⟩, h⟩ := pw_fit_succeeds (lib := constPWLib)
    (obj := { nComponents := .int (1 : ℕ), p := 2 }) (exog := none) (endog := .vec 4 ![0, 0, 0, 1])
    ⟨fun _ _ => ⟨_, rfl⟩, fun _ _ _ => ⟨_, rfl⟩, fun _ _ => ⟨_, rfl⟩⟩ htot (K := 1) rfl
    (by rintro a h; cases h) (by decide) (fun u h => by simp at h)
  obtain ⟨F, x, rfl, -, -, -, f, -, hf⟩ := pw_fit_spec h
  refine ⟨lstsq, o, hl, h.trans ?_⟩
  rw [← Py.ok.inj hf]
  rfl

end Reor
