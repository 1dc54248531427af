import Verif.Model.PWFailure
import Verif.Proofs.Failure
import Verif.Props.PWLocal

/-!
What a failed fit of a piecewise VARX model leaves behind (C120).
-/

namespace Reor

set_option linter.unusedSectionVars false

open scoped BigOperators Matrix
open Spec

variable {lib : PWLib} {left : PWLeft lib} {lstsq : LstSq} {obj o o' : PWObj lib} {m D E K : ℕ}
  {endog : PWArr} {exog : Option PWArr} {e : PyErr}

/-! ### The recorded outcomes -/

theorem pwLoopF_toPy {p s : ℕ} {trend : Bool} {y : Matrix (Fin m) (Fin D) ℝ}
    {x : Matrix (Fin m) (Fin (p * D + s * E)) ℝ} {labels : Fin m → ℤ} (ks : List (Fin K))
    (st : PWState K m D p s E) :
    (pwLoopF lstsq trend y x labels ks st).toPy = pwLoop lstsq trend y x labels ks st := by
  induction ks generalizing st with
  | nil => rfl
  | cons k ks ih =>
    simp only [pwLoopF, pwLoop, Run.toPy_bind, Run.toPy_lift]
    exact congrArg _ (funext fun st' => ih st')

theorem fitVarModelF_toPy (y : Matrix (Fin m) (Fin D) ℝ)
    (x : Matrix (Fin m) (Fin (obj.p * D + obj.s * E)) ℝ) (labels : Fin m → ℤ) :
    (obj.fitVarModelF lstsq y x labels).toPy = obj.fitVarModel lstsq y x labels := by
  simp only [PWObj.fitVarModelF, PWObj.fitVarModel, Run.toPy_bind, Run.toPy_lift, Run.toPy_within,
    pwLoopF_toPy]
  rfl

theorem classifyF_toPy {N : ℕ} (x : Matrix (Fin m) (Fin N) ℝ) (y : Matrix (Fin m) (Fin D) ℝ) :
    (obj.classifyF left x y).toPy = obj.classify x y := by
  simp only [PWObj.classifyF, PWObj.classify, Run.toPy_bind, Run.toPy_lift]
  rfl

/-- C120.  The fit with its failures recorded has the same outcome as the fit. -/
theorem C120_pwvarx_outcomes (left : PWLeft lib) (lstsq : LstSq) (obj : PWObj lib) (endog : PWArr)
    (exog : Option PWArr) :
    (obj.fitTransformF left lstsq endog exog).toPy = obj.fitTransform lstsq endog exog := by
  simp only [PWObj.fitTransformF, PWObj.fitTransform, Run.toPy_bind, Run.toPy_lift, classifyF_toPy,
    fitVarModelF_toPy]
  rfl

/-! ### The failing pass of the loop -/

theorem pwLoopF_raise {p s : ℕ} {trend : Bool} {y : Matrix (Fin m) (Fin D) ℝ}
    {x : Matrix (Fin m) (Fin (p * D + s * E)) ℝ} {labels : Fin m → ℤ} {ks : List (Fin K)}
    {st st' : PWState K m D p s E} (h : pwLoopF lstsq trend y x labels ks st = Run.raise e st') :
    ∃ (pre : List (Fin K)) (k : Fin K) (post : List (Fin K)), ks = pre ++ k :: post ∧
      pwLoop lstsq trend y x labels pre st = Py.ok st' ∧
      lstsq _ _ _ (pwDesign trend (takeRows x (maskRows labels k)))
        (takeRows y (maskRows labels k)) = Py.raise e := by
  induction ks generalizing st with
  | nil => cases h
  | cons k ks ih =>
    rcases Run.bind_eq_raise.1 h with h | ⟨st1, h1, h⟩
    · obtain ⟨h, rfl⟩ := Run.lift_eq_raise.1 h
      refine ⟨[], k, ks, rfl, rfl, ?_⟩
      rcases Py.bind_eq_raise.1 h with h | ⟨_, _, h⟩
      · exact h
      · cases h
    · obtain ⟨pre, k', post, rfl, h2, h3⟩ := ih h
      exact ⟨k :: pre, k', post, rfl, Py.bind_eq_ok.2 ⟨st1, Run.lift_eq_ok.1 h1, h2⟩, h3⟩

theorem finRange_split {pre post : List (Fin K)} {k : Fin K}
    (h : List.finRange K = pre ++ k :: post) (j : Fin K) : j ∈ pre ↔ j < k := by
  have hp : (List.finRange K).Pairwise (· < ·) := List.pairwise_lt_finRange K
  rw [h, List.pairwise_append] at hp
  obtain ⟨-, h2, h3⟩ := hp
  refine ⟨fun hj => h3 j hj k List.mem_cons_self, fun hj => ?_⟩
  have : j ∈ pre ++ k :: post := h ▸ List.mem_finRange j
  rcases List.mem_append.1 this with hj' | hj'
  · exact hj'
  · rcases List.mem_cons.1 hj' with rfl | hj'
    · exact absurd hj (lt_irrefl _)
    · exact absurd ((List.pairwise_cons.1 h2).1 j hj') (not_lt.2 hj.le)

/-! ### What is left -/

/-- `lstsq'` returns what `lstsq` returns and may return where `lstsq` fails. -/
def LstSq.Extends (lstsq' lstsq : LstSq) : Prop :=
  ∀ m n r a b z, lstsq m n r a b = Py.ok z → lstsq' m n r a b = Py.ok z

/-- The object `o` as the estimation of component `k` of the fit of `obj` has left it. -/
structure PWInterrupted (lstsq : LstSq) (obj o : PWObj lib) (y : Matrix (Fin m) (Fin D) ℝ)
    (x : Matrix (Fin m) (Fin (obj.p * D + obj.s * E)) ℝ) (labels : Fin m → ℤ) (k : Fin K) : Prop where
  /-- The components before `k` are those of a fit that succeeds. -/
  done : ∀ lstsq' : LstSq, lstsq'.Extends lstsq → ∀ o', obj.fitVarModel lstsq' y x labels = Py.ok o' →
    ∃ R R' : Matrix (Fin m) (Fin D) ℝ, o.residuals = some (Arr2.of R) ∧
      o'.residuals = some (Arr2.of R') ∧
      ∀ j < k, (∃ (c : PWComponent obj o D E K j) (c' : PWComponent obj o' D E K j), c.Same c') ∧
        ∀ t, labels t = (j : ℕ) → R t = R' t
  /-- Component `k` and those after it are zero. -/
  zero : ∀ j, k ≤ j → ∃ c : PWComponent obj o D E K j, c.mu = 0 ∧ c.A = 0 ∧ c.B = 0 ∧ c.S = some 0
  /-- All other residuals are zero. -/
  residuals : ∃ R : Matrix (Fin m) (Fin D) ℝ, o.residuals = some (Arr2.of R) ∧
    ∀ t, (∀ j < k, labels t ≠ (j : ℕ)) → R t = 0

theorem pwSize_eq (h : pwSize obj.nComponents = Py.ok K) : obj.nComponents = .int K := by
  generalize obj.nComponents = n at h
  cases n with
  | int z =>
    have h : (if z < 0 then Py.raise .valueError else Py.ok z.toNat) = Py.ok K := h
    split at h
    · cases h
    · have := Py.ok.inj h
      rw [← this, Int.toNat_of_nonneg (by omega)]
  | _ => cases h

theorem fitVarModelF_raise {y : Matrix (Fin m) (Fin D) ℝ}
    {x : Matrix (Fin m) (Fin (obj.p * D + obj.s * E)) ℝ} {labels : Fin m → ℤ}
    (h : obj.fitVarModelF lstsq y x labels = Run.raise e o) :
    (o = obj ∧ pwSize obj.nComponents = Py.raise e) ∨
    ∃ (K : ℕ) (k : Fin K) (st : PWState K m D obj.p obj.s E), obj.nComponents = .int K ∧
      lstsq _ _ _ (pwDesign obj.includeTrend (takeRows x (maskRows labels k)))
        (takeRows y (maskRows labels k)) = Py.raise e ∧
      o = obj.withState st ∧ PWInterrupted lstsq obj o y x labels k := by
  rcases Run.bind_eq_raise.1 h with h | ⟨K, hK, h⟩
  · obtain ⟨h, rfl⟩ := Run.lift_eq_raise.1 h
    exact Or.inl ⟨rfl, h⟩
  right
  have hK := pwSize_eq (Run.lift_eq_ok.1 hK)
  rcases Run.bind_eq_raise.1 h with h | ⟨st, _, h⟩
  swap
  · cases h
  obtain ⟨st, hL, rfl⟩ := Run.within_eq_raise.1 h
  obtain ⟨pre, k, post, hs, h1, h2⟩ := pwLoopF_raise hL
  have hmem := finRange_split hs
  have hn : pre.Nodup := by
    have := List.nodup_finRange K
    rw [hs] at this
    exact (List.nodup_append.1 this).1
  obtain ⟨a1, a2, a3⟩ := pwLoop_spec hn h1
  refine ⟨K, k, st, hK, h2, rfl, ⟨fun lstsq' hx o' ho' => ?_, fun j hj => ?_, st.residuals, rfl,
    fun t ht => a3 t fun j hj => ht j ((hmem j).1 hj)⟩⟩
  · obtain ⟨st', b1, -, rfl⟩ := fitVarModel_eq_ok hK ho'
    refine ⟨st.residuals, st'.residuals, rfl, rfl, fun j hj => ?_⟩
    obtain ⟨q, hq⟩ := a1 j ((hmem j).2 hj)
    obtain ⟨q', hq'⟩ := b1 j
    have hq : PWDone lstsq' obj.includeTrend y x labels st j 0 q :=
      ⟨hx _ _ _ _ _ _ hq.fit, hq.mu, hq.A, hq.B, hq.residuals, hq.sigmaU⟩
    obtain ⟨c1, c2, c3, c4, c5⟩ := pwDone_same hq hq' (fun _ => Iff.rfl) (fun _ _ => rfl)
      (fun _ _ => rfl)
    exact ⟨⟨PWState.component j rfl, PWState.component j rfl, fun _ => c1, c2, c3, c4⟩,
      fun t ht => (c5 t ht).symm⟩
  · obtain ⟨c1, c2, c3, c4⟩ := a2 j fun hj' => absurd ((hmem j).1 hj') (not_lt.2 hj)
    exact ⟨PWState.component (st := st) j rfl, c1, c2, c3, c4⟩

/-- C120.  A failed fit leaves the settings.  What else it leaves depends on where it failed: all as it
was; only the clusterer replaced; clusterer, labels and classifier replaced but the coefficients still
those of the last fit; or, if the least-squares routine failed, all replaced, with the components from
the failing one on zero. -/
theorem C120_pwvarx_failed_fit (h : obj.fitTransformF left lstsq endog exog = Run.raise e o) :
    (o.nComponents = obj.nComponents ∧ o.p = obj.p ∧ o.s = obj.s ∧
      o.includeTrend = obj.includeTrend) ∧
    (o = obj ∨
      (∃ c, o = { obj with clusterer := some c }) ∨
      ∃ (c : lib.Clusterer) (f : lib.Classifier)
        (l : Fin (endog.matrix.rows - max obj.p obj.s) → ℤ) (r : PWObj lib),
        r = { obj with clusterer := some c, classifier := some f, clusterLabels_ := some ⟨_, l⟩ } ∧
        (o = r ∨
          ∃ (K : ℕ) (k : Fin K) (x : _) (labels : _), obj.nComponents = .int K ∧
            stackPredictors obj.p obj.s endog.matrix (exog.map PWArr.matrix) = Py.ok x ∧
            lib.predict f (Arr2.of x) = Py.ok labels ∧
            o = { r with mu := o.mu, A := o.A, B := o.B, sigmaU := o.sigmaU,
                         residuals := o.residuals } ∧
            (obj.includeTrend = false → o.mu = obj.mu) ∧ (obj.p = 0 → o.A = obj.A) ∧
            (obj.s = 0 ∨ exogCols (exog.map PWArr.matrix) = 0 → o.B = obj.B) ∧
            PWInterrupted lstsq
              { obj with clusterer := some c, classifier := some f, clusterLabels_ := some ⟨_, l⟩ } o
              (lagRows (max obj.p obj.s) endog.matrix.val 0) x labels k)) := by
  rcases Run.bind_eq_raise.1 h with h | ⟨x, hx, h⟩
  · obtain ⟨-, rfl⟩ := Run.lift_eq_raise.1 h
    exact ⟨⟨rfl, rfl, rfl, rfl⟩, Or.inl rfl⟩
  rcases Run.bind_eq_raise.1 h with h | ⟨_, _, h⟩
  · obtain ⟨-, rfl⟩ := Run.lift_eq_raise.1 h
    exact ⟨⟨rfl, rfl, rfl, rfl⟩, Or.inl rfl⟩
  rcases Run.bind_eq_raise.1 h with h | ⟨r, hr, h⟩
  · rcases Run.bind_eq_raise.1 h with h | ⟨c, _, h⟩
    · obtain ⟨-, rfl⟩ := Run.lift_eq_raise.1 h
      exact ⟨⟨rfl, rfl, rfl, rfl⟩, Or.inr (Or.inl ⟨_, rfl⟩)⟩
    rcases Run.bind_eq_raise.1 h with h | ⟨f, _, h⟩
    · obtain ⟨-, rfl⟩ := Run.lift_eq_raise.1 h
      exact ⟨⟨rfl, rfl, rfl, rfl⟩, Or.inr (Or.inr ⟨_, _, _, _, rfl, Or.inl rfl⟩)⟩
    rcases Run.bind_eq_raise.1 h with h | ⟨_, _, h⟩
    · obtain ⟨-, rfl⟩ := Run.lift_eq_raise.1 h
      exact ⟨⟨rfl, rfl, rfl, rfl⟩, Or.inr (Or.inr ⟨_, _, _, _, rfl, Or.inl rfl⟩)⟩
    · cases h
  obtain ⟨c, _, hr⟩ := Run.bind_eq_ok.1 hr
  obtain ⟨f, _, hr⟩ := Run.bind_eq_ok.1 hr
  obtain ⟨labels, hl, hr⟩ := Run.bind_eq_ok.1 hr
  cases hr
  rcases Run.bind_eq_raise.1 h with h | ⟨_, _, h⟩
  swap
  · cases h
  rcases fitVarModelF_raise h with ⟨rfl, -⟩ | ⟨K, k, st, hK, -, rfl, hI⟩
  · exact ⟨⟨rfl, rfl, rfl, rfl⟩, Or.inr (Or.inr ⟨_, _, _, _, rfl, Or.inl rfl⟩)⟩
  refine ⟨⟨rfl, rfl, rfl, rfl⟩, Or.inr (Or.inr ⟨_, _, _, _, rfl, Or.inr ⟨K, k, x, labels, hK,
    Run.lift_eq_ok.1 hx, Run.lift_eq_ok.1 hl, rfl, fun ht => if_neg (by simp [ht]),
    fun hp => if_neg (by simp [hp]), fun hs => if_neg ?_, hI⟩⟩)⟩
  rcases hs with hs | hs <;> simp [hs]

/-- A fit does not depend on what an earlier one has left, but for the clusterer, the classifier and
those attributes that it does not assign. -/
theorem fitTransform_forgets (lstsq : LstSq) (obj : PWObj lib) (endog : PWArr) (exog : Option PWArr)
    {mu : Option (Arr2 ℝ)} {A : Option (Arr4 ℝ)} (sigmaU : Option SigmaArr)
    (residuals : Option (Arr2 ℝ)) (labels : Option (Σ m : ℕ, Fin m → ℤ))
    (hmu : obj.includeTrend = false → mu = obj.mu) (hA : obj.p = 0 → A = obj.A) :
    PWObj.fitTransform lstsq
      { obj with mu := mu, A := A, sigmaU := sigmaU, residuals := residuals,
                 clusterLabels_ := labels } endog exog = obj.fitTransform lstsq endog exog := by
  have e1 : ∀ a : Arr2 ℝ, (if obj.includeTrend then some a else mu) =
      (if obj.includeTrend then some a else obj.mu) := by
    intro a
    cases ht : obj.includeTrend with
    | true => rfl
    | false => exact hmu ht
  have e2 : ∀ a : Arr4 ℝ, (if obj.p > 0 then some a else A) =
      (if obj.p > 0 then some a else obj.A) := by
    intro a
    by_cases hp : obj.p > 0
    · rw [if_pos hp, if_pos hp]
    · rw [if_neg hp, if_neg hp, hA (by omega)]
  simp only [PWObj.fitTransform, PWObj.classify, PWObj.fitVarModel, e1, e2, Py.bind_assoc,
    Py.ok_bind, Py.pure_eq]

/-- C120.  After a failed fit any other fit goes as if the failed one had done nothing but to make the
clusterer and the classifier — and to leave coefficients of exogenous variables, which a fit without
these does not touch. -/
theorem C120_pwvarx_fit_after_failure
    (h : obj.fitTransformF left lstsq endog exog = Run.raise e o)
    (lstsq' : LstSq) (endog' : PWArr) (exog' : Option PWArr) :
    o.fitTransform lstsq' endog' exog' =
      PWObj.fitTransform lstsq'
        { obj with clusterer := o.clusterer, classifier := o.classifier, B := o.B } endog' exog' := by
  rcases (C120_pwvarx_failed_fit h).2 with rfl | ⟨c, rfl⟩ | ⟨c, f, l, r, rfl, rfl | ⟨K, k, x, labels,
    -, -, -, ho, hmu, hA, -, -⟩⟩
  · rfl
  · rfl
  · exact fitTransform_forgets lstsq'
      { obj with clusterer := some c, classifier := some f } endog' exog' obj.sigmaU obj.residuals
      (some ⟨_, l⟩) (fun _ => rfl) (fun _ => rfl)
  · rw [ho]
    exact fitTransform_forgets lstsq'
      { obj with clusterer := some c, classifier := some f, B := o.B } endog' exog' o.sigmaU
      o.residuals (some ⟨_, l⟩) hmu hA

/-- C120.  `transform` sees of all this only the classifier: unless the failed fit has replaced that, it
answers as before. -/
theorem C120_pwvarx_failed_transform (h : obj.fitTransformF left lstsq endog exog = Run.raise e o)
    (hc : o.classifier = obj.classifier) (endog' : PWArr) (exog' : Option PWArr) :
    o.transform endog' exog' = obj.transform endog' exog' := by
  obtain ⟨-, hp, hs, -⟩ := (C120_pwvarx_failed_fit h).1
  unfold PWObj.transform
  rw [hp, hs, hc]

/-- C120.  If the least-squares routine fails at the first component, nothing is left of an earlier
fit: all coefficients and covariances are zero; and the classifier of the failed fit answers. -/
theorem C120_pwvarx_first_component_fails {x : _} {c : lib.Clusterer × _} {f : lib.Classifier}
    {labels : _} (hK : 0 < K) (hn : obj.nComponents = .int K)
    (hx : stackPredictors obj.p obj.s endog.matrix (exog.map PWArr.matrix) = Py.ok x)
    (hax : ∀ a, endog = .mat a → a.cols ≠ 1)
    (hc : lib.fitPredict (obj.clusterer.getD (lib.newKMeans obj.nComponents))
      (Arr2.of (hstack x (lagRows (max obj.p obj.s) endog.matrix.val 0))) = Py.ok c)
    (hf : lib.fit (obj.classifier.getD lib.newSVC) (Arr2.of x) c.2 = Py.ok f)
    (hl : lib.predict f (Arr2.of x) = Py.ok labels)
    (he : lstsq _ _ _ (pwDesign obj.includeTrend (takeRows x (maskRows labels 0)))
      (takeRows (lagRows (max obj.p obj.s) endog.matrix.val 0) (maskRows labels 0)) = Py.raise e) :
    ∃ o, obj.fitTransformF left lstsq endog exog = Run.raise e o ∧
      (obj.includeTrend = true →
        o.mu = some (Arr2.of (0 : Matrix (Fin K) (Fin endog.matrix.cols) ℝ))) ∧
      (0 < obj.p → o.A = some ⟨K, obj.p, endog.matrix.cols, endog.matrix.cols, fun _ _ => 0⟩) ∧
      o.sigmaU = some ⟨K, endog.matrix.cols, fun _ => some 0⟩ ∧
      o.transform endog exog = Py.ok ⟨_, labels⟩ := by
  have h1 : checkAxes endog = Py.ok () := by
    cases endog with
    | vec n v => rfl
    | mat a => exact if_neg (hax a rfl)
  have h2 : pwSize obj.nComponents = Py.ok K := by
    rw [hn]
    change (if ((K : ℤ)) < 0 then Py.raise .valueError else Py.ok ((K : ℤ)).toNat) = Py.ok K
    rw [if_neg (by omega)]
    simp
  obtain ⟨K, rfl⟩ : ∃ K', K = K' + 1 := ⟨K - 1, by omega⟩
  refine ⟨PWObj.withState (E := exogCols (exog.map PWArr.matrix))
    { obj with clusterer := some c.1, classifier := some f, clusterLabels_ := some ⟨_, c.2⟩ }
    (⟨0, fun _ _ => 0, fun _ _ => 0, fun _ => some 0, 0⟩ :
      PWState (K + 1) (endog.matrix.rows - max obj.p obj.s) endog.matrix.cols obj.p obj.s
        (exogCols (exog.map PWArr.matrix))), ?_, fun ht => if_pos ht, fun hp => if_pos hp,
    rfl, ?_⟩
  · refine Run.bind_eq_raise.2 (Or.inr ⟨x, Run.lift_eq_ok.2 hx, ?_⟩)
    refine Run.bind_eq_raise.2 (Or.inr ⟨(), Run.lift_eq_ok.2 h1, ?_⟩)
    refine Run.bind_eq_raise.2 (Or.inr ⟨⟨_, labels⟩, Run.bind_eq_ok.2 ⟨c, Run.lift_eq_ok.2 hc,
      Run.bind_eq_ok.2 ⟨f, Run.lift_eq_ok.2 hf, Run.bind_eq_ok.2 ⟨labels, Run.lift_eq_ok.2 hl,
        rfl⟩⟩⟩, ?_⟩)
    refine Run.bind_eq_raise.2 (Or.inl ?_)
    refine Run.bind_eq_raise.2 (Or.inr ⟨K + 1, Run.lift_eq_ok.2 h2, ?_⟩)
    refine Run.bind_eq_raise.2 (Or.inl (Run.within_eq_raise.2 ⟨_, ?_, rfl⟩))
    rw [List.finRange_succ]
    refine Run.bind_eq_raise.2 (Or.inl (Run.lift_eq_raise.2 ⟨?_, rfl⟩))
    exact Py.bind_eq_raise.2 (Or.inl he)
  · change (stackPredictors obj.p obj.s endog.matrix (exog.map PWArr.matrix) >>= fun x => _) = _
    rw [hx]
    change (lib.predict f (Arr2.of x) >>= fun l => _) = _
    rw [hl]
    rfl

/-! ### Cases -/

/-- A model with two components that has been fitted. -/
def demoFailPW : PWObj constPWLib where
  nComponents := .int (2 : ℕ)
  p := 0
  mu := some (Arr2.of !![(7 : ℝ); 8])
  classifier := some ()

/-- The least-squares routine does not converge. -/
example : ∃ o, demoFailPW.fitTransformF ⟨fun c _ => c, fun f _ _ => f⟩
      (fun _ _ _ _ _ => Py.raise .linAlgError) (.vec 3 ![1, 2, 3]) none = Run.raise .linAlgError o ∧
    o.mu = some (Arr2.of (0 : Matrix (Fin 2) (Fin 1) ℝ)) := by
  obtain ⟨o, h, hm, -⟩ := C120_pwvarx_first_component_fails (K := 2) (obj := demoFailPW)
    (left := ⟨fun c _ => c, fun f _ _ => f⟩) (lstsq := fun _ _ _ _ _ => Py.raise .linAlgError)
    (endog := .vec 3 ![1, 2, 3]) (exog := none) (e := .linAlgError) (by norm_num) rfl rfl
    (by rintro a ⟨⟩) rfl rfl rfl rfl
  exact ⟨o, h, hm rfl⟩

/-- A routine that fails for the component without samples only: the other component is there. -/
example : ∃ (lstsq : LstSq) (o : PWObj constPWLib),
    demoFailPW.fitTransformF ⟨fun c _ => c, fun f _ _ => f⟩ lstsq (.vec 3 ![1, 2, 3]) none =
      Run.raise .linAlgError o ∧ ∃ a : Matrix (Fin 2) (Fin 1) ℝ, o.mu = some (Arr2.of a) ∧
      a 0 0 = 2 ∧ a 1 0 = 0 := by
  refine ⟨fun m _ _ _ _ => if m = 0 then Py.raise .linAlgError else Py.ok fun _ _ => 2, _, rfl, _,
    rfl, ?_, ?_⟩
  · rfl
  · rfl

end Reor
