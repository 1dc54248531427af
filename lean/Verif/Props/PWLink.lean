import Verif.Proofs.PWLink
import Verif.Props.PWVARX

/-!
A component of a piecewise VARX fit is a local model of FEM-BV-VARX.
-/

namespace Reor

set_option linter.unusedSectionVars false

open scoped BigOperators Matrix
open Spec

variable {lib : PWLib} {lstsq : LstSq} {mem : Memory} {obj obj' : PWObj lib} {endog : PWArr}
  {labels : Σ m : ℕ, Fin m → ℤ}

/-! ### C113: piecewise and local models -/

/-- Number of samples of a component. -/
noncomputable def PWFitted.size {n D E : ℕ} (F : PWFitted obj obj' n D E) (k : Fin F.K) : ℕ :=
  (Finset.univ.filter fun t => F.lab t = (k : ℕ)).card

/-- The residuals of the samples of a component are linearly dependent. -/
def PWFitted.Dependent {n D E : ℕ} (F : PWFitted obj obj' n D E) (k : Fin F.K) : Prop :=
  ∃ v : Fin D → ℝ, v ≠ 0 ∧ ∀ t, F.lab t = (k : ℕ) → ∑ d, F.R t d * v d = 0

theorem size_eq {n D E : ℕ} {F : PWFitted obj obj' n D E} {k : Fin F.K} :
    F.size k = (maskRows F.lab k).length := by
  rw [← List.toFinset_card_of_nodup maskRows_nodup]
  unfold PWFitted.size
  congr 1
  ext t
  simp [mem_maskRows]

/-- The coefficients and residuals of a local model are those of a component. -/
structure PWFitted.Agrees {n D E E' : ℕ} (F : PWFitted obj obj' n D E) (k : Fin F.K)
    {m : VARXModel D E'} (f : VARXFit m) : Prop where
  mu : f.mu = F.mu k
  order : m.p = obj.p
  A : ∀ (i : ℕ) (h : i < m.p) (h' : i < obj.p), f.A ⟨i, h⟩ = F.A k ⟨i, h'⟩
  residuals : ∀ t, F.lab t = (k : ℕ) → ∀ d, rowSeq f.residuals (t + obj.p) d = F.R t d

/-- C113.  A component of a piecewise fit with trend and without exogenous variables, and the local
model of FEM-BV-VARX of the same order whose weights are 1 for the samples of the component and 0 for
the others (whatever they are in the presample): LinAlgError exactly if the component does not have
exactly one sample and its residuals are linearly dependent, otherwise the same coefficients and the
same residuals.  The covariances differ by the degrees of freedom: the number of samples less one for
the local model, less one and the number of coefficients for the piecewise fit. -/
theorem C113_component_is_weighted_model (hl : lstsq.MinNorm) (hn : 0 < endog.matrix.rows)
    (hD : 0 < endog.matrix.cols) (hs : obj.s = 0) (ht : obj.includeTrend = true)
    (h : obj.fitTransform lstsq endog none = Py.ok (obj', labels)) (sa : NumArg ℝ) :
    ∃ (F : PWFitted obj obj' endog.matrix.rows endog.matrix.cols (exogCount none))
      (m : VARXModel endog.matrix.cols 0), labels = ⟨_, F.lab⟩ ∧
      varxModel mem endog.matrix.val (.int obj.p) none sa = Py.ok m ∧
      ∀ (k : Fin F.K) (w : Fin endog.matrix.rows → ℝ),
        (∀ (t : Fin _) (j : Fin _), (j : ℕ) = t + obj.p → w j = if F.lab t = (k : ℕ) then 1 else 0) →
        (m.fit lstsq (some ⟨_, w⟩) = Py.raise .linAlgError ↔ F.size k ≠ 1 ∧ F.Dependent k) ∧
        (¬(F.size k ≠ 1 ∧ F.Dependent k) → ∃ f, m.fit lstsq (some ⟨_, w⟩) = Py.ok f ∧ F.Agrees k f ∧
          ∀ S S', f.sigmaU = some S → F.S k = some S' → ∀ a b, ((F.size k : ℝ) - 1) * S a b =
            ((F.size k : ℝ) - obj.p * endog.matrix.cols - 1) * S' a b) := by
  obtain ⟨F, x, hlab, hx, h3, -⟩ := pw_fit_spec h
  obtain ⟨nc, p, s, trend, cl, cf, mu, A, B, sg, rs, cll⟩ := obj
  simp only at hs ht
  subst hs ht
  have hp := (stackPredictors_ok hx).1
  simp only [Nat.max_zero] at hp
  refine ⟨F, plainModel mem p endog.matrix.val, hlab, varxModel_plain hn hD hp _ _, fun k w hw => ?_⟩
  obtain ⟨params, hd⟩ := h3 k
  have hcard : (∑ t, (if F.lab t = (k : ℕ) then 1 else 0) : ℝ) = F.size k := by
    rw [Finset.sum_boole]
    rfl
  have hfit : (plainModel mem p endog.matrix.val).fit lstsq (some ⟨_, w⟩) =
      (plainModel mem p endog.matrix.val).fitWeighted lstsq w := by
    unfold VARXModel.fit
    exact dif_pos (show (plainModel mem p endog.matrix.val).n = endog.matrix.rows from rfl)
  have hfw := plain_fitWeighted (mem := mem) hl endog.matrix.val hx hd (w := w)
    (fun t => hw t _ (congrArg (fun z => (t : ℕ) + z) (Nat.max_zero p)))
  rw [hcard] at hfw
  have hres : ∀ t, F.lab t = (k : ℕ) → ∀ d,
      (plainModel mem p endog.matrix.val).tailResiduals params t d = F.R t d := by
    intro t ht d
    exact plain_residuals _ hx hd t ht d
  have hdep : (∃ v : Fin endog.matrix.cols → ℝ, v ≠ 0 ∧ ∀ t, ∑ d,
      scaleRows (fun t => if F.lab t = (k : ℕ) then 1 else 0)
        ((plainModel mem p endog.matrix.val).tailResiduals params) t d * v d = 0) ↔ F.Dependent k := by
    refine exists_congr fun v => and_congr_right fun _ => forall_congr' fun t => ?_
    by_cases ht : F.lab t = (k : ℕ)
    · simp only [ht, forall_const]
      refine iff_of_eq (congrArg (· = 0) (Finset.sum_congr rfl fun d _ => congrArg (· * v d) ?_))
      refine (congrArg (· * _) (if_pos ht)).trans ((one_mul _).trans (hres t ht d))
    · simp only [ht, IsEmpty.forall_iff, iff_true]
      refine Finset.sum_eq_zero fun d _ => ?_
      refine (congrArg (· * v d) ?_).trans (zero_mul _)
      exact (congrArg (· * _) (if_neg ht)).trans (zero_mul _)
  have hsing := covariance_singular (scaleRows (fun t => if F.lab t = (k : ℕ) then 1 else 0)
    ((plainModel mem p endog.matrix.val).tailResiduals params)) ((F.size k : ℝ) - 1)
  rw [hdep, show ((F.size k : ℝ) - 1 ≠ 0) = (F.size k ≠ 1) by
    rw [sub_ne_zero]; exact propext Nat.cast_ne_one] at hsing
  rw [hfit, hfw, ← hsing]
  rcases finish_or (m := plainModel mem p endog.matrix.val) params (covariance (scaleRows
    (fun t => if F.lab t = (k : ℕ) then 1 else 0)
    ((plainModel mem p endog.matrix.val).tailResiduals params)) ((F.size k : ℝ) - 1)) with
    ⟨h1, h2⟩ | ⟨f, h1, h2, h3⟩
  · exact ⟨⟨fun _ => h2, fun _ => h1⟩, fun h => absurd h2 h⟩
  · refine ⟨⟨fun h4 => ?_, fun ⟨S, h4, h5⟩ => absurd h5 (h3 S h4)⟩, fun _ => ⟨f, h1, ⟨?_, rfl, ?_, ?_⟩, ?_⟩⟩
    · rw [h1] at h4
      simp at h4
    · exact h2.mu.trans ((plain_read _ _).1.trans hd.mu.symm)
    · intro i hi hi'
      exact (congrFun h2.A _).trans (congrFun ((plain_read _ _).2.trans hd.A.symm) _)
    · intro t ht d
      refine Eq.trans ?_ (hres t ht d)
      rw [h2.residuals]
      refine Eq.trans ?_ (residuals_tail (plainModel mem p endog.matrix.val) params t d)
      exact congrArg (fun z => rowSeq _ ((t : ℕ) + z) d) (Nat.max_zero p).symm
    · intro S S' hS hS' a b
      rw [(finish_eq_ok h1).2.1] at hS
      rw [covariance_some hS]
      have hS2 : F.S k = _ := hd.sigmaU
      rw [hS2] at hS'
      have e := covariance_some hS' a b
      refine Eq.trans ?_ (Eq.trans e.symm ?_)
      · refine (gram_rows _ (labels := F.lab) (k := k) (fun _ => rfl) a b).trans ?_
        rw [Matrix.mul_apply]
        refine Eq.trans ?_ (sum_maskRows fun t => F.R t a * F.R t b).symm
        refine Finset.sum_congr rfl fun t _ => ?_
        split_ifs with ht
        · rw [hres t ht, hres t ht]
        · rfl
      · refine congrArg (· * S' a b) ?_
        change ((maskRows F.lab k).length : ℝ) - p * endog.matrix.cols - ((1 : ℕ) : ℝ) -
          ((0 : ℕ) : ℝ) * ((0 : ℕ) : ℝ) = _
        rw [← size_eq]
        norm_num

/-- C113.  If one component has all the samples, it is the local model fitted without weights, and the
covariances are equal as well. -/
theorem C113_single_component_is_plain_model (hl : lstsq.MinNorm) (hn : 0 < endog.matrix.rows)
    (hD : 0 < endog.matrix.cols) (hs : obj.s = 0) (ht : obj.includeTrend = true)
    (h : obj.fitTransform lstsq endog none = Py.ok (obj', labels)) (sa : NumArg ℝ) :
    ∃ (F : PWFitted obj obj' endog.matrix.rows endog.matrix.cols (exogCount none))
      (m : VARXModel endog.matrix.cols 0), labels = ⟨_, F.lab⟩ ∧
      varxModel mem endog.matrix.val (.int obj.p) none sa = Py.ok m ∧
      ∀ k : Fin F.K, (∀ t, F.lab t = (k : ℕ)) →
        (m.fit lstsq none = Py.raise .linAlgError ↔
          endog.matrix.rows ≠ obj.p + obj.p * endog.matrix.cols + 1 ∧ F.Dependent k) ∧
        (¬(endog.matrix.rows ≠ obj.p + obj.p * endog.matrix.cols + 1 ∧ F.Dependent k) →
          ∃ f, m.fit lstsq none = Py.ok f ∧ F.Agrees k f ∧ f.sigmaU = F.S k) := by
  obtain ⟨F, x, hlab, hx, h3, -⟩ := pw_fit_spec h
  obtain ⟨nc, p, s, trend, cl, cf, mu, A, B, sg, rs, cll⟩ := obj
  simp only at hs ht
  subst hs ht
  have hp := (stackPredictors_ok hx).1
  simp only [Nat.max_zero] at hp
  refine ⟨F, plainModel mem p endog.matrix.val, hlab, varxModel_plain hn hD hp _ _, fun k hall => ?_⟩
  obtain ⟨params, hd⟩ := h3 k
  have hfw := plain_fitPlain (mem := mem) hl endog.matrix.val hx hd hall
  have hres : ∀ t d, (plainModel mem p endog.matrix.val).tailResiduals params t d = F.R t d :=
    fun t d => plain_residuals _ hx hd t (hall t) d
  have hdep : (∃ v : Fin endog.matrix.cols → ℝ, v ≠ 0 ∧ ∀ t, ∑ d,
      (plainModel mem p endog.matrix.val).tailResiduals params t d * v d = 0) ↔ F.Dependent k := by
    refine exists_congr fun v => and_congr_right fun _ => forall_congr' fun t => ?_
    simp only [hall t, forall_const]
    exact iff_of_eq (congrArg (· = 0) (Finset.sum_congr rfl fun d _ => congrArg (· * v d) (hres t d)))
  have hsing := covariance_singular ((plainModel mem p endog.matrix.val).tailResiduals params)
    ((endog.matrix.rows : ℝ) - p - p * endog.matrix.cols - 1)
  have hdf : ((endog.matrix.rows : ℝ) - p - p * endog.matrix.cols - 1 ≠ 0) =
      (endog.matrix.rows ≠ p + p * endog.matrix.cols + 1) := by
    refine propext (not_congr ⟨fun h => ?_, fun h => ?_⟩)
    · have : (endog.matrix.rows : ℝ) = ((p + p * endog.matrix.cols + 1 : ℕ) : ℝ) := by
        push_cast
        linarith
      exact_mod_cast this
    · rw [h]
      push_cast
      ring
  rw [hdep, hdf] at hsing
  have hfit : (plainModel mem p endog.matrix.val).fit lstsq none = _ := hfw
  rw [hfit, ← hsing]
  rcases finish_or (m := plainModel mem p endog.matrix.val) params (covariance
    ((plainModel mem p endog.matrix.val).tailResiduals params)
    ((endog.matrix.rows : ℝ) - p - p * endog.matrix.cols - 1)) with ⟨h1, h2⟩ | ⟨f, h1, h2, h3⟩
  · exact ⟨⟨fun _ => h2, fun _ => h1⟩, fun h => absurd h2 h⟩
  · refine ⟨⟨fun h4 => ?_, fun ⟨S, h4, h5⟩ => absurd h5 (h3 S h4)⟩, fun _ => ⟨f, h1, ⟨?_, rfl, ?_, ?_⟩, ?_⟩⟩
    · rw [h1] at h4
      simp at h4
    · exact h2.mu.trans ((plain_read _ _).1.trans hd.mu.symm)
    · intro i hi hi'
      exact (congrFun h2.A _).trans (congrFun ((plain_read _ _).2.trans hd.A.symm) _)
    · intro t ht d
      refine Eq.trans ?_ (hres t d)
      rw [h2.residuals]
      refine Eq.trans ?_ (residuals_tail (plainModel mem p endog.matrix.val) params t d)
      exact congrArg (fun z => rowSeq _ ((t : ℕ) + z) d) (Nat.max_zero p).symm
    · rw [(finish_eq_ok h1).2.1]
      have hS : F.S k = _ := hd.sigmaU
      refine Eq.trans ?_ hS.symm
      refine covariance_congr ?_ fun a b => ?_
      · have hsz : ((maskRows F.lab k).length : ℝ) = (endog.matrix.rows : ℝ) - p := by
          rw [← size_eq]
          unfold PWFitted.size
          rw [Finset.filter_true_of_mem fun t _ => hall t, Finset.card_univ, Fintype.card_fin,
            ← Nat.cast_sub hp]
          exact congrArg (fun z => ((endog.matrix.rows - z : ℕ) : ℝ)) (Nat.max_zero p)
        change _ = ((maskRows F.lab k).length : ℝ) - p * endog.matrix.cols - ((1 : ℕ) : ℝ) -
          ((0 : ℕ) : ℝ) * ((0 : ℕ) : ℝ)
        rw [hsz]
        norm_num
      · rw [Matrix.mul_apply, Matrix.mul_apply]
        refine Eq.trans ?_ (sum_maskRows fun t => F.R t a * F.R t b).symm
        refine Finset.sum_congr rfl fun t _ => ?_
        rw [if_pos (hall t)]
        exact congrArg₂ (· * ·) (hres t a) (hres t b)

/-! ### Examples -/

/-- Two components with one lag, no exogenous variables. -/
def demoPWPlain : PWObj demoPWLib where
  nComponents := .int 2
  p := 1

/-- The hypotheses are met by a fit of five samples of two features. -/
example : ∃ lstsq : LstSq, lstsq.MinNorm ∧ ∃ obj' labels,
    demoPWPlain.fitTransform lstsq demoPWData none = Py.ok (obj', labels) ∧
    0 < demoPWData.matrix.rows ∧ 0 < demoPWData.matrix.cols := by
  obtain ⟨lstsq, hl⟩ := exists_minNorm_lstsq
  obtain ⟨⟨o, l⟩, h⟩ := pw_fit_succeeds (obj := demoPWPlain) (exog := none) (endog := demoPWData)
    demoPWLib_total (fun m n r a b => (hl m n r a b).imp fun _ h => h.1) (K := 2) rfl
    (by rintro a h; cases h; decide) (by decide) (fun u h => by simp at h)
  exact ⟨lstsq, hl, o, l, h, by decide, by decide⟩

/-- One component with all the samples: the local model without weights has the coefficients of the
component, or its covariance is singular. -/
example : ∃ (lstsq : LstSq) (obj' : PWObj constPWLib)
    (F : PWFitted { nComponents := .int (1 : ℕ), p := 1 } obj' 4 1 0) (k : Fin F.K) (m : VARXModel 1 0),
    PWObj.fitTransform lstsq { nComponents := .int (1 : ℕ), p := 1 } (.vec 4 ![0, 0, 1, 3]) none =
      Py.ok (obj', ⟨3, fun _ => 0⟩) ∧
    (m.fit lstsq none = Py.raise .linAlgError ↔ F.Dependent k) ∧
    (¬F.Dependent k → ∃ f, m.fit lstsq none = Py.ok f ∧ f.mu = F.mu k ∧ f.sigmaU = F.S k) := by
  obtain ⟨lstsq, hl⟩ := exists_minNorm_lstsq
  obtain ⟨⟨o, l⟩, h⟩ := pw_fit_succeeds (lib := constPWLib)
    (obj := { nComponents := .int (1 : ℕ), p := 1 }) (exog := none) (endog := .vec 4 ![0, 0, 1, 3])
    ⟨fun _ _ => ⟨_, rfl⟩, fun _ _ _ => ⟨_, rfl⟩, fun _ _ => ⟨_, rfl⟩⟩
    (fun m n r a b => (hl m n r a b).imp fun _ h => h.1) (K := 1) rfl
    (by rintro a h; cases h) (by decide) (fun u h => by simp at h)
  have hlab : l = ⟨3, fun _ => 0⟩ := by
    obtain ⟨F, x, rfl, -, -, -, f, -, hf⟩ := pw_fit_spec h
    rw [← Py.ok.inj hf]
    rfl
  obtain ⟨F, m, h1, -, h3⟩ := C113_single_component_is_plain_model (mem := fun _ _ => 0) hl
    (by change 0 < 4; norm_num) (by change 0 < 1; norm_num) rfl rfl h (.int 0)
  have hK : F.K = 1 := by exact_mod_cast NumArg.int.inj F.components.symm
  have hF : F.lab = fun _ => 0 := by
    rw [hlab] at h1
    exact (eq_of_heq (Sigma.mk.inj h1).2).symm
  obtain ⟨h4, h5⟩ := h3 ⟨0, by omega⟩ fun t => by rw [hF]; rfl
  refine ⟨lstsq, o, F, ⟨0, by omega⟩, m, by rw [h, hlab], ?_, fun hd => ?_⟩
  · exact h4.trans (and_iff_right (by change 4 ≠ 1 + 1 * 1 + 1; norm_num))
  · obtain ⟨f, hf, ha, hS⟩ := h5 fun h => hd h.2
    exact ⟨f, hf, ha.mu, hS⟩

end Reor
