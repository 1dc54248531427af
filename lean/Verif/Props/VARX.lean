import Verif.Proofs.VARXRun
import Mathlib.Tactic.FinCases
import Mathlib.Data.Fin.VecNotation

/-!
Properties of the local linear model of FEM-BV-VARX (C53, C54).
-/

set_option linter.unusedSectionVars false

namespace Reor

open scoped BigOperators
open Spec

variable {mem : Memory} {lstsq : LstSq} {n D : ℕ}

/-! ### C53: the residuals -/

/-- C53.  Whatever the least-squares routine returned and with or without weights: past the presample,
the residuals are the errors of the one-step predictions from the reported coefficients.  (`A`, `B`
have one matrix per lag, `m.p` and `m.s` being the orders given to the constructor.) -/
theorem C53_varx_residuals {y : Matrix (Fin n) (Fin D) ℝ} {pa sa : NumArg ℝ} {u : Option (Arr2 ℝ)}
    {m : VARXModel D (exogCols u)} (hm : varxModel mem y pa u sa = Py.ok m)
    {weights : Option (Σ l : ℕ, Fin l → ℝ)} {f : VARXFit m}
    (hf : m.fit lstsq weights = Py.ok f) :
    m.n = n ∧ pa = .int m.p ∧ (u ≠ none → sa = .int m.s) ∧ (u = none → m.s = 0) ∧
    (∀ t d, max m.p m.s ≤ t → t < n → rowSeq f.residuals t d =
      rowSeq y t d - varxPrediction f.mu f.A f.B f.B0 (rowSeq y) (exogSeq u) t d) ∧
    ∀ t d, t < max m.p m.s → rowSeq f.residuals t d = 0 := by
  obtain ⟨params, hfrom⟩ := fit_from hf
  have hmade := VARXModel.made_of hm
  obtain ⟨p, s, U, rfl, hp, hn, hn0, -, hU, h0, h1⟩ := varxModel_eq_ok hm
  refine ⟨rfl, hp, ?_, h0, ?_, ?_⟩
  · intro hu
    cases u with
    | none => exact absurd rfl hu
    | some v => exact (h1 v rfl).2.2
  · intro t d ht htn
    have := residuals_eq hmade params ⟨t, htn⟩ ht d
    unfold rowSeq
    rw [dif_pos htn, dif_pos htn, hfrom.residuals, hfrom.mu, hfrom.A, hfrom.B, hfrom.B0, this, hU]
    rfl
  · intro t d ht
    have htn : t < n := lt_of_lt_of_le ht hn
    unfold rowSeq
    rw [dif_pos htn, hfrom.residuals]
    unfold VARXModel.residuals
    exact dif_neg (not_le.2 ht)

/-! ### C54: least squares -/

/-- C54.  If the least-squares routine returns minimisers, the coefficients reported by a weighted fit
have the least weighted squared prediction error of all coefficients of the same orders. -/
theorem C54_varx_weighted_fit_least (hl : lstsq.Exact) {y : Matrix (Fin n) (Fin D) ℝ}
    {pa sa : NumArg ℝ} {u : Option (Arr2 ℝ)} {m : VARXModel D (exogCols u)}
    (hm : varxModel mem y pa u sa = Py.ok m) (w : Fin n → ℝ) {f : VARXFit m}
    (hf : m.fit lstsq (some ⟨n, w⟩) = Py.ok f) (mu : Fin D → ℝ)
    (A : Fin m.p → Matrix (Fin D) (Fin D) ℝ) (B : Fin m.s → Matrix (Fin D) (Fin (exogCols u)) ℝ)
    (B0 : Matrix (Fin D) (Fin (exogCols u)) ℝ) :
    weightedError (max m.p m.s) w y (varxPrediction f.mu f.A f.B f.B0 (rowSeq y) (exogSeq u)) ≤
    weightedError (max m.p m.s) w y (varxPrediction mu A B B0 (rowSeq y) (exogSeq u)) := by
  have hmade := VARXModel.made_of hm
  obtain ⟨p, s, U, rfl, hp, hn, hn0, -, hU, h0, h1⟩ := varxModel_eq_ok hm
  unfold VARXModel.fit at hf
  simp only [dite_true] at hf
  obtain ⟨hw, params, hpar, hfrom⟩ := fitWeighted_eq_ok hf
  obtain ⟨params', rfl, rfl, rfl, rfl⟩ := exists_params _ mu A B B0
  have h := hl _ _ _ _ _ _ hpar params'
  rw [lsError_eq hmade hw, lsError_eq hmade hw] at h
  rw [hfrom.mu, hfrom.A, hfrom.B, hfrom.B0, ← hU]
  exact h

/-- C54.  The same for the fit without weights. -/
theorem C54_varx_plain_fit_least (hl : lstsq.Exact) {y : Matrix (Fin n) (Fin D) ℝ}
    {pa sa : NumArg ℝ} {u : Option (Arr2 ℝ)} {m : VARXModel D (exogCols u)}
    (hm : varxModel mem y pa u sa = Py.ok m) {f : VARXFit m}
    (hf : m.fit lstsq none = Py.ok f) (mu : Fin D → ℝ)
    (A : Fin m.p → Matrix (Fin D) (Fin D) ℝ) (B : Fin m.s → Matrix (Fin D) (Fin (exogCols u)) ℝ)
    (B0 : Matrix (Fin D) (Fin (exogCols u)) ℝ) :
    weightedError (max m.p m.s) (fun _ => 1) y
      (varxPrediction f.mu f.A f.B f.B0 (rowSeq y) (exogSeq u)) ≤
    weightedError (max m.p m.s) (fun _ => 1) y
      (varxPrediction mu A B B0 (rowSeq y) (exogSeq u)) := by
  have hmade := VARXModel.made_of hm
  obtain ⟨p, s, U, rfl, hp, hn, hn0, -, hU, h0, h1⟩ := varxModel_eq_ok hm
  obtain ⟨params, hpar, hfrom⟩ := fitPlain_eq_ok hf
  obtain ⟨params', rfl, rfl, rfl, rfl⟩ := exists_params _ mu A B B0
  have h := hl _ _ _ _ _ _ hpar params'
  rw [lsError_eq_plain hmade, lsError_eq_plain hmade] at h
  rw [hfrom.mu, hfrom.A, hfrom.B, hfrom.B0, ← hU]
  exact h

/-- C54.  A weighted fit demands one weight per sample, and fails (the square root is not a number) if
a weight past the presample is negative. -/
theorem C54_varx_weights_checked {y : Matrix (Fin n) (Fin D) ℝ}
    {pa sa : NumArg ℝ} {u : Option (Arr2 ℝ)} {m : VARXModel D (exogCols u)}
    (hm : varxModel mem y pa u sa = Py.ok m) :
    (∀ (l : ℕ) (w : Fin l → ℝ), l ≠ n → m.fit lstsq (some ⟨l, w⟩) = Py.raise .valueError) ∧
    ∀ (w : Fin n → ℝ) (t : Fin n), max m.p m.s ≤ t → w t < 0 →
      m.fit lstsq (some ⟨n, w⟩) = Py.raise .nonFinite := by
  obtain ⟨p, s, U, rfl, -⟩ := varxModel_eq_ok hm
  constructor
  · intro l w hl
    unfold VARXModel.fit
    exact dif_neg fun h => hl h.symm
  · intro w t ht hw
    change max p s ≤ (t : ℕ) at ht
    unfold VARXModel.fit
    refine (dif_pos rfl).trans ?_
    unfold VARXModel.fitWeighted
    refine if_pos ⟨⟨t - max p s, by have := t.2; change (t : ℕ) - max p s < n - max p s; omega⟩, ?_⟩
    unfold VARXModel.tailWeights
    have : ((t : ℕ) - max p s) + max p s = t := Nat.sub_add_cancel ht
    simp only [this]
    exact hw

/-! ### An example -/

/-- With one feature the covariance of residuals that are not all zero is invertible. -/
theorem npInv_covariance {l : ℕ} (r : Matrix (Fin l) (Fin 1) ℝ) (df : ℝ) (t : Fin l)
    (ht : r t 0 ≠ 0) : ∃ S, npInv (covariance r df) = Py.ok S := by
  unfold covariance
  by_cases c : df = 0
  · rw [if_pos c]
    exact ⟨_, rfl⟩
  · rw [if_neg c]
    refine ⟨_, if_neg ?_⟩
    refine ne_of_eq_of_ne (Matrix.det_fin_one _) ?_
    refine div_ne_zero (ne_of_gt ?_) c
    rw [Matrix.mul_apply]
    refine Finset.sum_pos' (fun i _ => mul_self_nonneg _) ⟨t, Finset.mem_univ t, ?_⟩
    exact mul_self_pos.2 ht

/-- A series of four samples. -/
def varxDemo : Matrix (Fin 4) (Fin 1) ℝ := fun t _ => ![0, 0, 1, 0] t

/-- External factors for it. -/
def varxDemoU : Matrix (Fin 4) (Fin 1) ℝ := fun t _ => ![1, 1, 1, 2] t

/-- The local model of order 1 of the example. -/
noncomputable def varxDemoModel (mem : Memory) : VARXModel 1 1 :=
  ⟨4, 1, 0, varxDemo, varxDemoU, varxRegressors mem 1 0 varxDemo varxDemoU⟩

theorem varxDemo_model (mem : Memory) :
    varxModel mem varxDemo (.int 1) (some (Arr2.of varxDemoU)) (.int 0) = Py.ok (varxDemoModel mem) := rfl

/-- No coefficients predict the series exactly: the regressors for times 1 and 2 are the same. -/
theorem varxDemo_residual (mem : Memory) (params : Matrix (Fin (varxDemoModel mem).nCols) (Fin 1) ℝ) :
    ∃ t, (varxDemoModel mem).tailResiduals params t 0 ≠ 0 := by
  have hmade : (varxDemoModel mem).Made mem := VARXModel.made_of (varxDemo_model mem)
  have h1 : (varxDemoModel mem).tailResiduals params ⟨0, (by decide : 0 < 3)⟩ 0 =
      (varxDemoModel mem).residuals params ⟨1, (by decide : 1 < 4)⟩ 0 := rfl
  have h2 : (varxDemoModel mem).tailResiduals params ⟨1, (by decide : 1 < 3)⟩ 0 =
      (varxDemoModel mem).residuals params ⟨2, (by decide : 2 < 4)⟩ 0 := rfl
  rw [residuals_eq hmade params ⟨1, (by decide : 1 < 4)⟩ (by decide : 1 ≤ 1)] at h1
  rw [residuals_eq hmade params ⟨2, (by decide : 2 < 4)⟩ (by decide : 1 ≤ 2)] at h2
  by_contra hc
  push Not at hc
  rw [hc] at h1 h2
  have e : ∀ t : ℕ, 0 < t → t < 3 → varxPrediction ((varxDemoModel mem).readMu params)
      ((varxDemoModel mem).readA params) ((varxDemoModel mem).readB params)
      ((varxDemoModel mem).readB0 params) (rowSeq (varxDemoModel mem).y)
      (rowSeq (varxDemoModel mem).u) t 0 = (varxDemoModel mem).readMu params 0 +
        (varxDemoModel mem).readB0 params 0 0 := by
    intro t h0 h3
    unfold varxPrediction
    have hy : ∀ b, rowSeq (varxDemoModel mem).y (t - 1) b = 0 := by
      intro b
      obtain rfl | rfl : t = 1 ∨ t = 2 := by omega
      · rfl
      · rfl
    have hu : ∀ b, rowSeq (varxDemoModel mem).u t b = 1 := by
      intro b
      obtain rfl | rfl : t = 1 ∨ t = 2 := by omega
      · rfl
      · rfl
    have ha : ∑ i : Fin (varxDemoModel mem).p, ∑ b, (varxDemoModel mem).readA params i 0 b *
        rowSeq (varxDemoModel mem).y (t - (i + 1)) b = 0 := by
      refine Finset.sum_eq_zero fun i _ => Finset.sum_eq_zero fun b _ => ?_
      have hi : (i : ℕ) = 0 := by
        have := i.2
        change (i : ℕ) < 1 at this
        omega
      rw [hi, hy, mul_zero]
    have hb : ∑ i : Fin (varxDemoModel mem).s, ∑ b, (varxDemoModel mem).readB params i 0 b *
        rowSeq (varxDemoModel mem).u (t - (i + 1)) b = 0 :=
      Finset.sum_eq_zero fun i _ => (Nat.not_lt_zero _ i.2).elim
    rw [ha, hb, Fin.sum_univ_one, hu]
    ring
  rw [e 1 (by norm_num) (by norm_num)] at h1
  rw [e 2 (by norm_num) (by norm_num)] at h2
  have y1 : (varxDemoModel mem).y ⟨1, (by decide : 1 < 4)⟩ 0 = 0 := rfl
  have y2 : (varxDemoModel mem).y ⟨2, (by decide : 2 < 4)⟩ 0 = 1 := rfl
  rw [y1] at h1
  rw [y2] at h2
  linarith

/-- The hypotheses of C53, C54 are met by an autoregression of order 1 with an external factor. -/
theorem varxDemo_fit (mem : Memory) : ∃ lstsq : LstSq, lstsq.Exact ∧
    (∃ f, (varxDemoModel mem).fit lstsq none = Py.ok f) ∧
      ∃ f, (varxDemoModel mem).fit lstsq (some ⟨4, ![1, 1, 1/2, 1]⟩) = Py.ok f := by
  obtain ⟨lstsq, hl, htot⟩ := exists_exact_lstsq
  refine ⟨lstsq, hl, ?_, ?_⟩
  · obtain ⟨params, hp⟩ := htot _ _ _ (varxDemoModel mem).z (varxDemoModel mem).target
    obtain ⟨t, ht⟩ := varxDemo_residual mem params
    obtain ⟨S, hS⟩ := npInv_covariance ((varxDemoModel mem).tailResiduals params)
      (((varxDemoModel mem).n : ℝ) - (varxDemoModel mem).presample - (varxDemoModel mem).p *
        (1 : ℕ) - 1 - (1 : ℕ) * (1 + (varxDemoModel mem).s)) t ht
    change ∃ f, (varxDemoModel mem).fitPlain lstsq = Py.ok f
    unfold VARXModel.fitPlain VARXModel.finish
    rw [hp, Py.ok_bind]
    simp only [hS, Py.ok_bind]
    exact ⟨_, rfl⟩
  · let w : Fin (varxDemoModel mem).n → ℝ := ![1, 1, 1/2, 1]
    have hw : ∀ t, 0 < (varxDemoModel mem).tailWeights w t := by
      intro t
      change 0 < ![1, 1, 1/2, 1] (⟨t + 1, _⟩ : Fin 4)
      have ht := t.2
      change (t : ℕ) < 3 at ht
      obtain ⟨t, h⟩ := t
      interval_cases t <;> norm_num
    change ∃ f, (varxDemoModel mem).fitWeighted lstsq w = Py.ok f
    unfold VARXModel.fitWeighted
    rw [if_neg (fun ⟨t, ht⟩ => absurd ht (not_lt.2 (hw t).le))]
    obtain ⟨params, hp⟩ := htot _ _ _
      (scaleRows (fun t => Real.sqrt ((varxDemoModel mem).tailWeights w t)) (varxDemoModel mem).z)
      (scaleRows (fun t => Real.sqrt ((varxDemoModel mem).tailWeights w t))
        (varxDemoModel mem).target)
    obtain ⟨t, ht⟩ := varxDemo_residual mem params
    obtain ⟨S, hS⟩ := npInv_covariance
      (scaleRows (fun t => Real.sqrt ((varxDemoModel mem).tailWeights w t))
        ((varxDemoModel mem).tailResiduals params))
      (∑ t, (varxDemoModel mem).tailWeights w t - 1) t
      (mul_ne_zero (Real.sqrt_pos.2 (hw t)).ne' ht)
    unfold VARXModel.finish
    simp only [hp, Py.ok_bind, hS]
    exact ⟨_, rfl⟩

/-- C53 and C54 at work on it: residual 2 is the error of `mu + A y_1 + B0 u_2`. -/
example (mem : Memory) : ∃ (lstsq : LstSq) (f : VARXFit (varxDemoModel mem)),
    (varxDemoModel mem).fit lstsq (some ⟨4, ![1, 1, 1/2, 1]⟩) = Py.ok f ∧
    rowSeq f.residuals 2 0 = 1 - (f.mu 0 + f.B0 0 0) ∧
    weightedError 1 ![1, 1, 1/2, 1] varxDemo
      (varxPrediction f.mu f.A f.B f.B0 (rowSeq varxDemo) (rowSeq varxDemoU)) ≤ 1/2 := by
  obtain ⟨lstsq, hl, -, f, hf⟩ := varxDemo_fit mem
  refine ⟨lstsq, f, hf, ?_, ?_⟩
  · obtain ⟨-, -, -, -, h, -⟩ := C53_varx_residuals (varxDemo_model mem) hf
    refine (h 2 (0 : Fin 1) (by decide : 1 ≤ 2) (by decide)).trans ?_
    have e1 : ∑ i : Fin (varxDemoModel mem).p, ∑ b, f.A i 0 b * rowSeq varxDemo (2 - (i + 1)) b =
        0 := by
      refine Finset.sum_eq_zero fun i _ => Finset.sum_eq_zero fun b _ => ?_
      have hi : (i : ℕ) = 0 := by
        have := i.2
        change (i : ℕ) < 1 at this
        omega
      rw [hi]
      exact mul_zero _
    have e2 : ∑ i : Fin (varxDemoModel mem).s, ∑ b, f.B i 0 b *
        rowSeq varxDemoU (2 - (i + 1)) b = 0 :=
      Finset.sum_eq_zero fun i _ => (Nat.not_lt_zero _ i.2).elim
    have e3 : rowSeq varxDemoU 2 0 = 1 := rfl
    have e : varxPrediction f.mu f.A f.B f.B0 (rowSeq varxDemo) (rowSeq varxDemoU) 2 0 =
        f.mu 0 + f.B0 0 0 := by
      unfold varxPrediction
      rw [Fin.sum_univ_one, e1, e2, e3]
      ring
    exact congrArg (fun x : ℝ => 1 - x) e
  · have := C54_varx_weighted_fit_least hl (varxDemo_model mem) _ hf (fun _ => 0) (fun _ => 0)
      (fun _ => 0) 0
    refine le_trans this ?_
    have e : varxPrediction (p := (varxDemoModel mem).p) (s := (varxDemoModel mem).s) (fun _ => 0)
        (fun _ => 0) (fun _ => 0) 0 (rowSeq varxDemo) (rowSeq varxDemoU) = fun _ _ => 0 := by
      funext t d
      simp [varxPrediction]
    refine le_of_eq ((congrArg (weightedError (max (varxDemoModel mem).p (varxDemoModel mem).s)
      ![1, 1, 1/2, 1] varxDemo) e).trans ?_)
    unfold weightedError
    rw [Fin.sum_univ_four]
    simp [sqDist, varxDemo, varxDemoModel]

end Reor
