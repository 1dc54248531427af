import Verif.Props.VARXSym

/-!
FEM-BV-VARX of translated data: a component that is assigned a single sample.
-/

namespace Reor

set_option linter.unusedSectionVars false

open scoped BigOperators Matrix
open Spec

section Shift

variable {lstsq : LstSq} {solver : LPSolver ℝ}

/-- Four samples of one feature, moved by `s`. -/
def shiftData (s : ℝ) : Matrix (Fin 4) (Fin 1) ℝ := fun t _ => ![0, 1, 1, 2] t + s

/-- Their local model with memory 1. -/
noncomputable def shiftModel (mem : Memory) (s : ℝ) : VARXModel 1 (exogCols none) :=
  ⟨4, 1, 0, shiftData s, fun _ e => e.elim0,
    varxRegressors (E := 0) mem 1 0 (shiftData s) fun _ e => e.elim0⟩

theorem shift_model (mem : Memory) (s : ℝ) :
    varxModel mem (dropRows (shiftData s) 0) (.int 1) none (.int 0) = Py.ok (shiftModel mem s) := rfl

theorem shift_made (mem : Memory) (s : ℝ) : (shiftModel mem s).Made mem := ⟨rfl, show max 1 0 ≤ 4 by decide⟩

/-- Errors of the prediction of one sample from the one before. -/
def shiftError (s mu a : ℝ) (t : Fin 3) : ℝ :=
  (![1, 1, 2] t + s) - mu - a * (![0, 1, 1] t + s)

/-- Rows of the least-squares problem. -/
abbrev ShiftRow (mem : Memory) (s : ℝ) : Type :=
  Fin ((shiftModel mem s).n - (shiftModel mem s).presample)

theorem shift_residual (mem : Memory) (s : ℝ)
    (x : Matrix (Fin (shiftModel mem s).nCols) (Fin 1) ℝ) (t : ShiftRow mem s) :
    ((shiftModel mem s).target - (shiftModel mem s).z * x) t 0 =
      shiftError s ((shiftModel mem s).readMu x 0)
      ((shiftModel mem s).readA x ⟨0, Nat.zero_lt_one⟩ 0 0) t := by
  have h := z_mul_params (shift_made mem s) x t 0
  rw [Matrix.sub_apply, h]
  unfold varxPrediction
  have ha : ∑ i : Fin (shiftModel mem s).p, ∑ b, (shiftModel mem s).readA x i 0 b *
      rowSeq (shiftModel mem s).y ((t : ℕ) + (shiftModel mem s).presample - (i + 1)) b =
      (shiftModel mem s).readA x ⟨0, Nat.zero_lt_one⟩ 0 0 * (![0, 1, 1] (show Fin 3 from t) + s) := by
    refine (Fin.sum_univ_one (fun i : Fin 1 => ∑ b, (shiftModel mem s).readA x i 0 b *
      rowSeq (shiftModel mem s).y ((t : ℕ) + (shiftModel mem s).presample - (i + 1)) b)).trans
      ((Fin.sum_univ_one _).trans ?_)
    refine congrArg₂ _ rfl ?_
    change Fin 3 at t
    fin_cases t <;> rfl
  have hb : ∑ i : Fin (shiftModel mem s).s, ∑ b, (shiftModel mem s).readB x i 0 b *
      rowSeq (shiftModel mem s).u ((t : ℕ) + (shiftModel mem s).presample - (i + 1)) b = 0 :=
    Finset.sum_eq_zero fun i _ => (Nat.not_lt_zero _ i.2).elim
  have hc : ∑ e, (shiftModel mem s).readB0 x 0 e *
      rowSeq (shiftModel mem s).u ((t : ℕ) + (shiftModel mem s).presample) e = 0 :=
    Finset.sum_eq_zero fun e _ => (Nat.not_lt_zero _ e.2).elim
  have hy : (shiftModel mem s).target t 0 = ![1, 1, 2] (show Fin 3 from t) + s := by
    clear h ha hb hc
    change Fin 3 at t
    fin_cases t <;> rfl
  rw [ha, hb, hc, hy]
  unfold shiftError
  ring

theorem shift_norm (mem : Memory) (s : ℝ) (x : Matrix (Fin (shiftModel mem s).nCols) (Fin 1) ℝ) :
    frobSq x = (shiftModel mem s).readMu x 0 ^ 2 +
      (shiftModel mem s).readA x ⟨0, Nat.zero_lt_one⟩ 0 0 ^ 2 := by
  rw [frobSq_params]
  have hb : ∑ i, frobSq ((shiftModel mem s).readB x i) = 0 :=
    Finset.sum_eq_zero fun i _ => (Nat.not_lt_zero _ i.2).elim
  have hc : frobSq ((shiftModel mem s).readB0 x) = 0 :=
    Finset.sum_eq_zero fun e _ => Finset.sum_eq_zero fun e _ => (Nat.not_lt_zero _ e.2).elim
  have ha : ∑ i, frobSq ((shiftModel mem s).readA x i) =
      (shiftModel mem s).readA x ⟨0, Nat.zero_lt_one⟩ 0 0 ^ 2 := by
    refine (Fin.sum_univ_one fun i : Fin 1 => frobSq ((shiftModel mem s).readA x i)).trans ?_
    unfold frobSq
    rw [Fin.sum_univ_one, Fin.sum_univ_one]
    rfl
  rw [ha, hb, hc, Fin.sum_univ_one]
  ring

theorem shift_params (mem : Memory) (s mu a : ℝ) :
    ∃ x : Matrix (Fin (shiftModel mem s).nCols) (Fin 1) ℝ, (shiftModel mem s).readMu x 0 = mu ∧
      (shiftModel mem s).readA x ⟨0, Nat.zero_lt_one⟩ 0 0 = a := by
  obtain ⟨x, h1, h2, -⟩ := exists_params (shiftModel mem s) (fun _ => mu) (fun _ _ _ => a)
    (fun _ _ _ => 0) (fun _ _ => 0)
  exact ⟨x, by rw [h1], by rw [h2]⟩

/-- A weighted fit, given the solution of least norm. -/
theorem fitWeighted_minNorm {D E : ℕ} {m : VARXModel D E} (hl : lstsq.MinNorm) (ω : Fin m.n → ℝ)
    (h0 : ∀ t, 0 ≤ m.tailWeights ω t) {x : Matrix (Fin m.nCols) (Fin D) ℝ}
    (hx : MinNormSol (scaleRows (fun t => Real.sqrt (m.tailWeights ω t)) m.z)
      (scaleRows (fun t => Real.sqrt (m.tailWeights ω t)) m.target) x)
    (hinv : ∃ S, npInv (covariance (scaleRows (fun t => Real.sqrt (m.tailWeights ω t))
      (m.tailResiduals x)) (∑ t, m.tailWeights ω t - 1)) = Py.ok S) :
    ∃ f, m.fitWeighted lstsq ω = Py.ok f ∧ f.residuals = m.residuals x := by
  obtain ⟨y, hy, hym⟩ := hl _ _ _ (scaleRows (fun t => Real.sqrt (m.tailWeights ω t)) m.z)
    (scaleRows (fun t => Real.sqrt (m.tailWeights ω t)) m.target)
  obtain rfl := minNorm_unique hx hym
  obtain ⟨S, hS⟩ := hinv
  unfold VARXModel.fitWeighted
  have hneg : ¬∃ t, m.tailWeights ω t < 0 := by
    rintro ⟨t, ht⟩
    exact absurd ht (not_lt.2 (h0 t))
  rw [if_neg hneg]
  simp only
  rw [hy, Py.ok_bind]
  unfold VARXModel.finish
  rw [hS, Py.ok_bind]
  exact ⟨_, rfl, rfl⟩

/-- A weighted fit of the four samples. -/
theorem shift_fit (hl : lstsq.MinNorm) (mem : Memory) (s : ℝ) (W : Fin 4 → ℝ)
    (h0 : ∀ t, 0 ≤ W t) (mu a : ℝ)
    (hmin : ∀ mu' a', ∑ t : Fin 3, W t.succ * shiftError s mu a t ^ 2 ≤
      ∑ t : Fin 3, W t.succ * shiftError s mu' a' t ^ 2)
    (hnorm : ∀ mu' a', ∑ t : Fin 3, W t.succ * shiftError s mu' a' t ^ 2 ≤
      ∑ t : Fin 3, W t.succ * shiftError s mu a t ^ 2 → mu ^ 2 + a ^ 2 ≤ mu' ^ 2 + a' ^ 2)
    (hinv : ∑ t : Fin 3, W t.succ - 1 = 0 ∨
      ∃ t : Fin 3, 0 < W t.succ ∧ shiftError s mu a t ≠ 0) :
    ∃ f, (shiftModel mem s).fit lstsq (some ⟨4, W⟩) = Py.ok f ∧
      ∀ t : Fin 3, sqResidual f (t + 1) = shiftError s mu a t ^ 2 := by
  let ω : Fin (shiftModel mem s).n → ℝ := W
  have htail : ∀ t : ShiftRow mem s, (shiftModel mem s).tailWeights ω t =
      W (Fin.succ (show Fin 3 from t)) := fun t => rfl
  have herr : ∀ x : Matrix (Fin (shiftModel mem s).nCols) (Fin 1) ℝ,
      lsError (scaleRows (fun t => Real.sqrt ((shiftModel mem s).tailWeights ω t)) (shiftModel mem s).z)
        (scaleRows (fun t => Real.sqrt ((shiftModel mem s).tailWeights ω t)) (shiftModel mem s).target)
        x = ∑ t : Fin 3, W t.succ * shiftError s ((shiftModel mem s).readMu x 0)
          ((shiftModel mem s).readA x ⟨0, Nat.zero_lt_one⟩ 0 0) t ^ 2 := by
    intro x
    unfold lsError
    rw [scaleRows_sub_mul]
    unfold frobSq
    refine Finset.sum_congr rfl fun t _ => ?_
    rw [Fin.sum_univ_one]
    unfold scaleRows
    rw [shift_residual, mul_pow]
    exact congrArg (· * _) (Real.sq_sqrt (h0 _))
  obtain ⟨y, hy1, hy2⟩ := shift_params mem s mu a
  have hym : MinNormSol
      (scaleRows (fun t => Real.sqrt ((shiftModel mem s).tailWeights ω t)) (shiftModel mem s).z)
      (scaleRows (fun t => Real.sqrt ((shiftModel mem s).tailWeights ω t)) (shiftModel mem s).target)
      y := by
    refine ⟨fun z => ?_, fun z hz => ?_⟩
    · rw [herr, herr, hy1, hy2]
      exact hmin _ _
    · have hz := hz y
      rw [herr, herr, hy1, hy2] at hz
      rw [shift_norm, shift_norm, hy1, hy2]
      exact hnorm _ _ hz
  have hinv' : ∃ S, npInv (covariance (scaleRows
      (fun t => Real.sqrt ((shiftModel mem s).tailWeights ω t)) ((shiftModel mem s).tailResiduals y))
      (∑ t, (shiftModel mem s).tailWeights ω t - 1)) = Py.ok S := by
    rcases hinv with h | ⟨t, h1, h2⟩
    · unfold covariance
      rw [if_pos (show ∑ t, (shiftModel mem s).tailWeights ω t - 1 = 0 from h)]
      exact ⟨_, rfl⟩
    · refine npInv_covariance _ _ t ?_
      refine mul_ne_zero (Real.sqrt_pos.2 h1).ne' ?_
      rw [tailResiduals_eq]
      refine (shift_residual mem s y t).trans_ne ?_
      rw [hy1, hy2]
      exact h2
  obtain ⟨f, hf, hres⟩ := fitWeighted_minNorm hl ω (fun t => h0 _) hym hinv'
  refine ⟨f, hf, fun t => ?_⟩
  rw [sqResidual_seq, Fin.sum_univ_one]
  unfold rowSeq
  rw [dif_pos (show (t : ℕ) + 1 < (shiftModel mem s).n from Nat.succ_lt_succ t.2), hres]
  congr 1
  refine Eq.trans ?_ ((shift_residual mem s y t).trans (by rw [hy1, hy2]))
  rw [← tailResiduals_eq]
  rfl

/-- Without weights the fit returns: the last two samples have the same past. -/
theorem shift_plain (hl : lstsq.MinNorm) (mem : Memory) (s : ℝ) :
    ∃ f, (shiftModel mem s).fit lstsq none = Py.ok f := by
  refine (varx_fit_succeeds (lstsq := lstsq) hl.total fun x => ?_).1
  by_contra hc
  push Not at hc
  have h1 := (shift_residual mem s x (1 : Fin 3)).symm.trans
    ((congrFun (congrFun (tailResiduals_eq _ x) _) _).symm.trans (hc (1 : Fin 3)))
  have h2 := (shift_residual mem s x (2 : Fin 3)).symm.trans
    ((congrFun (congrFun (tailResiduals_eq _ x) _) _).symm.trans (hc (2 : Fin 3)))
  simp only [shiftError, Matrix.cons_val] at h1 h2
  linarith

/-- The first prediction belongs to the first component, the others to the second. -/
def shiftGamma : Matrix (Fin 3) (Fin 2) ℝ := !![1, 0; 0, 1; 0, 1]

noncomputable def shiftArgs : FEMVARXArgs where
  weights := some (Arr2.of shiftGamma)
  init := some "custom"

/-- The object of the example in `Props.FEMVARX` without bound for the total variation. -/
noncomputable def shiftObj : FEMVARXObj demoRngReal := { demoVARX with maxTvNorm := .none }

theorem shift_weights : femInitWeights demoRngReal 3 2 (some (Arr2.of shiftGamma))
    (some "custom") shiftObj.randomState = Py.ok (shiftGamma, shiftObj.randomState) := by
  have h : checkUnitRowSums shiftGamma = Py.ok () := by
    refine if_pos fun t => ?_
    have : ∑ j, shiftGamma t j = 1 := by
      fin_cases t <;> simp [shiftGamma]
    rw [iscloseOne, this]
    norm_num
  have h' : femCheckInitWeights (Arr2.of shiftGamma) 3 2 = Py.ok shiftGamma := by
    unfold femCheckInitWeights
    rw [show checkArray (some (Arr2.of shiftGamma)) = Py.ok (Arr2.of shiftGamma) from rfl,
      Py.ok_bind, show checkArrayShape (Arr2.of shiftGamma) 3 2 = Py.ok shiftGamma from rfl,
      Py.ok_bind, h]
    rfl
  unfold femInitWeights
  rw [if_pos rfl]
  simp only [h', Py.ok_bind]
  rfl

/-- A single iteration: the weights are optimal for the updated parameters. -/
theorem femIterate_once_weights {P : Type} {T k : ℕ} {tv : Option ℝ} {comp : FEMComp P T k ℝ}
    (hk : 0 < k) (hs : solver.Exact)
    {con : Option (FEMConstraints (k * T + auxParameters tv k T) ℝ)}
    (hcon : ConstraintsFor tv T k con) (hmin : LeastExist tv T k) (require : Bool) (tol : ℝ)
    (s : FEMState P T k ℝ) {p : P} (hp : comp.update s.Gamma s.params = Py.ok p) :
    ∃ r, femIterate comp solver con require tol 1 true true s = Py.ok r ∧
      WeightsUpdated tv (comp.distance p) s.Gamma r.state.Gamma := by
  unfold femIterate
  simp only [FEMState.evaluateCost, FEMState.evaluateDistance]
  have h1 : ∀ c, femParametersPhase comp require tol 0
      ⟨s.Gamma, s.params, comp.distance s.params⟩ c =
      Py.ok (⟨s.Gamma, p, comp.distance p⟩, assignmentCost s.Gamma (comp.distance p)) := by
    intro c
    rw [femParametersPhase_eq]
    simp only [hp, Py.ok_bind, femCheck_zero]
  obtain ⟨G, hG, he⟩ := femWeightsPhase_eq hk comp hs hcon hmin require tol 0
    ⟨s.Gamma, p, comp.distance p⟩ (assignmentCost s.Gamma (comp.distance p))
  rw [femCheck_zero, Py.ok_bind] at he
  have hq : femStep comp solver con require tol true true 0
      ⟨s.Gamma, s.params, comp.distance s.params⟩ (mulSum s.Gamma (comp.distance s.params)) =
      femWeightsPhase comp solver con require tol 0 ⟨s.Gamma, p, comp.distance p⟩
        (assignmentCost s.Gamma (comp.distance p)) := by
    unfold femStep
    simp only [h1, Py.ok_bind]
    rfl
  rw [show List.range 1 = [0] from rfl, femLoop_cons, hq, he, Py.ok_bind]
  split
  · exact ⟨_, rfl, hG⟩
  · exact ⟨_, rfl, hG⟩

/-- The fit of the four samples, given the updated components. -/
theorem shift_run (hl : lstsq.MinNorm) (hs : solver.Exact) (mem : Memory) (s : ℝ)
    (D : Matrix (Fin 3) (Fin 2) ℝ)
    (hD : ∀ i : Fin 2, ∃ f, (shiftModel mem s).fit lstsq (some (varxWeights shiftGamma i 1)) = Py.ok f ∧
      ∀ t : Fin 3, sqResidual f (t + 1) = D t i) :
    ∃ G r, femVARXFitTransform demoRngReal solver lstsq mem shiftObj (Arr2.of (shiftData s))
      shiftArgs = Py.ok r ∧ r.2.1 = some (Arr2.of G) ∧ RowStochastic G ∧
      ∀ G', RowStochastic G' → assignmentCost G D ≤ assignmentCost G' D := by
  obtain ⟨f, hf⟩ := shift_plain hl mem s
  have hmod : varxModels mem (shiftData s) (fun i : Fin 2 => (1 : ℤ)) (1 : ℕ) none =
      Py.ok fun _ => shiftModel mem s := pyPi_eq_ok.2 fun i => shift_model mem s
  obtain ⟨start, h1, h2, h3⟩ := varxInit_of (mem := mem) (lstsq := lstsq) (maxMem := (1 : ℕ))
    (fits := fun _ => f) (n := 4) rfl hmod (fun _ => hf) (if_pos fun i => Or.inl rfl)
  obtain ⟨L', models', params⟩ := start
  simp only at h2 h3
  subst h2
  have h3 : L' = 1 := h3
  subst h3
  obtain ⟨con, hcon, -⟩ := femConstraints_ok (K := ℝ) none (k := 2) (T := 3) (by norm_num)
    (by norm_num)
  choose g hg hgD using hD
  have hu : varxUpdate lstsq shiftGamma params = Py.ok
      { fits := g
        mu := fun i => (g i).mu
        A := fun i l => if h : (l : ℕ) < 1 then (g i).A ⟨l, h⟩ else params.A i l
        B0 := fun i => (g i).B0 } := by
    unfold varxUpdate
    have hg' : (pyPi fun i => (shiftModel mem s).fit lstsq
        (some (varxWeights shiftGamma i (shiftModel mem s).p))) = Py.ok g := pyPi_eq_ok.2 hg
    rw [hg', Py.ok_bind]
    rfl
  obtain ⟨r, hr, hw⟩ := femIterate_once_weights
    (comp := varxComp (fun _ : Fin 2 => shiftModel mem s) 1 3 lstsq)
    (by norm_num) hs (femConstraints_for hcon)
    (leastExist_real (tv := none) (by simp) _ _) shiftObj.require (1 / 100)
    ⟨shiftGamma, params, varxDistance 3 params⟩ hu
  have hdist : varxDistance 3 ({ fits := g
                                 mu := fun i => (g i).mu
                                 A := fun i l => if h : (l : ℕ) < 1 then (g i).A ⟨l, h⟩ else params.A i l
                                 B0 := fun i => (g i).B0 } :
        VARXParams (fun _ : Fin 2 => shiftModel mem s) 1) = D := by
    ext t i
    exact (if_pos rfl).trans (hgD i t)
  have hst : varxInit mem lstsq (Arr2.of (shiftData s)).val
      (fun i : Fin 2 => shiftObj.memory.get (Fin.cast rfl i)) (maxMemory shiftObj.memory)
      shiftArgs.externalFactors = Py.ok ⟨1, fun _ => shiftModel mem s, params⟩ := by
    refine Eq.trans ?_ h1
    refine congrArg₂ (fun q m => varxInit mem lstsq (shiftData s) q m none) (demoVARX_mems rfl)
      demoVARX_max
  have hrun := femVARXRun_of (obj := shiftObj) (data := Arr2.of (shiftData s)) (args := shiftArgs)
    (p := (2, 1, 1 / 100)) rfl demoVARX_params hst
    (femVARXIterate_of (n := 4) (start := ⟨1, fun _ => shiftModel mem s, params⟩) shift_weights rfl hcon hr)
  have hout : ∃ q, femVARXFitTransform demoRngReal solver lstsq mem shiftObj
      (Arr2.of (shiftData s)) shiftArgs = Py.ok q ∧ q.2.1 = some (Arr2.of r.state.Gamma) := by
    unfold femVARXFitTransform
    rw [hrun, Py.ok_bind]
    exact ⟨_, rfl, rfl⟩
  obtain ⟨q, hq, hq'⟩ := hout
  refine ⟨r.state.Gamma, q, hq, hq', ?_, ?_⟩
  · exact (hw.admissible (by norm_num)).1
  · intro G' hG'
    have := hw.least (by norm_num) G' ⟨hG', by simp⟩
    rw [← hdist]
    exact this

theorem shift_weight (i : Fin 2) (t : Fin 3) :
    (varxWeights shiftGamma i 1).2 (Fin.succ t) = shiftGamma t i := by
  fin_cases t <;> rfl

/-- The distances of a component. -/
theorem shift_component (hl : lstsq.MinNorm) (mem : Memory) (s : ℝ) (i : Fin 2) (mu a : ℝ)
    (hmin : ∀ mu' a', ∑ t : Fin 3, shiftGamma t i * shiftError s mu a t ^ 2 ≤
      ∑ t : Fin 3, shiftGamma t i * shiftError s mu' a' t ^ 2)
    (hnorm : ∀ mu' a', ∑ t : Fin 3, shiftGamma t i * shiftError s mu' a' t ^ 2 ≤
      ∑ t : Fin 3, shiftGamma t i * shiftError s mu a t ^ 2 → mu ^ 2 + a ^ 2 ≤ mu' ^ 2 + a' ^ 2)
    (hinv : ∑ t : Fin 3, shiftGamma t i - 1 = 0 ∨
      ∃ t : Fin 3, 0 < shiftGamma t i ∧ shiftError s mu a t ≠ 0) :
    ∃ f, (shiftModel mem s).fit lstsq (some (varxWeights shiftGamma i 1)) = Py.ok f ∧
      ∀ t : Fin 3, sqResidual f (t + 1) = shiftError s mu a t ^ 2 := by
  refine shift_fit hl mem s (varxWeights shiftGamma i 1).2 ?_ mu a ?_ ?_ ?_
  · intro t
    fin_cases t <;> fin_cases i <;> simp [varxWeights, shiftGamma]
  · simpa only [shift_weight] using hmin
  · simpa only [shift_weight] using hnorm
  · simpa only [shift_weight] using hinv

/-- Weights without bound for the total variation, against given ones. -/
theorem shift_stochastic {G : Matrix (Fin 3) (Fin 2) ℝ} (h : RowStochastic G) :
    (∀ t i, 0 ≤ G t i) ∧ ∀ t, G t 0 + G t 1 = 1 :=
  ⟨fun t => (h t).1, fun t => (Fin.sum_univ_two _).symm.trans (h t).2⟩

/-- C110, the limits: the weights of a fit can change when a constant is added to the data.  The first
component has the weight of a single prediction, and of all coefficients that predict it exactly
`np.linalg.lstsq` returns those of least norm; these do not move with the data. -/
theorem C110_femvarx_translation_matters (hl : lstsq.MinNorm) (hs : solver.Exact) (mem : Memory) :
    ∃ r r', femVARXFitTransform demoRngReal solver lstsq mem shiftObj (Arr2.of (shiftData 0))
        shiftArgs = Py.ok r ∧
      femVARXFitTransform demoRngReal solver lstsq mem shiftObj
        (Arr2.of fun t d => shiftData 0 t d + 1) shiftArgs = Py.ok r' ∧
      r.2.1 ≠ r'.2.1 := by
  have hshift : (fun t d => shiftData 0 t d + 1) = shiftData 1 := by
    funext t d
    simp [shiftData]
  obtain ⟨G, r, hr, hG, hst, hle⟩ := shift_run hl hs mem 0 !![0, 1 / 16; 0, 1 / 4; 1, 1 / 4] (by
    intro i
    fin_cases i
    · obtain ⟨f, hf, h⟩ := shift_component hl mem 0 0 1 0
        (by intro mu' a'; simp [Fin.sum_univ_three, shiftGamma, shiftError]; positivity)
        (by
          intro mu' a' h
          simp [Fin.sum_univ_three, shiftGamma, shiftError] at h
          have : mu' = 1 := by nlinarith
          rw [this]; nlinarith [sq_nonneg a'])
        (Or.inl (by simp [Fin.sum_univ_three, shiftGamma]))
      refine ⟨f, hf, fun t => (h t).trans ?_⟩
      fin_cases t <;> norm_num [shiftError]
    · obtain ⟨f, hf, h⟩ := shift_component hl mem 0 1 (3 / 4) (3 / 4)
        (by intro mu' a'; simp [Fin.sum_univ_three, shiftGamma, shiftError]
            nlinarith [sq_nonneg (mu' + a' - 3 / 2)])
        (by
          intro mu' a' h
          simp [Fin.sum_univ_three, shiftGamma, shiftError] at h
          have : mu' = 3 / 2 - a' := by nlinarith [sq_nonneg (mu' + a' - 3 / 2)]
          rw [this]; nlinarith [sq_nonneg (a' - 3 / 4)])
        (Or.inr ⟨1, by simp [shiftGamma], by norm_num [shiftError]⟩)
      refine ⟨f, hf, fun t => (h t).trans ?_⟩
      fin_cases t <;> norm_num [shiftError])
  obtain ⟨G', r', hr', hG', hst', hle'⟩ := shift_run hl hs mem 1 !![0, 1 / 4; 1, 1 / 4; 0, 1 / 4] (by
    intro i
    fin_cases i
    · obtain ⟨f, hf, h⟩ := shift_component hl mem 1 0 1 1
        (by intro mu' a'; simp [Fin.sum_univ_three, shiftGamma, shiftError]; positivity)
        (by
          intro mu' a' h
          simp [Fin.sum_univ_three, shiftGamma, shiftError] at h
          have : mu' = 2 - a' := by nlinarith [sq_nonneg (mu' + a' - 2)]
          rw [this]; nlinarith [sq_nonneg (a' - 1)])
        (Or.inl (by simp [Fin.sum_univ_three, shiftGamma]))
      refine ⟨f, hf, fun t => (h t).trans ?_⟩
      fin_cases t <;> norm_num [shiftError]
    · obtain ⟨f, hf, h⟩ := shift_component hl mem 1 1 (1 / 2) 1
        (by intro mu' a'; simp [Fin.sum_univ_three, shiftGamma, shiftError]
            nlinarith [sq_nonneg (mu' + 2 * a' - 5 / 2)])
        (by
          intro mu' a' h
          simp [Fin.sum_univ_three, shiftGamma, shiftError] at h
          have : mu' = 5 / 2 - 2 * a' := by nlinarith [sq_nonneg (mu' + 2 * a' - 5 / 2)]
          rw [this]; nlinarith [sq_nonneg (a' - 1)])
        (Or.inr ⟨1, by simp [shiftGamma], by norm_num [shiftError]⟩)
      refine ⟨f, hf, fun t => (h t).trans ?_⟩
      fin_cases t <;> norm_num [shiftError])
  refine ⟨r, r', hr, ?_, ?_⟩
  · rw [hshift]
    exact hr'
  rw [hG, hG']
  intro he
  have he : G = G' := by
    have := Option.some.inj he
    injection this
  subst he
  have h1 := hle !![1, 0; 1, 0; 0, 1] fun t =>
    ⟨by intro i; fin_cases t <;> fin_cases i <;> simp, by fin_cases t <;> simp⟩
  have h2 := hle' !![1, 0; 0, 1; 1, 0] fun t =>
    ⟨by intro i; fin_cases t <;> fin_cases i <;> simp, by fin_cases t <;> simp⟩
  simp [assignmentCost, Fin.sum_univ_three, Fin.sum_univ_two] at h1 h2
  obtain ⟨p0, p1⟩ := shift_stochastic hst
  have := p0 0 1; have := p0 1 0; have := p0 1 1; have := p0 2 0; have := p0 2 1
  have := p1 0; have := p1 1; have := p1 2
  linarith

/-- Tools as in the theorem exist. -/
example : ∃ (lstsq : LstSq) (solver : LPSolver ℝ), lstsq.MinNorm ∧ solver.Exact := by
  obtain ⟨l, hl⟩ := exists_minNorm_lstsq
  obtain ⟨s, hs⟩ := exists_exact_solver (K := ℝ)
  exact ⟨l, s, hl, hs⟩

end Shift

end Reor
