import Verif.Proofs.CROMFlt
import Verif.Proofs.Rel

/-!
With finite values the fit of Model/CROMFlt.lean is that of Model/GPNHCROM.lean.
-/

namespace Reor

set_option linter.unusedSectionVars false

open scoped BigOperators Matrix
open Spec

variable {K : Type} [Field K] [LinearOrder K] [IsStrictOrderedRing K]
variable {T k p : ℕ}

namespace Flt

theorem gt_fin (a b : K) : gt (fin a) (fin b) = decide (b < a) := by
  simp only [gt, ge]
  rcases lt_trichotomy a b with h | h | h
  · simp [h.not_ge, h.not_gt]
  · simp [h]
  · simp [h, h.le, h.not_ge]

theorem abs_fin (a : K) : abs (fin a) = fin |a| := by
  unfold abs
  rw [gt_fin]
  by_cases h : a < 0
  · simp [h, neg, abs_of_neg h]
  · simp [h, abs_of_nonneg (not_lt.1 h)]

theorem sub_fin (a b : K) : sub (fin a) (fin b) = fin (a - b) := by
  simp [sub, neg, add, sub_eq_add_neg]

theorem pyMax_fin (a b : K) : pyMax (fin a) (fin b) = fin (max a b) := by
  unfold pyMax
  rw [gt_fin]
  by_cases h : a < b
  · simp [h, max_eq_right h.le]
  · simp [h, max_eq_left (not_lt.1 h)]

theorem pyMin_fin (a b : K) : pyMin (fin a) (fin b) = fin (min a b) := by
  unfold pyMin
  rw [gt_fin]
  by_cases h : b < a
  · simp [h, min_eq_right h.le]
  · simp [h, min_eq_left (not_lt.1 h)]

end Flt

open Flt

theorem fltStepLength_fin (step delta fOld fNew sigmaOne sigmaTwo : K) :
    fltStepLength (fin step) (fin delta) (fin fOld) (fin fNew) sigmaOne sigmaTwo =
      fin (nextSpgStepLength step delta fOld fNew sigmaOne sigmaTwo) := by
  unfold fltStepLength nextSpgStepLength
  simp only [mul, sub_fin, div]
  by_cases h : fNew - fOld - step * delta = 0
  · rw [if_pos h, if_pos h]
    split_ifs with h1
    · exfalso
      revert h1
      unfold infMul
      split_ifs <;> simp [ge]
    · rfl
  · rw [if_neg h, if_neg h]
    simp only [ge, Bool.and_eq_true, decide_eq_true_eq]
    rw [sq]
    split_ifs <;> rfl

theorem fltAlpha_fin (beta sksk alphaMin alphaMax : K) :
    fltAlpha (fin beta) (fin sksk) alphaMin alphaMax =
      fin (nextSpgAlpha beta sksk alphaMin alphaMax) := by
  unfold fltAlpha nextSpgAlpha
  simp only [ge, decide_eq_true_eq]
  split_ifs with h
  · rfl
  · simp only [div, if_neg (not_le.1 h).ne', pyMax_fin, pyMin_fin]

theorem foldl_fltMaxStep_fin (l : List K) (m : Option K) :
    (l.map fin).foldl fltMaxStep (m.map fin) = (l.foldl maxStep m).map fin := by
  induction l generalizing m with
  | nil => rfl
  | cons a l ih =>
    rw [List.map_cons, List.foldl_cons, List.foldl_cons, ← ih]
    congr 1
    cases m with
    | none => rfl
    | some b =>
      simp only [Option.map_some, fltMaxStep, maxStep, ge, decide_eq_true_eq]
      split_ifs <;> rfl

namespace FltParams

theorem move_fin (w v : Fin p → K) (A B : Fin p → Matrix (Fin k) (Fin k) K) (a : K) :
    (ofFin w A).move (fin a) (ofFin v B) = ofFin (w + a • v) (A + a • B) := rfl

theorem pairing_fin (w v : Fin p → K) (A B : Fin p → Matrix (Fin k) (Fin k) K) :
    (ofFin w A).pairing (ofFin v B) = fin (vecMulSum w v + mulSum3 A B) := by
  unfold pairing
  have h1 : (Flt.total fun i => ((ofFin w A).w i).mul ((ofFin v B).w i)) =
      fin (vecMulSum w v) := total_fin _
  have h2 : (Flt.total fun i => Flt.total fun r => Flt.total fun s =>
      ((ofFin w A).A i r s).mul ((ofFin v B).A i r s)) = fin (mulSum3 A B) := by
    unfold mulSum3 mulSum
    rw [← total_fin]
    congr 1
    ext i
    rw [← total_fin]
    congr 1
    ext r
    exact total_fin _
  rw [h1, h2]
  rfl

end FltParams

open FltParams

namespace CROMState

/-- The parameters of a state. -/
def params (s : CROMState T k p K) : FltParams k p K := ofFin s.orderWeights s.transitionMatrices

/-- What a line search leaves alone, and the predicted weights. -/
structure Tied (c : CROMConfig p K) (s0 s : CROMState T k p K) : Prop where
  gamma : s.Gamma = s0.Gamma
  wOld : s.orderWeightsOld = s0.orderWeightsOld
  aOld : s.transitionMatricesOld = s0.transitionMatricesOld
  wIncr : s.incrOrderWeights = s0.incrOrderWeights
  aIncr : s.incrTransitionMatrices = s0.incrTransitionMatrices
  wGrad : s.gradOrderWeights = s0.gradOrderWeights
  aGrad : s.gradTransitionMatrices = s0.gradTransitionMatrices

theorem Tied.trial {c : CROMConfig p K} {s0 s : CROMState T k p K} (h : Tied c s0 s) (a : K) :
    Tied c s0 (parametersTrial c s a).1 :=
  ⟨h.gamma, h.wOld, h.aOld, h.wIncr, h.aIncr, h.wGrad, h.aGrad⟩

theorem Tied.trial_params {c : CROMConfig p K} {s0 s : CROMState T k p K} (h : Tied c s0 s) (a : K) :
    (parametersTrial c s a).1.params = (ofFin s0.orderWeightsOld s0.transitionMatricesOld).move
      (fin a) (ofFin s0.incrOrderWeights s0.incrTransitionMatrices) := by
  rw [move_fin, ← h.wOld, ← h.aOld, ← h.wIncr, ← h.aIncr]
  rfl

theorem Tied.trial_cost {c : CROMConfig p K} (hk : k ≠ 0) (hT : T ≠ c.maxLag)
    {s0 s : CROMState T k p K} (h : Tied c s0 s) (a : K) :
    (((ofFin s0.orderWeightsOld s0.transitionMatricesOld).move
      (fin a) (ofFin s0.incrOrderWeights s0.incrTransitionMatrices)).cost c s0.Gamma) =
      fin (parametersTrial c s a).2 := by
  rw [← h.trial_params]
  have := cost_fin (s := (parametersTrial c s a).1) hk hT rfl
  rw [(h.trial a).gamma] at this
  exact this

/-- `Z` is up to date. -/
def Fresh (c : CROMConfig p K) (s : CROMState T k p K) : Prop :=
  s.Z = cromPredictedWeights c.lags c.maxLag s.Gamma s.orderWeights s.transitionMatrices

theorem fresh_trial (c : CROMConfig p K) (s : CROMState T k p K) (a : K) :
    (parametersTrial c s a).1.Fresh c := rfl

theorem backtrack_to_flt {c : CROMConfig p K} (hk : k ≠ 0) (hT : T ≠ c.maxLag)
    {s0 s : CROMState T k p K} (ht : Tied c s0 s) (hf : s.Fresh c) {fMax δ f0 step x : K} {n : ℕ}
    {r : K × CROMState T k p K × K × ℕ}
    (h : backtrack c.ls (parametersTrial c) fMax δ f0 step s x n = some r) :
    fltBacktrack c s0.Gamma (ofFin s0.orderWeightsOld s0.transitionMatricesOld)
      (ofFin s0.incrOrderWeights s0.incrTransitionMatrices) (fin fMax) (fin δ) (fin f0) (fin step)
      s.params (fin x) = some (fin r.1, r.2.1.params) ∧ Tied c s0 r.2.1 ∧ r.2.1.Fresh c := by
  have key := backtrack.partial_correctness c.ls (parametersTrial c) fMax δ f0
    (motive := fun step s x n r => Tied c s0 s → s.Fresh c →
      fltBacktrack c s0.Gamma (ofFin s0.orderWeightsOld s0.transitionMatricesOld)
        (ofFin s0.incrOrderWeights s0.incrTransitionMatrices) (fin fMax) (fin δ) (fin f0) (fin step)
        s.params (fin x) = some (fin r.1, r.2.1.params) ∧ Tied c s0 r.2.1 ∧ r.2.1.Fresh c)
    (by
      intro bt ih step s x n r hr ht hf
      simp only at hr
      rw [fltBacktrack.eq_1]
      simp only [mul, add, gt_fin, decide_eq_true_eq, fltStepLength_fin, abs_fin]
      by_cases hc : x > fMax + c.ls.gamma * δ * step
      · rw [if_pos hc] at hr
        rw [if_pos hc]
        split_ifs at hr ⊢ with htol
        · simp only [Option.some.injEq] at hr
          subst hr
          exact ⟨by rw [ht.trial_params], ht.trial _, fresh_trial _ _ _⟩
        · rw [ht.trial_cost hk hT, ← ht.trial_params]
          exact ih _ _ _ _ r hr (ht.trial _) (fresh_trial _ _ _)
      · rw [if_neg hc] at hr
        rw [if_neg hc]
        simp only [Option.some.injEq] at hr
        subst hr
        exact ⟨rfl, ht, hf⟩)
    step s x n r h
  exact key ht hf

theorem backtrack_of_flt {c : CROMConfig p K} (hk : k ≠ 0) (hT : T ≠ c.maxLag)
    {s0 s : CROMState T k p K} (ht : Tied c s0 s) {fMax δ f0 step x : K} {n : ℕ}
    {r : Flt K × FltParams k p K}
    (h : fltBacktrack c s0.Gamma (ofFin s0.orderWeightsOld s0.transitionMatricesOld)
      (ofFin s0.incrOrderWeights s0.incrTransitionMatrices) (fin fMax) (fin δ) (fin f0) (fin step)
      s.params (fin x) = some r) :
    ∃ r', backtrack c.ls (parametersTrial c) fMax δ f0 step s x n = some r' := by
  have key := fltBacktrack.partial_correctness c s0.Gamma
    (ofFin s0.orderWeightsOld s0.transitionMatricesOld)
    (ofFin s0.incrOrderWeights s0.incrTransitionMatrices) (fin fMax) (fin δ) (fin f0)
    (motive := fun a q y _ => ∀ step s x n, a = fin step → q = s.params → y = fin x → Tied c s0 s →
      ∃ r', backtrack c.ls (parametersTrial c) fMax δ f0 step s x n = some r')
    (by
      intro bt ih a q y r hr step s x n ha hq hy ht
      subst ha hq hy
      simp only [mul, add, gt_fin, decide_eq_true_eq, fltStepLength_fin, abs_fin] at hr
      rw [backtrack_unfold]
      by_cases hc : x > fMax + c.ls.gamma * δ * step
      · rw [if_pos hc] at hr
        rw [if_pos hc]
        simp only
        split_ifs at hr ⊢ with htol
        · exact ⟨_, rfl⟩
        · exact ih _ _ _ r hr _ _ _ _ rfl (ht.trial_params _).symm (ht.trial_cost hk hT _) (ht.trial _)
      · rw [if_neg hc]
        exact ⟨_, rfl⟩)
    (fin step) s.params (fin x) r h
  exact key step s x n rfl rfl rfl ht

/-- What the fit keeps of a state. -/
def toFlt (s : CROMState T k p K) : FltFit k p K :=
  ⟨s.params, fin s.alphaParameters, s.fParametersMem.map fin⟩

end CROMState

open CROMState

theorem fltUpdate_fin {c : CROMConfig p K} (hk : k ≠ 0) (hT : T ≠ c.maxLag)
    (s : CROMState T k p K) :
    PyRel (fun s' q => q = s'.toFlt ∧ s'.Gamma = s.Gamma ∧ s'.Fresh c) (s.updateParameters c)
      (fltUpdate c s.Gamma s.toFlt) := by
  unfold CROMState.updateParameters
  rw [if_neg hT]
  set s1 := s.prepareParameters c with hs1
  have hZ1 : s1.Fresh c := rfl
  have hG1 : s1.Gamma = s.Gamma := rfl
  have hp1 : s1.params = s.params := rfl
  have hm1 : s1.fParametersMem = s.fParametersMem := rfl
  have hg : s.params.grad c s.Gamma = ofFin s1.gradOrderWeights s1.gradTransitionMatrices := by
    have := grad_fin (s := s.updatePredictedWeights c) hk hT rfl
    exact this
  have hi : s.params.increment (fin s.alphaParameters)
      (ofFin s1.gradOrderWeights s1.gradTransitionMatrices) =
      ofFin s1.incrOrderWeights s1.incrTransitionMatrices := increment_fin _ _ _
  have hc : s.params.cost c s.Gamma = fin (s1.evaluateFitResidual c) := cost_fin (s := s1) hk hT hZ1
  clear_value s1
  unfold fltUpdate CROMState.finishParameters CROMState.parametersLineSearch
  simp only [toFlt, hg, hi, hc, ← hm1]
  unfold lineSearch
  cases hmem : s1.fParametersMem with
  | nil => simp [PyRel]
  | cons a rest =>
    obtain ⟨M, hM, -, -⟩ := foldMax_spec (rest ++ [s1.evaluateFitResidual c]) (by simp)
    have hM' : (rest.map fin ++ [fin (s1.evaluateFitResidual c)]).foldl fltMaxStep none =
        some (fin M) := by
      have := foldl_fltMaxStep_fin (rest ++ [s1.evaluateFitResidual c]) none
      rw [show (rest ++ [s1.evaluateFitResidual c]).foldl maxStep none = some M from hM] at this
      simpa using this
    simp only [List.map_cons, hM, hM', pairing_fin]
    set s0 : CROMState T k p K := { s1 with
      orderWeightsOld := s1.orderWeights, transitionMatricesOld := s1.transitionMatrices,
      fParametersMem := a :: rest } with hs0
    have ht0 : Tied c s0 s0 := ⟨rfl, rfl, rfl, rfl, rfl, rfl, rfl⟩
    have e1 : s.params.move (fin 1) (ofFin s1.incrOrderWeights s1.incrTransitionMatrices) =
        (parametersTrial c s0 1).1.params := by
      rw [ht0.trial_params, ← hp1]
      rfl
    have e2 : (parametersTrial c s0 1).1.params.cost c s.Gamma = fin (parametersTrial c s0 1).2 := by
      rw [ht0.trial_params, ← hG1]
      exact ht0.trial_cost hk hT 1
    rw [e1, e2]
    have e3 : ∀ (δ f0 : K), fltBacktrack c s.Gamma s.params
        (ofFin s1.incrOrderWeights s1.incrTransitionMatrices) (fin M) (fin δ) (fin f0) (fin 1)
        (parametersTrial c s0 1).1.params (fin (parametersTrial c s0 1).2) =
      fltBacktrack c s0.Gamma (ofFin s0.orderWeightsOld s0.transitionMatricesOld)
        (ofFin s0.incrOrderWeights s0.incrTransitionMatrices) (fin M) (fin δ) (fin f0) (fin 1)
        (parametersTrial c s0 1).1.params (fin (parametersTrial c s0 1).2) := by
      intro δ f0
      rw [← hp1, ← hG1]
      rfl
    rw [e3]
    have ht1 := ht0.trial (c := c) 1
    cases hb : backtrack c.ls (parametersTrial c) M (vecMulSum s1.incrOrderWeights
        s1.gradOrderWeights + mulSum3 s1.incrTransitionMatrices s1.gradTransitionMatrices)
        (s1.evaluateFitResidual c) 1 (parametersTrial c s0 1).1 (parametersTrial c s0 1).2 0 with
    | none =>
      cases hb' : fltBacktrack c s0.Gamma (ofFin s0.orderWeightsOld s0.transitionMatricesOld)
        (ofFin s0.incrOrderWeights s0.incrTransitionMatrices) (fin M) (fin (vecMulSum
          s1.incrOrderWeights s1.gradOrderWeights + mulSum3 s1.incrTransitionMatrices
          s1.gradTransitionMatrices)) (fin (s1.evaluateFitResidual c)) (fin 1)
        (parametersTrial c s0 1).1.params (fin (parametersTrial c s0 1).2) with
      | none => simp [PyRel]
      | some r =>
        obtain ⟨r', h⟩ := backtrack_of_flt (n := 0) hk hT ht1 hb'
        rw [hb] at h
        simp at h
    | some r =>
      obtain ⟨hb', ht, hf⟩ := backtrack_to_flt hk hT ht1 (fresh_trial _ _ _) hb
      rw [hb']
      obtain ⟨step, s2, x, n⟩ := r
      simp only at ht hf
      have hg2 : s2.params.grad c s.Gamma =
          ofFin (s2.updateParametersGradient c).gradOrderWeights
            (s2.updateParametersGradient c).gradTransitionMatrices := by
        have := grad_fin (s := s2) hk hT hf
        rw [ht.gamma] at this
        rw [← hG1]
        exact this
      simp only [hg2, Py.ok_bind]
      refine ⟨?_, ?_, ?_⟩
      · have hd : (⟨fun i => ((ofFin (s2.updateParametersGradient c).gradOrderWeights
              (s2.updateParametersGradient c).gradTransitionMatrices).w i).sub
              ((ofFin s1.gradOrderWeights s1.gradTransitionMatrices).w i),
            fun i a b => ((ofFin (s2.updateParametersGradient c).gradOrderWeights
              (s2.updateParametersGradient c).gradTransitionMatrices).A i a b).sub
              ((ofFin s1.gradOrderWeights s1.gradTransitionMatrices).A i a b)⟩ : FltParams k p K) =
            ofFin ((s2.updateParametersGradient c).gradOrderWeights - s1.gradOrderWeights)
              ((s2.updateParametersGradient c).gradTransitionMatrices -
                s1.gradTransitionMatrices) := by
          simp only [ofFin, sub_fin]
          rfl
        rw [hd, pairing_fin]
        simp only [mul, fltAlpha_fin]
        rw [show s1.incrOrderWeights = s2.incrOrderWeights from ht.wIncr.symm,
          show s1.incrTransitionMatrices = s2.incrTransitionMatrices from ht.aIncr.symm,
          show s1.gradOrderWeights = s2.gradOrderWeights from ht.wGrad.symm,
          show s1.gradTransitionMatrices = s2.gradTransitionMatrices from ht.aGrad.symm, ← sq,
          FltFit.mk.injEq]
        exact ⟨rfl, rfl, (show (rest ++ [s1.evaluateFitResidual c]).map fin = _ from
          List.map_append).symm⟩
      · exact ht.gamma.trans hG1
      · exact hf

theorem fltFitLoop_fin {c : CROMConfig p K} (hk : k ≠ 0) (hT : T ≠ c.maxLag) {require : Bool}
    {tol : K} {G : Matrix (Fin T) (Fin k) K} (is : List ℕ) (s : CROMState T k p K)
    (hG : s.Gamma = G) (hf : s.Fresh c) (last : Option ℕ) (tr : List K)
    (hl : is = [] → last ≠ none) :
    PyRel (fun r q => q = r.state.toFlt)
      (iterateLoop (fun s => (s, s.evaluateFitResidual c)) require tol
        [CROMState.updateParameters c] is s (s.evaluateFitResidual c) last tr)
      (fltFitLoop c G require tol is.length s.toFlt (fin (s.evaluateFitResidual c))) := by
  induction is generalizing s last tr with
  | nil =>
    cases last with
    | none => exact absurd rfl (hl rfl)
    | some n => rfl
  | cons i is ih =>
    simp only [iterateLoop, runPhases, List.length_cons, fltFitLoop]
    rw [← hG]
    have hu := fltUpdate_fin hk hT s
    cases e1 : s.updateParameters c with
    | raise e =>
      cases e2 : fltUpdate c s.Gamma s.toFlt <;> rw [e1, e2] at hu <;> first | exact hu | exact hu.elim
    | diverge =>
      cases e2 : fltUpdate c s.Gamma s.toFlt <;> rw [e1, e2] at hu <;> first | exact hu | exact hu.elim
    | ok s' =>
    cases e2 : fltUpdate c s.Gamma s.toFlt <;> rw [e1, e2] at hu
    case raise => exact hu.elim
    case diverge => exact hu.elim
    rename_i q
    have h : q = s'.toFlt ∧ s'.Gamma = s.Gamma ∧ s'.Fresh c := hu
    simp only [Py.ok_bind]
    obtain ⟨rfl, h1, h2⟩ := h
    have hc : s'.toFlt.q.cost c s.Gamma = fin (s'.evaluateFitResidual c) := by
      rw [← h1]
      exact cost_fin hk hT h2
    rw [hc]
    simp only [gt_fin, sub_fin, abs_fin, Bool.and_eq_true, decide_eq_true_eq]
    by_cases h3 : s.evaluateFitResidual c < s'.evaluateFitResidual c ∧ require = true
    · rw [if_pos h3, if_pos h3]
      rfl
    · rw [if_neg h3, if_neg h3, Py.ok_bind]
      simp only
      split_ifs with h4
      · rfl
      · exact hG ▸ ih s' (h1.trans hG) h2 _ _ (by simp)

theorem fltSolve_fin {c : CROMConfig p K} (hk : k ≠ 0) (hT : T ≠ c.maxLag) (require : Bool)
    (tol : K) {maxIter : ℕ} (hm : maxIter ≠ 0) (G : Matrix (Fin T) (Fin k) K) (w : Fin p → K)
    (A : Fin p → Matrix (Fin k) (Fin k) K) :
    PyRel (fun r q => q = r.state.toFlt) (cromSolve c require tol maxIter G w A)
      (fltSolve c G require tol maxIter w A) := by
  unfold cromSolve fltSolve
  split_ifs with h1 h2 h3
  · rfl
  · rfl
  · exact absurd h3.2 hT
  · have h := fltFitLoop_fin (require := require) (tol := tol) (G := G) hk hT (List.range maxIter)
      (CROMState.initializeWorkspace c G w A) rfl rfl none [] (by simp [hm])
    have e1 : (CROMState.initializeWorkspace c G w A).toFlt =
        ⟨ofFin w A, fin 1, List.replicate c.ls.memory (fin 0)⟩ := by
      simp [CROMState.toFlt, CROMState.initializeWorkspace, CROMState.updatePredictedWeights,
        CROMState.params]
    have e2 : (ofFin w A).cost c G =
        fin ((CROMState.initializeWorkspace c G w A).evaluateFitResidual c) :=
      cost_fin (s := CROMState.initializeWorkspace c G w A) hk hT rfl
    rw [List.length_range, e1, ← e2] at h
    exact h

end Reor
