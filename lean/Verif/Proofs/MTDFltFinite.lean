import Verif.Proofs.MTDFlt

/-!
With finite values the updates of Model/MTDFlt.lean are those of Model/MTD.lean.
-/

namespace Reor

set_option linter.unusedSectionVars false

open scoped BigOperators Matrix
open Spec Flt FltParams

variable {K : Type} [Field K] [LinearOrder K] [IsStrictOrderedRing K]
variable {T D k p : ℕ}

section
variable {σ P : Type} {ls : LSConfig K} {trial : σ → K → σ × K} {trial' : Flt K → P}
  {evaluate : P → Flt K} {φ : σ → P} {I : σ → Prop}

theorem search_to_flt
    (h : ∀ s a, I s → I (trial s a).1 ∧ φ (trial s a).1 = trial' (fin a) ∧
      evaluate (trial' (fin a)) = fin (trial s a).2)
    {s : σ} (hs : I s) {fMax δ f0 step x : K} {n : ℕ} {r : K × σ × K × ℕ}
    (hb : backtrack ls trial fMax δ f0 step s x n = some r) :
    fltSearch ls trial' evaluate (fin fMax) (fin δ) (fin f0) (fin step) (φ s) (fin x) =
      some (fin r.1, φ r.2.1) ∧ I r.2.1 := by
  have key := backtrack.partial_correctness ls trial fMax δ f0
    (motive := fun step s x n r => I s →
      fltSearch ls trial' evaluate (fin fMax) (fin δ) (fin f0) (fin step) (φ s) (fin x) =
        some (fin r.1, φ r.2.1) ∧ I r.2.1)
    (by
      intro bt ih step s x n r hr hs
      simp only at hr
      rw [fltSearch.eq_1]
      simp only [mul, add, gt_fin, decide_eq_true_eq, fltStepLength_fin, abs_fin]
      by_cases hc : x > fMax + ls.gamma * δ * step
      · rw [if_pos hc] at hr
        rw [if_pos hc]
        obtain ⟨h1, h2, h3⟩ := h s (nextSpgStepLength step δ f0 x ls.sigmaOne ls.sigmaTwo) hs
        split_ifs at hr ⊢ with htol
        · simp only [Option.some.injEq] at hr
          subst hr
          exact ⟨by rw [h2], h1⟩
        · rw [h3, ← h2]
          exact ih _ _ _ _ r hr h1
      · rw [if_neg hc] at hr
        rw [if_neg hc]
        simp only [Option.some.injEq] at hr
        subst hr
        exact ⟨rfl, hs⟩)
    step s x n r hb
  exact key hs

theorem search_of_flt
    (h : ∀ s a, I s → I (trial s a).1 ∧ φ (trial s a).1 = trial' (fin a) ∧
      evaluate (trial' (fin a)) = fin (trial s a).2)
    {s : σ} (hs : I s) {fMax δ f0 step x : K} {n : ℕ} {r : Flt K × P}
    (hb : fltSearch ls trial' evaluate (fin fMax) (fin δ) (fin f0) (fin step) (φ s) (fin x) = some r) :
    ∃ r', backtrack ls trial fMax δ f0 step s x n = some r' := by
  have key := fltSearch.partial_correctness ls trial' evaluate (fin fMax) (fin δ) (fin f0)
    (motive := fun a q y _ => ∀ step s x n, a = fin step → q = φ s → y = fin x → I s →
      ∃ r', backtrack ls trial fMax δ f0 step s x n = some r')
    (by
      intro bt ih a q y r hr step s x n ha hq hy hs
      subst ha hq hy
      simp only [mul, add, gt_fin, decide_eq_true_eq, fltStepLength_fin, abs_fin] at hr
      rw [backtrack_unfold]
      by_cases hc : x > fMax + ls.gamma * δ * step
      · rw [if_pos hc] at hr
        rw [if_pos hc]
        simp only
        obtain ⟨h1, h2, h3⟩ := h s (nextSpgStepLength step δ f0 x ls.sigmaOne ls.sigmaTwo) hs
        split_ifs at hr ⊢ with htol
        · exact ⟨_, rfl⟩
        · exact ih _ _ _ r hr _ _ _ _ rfl h2.symm h3 h1
      · rw [if_neg hc]
        exact ⟨_, rfl⟩)
    (fin step) (φ s) (fin x) r hb
  exact key step s x n rfl rfl rfl hs

theorem fltLineSearch_fin
    (h : ∀ s a, I s → I (trial s a).1 ∧ φ (trial s a).1 = trial' (fin a) ∧
      evaluate (trial' (fin a)) = fin (trial s a).2)
    {s : σ} (hs : I s) (mem : List K) (f0 δ : K) :
    PyRel (fun r q => q = (fin r.stepSize, φ r.state, r.mem.map fin) ∧ I r.state)
      (lineSearch ls trial mem s f0 δ)
      (fltLineSearch ls trial' evaluate (mem.map fin) (fin f0) (fin δ)) := by
  unfold lineSearch fltLineSearch
  cases mem with
  | nil => simp [PyRel]
  | cons a rest =>
    obtain ⟨M, hM, -, -⟩ := foldMax_spec (rest ++ [f0]) (by simp)
    have hM' : (rest.map fin ++ [fin f0]).foldl fltMaxStep none = some (fin M) := by
      have := foldl_fltMaxStep_fin (rest ++ [f0]) none
      rw [show (rest ++ [f0]).foldl maxStep none = some M from hM] at this
      simpa using this
    simp only [List.map_cons, hM, hM']
    obtain ⟨h1, h2, h3⟩ := h s 1 hs
    rw [h3, ← h2]
    cases hb : backtrack ls trial M δ f0 1 (trial s 1).1 (trial s 1).2 0 with
    | none =>
      cases hb' : fltSearch ls trial' evaluate (fin M) (fin δ) (fin f0) (fin 1) (φ (trial s 1).1)
          (fin (trial s 1).2) with
      | none => simp [PyRel]
      | some r =>
        obtain ⟨r', h⟩ := search_of_flt (n := 0) h h1 hb'
        rw [hb] at h
        simp at h
    | some r =>
      obtain ⟨hb', hI⟩ := search_to_flt h h1 hb
      rw [hb']
      exact ⟨by simp, hI⟩

end

theorem weights_pairing_fin (A B : Matrix (Fin T) (Fin k) K) :
    (Flt.total fun t => Flt.total fun j => (finWeights A t j).mul (finWeights B t j)) =
      fin (mulSum A B) := by
  unfold mulSum
  rw [← total_fin]
  congr 1
  ext t
  exact total_fin _

variable {c : MTDConfig p K} {s : MTDState T D k p K}

/-- `Z` belongs to the current weights and parameters. -/
def MTDState.Fresh (c : MTDConfig p K) (s : MTDState T D k p K) : Prop :=
  s.Z = mtdPredictedWeights c.lags c.maxLag s.Gamma s.orderWeights s.transitionMatrices

/-- The states that a line search for the weights visits. -/
def MTDState.atWeights (c : MTDConfig p K) (s : MTDState T D k p K) (G : Matrix (Fin T) (Fin k) K) :
    MTDState T D k p K :=
  let Z := mtdPredictedWeights c.lags c.maxLag G s.orderWeights s.transitionMatrices
  { s with GammaOld := s.Gamma, Gamma := G, Z := Z }

/-- The states that a line search for the parameters visits. -/
def MTDState.atParameters (c : MTDConfig p K) (s : MTDState T D k p K) (w : Fin p → K)
    (A : Fin p → Matrix (Fin k) (Fin k) K) : MTDState T D k p K :=
  let Z := mtdPredictedWeights c.lags c.maxLag s.Gamma w A
  { s with
    orderWeightsOld := s.orderWeights, transitionMatricesOld := s.transitionMatrices,
    orderWeights := w, transitionMatrices := A, Z := Z }

theorem mtdFltUpdateWeights_fin (hk : k ≠ 0) (hT : T ≠ c.maxLag) (hZ : s.Fresh c)
    {evaluate : (Fin T → Fin k → Flt K) → Flt K}
    (he : ∀ G : Matrix (Fin T) (Fin k) K, evaluate (finWeights G) = fin
      (({ s with Gamma := G, SSt := s.S * s.Sᵀ } :
        MTDState T D k p K).updatePredictedWeights c |>.evaluateCost c)) :
    PyRel (fun s' q => q = ⟨finWeights s'.Gamma, fin s'.alphaGamma, s'.fGammaMem.map fin⟩ ∧
        s'.Fresh c)
      (s.updateWeights c)
      (mtdFltUpdateWeights c s.X s.S (ofFin s.orderWeights s.transitionMatrices) evaluate
        ⟨finWeights s.Gamma, fin s.alphaGamma, s.fGammaMem.map fin⟩) := by
  unfold MTDState.updateWeights
  rw [if_neg hT]
  set s1 := s.prepareWeights c with hs1
  have hg : mtdFltWeightsGrad c s.X s.S (ofFin s.orderWeights s.transitionMatrices)
      (finWeights s.Gamma) = finWeights s1.gradGamma :=
    mtdFltWeightsGrad_fin (s := { s with SSt := s.S * s.Sᵀ, XSt := s.X * s.Sᵀ }) hk hT hZ rfl rfl
  have hi : ∀ t j, (fltProjectVector (fun l => (finWeights s.Gamma t l).sub
      ((fin s.alphaGamma).mul (finWeights s1.gradGamma t l))) j).sub (finWeights s.Gamma t j) =
      finWeights s1.incrGamma t j := by
    intro t j
    have e : (fun l => (finWeights s.Gamma t l).sub ((fin s.alphaGamma).mul
        (finWeights s1.gradGamma t l))) =
        fun l => fin ((s.Gamma - s.alphaGamma • s1.gradGamma) t l) := by
      ext l
      simp only [finWeights, mul, sub_fin]
      rfl
    rw [e, C132_finite_models fun l => (s.Gamma - s.alphaGamma • s1.gradGamma) t l,
      ← projectRows_apply]
    simp only [finWeights, sub_fin]
    rfl
  have hc : evaluate (finWeights s.Gamma) = fin (s1.evaluateCost c) := by
    rw [he]
    congr 1
    have : ({ s with Gamma := s.Gamma, SSt := s.S * s.Sᵀ } :
        MTDState T D k p K).updatePredictedWeights c = { s with SSt := s.S * s.Sᵀ } := by
      unfold MTDState.updatePredictedWeights
      rw [← hZ]
    rw [this]
    rfl
  unfold mtdFltUpdateWeights MTDState.finishWeights MTDState.weightsLineSearch
  simp only [hg, hi, hc, weights_pairing_fin, Py.bind_assoc]
  have key := fltLineSearch_fin (ls := c.ls) (trial := MTDState.weightsTrial c)
    (trial' := fun step t j => (finWeights s.Gamma t j).add (step.mul (finWeights s1.incrGamma t j)))
    (evaluate := evaluate) (φ := fun s => finWeights s.Gamma)
    (I := fun s' => ∃ G, s' = s1.atWeights c G)
    (by
      rintro _ a ⟨G, rfl⟩
      refine ⟨⟨_, rfl⟩, rfl, ?_⟩
      exact he (s.Gamma + a • s1.incrGamma))
    (s := { s1 with GammaOld := s1.Gamma })
    ⟨s1.Gamma, by
      unfold MTDState.atWeights
      rw [show mtdPredictedWeights c.lags c.maxLag s1.Gamma s1.orderWeights
        s1.transitionMatrices = s1.Z from hZ.symm]⟩
    s1.fGammaMem (s1.evaluateCost c) (mulSum s1.incrGamma s1.gradGamma)
  refine PyRel.bind key ?_
  rintro ⟨mem, step, s2, x, n⟩ _ ⟨rfl, G, rfl⟩
  have hg2 : mtdFltWeightsGrad c s.X s.S (ofFin s.orderWeights s.transitionMatrices)
      (finWeights (s1.atWeights c G).Gamma) = finWeights (MTDState.updateWeightsGradient c
        ({ s1.atWeights c G with fGammaMem := mem } : MTDState T D k p K)).gradGamma :=
    mtdFltWeightsGrad_fin (s := { s1.atWeights c G with fGammaMem := mem }) hk hT rfl rfl rfl
  refine ⟨?_, rfl⟩
  simp only [hg2]
  have hd : ∀ A B : Matrix (Fin T) (Fin k) K, (fun t j => (finWeights A t j).sub (finWeights B t j)) =
      finWeights (A - B) := by
    intro A B
    ext t j
    simp only [finWeights, sub_fin]
    rfl
  have hd' : ∀ A B : Matrix (Fin T) (Fin k) K, (Flt.total fun t => Flt.total fun j =>
      (finWeights s1.incrGamma t j).mul ((finWeights A t j).sub (finWeights B t j))) =
      fin (mulSum s1.incrGamma (A - B)) := by
    intro A B
    rw [← weights_pairing_fin, ← hd]
  simp only [hd']
  simp only [mul, fltAlpha_fin, ← sq]
  rfl

theorem mtdFltUpdateParameters_fin (hk : k ≠ 0) (hT : T ≠ c.maxLag)
    {evaluate : FltParams k p K → Flt K}
    (he : ∀ w A, evaluate (ofFin w A) = fin
      (({ s with orderWeights := w, transitionMatrices := A } :
        MTDState T D k p K).updatePredictedWeights c |>.evaluateCost c)) :
    PyRel (fun s' q => q = ⟨ofFin s'.orderWeights s'.transitionMatrices, fin s'.alphaParameters,
        s'.fParametersMem.map fin⟩ ∧ s'.Fresh c)
      (s.updateParameters c)
      (mtdFltUpdateParameters c (finWeights s.Gamma) evaluate
        ⟨ofFin s.orderWeights s.transitionMatrices, fin s.alphaParameters,
          s.fParametersMem.map fin⟩) := by
  unfold MTDState.updateParameters
  rw [if_neg hT]
  set s1 := s.prepareParameters c with hs1
  have hg : mtdFltParametersGrad c (finWeights s.Gamma) (ofFin s.orderWeights s.transitionMatrices) =
      ofFin s1.gradOrderWeights s1.gradTransitionMatrices :=
    mtdFltParametersGrad_fin (s := s.updatePredictedWeights c) hk hT rfl
  have hi : (ofFin s.orderWeights s.transitionMatrices).increment (fin s.alphaParameters)
      (ofFin s1.gradOrderWeights s1.gradTransitionMatrices) =
      ofFin s1.incrOrderWeights s1.incrTransitionMatrices := increment_fin _ _ _
  have hc : evaluate (ofFin s.orderWeights s.transitionMatrices) = fin (s1.evaluateCost c) := he _ _
  unfold mtdFltUpdateParameters MTDState.finishParameters MTDState.parametersLineSearch
  simp only [hg, hi, hc, pairing_fin, Py.bind_assoc]
  have key := fltLineSearch_fin (ls := c.ls) (trial := MTDState.parametersTrial c)
    (trial' := fun step => (ofFin s.orderWeights s.transitionMatrices).move step
      (ofFin s1.incrOrderWeights s1.incrTransitionMatrices))
    (evaluate := evaluate) (φ := fun s => ofFin s.orderWeights s.transitionMatrices)
    (I := fun s' => ∃ w A, s' = s1.atParameters c w A)
    (by
      rintro _ a ⟨w, A, rfl⟩
      refine ⟨⟨_, _, rfl⟩, rfl, ?_⟩
      exact he (s.orderWeights + a • s1.incrOrderWeights)
        (s.transitionMatrices + a • s1.incrTransitionMatrices))
    (s := { s1 with
      orderWeightsOld := s1.orderWeights, transitionMatricesOld := s1.transitionMatrices })
    ⟨s1.orderWeights, s1.transitionMatrices, rfl⟩
    s1.fParametersMem (s1.evaluateCost c) (vecMulSum s1.incrOrderWeights s1.gradOrderWeights +
      mulSum3 s1.incrTransitionMatrices s1.gradTransitionMatrices)
  refine PyRel.bind key ?_
  rintro ⟨mem, step, s2, x, n⟩ _ ⟨rfl, w, A, rfl⟩
  have hg2 := mtdFltParametersGrad_fin (c := c) (s := { s1.atParameters c w A with fParametersMem := mem })
    hk hT rfl
  have hg3 : mtdFltParametersGrad c (finWeights s.Gamma) (ofFin
      (s1.atParameters c w A).orderWeights (s1.atParameters c w A).transitionMatrices) = _ := hg2
  refine ⟨?_, rfl⟩
  simp only [hg3]
  have hd : ∀ (w v : Fin p → K) (A B : Fin p → Matrix (Fin k) (Fin k) K),
      (⟨fun i => ((ofFin w A).w i).sub ((ofFin v B).w i),
        fun i a b => ((ofFin w A).A i a b).sub ((ofFin v B).A i a b)⟩ : FltParams k p K) =
      ofFin (w - v) (A - B) := by
    intro w v A B
    simp only [ofFin, sub_fin]
    rfl
  simp only [hd, pairing_fin]
  simp only [mul, fltAlpha_fin, ← sq]
  rfl

end Reor
