import Verif.Proofs.MTDFltFinite
import Verif.Props.CROMFlt
import Verif.Props.MTD

/-!
C134: the MTD coding fitted to exactly `max_lag` samples.
-/

namespace Reor

set_option linter.unusedSectionVars false

open scoped BigOperators Matrix
open Spec

variable {K : Type} [Field K] [LinearOrder K] [IsStrictOrderedRing K]
variable {T D k p : ℕ} {c : MTDConfig p K}

/-- C134.  With as many samples as the largest lag one update of the weights, from finite weights and
parameters and whatever the cost, ends without an error.  Every row that precedes the last one by at
least some lag becomes 0; the other rows are probability vectors. -/
theorem C134_zero_weights (hT : T = c.maxLag) (hk : k ≠ 0) (X : Matrix (Fin T) (Fin D) K)
    (S : Matrix (Fin k) (Fin D) K) (w : Fin p → K) (A : Fin p → Matrix (Fin k) (Fin k) K)
    (evaluate : (Fin T → Fin k → Flt K) → Flt K) (G : Matrix (Fin T) (Fin k) K) (alpha : K)
    {mem : List (Flt K)} (hm : mem ≠ []) (hex : ∃ i, c.lags i < T) :
    ∃ s', mtdFltUpdateWeights c X S ⟨fun i => .fin (w i), fun i a b => .fin (A i a b)⟩ evaluate
        ⟨fun t j => .fin (G t j), .fin alpha, mem⟩ = Py.ok s' ∧ s'.mem.length = mem.length ∧
      ∀ t : Fin T, ((∃ i, (t : ℕ) + c.lags i < T) → ∀ j, s'.G t j = .fin 0) ∧
        ((∀ i, T ≤ (t : ℕ) + c.lags i) → ∃ y, IsProb y ∧ ∀ j, s'.G t j = .fin (y j)) := by
  obtain ⟨i0, hi0⟩ := hex
  have hG : ∀ (t : Fin T) (j : Fin k), ∃ x, (Flt.fin (G t j) : Flt K) = .fin x := fun t j => ⟨_, rfl⟩
  have hq : FltParams.Finite (⟨fun i => .fin (w i), fun i a b => .fin (A i a b)⟩ :
    FltParams k p K) := ⟨fun i => ⟨_, rfl⟩, fun i a b => ⟨_, rfl⟩⟩
  obtain ⟨s', h1, h2, h3⟩ := mtdFltUpdateWeights_at_max_lag hT hk X S hq evaluate
    ⟨fun t j => .fin (G t j), .fin alpha, mem⟩ hG hm ⟨⟨0, by omega⟩, i0, by simp; omega⟩
  refine ⟨s', h1, h2, fun t => ⟨fun ⟨i, hi⟩ j => ?_, fun ht => ?_⟩⟩
  · rw [h3]
    refine C132_nan_gives_zero _ ⟨j, Or.inl ?_⟩ j
    have : mtdFltWeightsGrad c X S ⟨fun i => .fin (w i), fun i a b => .fin (A i a b)⟩
        (fun t j => .fin (G t j)) t j = .nan := by
      unfold mtdFltWeightsGrad
      rw [mtdFltPenaltyGrad_nan hT hG hq (t := t) ⟨i, by omega⟩ j]
      rfl
    simp only [this, Flt.mul_nan, Flt.sub_nan]
  · have hg : ∀ l, ∃ x, mtdFltWeightsGrad c X S ⟨fun i => .fin (w i), fun i a b => .fin (A i a b)⟩
        (fun t j => .fin (G t j)) t l = .fin x := by
      intro l
      unfold mtdFltWeightsGrad
      rw [mtdFltPenaltyGrad_zero hT (t := t) (fun i => by have := ht i; omega) l]
      have : (Flt.total fun r => (Flt.fin (G t r)).mul (.fin ((S * Sᵀ) r l))) =
        .fin ((G * (S * Sᵀ)) t l) := Flt.total_fin _
      rw [this]
      exact ⟨_, rfl⟩
    choose g hg using hg
    obtain ⟨y, hy1, hy2⟩ := C132_probability_iff (fun l => (Flt.fin (G t l)).sub
      ((Flt.fin alpha).mul (.fin (g l))))
    refine ⟨y, hy2.2 ⟨fun l => ⟨by simp [Flt.mul, Flt.sub_fin], by simp [Flt.mul, Flt.sub_fin]⟩,
      ⟨⟨0, by omega⟩, _, by simp only [Flt.mul, Flt.sub_fin]; rfl⟩⟩, fun j => ?_⟩
    rw [h3, ← hy1]
    simp only [hg]

/-- C134.  One update of the parameters from finite parameters then sets all of them to 0, also
without a penalty (`epsilon_weights = 0`). -/
theorem C134_zero_parameters (hT : T = c.maxLag) (hp : p ≠ 0) (G : Fin T → Fin k → Flt K)
    (evaluate : FltParams k p K → Flt K) (w : Fin p → K) (A : Fin p → Matrix (Fin k) (Fin k) K)
    (alpha : Flt K) {mem : List (Flt K)} (hm : mem ≠ []) :
    ∃ s', mtdFltUpdateParameters c G evaluate
        ⟨⟨fun i => .fin (w i), fun i a b => .fin (A i a b)⟩, alpha, mem⟩ = Py.ok s' ∧
      s'.mem.length = mem.length ∧ (∀ i, s'.q.w i = .fin 0) ∧ ∀ i a b, s'.q.A i a b = .fin 0 := by
  obtain ⟨s', h1, h2, h3, h4⟩ := mtdFltUpdateParameters_at_max_lag hT hp G evaluate
    ⟨⟨fun i => .fin (w i), fun i a b => .fin (A i a b)⟩, alpha, mem⟩
    ⟨fun i => ⟨_, rfl⟩, fun i a b => ⟨_, rfl⟩⟩ hm
  exact ⟨s', h1, h2, h3, h4⟩

/-- C134.  With any other number of samples the two gradients are those of the exact model. -/
theorem C134_finite_gradients {s : MTDState T D k p K} (hk : k ≠ 0) (hT : T ≠ c.maxLag)
    (hZ : s.Z = mtdPredictedWeights c.lags c.maxLag s.Gamma s.orderWeights s.transitionMatrices)
    (hX : s.XSt = s.X * s.Sᵀ) (hS : s.SSt = s.S * s.Sᵀ) :
    (∀ t j, mtdFltWeightsGrad c s.X s.S (FltParams.ofFin s.orderWeights s.transitionMatrices)
      (fun t j => .fin (s.Gamma t j)) t j = .fin ((s.updateWeightsGradient c).gradGamma t j)) ∧
    mtdFltParametersGrad c (fun t j => .fin (s.Gamma t j))
      (FltParams.ofFin s.orderWeights s.transitionMatrices) =
        FltParams.ofFin (s.updateParametersGradient c).gradOrderWeights
          (s.updateParametersGradient c).gradTransitionMatrices :=
  ⟨fun t j => congrFun (congrFun (mtdFltWeightsGrad_fin hk hT hZ hX hS) t) j,
    mtdFltParametersGrad_fin hk hT hZ⟩

/-- C134.  With any other number of samples, `Z` up to date and the cost of the exact model, the update
of the weights has the outcome of the exact model: the same error, or the same non-termination, or the
same weights, step length and memory. -/
theorem C134_finite_weights {s : MTDState T D k p K} (hk : k ≠ 0) (hT : T ≠ c.maxLag)
    (hZ : s.Z = mtdPredictedWeights c.lags c.maxLag s.Gamma s.orderWeights s.transitionMatrices)
    {evaluate : (Fin T → Fin k → Flt K) → Flt K}
    (he : ∀ G : Matrix (Fin T) (Fin k) K, evaluate (fun t j => .fin (G t j)) = .fin
      (({ s with Gamma := G, SSt := s.S * s.Sᵀ } :
        MTDState T D k p K).updatePredictedWeights c |>.evaluateCost c)) :
    PyRel (fun s' q => (∀ t j, q.G t j = .fin (s'.Gamma t j)) ∧ q.alpha = .fin s'.alphaGamma ∧
        q.mem = s'.fGammaMem.map .fin)
      (s.updateWeights c)
      (mtdFltUpdateWeights c s.X s.S (FltParams.ofFin s.orderWeights s.transitionMatrices) evaluate
        ⟨fun t j => .fin (s.Gamma t j), .fin s.alphaGamma, s.fGammaMem.map .fin⟩) := by
  refine PyRel.mono (mtdFltUpdateWeights_fin hk hT hZ he) ?_
  rintro _ _ ⟨rfl, -⟩
  exact ⟨fun _ _ => rfl, rfl, rfl⟩

/-- C134.  The same for the update of the parameters. -/
theorem C134_finite_parameters {s : MTDState T D k p K} (hk : k ≠ 0) (hT : T ≠ c.maxLag)
    {evaluate : FltParams k p K → Flt K}
    (he : ∀ w A, evaluate (FltParams.ofFin w A) = .fin
      (({ s with orderWeights := w, transitionMatrices := A } :
        MTDState T D k p K).updatePredictedWeights c |>.evaluateCost c)) :
    PyRel (fun s' q => q.q = FltParams.ofFin s'.orderWeights s'.transitionMatrices ∧
        q.alpha = .fin s'.alphaParameters ∧ q.mem = s'.fParametersMem.map .fin)
      (s.updateParameters c)
      (mtdFltUpdateParameters c (fun t j => .fin (s.Gamma t j)) evaluate
        ⟨FltParams.ofFin s.orderWeights s.transitionMatrices, .fin s.alphaParameters,
          s.fParametersMem.map .fin⟩) := by
  refine PyRel.mono (mtdFltUpdateParameters_fin (s := s) hk hT he) ?_
  rintro _ _ ⟨rfl, -⟩
  exact ⟨rfl, rfl, rfl⟩

/-- A cost as asked for exists: three samples, lags 1 and 2, any finite state. -/
example (ls : LSConfig ℚ) (s : MTDState 3 2 2 2 ℚ) :
    ∃ evaluate, PyRel (fun s' q => q.alpha = .fin s'.alphaParameters)
      (s.updateParameters ⟨![1, 2], 0, 1, ls⟩)
      (mtdFltUpdateParameters ⟨![1, 2], 0, 1, ls⟩ (fun t j => .fin (s.Gamma t j)) evaluate
        ⟨FltParams.ofFin s.orderWeights s.transitionMatrices, .fin s.alphaParameters,
          s.fParametersMem.map .fin⟩) := by
  let val : Flt ℚ → ℚ := fun x => match x with | .fin a => a | _ => 0
  refine ⟨fun q => .fin (({ s with
      orderWeights := fun i => val (q.w i), transitionMatrices := fun i a b => val (q.A i a b) } :
      MTDState 3 2 2 2 ℚ).updatePredictedWeights ⟨![1, 2], 0, 1, ls⟩ |>.evaluateCost
        ⟨![1, 2], 0, 1, ls⟩), ?_⟩
  have h := C134_finite_parameters (c := (⟨![1, 2], 0, 1, ls⟩ : MTDConfig 2 ℚ)) (s := s)
    (by norm_num) (by simp [MTDConfig.maxLag, Fin.univ_succ])
    (evaluate := fun q => .fin (({ s with
      orderWeights := fun i => val (q.w i), transitionMatrices := fun i a b => val (q.A i a b) } :
      MTDState 3 2 2 2 ℚ).updatePredictedWeights ⟨![1, 2], 0, 1, ls⟩ |>.evaluateCost
        ⟨![1, 2], 0, 1, ls⟩)) (fun w A => rfl)
  exact h.mono fun _ _ h => h.2.1

/-- Two samples and lags 1 and 2: the first row becomes 0. -/
example (ls : LSConfig ℚ) (G : Matrix (Fin 2) (Fin 2) ℚ)
    (evaluate : (Fin 2 → Fin 2 → Flt ℚ) → Flt ℚ) :
    ∃ s', mtdFltUpdateWeights ⟨![1, 2], 0, 1, ls⟩ (!![1, 2; 3, 4] : Matrix (Fin 2) (Fin 2) ℚ)
      !![1, 0; 0, 1] ⟨fun i => .fin (![1/3, 2/3] i), fun _ _ _ => .fin (1/2)⟩ evaluate
      ⟨fun t j => .fin (G t j), .fin 1, [.fin 0]⟩ = Py.ok s' ∧ s'.G 0 1 = .fin 0 := by
  obtain ⟨s', h1, -, h2⟩ := C134_zero_weights (c := (⟨![1, 2], 0, 1, ls⟩ : MTDConfig 2 ℚ))
    (by simp [MTDConfig.maxLag, Fin.univ_succ]) (by norm_num) (!![1, 2; 3, 4] : Matrix (Fin 2) (Fin 2) ℚ)
    !![1, 0; 0, 1] ![1/3, 2/3] (fun _ _ _ => 1/2) evaluate G 1 (mem := [.fin 0]) (by simp)
    ⟨0, by simp⟩
  exact ⟨s', h1, (h2 0).1 ⟨0, by simp⟩ 1⟩

example (ls : LSConfig ℚ) (evaluate : FltParams 2 2 ℚ → Flt ℚ) :
    ∃ s', mtdFltUpdateParameters (T := 2) ⟨![1, 2], 0, 0, ls⟩ (fun _ _ => .fin (1/2)) evaluate
      ⟨⟨fun _ => .fin (1/2), fun _ _ _ => .fin (1/2)⟩, .fin 1, [.fin 0]⟩ = Py.ok s' ∧
      s'.q.w 1 = .fin 0 := by
  obtain ⟨s', h1, -, h2, -⟩ := C134_zero_parameters (T := 2)
    (c := (⟨![1, 2], 0, 0, ls⟩ : MTDConfig 2 ℚ)) (by simp [MTDConfig.maxLag, Fin.univ_succ]) (by norm_num)
    (fun _ _ => .fin (1/2)) evaluate (fun _ => 1/2) (fun _ _ _ => 1/2) (.fin 1) (mem := [.fin 0])
    (by simp)
  exact ⟨s', h1, h2 1⟩

end Reor
