import Verif.Proofs.GPNHCROMSym
import Mathlib.Tactic.FinCases
import Mathlib.Tactic.NormNum

/-!
C131: the numbering of components and lags carries no meaning for the parameters of the reduced order
model and for the forecasts.
-/

namespace Reor

set_option linter.unusedSectionVars false

open scoped BigOperators Matrix
open Spec

variable {K : Type} [Field K] [LinearOrder K] [IsStrictOrderedRing K]
variable {T D k p : ℕ}

/-- C131.  The fit of the parameters from relabelled weights, order weights and transition matrices,
with the lags listed in the new order: the same failure, or the relabelled parameters with the same
residual, history and number of iterations.  There is no assumption on the weights or the settings. -/
theorem C131_crom_parameters_relabel (ls : LSConfig K) (ρ : Equiv.Perm (Fin k))
    (σ : Equiv.Perm (Fin p)) (lags lags' : Fin p → ℕ) (hl : ∀ i, lags' (σ i) = lags i)
    (require : Bool) (tol : K) (maxIter : ℕ) (W W' : Matrix (Fin T) (Fin k) K)
    (hW : ∀ t a, W' t (ρ a) = W t a) (w w' : Fin p → K) (hw : ∀ i, w' (σ i) = w i)
    (A A' : Fin p → Matrix (Fin k) (Fin k) K) (hA : ∀ i a b, A' (σ i) (ρ a) (ρ b) = A i a b) :
    (cromSolve ⟨lags, ls⟩ require tol maxIter W w A = Py.diverge ∧
      cromSolve ⟨lags', ls⟩ require tol maxIter W' w' A' = Py.diverge) ∨
    (∃ e, cromSolve ⟨lags, ls⟩ require tol maxIter W w A = Py.raise e ∧
      cromSolve ⟨lags', ls⟩ require tol maxIter W' w' A' = Py.raise e) ∨
    ∃ r r' : IterResult (CROMState T k p K) K,
      cromSolve ⟨lags, ls⟩ require tol maxIter W w A = Py.ok r ∧
      cromSolve ⟨lags', ls⟩ require tol maxIter W' w' A' = Py.ok r' ∧
      (∀ i, r'.state.orderWeights (σ i) = r.state.orderWeights i) ∧
      (∀ i a b, r'.state.transitionMatrices (σ i) (ρ a) (ρ b) =
        r.state.transitionMatrices i a b) ∧
      (∀ t a, r'.state.Gamma t (ρ a) = r.state.Gamma t a) ∧
      r'.cost = r.cost ∧ r'.nIter = r.nIter ∧ r'.trace = r.trace := by
  have := cromSolve_sym (c := ⟨lags, ls⟩) (c' := ⟨lags', ls⟩) hl rfl (require := require) (tol := tol)
    (maxIter := maxIter) hW hw hA
  revert this
  cases cromSolve ⟨lags, ls⟩ require tol maxIter W w A <;>
    cases cromSolve ⟨lags', ls⟩ require tol maxIter W' w' A' <;>
    intro this <;> simp only [PyRel] at this
  · rename_i r r'
    obtain ⟨h1, h2, h3, h4⟩ := this
    exact Or.inr (Or.inr ⟨r, r', rfl, rfl, h1.orderWeights, h1.transitionMatrices,
      submatrix_eq_iff.1 h1.base.Gamma, h2.symm, h3.symm, h4.symm⟩)
  · rename_i e e'
    exact Or.inr (Or.inl ⟨e, rfl, by rw [this]⟩)
  · exact Or.inl ⟨rfl, rfl⟩

/-- C131.  The forecast of the reduced order model from relabelled weights, dictionary and
parameters: the same error or the same rows, NaN rows included, for every horizon. -/
theorem C131_crom_forecast_relabel (ρ : Equiv.Perm (Fin k)) (σ : Equiv.Perm (Fin p))
    (lags lags' : Fin p → ℕ) (hl : ∀ i, lags' (σ i) = lags i) (W W' : Matrix (Fin T) (Fin k) K)
    (hW : ∀ t a, W' t (ρ a) = W t a) (S S' : Matrix (Fin k) (Fin D) K)
    (hS : ∀ a d, S' (ρ a) d = S a d) (w w' : Fin p → K) (hw : ∀ i, w' (σ i) = w i)
    (A A' : Fin p → Matrix (Fin k) (Fin k) K) (hA : ∀ i a b, A' (σ i) (ρ a) (ρ b) = A i a b)
    (horizon : ℤ) :
    cromForecast lags' (some ⟨k, w', A'⟩) (some (Arr2.of S')) (Arr2.of W') horizon =
      cromForecast lags (some ⟨k, w, A⟩) (some (Arr2.of S)) (Arr2.of W) horizon := by
  unfold cromForecast
  by_cases hp : horizon ≠ 0 ∧ p = 0
  · simp only [if_pos hp]
  · simp only [if_neg hp]
    rw [dif_pos (show (Arr2.of W').cols = k from rfl), dif_pos (show (Arr2.of W).cols = k from rfl)]
    unfold cromInverseTransform
    simp only
    rw [dif_pos (show (Arr2.of S').rows = k from rfl), dif_pos (show (Arr2.of S).rows = k from rfl)]
    exact congrArg Py.ok (dotRows_renamed ρ
      (fun t => cromForecastWeights_renamed ρ hl hw hA hW horizon t) hS)

/-- C131.  The same for the MTD estimator. -/
theorem C131_mtd_forecast_relabel (ρ : Equiv.Perm (Fin k)) (σ : Equiv.Perm (Fin p))
    (lags lags' : Fin p → ℕ) (hl : ∀ i, lags' (σ i) = lags i) (W W' : Matrix (Fin T) (Fin k) K)
    (hW : ∀ t a, W' t (ρ a) = W t a) (S S' : Matrix (Fin k) (Fin D) K)
    (hS : ∀ a d, S' (ρ a) d = S a d) (w w' : Fin p → K) (hw : ∀ i, w' (σ i) = w i)
    (A A' : Fin p → Matrix (Fin k) (Fin k) K) (hA : ∀ i a b, A' (σ i) (ρ a) (ρ b) = A i a b)
    (horizon : ℤ) :
    mtdForecast lags' ⟨T, D, k, W', S', w', A'⟩ horizon =
      mtdForecast lags ⟨T, D, k, W, S, w, A⟩ horizon := by
  have := fun t => cromForecastWeights_renamed ρ hl hw hA hW horizon t
  unfold cromForecastWeights at this
  unfold mtdForecast
  by_cases h : horizon = 0
  · simp only [if_pos h] at this ⊢
    exact dotRows_renamed ρ this hS
  · simp only [if_neg h] at this ⊢
    exact dotRows_renamed ρ this hS

/-- C131.  Fit of the parameters and forecast in one: whoever numbers components and lags otherwise
forecasts the same data. -/
theorem C131_crom_fit_forecast (ls : LSConfig K) (ρ : Equiv.Perm (Fin k)) (σ : Equiv.Perm (Fin p))
    (lags lags' : Fin p → ℕ) (hl : ∀ i, lags' (σ i) = lags i) (require : Bool) (tol : K)
    (maxIter : ℕ) (W W' : Matrix (Fin T) (Fin k) K) (hW : ∀ t a, W' t (ρ a) = W t a)
    (S S' : Matrix (Fin k) (Fin D) K) (hS : ∀ a d, S' (ρ a) d = S a d) (w w' : Fin p → K)
    (hw : ∀ i, w' (σ i) = w i) (A A' : Fin p → Matrix (Fin k) (Fin k) K)
    (hA : ∀ i a b, A' (σ i) (ρ a) (ρ b) = A i a b) (r : IterResult (CROMState T k p K) K)
    (hr : cromSolve ⟨lags, ls⟩ require tol maxIter W w A = Py.ok r) :
    ∃ r', cromSolve ⟨lags', ls⟩ require tol maxIter W' w' A' = Py.ok r' ∧
      ∀ horizon, cromForecast lags' (some ⟨k, r'.state.orderWeights, r'.state.transitionMatrices⟩)
          (some (Arr2.of S')) (Arr2.of W') horizon =
        cromForecast lags (some ⟨k, r.state.orderWeights, r.state.transitionMatrices⟩)
          (some (Arr2.of S)) (Arr2.of W) horizon := by
  rcases C131_crom_parameters_relabel ls ρ σ lags lags' hl require tol maxIter W W' hW w w' hw A A' hA
    with ⟨h, -⟩ | ⟨e, h, -⟩ | ⟨r₁, r', h1, h2, h3, h4, -⟩
  · rw [h] at hr; cases hr
  · rw [h] at hr; cases hr
  · rw [h1] at hr
    cases hr
    exact ⟨r', h2, fun horizon => C131_crom_forecast_relabel ρ σ lags lags' hl W W' hW S S' hS _ _ h3
      _ _ h4 horizon⟩

/-- Two components and the lags 1 and 2 listed in either order; the two numberings agree on the second
forecast, which is not a NaN row, and the parameters themselves do differ. -/
example :
    let W : Matrix (Fin 2) (Fin 2) ℚ := !![1, 0; 1/2, 1/2]
    let W' : Matrix (Fin 2) (Fin 2) ℚ := !![0, 1; 1/2, 1/2]
    let S : Matrix (Fin 2) (Fin 1) ℚ := !![0; 8]
    let S' : Matrix (Fin 2) (Fin 1) ℚ := !![8; 0]
    let A : Fin 2 → Matrix (Fin 2) (Fin 2) ℚ := ![!![1, 1/2; 0, 1/2], 1]
    let A' : Fin 2 → Matrix (Fin 2) (Fin 2) ℚ := ![1, !![1/2, 0; 1/2, 1]]
    mtdForecast ![2, 1] ⟨2, 1, 2, W', S', ![3/4, 1/4], A'⟩ 1 =
        mtdForecast ![1, 2] ⟨2, 1, 2, W, S, ![1/4, 3/4], A⟩ 1 ∧
      (mtdForecastRow ![1, 2] ![1/4, 3/4] A W 1 1).map (fun v => Matrix.vecMul v S 0) = some (1/2) := by
  intro W W' S S' A A'
  refine ⟨C131_mtd_forecast_relabel (Equiv.swap 0 1) (Equiv.swap 0 1) _ _ ?_ _ _ ?_ _ _ ?_ _ _ ?_ _ _
    ?_ 1, ?_⟩
  · intro i; fin_cases i <;> rfl
  · intro t a; fin_cases t <;> fin_cases a <;> rfl
  · intro a d; fin_cases a <;> fin_cases d <;> rfl
  · intro i; fin_cases i <;> rfl
  · intro i a b; fin_cases i <;> fin_cases a <;> fin_cases b <;> rfl
  · have h : (Finset.univ.sup ![1, 2] : ℕ) = 2 := rfl
    simp [mtdForecastRow, mtdForecastLoop, mtdNextWeights, h, W, S, A, List.range_succ, rowAt,
      rollLeft, setLast, pyGet, List.finRange_succ, Matrix.vecMul, dotProduct,
      Fin.sum_univ_two]
    norm_num [Matrix.vecHead, Matrix.vecTail]

end Reor
