import Verif.Proofs.CROMFltFinite
import Verif.Props.GPNHCROM

/-!
C133: the reduced order model fitted to exactly `max_lag` samples.
-/

namespace Reor

set_option linter.unusedSectionVars false

open scoped BigOperators Matrix
open Spec

variable {K : Type} [Field K] [LinearOrder K] [IsStrictOrderedRing K]
variable {T k p : ℕ}

/-- C133.  With as many samples as the largest lag the fit of the parameters ends without an error,
from any start, and all weights and all transition matrices are 0. -/
theorem C133_zero_parameters {c : CROMConfig p K} (G : Matrix (Fin T) (Fin k) K) (hT : T = c.maxLag)
    (hp : p ≠ 0) (hm : c.ls.memory ≠ 0) (require : Bool) (tolerance : K) {maxIterations : ℕ}
    (hi : maxIterations ≠ 0) (w : Fin p → K) (A : Fin p → Matrix (Fin k) (Fin k) K) :
    ∃ s, fltSolve c G require tolerance maxIterations w A = Py.ok s ∧
      (∀ i, s.q.w i = .fin 0) ∧ ∀ i a b, s.q.A i a b = .fin 0 := by
  obtain ⟨s, h1, h2⟩ := fltFitLoop_at_max_lag (G := G) (require := require) (tol := tolerance) hT hp
    maxIterations hi ⟨⟨fun i => .fin (w i), fun i a b => .fin (A i a b)⟩, .fin 1,
      List.replicate c.ls.memory (.fin 0)⟩ ⟨fun i => ⟨_, rfl⟩, fun i a b => ⟨_, rfl⟩⟩
    (by simpa using hm)
  refine ⟨s, ?_, h2.1, h2.2⟩
  unfold fltSolve
  rw [if_neg hp, if_neg (by omega)]
  exact h1

/-- C133.  The cost of whatever parameters is then NaN, unless there is one component. -/
theorem C133_cost_nan {c : CROMConfig p K} (G : Matrix (Fin T) (Fin k) K) (hT : T = c.maxLag)
    (hk : k ≠ 1) (q : FltParams k p K) : q.cost c G = .nan := by
  rw [FltParams.cost_at_max_lag hT, if_neg hk]

/-- C133.  In every other case finite parameters have the cost, the gradient and the increments of
the exact model. -/
theorem C133_finite_models {c : CROMConfig p K} {s : CROMState T k p K} (hk : k ≠ 0)
    (hT : T ≠ c.maxLag)
    (hZ : s.Z = cromPredictedWeights c.lags c.maxLag s.Gamma s.orderWeights s.transitionMatrices) :
    (FltParams.ofFin s.orderWeights s.transitionMatrices).cost c s.Gamma =
        .fin (s.evaluateFitResidual c) ∧
      (FltParams.ofFin s.orderWeights s.transitionMatrices).grad c s.Gamma =
        FltParams.ofFin (s.updateParametersGradient c).gradOrderWeights
          (s.updateParametersGradient c).gradTransitionMatrices ∧
      ∀ (alpha : K) (g : Fin p → K) (H : Fin p → Matrix (Fin k) (Fin k) K),
        (FltParams.ofFin s.orderWeights s.transitionMatrices).increment (.fin alpha)
            (FltParams.ofFin g H) =
          FltParams.ofFin (simplexProjectVector (s.orderWeights - alpha • g) - s.orderWeights)
            fun i => simplexProjectColumns (s.transitionMatrices i - alpha • H i) -
              s.transitionMatrices i :=
  ⟨cost_fin hk hT hZ, grad_fin hk hT hZ, increment_fin⟩

/-- Three samples and lags 1 and 2. -/
example (G : Matrix (Fin 3) (Fin 2) ℚ) (w : Fin 2 → ℚ) (A : Fin 2 → Matrix (Fin 2) (Fin 2) ℚ) :
    ∃ x : ℚ, (FltParams.ofFin w A).cost cromDemoConfig G = .fin x :=
  ⟨_, (C133_finite_models (c := cromDemoConfig) (s := ⟨G, w, A, cromPredictedWeights _ _ G w A,
    w, w, w, A, A, A, 1, []⟩) (by norm_num) (by decide) rfl).1⟩

/-- C133.  The whole fit of the exact model and this one have the same outcome then: the same
exception, or both do not end, or the same parameters. -/
theorem C133_finite_fit {c : CROMConfig p K} (hk : k ≠ 0) (hT : T ≠ c.maxLag) (require : Bool)
    (tolerance : K) {maxIterations : ℕ} (hi : maxIterations ≠ 0) (G : Matrix (Fin T) (Fin k) K)
    (w : Fin p → K) (A : Fin p → Matrix (Fin k) (Fin k) K) :
    (∀ r, cromSolve c require tolerance maxIterations G w A = Py.ok r →
      fltSolve c G require tolerance maxIterations w A =
        Py.ok ⟨FltParams.ofFin r.state.orderWeights r.state.transitionMatrices,
          .fin r.state.alphaParameters, r.state.fParametersMem.map .fin⟩) ∧
    (∀ e, cromSolve c require tolerance maxIterations G w A = Py.raise e →
      fltSolve c G require tolerance maxIterations w A = Py.raise e) ∧
    (cromSolve c require tolerance maxIterations G w A = Py.diverge →
      fltSolve c G require tolerance maxIterations w A = Py.diverge) := by
  have h := fltSolve_fin hk hT require tolerance hi G w A
  refine ⟨fun r hr => ?_, fun e hr => ?_, fun hr => ?_⟩ <;> rw [hr] at h <;>
    cases hq : fltSolve c G require tolerance maxIterations w A <;> rw [hq] at h
  all_goals first
    | exact h.elim
    | rfl
    | exact congrArg Py.ok h
    | exact congrArg Py.raise (Eq.symm h)

/-- Three samples and lags 1 and 2: the start is feasible, and the fit is the one of C44. -/
example (w : Fin 2 → ℚ) (A : Fin 2 → Matrix (Fin 2) (Fin 2) ℚ) (e : PyErr)
    (h : cromSolve cromDemoConfig true (1/1000) 100 !![1, 0; 1/2, 1/2; 0, 1] w A = Py.raise e) :
    fltSolve cromDemoConfig !![1, 0; 1/2, 1/2; 0, 1] true (1/1000) 100 w A = Py.raise e :=
  (C133_finite_fit (by norm_num) (by decide) _ _ (by norm_num) _ _ _).2.1 e h

/-- C133.  Products commute and respect signs, infinity times 0 is NaN, infinity times a positive
number is infinity, and a quotient is the product with the reciprocal. -/
theorem C133_arithmetic (a b : Flt K) :
    a.mul b = b.mul a ∧ a.neg.mul b = (a.mul b).neg ∧ a.mul (.fin 1) = a ∧
      a.div b = a.mul b.inv ∧ Flt.pinf.mul (.fin (0 : K)) = .nan ∧
      ∀ x : K, 0 < x → Flt.pinf.mul (.fin x) = .pinf := by
  refine ⟨?_, ?_, ?_, ?_, ?_, ?_⟩
  · cases a <;> cases b <;> simp [Flt.mul, mul_comm]
  · have h1 : ∀ x : K, Flt.infMul (-x) = (Flt.infMul x).neg := by
      intro x
      unfold Flt.infMul
      rcases lt_trichotomy x 0 with h | h | h
      · simp [h.ne, h, h.not_gt, Flt.neg]
      · simp [h, Flt.neg]
      · simp [h.ne', h, h.not_gt, Flt.neg]
    have h2 : ∀ a : Flt K, a.neg.neg = a := fun a => (C132_arithmetic a a).2.1
    cases a <;> cases b <;> try simp [Flt.mul, Flt.neg, h1]; done
    all_goals exact (h2 _).symm
  · cases a <;> simp [Flt.mul, Flt.infMul, Flt.neg]
  · cases a <;> cases b <;> simp [Flt.div, Flt.inv, Flt.mul]
    split_ifs <;> simp [div_eq_mul_inv]
  · simp [Flt.mul, Flt.infMul]
  · intro x hx
    simp [Flt.mul, Flt.infMul, hx, hx.ne']

example : (Flt.fin (-3 : ℚ)).mul .pinf = .ninf := by
  rw [show Flt.fin (-3 : ℚ) = (Flt.fin 3).neg from rfl, (C133_arithmetic _ _).2.1,
    (C133_arithmetic _ _).1, (C133_arithmetic .nan .nan).2.2.2.2.2 3 (by norm_num)]
  rfl

theorem mtdForecastLoop_zero_weights (lags : Fin p → ℕ) (A : Fin p → Matrix (Fin k) (Fin k) K)
    (n : ℕ) (window : List (Fin k → K)) (h : n ≠ 0 ∨ ∃ l, window = l ++ [0]) :
    ∃ l, mtdForecastLoop lags 0 A n window = l ++ [0] := by
  induction n generalizing window with
  | zero => exact h.resolve_left (by simp)
  | succ n ih =>
    refine ih _ (Or.inr ⟨(rollLeft window).dropLast, ?_⟩)
    · have : ∀ (l : List (Fin p)) (z : Fin k → K), l.foldl (fun acc i => acc + (0 : Fin p → K) i •
          (A i).mulVec (pyGet window (-(lags i : ℤ)) 0)) z = z := by
        intro l
        induction l with
        | nil => intro z; rfl
        | cons a l ih => intro z; rw [List.foldl_cons, ih]; simp
      unfold setLast mtdNextWeights
      rw [this]

/-- C133.  With these parameters every forecast at a positive horizon is a row of NaN or of zeros,
whatever the weights it starts from. -/
theorem C133_forecast_zero (lags : Fin p → ℕ) (A : Fin p → Matrix (Fin k) (Fin k) K)
    (W : Matrix (Fin T) (Fin k) K) {horizon : ℤ} (h : 0 < horizon) (t : Fin T) :
    cromForecastWeights lags 0 A W horizon t =
      if (t : ℕ) < Finset.univ.sup lags - 1 then none else some 0 := by
  unfold cromForecastWeights
  rw [if_neg (by omega)]
  unfold mtdForecastRow
  simp only
  split
  · rfl
  · obtain ⟨l, hl⟩ := mtdForecastLoop_zero_weights lags A horizon.toNat
      ((List.range (Finset.univ.sup lags)).map fun r =>
        rowAt W (t + 1 - Finset.univ.sup lags + r)) (Or.inl (by omega))
    rw [hl]
    simp [pyGet]

example : ∃ s, fltSolve cromDemoConfig (!![1, 0; 1/2, 1/2] : Matrix (Fin 2) (Fin 2) ℚ) true (1/1000)
    100 ![1/3, 2/3] (fun _ => !![1/2, 1/4; 1/2, 3/4]) = Py.ok s ∧ s.q.w 0 = .fin 0 := by
  obtain ⟨s, h1, h2, -⟩ := C133_zero_parameters (c := cromDemoConfig)
    (!![1, 0; 1/2, 1/2] : Matrix (Fin 2) (Fin 2) ℚ) (by decide) (by norm_num)
    (by simp [cromDemoConfig, demoLS]) true (1/1000) (maxIterations := 100) (by norm_num)
    ![1/3, 2/3] (fun _ => !![1/2, 1/4; 1/2, 3/4])
  exact ⟨s, h1, h2 0⟩

example : (⟨![.fin 0, .fin 1], fun _ _ _ => .fin 1⟩ : FltParams 2 2 ℚ).cost cromDemoConfig
    (!![1, 0; 1/2, 1/2] : Matrix (Fin 2) (Fin 2) ℚ) = .nan :=
  C133_cost_nan _ (by decide) (by norm_num) _

example : cromForecastWeights ![1, 2] 0 (fun _ => 1) (!![1, 0; 1/2, 1/2] : Matrix (Fin 2) (Fin 2) ℚ)
    3 1 = some 0 := by
  rw [C133_forecast_zero _ _ _ (by norm_num)]
  exact if_neg (by decide)

end Reor
