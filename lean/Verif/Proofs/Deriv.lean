import Mathlib.Analysis.Calculus.Deriv.Add
import Mathlib.Analysis.Calculus.Deriv.Mul
import Mathlib.Analysis.Calculus.Deriv.Pow

/-!
Derivative of a quadratic.
-/

namespace Reor

theorem hasDerivAt_quadratic {f : ℝ → ℝ} {a b c : ℝ} (h : ∀ t, f t = a + t * b + t ^ 2 * c) :
    HasDerivAt f b 0 := by
  have h1 : HasDerivAt (fun t : ℝ => a + t * b + t ^ 2 * c) b 0 := by
    have e1 := ((hasDerivAt_id (0 : ℝ)).mul_const b).const_add a
    have e2 := ((hasDerivAt_id (0 : ℝ)).pow 2).mul_const c
    have := e1.add e2
    simp only [id, Nat.cast_ofNat] at this
    refine (this.congr_deriv ?_)
    simp
  have : f = fun t : ℝ => a + t * b + t ^ 2 * c := funext h
  rw [this]
  exact h1

/-- The same with a remainder `t ^ 2 * (c + t * d + t ^ 2 * e)`. -/
theorem hasDerivAt_quartic {f : ℝ → ℝ} {a b c d e : ℝ}
    (h : ∀ t, f t = a + t * b + t ^ 2 * (c + t * d + t ^ 2 * e)) : HasDerivAt f b 0 := by
  have h1 : HasDerivAt (fun t : ℝ => a + t * b + t ^ 2 * (c + t * d + t ^ 2 * e)) b 0 := by
    have e1 := ((hasDerivAt_id (0 : ℝ)).mul_const b).const_add a
    have e3 := (((hasDerivAt_id (0 : ℝ)).mul_const d).const_add c).add
      (((hasDerivAt_id (0 : ℝ)).pow 2).mul_const e)
    have := e1.add (((hasDerivAt_id (0 : ℝ)).pow 2).mul e3)
    refine (this.congr_deriv ?_)
    simp
  have : f = fun t : ℝ => a + t * b + t ^ 2 * (c + t * d + t ^ 2 * e) := funext h
  rw [this]
  exact h1

end Reor
