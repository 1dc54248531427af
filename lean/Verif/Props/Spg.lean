import Verif.Proofs.LineSearch

/-!
Properties C06-C08: `spg.py`.
-/

namespace Reor

variable {K : Type} [Field K] [LinearOrder K] [IsStrictOrderedRing K]

/-- C06.  The next step is positive and at most `max sigma_two (1/2)` times the current one, so it is
strictly smaller. -/
theorem C06_step_shrinks (step delta fOld fNew sigmaOne sigmaTwo : K)
    (hstep : 0 < step) (h1 : 0 < sigmaOne) (h2 : sigmaTwo < 1) :
    0 < nextSpgStepLength step delta fOld fNew sigmaOne sigmaTwo ∧
    nextSpgStepLength step delta fOld fNew sigmaOne sigmaTwo ≤ max sigmaTwo (1 / 2) * step ∧
    nextSpgStepLength step delta fOld fNew sigmaOne sigmaTwo < step :=
  ⟨nextStep_pos hstep h1, nextStep_le hstep, nextStep_lt hstep h2⟩

example : nextSpgStepLength (1 : ℚ) (-1) 3 (5/2) (1/10) (9/10) = 1/2 ∧
    nextSpgStepLength (1 : ℚ) (-1) 3 4 (1/10) (9/10) = 1/4 := by
  constructor <;> norm_num [nextSpgStepLength]

/-- C07.  Either the step is exactly halved, or it is the stationary point `t` of the parabola
`t ↦ fOld + delta t + c t²` through `(step, fNew)`, which is its minimiser when the slope is
negative and `t` is positive; and the interpolated value is used exactly when it lies in
`[sigmaOne, sigmaTwo * step]`.  For `step ≠ 0` there is always such a `c`. -/
theorem C07_interpolation (step delta fOld fNew sigmaOne sigmaTwo c : K)
    (hc : fOld + delta * step + c * step ^ 2 = fNew) :
    let t := nextSpgStepLength step delta fOld fNew sigmaOne sigmaTwo
    (t = step / 2 ∨
      (sigmaOne ≤ t ∧ t ≤ sigmaTwo * step ∧ delta + 2 * c * t = 0 ∧
        (delta < 0 → 0 < t → ∀ u, fOld + delta * t + c * t ^ 2 ≤ fOld + delta * u + c * u ^ 2))) ∧
    (∀ u, step ≠ 0 → c ≠ 0 → delta + 2 * c * u = 0 → sigmaOne ≤ u → u ≤ sigmaTwo * step → t = u) := by
  intro t
  have hden : fNew - fOld - step * delta = c * step ^ 2 := by rw [← hc]; ring
  constructor
  · rcases nextStep_cases step delta fOld fNew sigmaOne sigmaTwo with h | ⟨ha, hb, hd, he⟩
    · left
      show nextSpgStepLength _ _ _ _ _ _ = _
      rw [h]; ring
    · right
      have hc0 : c ≠ 0 := by
        rintro rfl
        rw [hden] at hd
        simp at hd
      have hstep : step ≠ 0 := by
        rintro rfl
        rw [hden] at hd
        simp at hd
      have hstat : delta + 2 * c * t = 0 := by
        show delta + 2 * c * nextSpgStepLength _ _ _ _ _ _ = 0
        rw [he, hden]
        field_simp
        ring
      refine ⟨ha, hb, hstat, fun hneg htpos u => ?_⟩
      have hcpos : 0 < c := by
        by_contra hcon
        have : c * t ≤ 0 := mul_nonpos_of_nonpos_of_nonneg (not_lt.mp hcon) htpos.le
        linarith
      have e : fOld + delta * u + c * u ^ 2 - (fOld + delta * t + c * t ^ 2) = c * (u - t) ^ 2 := by
        have : delta = -(2 * c * t) := by linarith
        rw [this]; ring
      have : 0 ≤ c * (u - t) ^ 2 := mul_nonneg hcpos.le (sq_nonneg _)
      linarith
  · intro u hstep hc0 hstat hl hr
    have hs2 : step ^ 2 ≠ 0 := pow_ne_zero _ hstep
    have hu : -(1 / 2) * step ^ 2 * delta / (fNew - fOld - step * delta) = u := by
      have hdl : delta = -(2 * c * u) := by linarith
      rw [hden, hdl]
      field_simp
    show nextSpgStepLength _ _ _ _ _ _ = u
    unfold nextSpgStepLength
    simp only
    rw [if_neg (by rw [hden]; exact mul_ne_zero hc0 hs2), hu, if_pos ⟨hl, hr⟩]

/-- C07.  The parabola exists for every non-zero step; a zero step stays zero (half of it). -/
theorem C07_parabola_exists (step delta fOld fNew sigmaOne sigmaTwo : K) :
    (step ≠ 0 → ∃ c, fOld + delta * step + c * step ^ 2 = fNew) ∧
    (step = 0 → nextSpgStepLength step delta fOld fNew sigmaOne sigmaTwo = 0) := by
  constructor
  · intro h
    refine ⟨(fNew - fOld - delta * step) / step ^ 2, ?_⟩
    field_simp
    ring
  · rintro rfl
    rcases nextStep_cases 0 delta fOld fNew sigmaOne sigmaTwo with h | ⟨-, -, -, h⟩
    · rw [h]; ring
    · rw [h]; simp

example : (3 : ℚ) + (-1) * 1 + (1/2) * 1 ^ 2 = 5/2 := by norm_num

omit [IsStrictOrderedRing K] in
/-- C08.  The step scale is within its bounds; it is `alphaMax` when `beta ≤ 0` and the quotient
when that is within the bounds. -/
theorem C08_alpha_bounds (beta sksk alphaMin alphaMax : K) (h : alphaMin ≤ alphaMax) :
    (alphaMin ≤ nextSpgAlpha beta sksk alphaMin alphaMax ∧
      nextSpgAlpha beta sksk alphaMin alphaMax ≤ alphaMax) ∧
    (beta ≤ 0 → nextSpgAlpha beta sksk alphaMin alphaMax = alphaMax) ∧
    (0 < beta → alphaMin ≤ sksk / beta → sksk / beta ≤ alphaMax →
      nextSpgAlpha beta sksk alphaMin alphaMax = sksk / beta) ∧
    (0 < beta → sksk / beta < alphaMin → nextSpgAlpha beta sksk alphaMin alphaMax = alphaMin) := by
  unfold nextSpgAlpha
  refine ⟨?_, ?_, ?_, ?_⟩
  · split_ifs
    · exact ⟨h, le_rfl⟩
    · exact ⟨le_min h (le_max_left _ _), min_le_left _ _⟩
  · intro hb
    rw [if_pos hb]
  · intro hb h1 h2
    rw [if_neg (not_le.mpr hb), max_eq_right h1, min_eq_right h2]
  · intro hb h1
    rw [if_neg (not_le.mpr hb), max_eq_left h1.le, min_eq_right h]

example : nextSpgAlpha (2 : ℚ) 3 (1/1000) 1000 = 3/2 ∧ nextSpgAlpha (-1 : ℚ) 3 (1/1000) 1000 = 1000 := by
  constructor <;> norm_num [nextSpgAlpha]

end Reor
