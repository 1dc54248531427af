import Mathlib.Algebra.Order.Field.Basic
import Verif.Model.Py

/-!
Model of `src/reor/spg.py`.
-/

namespace Reor

variable {K : Type} [Field K] [LinearOrder K]

/-- `get_next_spg_step_length`, src/reor/spg.py lines 5-18.  All callers pass numpy scalars, so a
zero denominator gives an infinity or NaN (a warning, not an exception); then the chained
comparison is false and the step is halved. -/
def nextSpgStepLength (currentStepLength delta fOld fNew sigmaOne sigmaTwo : K) : K :=
  let denom := fNew - fOld - currentStepLength * delta
  if denom = 0 then
    (1 / 2) * currentStepLength
  else
    let stepLengthTmp := -(1 / 2) * currentStepLength ^ 2 * delta / denom
    if sigmaOne ≤ stepLengthTmp ∧ stepLengthTmp ≤ sigmaTwo * currentStepLength then
      stepLengthTmp
    else
      (1 / 2) * currentStepLength

/-- `get_next_spg_alpha`, src/reor/spg.py lines 21-27. -/
def nextSpgAlpha (beta sksk alphaMin alphaMax : K) : K :=
  if beta ≤ 0 then alphaMax else min alphaMax (max alphaMin (sksk / beta))

end Reor
