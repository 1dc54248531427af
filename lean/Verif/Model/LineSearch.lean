import Mathlib.Algebra.Order.Ring.Abs
import Verif.Model.Spg

/-!
The line search shared (textually, up to names) by
* src/reor/gpnh_convex_coding.py lines 350-389 (`_dictionary_line_search`), 437-474
  (`_weights_line_search`),
* src/reor/archetypal_analysis.py, src/reor/mtd_convex_coding.py and
  src/reor/gpnh_convex_coding_crom.py (the methods named `*_line_search`).

The model is generic in the state `σ` of the estimator and in what "move to `old + step * incr`,
refresh the caches and evaluate the cost" does to it (`trial`).
-/

namespace Reor

variable {K : Type} [Field K] [LinearOrder K]

/-- The line-search settings taken from `**kwargs` by every estimator, e.g.
src/reor/gpnh_convex_coding.py lines 226-234. -/
structure LSConfig (K : Type) where
  memory : ℕ
  gamma : K
  alphaMin : K
  alphaMax : K
  sigmaOne : K
  sigmaTwo : K
  stepSizeTolerance : K

/-- The `while` loop, src/reor/gpnh_convex_coding.py lines 375-387:
```
while next_cost > f_max + factor * step_size:
    step_size = get_next_spg_step_length(step_size, incr_norm, current_cost, next_cost, ...)
    self.S = self.S_old + step_size * self.incr_S      # `trial`
    self.SSt = self.S.dot(self.S.T)                    # `trial`
    next_cost = self._evaluate_cost()                  # `trial`
    if abs(step_size) < self.step_size_tolerance:
        break
```
`none` means that the loop does not terminate.  The last component of the result is a ghost counter
of the loop rounds. -/
def backtrack {σ : Type} (cfg : LSConfig K) (trial : σ → K → σ × K) (fMax incrNorm currentCost : K)
    (stepSize : K) (s : σ) (nextCost : K) (rounds : ℕ) : Option (K × σ × K × ℕ) :=
  if nextCost > fMax + cfg.gamma * incrNorm * stepSize then
    let stepSize' := nextSpgStepLength stepSize incrNorm currentCost nextCost
      cfg.sigmaOne cfg.sigmaTwo
    let r := trial s stepSize'
    if |stepSize'| < cfg.stepSizeTolerance then
      some (stepSize', r.1, r.2, rounds + 1)
    else
      backtrack cfg trial fMax incrNorm currentCost stepSize' r.1 r.2 (rounds + 1)
  else
    some (stepSize, s, nextCost, rounds)
partial_fixpoint

/-- `if f_max is None or f >= f_max: f_max = f`, src/reor/gpnh_convex_coding.py lines 362-363. -/
def maxStep (fMax : Option K) (f : K) : Option K :=
  match fMax with
  | none => some f
  | some m => if f ≥ m then some f else some m

/-- `f_max = None; for f in mem: ...`, src/reor/gpnh_convex_coding.py lines 360-363. -/
def foldMax (mem : List K) : Option K := mem.foldl maxStep none

/-- What a line search leaves behind. -/
structure LSResult (σ K : Type) where
  mem : List K
  stepSize : K
  state : σ
  cost : K
  rounds : ℕ

/-- A complete line search, src/reor/gpnh_convex_coding.py lines 350-389.  `mem` is the deque of
recent costs (`popleft` on an empty deque is an IndexError), `s` the state before the step,
`currentCost` its cost and `incrNorm` the slope `(incr * grad).sum()`. The first trial uses
`step_size = 1`; the code computes it as `x += incr`, which is `x_old + 1 * incr`. -/
def lineSearch {σ : Type} (cfg : LSConfig K) (trial : σ → K → σ × K) (mem : List K) (s : σ)
    (currentCost incrNorm : K) : Py (LSResult σ K) :=
  match mem with
  | [] => Py.raise .indexError
  | _ :: rest =>
    let mem' := rest ++ [currentCost]
    match foldMax mem' with
    | none => Py.raise .typeError
    | some fMax =>
      let r := trial s 1
      match backtrack cfg trial fMax incrNorm currentCost 1 r.1 r.2 0 with
      | none => Py.diverge
      | some (stepSize, s', cost, rounds) => Py.ok ⟨mem', stepSize, s', cost, rounds⟩

end Reor
