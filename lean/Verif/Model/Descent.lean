import Mathlib.Algebra.Order.Ring.Abs
import Mathlib.Algebra.Order.Field.Basic
import Verif.Model.Py

/-!
The outer loop (`_iterate`) shared, up to the names of the updates, by
src/reor/gpnh_convex_coding.py lines 506-552, src/reor/archetypal_analysis.py (`KernelAA._iterate`),
src/reor/mtd_convex_coding.py (`MTDConvexCoding._iterate`) and
src/reor/gpnh_convex_coding_crom.py (`_fit_parameters`).
-/

namespace Reor

variable {K : Type} [Field K] [LinearOrder K]

/-- One iteration: perform the enabled updates in order; after each one evaluate the cost and raise
RuntimeError if it is above `old_cost` (when monotonicity is required), e.g.
src/reor/gpnh_convex_coding.py lines 524-536. `evalCost` may refresh caches. -/
def runPhases {σ : Type} (evalCost : σ → σ × K) (require : Bool) (oldCost : K) :
    List (σ → Py σ) → σ → K → Py (σ × K)
  | [], s, newCost => Py.ok (s, newCost)
  | p :: ps, s, _ => do
    let s ← p s
    let r := evalCost s
    if r.2 > oldCost ∧ require = true then Py.raise .runtimeError
    else runPhases evalCost require oldCost ps r.1 r.2

/-- Result of the outer loop. `trace` lists the costs of the iterations (the numbers printed when
verbose). -/
structure IterResult (σ K : Type) where
  state : σ
  cost : K
  nIter : ℕ
  trace : List K

/-- `for n_iter in range(max_iterations): ... if abs(cost_delta) < tolerance: break`,
src/reor/gpnh_convex_coding.py lines 519-552.  `last` is the value of `n_iter` so far; returning
without having entered the loop is an UnboundLocalError. -/
def iterateLoop {σ : Type} (evalCost : σ → σ × K) (require : Bool) (tolerance : K)
    (phases : List (σ → Py σ)) :
    List ℕ → σ → K → Option ℕ → List K → Py (IterResult σ K)
  | [], s, newCost, last, trace =>
    match last with
    | none => Py.raise .unboundLocalError
    | some n => Py.ok ⟨s, newCost, n, trace⟩
  | i :: is, s, newCost, _, trace => do
    let oldCost := newCost
    let r ← runPhases evalCost require oldCost phases s newCost
    let costDelta := r.2 - oldCost
    if |costDelta| < tolerance then Py.ok ⟨r.1, r.2, i, trace ++ [r.2]⟩
    else iterateLoop evalCost require tolerance phases is r.1 r.2 (some i) (trace ++ [r.2])

/-- `_iterate`: evaluate the starting cost, then loop. -/
def iterate {σ : Type} (evalCost : σ → σ × K) (require : Bool) (tolerance : K) (maxIterations : ℕ)
    (phases : List (σ → Py σ)) (s : σ) : Py (IterResult σ K) :=
  let r := evalCost s
  iterateLoop evalCost require tolerance phases (List.range maxIterations) r.1 r.2 none []

end Reor
