import Verif.Model.Arrays
import Verif.Model.FurthestSum
import Mathlib.LinearAlgebra.Matrix.Trace

/-!
Pieces shared by the initialisation code of the estimators.
-/

namespace Reor

open scoped BigOperators

variable {K : Type} [Field K] [LinearOrder K]

/-- The environment: random generator and `np.sqrt`. -/
structure Env (K : Type) where
  rng : Rng K
  sqrt : K → K

/-- The FurthestSum keyword arguments accepted through `**kwargs`, e.g.
src/reor/gpnh_convex_coding.py lines 100-103; `unknown` tells whether any other keyword was
passed. -/
structure InitKwargs where
  startIndex : Option ℤ := none
  nExtraSteps : Option ℤ := none
  exclude : Option (List ℤ) := none
  unknown : Bool := false

/-- Some keyword argument was passed. -/
def InitKwargs.nonempty (kw : InitKwargs) : Bool :=
  kw.startIndex.isSome || kw.nExtraSteps.isSome || kw.exclude.isSome || kw.unknown

/-- `dissimilarities = np.sqrt(np.tile(kernel_diag, (n, 1)) - 2 * kernel + np.tile(kernel_diag[:,
np.newaxis], (1, n)))`, src/reor/gpnh_convex_coding.py lines 63-67 and
src/reor/archetypal_analysis.py lines 73-77.  The root of a negative number is NaN. -/
def dissimilarities (sqrt : K → K) {n : ℕ} (kernel : Matrix (Fin n) (Fin n) K) : Py (DMat K) :=
  let arg : Fin n → Fin n → K := fun i j => kernel j j - 2 * kernel i j + kernel i i
  if ∃ i j, arg i j < 0 then Py.raise .nonFinite
  else Py.ok
    { rows := n, cols := n
      get := fun i j =>
        if h : (0 ≤ i ∧ i < n) ∧ (0 ≤ j ∧ j < n) then
          sqrt (arg ⟨i.toNat, by omega⟩ ⟨j.toNat, by omega⟩)
        else 0 }

/-- A numpy row index `j` into an axis of length `n` (negative indices count from the end). -/
def rowIndex (n : ℕ) (j : ℤ) : Py (Fin n) :=
  if h : 0 ≤ j ∧ j < n then Py.ok ⟨j.toNat, by omega⟩
  else if h : -(n : ℤ) ≤ j ∧ j < 0 then Py.ok ⟨(j + n).toNat, by omega⟩
  else Py.raise .indexError

/-- The list of row indices `selected[0], ..., selected[k-1]`. -/
def rowIndices (n : ℕ) : (k : ℕ) → List ℤ → Py (Fin k → Fin n)
  | 0, _ => Py.ok Fin.elim0
  | k + 1, sel =>
    match sel with
    | [] => Py.raise .indexError
    | j :: sel => do
      let i ← rowIndex n j
      let rest ← rowIndices n k sel
      pure (Fin.cons i rest)

/-- `if start_index is None: start_index = rng.randint(n_samples)`, src/reor/gpnh_convex_coding.py
lines 58-59 and src/reor/archetypal_analysis.py lines 67-68. `rng.randint(0)` is a ValueError. -/
def drawStart (env : Env K) (n : ℕ) (kw : InitKwargs) (g : env.rng.G) : Py (ℤ × env.rng.G) :=
  match kw.startIndex with
  | some z => Py.ok (z, g)
  | none =>
    if n = 0 then Py.raise .valueError
    else Py.ok (((env.rng.randint n g).1 : ℤ), (env.rng.randint n g).2)

/-- The choice of samples by FurthestSum, src/reor/gpnh_convex_coding.py lines 56-70 and
src/reor/archetypal_analysis.py lines 66-80: draw a start index if none is given, then run
`furthest_sum`; the result is used as row indices by the callers. -/
def furthestSumRows (env : Env K) {n : ℕ} (kernel : Matrix (Fin n) (Fin n) K) (k : ℕ)
    (kw : InitKwargs) (g : env.rng.G) : Py ((Fin k → Fin n) × env.rng.G) := do
  let start ← drawStart env n kw g
  let D ← dissimilarities env.sqrt kernel
  let selected ← furthestSum D k start.1 (kw.exclude.getD []) (kw.nExtraSteps.getD 10)
  let rows ← rowIndices n k selected
  pure (rows, start.2)

/-- `(A * B).sum()`. -/
def mulSum {m n : ℕ} (A B : Matrix (Fin m) (Fin n) K) : K := ∑ i, ∑ j, A i j * B i j

/-- `A.sum()`. -/
def matSum {m n : ℕ} (A : Matrix (Fin m) (Fin n) K) : K := ∑ i, ∑ j, A i j

/-- `np.linalg.norm(A) ** 2` (the root is squared again at once). -/
def normSq {m n : ℕ} (A : Matrix (Fin m) (Fin n) K) : K := ∑ i, ∑ j, A i j ^ 2

end Reor
