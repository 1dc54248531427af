import Verif.Model.Arrays
import Mathlib.Algebra.Order.Ring.Abs

/-!
Model of `src/reor/_validation.py`, of the argument checks shared by the estimators, and of the
part of `sklearn.utils.check_array` that matters here.
-/

namespace Reor

open scoped BigOperators

variable {K : Type} [Field K] [LinearOrder K]

/-- `np.isclose(x, 1)` with the default tolerances `rtol=1e-5`, `atol=1e-8`:
`|x - 1| <= atol + rtol * |1|`. -/
abbrev iscloseOne (x : K) : Prop := |x - 1| ≤ 1 / 10 ^ 8 + 1 / 10 ^ 5 * |1|

/-- `_check_unit_axis_sums(A, whom, axis=1)`, src/reor/_validation.py lines 9-15. -/
def checkUnitRowSums {m n : ℕ} (A : Matrix (Fin m) (Fin n) K) : Py Unit :=
  if ∀ i, iscloseOne (∑ j, A i j) then Py.ok () else Py.raise .valueError

/-- `_check_unit_axis_sums(A, whom, axis=0)`, src/reor/_validation.py lines 9-15. -/
def checkUnitColSums {m n : ℕ} (A : Matrix (Fin m) (Fin n) K) : Py Unit :=
  if ∀ j, iscloseOne (∑ i, A i j) then Py.ok () else Py.raise .valueError

/-- `_check_array_shape`, src/reor/_validation.py lines 18-22; returns the array viewed with the
checked shape. -/
def checkArrayShape (A : Arr2 K) (m n : ℕ) : Py (Matrix (Fin m) (Fin n) K) :=
  if h : A.rows = m ∧ A.cols = n then Py.ok (A.cast h.1 h.2) else Py.raise .valueError

/-- `sklearn.utils.check_array` applied to an optional two-dimensional array: `None` and arrays
without rows or columns are rejected.  (Non-numeric and non-finite entries, which it also rejects,
cannot be written in the model.) -/
def checkArray (A : Option (Arr2 K)) : Py (Arr2 K) :=
  match A with
  | none => Py.raise .valueError
  | some A => if A.rows = 0 ∨ A.cols = 0 then Py.raise .valueError else Py.ok A

/-- The parameter checks, src/reor/gpnh_convex_coding.py lines 564-572 (and the same lines of the
other estimators); returns the numbers of components and iterations and the tolerance.
`isinstance(x, INTEGER_TYPES)` holds for `NumArg.int`, `isinstance(x, numbers.Number)` for
`NumArg.int` and `NumArg.real`. -/
def checkParams (nComponents maxIterations tolerance : NumArg K) : Py (ℕ × ℕ × K) := do
  let k ← match nComponents with
    | .int z => if z ≤ 0 then Py.raise .valueError else Py.ok z.toNat
    | _ => Py.raise .valueError
  let m ← match maxIterations with
    | .int z => if z ≤ 0 then Py.raise .valueError else Py.ok z.toNat
    | _ => Py.raise .valueError
  let t ← match tolerance with
    | .int z => if z < 0 then Py.raise .valueError else Py.ok (z : K)
    | .real x => if x < 0 then Py.raise .valueError else Py.ok x
    | _ => Py.raise .valueError
  pure (k, m, t)

end Reor
