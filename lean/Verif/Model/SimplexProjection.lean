import Mathlib.Algebra.Order.Field.Basic
import Mathlib.LinearAlgebra.Matrix.Defs
import Mathlib.Data.List.Sort
import Mathlib.Data.List.OfFn
import Verif.Model.Py

/-!
Model of `src/reor/simplex_projection.py`.
-/

namespace Reor

variable {K : Type} [Field K] [LinearOrder K]

/-- The loop of `simplex_project_vector`, src/reor/simplex_projection.py lines 17-20:
```
for i in range(n - 2, -2, -1):
    t_hat = (sorted_x[-(n - 1 - i):].sum() - 1) / (n - 1 - i)
    if t_hat >= sorted_x[i]:
        break
```
The second argument is the list of loop indices still to visit, the third the current `t_hat`.
In the last round `i = -1`, so that `sorted_x[i]` is the largest entry. -/
def simplexThresholdLoop (sortedX : List K) : List Int → K → K
  | [], tHat => tHat
  | i :: is, _ =>
    let m : Int := sortedX.length - 1 - i
    let tHat := ((pyLast sortedX m.toNat).sum - 1) / (m : K)
    if tHat ≥ pyGet sortedX i 0 then tHat else simplexThresholdLoop sortedX is tHat

/-- `t_hat` after the loop, src/reor/simplex_projection.py lines 12-20. -/
def simplexThreshold {n : ℕ} (x : Fin n → K) : K :=
  let sortedX := (List.ofFn x).mergeSort (· ≤ ·)
  let size : Int := sortedX.length
  simplexThresholdLoop sortedX (pyRangeDown (size - 2) (-2)) 0

/-- `simplex_project_vector`, src/reor/simplex_projection.py lines 9-22.  The `out` argument only
says where the result is stored; `np.fmax(x - t_hat, 0)` is computed into a temporary first, so
`out=x` is safe and the result is modelled as a value. NaN entries are not modelled. -/
def simplexProjectVector {n : ℕ} (x : Fin n → K) : Fin n → K :=
  let tHat := simplexThreshold x
  fun i => max (x i - tHat) 0

/-- Replace row `i` of `A` by `v` (`A[i] = v`). -/
def setRow {m n : ℕ} (A : Matrix (Fin m) (Fin n) K) (i : Fin m) (v : Fin n → K) :
    Matrix (Fin m) (Fin n) K := fun i' j => if i' = i then v j else A i' j

/-- Replace column `j` of `A` by `v` (`A[:, j] = v`). -/
def setCol {m n : ℕ} (A : Matrix (Fin m) (Fin n) K) (j : Fin n) (v : Fin m → K) :
    Matrix (Fin m) (Fin n) K := fun i j' => if j' = j then v i else A i j'

/-- `simplex_project_columns`, src/reor/simplex_projection.py lines 25-30: columns are replaced one
after the other, in place. -/
def simplexProjectColumns {m n : ℕ} (A : Matrix (Fin m) (Fin n) K) : Matrix (Fin m) (Fin n) K :=
  (List.finRange n).foldl (fun B j => setCol B j (simplexProjectVector fun i => B i j)) A

/-- `simplex_project_rows`, src/reor/simplex_projection.py lines 33-38. -/
def simplexProjectRows {m n : ℕ} (A : Matrix (Fin m) (Fin n) K) : Matrix (Fin m) (Fin n) K :=
  (List.finRange m).foldl (fun B i => setRow B i (simplexProjectVector fun j => B i j)) A

end Reor
