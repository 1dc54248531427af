import Mathlib.Algebra.BigOperators.Group.Finset.Basic
import Mathlib.Algebra.Order.Field.Basic
import Mathlib.Algebra.BigOperators.Fin
import Mathlib.LinearAlgebra.Matrix.Defs
import Mathlib.Data.Matrix.Mul
import Verif.Model.Py

/-!
Arrays whose shape is only known at run time, argument values, and the random generator.
-/

namespace Reor

open scoped BigOperators

variable {K : Type}

/-- A two-dimensional numpy array. -/
structure Arr2 (K : Type) where
  rows : ℕ
  cols : ℕ
  val : Matrix (Fin rows) (Fin cols) K

/-- View `A` with statically known shape. -/
def Arr2.cast (A : Arr2 K) {m n : ℕ} (hm : A.rows = m) (hn : A.cols = n) :
    Matrix (Fin m) (Fin n) K :=
  fun i j => A.val (Fin.cast hm.symm i) (Fin.cast hn.symm j)

/-- A matrix as a run-time array. -/
def Arr2.of {m n : ℕ} (A : Matrix (Fin m) (Fin n) K) : Arr2 K := ⟨m, n, A⟩

/-- Values a caller can pass where a number is expected. -/
inductive NumArg (K : Type) where
  | none
  | int (z : ℤ)
  | real (x : K)
  | other

/-- The random generator (`numpy.random.RandomState`): its states and draws.  Every draw returns the
value and the generator state afterwards.  Nothing is assumed of the values except where a theorem
says so (`Rng.Lawful`). -/
structure Rng (K : Type) where
  /-- states of the generator -/
  G : Type
  /-- `RandomState(seed)` -/
  ofSeed : ℕ → G
  /-- `rng.uniform(size=(m, n))` -/
  uniform : (m n : ℕ) → G → Matrix (Fin m) (Fin n) K × G
  /-- `rng.randn(m, n)` -/
  randn : (m n : ℕ) → G → Matrix (Fin m) (Fin n) K × G
  /-- `rng.randint(n)` for `n > 0` -/
  randint : ℕ → G → ℕ × G
  /-- `rng.choice(n, k, replace=False)` for `k ≤ n` -/
  choice : ℕ → ℕ → G → List ℕ × G

/-- What numpy documents of the draws: uniform draws are non-negative, `randint(n)` is below `n`,
`choice` without replacement gives `k` distinct indices below `n`. -/
structure Rng.Lawful [Field K] [LinearOrder K] (R : Rng K) : Prop where
  uniform_nonneg : ∀ m n g i j, 0 ≤ (R.uniform m n g).1 i j
  randint_lt : ∀ n g, 0 < n → (R.randint n g).1 < n
  choice_length : ∀ n k g, k ≤ n → (R.choice n k g).1.length = k
  choice_nodup : ∀ n k g, k ≤ n → (R.choice n k g).1.Nodup
  choice_lt : ∀ n k g, k ≤ n → ∀ i ∈ (R.choice n k g).1, i < n

end Reor
