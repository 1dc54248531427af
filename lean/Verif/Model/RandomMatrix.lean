import Verif.Model.Arrays

/-!
Model of `src/reor/_random_matrix.py`.
-/

namespace Reor

open scoped BigOperators

variable {K : Type} [Field K] [LinearOrder K]

/-- `right_stochastic_matrix`, src/reor/_random_matrix.py lines 5-18 with `axis=1` and 26-28.
A row of zeros gives 0/0 in each of its entries. -/
def rightStochasticMatrix (R : Rng K) (m n : ℕ) (g : R.G) : Py (Matrix (Fin m) (Fin n) K × R.G) :=
  let d := R.uniform m n g
  let axisSums : Fin m → K := fun i => ∑ j, d.1 i j
  if ∃ i, ∃ _ : Fin n, axisSums i = 0 then Py.raise .nonFinite
  else Py.ok (fun i j => d.1 i j / axisSums i, d.2)

/-- `left_stochastic_matrix`, src/reor/_random_matrix.py lines 5-18 with `axis=0` and 21-23. -/
def leftStochasticMatrix (R : Rng K) (m n : ℕ) (g : R.G) : Py (Matrix (Fin m) (Fin n) K × R.G) :=
  let d := R.uniform m n g
  let axisSums : Fin n → K := fun j => ∑ i, d.1 i j
  if ∃ j, ∃ _ : Fin m, axisSums j = 0 then Py.raise .nonFinite
  else Py.ok (fun i j => d.1 i j / axisSums j, d.2)

end Reor
