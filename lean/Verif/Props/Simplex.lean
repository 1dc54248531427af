import Verif.Proofs.SimplexGeom
import Mathlib.Tactic.NormNum
import Mathlib.Tactic.FinCases

/-!
Properties C01-C05: `simplex_projection.py`.
-/

namespace Reor

open scoped BigOperators
open Spec

variable {K : Type} [Field K] [LinearOrder K] [IsStrictOrderedRing K]

/-- C01.  The projection of a non-empty vector is a probability vector. -/
theorem C01_simplex_projection_on_simplex {n : ℕ} (hn : 1 ≤ n) (x : Fin n → K) :
    (∀ i, 0 ≤ simplexProjectVector x i) ∧ ∑ i, simplexProjectVector x i = 1 :=
  project_isProb hn x

example : 1 ≤ 3 ∧ ¬ IsProb (![2, -1, 5] : Fin 3 → ℚ) := by
  refine ⟨by norm_num, fun h => ?_⟩
  have := h.1 1
  norm_num at this

/-- C02.  Among all points of the simplex the projection is the nearest one, and the only nearest
one. -/
theorem C02_simplex_projection_nearest {n : ℕ} (hn : 1 ≤ n) (x : Fin n → K) :
    IsProb (simplexProjectVector x) ∧
    ∀ y : Fin n → K, IsProb y →
      sqDist x (simplexProjectVector x) ≤ sqDist x y ∧
      (sqDist x y = sqDist x (simplexProjectVector x) → y = simplexProjectVector x) := by
  refine ⟨project_isProb hn x, fun y hy => ⟨?_, fun h => project_unique hn x y hy h.le⟩⟩
  have := project_nearest hn x y hy
  linarith [sqDist_nonneg (simplexProjectVector x) y]

example : IsProb (![1/2, 0, 1/2] : Fin 3 → ℚ) := by
  constructor
  · intro i; fin_cases i <;> norm_num
  · simp [Fin.sum_univ_three]; norm_num

/-- C03.  Points of the simplex are fixed, and projecting twice is projecting once. -/
theorem C03_simplex_projection_idempotent {n : ℕ} (hn : 1 ≤ n) (x : Fin n → K) :
    (IsProb x → simplexProjectVector x = x) ∧
    simplexProjectVector (simplexProjectVector x) = simplexProjectVector x :=
  ⟨project_of_isProb hn x, project_of_isProb hn _ (project_isProb hn x)⟩

/-- C04.  Row-wise projection replaces each row by its own projection. -/
theorem C04_project_rows {m n : ℕ} (A : Matrix (Fin m) (Fin n) K) :
    (∀ i, (fun j => simplexProjectRows A i j) = simplexProjectVector (fun j => A i j)) ∧
    (1 ≤ n → RowStochastic (simplexProjectRows A)) := by
  refine ⟨projectRows_apply A, fun hn i => ?_⟩
  rw [projectRows_apply]
  exact project_isProb hn _

/-- C04.  Column-wise projection replaces each column by its own projection. -/
theorem C04_project_columns {m n : ℕ} (A : Matrix (Fin m) (Fin n) K) :
    (∀ j, (fun i => simplexProjectColumns A i j) = simplexProjectVector (fun i => A i j)) ∧
    (1 ≤ m → ColStochastic (simplexProjectColumns A)) := by
  refine ⟨projectColumns_apply A, fun hm j => ?_⟩
  rw [projectColumns_apply]
  exact project_isProb hm _

/-- C05.  Adding a constant to every entry does not change the projection. -/
theorem C05_projection_shift_invariant {n : ℕ} (hn : 1 ≤ n) (x : Fin n → K) (c : K) :
    simplexProjectVector (fun i => x i + c) = simplexProjectVector x := project_shift hn x c

/-- C05.  Projection commutes with permuting the entries. -/
theorem C05_projection_permutation_equivariant {n : ℕ} (hn : 1 ≤ n) (x : Fin n → K)
    (σ : Equiv.Perm (Fin n)) :
    simplexProjectVector (fun i => x (σ i)) = fun i => simplexProjectVector x (σ i) :=
  project_perm hn x σ

/-- C05.  Projection preserves the order of the entries. -/
theorem C05_projection_monotone {n : ℕ} (x : Fin n → K) (i j : Fin n) (h : x i ≤ x j) :
    simplexProjectVector x i ≤ simplexProjectVector x j := project_mono x i j h

/-- C05.  Projection never increases distances. -/
theorem C05_projection_nonexpansive {n : ℕ} (hn : 1 ≤ n) (x y : Fin n → K) :
    sqDist (simplexProjectVector x) (simplexProjectVector y) ≤ sqDist x y :=
  project_nonexpansive hn x y

/-- The boundary excluded by `1 ≤ n`: the empty vector is returned as is, and its sum is 0. -/
theorem C01_empty_vector_excluded (x : Fin 0 → K) : ¬ IsProb (simplexProjectVector x) := by
  rintro ⟨_, h⟩
  simp at h

end Reor
