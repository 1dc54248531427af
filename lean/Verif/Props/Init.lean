import Verif.Proofs.GPNHFit
import Verif.Props.Demo

/-!
Properties C16 (random stochastic matrices) and C58 (validation of initial guesses).
-/

namespace Reor

set_option linter.unusedSectionVars false

open scoped BigOperators
open Spec

variable {K : Type} [Field K] [LinearOrder K] [IsStrictOrderedRing K]

/-- C16; missing: matrices without rows, for which it fails (`C16_empty_fails`).  Whenever finite
values come out, `left_stochastic_matrix` has probability vectors as
columns. -/
theorem C16_left_stochastic_partial (R : Rng K) (hR : R.Lawful) (m n : ℕ) (hm : 1 ≤ m) (g : R.G)
    (r : Matrix (Fin m) (Fin n) K × R.G) (h : leftStochasticMatrix R m n g = Py.ok r) :
    ColStochastic r.1 := leftStochastic_ok hR hm h

/-- C16; missing: matrices without columns, for which it fails (`C16_empty_fails`).
`right_stochastic_matrix` has probability vectors as rows. -/
theorem C16_right_stochastic_partial (R : Rng K) (hR : R.Lawful) (m n : ℕ) (hn : 1 ≤ n) (g : R.G)
    (r : Matrix (Fin m) (Fin n) K × R.G) (h : rightStochasticMatrix R m n g = Py.ok r) :
    RowStochastic r.1 := rightStochastic_ok hR hn h

/-- C16 fails for shapes without columns (rows): the empty matrix is returned and its sums are 0. -/
theorem C16_empty_fails (R : Rng K) (m : ℕ) (hm : 1 ≤ m) (g : R.G) :
    (∃ r : Matrix (Fin m) (Fin 0) K × R.G, rightStochasticMatrix R m 0 g = Py.ok r ∧
      ¬ RowStochastic r.1) ∧
    (∃ r : Matrix (Fin 0) (Fin m) K × R.G, leftStochasticMatrix R 0 m g = Py.ok r ∧
      ¬ ColStochastic r.1) := by
  constructor
  · unfold rightStochasticMatrix
    rw [if_neg (by rintro ⟨_, j, _⟩; exact j.elim0)]
    exact ⟨_, rfl, fun h => by simpa using (h ⟨0, hm⟩).2⟩
  · unfold leftStochasticMatrix
    rw [if_neg (by rintro ⟨_, j, _⟩; exact j.elim0)]
    exact ⟨_, rfl, fun h => by simpa using (h ⟨0, hm⟩).2⟩

/-- C16.  Non-finite values come out exactly when all the numbers drawn for one column (row) are
zero; there is no other failure. -/
theorem C16_left_finite_iff (R : Rng K) (hR : R.Lawful) (m n : ℕ) (hm : 1 ≤ m) (g : R.G) :
    (∃ r, leftStochasticMatrix R m n g = Py.ok r) ↔
      ∀ j, ∃ i, (R.uniform m n g).1 i j ≠ 0 := by
  unfold leftStochasticMatrix
  have key : (∃ j, ∃ _ : Fin m, ∑ i, (R.uniform m n g).1 i j = 0) ↔ ¬ ∀ j, ∃ i, (R.uniform m n g).1 i j ≠ 0 := by
    push Not
    refine exists_congr fun j => ?_
    rw [Finset.sum_eq_zero_iff_of_nonneg (fun i _ => hR.uniform_nonneg m n g i j)]
    exact ⟨fun ⟨_, h⟩ => by simpa using h, fun h => ⟨⟨0, hm⟩, by simpa using h⟩⟩
  simp only
  split_ifs with h
  · simp only [exists_false, false_iff]
    exact key.1 h
  · simp only [Py.ok.injEq, exists_eq', true_iff]
    by_contra hc
    exact h (key.2 hc)

theorem C16_right_finite_iff (R : Rng K) (hR : R.Lawful) (m n : ℕ) (hn : 1 ≤ n) (g : R.G) :
    (∃ r, rightStochasticMatrix R m n g = Py.ok r) ↔
      ∀ i, ∃ j, (R.uniform m n g).1 i j ≠ 0 := by
  unfold rightStochasticMatrix
  have key : (∃ i, ∃ _ : Fin n, ∑ j, (R.uniform m n g).1 i j = 0) ↔ ¬ ∀ i, ∃ j, (R.uniform m n g).1 i j ≠ 0 := by
    push Not
    refine exists_congr fun i => ?_
    rw [Finset.sum_eq_zero_iff_of_nonneg (fun j _ => hR.uniform_nonneg m n g i j)]
    exact ⟨fun ⟨_, h⟩ => by simpa using h, fun h => ⟨⟨0, hn⟩, by simpa using h⟩⟩
  simp only
  split_ifs with h
  · simp only [exists_false, false_iff]
    exact key.1 h
  · simp only [Py.ok.injEq, exists_eq', true_iff]
    by_contra hc
    exact h (key.2 hc)

example : (∃ r, leftStochasticMatrix demoRng 3 2 (demoRng.ofSeed 5) = Py.ok r) ∧
    ∃ r, rightStochasticMatrix demoRng 3 2 (demoRng.ofSeed 5) = Py.ok r :=
  ⟨(C16_left_finite_iff _ demoRng_lawful _ _ (by norm_num) _).2 fun _ => ⟨0, (demoRng_uniform_pos _ _ _ _ _).ne'⟩,
    (C16_right_finite_iff _ demoRng_lawful _ _ (by norm_num) _).2 fun _ =>
      ⟨0, (demoRng_uniform_pos _ _ _ _ _).ne'⟩⟩

/-- C58.  `_check_init_weights` accepts an array exactly when it has the expected (non-empty) shape
and all row sums are within `1e-8 + 1e-5` of 1; otherwise ValueError. -/
theorem C58_check_init_weights (m n : ℕ) (A : Arr2 K) :
    ((∃ M, gpnhCheckInitWeights (some A) m n = Py.ok M) ↔
      (A.rows = m ∧ A.cols = n ∧ 0 < m ∧ 0 < n ∧
        ∀ i, |∑ j, A.val i j - 1| ≤ 1 / 10 ^ 8 + 1 / 10 ^ 5)) ∧
    ((¬ ∃ M, gpnhCheckInitWeights (some A) m n = Py.ok M) →
      gpnhCheckInitWeights (some A) m n = Py.raise .valueError) := by
  refine ⟨⟨?_, ?_⟩, ?_⟩
  · rintro ⟨M, h⟩
    obtain ⟨h1, h2, h3, h4⟩ := gpnhCheckInitWeights_ok h
    obtain rfl := Option.some.inj h1
    refine ⟨rfl, rfl, Nat.pos_of_ne_zero h2, Nat.pos_of_ne_zero h3, fun i => ?_⟩
    have := h4 i
    rw [iscloseOne, abs_one, mul_one] at this
    exact this
  · rintro ⟨rfl, rfl, h3, h4, h5⟩
    refine ⟨A.val, ?_⟩
    have hc : checkArrayShape A A.rows A.cols = Py.ok A.val := checkArrayShape_of A.val
    have hu : checkUnitRowSums A.val = Py.ok () := by
      unfold checkUnitRowSums
      rw [if_pos]
      intro i
      simpa [iscloseOne] using h5 i
    simp [gpnhCheckInitWeights, checkArray, h3.ne', h4.ne', hc, hu]
  · intro h
    cases h' : gpnhCheckInitWeights (some A) m n with
    | ok M => exact absurd ⟨M, h'⟩ h
    | raise e => rw [gpnhCheckInitWeights_raise h']
    | diverge => exact absurd h' gpnhCheckInitWeights_ne_diverge

/-- C58.  Negative weights are not rejected: the row `(2, -1)` passes the check. -/
theorem C58_negative_weights_accepted :
    ∃ A : Matrix (Fin 1) (Fin 2) ℚ, A 0 1 < 0 ∧
      gpnhCheckInitWeights (some (Arr2.of A)) 1 2 = Py.ok A := by
  refine ⟨!![2, -1], by norm_num, ?_⟩
  obtain ⟨M, hM⟩ := (C58_check_init_weights 1 2 (Arr2.of (!![2, -1] : Matrix _ _ ℚ))).1.2
    ⟨rfl, rfl, by norm_num, by norm_num, fun (i : Fin 1) => by
      fin_cases i; show |∑ j : Fin 2, ![(2 : ℚ), -1] j - 1| ≤ _; norm_num [Fin.sum_univ_two]⟩
  have := (gpnhCheckInitWeights_ok hM).1
  simp only [Option.some.injEq] at this
  have h2 : (!![2, -1] : Matrix (Fin 1) (Fin 2) ℚ) = M := by
    simpa [Arr2.of] using this
  rw [hM, h2]

/-- C58.  A row sum off by more than `1.1e-5` is rejected, a missing array as well. -/
example : gpnhCheckInitWeights (none : Option (Arr2 ℚ)) 1 2 = Py.raise .valueError ∧
    ¬ ∃ M, gpnhCheckInitWeights (some (Arr2.of (!![2, -2] : Matrix _ _ ℚ))) 1 2 = Py.ok M := by
  refine ⟨rfl, ?_⟩
  rw [(C58_check_init_weights 1 2 (Arr2.of (!![2, -2] : Matrix _ _ ℚ))).1]
  rintro ⟨-, -, -, -, h⟩
  have h0 : |∑ j : Fin 2, ![(2 : ℚ), -2] j - 1| ≤ 1 / 10 ^ 8 + 1 / 10 ^ 5 := h (0 : Fin 1)
  norm_num [Fin.sum_univ_two] at h0

end Reor
