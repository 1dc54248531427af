import Verif.Model.GPNH
import Mathlib.Tactic.Linarith
import Mathlib.Tactic.NormNum

/-!
A concrete environment for the non-vacuity examples.
-/

namespace Reor

/-- A generator whose state counts the draws: `uniform` gives positive numbers depending on position
and state, `choice` the first indices. -/
def demoRng : Rng ℚ where
  G := ℕ
  ofSeed := fun s => s
  uniform := fun _ _ g => (fun i j => (((i : ℕ) + 2 * (j : ℕ) + g + 1 : ℕ) : ℚ), g + 1)
  randn := fun _ _ g => (fun i j => ((i : ℕ) : ℚ) - ((j : ℕ) : ℚ) * (g : ℚ), g + 1)
  randint := fun n g => (g % n, g + 1)
  choice := fun _ k g => (List.range k, g + 1)

theorem demoRng_lawful : demoRng.Lawful where
  uniform_nonneg := by intro m n g i j; exact Nat.cast_nonneg _
  randint_lt := fun n g h => Nat.mod_lt _ h
  choice_length := by intro n k g h; simp [demoRng]
  choice_nodup := by intro n k g h; exact List.nodup_range
  choice_lt := by intro n k g h i hi; simp [demoRng] at hi; omega

theorem demoRng_uniform_pos (m n : ℕ) (g : demoRng.G) (i : Fin m) (j : Fin n) :
    0 < (demoRng.uniform m n g).1 i j :=
  Nat.cast_pos.2 (Nat.succ_pos _)

/-- The environment of the examples (the root is only used to scale a random start). -/
def demoEnv : Env ℚ := ⟨demoRng, id⟩

end Reor
