import Verif.Proofs.FEMSym
import Verif.Props.FEMBounds

/-!
FEM-BV-k-means of rotated and translated data.
-/

namespace Reor

set_option linter.unusedSectionVars false

open scoped BigOperators Matrix
open Spec

variable {K : Type} [Field K] [LinearOrder K] [IsStrictOrderedRing K]
variable {T D : ℕ}

/-! ### C93: rotations and translations -/

/-- C93.  If the data are rotated by `Q` and translated by `b`, and so are the centroids supplied (if
any), then `fit_transform` ends in the same way: the same exception, or the same weights, cost,
history, number of iterations, failures of the solver and generator state, and centroids that are
rotated and translated too.  For every start, solver and total variation bound. -/
theorem C93_fembv_rigid_motion (R : Rng K) (solver : LPSolver K) (obj : FEMKMeansObj R)
    (X Y : Matrix (Fin T) (Fin D) K) (Q : Matrix (Fin D) (Fin D) K) (hQ : Q * Qᵀ = 1) (b : Fin D → K)
    (hY : ∀ t d, Y t d = (X * Q) t d + b d) (args : FEMArgs K) (parameters' : Option (Arr2 K))
    (hp : (args.parameters = none ∧ parameters' = none) ∨
      ∃ (m : ℕ) (C C' : Matrix (Fin m) (Fin D) K), args.parameters = some (Arr2.of C) ∧
        parameters' = some (Arr2.of C') ∧ ∀ a d, C' a d = (C * Q) a d + b d) :
    (femKMeansFitTransform R solver obj (Arr2.of X) args = Py.diverge ∧
      femKMeansFitTransform R solver obj (Arr2.of Y) { args with parameters := parameters' } =
        Py.diverge) ∨
    (∃ e, femKMeansFitTransform R solver obj (Arr2.of X) args = Py.raise e ∧
      femKMeansFitTransform R solver obj (Arr2.of Y) { args with parameters := parameters' } =
        Py.raise e) ∨
    ∃ (o : FEMKMeansObj R) (k : ℕ) (C C' : Matrix (Fin k) (Fin D) K) (G : Option (Arr2 K))
      (info : FEMInfo K),
      femKMeansFitTransform R solver obj (Arr2.of X) args =
        Py.ok ({ o with Theta := some (Arr2.of C) }, G, info) ∧
      femKMeansFitTransform R solver obj (Arr2.of Y) { args with parameters := parameters' } =
        Py.ok ({ o with Theta := some (Arr2.of C') }, G, info) ∧
      ∀ a d, C' a d = (C * Q) a d + b d := by
  have h := femKMeansRun_moved hQ hY R solver obj args hp
  unfold femKMeansFitTransform
  revert h
  cases femKMeansRun R solver obj (Arr2.of X) args <;>
    cases femKMeansRun R solver obj (Arr2.of Y) { args with parameters := parameters' } <;>
    intro h <;> simp only [PyRel] at h
  · rename_i r r'
    obtain ⟨k, C, C', h1, h2, rfl⟩ := h
    refine Or.inr (Or.inr ⟨{ r.1 with
      nComponents_ := r.1.Gamma.map (fun G => G.cols), cost_ := some r.2.cost,
      nIter_ := some r.2.nIter }, k, C, C', r.1.Gamma, r.2, ?_, rfl, h2⟩)
    simp only [Py.ok_bind, Py.pure_eq, ← h1]
  · subst h
    exact Or.inr (Or.inl ⟨_, rfl, rfl⟩)
  · exact Or.inl ⟨rfl, rfl⟩

/-- C93.  `transform` (which starts anew) gives moved data the same weights, cost and history. -/
theorem C93_fembv_transform_rigid_motion (R : Rng K) (solver : LPSolver K) (obj : FEMKMeansObj R)
    (X Y : Matrix (Fin T) (Fin D) K) (Q : Matrix (Fin D) (Fin D) K) (hQ : Q * Qᵀ = 1) (b : Fin D → K)
    (hY : ∀ t d, Y t d = (X * Q) t d + b d) :
    (femKMeansTransform R solver obj (Arr2.of Y) >>= fun r => Py.ok r.2) =
      (femKMeansTransform R solver obj (Arr2.of X) >>= fun r => Py.ok r.2) := by
  have h := femKMeansRun_moved hQ hY R solver obj
    { updateParameters := false, updateWeights := true } (A' := none) (Or.inl ⟨rfl, rfl⟩)
  unfold femKMeansTransform
  simp only [Py.bind_assoc, Py.pure_eq, Py.ok_bind]
  revert h
  cases femKMeansRun R solver obj (Arr2.of X) { updateParameters := false, updateWeights := true } <;>
    cases femKMeansRun R solver obj (Arr2.of Y)
      { updateParameters := false, updateWeights := true } <;>
    intro h <;> simp only [PyRel] at h
  · obtain ⟨k, C, C', h1, h2, rfl⟩ := h
    rfl
  · subst h
    rfl
  · rfl

/-! ### Examples -/

/-- A reflection and a shift of the example. -/
example : (!![-1] : Matrix (Fin 1) (Fin 1) ℝ) * !![-1]ᵀ = 1 ∧
    (∀ t d, (!![7; 6; 2] : Matrix (Fin 3) (Fin 1) ℝ) t d =
      ((!![0; 1; 5] : Matrix (Fin 3) (Fin 1) ℝ) * (!![-1] : Matrix (Fin 1) (Fin 1) ℝ)) t d + 7) := by
  constructor
  · ext i j
    fin_cases i; fin_cases j
    simp [Matrix.mul_apply]
  · intro t d
    fin_cases t <;> fin_cases d <;> norm_num [Matrix.mul_apply]

/-- C93 at work: the weights found for the samples 0, 1, 5 are those found for 7, 6, 2. -/
example : ∃ (solver : LPSolver ℝ) (r : Option (Arr2 ℝ) × FEMInfo ℝ),
    (femKMeansTransform demoRngReal solver demoFEM demoFEMData >>= fun r => Py.ok r.2) = Py.ok r ∧
    (femKMeansTransform demoRngReal solver demoFEM (Arr2.of (!![7; 6; 2] : Matrix (Fin 3) (Fin 1) ℝ)) >>=
      fun r => Py.ok r.2) = Py.ok r := by
  obtain ⟨solver, hs⟩ := exists_exact_solver (K := ℝ)
  obtain ⟨r, h⟩ := demoFEM_transform hs
  refine ⟨solver, (r.1.Gamma, r.2), ?_, ?_⟩
  · unfold femKMeansTransform
    rw [h]
    rfl
  · rw [C93_fembv_transform_rigid_motion demoRngReal solver demoFEM
      (!![0; 1; 5] : Matrix (Fin 3) (Fin 1) ℝ) _ !![-1] ?_ (fun _ => 7) ?_]
    · unfold femKMeansTransform
      change (femKMeansRun demoRngReal solver demoFEM demoFEMData _ >>= _) >>= _ = _
      rw [h]
      rfl
    · ext i j
      fin_cases i; fin_cases j
      simp [Matrix.mul_apply]
    · intro t d
      fin_cases t <;> fin_cases d <;> norm_num [Matrix.mul_apply]

end Reor
