import Verif.Proofs.VARXSym
import Verif.Props.FEMVARX

/-!
FEM-BV-VARX of rotated data, and `transform` of rotated and translated data.
-/

namespace Reor

set_option linter.unusedSectionVars false

open scoped BigOperators Matrix
open Spec

variable {R : Rng ℝ} {solver : LPSolver ℝ} {lstsq : LstSq}
variable {n D : ℕ}

/-! ### C110: rotations and translations -/

/-- C110.  Without external factors: if the data are rotated by `Q`, then `fit_transform` ends in the
same way: the same exception, or the same weights, cost, history, number of iterations, failures of the
solver and generator state, and coefficients that are rotated too: the intercepts as the data are, the
matrices into `Qᵀ A Q`.  For every start, solver and total variation bound, equal memories or not, and
whatever is in freshly allocated memory; the least-squares routine returns the minimiser of least
norm. -/
theorem C110_femvarx_rotation (hl : lstsq.MinNorm) (mem mem' : Memory) (obj : FEMVARXObj R)
    (X Y : Matrix (Fin n) (Fin D) ℝ) (Q : Matrix (Fin D) (Fin D) ℝ) (hQ : Q * Qᵀ = 1) (hY : Y = X * Q)
    (args : FEMVARXArgs) (hu : args.externalFactors = none) :
    PyRel (fun r r' => ∃ (k L : ℕ) (mu : Matrix (Fin k) (Fin D) ℝ)
        (A : Fin k → Fin L → Matrix (Fin D) (Fin D) ℝ),
        r.1.mu = some (Arr2.of mu) ∧ (r.1.A = if 0 < L then some ⟨k, L, D, D, A⟩ else obj.A) ∧
        r' = ({ r.1 with
          mu := some (Arr2.of (mu * Q))
          A := if 0 < L then some ⟨k, L, D, D, fun i l => Qᵀ * A i l * Q⟩ else obj.A }, r.2))
      (femVARXFitTransform R solver lstsq mem obj (Arr2.of X) args)
      (femVARXFitTransform R solver lstsq mem' obj (Arr2.of Y) args) := by
  have hY' : RowsMoved Q 0 X Y := fun t d => by rw [hY]; simp
  have h := VARXCorr.run (R := R) (solver := solver) (u := none) (u' := none) (args := args) hu rfl
    (turnedCorr (E := 0) (M := 1) args.updateParameters mem mem' hQ (by simp) hl) rfl
    (fun c p => varxModel_moved_none mem mem' 1 0 hY' c (.int p) (.int 0)) obj
  have hargs : ({ args with externalFactors := none } : FEMVARXArgs) = args := by rw [← hu]
  rw [hargs] at h
  unfold femVARXFitTransform
  refine h.bind fun r r' hr => PyRel.ok ?_
  obtain ⟨k, L, mu, mu', A, A', B, B', h1, h2, h3, h4, h5, h6, rfl⟩ := hr
  refine ⟨k, L, mu, A, h4, h5, ?_⟩
  have e1 : mu' = mu * Q := by
    ext i d
    rw [show mu' i d = (Qᵀ *ᵥ mu i) d from congrFun (h1 i) d]
    simp only [Matrix.mulVec, dotProduct, Matrix.transpose_apply, Matrix.mul_apply]
    exact Finset.sum_congr rfl fun l _ => mul_comm _ _
  have e2 : A' = fun i l => Qᵀ * A i l * Q := funext fun i => funext fun l => h2 i l
  subst e1 e2
  refine congrArg₂ Prod.mk ?_ rfl
  have h6 : r.1.B0 = obj.B0 := h6
  obtain ⟨⟨⟩, _⟩ := r
  simp only at h6
  subst h6
  rfl

/-- C110.  With external factors, which are rotated by a matrix of their own (for instance, not at
all): the coefficients of the external factors become `Qᵀ B M`. -/
theorem C110_femvarx_rotation_exog (hl : lstsq.MinNorm) (mem mem' : Memory) (obj : FEMVARXObj R)
    (X Y : Matrix (Fin n) (Fin D) ℝ) (Q : Matrix (Fin D) (Fin D) ℝ) (hQ : Q * Qᵀ = 1) (hY : Y = X * Q)
    {m E : ℕ} (U V : Matrix (Fin m) (Fin E) ℝ) (M : Matrix (Fin E) (Fin E) ℝ) (hM : M * Mᵀ = 1)
    (hV : V = U * M) (args : FEMVARXArgs) :
    PyRel (fun r r' => ∃ (k L : ℕ) (mu : Matrix (Fin k) (Fin D) ℝ)
        (A : Fin k → Fin L → Matrix (Fin D) (Fin D) ℝ) (B : Fin k → Matrix (Fin D) (Fin E) ℝ),
        r.1.mu = some (Arr2.of mu) ∧ (r.1.A = if 0 < L then some ⟨k, L, D, D, A⟩ else obj.A) ∧
        r.1.B0 = some (Arr3.of B) ∧
        r' = ({ r.1 with
          mu := some (Arr2.of (mu * Q))
          A := if 0 < L then some ⟨k, L, D, D, fun i l => Qᵀ * A i l * Q⟩ else obj.A
          B0 := some (Arr3.of fun i => Qᵀ * B i * M) }, r.2))
      (femVARXFitTransform R solver lstsq mem obj (Arr2.of X)
        { args with externalFactors := some (Arr2.of U) })
      (femVARXFitTransform R solver lstsq mem' obj (Arr2.of Y)
        { args with externalFactors := some (Arr2.of V) }) := by
  have hY' : RowsMoved Q 0 X Y := fun t d => by rw [hY]; simp
  have hV' : RowsMoved M 0 U V := fun t d => by rw [hV]; simp
  have h := VARXCorr.run (R := R) (solver := solver) (u := some (Arr2.of U)) (u' := some (Arr2.of V))
    (args := { args with externalFactors := some (Arr2.of U) }) rfl rfl
    (turnedCorr (E := E) args.updateParameters mem mem' hQ hM hl) (varxCheckExog_some U V)
    (fun c p => varxModel_moved_some mem mem' hY' hV' c (.int p) (.int 0)) obj
  unfold femVARXFitTransform
  refine h.bind fun r r' hr => PyRel.ok ?_
  obtain ⟨k, L, mu, mu', A, A', (B : Fin k → Matrix (Fin D) (Fin E) ℝ),
    (B' : Fin k → Matrix (Fin D) (Fin E) ℝ), h1, h2, h3, h4, h5, h6, rfl⟩ := hr
  refine ⟨k, L, mu, A, B, h4, h5, h6, ?_⟩
  have e1 : mu' = mu * Q := by
    ext i d
    rw [show mu' i d = (Qᵀ *ᵥ mu i) d from congrFun (h1 i) d]
    simp only [Matrix.mulVec, dotProduct, Matrix.transpose_apply, Matrix.mul_apply]
    exact Finset.sum_congr rfl fun l _ => mul_comm _ _
  have e2 : A' = fun i l => Qᵀ * A i l * Q := funext fun i => funext fun l => h2 i l
  have e3 : B' = fun i => Qᵀ * B i * M := funext fun i => h3 i
  subst e1 e2 e3
  rfl

/-- C110.  `transform`, which fits one model anew to all data, does not notice rotations and
translations of the data at all.  Here it is enough that the least-squares routine returns some
minimiser. -/
theorem C110_transform_rigid_motion (hl : lstsq.Exact)
    (htot : ∀ m n r a b, ∃ x, lstsq m n r a b = Py.ok x) (mem mem' : Memory) (obj : FEMVARXObj R)
    (X Y : Matrix (Fin n) (Fin D) ℝ) (Q : Matrix (Fin D) (Fin D) ℝ) (hQ : Q * Qᵀ = 1) (b : Fin D → ℝ)
    (hY : ∀ t d, Y t d = (X * Q) t d + b d) :
    femVARXTransform R solver lstsq mem' obj (Arr2.of Y) =
      femVARXTransform R solver lstsq mem obj (Arr2.of X) := by
  have h := VARXCorr.run (R := R) (solver := solver) (u := none) (u' := none)
    (args := { updateParameters := false, updateWeights := true }) rfl rfl
    (movedCorr (E := 0) (M := 1) (N := 1) (b := b) (c := 0) mem mem' hQ (by simp) hl htot) rfl
    (fun c p => varxModel_moved_none mem mem' 1 0 hY c (.int p) (.int 0)) obj
  unfold femVARXTransform
  revert h
  cases femVARXRun R solver lstsq mem obj (Arr2.of X)
      { updateParameters := false, updateWeights := true } <;>
    cases femVARXRun R solver lstsq mem' obj (Arr2.of Y)
      { updateParameters := false, updateWeights := true } <;>
    intro h <;> simp only [PyRel] at h
  · rename_i r r'
    obtain ⟨k, L, mu, mu', A, A', B, B', h1, h2, h3, h4, h5, h6, rfl⟩ := h
    have e1 : mu' = mu := funext fun i => h1 i
    have e2 : A' = A := funext fun i => funext fun l => h2 i l
    subst e1 e2
    have h6 : r.1.B0 = obj.B0 := h6
    obtain ⟨⟨⟩, _⟩ := r
    simp only at h4 h5 h6
    subst h4 h5 h6
    rfl
  · subst h
    rfl
  · rfl

/-! ### Examples -/

theorem LstSq.MinNorm.total (hl : lstsq.MinNorm) : ∀ m n r a b, ∃ x, lstsq m n r a b = Py.ok x := by
  intro m n r a b
  obtain ⟨x, hx, -⟩ := hl m n r a b
  exact ⟨x, hx⟩

/-- The reflection of the line. -/
def demoMirror : Matrix (Fin 1) (Fin 1) ℝ := fun _ _ => -1

theorem demo_reflection : demoMirror * demoMirrorᵀ = 1 := by
  ext i j
  fin_cases i; fin_cases j
  simp [Matrix.mul_apply, demoMirror]

/-- C110 at work: the example and its mirror image, with mirrored external factors, get the same
weights and report. -/
example (mem : Memory) : ∃ (solver : LPSolver ℝ) (lstsq : LstSq)
    (r r' : FEMVARXObj demoRngReal × Option (Arr2 ℝ) × FEMInfo ℝ), lstsq.MinNorm ∧
    femVARXFitTransform demoRngReal solver lstsq mem demoVARX (Arr2.of varxDemo) (demoVARXArgs true) =
      Py.ok r ∧
    femVARXFitTransform demoRngReal solver lstsq mem demoVARX (Arr2.of (varxDemo * demoMirror))
      { demoVARXArgs true with externalFactors := some (Arr2.of (varxDemoU * demoMirror)) } = Py.ok r' ∧
    r'.2 = r.2 ∧ r'.1.Gamma = r.1.Gamma := by
  obtain ⟨solver, hs⟩ := exists_exact_solver (K := ℝ)
  obtain ⟨lstsq, hl⟩ := exists_minNorm_lstsq
  obtain ⟨r0, h⟩ := demoVARX_fit (mem := mem) hs hl.total true
  have hfit : ∃ r, femVARXFitTransform demoRngReal solver lstsq mem demoVARX
      (Arr2.of varxDemo) (demoVARXArgs true) = Py.ok r := by
    unfold femVARXFitTransform
    rw [h, Py.ok_bind]
    exact ⟨_, rfl⟩
  obtain ⟨r, hr⟩ := hfit
  have hrel := C110_femvarx_rotation_exog (solver := solver) hl mem mem demoVARX varxDemo
    (varxDemo * demoMirror) demoMirror demo_reflection rfl varxDemoU (varxDemoU * demoMirror) demoMirror
    demo_reflection rfl (demoVARXArgs true)
  have e : ({ demoVARXArgs true with externalFactors := some (Arr2.of varxDemoU) } : FEMVARXArgs) =
      demoVARXArgs true := rfl
  rw [e, hr] at hrel
  revert hrel
  cases hr' : femVARXFitTransform demoRngReal solver lstsq mem demoVARX (Arr2.of (varxDemo * demoMirror))
      { demoVARXArgs true with externalFactors := some (Arr2.of (varxDemoU * demoMirror)) } with
  | ok r' =>
    intro hrel
    simp only [PyRel] at hrel
    obtain ⟨k, L, mu, A, B, -, -, -, rfl⟩ := hrel
    exact ⟨solver, lstsq, r, _, hl, hr, hr', rfl, rfl⟩
  | raise e => intro hrel; simp only [PyRel] at hrel
  | diverge => intro hrel; simp only [PyRel] at hrel

/-- `transform` of the example, and of its mirror image moved by 7. -/
example (mem : Memory) : ∃ (solver : LPSolver ℝ) (lstsq : LstSq)
    (r : FEMVARXObj demoRngReal × Option (Arr2 ℝ) × FEMInfo ℝ),
    femVARXTransform demoRngReal solver lstsq mem demoVARX (Arr2.of varxDemo) = Py.ok r ∧
    femVARXTransform demoRngReal solver lstsq mem demoVARX
      (Arr2.of fun t d => (varxDemo * demoMirror : Matrix (Fin 4) (Fin 1) ℝ) t d + 7) = Py.ok r := by
  obtain ⟨solver, lstsq, hs, hls, he, hr, htot⟩ := exists_exact_tools
  obtain ⟨r, h⟩ := demoVARX_transform (mem := mem) hs htot
  refine ⟨solver, lstsq, r, h, ?_⟩
  rw [C110_transform_rigid_motion hls htot mem mem demoVARX varxDemo _ demoMirror demo_reflection
    (fun _ => 7) fun t d => rfl]
  exact h

end Reor
