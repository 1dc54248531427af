import Verif.Proofs.VARX
import Verif.Proofs.Rel
import Mathlib.Analysis.InnerProductSpace.Projection.Minimal
import Mathlib.Analysis.InnerProductSpace.PiL2
import Mathlib.Topology.Algebra.Module.FiniteDimension

/-!
The fits of `FEMBVVARXLocalLinearModel`: what they return, and that they minimise the weighted squared
prediction error if the least-squares routine does what it promises.
-/

set_option linter.unusedSectionVars false

namespace Reor

open scoped BigOperators
open Spec

/-! ### Least squares -/

/-- A least-squares routine whose results minimise the objective. -/
def LstSq.Exact (lstsq : LstSq) : Prop :=
  ∀ m n r a b x, lstsq m n r a b = Py.ok x → ∀ x', lsError a b x ≤ lsError a b x'

/-- One column of the least-squares problem has a solution. -/
theorem exists_least_column {m n : ℕ} (a : Matrix (Fin m) (Fin n) ℝ) (b : Fin m → ℝ) :
    ∃ x : Fin n → ℝ, ∀ x' : Fin n → ℝ,
      ∑ t, (b t - ∑ j, a t j * x j) ^ 2 ≤ ∑ t, (b t - ∑ j, a t j * x' j) ^ 2 := by
  let f : (Fin n → ℝ) →ₗ[ℝ] EuclideanSpace ℝ (Fin m) :=
    (WithLp.linearEquiv 2 ℝ (Fin m → ℝ)).symm.toLinearMap ∘ₗ a.mulVecLin
  have hf : ∀ x t, f x t = ∑ j, a t j * x j := fun x t => rfl
  let U := LinearMap.range f
  have hU : IsComplete (U : Set (EuclideanSpace ℝ (Fin m))) :=
    U.complete_of_finiteDimensional
  let v : EuclideanSpace ℝ (Fin m) := (WithLp.linearEquiv 2 ℝ (Fin m → ℝ)).symm b
  have hv : ∀ t, v t = b t := fun t => rfl
  obtain ⟨w, ⟨x, rfl⟩, hmin⟩ := Submodule.exists_norm_eq_iInf_of_complete_subspace U hU v
  refine ⟨x, fun x' => ?_⟩
  have hle : ‖v - f x‖ ≤ ‖v - f x'‖ := by
    rw [hmin]
    exact ciInf_le ⟨0, by rintro _ ⟨y, rfl⟩; exact norm_nonneg _⟩ (⟨f x', x', rfl⟩ : U)
  have hsq : ∀ x, ‖v - f x‖ ^ 2 = ∑ t, (b t - ∑ j, a t j * x j) ^ 2 := by
    intro x
    rw [EuclideanSpace.norm_sq_eq]
    refine Finset.sum_congr rfl fun t _ => ?_
    rw [Real.norm_eq_abs, sq_abs]
    rfl
  rw [← hsq, ← hsq]
  exact pow_le_pow_left₀ (norm_nonneg _) hle 2

theorem exists_least {m n r : ℕ} (a : Matrix (Fin m) (Fin n) ℝ) (b : Matrix (Fin m) (Fin r) ℝ) :
    ∃ x : Matrix (Fin n) (Fin r) ℝ, ∀ x', lsError a b x ≤ lsError a b x' := by
  choose f hf using fun c => exists_least_column a fun t => b t c
  refine ⟨fun j c => f c j, fun x' => ?_⟩
  unfold lsError frobSq
  refine (le_of_eq Finset.sum_comm).trans (le_trans ?_ (le_of_eq Finset.sum_comm))
  exact Finset.sum_le_sum fun c _ => hf c fun j => x' j c

/-- There is a least-squares routine that always succeeds. -/
theorem exists_exact_lstsq : ∃ lstsq : LstSq, lstsq.Exact ∧
    ∀ m n r a b, ∃ x, lstsq m n r a b = Py.ok x := by
  choose f hf using fun (m n r : ℕ) (a : Matrix (Fin m) (Fin n) ℝ) (b : Matrix (Fin m) (Fin r) ℝ) =>
    exists_least a b
  refine ⟨fun m n r a b => Py.ok (f m n r a b), ?_, fun m n r a b => ⟨_, rfl⟩⟩
  intro m n r a b x hx x'
  obtain rfl := Py.ok.inj hx
  exact hf m n r a b x'

/-! ### Results of the fits -/

section Fits

variable {D E : ℕ} {mem : Memory} {m : VARXModel D E} {lstsq : LstSq}

theorem npInv_cases (S : Option (Matrix (Fin D) (Fin D) ℝ)) :
    (∃ T, npInv S = Py.ok T) ∨ npInv S = Py.raise .linAlgError := by
  cases S with
  | none => exact Or.inl ⟨_, rfl⟩
  | some S =>
    unfold npInv
    simp only
    by_cases h : S.det = 0
    · exact Or.inr (if_pos h)
    · exact Or.inl ⟨_, if_neg h⟩

/-- A fit reads all its results off the same parameters. -/
structure VARXFit.From (f : VARXFit m) (params : Matrix (Fin m.nCols) (Fin D) ℝ) : Prop where
  residuals : f.residuals = m.residuals params
  mu : f.mu = m.readMu params
  A : f.A = m.readA params
  B : f.B = m.readB params
  B0 : f.B0 = m.readB0 params

theorem finish_eq_ok {params : Matrix (Fin m.nCols) (Fin D) ℝ}
    {S : Option (Matrix (Fin D) (Fin D) ℝ)} {f : VARXFit m} (h : m.finish params S = Py.ok f) :
    f.From params ∧ f.sigmaU = S ∧ npInv S = Py.ok f.sigmaUInv := by
  unfold VARXModel.finish at h
  obtain ⟨inv, hinv, h⟩ := Py.bind_eq_ok.1 h
  obtain rfl := Py.ok.inj h
  exact ⟨⟨rfl, rfl, rfl, rfl, rfl⟩, rfl, hinv⟩

theorem finish_raise {params : Matrix (Fin m.nCols) (Fin D) ℝ}
    {S : Option (Matrix (Fin D) (Fin D) ℝ)} {e : PyErr} (h : m.finish params S = Py.raise e) :
    e = .linAlgError := by
  unfold VARXModel.finish at h
  rcases Py.bind_eq_raise.1 h with h | ⟨_, _, h⟩
  · rcases npInv_cases S with ⟨T, hT⟩ | hT <;> rw [hT] at h <;> simp_all
  · simp at h

theorem finish_ne_diverge {params : Matrix (Fin m.nCols) (Fin D) ℝ}
    {S : Option (Matrix (Fin D) (Fin D) ℝ)} : m.finish params S ≠ Py.diverge := by
  unfold VARXModel.finish
  rcases npInv_cases S with ⟨T, hT⟩ | hT <;> rw [hT] <;> simp

theorem fitPlain_eq_ok {f : VARXFit m} (h : m.fitPlain lstsq = Py.ok f) :
    ∃ params, lstsq _ _ _ m.z m.target = Py.ok params ∧ f.From params := by
  unfold VARXModel.fitPlain at h
  obtain ⟨params, hp, h⟩ := Py.bind_eq_ok.1 h
  exact ⟨params, hp, (finish_eq_ok h).1⟩

theorem fitWeighted_eq_ok {weights : Fin m.n → ℝ} {f : VARXFit m}
    (h : m.fitWeighted lstsq weights = Py.ok f) :
    (∀ t, 0 ≤ m.tailWeights weights t) ∧
    ∃ params, lstsq _ _ _ (scaleRows (fun t => Real.sqrt (m.tailWeights weights t)) m.z)
      (scaleRows (fun t => Real.sqrt (m.tailWeights weights t)) m.target) = Py.ok params ∧
      f.From params := by
  unfold VARXModel.fitWeighted at h
  by_cases c : ∃ t, m.tailWeights weights t < 0
  · rw [if_pos c] at h
    simp at h
  · rw [if_neg c] at h
    push Not at c
    obtain ⟨params, hp, h⟩ := Py.bind_eq_ok.1 h
    exact ⟨c, params, hp, (finish_eq_ok h).1⟩

/-- Every fit reads its results off some parameters. -/
theorem fit_from {weights : Option (Σ l : ℕ, Fin l → ℝ)} {f : VARXFit m}
    (h : m.fit lstsq weights = Py.ok f) : ∃ params, f.From params := by
  cases weights with
  | none =>
    obtain ⟨params, -, hf⟩ := fitPlain_eq_ok (h : m.fitPlain lstsq = Py.ok f)
    exact ⟨params, hf⟩
  | some w =>
    unfold VARXModel.fit at h
    simp only at h
    by_cases c : m.n = w.1
    · rw [dif_pos c] at h
      obtain ⟨-, params, -, hf⟩ := fitWeighted_eq_ok h
      exact ⟨params, hf⟩
    · rw [dif_neg c] at h
      simp at h

/-! ### The objective -/

theorem scaleRows_mul {l c r : ℕ} (w : Fin l → ℝ) (a : Matrix (Fin l) (Fin c) ℝ)
    (x : Matrix (Fin c) (Fin r) ℝ) (t : Fin l) (d : Fin r) :
    (scaleRows w a * x) t d = w t * (a * x) t d := by
  rw [Matrix.mul_apply, Matrix.mul_apply, Finset.mul_sum]
  exact Finset.sum_congr rfl fun j _ => mul_assoc _ _ _

/-- A sum over the times from `L` on. -/
theorem sum_from_lag {n L : ℕ} (f : Fin n → ℝ) :
    (∑ t : Fin n, if L ≤ t then f t else 0) =
      ∑ t : Fin (n - L), f ⟨t + L, by have := t.2; omega⟩ := by
  rw [← Finset.sum_filter]
  refine (Finset.sum_bij (fun (t : Fin (n - L)) _ => (⟨t + L, by have := t.2; omega⟩ : Fin n))
    ?_ ?_ ?_ ?_).symm
  · intro t _
    simp
  · intro a _ b _ h
    have := congrArg Fin.val h
    simp only at this
    ext
    omega
  · intro t ht
    rw [Finset.mem_filter] at ht
    refine ⟨⟨t - L, by have := t.2; omega⟩, Finset.mem_univ _, ?_⟩
    ext
    simp only
    have := ht.2
    omega
  · intro t _
    rfl

/-- The weighted least-squares objective is the weighted squared prediction error of the coefficients
read off the parameters. -/
theorem lsError_eq (hm : m.Made mem) {w : Fin m.n → ℝ} (hw : ∀ t, 0 ≤ m.tailWeights w t)
    (params : Matrix (Fin m.nCols) (Fin D) ℝ) :
    lsError (scaleRows (fun t => Real.sqrt (m.tailWeights w t)) m.z)
      (scaleRows (fun t => Real.sqrt (m.tailWeights w t)) m.target) params =
    weightedError m.presample w m.y (varxPrediction (m.readMu params) (m.readA params)
      (m.readB params) (m.readB0 params) (rowSeq m.y) (rowSeq m.u)) := by
  unfold weightedError
  rw [sum_from_lag fun t => w t * sqDist (fun d => m.y t d) (varxPrediction (m.readMu params)
    (m.readA params) (m.readB params) (m.readB0 params) (rowSeq m.y) (rowSeq m.u) t)]
  unfold lsError frobSq
  refine Finset.sum_congr rfl fun t _ => ?_
  unfold sqDist
  rw [Finset.mul_sum]
  refine Finset.sum_congr rfl fun d _ => ?_
  rw [Matrix.sub_apply, scaleRows_mul, z_mul_params hm]
  change (Real.sqrt (m.tailWeights w t) * m.target t d - _) ^ 2 = _
  rw [← mul_sub, mul_pow, Real.sq_sqrt (hw t)]
  rfl

theorem lsError_eq_plain (hm : m.Made mem) (params : Matrix (Fin m.nCols) (Fin D) ℝ) :
    lsError m.z m.target params =
    weightedError m.presample (fun _ => 1) m.y (varxPrediction (m.readMu params) (m.readA params)
      (m.readB params) (m.readB0 params) (rowSeq m.y) (rowSeq m.u)) := by
  have hone : ∀ {c : ℕ} (a : Matrix (Fin (m.n - m.presample)) (Fin c) ℝ),
      scaleRows (fun t => Real.sqrt (m.tailWeights (fun _ => 1) t)) a = a := by
    intro c a
    ext t j
    change Real.sqrt 1 * a t j = a t j
    rw [Real.sqrt_one, one_mul]
  rw [← lsError_eq hm (w := fun _ => 1) (fun t => by unfold VARXModel.tailWeights; norm_num), hone,
    hone]

end Fits

end Reor
