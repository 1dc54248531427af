import Verif.Props.GPNH
import Verif.Props.KernelAA
import Verif.Proofs.Stationary

/-!
C86: an update leaves its factor unchanged exactly when the factor is already optimal given the
other one.
-/

namespace Reor

set_option linter.unusedSectionVars false

open scoped BigOperators Matrix
open Spec

variable {K : Type} [Field K] [LinearOrder K] [IsStrictOrderedRing K]
variable {T D n k : ℕ}

/-- C86.  A completed GPNH weights update leaves the weights unchanged exactly if no other weights
on the simplex give a smaller cost with the same dictionary. -/
theorem C86_gpnh_weights_fixed_iff_optimal (cfg : LSConfig K) (h1 : 0 < cfg.sigmaOne) (eps : K)
    (hk : 1 ≤ k) (s s' : GPNHState T D k K) (hW : RowStochastic s.Gamma) (ha : 0 < s.alphaGamma)
    (h : s.updateWeights cfg eps = Py.ok s') :
    s'.Gamma = s.Gamma ↔
      ∀ W, RowStochastic W → gpnhCost eps s.X s.Gamma s.S ≤ gpnhCost eps s.X W s.S := by
  obtain ⟨lam, hl⟩ := GPNHState.updateWeights_post h
  rw [hl.Gamma, add_smul_eq_self_iff (hl.range.pos_sigma h1), sub_eq_zero,
    projectRows_step_fixed_iff hk hW ha]
  refine minimal_iff_slopes (f := fun W => gpnhCost eps s.X W s.S)
    (q := fun H => frobSq (H * s.S) / ((D : K) * (T : K))) hW (fun H t => ?_) (fun H => ?_)
  · rw [gpnhCost_add_W, inner_comm]
  · have := frobSq_nonneg (H * s.S)
    positivity

/-- C86.  A completed GPNH dictionary update leaves the dictionary unchanged exactly if no other
dictionary gives a smaller cost with the same weights. -/
theorem C86_gpnh_dictionary_fixed_iff_optimal (cfg : LSConfig K) (h1 : 0 < cfg.sigmaOne) (eps : K)
    (he : 0 ≤ eps) (s s' : GPNHState T D k K) (ha : 0 < s.alphaS)
    (h : s.updateDictionary cfg eps = Py.ok s') :
    s'.S = s.S ↔ ∀ S, gpnhCost eps s.X s.Gamma s.S ≤ gpnhCost eps s.X s.Gamma S := by
  obtain ⟨lam, hl⟩ := GPNHState.updateDictionary_post h
  rw [hl.S, add_smul_eq_self_iff (hl.range.pos_sigma h1), neg_eq_zero, smul_eq_zero,
    or_iff_right ha.ne']
  refine minimal_iff_gradient (f := fun S => gpnhCost eps s.X s.Gamma S)
    (q := fun H => gpnhCost eps 0 s.Gamma H) (fun H t => ?_) (gpnhCost_convex_S he _)
  rw [gpnhCost_add_S, inner_comm]

/-- C86.  A completed KernelAA weights update leaves the weights unchanged exactly if no other
weights on the simplex give a smaller cost with the same dictionary; the kernel matrix is symmetric
and positive semidefinite. -/
theorem C86_kaa_weights_fixed_iff_optimal (cfg : LSConfig K) (h1 : 0 < cfg.sigmaOne) (delta : K)
    (hk : 1 ≤ k) (A : Matrix (Fin n) (Fin n) K) (hA : ∀ i j, A i j = A j i)
    (hpsd : ∀ v : Fin n → K, 0 ≤ ∑ i, ∑ j, v i * A i j * v j) (s s' : KAAState n k K)
    (hr : KAAReach cfg delta A s) (hS : RowStochastic s.S) (ha : 0 < s.alphaS)
    (h : s.updateWeights cfg delta = Py.ok s') :
    s'.S = s.S ↔ ∀ W, RowStochastic W → kaaCost A s.S s.C ≤ kaaCost A W s.C := by
  have hA' : Aᵀ = A := by ext i j; exact (hA i j).symm
  obtain ⟨lam, hl⟩ := KAAState.updateWeights_post hr.good h
  rw [hl.S, add_smul_eq_self_iff (hl.range.pos_sigma h1), sub_eq_zero,
    projectRows_step_fixed_iff hk hS ha, hr.good.Kmat]
  exact minimal_iff_slopes (f := fun W => kaaCost A W s.C)
    (q := fun H => ((Hᵀ * H) * (s.C * A * s.Cᵀ)).trace) hS (fun H t => kaaCost_add_S hA' _ _ _ _)
    (fun H => trace_gram_nonneg hpsd _ _)

/-- C86.  The same for the KernelAA dictionary. -/
theorem C86_kaa_dictionary_fixed_iff_optimal (cfg : LSConfig K) (h1 : 0 < cfg.sigmaOne) (delta : K)
    (hn : 1 ≤ n) (A : Matrix (Fin n) (Fin n) K) (hA : ∀ i j, A i j = A j i)
    (hpsd : ∀ v : Fin n → K, 0 ≤ ∑ i, ∑ j, v i * A i j * v j) (s s' : KAAState n k K)
    (hr : KAAReach cfg delta A s) (hC : RowStochastic s.C) (ha : 0 < s.alphaC)
    (h : s.updateDictionary cfg delta = Py.ok s') :
    s'.C = s.C ↔ ∀ B, RowStochastic B → kaaCost A s.S s.C ≤ kaaCost A s.S B := by
  have hA' : Aᵀ = A := by ext i j; exact (hA i j).symm
  obtain ⟨lam, hl⟩ := KAAState.updateDictionary_post hr.good h
  rw [hl.C, add_smul_eq_self_iff (hl.range.pos_sigma h1), sub_eq_zero,
    projectRows_step_fixed_iff hn hC ha, hr.good.Kmat]
  exact minimal_iff_slopes (f := fun B => kaaCost A s.S B)
    (q := fun H => ((s.Sᵀ * s.S) * (H * A * Hᵀ)).trace) hC (fun H t => kaaCost_add_C hA' _ _ _ _)
    (fun H => trace_gram_nonneg hpsd _ _)

/-- C86 needs the kernel to be positive semidefinite: for the indefinite kernel with rows (0, 1) and
(1, 0) and both factors the identity matrix the weights update changes nothing, although exchanging
the rows of the weights lowers the cost. -/
theorem C86_kaa_indefinite_fixed_not_optimal :
    ∃ (A : Matrix (Fin 2) (Fin 2) ℚ) (s s' : KAAState 2 2 ℚ) (W : Matrix (Fin 2) (Fin 2) ℚ),
      (∀ i j, A i j = A j i) ∧ KAAReach demoLS 0 A s ∧ RowStochastic s.S ∧ RowStochastic s.C ∧
      s.updateWeights demoLS 0 = Py.ok s' ∧ s'.S = s.S ∧ RowStochastic W ∧
      kaaCost A W s.C < kaaCost A s.S s.C := by
  have hr : KAAReach demoLS 0 !![0, 1; 1, 0]
    (KAAState.initializeWorkspace (k := 2) demoLS !![0, 1; 1, 0] 1 1) := .start _ _
  have h1 : RowStochastic (1 : Matrix (Fin 2) (Fin 2) ℚ) := by
    intro i
    refine ⟨fun j => ?_, ?_⟩
    · fin_cases i <;> fin_cases j <;> norm_num
    · simp [Matrix.one_apply]
  obtain ⟨-, s', hs'⟩ := C09_kaa demoLS (by norm_num [demoLS]) 219
    (by norm_num [demoLS]) (by norm_num [demoLS]) _ _ _ hr
  refine ⟨!![0, 1; 1, 0], _, s', !![0, 1; 1, 0], ?_, hr, h1, h1, hs', ?_, ?_, ?_⟩
  · intro i j
    fin_cases i <;> fin_cases j <;> rfl
  · obtain ⟨lam, hl⟩ := KAAState.updateWeights_post hr.good hs'
    have hg : kaaGradS (!![0, 1; 1, 0] : Matrix (Fin 2) (Fin 2) ℚ) (1 : Matrix (Fin 2) (Fin 2) ℚ)
        1 = 0 := by
      unfold kaaGradS
      ext i j
      fin_cases i <;> fin_cases j <;> simp
    rw [hl.S]
    change (1 : Matrix (Fin 2) (Fin 2) ℚ) + lam • (simplexProjectRows (1 - (1 : ℚ) •
      kaaGradS (!![0, 1; 1, 0] : Matrix (Fin 2) (Fin 2) ℚ) 1 1) - 1) = 1
    rw [hg, smul_zero, sub_zero, projectRows_fixed (by norm_num) h1, sub_self, smul_zero, add_zero]
  · intro i
    refine ⟨fun j => ?_, ?_⟩
    · fin_cases i <;> fin_cases j <;> norm_num
    · fin_cases i <;> simp [Fin.sum_univ_two]
  · norm_num [kaaCost, KAAState.initializeWorkspace, Fin.sum_univ_two, Matrix.one_apply]

/-! ### Instances -/

/-- C86 at a state that is optimal: the weights reproduce the data. -/
example : ∃ s s' : GPNHState 2 1 2 ℚ, s.updateWeights demoLS 0 = Py.ok s' ∧
    s.S = !![0; 2] ∧ s'.Gamma = s.Gamma := by
  have hW : RowStochastic (!![1/2, 1/2; 1/4, 3/4] : Matrix (Fin 2) (Fin 2) ℚ) := by
    intro i
    refine ⟨fun j => ?_, ?_⟩
    · fin_cases i <;> fin_cases j <;> norm_num
    · fin_cases i <;> norm_num [Fin.sum_univ_two]
  obtain ⟨s', hs'⟩ := (C09_gpnh demoLS (by norm_num [demoLS]) 219 (by norm_num [demoLS]) 0
    (GPNHState.initializeWorkspace demoLS !![1; 3/2] !![1/2, 1/2; 1/4, 3/4] !![0; 2])).2
    (by simp [GPNHState.initializeWorkspace, demoLS])
  refine ⟨_, s', hs', rfl, (C86_gpnh_weights_fixed_iff_optimal demoLS (by norm_num [demoLS]) 0
    (by norm_num) _ _ hW (by norm_num [GPNHState.initializeWorkspace]) hs').2 fun W _ => ?_⟩
  have h0 : gpnhCost (0 : ℚ) !![1; 3/2] !![1/2, 1/2; 1/4, 3/4] !![0; 2] = 0 := by
    norm_num [gpnhCost_eq, frobSq, Fin.sum_univ_two, Matrix.mul_apply]
  refine le_of_eq_of_le h0 ?_
  rw [gpnhCost_eq]
  have := frobSq_nonneg ((GPNHState.initializeWorkspace demoLS (!![1; 3/2] : Matrix (Fin 2) (Fin 1) ℚ)
    !![1/2, 1/2; 1/4, 3/4] !![0; 2]).X - W * (GPNHState.initializeWorkspace demoLS
    (!![1; 3/2] : Matrix (Fin 2) (Fin 1) ℚ) !![1/2, 1/2; 1/4, 3/4] !![0; 2]).S)
  rw [zero_mul, add_zero]
  positivity

/-- C86 at a state that is not optimal: the dictionary moves. -/
example : ∃ s', demoState.updateDictionary demoLS 0 = Py.ok s' ∧ s'.S ≠ demoState.S := by
  obtain ⟨s', hs'⟩ := (C09_gpnh demoLS (by norm_num [demoLS]) 219 (by norm_num [demoLS]) 0
    demoState).1 (by simp [demoState, GPNHState.initializeWorkspace, demoLS])
  refine ⟨s', hs', fun h => ?_⟩
  have h1 := (C86_gpnh_dictionary_fixed_iff_optimal demoLS (by norm_num [demoLS]) 0 le_rfl _ _
    (by norm_num [demoState, GPNHState.initializeWorkspace]) hs').1 h !![-3; 5]
  norm_num [demoState, GPNHState.initializeWorkspace, gpnhCost_eq, frobSq, Fin.sum_univ_two,
    Matrix.mul_apply] at h1

/-- C86: a kernel and a state of a fit as required. -/
example : (∀ v : Fin 3 → ℚ, 0 ≤ ∑ i, ∑ j, v i * demoKernel i j * v j) ∧
    ∃ s s' t' : KAAState 3 2 ℚ, KAAReach demoLS (1/2) demoKernel s ∧ RowStochastic s.S ∧
      RowStochastic s.C ∧ 0 < s.alphaS ∧ 0 < s.alphaC ∧ s.updateWeights demoLS (1/2) = Py.ok s' ∧
      s.updateDictionary demoLS (1/2) = Py.ok t' := by
  refine ⟨fun v => ?_, ?_⟩
  · have : ∑ i, ∑ j, v i * demoKernel i j * v j =
        (v 0 + 2 * v 2) ^ 2 + (2 * v 1 + v 2) ^ 2 := by
      simp [Fin.sum_univ_three, demoKernel]
      ring
    rw [this]
    positivity
  · have h0 : KAAReach demoLS (1/2) demoKernel
      (KAAState.initializeWorkspace demoLS demoKernel !![1, 0; 1/2, 1/2; 0, 1]
        !![1, 0, 0; 0, 0, 1]) := .start _ _
    obtain ⟨⟨s1, h1⟩, ⟨s2, h2⟩⟩ := C09_kaa demoLS (by norm_num [demoLS]) 219
      (by norm_num [demoLS]) (by norm_num [demoLS]) _ _ _ h0
    refine ⟨_, s2, s1, h0, ?_, ?_, ?_, ?_, h2, h1⟩
    · intro i
      refine ⟨fun j => ?_, ?_⟩
      · fin_cases i <;> fin_cases j <;> norm_num [KAAState.initializeWorkspace]
      · fin_cases i <;> norm_num [KAAState.initializeWorkspace, Fin.sum_univ_two]
    · intro i
      refine ⟨fun j => ?_, ?_⟩
      · fin_cases i <;> fin_cases j <;> norm_num [KAAState.initializeWorkspace]
      · simp only [Fin.sum_univ_three]
        fin_cases i <;> norm_num [KAAState.initializeWorkspace] <;> rfl
    · norm_num [KAAState.initializeWorkspace]
    · norm_num [KAAState.initializeWorkspace]

end Reor
