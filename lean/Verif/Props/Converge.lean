import Verif.Props.KernelAA
import Verif.Proofs.ConvergeKAA

/-!
C87: with a small tolerance and enough iterations the factors returned by (kernel) archetypal
analysis are, up to any prescribed accuracy, optimal given each other.
-/

namespace Reor

set_option linter.unusedSectionVars false

open scoped BigOperators Matrix
open Spec

variable {K : Type} [Field K] [LinearOrder K] [IsStrictOrderedRing K]
variable {n k : ℕ}


/-- The kernel of data satisfies the conditions on kernels. -/
theorem linear_kernel_bounds {D : ℕ} (X : Matrix (Fin n) (Fin D) K) {B : K}
    (hX : ∀ t, ∑ d, X t d ^ 2 ≤ B) :
    (∀ i j, (X * Xᵀ) i j = (X * Xᵀ) j i) ∧
    (∀ i j, 0 ≤ (X * Xᵀ) j j - 2 * (X * Xᵀ) i j + (X * Xᵀ) i i) ∧
    (∀ i j, |(X * Xᵀ) i j| ≤ B) := by
  have hm : ∀ i j, (X * Xᵀ) i j = ∑ d, X i d * X j d := fun i j => by
    simp [Matrix.mul_apply]
  refine ⟨fun i j => ?_, fun i j => ?_, fun i j => ?_⟩
  · rw [hm, hm]
    exact Finset.sum_congr rfl fun d _ => mul_comm _ _
  · rw [hm, hm, hm]
    have : ∑ d, X j d * X j d - 2 * ∑ d, X i d * X j d + ∑ d, X i d * X i d =
        ∑ d, (X i d - X j d) ^ 2 := by
      rw [Finset.mul_sum, ← Finset.sum_sub_distrib, ← Finset.sum_add_distrib]
      exact Finset.sum_congr rfl fun d _ => by ring
    rw [this]
    exact Finset.sum_nonneg fun d _ => sq_nonneg _
  · rw [hm]
    refine abs_le_of_sq_le_sq ?_ ((Finset.sum_nonneg fun d _ => sq_nonneg (X i d)).trans (hX i))
    refine (Finset.sum_mul_sq_le_sq_mul_sq Finset.univ (fun d => X i d) (fun d => X j d)).trans ?_
    rw [sq B]
    exact mul_le_mul (hX i) (hX j) (Finset.sum_nonneg fun d _ => sq_nonneg _)
      ((Finset.sum_nonneg fun d _ => sq_nonneg (X i d)).trans (hX i))

/-- C87.  For every symmetric positive semidefinite kernel and every accuracy `ε` there is a tolerance,
and for every smaller positive tolerance a number of iterations, such that every fit that returns has
a cost that no other dictionary with the returned weights, and no other weights with the returned
dictionary, undercuts by more than `ε`.  Neither number depends on the start, the random numbers or
`delta`.  The step floor may be positive, if it is small compared with the entries of the kernel
(`Floor`; a floor of zero always is). -/
theorem C87_kaa_fit_near_optimal [Archimedean K] (cfg : LSConfig K)
    (h1 : 0 < cfg.sigmaOne) (h2 : cfg.sigmaTwo < 1) (hg0 : 0 < cfg.gamma) (hg1 : cfg.gamma < 1)
    (ha0 : 0 < cfg.alphaMin) (ha1 : cfg.alphaMin ≤ cfg.alphaMax)
    (hmem : cfg.memory = 1) (hn : 1 ≤ n) (hk : 1 ≤ k)
    (A : Matrix (Fin n) (Fin n) K) (hA : ∀ i j, A i j = A j i)
    (hpsd : ∀ v : Fin n → K, 0 ≤ ∑ i, ∑ j, v i * A i j * v j)
    (E : K) (hE : ∀ i j, |A i j| ≤ E)
    (hf : cfg.Floor (max 1 cfg.alphaMax * (E * ((n : K) ^ 2 + k)))) (ε : K) (hε : 0 < ε) :
    ∃ tol : K, 0 < tol ∧ ∀ t : K, 0 < t → t ≤ tol → ∃ M : ℕ, ∀ m : ℕ, M ≤ m →
      ∀ {env : Env K}, env.rng.Lawful → ∀ (obj : KAAObj env.rng), obj.ls = cfg →
      obj.nComponents = .int k → obj.tolerance = .real t → obj.maxIterations = .int m →
      ∀ (dictionary weights : Option (Arr2 K)) (kw : InitKwargs) (ud uw : Bool),
      ((obj.init = some "custom" ∨ ud = false) →
        ∀ C, dictionary = some C → RowStochastic C.val) →
      ((obj.init = some "custom" ∨ uw = false) →
        ∀ W, weights = some W → RowStochastic W.val) →
      ∀ (obj' : KAAObj env.rng) (G : Option (Arr2 K)) (info : FitInfo K),
      kaaFitTransform env obj (Arr2.of A) dictionary weights kw ud uw = Py.ok (obj', G, info) →
      ∃ (S : Matrix (Fin n) (Fin k) K) (C : Matrix (Fin k) (Fin n) K),
        G = some (Arr2.of S) ∧ obj'.dictionary_ = some (Arr2.of C) ∧
        obj'.cost_ = some (kaaCost A S C) ∧ RowStochastic S ∧ RowStochastic C ∧
        (ud = true → ∀ B, RowStochastic B → kaaCost A S C ≤ kaaCost A S B + ε) ∧
        (uw = true → ∀ W, RowStochastic W → kaaCost A S C ≤ kaaCost A W C + ε) := by
  have hA' : Aᵀ = A := by ext i j; exact (hA i j).symm
  obtain ⟨tol, htol, key⟩ := kernelAASquare_near_optimal (cfg := cfg) (k := k)
    ⟨h1, h2, hg0, hg1, ha0, ha1⟩ hmem hk hn hA' hpsd hE hf hε
  refine ⟨tol, htol, fun t ht0 ht => ?_⟩
  obtain ⟨M, hM⟩ := key t ht0 ht
  refine ⟨M, fun m hm env hR obj hls hc htl hmi dictionary weights kw ud uw hd hw obj' G info h => ?_⟩
  unfold kaaFitTransform at h
  rw [kernelAA_of] at h
  obtain ⟨res, hres, h⟩ := Py.bind_eq_ok.1 h
  obtain ⟨S, C, e1, e2, e3, hS, hC, -, n1, n2⟩ :=
    hM m hm hR obj hls hc htl hmi dictionary weights kw ud uw hd hw res hres
  simp only [Py.pure_eq, Py.ok.injEq, kaaFinish, Prod.mk.injEq] at h
  obtain ⟨rfl, rfl, rfl⟩ := h
  exact ⟨S, C, e1, e2, congrArg some e3, hS, hC, n1, n2⟩

/-- C87 for `transform`: the weights are, up to `ε`, the best weights for the dictionary of the model. -/
theorem C87_kaa_transform_near_optimal [Archimedean K] (cfg : LSConfig K)
    (h1 : 0 < cfg.sigmaOne) (h2 : cfg.sigmaTwo < 1) (hg0 : 0 < cfg.gamma) (hg1 : cfg.gamma < 1)
    (ha0 : 0 < cfg.alphaMin) (ha1 : cfg.alphaMin ≤ cfg.alphaMax)
    (hmem : cfg.memory = 1) (hn : 1 ≤ n) (hk : 1 ≤ k)
    (A : Matrix (Fin n) (Fin n) K) (hA : ∀ i j, A i j = A j i)
    (hpsd : ∀ v : Fin n → K, 0 ≤ ∑ i, ∑ j, v i * A i j * v j)
    (E : K) (hE : ∀ i j, |A i j| ≤ E)
    (hf : cfg.Floor (max 1 cfg.alphaMax * (E * ((n : K) ^ 2 + k)))) (ε : K) (hε : 0 < ε) :
    ∃ tol : K, 0 < tol ∧ ∀ t : K, 0 < t → t ≤ tol → ∃ M : ℕ, ∀ m : ℕ, M ≤ m →
      ∀ {env : Env K}, env.rng.Lawful → ∀ (obj : KAAObj env.rng), obj.ls = cfg →
      obj.nComponents = .int k → obj.tolerance = .real t → obj.maxIterations = .int m →
      (∀ C, obj.C = some C → RowStochastic C.val) →
      ∀ (obj' : KAAObj env.rng) (G : Option (Arr2 K)) (info : FitInfo K),
      kaaTransform env obj (Arr2.of A) = Py.ok (obj', G, info) →
      ∃ (S : Matrix (Fin n) (Fin k) K) (C : Matrix (Fin k) (Fin n) K),
        G = some (Arr2.of S) ∧ obj.C = some (Arr2.of C) ∧ RowStochastic S ∧
        ∀ W, RowStochastic W → kaaCost A S C ≤ kaaCost A W C + ε := by
  have hA' : Aᵀ = A := by ext i j; exact (hA i j).symm
  obtain ⟨tol, htol, key⟩ := kernelAASquare_near_optimal (cfg := cfg) (k := k)
    ⟨h1, h2, hg0, hg1, ha0, ha1⟩ hmem hk hn hA' hpsd hE hf hε
  refine ⟨tol, htol, fun t ht0 ht => ?_⟩
  obtain ⟨M, hM⟩ := key t ht0 ht
  refine ⟨M, fun m hm env hR obj hls hc htl hmi hobj obj' G info h => ?_⟩
  unfold kaaTransform at h
  rw [kernelAA_of] at h
  obtain ⟨res, hres, h⟩ := Py.bind_eq_ok.1 h
  obtain ⟨S, C, e1, e2, e3, hS, hC, hkeep, n1, n2⟩ :=
    hM m hm hR obj hls hc htl hmi _ _ _ _ _ (fun _ => hobj) (by simp) res hres
  simp only [Py.pure_eq, Py.ok.injEq, Prod.mk.injEq] at h
  obtain ⟨rfl, rfl, rfl⟩ := h
  exact ⟨S, C, e1, hkeep rfl rfl, hS, n2 rfl⟩

/-- C87 for `ArchetypalAnalysis` with the default kernel: for every data matrix the squared residual
is, up to `ε`, as small as the other factor permits. -/
theorem C87_aa_fit_near_optimal [Archimedean K] {D : ℕ} (cfg : LSConfig K)
    (h1 : 0 < cfg.sigmaOne) (h2 : cfg.sigmaTwo < 1) (hg0 : 0 < cfg.gamma) (hg1 : cfg.gamma < 1)
    (ha0 : 0 < cfg.alphaMin) (ha1 : cfg.alphaMin ≤ cfg.alphaMax)
    (hmem : cfg.memory = 1) (hn : 1 ≤ n) (hk : 1 ≤ k)
    (X : Matrix (Fin n) (Fin D) K) (E : K) (hE : ∀ t, ∑ d, X t d ^ 2 ≤ E)
    (hf : cfg.Floor (max 1 cfg.alphaMax * (E * ((n : K) ^ 2 + k)))) (ε : K) (hε : 0 < ε) :
    ∃ tol : K, 0 < tol ∧ ∀ t : K, 0 < t → t ≤ tol → ∃ M : ℕ, ∀ m : ℕ, M ≤ m →
      ∀ {env : Env K}, env.rng.Lawful → ∀ (obj : KAAObj env.rng), obj.ls = cfg →
      obj.nComponents = .int k → obj.tolerance = .real t → obj.maxIterations = .int m →
      ∀ (dictionary weights : Option (Arr2 K)) (kw : InitKwargs) (ud uw : Bool),
      ((obj.init = some "custom" ∨ ud = false) →
        ∀ C, dictionary = some C → RowStochastic C.val) →
      ((obj.init = some "custom" ∨ uw = false) →
        ∀ W, weights = some W → RowStochastic W.val) →
      ∀ (obj' : KAAObj env.rng) (G : Option (Arr2 K)) (info : FitInfo K),
      aaFitTransform env obj none (Arr2.of X) dictionary weights kw ud uw = Py.ok (obj', G, info) →
      ∃ (S : Matrix (Fin n) (Fin k) K) (C : Matrix (Fin k) (Fin n) K),
        G = some (Arr2.of S) ∧ obj'.dictionary_ = some (Arr2.of C) ∧ RowStochastic S ∧
        RowStochastic C ∧
        (ud = true → ∀ B, RowStochastic B →
          ∑ t, ∑ d, (X t d - ∑ i, S t i * ∑ j, C i j * X j d) ^ 2 ≤
            ∑ t, ∑ d, (X t d - ∑ i, S t i * ∑ j, B i j * X j d) ^ 2 + ε) ∧
        (uw = true → ∀ W, RowStochastic W →
          ∑ t, ∑ d, (X t d - ∑ i, S t i * ∑ j, C i j * X j d) ^ 2 ≤
            ∑ t, ∑ d, (X t d - ∑ i, W t i * ∑ j, C i j * X j d) ^ 2 + ε) := by
  obtain ⟨tol, htol, key⟩ := C87_kaa_fit_near_optimal (k := k) cfg h1 h2 hg0 hg1 ha0 ha1 hmem hn
    hk (X * Xᵀ) (fun i j => by simp only [Matrix.mul_apply, Matrix.transpose_apply, mul_comm])
    (fun v => by
      have e : ∑ i, ∑ j, v i * (X * Xᵀ) i j * v j = ∑ d, (∑ i, v i * X i d) ^ 2 := by
        have e1 : ∀ i, ∑ j, v i * (X * Xᵀ) i j * v j = ∑ d, ∑ j, v i * X i d * (v j * X j d) := by
          intro i
          rw [Finset.sum_comm]
          refine Finset.sum_congr rfl fun j _ => ?_
          rw [Matrix.mul_apply, Finset.mul_sum, Finset.sum_mul]
          refine Finset.sum_congr rfl fun d _ => ?_
          rw [Matrix.transpose_apply]
          ring
        rw [Finset.sum_congr rfl fun i _ => e1 i, Finset.sum_comm]
        refine Finset.sum_congr rfl fun d _ => ?_
        rw [pow_two, Finset.sum_mul_sum]
      rw [e]
      positivity) E (linear_kernel_bounds X hE).2.2 hf ε hε
  refine ⟨tol, htol, fun t ht0 ht => ?_⟩
  obtain ⟨M, hM⟩ := key t ht0 ht
  refine ⟨M, fun m hm env hR obj hls hc htl hmi dictionary weights kw ud uw hd hw obj' G info h => ?_⟩
  obtain ⟨S, C, e1, e2, -, hS, hC, n1, n2⟩ :=
    hM m hm hR obj hls hc htl hmi dictionary weights kw ud uw hd hw obj' G info h
  simp only [C30_aa_objective] at n1 n2
  exact ⟨S, C, e1, e2, hS, hC, n1, n2⟩

/-! ### Instances -/

theorem demoKernel_psd (v : Fin 3 → ℚ) : 0 ≤ ∑ i, ∑ j, v i * demoKernel i j * v j := by
  have e : ∑ i, ∑ j, v i * demoKernel i j * v j =
      (v 0 + 2 * v 2) ^ 2 + (2 * v 1 + v 2) ^ 2 := by
    simp [demoKernel, Fin.sum_univ_three]
    ring
  rw [e]
  positivity

/-- C87 with a fit that returns: two archetypes of three points, accuracy 1/100. -/
example : ∃ (obj obj' : KAAObj demoEnv.rng) (G : Option (Arr2 ℚ)) (info : FitInfo ℚ)
    (S : Matrix (Fin 3) (Fin 2) ℚ) (C : Matrix (Fin 2) (Fin 3) ℚ),
    kaaFitTransform demoEnv obj (Arr2.of demoKernel) none none {} = Py.ok (obj', G, info) ∧
    obj'.cost_ = some (kaaCost demoKernel S C) ∧
    (∀ B, RowStochastic B → kaaCost demoKernel S C ≤ kaaCost demoKernel S B + 1 / 100) ∧
    (∀ W, RowStochastic W → kaaCost demoKernel S C ≤ kaaCost demoKernel W C + 1 / 100) := by
  obtain ⟨tol, htol, key⟩ := C87_kaa_fit_near_optimal (k := 2) demoKAA.ls
    (by norm_num [demoKAA, demoLS]) (by norm_num [demoKAA, demoLS]) (by norm_num [demoKAA, demoLS])
    (by norm_num [demoKAA, demoLS]) (by norm_num [demoKAA, demoLS])
    (by norm_num [demoKAA, demoLS]) rfl (by norm_num) (by norm_num) demoKernel demoKernel_symm
    demoKernel_psd 5 (by intro i j; fin_cases i <;> fin_cases j <;> norm_num [demoKernel])
    (LSConfig.Floor.of_zero rfl (by norm_num [demoKAA, demoLS]) (by norm_num [demoKAA, demoLS]) _)
    (1 / 100) (by norm_num)
  obtain ⟨M, hM⟩ := key tol htol le_rfl
  set obj : KAAObj demoEnv.rng :=
    { demoKAA with tolerance := .real tol, maxIterations := .int ((M + 1 : ℕ) : ℤ) } with hobj
  obtain ⟨⟨o, G, i⟩, h⟩ := C33_kaa_default_fit_returns demoRng_lawful demoRng_uniform_pos obj
    (by norm_num [hobj, demoKAA, demoLS]) (by norm_num [hobj, demoKAA, demoLS])
    (by norm_num [hobj, demoKAA, demoLS]) (by norm_num [hobj, demoKAA, demoLS]) rfl
    (by norm_num [hobj, demoKAA, demoLS]) (by norm_num [hobj, demoKAA, demoLS]) rfl
    (by norm_num [hobj, demoKAA]) (Or.inl rfl)
    ⟨⟨2, rfl, by norm_num⟩, ⟨_, rfl, by positivity⟩, Or.inr ⟨_, rfl, htol.le⟩⟩ rfl (by norm_num)
    demoKernel demoKernel_symm demoKernel_dist none none
  obtain ⟨S, C, -, -, hc, -, -, n1, n2⟩ := hM (M + 1) (Nat.le_succ _) demoRng_lawful obj rfl rfl rfl rfl
    none none {} true true (by simp) (by simp) o G i h
  exact ⟨obj, o, G, i, S, C, h, hc, n1 rfl, n2 rfl⟩

end Reor
