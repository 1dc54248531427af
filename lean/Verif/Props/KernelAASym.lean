import Verif.Proofs.KernelAASym
import Verif.Props.KernelAA

/-!
Symmetries of kernel archetypal analysis: adding a constant vector to the data, rotating it, and
relabelling the samples and the components.
-/

namespace Reor

set_option linter.unusedSectionVars false

open scoped BigOperators Matrix
open Spec

variable {K : Type} [Field K] [LinearOrder K] [IsStrictOrderedRing K]
variable {n k : ℕ}

/-! ### C28: row sums -/

/-- C28.  Whatever the line search settings, `delta` and the flags, the rows of the weights and of the
dictionary returned by a fit have sum exactly 1, provided those supplied by the caller have. -/
theorem C28_kaa_row_sums {env : Env K} (hR : env.rng.Lawful) (obj : KAAObj env.rng)
    (A : Matrix (Fin n) (Fin n) K) (hn : 1 ≤ n) (dictionary weights : Option (Arr2 K))
    (kw : InitKwargs) (ud uw : Bool)
    (hd : (obj.init = some "custom" ∨ ud = false) →
      ∀ C, dictionary = some C → ∀ a, ∑ i, C.val a i = 1)
    (hw : (obj.init = some "custom" ∨ uw = false) →
      ∀ W, weights = some W → ∀ i, ∑ a, W.val i a = 1)
    (obj' : KAAObj env.rng) (G : Option (Arr2 K)) (info : FitInfo K)
    (h : kaaFitTransform env obj (Arr2.of A) dictionary weights kw ud uw =
      Py.ok (obj', G, info)) :
    ∃ (k : ℕ) (S : Matrix (Fin n) (Fin k) K) (C : Matrix (Fin k) (Fin n) K),
      G = some (Arr2.of S) ∧ obj'.dictionary_ = some (Arr2.of C) ∧
      (∀ i, ∑ a, S i a = 1) ∧ ∀ a, ∑ i, C a i = 1 := by
  unfold kaaFitTransform at h
  rw [kernelAA_of] at h
  obtain ⟨res, hres, h⟩ := Py.bind_eq_ok.1 h
  obtain ⟨p, start, r, hp, hst, hr, rfl⟩ := kernelAASquare_eq_ok hres
  simp only [Py.pure_eq, Py.ok.injEq, kaaFinish, Prod.mk.injEq] at h
  obtain ⟨rfl, rfl, rfl⟩ := h
  have hk := (checkParams_ok hp).2.2.2.1
  exact ⟨p.1, r.state.S, r.state.C, rfl, rfl,
    kaaIterate_sums (kaaStart_weights_sums hR hk hw hst) (kaaStart_dictionary_sums hR hn hd hst)
      hn hr⟩

/-! ### C82: translations and rotations -/

/-- The supplied factors that a fit uses have rows with sum exactly 1. -/
def ExactStart (init : Option String) (ud uw : Bool) (dictionary weights : Option (Arr2 K)) : Prop :=
  ((init = some "custom" ∨ ud = false) → ∀ C, dictionary = some C → ∀ a, ∑ i, C.val a i = 1) ∧
  ((init = some "custom" ∨ uw = false) → ∀ W, weights = some W → ∀ i, ∑ a, W.val i a = 1)

/-- `delta` is not positive (the default is 0), or the line search has a step floor and contracts. -/
def ScaleSearchEnds {R : Rng K} (obj : KAAObj R) : Prop :=
  obj.delta ≤ 0 ∨
    (0 < obj.ls.sigmaOne ∧ obj.ls.sigmaTwo < 1 ∧ 0 < obj.ls.stepSizeTolerance)

/-- C82.  Adding `u i + u j` to every entry of the kernel changes nothing in a fit or transform: the
same exception or non-termination, or the same weights, dictionary, cost, cost history, number of
iterations and generator state; only the stored kernel differs. -/
theorem C82_kaa_kernel_shift [Archimedean K] {env : Env K} (hR : env.rng.Lawful)
    (obj : KAAObj env.rng) (hdel : ScaleSearchEnds obj) (A B : Matrix (Fin n) (Fin n) K)
    (u : Fin n → K) (hB : ∀ i j, B i j = A i j + u i + u j)
    (dictionary weights : Option (Arr2 K)) (ud uw : Bool) (kw : InitKwargs)
    (hst : ExactStart obj.init ud uw dictionary weights) :
    kernelAA env obj (Arr2.of B) dictionary weights ud uw kw =
      (do
        let r ← kernelAA env obj (Arr2.of A) dictionary weights ud uw kw
        pure ({ r.1 with Kmat := some (Arr2.of B) }, r.2)) := by
  have hB' : B = shiftKernel A u := by
    ext i j
    rw [hB]
    exact add_assoc _ _ _
  subst hB'
  rw [kernelAA_of, kernelAA_of]
  exact kernelAASquare_shift hR obj hdel A u dictionary weights ud uw kw hst.1 hst.2

/-- C82.  For any settings at all the same holds if both fits end. -/
theorem C82_kaa_kernel_shift_both_end {env : Env K} (hR : env.rng.Lawful)
    (obj : KAAObj env.rng) (A B : Matrix (Fin n) (Fin n) K)
    (u : Fin n → K) (hB : ∀ i j, B i j = A i j + u i + u j)
    (dictionary weights : Option (Arr2 K)) (ud uw : Bool) (kw : InitKwargs)
    (hst : ExactStart obj.init ud uw dictionary weights)
    (h1 : kernelAA env obj (Arr2.of A) dictionary weights ud uw kw ≠ Py.diverge)
    (h2 : kernelAA env obj (Arr2.of B) dictionary weights ud uw kw ≠ Py.diverge) :
    kernelAA env obj (Arr2.of B) dictionary weights ud uw kw =
      (do
        let r ← kernelAA env obj (Arr2.of A) dictionary weights ud uw kw
        pure ({ r.1 with Kmat := some (Arr2.of B) }, r.2)) := by
  have hB' : B = shiftKernel A u := by
    ext i j
    rw [hB]
    exact add_assoc _ _ _
  subst hB'
  rw [kernelAA_of] at h1 h2
  rw [kernelAA_of, kernelAA_of]
  exact kernelAASquare_shift_le hR obj A u dictionary weights ud uw kw hst.1 hst.2 h1 h2

/-- The Gram matrix of rotated and translated data. -/
theorem gram_motion {D E : ℕ} (X : Matrix (Fin n) (Fin D) K) (Q : Matrix (Fin D) (Fin E) K)
    (hQ : Q * Qᵀ = 1) (b : Fin E → K) (Y : Matrix (Fin n) (Fin E) K)
    (hY : ∀ i j, Y i j = (X * Q) i j + b j) (i j : Fin n) :
    (Y * Yᵀ) i j = (X * Xᵀ) i j + (∑ l, (X * Q) i l * b l + (∑ l, b l ^ 2) / 2) +
      (∑ l, (X * Q) j l * b l + (∑ l, b l ^ 2) / 2) := by
  have e1 : X * Xᵀ = (X * Q) * (X * Q)ᵀ := by
    rw [Matrix.transpose_mul, Matrix.mul_assoc, ← Matrix.mul_assoc Q, hQ, Matrix.one_mul]
  rw [e1]
  set Z := X * Q with hZ
  rw [Matrix.mul_apply, Matrix.mul_apply]
  simp only [Matrix.transpose_apply, hY]
  have e2 : ∀ l, (Z i l + b l) * (Z j l + b l) =
      Z i l * Z j l + (Z i l * b l + Z j l * b l) + b l ^ 2 := by intro l; ring
  simp only [e2, Finset.sum_add_distrib]
  ring

/-- C82.  `ArchetypalAnalysis` with the default kernel: rotating, embedding in more dimensions and
translating the data changes nothing in a fit except the stored kernel. -/
theorem C82_aa_rigid_motion [Archimedean K] {env : Env K} (hR : env.rng.Lawful)
    (obj : KAAObj env.rng) (hdel : ScaleSearchEnds obj) {D E : ℕ}
    (X : Matrix (Fin n) (Fin D) K) (Q : Matrix (Fin D) (Fin E) K) (hQ : Q * Qᵀ = 1)
    (b : Fin E → K) (Y : Matrix (Fin n) (Fin E) K) (hY : ∀ i j, Y i j = (X * Q) i j + b j)
    (dictionary weights : Option (Arr2 K)) (kw : InitKwargs) (ud uw : Bool)
    (hst : ExactStart obj.init ud uw dictionary weights) :
    aaFitTransform env obj none (Arr2.of Y) dictionary weights kw ud uw =
      (do
        let r ← aaFitTransform env obj none (Arr2.of X) dictionary weights kw ud uw
        pure ({ r.1 with Kmat := some (Arr2.of (Y * Yᵀ)) }, r.2)) := by
  unfold aaFitTransform aaKernel
  simp only [Py.ok_bind]
  change (kernelAA env obj (Arr2.of (Y * Yᵀ)) dictionary weights ud uw kw >>= _) =
    (kernelAA env obj (Arr2.of (X * Xᵀ)) dictionary weights ud uw kw >>= _) >>= _
  rw [C82_kaa_kernel_shift hR obj hdel (X * Xᵀ) (Y * Yᵀ) _ (gram_motion X Q hQ b Y hY) dictionary
    weights ud uw kw hst]
  cases kernelAA env obj (Arr2.of (X * Xᵀ)) dictionary weights ud uw kw <;> rfl

/-- C82.  The same for `transform`: the weights found for new data depend on them only up to a rigid
motion. -/
theorem C82_aa_transform_rigid_motion [Archimedean K] {env : Env K} (hR : env.rng.Lawful)
    (obj : KAAObj env.rng) (hdel : ScaleSearchEnds obj) {D E : ℕ}
    (X : Matrix (Fin n) (Fin D) K) (Q : Matrix (Fin D) (Fin E) K) (hQ : Q * Qᵀ = 1)
    (b : Fin E → K) (Y : Matrix (Fin n) (Fin E) K) (hY : ∀ i j, Y i j = (X * Q) i j + b j)
    (hC : ∀ C, obj.C = some C → ∀ a, ∑ i, C.val a i = 1) :
    aaTransform env obj none (Arr2.of Y) =
      (do
        let r ← aaTransform env obj none (Arr2.of X)
        pure ({ r.1 with Kmat := some (Arr2.of (Y * Yᵀ)) }, r.2)) := by
  unfold aaTransform aaKernel
  simp only [Py.ok_bind]
  change (kernelAA env obj (Arr2.of (Y * Yᵀ)) obj.C none false true {} >>= _) =
    (kernelAA env obj (Arr2.of (X * Xᵀ)) obj.C none false true {} >>= _) >>= _
  rw [C82_kaa_kernel_shift hR obj hdel (X * Xᵀ) (Y * Yᵀ) _ (gram_motion X Q hQ b Y hY) obj.C
    none false true {} ⟨fun _ => hC, fun _ W hW => by simp at hW⟩]
  cases kernelAA env obj (Arr2.of (X * Xᵀ)) obj.C none false true {} <;> rfl

/-- C82.  The archetypes `dictionary.dot(data)` found for the moved data are the moved archetypes. -/
theorem C82_aa_archetypes_move [Archimedean K] {env : Env K} (hR : env.rng.Lawful)
    (obj : KAAObj env.rng) (hdel : ScaleSearchEnds obj) {D E : ℕ} (hn : 1 ≤ n)
    (X : Matrix (Fin n) (Fin D) K) (Q : Matrix (Fin D) (Fin E) K) (hQ : Q * Qᵀ = 1)
    (b : Fin E → K) (Y : Matrix (Fin n) (Fin E) K) (hY : ∀ i j, Y i j = (X * Q) i j + b j)
    (dictionary weights : Option (Arr2 K)) (kw : InitKwargs) (ud uw : Bool)
    (hst : ExactStart obj.init ud uw dictionary weights)
    (o : KAAObj env.rng) (G : Option (Arr2 K)) (info : FitInfo K)
    (h : aaFitTransform env obj none (Arr2.of X) dictionary weights kw ud uw =
      Py.ok (o, G, info)) :
    ∃ (o' : KAAObj env.rng) (k : ℕ) (C : Matrix (Fin k) (Fin n) K),
      aaFitTransform env obj none (Arr2.of Y) dictionary weights kw ud uw = Py.ok (o', G, info) ∧
      o.dictionary_ = some (Arr2.of C) ∧ o'.dictionary_ = some (Arr2.of C) ∧
      ∀ a j, (C * Y) a j = (C * X * Q) a j + b j := by
  obtain ⟨k, S, C, -, hC, -, hsum⟩ := C28_kaa_row_sums hR obj (X * Xᵀ) hn dictionary weights kw ud
    uw hst.1 hst.2 o G info h
  refine ⟨{ o with Kmat := some (Arr2.of (Y * Yᵀ)) }, k, C, ?_, hC, hC, ?_⟩
  · rw [C82_aa_rigid_motion hR obj hdel X Q hQ b Y hY dictionary weights kw ud uw hst, h]
    rfl
  · intro a j
    rw [Matrix.mul_apply, Matrix.mul_assoc, Matrix.mul_apply]
    simp only [hY, mul_add, Finset.sum_add_distrib, ← Finset.sum_mul, hsum, one_mul]

/-! ### C83: relabelling -/

/-- C83.  With a custom start, relabelling the samples (rows and columns of the kernel) and the
components relabels the weights and the dictionary and changes nothing else: the same exception, or
the same cost, cost history and number of iterations. -/
theorem C83_kaa_relabel [Archimedean K] {env : Env K} (obj : KAAObj env.rng)
    (hinit : obj.init = some "custom") (hdel : ScaleSearchEnds obj)
    (A : Matrix (Fin n) (Fin n) K) (C : Matrix (Fin k) (Fin n) K) (S : Matrix (Fin n) (Fin k) K)
    (π : Equiv.Perm (Fin n)) (ρ : Equiv.Perm (Fin k))
    (A' : Matrix (Fin n) (Fin n) K) (hA : ∀ i j, A' i j = A (π i) (π j))
    (C' : Matrix (Fin k) (Fin n) K) (hC : ∀ a i, C' a i = C (ρ a) (π i))
    (S' : Matrix (Fin n) (Fin k) K) (hS : ∀ i a, S' i a = S (π i) (ρ a))
    (ud uw : Bool) (kw : InitKwargs) :
    (kernelAA env obj (Arr2.of A) (some (Arr2.of C)) (some (Arr2.of S)) ud uw kw = Py.diverge ∧
      kernelAA env obj (Arr2.of A') (some (Arr2.of C')) (some (Arr2.of S')) ud uw kw =
        Py.diverge) ∨
    (∃ e, kernelAA env obj (Arr2.of A) (some (Arr2.of C)) (some (Arr2.of S)) ud uw kw =
        Py.raise e ∧
      kernelAA env obj (Arr2.of A') (some (Arr2.of C')) (some (Arr2.of S')) ud uw kw =
        Py.raise e) ∨
    ∃ (o : KAAObj env.rng) (C₁ C₁' : Matrix (Fin k) (Fin n) K) (S₁ S₁' : Matrix (Fin n) (Fin k) K)
      (info : FitInfo K),
      kernelAA env obj (Arr2.of A) (some (Arr2.of C)) (some (Arr2.of S)) ud uw kw =
        Py.ok ({ o with Kmat := some (Arr2.of A), C := some (Arr2.of C₁),
                        S := some (Arr2.of S₁) }, info) ∧
      kernelAA env obj (Arr2.of A') (some (Arr2.of C')) (some (Arr2.of S')) ud uw kw =
        Py.ok ({ o with Kmat := some (Arr2.of A'), C := some (Arr2.of C₁'),
                        S := some (Arr2.of S₁') }, info) ∧
      (∀ a i, C₁' a i = C₁ (ρ a) (π i)) ∧ ∀ i a, S₁' i a = S₁ (π i) (ρ a) := by
  have eA : A' = A.submatrix π π := by ext i j; exact hA i j
  have eC : C' = C.submatrix ρ π := by ext i j; exact hC i j
  have eS : S' = S.submatrix π ρ := by ext i j; exact hS i j
  subst eA eC eS
  simp only [kernelAA_of]
  rcases kernelAASquare_relabel_of obj hinit A C S π ρ ud uw kw fun p _ _ _ _ =>
      kaaIterate_sym_eq (u := 0) (shiftKernel_zero _).symm rfl rfl (Or.inl rfl) hdel with
    h | h | ⟨o, C₁, S₁, info, h1, h2⟩
  · exact Or.inl h
  · exact Or.inr (Or.inl h)
  · exact Or.inr (Or.inr ⟨o, C₁, _, S₁, _, info, h1, h2, fun _ _ => rfl, fun _ _ => rfl⟩)

/-! ### Examples -/

/-- Three points in the plane. -/
def demoPoints : Matrix (Fin 3) (Fin 2) ℚ := !![1, 0; 0, 2; 2, 1]

theorem demoPoints_gram : demoPoints * demoPointsᵀ = demoKernel := by
  ext i j
  fin_cases i <;> fin_cases j <;>
    norm_num [Matrix.mul_apply, Fin.sum_univ_two, demoKernel, demoPoints, Matrix.transpose_apply]

/-- C82 for the fit of the examples: the points turned by a right angle and moved. -/
example : ∃ res res', aaFitTransform demoEnv demoKAA none (Arr2.of demoPoints) none none {} =
      Py.ok res ∧
    aaFitTransform demoEnv demoKAA none (Arr2.of !![5, 8; 3, 7; 4, 9]) none none {} = Py.ok res' ∧
    res'.2 = res.2 := by
  obtain ⟨res, hres⟩ := demo_kaa_fit
  have h1 : aaFitTransform demoEnv demoKAA none (Arr2.of demoPoints) none none {} = Py.ok res := by
    rw [← hres, ← demoPoints_gram]
    rfl
  refine ⟨res, ({ res.1 with
    Kmat := some (Arr2.of ((!![5, 8; 3, 7; 4, 9] : Matrix (Fin 3) (Fin 2) ℚ) *
      (!![5, 8; 3, 7; 4, 9] : Matrix (Fin 3) (Fin 2) ℚ)ᵀ)) }, res.2), h1, ?_, rfl⟩
  rw [C82_aa_rigid_motion demoRng_lawful demoKAA (Or.inl le_rfl) demoPoints
    !![0, 1; -1, 0] ?_ ![5, 7] !![5, 8; 3, 7; 4, 9] ?_ none none {} true true
    ⟨by simp, by simp⟩, h1]
  · rfl
  · ext i j
    fin_cases i <;> fin_cases j <;>
      norm_num [Matrix.mul_apply, Fin.sum_univ_two, Matrix.transpose_apply, Matrix.one_apply]
  · intro i j
    fin_cases i <;> fin_cases j <;>
      norm_num [Matrix.mul_apply, Fin.sum_univ_two, demoPoints]

/-- A fit of the example kernel from a custom start. -/
theorem demo_custom_kaa : ∃ res, kernelAA demoEnv { demoKAA with init := some "custom" }
    (Arr2.of demoKernel) (some (Arr2.of demoC)) (some (Arr2.of demoW)) true true {} =
      Py.ok res := by
  rw [kernelAA_of]
  have hs : kaaStart demoEnv demoKernel 2 (some "custom") (some (Arr2.of demoC))
      (some (Arr2.of demoW)) true true {} demoKAA.randomState.start =
        Py.ok ((demoC, demoW), demoKAA.randomState.start) := by
    have h1 : ∀ i, iscloseOne (∑ j, demoW i j) := by
      intro i
      rw [(demoW_rowStochastic i).2]
      norm_num [iscloseOne]
    have h2 : ∀ i, iscloseOne (∑ j, demoC i j) := by
      intro i
      rw [(demoC_rowStochastic i).2]
      norm_num [iscloseOne]
    unfold kaaStart
    rw [if_pos rfl, kaaCheckInitWeights_eq, kaaCheckInitDictionary_eq, gpnhCheckInitWeights_of,
      gpnhCheckInitWeights_of, if_neg (show ¬ ((3 : ℕ) = 0 ∨ (2 : ℕ) = 0) by norm_num),
      if_neg (show ¬ ((2 : ℕ) = 0 ∨ (3 : ℕ) = 0) by norm_num), if_pos h1, if_pos h2]
    rfl
  have hp : checkParams (defaultComponents demoKAA.nComponents 3) demoKAA.maxIterations
      demoKAA.tolerance = Py.ok (2, 4, 1/1000) := by
    simp [checkParams, demoKAA, defaultComponents]
  have hm : demoKAA.ls.memory = 1 := rfl
  obtain ⟨r, hr⟩ := kaaIterate_succeeds (cfg := demoKAA.ls) (by norm_num [demoKAA, demoLS])
    (by norm_num [demoKAA, demoLS]) (by norm_num [demoKAA, demoLS]) (by norm_num [demoKAA, demoLS])
    rfl (by norm_num [demoKAA, demoLS]) (by norm_num [demoKAA, demoLS]) (by norm_num)
    (by norm_num) (le_refl (0 : ℚ)) (A := demoKernel)
    (by ext i j; exact demoKernel_symm j i) (require := true) (tol := 1/1000) (maxIter := 4)
    (by norm_num) (ud := true) (uw := true)
    (kaa_ready_initial hm demoW_rowStochastic demoC_rowStochastic)
  exact ⟨_, kernelAASquare_of_steps (obj := { demoKAA with init := some "custom" }) hp hs hr⟩

/-- C83 for that fit: samples 0 and 2 and the two components exchanged. -/
example : ∃ o info, kernelAA demoEnv { demoKAA with init := some "custom" }
    (Arr2.of (demoKernel.submatrix (Equiv.swap 0 2) (Equiv.swap 0 2)))
    (some (Arr2.of (demoC.submatrix (Equiv.swap 0 1) (Equiv.swap 0 2))))
    (some (Arr2.of (demoW.submatrix (Equiv.swap 0 2) (Equiv.swap 0 1)))) true true {} =
      Py.ok (o, info) := by
  obtain ⟨res, hres⟩ := demo_custom_kaa
  rcases C83_kaa_relabel { demoKAA with init := some "custom" } rfl (Or.inl le_rfl) demoKernel demoC
    demoW (Equiv.swap 0 2) (Equiv.swap 0 1) _ (fun _ _ => rfl) _ (fun _ _ => rfl) _
    (fun _ _ => rfl) true true {} with ⟨h, -⟩ | ⟨e, h, -⟩ | ⟨o, C₁, C₁', S₁, S₁', info, -, h, -⟩
  · rw [hres] at h
    simp at h
  · rw [hres] at h
    simp at h
  · exact ⟨_, info, h⟩

end Reor
