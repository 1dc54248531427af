import Verif.Proofs.KernelAAObj

/-!
Two KernelAA fits side by side: the second kernel is the first one with the samples relabelled and
with `u i + u j` added to its entries, the components are relabelled.
-/

namespace Reor

set_option linter.unusedSectionVars false

open scoped BigOperators Matrix
open Spec

variable {K : Type} [Field K] [LinearOrder K] [IsStrictOrderedRing K]
variable {n k : ℕ}

/-! ### Line searches with repeatable trials -/

/-- Two line searches whose trials depend only on the step and have the same costs. -/
theorem lineSearch_retry {σ τ : Type} {cfg : LSConfig K} {trial : σ → K → σ × K}
    {trial' : τ → K → τ × K} (h1 : Retriable trial) (h2 : Retriable trial') {s : σ} {t : τ}
    (hc : ∀ a, (trial s a).2 = (trial' t a).2) {mem : List K} {f0 δ : K} :
    PyRel (fun r r' => r.mem = r'.mem ∧ r.stepSize = r'.stepSize ∧
        r.state = (trial s r.stepSize).1 ∧ r'.state = (trial' t r.stepSize).1)
      (lineSearch cfg trial mem s f0 δ) (lineSearch cfg trial' mem t f0 δ) := by
  have h := lineSearch_rel (cfg := cfg) (trial := trial) (trial' := trial') (mem := mem) (f0 := f0)
    (δ := δ) (R := fun s' t' => (∀ a, trial s' a = trial s a) ∧ ∀ a, trial' t' a = trial' t a)
    (s := s) (t := t) ?_ ⟨fun _ => rfl, fun _ => rfl⟩
  · refine h.imp fun r r' hr hr' hp => ?_
    obtain ⟨-, hm, hs, -⟩ := hp
    refine ⟨hm, hs, ?_, ?_⟩
    · exact (congrArg Prod.fst (lineSearch_spec h1 hr).2.2.2.1).symm
    · rw [hs]
      exact (congrArg Prod.fst (lineSearch_spec h2 hr').2.2.2.1).symm
  · rintro s' t' a ⟨e1, e2⟩
    refine ⟨⟨fun b => ?_, fun b => ?_⟩, ?_⟩
    · rw [h1]; exact e1 b
    · rw [h2]; exact e2 b
    · rw [e1, e2]; exact hc a

/-! ### Relabelling -/

theorem inner_submatrix {m p : ℕ} (π : Equiv.Perm (Fin m)) (ρ : Equiv.Perm (Fin p))
    (M N : Matrix (Fin m) (Fin p) K) :
    inner (M.submatrix π ρ) (N.submatrix π ρ) = inner M N := by
  unfold inner
  rw [← Equiv.sum_comp π (fun i => ∑ j, M i j * N i j)]
  refine Finset.sum_congr rfl fun i _ => ?_
  exact Equiv.sum_comp ρ (fun j => M (π i) j * N (π i) j)

theorem trace_submatrix (π : Equiv.Perm (Fin n)) (A : Matrix (Fin n) (Fin n) K) :
    (A.submatrix π π).trace = A.trace := by
  unfold Matrix.trace
  rw [← Equiv.sum_comp π (fun i => A.diag i)]
  rfl

theorem projectRows_submatrix {m p : ℕ} (π : Equiv.Perm (Fin m)) (ρ : Equiv.Perm (Fin p))
    (M : Matrix (Fin m) (Fin p) K) :
    simplexProjectRows (M.submatrix π ρ) = (simplexProjectRows M).submatrix π ρ := by
  ext i a
  have hp : 1 ≤ p := Fin.pos a
  have e1 := congrFun (projectRows_apply (M.submatrix π ρ) i) a
  have e2 := congrFun (projectRows_apply M (π i)) (ρ a)
  rw [Matrix.submatrix_apply]
  refine e1.trans (Eq.trans ?_ e2.symm)
  exact congrFun (project_perm hp (fun j => M (π i) j) ρ) a

theorem projectRows_shift {m p : ℕ} (M : Matrix (Fin m) (Fin p) K) (c : Fin m → K) :
    simplexProjectRows (fun i a => M i a + c i) = simplexProjectRows M := by
  ext i a
  have hp : 1 ≤ p := Fin.pos a
  have e1 := congrFun (projectRows_apply (fun i a => M i a + c i) i) a
  have e2 := congrFun (projectRows_apply M i) a
  refine e1.trans (Eq.trans ?_ e2.symm)
  exact congrFun (project_shift hp (fun j => M i j) (c i)) a

theorem kaaCost_submatrix (π : Equiv.Perm (Fin n)) (ρ : Equiv.Perm (Fin k))
    (A : Matrix (Fin n) (Fin n) K) (S : Matrix (Fin n) (Fin k) K) (C : Matrix (Fin k) (Fin n) K) :
    kaaCost (A.submatrix π π) (S.submatrix π ρ) (C.submatrix ρ π) = kaaCost A S C := by
  rw [kaaCost_eq_trace, kaaCost_eq_trace, trace_submatrix]
  simp only [Matrix.transpose_submatrix, Matrix.submatrix_mul_equiv, trace_submatrix]

theorem kaaGradS_submatrix (π : Equiv.Perm (Fin n)) (ρ : Equiv.Perm (Fin k))
    (A : Matrix (Fin n) (Fin n) K) (S : Matrix (Fin n) (Fin k) K) (C : Matrix (Fin k) (Fin n) K) :
    kaaGradS (A.submatrix π π) (S.submatrix π ρ) (C.submatrix ρ π) =
      (kaaGradS A S C).submatrix π ρ := by
  unfold kaaGradS
  simp only [Matrix.transpose_submatrix, Matrix.submatrix_mul_equiv]
  rfl

theorem kaaGradC_submatrix (π : Equiv.Perm (Fin n)) (ρ : Equiv.Perm (Fin k))
    (A : Matrix (Fin n) (Fin n) K) (S : Matrix (Fin n) (Fin k) K) (C : Matrix (Fin k) (Fin n) K) :
    kaaGradC (A.submatrix π π) (S.submatrix π ρ) (C.submatrix ρ π) =
      (kaaGradC A S C).submatrix ρ π := by
  unfold kaaGradC
  simp only [Matrix.transpose_submatrix, Matrix.submatrix_mul_equiv]
  rfl

/-! ### Adding `u i + u j` -/

/-- The kernel with `u i + u j` added. -/
def shiftKernel (A : Matrix (Fin n) (Fin n) K) (u : Fin n → K) : Matrix (Fin n) (Fin n) K :=
  fun i j => A i j + (u i + u j)

theorem kaaCost_shift {A : Matrix (Fin n) (Fin n) K} {u : Fin n → K} {S : Matrix (Fin n) (Fin k) K}
    {C : Matrix (Fin k) (Fin n) K} (hS : ∀ i, ∑ a, S i a = 1) (hC : ∀ a, ∑ i, C a i = 1) :
    kaaCost (shiftKernel A u) S C = kaaCost A S C := by
  unfold kaaCost
  refine Finset.sum_congr rfl fun t _ => ?_
  set W : Fin n → K := fun j => ∑ i, S t i * C i j with hW
  have h1 : ∑ j, W j = 1 := by
    simp only [hW]
    rw [Finset.sum_comm]
    simp only [← Finset.mul_sum, hC, mul_one, hS]
  have e1 : ∑ j, W j * shiftKernel A u j t = ∑ j, W j * A j t + (∑ j, W j * u j + u t) := by
    simp only [shiftKernel, mul_add, Finset.sum_add_distrib, ← Finset.sum_mul, h1, one_mul]
  have e2 : ∑ i, ∑ j, W i * shiftKernel A u i j * W j =
      ∑ i, ∑ j, W i * A i j * W j + 2 * ∑ j, W j * u j := by
    have e3 : ∀ i j, W i * shiftKernel A u i j * W j =
        W i * A i j * W j + (W i * u i * W j + W i * (W j * u j)) := by
      intro i j; unfold shiftKernel; ring
    simp only [e3, Finset.sum_add_distrib, ← Finset.mul_sum, h1, mul_one, ← Finset.sum_mul, one_mul]
    ring
  rw [e1, e2]
  unfold shiftKernel
  ring

theorem kaaGradS_shift {A : Matrix (Fin n) (Fin n) K} {u : Fin n → K} {S : Matrix (Fin n) (Fin k) K}
    {C : Matrix (Fin k) (Fin n) K} (hS : ∀ i, ∑ a, S i a = 1) (hC : ∀ a, ∑ i, C a i = 1) :
    kaaGradS (shiftKernel A u) S C = fun i a => kaaGradS A S C i a +
      (2 * ∑ b, S i b * (∑ j, C b j * u j) - 2 * u i) := by
  have e1 : ∀ a j, (C * shiftKernel A u) a j = (C * A) a j + (∑ i, C a i * u i + u j) := by
    intro a j
    simp only [Matrix.mul_apply, shiftKernel, mul_add, Finset.sum_add_distrib, ← Finset.sum_mul, hC,
      one_mul]
  have e2 : ∀ a b, (C * shiftKernel A u * Cᵀ) a b = (C * A * Cᵀ) a b +
      (∑ i, C a i * u i + ∑ i, C b i * u i) := by
    intro a b
    rw [Matrix.mul_apply, Matrix.mul_apply]
    simp only [e1, Matrix.transpose_apply, add_mul, Finset.sum_add_distrib, ← Finset.mul_sum, hC,
      mul_one]
    congr 2
    exact Finset.sum_congr rfl fun i _ => mul_comm _ _
  have e3 : ∀ i a, ((shiftKernel A u)ᵀ * Cᵀ) i a = (Aᵀ * Cᵀ) i a + (∑ j, C a j * u j + u i) := by
    intro i a
    rw [← Matrix.transpose_mul, ← Matrix.transpose_mul]
    exact e1 a i
  ext i a
  unfold kaaGradS
  simp only [Matrix.add_apply, Matrix.smul_apply, smul_eq_mul, e3]
  have e4 : (S * (C * shiftKernel A u * Cᵀ)) i a = (S * (C * A * Cᵀ)) i a +
      (∑ b, S i b * (∑ j, C b j * u j) + ∑ j, C a j * u j) := by
    rw [Matrix.mul_apply, Matrix.mul_apply]
    simp only [e2, mul_add, Finset.sum_add_distrib, ← Finset.sum_mul, hS, one_mul]
  rw [e4]
  ring

theorem kaaGradC_shift {A : Matrix (Fin n) (Fin n) K} {u : Fin n → K} {S : Matrix (Fin n) (Fin k) K}
    {C : Matrix (Fin k) (Fin n) K} (hS : ∀ i, ∑ a, S i a = 1) (hC : ∀ a, ∑ i, C a i = 1) :
    kaaGradC (shiftKernel A u) S C = fun a j => kaaGradC A S C a j +
      (2 * ∑ b, (Sᵀ * S) a b * (∑ j, C b j * u j) - 2 * ∑ i, S i a * u i) := by
  have e1 : ∀ a j, (C * shiftKernel A u) a j = (C * A) a j + (∑ i, C a i * u i + u j) := by
    intro a j
    simp only [Matrix.mul_apply, shiftKernel, mul_add, Finset.sum_add_distrib, ← Finset.sum_mul, hC,
      one_mul]
  have e2 : ∀ a j, (Sᵀ * (shiftKernel A u)ᵀ) a j = (Sᵀ * Aᵀ) a j +
      ((∑ i, S i a) * u j + ∑ i, S i a * u i) := by
    intro a j
    simp only [Matrix.mul_apply, Matrix.transpose_apply, shiftKernel, mul_add,
      Finset.sum_add_distrib, Finset.sum_mul]
  have e3 : ∀ a, ∑ b, (Sᵀ * S) a b = ∑ i, S i a := by
    intro a
    simp only [Matrix.mul_apply, Matrix.transpose_apply]
    rw [Finset.sum_comm]
    simp only [← Finset.mul_sum, hS, mul_one]
  ext a j
  unfold kaaGradC
  simp only [Matrix.add_apply, Matrix.smul_apply, smul_eq_mul, e2]
  have e4 : (Sᵀ * S * (C * shiftKernel A u)) a j = (Sᵀ * S * (C * A)) a j +
      (∑ b, (Sᵀ * S) a b * (∑ j, C b j * u j) + (∑ i, S i a) * u j) := by
    rw [Matrix.mul_apply, Matrix.mul_apply]
    simp only [e1, mul_add, Finset.sum_add_distrib, ← Finset.sum_mul, e3]
  rw [e4]
  ring

/-! ### Both together -/

section

variable {m p : ℕ} {π : Equiv.Perm (Fin m)} {ρ : Equiv.Perm (Fin p)}
  {S S' G G' H H' : Matrix (Fin m) (Fin p) K}

theorem submatrix_eq_iff {M' : Matrix (Fin m) (Fin p) K} {M : Matrix (Fin m) (Fin p) K} :
    M'.submatrix π ρ = M ↔ ∀ i a, M' (π i) (ρ a) = M i a :=
  ⟨fun h i a => congrFun (congrFun h i) a, fun h => by ext i a; exact h i a⟩

theorem submatrix_move (h1 : S'.submatrix π ρ = S) (h2 : H'.submatrix π ρ = H) (x : K) :
    (S' + x • H').submatrix π ρ = S + x • H := by
  rw [← h1, ← h2]; rfl

/-- A gradient that changes by a constant on each row leaves the projected step alone. -/
theorem projectedStep_rel {c : Fin m → K} (h1 : S'.submatrix π ρ = S)
    (h2 : G'.submatrix π ρ = fun i a => G i a + c i) (x : K) :
    (simplexProjectRows (S' - x • G') - S').submatrix π ρ =
      simplexProjectRows (S - x • G) - S := by
  have e : (simplexProjectRows (S' - x • G')).submatrix π ρ = simplexProjectRows (S - x • G) := by
    rw [← projectRows_submatrix, ← projectRows_shift (S - x • G) fun i => -(x * c i)]
    congr 1
    ext i a
    have h3 := submatrix_eq_iff.1 h1 i a
    have h4 := submatrix_eq_iff.1 h2 i a
    simp only [Matrix.submatrix_apply, Matrix.sub_apply, Matrix.smul_apply, smul_eq_mul, h3, h4]
    ring
  rw [← h1] at e ⊢
  rw [← e]
  rfl

theorem projectedStep_sum (hS : ∀ i, ∑ a, S i a = 1) (M : Matrix (Fin m) (Fin p) K) (i : Fin m) :
    ∑ a, (simplexProjectRows M - S) i a = 0 := by
  have hp : 1 ≤ p := by
    rcases Nat.eq_zero_or_pos p with h | h
    · subst h
      have := hS i
      simp at this
    · exact h
  have h1 := projectRows_apply M i
  have h2 : ∑ a, simplexProjectRows M i a = 1 := by
    have := (project_isProb hp fun j => M i j).2
    rw [← this]
    exact Finset.sum_congr rfl fun a _ => congrFun h1 a
  simp only [Matrix.sub_apply, Finset.sum_sub_distrib, h2, hS, sub_self]

theorem inner_rowConst (hH : ∀ i, ∑ a, H i a = 0) (c : Fin m → K) :
    inner H (fun i a => G i a + c i) = inner H G := by
  unfold inner
  refine Finset.sum_congr rfl fun i _ => ?_
  simp only [mul_add, Finset.sum_add_distrib, ← Finset.sum_mul, hH, zero_mul, add_zero]

theorem inner_rel {c : Fin m → K} (hH : c = 0 ∨ ∀ i, ∑ a, H i a = 0) (h1 : H'.submatrix π ρ = H)
    (h2 : G'.submatrix π ρ = fun i a => G i a + c i) : inner H' G' = inner H G := by
  rw [← inner_submatrix π ρ, h1, h2]
  rcases hH with rfl | hH
  · congr 1
    ext i a
    exact add_zero _
  · rw [inner_rowConst hH]

theorem inner_rel0 (h1 : H'.submatrix π ρ = H) (h2 : G'.submatrix π ρ = G) :
    inner H' G' = inner H G := by
  rw [← inner_submatrix π ρ, h1, h2]

theorem sub_rel {G0 G0' : Matrix (Fin m) (Fin p) K} {c c0 : Fin m → K}
    (h1 : G'.submatrix π ρ = fun i a => G i a + c i)
    (h2 : G0'.submatrix π ρ = fun i a => G0 i a + c0 i) :
    (G' - G0').submatrix π ρ = fun i a => (G - G0) i a + (c i - c0 i) := by
  ext i a
  have h3 := submatrix_eq_iff.1 h1 i a
  have h4 := submatrix_eq_iff.1 h2 i a
  simp only [Matrix.submatrix_apply, Matrix.sub_apply, h3, h4]
  ring

theorem move_sum (hS : ∀ i, ∑ a, S i a = 1) (hH : ∀ i, ∑ a, H i a = 0) (x : K) (i : Fin m) :
    ∑ a, (S + x • H) i a = 1 := by
  simp only [Matrix.add_apply, Matrix.smul_apply, smul_eq_mul, Finset.sum_add_distrib,
    ← Finset.mul_sum, hH, hS, mul_zero, add_zero]

end

section

variable {π : Equiv.Perm (Fin n)} {ρ : Equiv.Perm (Fin k)} {A A' : Matrix (Fin n) (Fin n) K}
  {u : Fin n → K} {S S' : Matrix (Fin n) (Fin k) K} {C C' : Matrix (Fin k) (Fin n) K}

/-- Nothing is added to the kernel, or the rows of both factors have sum 1. -/
def SumsFor (u : Fin n → K) (S : Matrix (Fin n) (Fin k) K) (C : Matrix (Fin k) (Fin n) K) : Prop :=
  u = 0 ∨ ((∀ i, ∑ a, S i a = 1) ∧ ∀ a, ∑ i, C a i = 1)

theorem shiftKernel_zero (A : Matrix (Fin n) (Fin n) K) : shiftKernel A 0 = A := by
  ext i j
  simp [shiftKernel]

theorem kaaCost_rel (hA : A'.submatrix π π = shiftKernel A u) (h1 : S'.submatrix π ρ = S)
    (h2 : C'.submatrix ρ π = C) (h : SumsFor u S C) :
    kaaCost A' S' C' = kaaCost A S C := by
  rw [← kaaCost_submatrix π ρ, hA, h1, h2]
  rcases h with rfl | ⟨hS, hC⟩
  · rw [shiftKernel_zero]
  · rw [kaaCost_shift hS hC]

theorem kaaGradS_rel (hA : A'.submatrix π π = shiftKernel A u) (h1 : S'.submatrix π ρ = S)
    (h2 : C'.submatrix ρ π = C) (h : SumsFor u S C) :
    ∃ c : Fin n → K, (u = 0 → c = 0) ∧
      (kaaGradS A' S' C').submatrix π ρ = fun i a => kaaGradS A S C i a + c i := by
  rw [← kaaGradS_submatrix π ρ, hA, h1, h2]
  by_cases hu : u = 0
  · subst hu
    refine ⟨0, fun _ => rfl, ?_⟩
    rw [shiftKernel_zero]
    ext i a
    exact (add_zero _).symm
  · obtain ⟨hS, hC⟩ := h.resolve_left hu
    rw [kaaGradS_shift hS hC]
    exact ⟨_, fun h => absurd h hu, rfl⟩

theorem kaaGradC_rel (hA : A'.submatrix π π = shiftKernel A u) (h1 : S'.submatrix π ρ = S)
    (h2 : C'.submatrix ρ π = C) (h : SumsFor u S C) :
    ∃ c : Fin k → K, (u = 0 → c = 0) ∧
      (kaaGradC A' S' C').submatrix ρ π = fun a i => kaaGradC A S C a i + c a := by
  rw [← kaaGradC_submatrix π ρ, hA, h1, h2]
  by_cases hu : u = 0
  · subst hu
    refine ⟨0, fun _ => rfl, ?_⟩
    rw [shiftKernel_zero]
    ext i a
    exact (add_zero _).symm
  · obtain ⟨hS, hC⟩ := h.resolve_left hu
    rw [kaaGradC_shift hS hC]
    exact ⟨_, fun h => absurd h hu, rfl⟩

theorem SumsFor.moveS (h : SumsFor u S C) (M : Matrix (Fin n) (Fin k) K) (x : K) :
    SumsFor u (S + x • (simplexProjectRows M - S)) C :=
  h.imp id fun h => ⟨move_sum h.1 (projectedStep_sum h.1 M) x, h.2⟩

theorem SumsFor.moveC (h : SumsFor u S C) (M : Matrix (Fin k) (Fin n) K) (x : K) :
    SumsFor u S (C + x • (simplexProjectRows M - C)) :=
  h.imp id fun h => ⟨h.1, move_sum h.2 (projectedStep_sum h.2 M) x⟩

end

namespace KAAState

variable {π : Equiv.Perm (Fin n)} {ρ : Equiv.Perm (Fin k)} {A A' : Matrix (Fin n) (Fin n) K}
  {u : Fin n → K}

/-- The state of the second fit is that of the first one relabelled. -/
structure SymRel (π : Equiv.Perm (Fin n)) (ρ : Equiv.Perm (Fin k)) (A A' : Matrix (Fin n) (Fin n) K)
    (u : Fin n → K) (s t : KAAState n k K) : Prop where
  goodS : s.Good A
  goodT : t.Good A'
  S : t.S.submatrix π ρ = s.S
  C : t.C.submatrix ρ π = s.C
  sums : SumsFor u s.S s.C
  alphaS : t.alphaS = s.alphaS
  alphaC : t.alphaC = s.alphaC
  fSMem : t.fSMem = s.fSMem
  fCMem : t.fCMem = s.fCMem

theorem gradS_form (B : Matrix (Fin n) (Fin n) K) (S : Matrix (Fin n) (Fin k) K)
    (C : Matrix (Fin k) (Fin n) K) :
    Bᵀ * ((-2 : K) • Cᵀ) + S * ((2 : K) • (C * B * Cᵀ)) = kaaGradS B S C := by
  unfold kaaGradS; rw [Matrix.mul_smul, Matrix.mul_smul]

theorem gradC_form (B : Matrix (Fin n) (Fin n) K) (S : Matrix (Fin n) (Fin k) K)
    (C : Matrix (Fin k) (Fin n) K) :
    Sᵀ * ((-2 : K) • Bᵀ) + (2 : K) • (Sᵀ * S * (C * B)) = kaaGradC B S C := by
  unfold kaaGradC; rw [Matrix.mul_smul]

theorem updateWeights_sym (hA : A'.submatrix π π = shiftKernel A u) {cfg : LSConfig K} {d d' : K}
    {s t : KAAState n k K} (h : SymRel π ρ A A' u s t) :
    PyRel (SymRel π ρ A A' u) (s.updateWeights cfg d) (t.updateWeights cfg d') := by
  obtain ⟨hs, ht, eS, eC, hsums, aS, aC, mS, mC⟩ := h
  obtain ⟨c, hc0, hc⟩ := kaaGradS_rel hA eS eC hsums
  have hinc := projectedStep_rel eS hc s.alphaS
  have hsum := hsums.imp id fun h =>
    projectedStep_sum h.1 (s.S - s.alphaS • kaaGradS A s.S s.C)
  rw [updateWeights_eq hs, updateWeights_eq ht, mS]
  simp only [hs.Kmat, ht.Kmat, aS]
  rw [kaaCost_rel hA eS eC hsums, inner_rel (hsum.imp hc0 id) hinc hc]
  refine (lineSearch_retry weightsTrial_retriable weightsTrial_retriable fun x => ?_).bind ?_
  · rw [weightsTrial_cost hs, weightsTrial_cost ht, hs.Kmat, ht.Kmat, aS]
    exact (kaaCost_rel hA (submatrix_move eS hinc x) eC (hsums.moveS _ x)).symm
  · rintro ⟨m1, l1, s1, c1, n1⟩ ⟨m2, l2, s2, c2, n2⟩ ⟨h1, h2, h3, h4⟩
    simp only at h1 h2 h3 h4
    subst h1; subst h2; subst h3; subst h4
    simp only [PyRel]
    rw [updateWeightsGradient_eq _ _ (by exact hs.alpha),
      updateWeightsGradient_eq _ _ (by exact ht.alpha)]
    have eS' := submatrix_move eS hinc l1
    have sS' := hsums.moveS (s.S - s.alphaS • kaaGradS A s.S s.C) l1
    obtain ⟨c', hc0', hc'⟩ := kaaGradS_rel hA eS' eC sS'
    refine ⟨⟨hs.Kmat, hs.traceK, hs.alpha, rfl⟩, ⟨ht.Kmat, ht.traceK, ht.alpha, rfl⟩, ?_, eC, ?_,
      ?_, aC, rfl, mC⟩
    all_goals simp only [weightsTrial, weightsStart, hs.Kmat, ht.Kmat, aS]
    · exact eS'
    · exact sS'
    · have hd := sub_rel hc' hc
      simp only [mulSum_eq_inner, gradS_form]
      rw [inner_rel (hsum.imp (fun h => by rw [hc0 h, hc0' h]; exact sub_self _) id) hinc hd, inner_rel0 hinc hinc]

theorem updateDictionaryCore_sym (hA : A'.submatrix π π = shiftKernel A u) {cfg : LSConfig K}
    {d d' : K} {s t : KAAState n k K} (h : SymRel π ρ A A' u s t) :
    PyRel (SymRel π ρ A A' u) (s.updateDictionaryCore cfg d) (t.updateDictionaryCore cfg d') := by
  obtain ⟨hs, ht, eS, eC, hsums, aS, aC, mS, mC⟩ := h
  obtain ⟨c, hc0, hc⟩ := kaaGradC_rel hA eS eC hsums
  have hinc := projectedStep_rel eC hc s.alphaC
  have hsum := hsums.imp id fun h =>
    projectedStep_sum h.2 (s.C - s.alphaC • kaaGradC A s.S s.C)
  rw [updateDictionaryCore_eq hs, updateDictionaryCore_eq ht, mC]
  simp only [hs.Kmat, ht.Kmat, aC]
  rw [kaaCost_rel hA eS eC hsums, inner_rel (hsum.imp hc0 id) hinc hc]
  refine (lineSearch_retry (dictionaryTrial_retriable d) (dictionaryTrial_retriable d')
    fun x => ?_).bind ?_
  · rw [dictionaryTrial_cost hs, dictionaryTrial_cost ht, hs.Kmat, ht.Kmat, aC]
    exact (kaaCost_rel hA eS (submatrix_move eC hinc x) (hsums.moveC _ x)).symm
  · rintro ⟨m1, l1, s1, c1, n1⟩ ⟨m2, l2, s2, c2, n2⟩ ⟨h1, h2, h3, h4⟩
    simp only at h1 h2 h3 h4
    rw [dictionaryTrial_eq _ _ (by exact hs.alpha)] at h3
    rw [dictionaryTrial_eq _ _ (by exact ht.alpha)] at h4
    subst h1; subst h2; subst h3; subst h4
    simp only [PyRel]
    rw [updateDictionaryGradient_eq _ _ (by exact hs.alpha),
      updateDictionaryGradient_eq _ _ (by exact ht.alpha)]
    have eC' := submatrix_move eC hinc l1
    have sC' := hsums.moveC (s.C - s.alphaC • kaaGradC A s.S s.C) l1
    obtain ⟨c', hc0', hc'⟩ := kaaGradC_rel hA eS eC' sC'
    refine ⟨⟨hs.Kmat, hs.traceK, hs.alpha, rfl⟩, ⟨ht.Kmat, ht.traceK, ht.alpha, rfl⟩, eS, ?_,
      ?_, aS, ?_, mS, rfl⟩
    all_goals simp only [dictStart, hs.Kmat, ht.Kmat, aC]
    · exact eC'
    · exact sC'
    · have hd := sub_rel hc' hc
      simp only [mulSum_eq_inner, gradC_form]
      rw [inner_rel (hsum.imp (fun h => by rw [hc0 h, hc0' h]; exact sub_self _) id) hinc hd, inner_rel0 hinc hinc]

theorem evaluateCost_sym (hA : A'.submatrix π π = shiftKernel A u) {d d' : K}
    {s t : KAAState n k K} (h : SymRel π ρ A A' u s t) :
    SymRel π ρ A A' u (s.evaluateCost d).1 (t.evaluateCost d').1 ∧
      (s.evaluateCost d).2 = (t.evaluateCost d').2 := by
  obtain ⟨hs, ht, eS, eC, hsums, aS, aC, mS, mC⟩ := h
  rw [evaluateCost_eq _ _ hs.alpha, evaluateCost_eq _ _ ht.alpha]
  refine ⟨⟨⟨hs.Kmat, hs.traceK, hs.alpha, rfl⟩, ⟨ht.Kmat, ht.traceK, ht.alpha, rfl⟩, eS, eC, hsums,
    aS, aC, mS, mC⟩, ?_⟩
  simp only [hs.Kmat, ht.Kmat]
  exact (kaaCost_rel hA eS eC hsums).symm

theorem updateDictionary_sym (hA : A'.submatrix π π = shiftKernel A u) {cfg : LSConfig K}
    {d d' : K} (hd : ¬ 0 < d) (hd' : ¬ 0 < d') {s t : KAAState n k K} (h : SymRel π ρ A A' u s t) :
    PyRel (SymRel π ρ A A' u) (s.updateDictionary cfg d) (t.updateDictionary cfg d') := by
  unfold updateDictionary
  refine (updateDictionaryCore_sym hA h).bind fun a b hab => ?_
  rw [if_neg hd, if_neg hd']
  exact hab

theorem initializeWorkspace_sym {cfg : LSConfig K}
    {S S' : Matrix (Fin n) (Fin k) K} {C C' : Matrix (Fin k) (Fin n) K}
    (eS : S'.submatrix π ρ = S) (eC : C'.submatrix ρ π = C) (h : SumsFor u S C) :
    SymRel π ρ A A' u (initializeWorkspace cfg A S C) (initializeWorkspace cfg A' S' C') :=
  ⟨initializeWorkspace_good _ _ _ _, initializeWorkspace_good _ _ _ _, eS, eC, h, rfl, rfl,
    rfl, rfl⟩

end KAAState

/-- The two loops side by side. -/
theorem kaaIterate_sym {π : Equiv.Perm (Fin n)} {ρ : Equiv.Perm (Fin k)}
    {A A' : Matrix (Fin n) (Fin n) K} {u : Fin n → K}
    (hA : A'.submatrix π π = shiftKernel A u) {cfg : LSConfig K} {d d' : K} (hd : ¬ 0 < d)
    (hd' : ¬ 0 < d') {require : Bool} {tol : K} {maxIter : ℕ} {ud uw : Bool}
    {s t : KAAState n k K} (h : KAAState.SymRel π ρ A A' u s t) :
    PyRel (fun r r' => KAAState.SymRel π ρ A A' u r.state r'.state ∧ r.cost = r'.cost ∧
          r.nIter = r'.nIter ∧ r.trace = r'.trace)
      (kaaIterate cfg d require tol maxIter ud uw s)
      (kaaIterate cfg d' require tol maxIter ud uw t) := by
  unfold kaaIterate
  refine iterate_rel (R := KAAState.SymRel π ρ A A' u)
    (fun s t h => KAAState.evaluateCost_sym hA h) ?_ h
  have e1 : ∀ s t, KAAState.SymRel π ρ A A' u s t →
      PyRel (KAAState.SymRel π ρ A A' u) (KAAState.updateDictionary cfg d s)
        (KAAState.updateDictionary cfg d' t) :=
    fun s t h => KAAState.updateDictionary_sym hA hd hd' h
  have e2 : ∀ s t, KAAState.SymRel π ρ A A' u s t →
      PyRel (KAAState.SymRel π ρ A A' u) (KAAState.updateWeights cfg d s)
        (KAAState.updateWeights cfg d' t) :=
    fun s t h => KAAState.updateWeights_sym hA h
  cases ud <;> cases uw <;> simp <;> first | exact ⟨e1, e2⟩ | exact e1 | exact e2

/-- The results of the two loops agree up to the relabelling. -/
def IterSym (π : Equiv.Perm (Fin n)) (ρ : Equiv.Perm (Fin k))
    (r r' : IterResult (KAAState n k K) K) : Prop :=
  r'.state.S.submatrix π ρ = r.state.S ∧ r'.state.C.submatrix ρ π = r.state.C ∧
    r.cost = r'.cost ∧ r.nIter = r'.nIter ∧ r.trace = r'.trace

theorem PyRel.trans {α β γ : Type} {P : α → β → Prop} {Q : β → γ → Prop} {R : α → γ → Prop}
    {x : Py α} {y : Py β} {z : Py γ} (h1 : PyRel P x y) (h2 : PyRel Q y z)
    (h : ∀ a b c, P a b → Q b c → R a c) : PyRel R x z := by
  cases x <;> cases y <;> cases z <;> simp only [PyRel] at h1 h2 ⊢
  · exact h _ _ _ h1 h2
  · exact h1.trans h2

theorem PyRel.symm {α β : Type} {P : α → β → Prop} {x : Py α} {y : Py β} (h : PyRel P x y) :
    PyRel (fun b a => P a b) y x := by
  cases x <;> cases y <;> simp only [PyRel] at h ⊢
  · exact h
  · exact h.symm

/-- The parts of the result that `delta` does not touch. -/
theorem sameIter {A : Matrix (Fin n) (Fin n) K} {r r' : IterResult (KAAState n k K) K}
    (h : KAAState.Same A r.state r'.state ∧ r.cost = r'.cost ∧ r.nIter = r'.nIter ∧
      r.trace = r'.trace) :
    r'.state.S = r.state.S ∧ r'.state.C = r.state.C ∧ r.cost = r'.cost ∧ r.nIter = r'.nIter ∧
      r.trace = r'.trace := by
  obtain ⟨⟨-, -, -, c, g, i, a, m, hst⟩, h2⟩ := h
  rw [hst]
  exact ⟨rfl, rfl, h2⟩

/-- What makes every line search of a fit end, or none over the scale factors take place. -/
def NoScaleSearch (d : K) (cfg : LSConfig K) : Prop :=
  d ≤ 0 ∨ (0 < cfg.sigmaOne ∧ cfg.sigmaTwo < 1 ∧ 0 < cfg.stepSizeTolerance)

section

variable {π : Equiv.Perm (Fin n)} {ρ : Equiv.Perm (Fin k)} {A A' : Matrix (Fin n) (Fin n) K}
  {u : Fin n → K} {S S' : Matrix (Fin n) (Fin k) K} {C C' : Matrix (Fin k) (Fin n) K}
  {cfg : LSConfig K} {d : K} {require : Bool} {tol : K} {maxIter : ℕ} {ud uw : Bool}

theorem kaaIterate_sym_zero (hA : A'.submatrix π π = shiftKernel A u)
    (eS : S'.submatrix π ρ = S) (eC : C'.submatrix ρ π = C) (h : SumsFor u S C) (hd : d ≤ 0) :
    PyRel (IterSym π ρ)
      (kaaIterate cfg d require tol maxIter ud uw (KAAState.initializeWorkspace cfg A S C))
      (kaaIterate cfg d require tol maxIter ud uw (KAAState.initializeWorkspace cfg A' S' C')) :=
  (kaaIterate_sym hA (not_lt.2 hd) (not_lt.2 hd)
    (KAAState.initializeWorkspace_sym eS eC h)).mono fun _ _ h => ⟨h.1.S, h.1.C, h.2⟩

theorem IterSym.of_same {B B' : Matrix (Fin n) (Fin n) K} {r r' q q' : IterResult (KAAState n k K) K}
    (h1 : KAAState.Same B r.state q.state ∧ r.cost = q.cost ∧ r.nIter = q.nIter ∧
      r.trace = q.trace)
    (h2 : KAAState.Same B' r'.state q'.state ∧ r'.cost = q'.cost ∧ r'.nIter = q'.nIter ∧
      r'.trace = q'.trace) (h : IterSym π ρ q q') : IterSym π ρ r r' := by
  obtain ⟨a1, a2, a3, a4, a5⟩ := sameIter h1
  obtain ⟨b1, b2, b3, b4, b5⟩ := sameIter h2
  obtain ⟨c1, c2, c3, c4, c5⟩ := h
  exact ⟨by rw [← b1, ← a1, c1], by rw [← b2, ← a2, c2], by rw [a3, c3, b3], by rw [a4, c4, b4],
    by rw [a5, c5, b5]⟩

/-- With `delta ≤ 0`, or with a step floor, the two loops agree. -/
theorem kaaIterate_sym_eq [Archimedean K] (hA : A'.submatrix π π = shiftKernel A u)
    (eS : S'.submatrix π ρ = S) (eC : C'.submatrix ρ π = C) (h : SumsFor u S C)
    (hd : NoScaleSearch d cfg) :
    PyRel (IterSym π ρ)
      (kaaIterate cfg d require tol maxIter ud uw (KAAState.initializeWorkspace cfg A S C))
      (kaaIterate cfg d require tol maxIter ud uw (KAAState.initializeWorkspace cfg A' S' C')) := by
  rcases hd with hd | ⟨h1, h2, ht⟩
  · exact kaaIterate_sym_zero hA eS eC h hd
  obtain ⟨N, hN⟩ : ∃ N : ℕ, shrink cfg.sigmaTwo ^ (N + 1) < cfg.stepSizeTolerance := by
    obtain ⟨m, hm⟩ := exists_pow_lt_of_lt_one ht
      (show shrink cfg.sigmaTwo < 1 from max_lt h2 (by norm_num))
    refine ⟨m, lt_of_le_of_lt ?_ hm⟩
    have h0 : 0 ≤ shrink cfg.sigmaTwo := le_trans (by norm_num) (le_max_right _ _)
    exact pow_le_pow_of_le_one h0 (max_lt h2 (by norm_num)).le (Nat.le_succ m)
  have e1 := kaaIterate_delta h1 hN (d := d) (require := require) (tol := tol) (maxIter := maxIter)
    (ud := ud) (uw := uw) A S C
  have e2 := kaaIterate_delta h1 hN (d := d) (require := require) (tol := tol) (maxIter := maxIter)
    (ud := ud) (uw := uw) A' S' C'
  have e3 := kaaIterate_sym_zero (cfg := cfg) (require := require) (tol := tol)
    (maxIter := maxIter) (ud := ud) (uw := uw) hA eS eC h le_rfl
  exact e1.trans (e3.trans e2.symm (R := fun q r' => ∃ q', IterSym π ρ q q' ∧ _)
    fun a b c h1 h2 => ⟨b, h1, h2⟩) fun a b c h1 ⟨q', h2, h3⟩ => IterSym.of_same h1 h3 h2

/-- For any settings the two loops agree, unless one of them runs forever. -/
theorem kaaIterate_sym_le (hA : A'.submatrix π π = shiftKernel A u)
    (eS : S'.submatrix π ρ = S) (eC : C'.submatrix ρ π = C) (h : SumsFor u S C)
    (hs : kaaIterate cfg d require tol maxIter ud uw (KAAState.initializeWorkspace cfg A S C) ≠
      Py.diverge)
    (ht : kaaIterate cfg d require tol maxIter ud uw (KAAState.initializeWorkspace cfg A' S' C') ≠
      Py.diverge) :
    PyRel (IterSym π ρ)
      (kaaIterate cfg d require tol maxIter ud uw (KAAState.initializeWorkspace cfg A S C))
      (kaaIterate cfg d require tol maxIter ud uw (KAAState.initializeWorkspace cfg A' S' C')) := by
  have e1 := (kaaIterate_deltaLe (cfg := cfg) (d := d) (require := require) (tol := tol)
    (maxIter := maxIter) (ud := ud) (uw := uw) A S C).resolve_left hs
  have e2 := (kaaIterate_deltaLe (cfg := cfg) (d := d) (require := require) (tol := tol)
    (maxIter := maxIter) (ud := ud) (uw := uw) A' S' C').resolve_left ht
  have e3 := kaaIterate_sym_zero (cfg := cfg) (require := require) (tol := tol)
    (maxIter := maxIter) (ud := ud) (uw := uw) hA eS eC h le_rfl
  exact e1.trans (e3.trans e2.symm (R := fun q r' => ∃ q', IterSym π ρ q q' ∧ _)
    fun a b c h1 h2 => ⟨b, h1, h2⟩) fun a b c h1 ⟨q', h2, h3⟩ => IterSym.of_same h1 h3 h2

end

/-! ### Fits of shifted kernels -/

theorem dissimilarities_shift (sqrt : K → K) (A : Matrix (Fin n) (Fin n) K) (u : Fin n → K) :
    dissimilarities sqrt (shiftKernel A u) = dissimilarities sqrt A := by
  have e : ∀ i j, shiftKernel A u j j - 2 * shiftKernel A u i j + shiftKernel A u i i =
      A j j - 2 * A i j + A i i := by
    intro i j
    unfold shiftKernel
    ring
  unfold dissimilarities
  simp only [e]

theorem kaaStart_shift (env : Env K) (A : Matrix (Fin n) (Fin n) K) (u : Fin n → K) (k : ℕ)
    (init : Option String) (dictionary weights : Option (Arr2 K)) (ud uw : Bool) (kw : InitKwargs)
    (g : env.rng.G) :
    kaaStart env (shiftKernel A u) k init dictionary weights ud uw kw g =
      kaaStart env A k init dictionary weights ud uw kw g := by
  unfold kaaStart kaaInitBoth kaaInitDictionary kaaInitDictionaryFurthestSum furthestSumRows
  simp only [dissimilarities_shift]

/-- The rows of the weights of the start have sum 1, unless those of the caller have not. -/
theorem kaaStart_weights_sums {env : Env K} (hR : env.rng.Lawful) (hk : 1 ≤ k)
    {A : Matrix (Fin n) (Fin n) K} {init : Option String}
    {dictionary weights : Option (Arr2 K)} {ud uw : Bool} {kw : InitKwargs} {g : env.rng.G}
    (hw : (init = some "custom" ∨ uw = false) → ∀ W, weights = some W → ∀ i, ∑ a, W.val i a = 1)
    {start : (Matrix (Fin k) (Fin n) K × Matrix (Fin n) (Fin k) K) × env.rng.G}
    (h : kaaStart env A k init dictionary weights ud uw kw g = Py.ok start) :
    ∀ i, ∑ a, start.1.2 i a = 1 := by
  by_cases hc : init = some "custom"
  · subst hc
    exact hw (Or.inl rfl) _ (kaaStart_custom h).2.1
  unfold kaaStart at h
  rw [if_neg hc] at h
  split_ifs at h with h2 h3
  · obtain ⟨d, -, h⟩ := Py.bind_eq_ok.1 h
    obtain ⟨w, hw', h⟩ := Py.bind_eq_ok.1 h
    simp only [Py.pure_eq, Py.ok.injEq] at h
    subst h
    exact fun i => ((kaaInitWeights_ok hR hk hw').2 i).2
  · obtain ⟨w, hw', h⟩ := Py.bind_eq_ok.1 h
    obtain ⟨d, -, h⟩ := Py.bind_eq_ok.1 h
    simp only [Py.pure_eq, Py.ok.injEq] at h
    subst h
    exact hw (Or.inr h3.2) _ (gpnhCheckInitWeights_ok hw').1
  · unfold kaaInitBoth at h
    obtain ⟨d, -, h⟩ := Py.bind_eq_ok.1 h
    obtain ⟨w, hw', h⟩ := Py.bind_eq_ok.1 h
    simp only [Py.pure_eq, Py.ok.injEq] at h
    subst h
    exact fun i => ((kaaInitWeights_ok hR hk hw').2 i).2

/-- The rows of the dictionary of the start have sum 1, unless those of the caller have not. -/
theorem kaaStart_dictionary_sums {env : Env K} (hR : env.rng.Lawful) (hn : 1 ≤ n)
    {A : Matrix (Fin n) (Fin n) K} {init : Option String}
    {dictionary weights : Option (Arr2 K)} {ud uw : Bool} {kw : InitKwargs} {g : env.rng.G}
    (hd : (init = some "custom" ∨ ud = false) →
      ∀ C, dictionary = some C → ∀ a, ∑ i, C.val a i = 1)
    {start : (Matrix (Fin k) (Fin n) K × Matrix (Fin n) (Fin k) K) × env.rng.G}
    (h : kaaStart env A k init dictionary weights ud uw kw g = Py.ok start) :
    ∀ a, ∑ i, start.1.1 a i = 1 := by
  by_cases hc : init = some "custom"
  · subst hc
    exact hd (Or.inl rfl) _ (kaaStart_custom h).1
  unfold kaaStart at h
  rw [if_neg hc] at h
  split_ifs at h with h2 h3
  · obtain ⟨d, hd', h⟩ := Py.bind_eq_ok.1 h
    obtain ⟨w, hw', h⟩ := Py.bind_eq_ok.1 h
    simp only [Py.pure_eq, Py.ok.injEq] at h
    subst h
    exact hd (Or.inr h2.1) _ (gpnhCheckInitWeights_ok hd').1
  · obtain ⟨w, hw', h⟩ := Py.bind_eq_ok.1 h
    obtain ⟨d, hd', h⟩ := Py.bind_eq_ok.1 h
    simp only [Py.pure_eq, Py.ok.injEq] at h
    subst h
    exact fun i => (kaaInitDictionary_ok hR hn hd' i).2
  · unfold kaaInitBoth at h
    obtain ⟨d, hd', h⟩ := Py.bind_eq_ok.1 h
    obtain ⟨w, hw', h⟩ := Py.bind_eq_ok.1 h
    simp only [Py.pure_eq, Py.ok.injEq] at h
    subst h
    exact fun i => (kaaInitDictionary_ok hR hn hd' i).2

/-- The two fits side by side, given that the loops agree. -/
theorem kernelAASquare_shift_of {env : Env K} (hR : env.rng.Lawful) (obj : KAAObj env.rng)
    (A : Matrix (Fin n) (Fin n) K) (u : Fin n → K) (dictionary weights : Option (Arr2 K))
    (ud uw : Bool) (kw : InitKwargs)
    (hd : (obj.init = some "custom" ∨ ud = false) →
      ∀ C, dictionary = some C → ∀ a, ∑ i, C.val a i = 1)
    (hw : (obj.init = some "custom" ∨ uw = false) →
      ∀ W, weights = some W → ∀ i, ∑ a, W.val i a = 1)
    (hiter : ∀ (p : ℕ × ℕ × K) (start : (Matrix (Fin p.1) (Fin n) K × Matrix (Fin n) (Fin p.1) K) ×
        env.rng.G),
      checkParams (defaultComponents obj.nComponents n) obj.maxIterations obj.tolerance =
        Py.ok p →
      kaaStart env A p.1 obj.init dictionary weights ud uw kw obj.randomState.start =
        Py.ok start → SumsFor u start.1.2 start.1.1 →
      PyRel (IterSym 1 1)
        (kaaIterate obj.ls obj.delta obj.require p.2.2 p.2.1 ud uw
          (KAAState.initializeWorkspace obj.ls A start.1.2 start.1.1))
        (kaaIterate obj.ls obj.delta obj.require p.2.2 p.2.1 ud uw
          (KAAState.initializeWorkspace obj.ls (shiftKernel A u) start.1.2 start.1.1))) :
    kernelAASquare env obj (shiftKernel A u) dictionary weights ud uw kw =
      (do
        let r ← kernelAASquare env obj A dictionary weights ud uw kw
        pure ({ r.1 with Kmat := some (Arr2.of (shiftKernel A u)) }, r.2)) := by
  unfold kernelAASquare
  simp only [kaaStart_shift]
  cases hp : checkParams (defaultComponents obj.nComponents n) obj.maxIterations obj.tolerance with
  | raise e => rfl
  | diverge => rfl
  | ok p =>
    simp only [Py.ok_bind]
    cases hs : kaaStart env A p.1 obj.init dictionary weights ud uw kw obj.randomState.start with
    | raise e => rfl
    | diverge => rfl
    | ok start =>
      simp only [Py.ok_bind]
      have hk := (checkParams_ok hp).2.2.2.1
      have hsum : SumsFor u start.1.2 start.1.1 := by
        rcases Nat.eq_zero_or_pos n with hn | hn
        · left
          subst hn
          funext i
          exact i.elim0
        · exact Or.inr ⟨kaaStart_weights_sums hR hk hw hs, kaaStart_dictionary_sums hR hn hd hs⟩
      have := hiter p start hp hs hsum
      revert this
      cases kaaIterate obj.ls obj.delta obj.require p.2.2 p.2.1 ud uw
          (KAAState.initializeWorkspace obj.ls A start.1.2 start.1.1) <;>
        cases kaaIterate obj.ls obj.delta obj.require p.2.2 p.2.1 ud uw
          (KAAState.initializeWorkspace obj.ls (shiftKernel A u) start.1.2 start.1.1) <;>
        intro this <;> simp only [PyRel] at this
      · obtain ⟨h1, h2, hc, hn, htr⟩ := this
        simp only [Py.ok_bind, Py.pure_eq, ← h1, ← h2, hc, hn, htr]
        rfl
      · subst this
        rfl
      · rfl

theorem shiftKernel_one (A : Matrix (Fin n) (Fin n) K) (u : Fin n → K) :
    (shiftKernel A u).submatrix (1 : Equiv.Perm (Fin n)) (1 : Equiv.Perm (Fin n)) =
      shiftKernel A u := rfl

/-- Shifting the kernel does not change a fit. -/
theorem kernelAASquare_shift [Archimedean K] {env : Env K} (hR : env.rng.Lawful)
    (obj : KAAObj env.rng) (hdel : NoScaleSearch obj.delta obj.ls)
    (A : Matrix (Fin n) (Fin n) K) (u : Fin n → K) (dictionary weights : Option (Arr2 K))
    (ud uw : Bool) (kw : InitKwargs)
    (hd : (obj.init = some "custom" ∨ ud = false) →
      ∀ C, dictionary = some C → ∀ a, ∑ i, C.val a i = 1)
    (hw : (obj.init = some "custom" ∨ uw = false) →
      ∀ W, weights = some W → ∀ i, ∑ a, W.val i a = 1) :
    kernelAASquare env obj (shiftKernel A u) dictionary weights ud uw kw =
      (do
        let r ← kernelAASquare env obj A dictionary weights ud uw kw
        pure ({ r.1 with Kmat := some (Arr2.of (shiftKernel A u)) }, r.2)) :=
  kernelAASquare_shift_of hR obj A u dictionary weights ud uw kw hd hw fun _ _ _ _ hsum =>
    kaaIterate_sym_eq (shiftKernel_one A u) rfl rfl hsum hdel

theorem kernelAASquare_ne_diverge {env : Env K} {obj : KAAObj env.rng}
    {A : Matrix (Fin n) (Fin n) K} {dictionary weights : Option (Arr2 K)} {ud uw : Bool}
    {kw : InitKwargs} {p : ℕ × ℕ × K}
    {start : (Matrix (Fin p.1) (Fin n) K × Matrix (Fin n) (Fin p.1) K) × env.rng.G}
    (h : kernelAASquare env obj A dictionary weights ud uw kw ≠ Py.diverge)
    (hp : checkParams (defaultComponents obj.nComponents n) obj.maxIterations
      obj.tolerance = Py.ok p)
    (hs : kaaStart env A p.1 obj.init dictionary weights ud uw kw obj.randomState.start =
      Py.ok start) :
    kaaIterate obj.ls obj.delta obj.require p.2.2 p.2.1 ud uw
      (KAAState.initializeWorkspace obj.ls A start.1.2 start.1.1) ≠ Py.diverge := by
  intro h2
  apply h
  unfold kernelAASquare
  simp only [hp, hs, Py.ok_bind, h2, Py.diverge_bind]

/-- Shifting the kernel does not change a fit, for any settings with which both end. -/
theorem kernelAASquare_shift_le {env : Env K} (hR : env.rng.Lawful)
    (obj : KAAObj env.rng)
    (A : Matrix (Fin n) (Fin n) K) (u : Fin n → K) (dictionary weights : Option (Arr2 K))
    (ud uw : Bool) (kw : InitKwargs)
    (hd : (obj.init = some "custom" ∨ ud = false) →
      ∀ C, dictionary = some C → ∀ a, ∑ i, C.val a i = 1)
    (hw : (obj.init = some "custom" ∨ uw = false) →
      ∀ W, weights = some W → ∀ i, ∑ a, W.val i a = 1)
    (h1 : kernelAASquare env obj A dictionary weights ud uw kw ≠ Py.diverge)
    (h2 : kernelAASquare env obj (shiftKernel A u) dictionary weights ud uw kw ≠ Py.diverge) :
    kernelAASquare env obj (shiftKernel A u) dictionary weights ud uw kw =
      (do
        let r ← kernelAASquare env obj A dictionary weights ud uw kw
        pure ({ r.1 with Kmat := some (Arr2.of (shiftKernel A u)) }, r.2)) :=
  kernelAASquare_shift_of hR obj A u dictionary weights ud uw kw hd hw fun p start hp hs hsum =>
    kaaIterate_sym_le (shiftKernel_one A u) rfl rfl hsum (kernelAASquare_ne_diverge h1 hp hs)
      (kernelAASquare_ne_diverge h2 hp (by rw [kaaStart_shift]; exact hs))

/-! ### Fits with relabelled starts -/

theorem gpnhCheckInitWeights_of {m p : ℕ} (S : Matrix (Fin m) (Fin p) K) :
    gpnhCheckInitWeights (some (Arr2.of S)) m p =
      if m = 0 ∨ p = 0 then Py.raise .valueError
      else if ∀ i, iscloseOne (∑ j, S i j) then Py.ok S else Py.raise .valueError := by
  unfold gpnhCheckInitWeights checkArray
  by_cases h : m = 0 ∨ p = 0
  · rw [if_pos h]
    have e : (if (Arr2.of S).rows = 0 ∨ (Arr2.of S).cols = 0 then
        (Py.raise .valueError : Py (Arr2 K)) else Py.ok (Arr2.of S)) = Py.raise .valueError :=
      if_pos h
    simp only [e, Py.raise_bind]
  · rw [if_neg h]
    have e : (if (Arr2.of S).rows = 0 ∨ (Arr2.of S).cols = 0 then
        (Py.raise .valueError : Py (Arr2 K)) else Py.ok (Arr2.of S)) = Py.ok (Arr2.of S) := if_neg h
    have e2 : checkArrayShape (Arr2.of S) m p = Py.ok S := by
      unfold checkArrayShape
      exact dif_pos ⟨rfl, rfl⟩
    simp only [e, Py.ok_bind, e2]
    unfold checkUnitRowSums
    split_ifs <;> rfl

theorem gpnhCheckInitWeights_mismatch {m p m' p' : ℕ} (S : Matrix (Fin m) (Fin p) K)
    (h : ¬ (m = m' ∧ p = p')) :
    gpnhCheckInitWeights (some (Arr2.of S)) m' p' = Py.raise .valueError := by
  cases hc : gpnhCheckInitWeights (some (Arr2.of S)) m' p' with
  | raise e => rw [gpnhCheckInitWeights_raise hc]
  | diverge => exact absurd hc gpnhCheckInitWeights_ne_diverge
  | ok M =>
    have := Option.some.inj (gpnhCheckInitWeights_ok hc).1
    exact absurd ⟨congrArg Arr2.rows this, congrArg Arr2.cols this⟩ h

theorem gpnhCheckInitWeights_submatrix {m p : ℕ} (π : Equiv.Perm (Fin m)) (ρ : Equiv.Perm (Fin p))
    (S : Matrix (Fin m) (Fin p) K) :
    gpnhCheckInitWeights (some (Arr2.of (S.submatrix π ρ))) m p =
      (gpnhCheckInitWeights (some (Arr2.of S)) m p >>= fun M => Py.ok (M.submatrix π ρ)) := by
  rw [gpnhCheckInitWeights_of, gpnhCheckInitWeights_of]
  have e : (∀ i, iscloseOne (∑ j, S.submatrix π ρ i j)) ↔ ∀ i, iscloseOne (∑ j, S i j) := by
    have e1 : ∀ i, ∑ j, S.submatrix π ρ i j = ∑ j, S (π i) j := fun i =>
      Equiv.sum_comp ρ fun j => S (π i) j
    simp only [e1]
    exact ⟨fun h i => by simpa using h (π.symm i), fun h i => h _⟩
  split_ifs with h1 h2 h3 h3
  · rfl
  · rfl
  · exact absurd (e.1 h2) h3
  · exact absurd (e.2 h3) h2
  · rfl

/-- Two custom fits, the second with samples and components relabelled. -/
theorem kernelAASquare_relabel_of {env : Env K} (obj : KAAObj env.rng)
    (hinit : obj.init = some "custom") (A : Matrix (Fin n) (Fin n) K)
    (C : Matrix (Fin k) (Fin n) K) (S : Matrix (Fin n) (Fin k) K)
    (π : Equiv.Perm (Fin n)) (ρ : Equiv.Perm (Fin k)) (ud uw : Bool) (kw : InitKwargs)
    (hiter : ∀ (p : ℕ × ℕ × K),
      checkParams (defaultComponents obj.nComponents n) obj.maxIterations obj.tolerance =
        Py.ok p → p.1 = k →
      kaaStart env A k obj.init (some (Arr2.of C)) (some (Arr2.of S)) ud uw kw
        obj.randomState.start = Py.ok ((C, S), obj.randomState.start) →
      kaaStart env (A.submatrix π π) k obj.init (some (Arr2.of (C.submatrix ρ π)))
        (some (Arr2.of (S.submatrix π ρ))) ud uw kw obj.randomState.start =
          Py.ok ((C.submatrix ρ π, S.submatrix π ρ), obj.randomState.start) →
      PyRel (IterSym π ρ)
        (kaaIterate obj.ls obj.delta obj.require p.2.2 p.2.1 ud uw
          (KAAState.initializeWorkspace obj.ls (A.submatrix π π) (S.submatrix π ρ)
            (C.submatrix ρ π)))
        (kaaIterate obj.ls obj.delta obj.require p.2.2 p.2.1 ud uw
          (KAAState.initializeWorkspace obj.ls A S C))) :
    (kernelAASquare env obj A (some (Arr2.of C)) (some (Arr2.of S)) ud uw kw = Py.diverge ∧
      kernelAASquare env obj (A.submatrix π π) (some (Arr2.of (C.submatrix ρ π)))
        (some (Arr2.of (S.submatrix π ρ))) ud uw kw = Py.diverge) ∨
    (∃ e, kernelAASquare env obj A (some (Arr2.of C)) (some (Arr2.of S)) ud uw kw = Py.raise e ∧
      kernelAASquare env obj (A.submatrix π π) (some (Arr2.of (C.submatrix ρ π)))
        (some (Arr2.of (S.submatrix π ρ))) ud uw kw = Py.raise e) ∨
    ∃ (obj' : KAAObj env.rng) (C' : Matrix (Fin k) (Fin n) K) (S' : Matrix (Fin n) (Fin k) K)
      (info : FitInfo K),
      kernelAASquare env obj A (some (Arr2.of C)) (some (Arr2.of S)) ud uw kw =
        Py.ok ({ obj' with Kmat := some (Arr2.of A), C := some (Arr2.of C'),
                           S := some (Arr2.of S') }, info) ∧
      kernelAASquare env obj (A.submatrix π π) (some (Arr2.of (C.submatrix ρ π)))
        (some (Arr2.of (S.submatrix π ρ))) ud uw kw =
        Py.ok ({ obj' with Kmat := some (Arr2.of (A.submatrix π π)),
                           C := some (Arr2.of (C'.submatrix ρ π)),
                           S := some (Arr2.of (S'.submatrix π ρ)) }, info) := by
  unfold kernelAASquare
  simp only
  cases hp : checkParams (defaultComponents obj.nComponents n) obj.maxIterations obj.tolerance with
  | raise e => exact Or.inr (Or.inl ⟨e, rfl, rfl⟩)
  | diverge => exact Or.inl ⟨rfl, rfl⟩
  | ok p =>
    have hiter := hiter p hp
    clear hp
    obtain ⟨k', q⟩ := p
    simp only [Py.ok_bind]
    by_cases hk : k' = k
    swap
    · refine Or.inr (Or.inl ⟨.valueError, ?_, ?_⟩)
      all_goals
        unfold kaaStart
        rw [if_pos hinit, kaaCheckInitWeights_eq,
          gpnhCheckInitWeights_mismatch _ fun h => hk h.2.symm]
        rfl
    subst hk
    have hs' : kaaStart env (A.submatrix π π) k' obj.init (some (Arr2.of (C.submatrix ρ π)))
        (some (Arr2.of (S.submatrix π ρ))) ud uw kw obj.randomState.start =
        (kaaStart env A k' obj.init (some (Arr2.of C)) (some (Arr2.of S)) ud uw kw
          obj.randomState.start >>= fun r =>
            Py.ok ((r.1.1.submatrix ρ π, r.1.2.submatrix π ρ), r.2)) := by
      unfold kaaStart
      rw [if_pos hinit, if_pos hinit]
      simp only [kaaCheckInitWeights_eq, kaaCheckInitDictionary_eq, gpnhCheckInitWeights_submatrix,
        Py.bind_assoc, Py.ok_bind, Py.pure_eq]
    have hiter := hiter rfl
    cases hs : kaaStart env A k' obj.init (some (Arr2.of C)) (some (Arr2.of S)) ud uw kw
        obj.randomState.start with
    | raise e =>
      rw [hs'] at *
      rw [hs]
      exact Or.inr (Or.inl ⟨e, rfl, rfl⟩)
    | diverge => exact absurd hs kaaStart_ne_diverge
    | ok start =>
      have h3 := hs
      rw [hinit] at h3
      obtain ⟨e1, e2, e3, -⟩ := kaaStart_custom h3
      have e1' : start.1.1 = C := by
        have := Option.some.inj e1
        unfold Arr2.of at this
        injection this with _ _ h
        exact h.symm
      have e2' : start.1.2 = S := by
        have := Option.some.inj e2
        unfold Arr2.of at this
        injection this with _ _ h
        exact h.symm
      obtain ⟨⟨C0, S0⟩, g0⟩ := start
      simp only at e1' e2' e3
      subst e1' e2' e3
      rw [hs] at hs'
      simp only [Py.ok_bind] at hs'
      have this := hiter hs hs'
      rw [hs']
      simp only [Py.ok_bind]
      revert this
      cases kaaIterate obj.ls obj.delta obj.require q.2 q.1 ud uw
          (KAAState.initializeWorkspace obj.ls (A.submatrix π π) (S0.submatrix π ρ)
            (C0.submatrix ρ π)) <;>
        cases kaaIterate obj.ls obj.delta obj.require q.2 q.1 ud uw
          (KAAState.initializeWorkspace obj.ls A S0 C0) <;>
        intro this <;> simp only [PyRel] at this
      · obtain ⟨h1, h2, hc, hn, htr⟩ := this
        refine Or.inr (Or.inr ⟨{ obj with
          nComponents := defaultComponents obj.nComponents n
          randomState := obj.randomState.after obj.randomState.start }, _, _, _, rfl, ?_⟩)
        simp only [Py.ok_bind, Py.pure_eq, h1, h2, hc, hn, htr]
      · subst this
        exact Or.inr (Or.inl ⟨_, rfl, rfl⟩)
      · exact Or.inl ⟨rfl, rfl⟩

/-- The rows of both factors keep their sums 1, whatever the settings. -/
theorem kaaIterate_sums {A : Matrix (Fin n) (Fin n) K} {S : Matrix (Fin n) (Fin k) K}
    {C : Matrix (Fin k) (Fin n) K} {cfg : LSConfig K} {d : K} {require : Bool} {tol : K}
    {maxIter : ℕ} {ud uw : Bool} (hS : ∀ i, ∑ a, S i a = 1) (hC : ∀ a, ∑ i, C a i = 1)
    (hn : 1 ≤ n) {r : IterResult (KAAState n k K) K}
    (h : kaaIterate cfg d require tol maxIter ud uw (KAAState.initializeWorkspace cfg A S C) =
      Py.ok r) :
    (∀ i, ∑ a, r.state.S i a = 1) ∧ ∀ a, ∑ i, r.state.C a i = 1 := by
  have e1 := (kaaIterate_deltaLe (cfg := cfg) (d := d) (require := require) (tol := tol)
    (maxIter := maxIter) (ud := ud) (uw := uw) A S C).resolve_left (by rw [h]; simp)
  have e2 := kaaIterate_sym (π := 1) (ρ := 1) (A := A) (A' := shiftKernel A fun _ => 1)
    (u := fun _ => 1) rfl (lt_irrefl (0 : K)) (lt_irrefl (0 : K)) (cfg := cfg) (require := require)
    (tol := tol) (maxIter := maxIter) (ud := ud) (uw := uw)
    (KAAState.initializeWorkspace_sym (cfg := cfg) (S := S) (S' := S) (C := C) (C' := C) rfl rfl
      (Or.inr ⟨hS, hC⟩))
  rw [h] at e1
  cases h0 : kaaIterate cfg 0 require tol maxIter ud uw
      (KAAState.initializeWorkspace cfg A S C) with
  | raise e => rw [h0] at e1; exact e1.elim
  | diverge => rw [h0] at e1; exact e1.elim
  | ok r0 =>
    rw [h0] at e1 e2
    obtain ⟨a1, a2, -⟩ := sameIter e1
    rw [← a1, ← a2]
    revert e2
    cases kaaIterate cfg 0 require tol maxIter ud uw
      (KAAState.initializeWorkspace cfg (shiftKernel A fun _ => 1) S C) <;> intro e2 <;>
      simp only [PyRel] at e2
    rcases e2.1.sums with hu | hu
    · have := congrFun hu ⟨0, hn⟩
      simp at this
    · exact hu

end Reor
