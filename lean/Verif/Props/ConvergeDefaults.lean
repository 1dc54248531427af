import Verif.Props.Defaults
import Verif.Props.ConvergeMTD

/-!
C87, C88 and C97 for objects with the default settings of the line search.
-/

namespace Reor

set_option linter.unusedSectionVars false

open scoped BigOperators Matrix
open Spec

variable {K : Type} [Field K] [LinearOrder K] [IsStrictOrderedRing K]
variable {n k T D p : ℕ}

/-- The default step floor is small compared with curvatures up to 499950000. -/
theorem default_floor {L : K} (hL : L ≤ 499950000) :
    (⟨1, 1 / 10 ^ 4, 1 / 10 ^ 3, 10 ^ 3, 1 / 10, 9 / 10, 1 / 10 ^ 12⟩ : LSConfig K).Floor
      (max 1 (10 ^ 3) * L) := by
  have e : max (1 : K) (10 ^ 3) = 10 ^ 3 := max_eq_right (by norm_num)
  rw [e]
  refine ⟨?_, ?_, ?_⟩ <;> norm_num
  linarith

/-- C87 for `ArchetypalAnalysis(k, tolerance=t, max_iterations=m)` with all other settings at their
defaults, and all data of moderate size: for every `ε` and small `t`, large `m`, fits return, and the
squared residual is then, up to `ε`, as small as the other factor permits. -/
theorem C87_aa_default_near_optimal [Archimedean K] (hk : 1 ≤ k) (hkn : k ≤ n)
    (X : Matrix (Fin n) (Fin D) K)
    (hX : ∀ t, (∑ d, X t d ^ 2) * ((n : K) ^ 2 + k) ≤ 499950000) (ε : K) (hε : 0 < ε) :
    ∃ tol : K, 0 < tol ∧ ∀ t : K, 0 < t → t ≤ tol → ∃ M : ℕ, ∀ m : ℕ, M ≤ m →
      ∀ {env : Env K}, env.rng.Lawful → (∀ m n g i j, 0 < (env.rng.uniform m n g).1 i j) →
      ∀ (rs : RandomArg env.rng) (obj : KAAObj env.rng),
      kaaInit (.int k) (tolerance := .real t) (maxIterations := .int m) (randomState := rs) =
        Py.ok obj →
      ∃ (obj' : KAAObj env.rng) (info : FitInfo K)
        (S : Matrix (Fin n) (Fin k) K) (C : Matrix (Fin k) (Fin n) K),
        aaFitTransform env obj none (Arr2.of X) none none {} =
          Py.ok (obj', some (Arr2.of S), info) ∧
        obj'.dictionary_ = some (Arr2.of C) ∧ RowStochastic S ∧ RowStochastic C ∧
        (∀ B, RowStochastic B →
          ∑ t, ∑ d, (X t d - ∑ i, S t i * ∑ j, C i j * X j d) ^ 2 ≤
            ∑ t, ∑ d, (X t d - ∑ i, S t i * ∑ j, B i j * X j d) ^ 2 + ε) ∧
        (∀ W, RowStochastic W →
          ∑ t, ∑ d, (X t d - ∑ i, S t i * ∑ j, C i j * X j d) ^ 2 ≤
            ∑ t, ∑ d, (X t d - ∑ i, W t i * ∑ j, C i j * X j d) ^ 2 + ε) := by
  have hn : 1 ≤ n := hk.trans hkn
  have hn' : (0 : K) < n := by exact_mod_cast hn
  have hq : (0 : K) < (n : K) ^ 2 + k := by positivity
  have hE : ∀ t, ∑ d, X t d ^ 2 ≤ 499950000 / ((n : K) ^ 2 + k) := fun t => by
    rw [le_div_iff₀ hq]
    exact hX t
  obtain ⟨tol, htol, key⟩ := C87_aa_fit_near_optimal (K := K) (k := k)
    ⟨1, 1 / 10 ^ 4, 1 / 10 ^ 3, 10 ^ 3, 1 / 10, 9 / 10, 1 / 10 ^ 12⟩ (by norm_num) (by norm_num)
    (by norm_num) (by norm_num) (by norm_num) (by norm_num) rfl hn hk X _ hE
    (default_floor (by rw [div_mul_cancel₀ _ hq.ne'])) ε hε
  refine ⟨tol, htol, fun t ht0 ht => ?_⟩
  obtain ⟨M, hM⟩ := key t ht0 ht
  refine ⟨M + 1, fun m hm env hR hpos rs obj hobj => ?_⟩
  have ho : obj = { nComponents := .int k, delta := 0, init := none, tolerance := .real t
                    maxIterations := .int m, randomState := rs
                    ls := ⟨1, 1 / 10 ^ 4, 1 / 10 ^ 3, 10 ^ 3, 1 / 10, 9 / 10, 1 / 10 ^ 12⟩
                    require := true } := by
    unfold kaaInit kaaNew at hobj
    simp only [show ¬ ((k : ℤ) < 0) by omega, if_false, Py.ok_bind] at hobj
    obtain ⟨ls, hls, h⟩ := Py.bind_eq_ok.1 hobj
    rw [solverSettings_default hls] at h
    simp only [Py.pure_eq, Py.ok.injEq] at h
    rw [← h]
    rfl
  obtain ⟨hs, hd, hb⟩ := linear_kernel_bounds X hE
  have hE0 : (0 : K) ≤ 499950000 / ((n : K) ^ 2 + k) := by positivity
  have hfl := default_suits (K := K) (L := 499950000 / ((n : K) ^ 2 + k) * (n : K) ^ 2) (by
    rw [div_mul_eq_mul_div, div_le_iff₀ hq]
    have : (0 : K) ≤ k := Nat.cast_nonneg k
    nlinarith)
  obtain ⟨⟨o, G, i⟩, h⟩ := C102_kaa_fit_returns_with_floor hR hpos obj
    (by rw [ho]; norm_num) (by rw [ho]; norm_num) (by rw [ho]; norm_num) (by rw [ho]; norm_num)
    (by rw [ho]; norm_num) (by rw [ho]; norm_num) (by rw [ho]; norm_num) (by rw [ho])
    (by rw [ho]) (by rw [ho]; exact Or.inl rfl)
    (by rw [ho]; exact ⟨⟨k, rfl, by omega⟩, ⟨m, rfl, by omega⟩, Or.inr ⟨_, rfl, ht0.le⟩⟩)
    (by rw [ho]) hkn (X * Xᵀ) hs hd _ hb (by rw [ho]; norm_num) (by rw [ho]; norm_num)
    (by rw [ho]; exact hfl.floor2) none none
  obtain ⟨S, C, rfl, e2, hS, hC, n1, n2⟩ := hM m (by omega) hR obj (by rw [ho]) (by rw [ho])
    (by rw [ho]) (by rw [ho]) none none {} true true (by simp) (by simp) o G i h
  exact ⟨o, i, S, C, h, e2, hS, hC, n1 rfl, n2 rfl⟩

/-- C88 for `GPNHConvexCoding` with the default settings of the line search, `epsilon_states > 0` and
`init='furthest_sum'`: near-optimality for all data of moderate size. -/
theorem C88_gpnh_default_near_optimal [Archimedean K] (hk : 1 ≤ k)
    (X : Matrix (Fin T) (Fin D) K) (hDT : D * T ≠ 0) (eps : K) (heps : 0 < eps)
    (hX : gpnhCurvature T D k eps (gpnhLevel eps X k (gpnhCostBound eps X k (k * frobSq X))) ≤
      499950000) (ε : K) (hε : 0 < ε) :
    ∃ tol : K, 0 < tol ∧ ∀ t : K, 0 < t → t ≤ tol → ∃ M : ℕ, ∀ m : ℕ, M ≤ m →
      ∀ {env : Env K}, env.rng.Lawful → ∀ (g : env.rng.G) (obj : GPNHObj env.rng),
      gpnhNew g (.int k) (epsilonStates := eps) (init := some "furthest_sum")
        (tolerance := .real t) (maxIterations := .int m) = Py.ok obj →
      ∀ (dictionary weights : Option (Arr2 K)) (kw : InitKwargs)
      (obj' : GPNHObj env.rng) (G : Option (Arr2 K)) (info : FitInfo K),
      gpnhFitTransform env obj (Arr2.of X) dictionary weights kw = Py.ok (obj', G, info) →
      ∃ (W : Matrix (Fin T) (Fin k) K) (S : Matrix (Fin k) (Fin D) K),
        G = some (Arr2.of W) ∧ obj'.dictionary_ = some (Arr2.of S) ∧
        obj'.cost_ = some (gpnhCost eps X W S) ∧ RowStochastic W ∧
        (∀ S', gpnhCost eps X W S ≤ gpnhCost eps X W S' + ε) ∧
        (∀ W', RowStochastic W' → gpnhCost eps X W S ≤ gpnhCost eps X W' S + ε) := by
  obtain ⟨tol, htol, key⟩ := C88_gpnh_furthest_sum_near_optimal (K := K) (k := k)
    ⟨1, 1 / 10 ^ 4, 1 / 10 ^ 3, 10 ^ 3, 1 / 10, 9 / 10, 1 / 10 ^ 12⟩ (by norm_num) (by norm_num)
    (by norm_num) (by norm_num) (by norm_num) (by norm_num) rfl hk X hDT eps (Or.inl heps) ε hε
    (default_floor hX)
  refine ⟨tol, htol, fun t ht0 ht => ?_⟩
  obtain ⟨M, hM⟩ := key t ht0 ht
  refine ⟨M, fun m hm env hR g obj hobj dictionary weights kw obj' G info h => ?_⟩
  unfold gpnhNew at hobj
  obtain ⟨ls, hls, ho⟩ := Py.bind_eq_ok.1 hobj
  rw [solverSettings_default hls] at ho
  simp only [Py.pure_eq, Py.ok.injEq] at ho
  exact hM m hm hR obj (by rw [← ho]) (by rw [← ho]) (by rw [← ho]) (by rw [← ho]) (by rw [← ho])
    (by rw [← ho]) dictionary weights kw obj' G info h

/-- C97 for `MTDConvexCoding` with the default settings of the line search, `epsilon_states > 0` and
`init='furthest_sum'`: near-optimality for all data of moderate size. -/
theorem C97_mtd_default_near_optimal [Archimedean K] (hk : 1 ≤ k) (lags : Fin p → ℕ)
    (hlag : ∀ i, 1 ≤ lags i) (X : Matrix (Fin T) (Fin D) K) (hDT : D * T ≠ 0) (epsS epsW : K)
    (he : 0 < epsS) (heW : 0 ≤ epsW)
    (hX : mtdCurvature T D k (⟨lags, epsS, epsW,
        ⟨1, 1 / 10 ^ 4, 1 / 10 ^ 3, 10 ^ 3, 1 / 10, 9 / 10, 1 / 10 ^ 12⟩⟩ : MTDConfig p K)
      (gpnhLevel epsS X k (mtdCostBound epsS epsW lags X k (k * frobSq X))) ≤ 499950000)
    (ε : K) (hε : 0 < ε) :
    ∃ tol : K, 0 < tol ∧ ∀ t : K, 0 < t → t ≤ tol → ∃ M : ℕ, ∀ m : ℕ, M ≤ m →
      ∀ {env : Env K}, env.rng.Lawful → ∀ (g : env.rng.G) (l : Option (List (NumArg K)))
      (obj : MTDObj env.rng p),
      mtdNew g (.int k) (lags := l) (epsilonStates := epsS) (epsilonWeights := epsW)
        (init := some "furthest_sum") (tolerance := .real t) (maxIterations := .int m) =
        Py.ok ⟨p, obj⟩ → obj.lags = lags →
      ∀ (args : MTDArgs K) (obj' : MTDObj env.rng p) (G : Option (Arr2 K)) (info : FitInfo K),
      mtdFitTransform env obj (Arr2.of X) args {} {} = Py.ok (obj', G, info) →
      ∃ (W : Matrix (Fin T) (Fin k) K) (S : Matrix (Fin k) (Fin D) K) (w : Fin p → K)
        (A : Fin p → Matrix (Fin k) (Fin k) K),
        obj'.vars = some ⟨T, D, k, W, S, w, A⟩ ∧ G = some (Arr2.of W) ∧
        obj'.cost_ = some (mtdCost epsS epsW lags X W S w A) ∧
        RowStochastic W ∧ IsProb w ∧ (∀ i, ColStochastic (A i)) ∧
        (∀ S', mtdCost epsS epsW lags X W S w A ≤ mtdCost epsS epsW lags X W S' w A + ε) ∧
        (∀ W', RowStochastic W' →
          mtdCost epsS epsW lags X W S w A ≤ mtdCost epsS epsW lags X W' S w A + ε) ∧
        (∀ w', IsProb w' → mtdCost epsS epsW lags X W S w A ≤
          mtdCost epsS epsW lags X W S w' A + ε) ∧
        ∀ A' : Fin p → Matrix (Fin k) (Fin k) K, (∀ i, ColStochastic (A' i)) →
          mtdCost epsS epsW lags X W S w A ≤ mtdCost epsS epsW lags X W S w A' + ε := by
  obtain ⟨tol, htol, key⟩ := C97_mtd_furthest_sum_near_optimal (K := K) (k := k)
    ⟨1, 1 / 10 ^ 4, 1 / 10 ^ 3, 10 ^ 3, 1 / 10, 9 / 10, 1 / 10 ^ 12⟩ (by norm_num) (by norm_num)
    (by norm_num) (by norm_num) (by norm_num) (by norm_num) (by norm_num) rfl hk lags hlag X hDT
    epsS epsW (Or.inl he) heW ε hε (default_floor hX)
  refine ⟨tol, htol, fun t ht0 ht => ?_⟩
  obtain ⟨M, hM⟩ := key t ht0 ht
  refine ⟨M, fun m hm env hR g l obj hobj hla args obj' G info h => ?_⟩
  unfold mtdNew at hobj
  obtain ⟨l, hl, hobj⟩ := Py.bind_eq_ok.1 hobj
  obtain ⟨ls, hls, ho⟩ := Py.bind_eq_ok.1 hobj
  rw [solverSettings_default hls] at ho
  simp only [Py.pure_eq, Py.ok.injEq, Sigma.mk.injEq] at ho
  obtain ⟨hp, ho⟩ := ho
  subst hp
  have ho := eq_of_heq ho
  exact hM m hm hR obj (by rw [← ho]) hla (by rw [← ho]) (by rw [← ho]) (by rw [← ho])
    (by rw [← ho]) (by rw [← ho]) (by rw [← ho]) args obj' G info h

/-! ### Instances -/

/-- Two archetypes of four samples, with default settings: fits return, and no other dictionary and
no other weights lower the squared residual by more than 1/100. -/
example : ∃ tol : ℚ, 0 < tol ∧ ∃ m : ℕ, ∃ (obj obj' : KAAObj demoEnv.rng) (info : FitInfo ℚ)
    (S : Matrix (Fin 4) (Fin 2) ℚ),
    kaaInit (.int 2) (tolerance := .real tol) (maxIterations := .int m) (randomState := .seed 3) =
      Py.ok obj ∧
    aaFitTransform demoEnv obj none
      (Arr2.of (!![100, 200; 300, -500; 0, 400; 250, 50] : Matrix (Fin 4) (Fin 2) ℚ))
      none none {} = Py.ok (obj', some (Arr2.of S), info) := by
  obtain ⟨tol, htol, key⟩ := C87_aa_default_near_optimal (k := 2) (by norm_num) (by norm_num)
    (!![100, 200; 300, -500; 0, 400; 250, 50] : Matrix (Fin 4) (Fin 2) ℚ) (by
      intro t
      fin_cases t <;> norm_num [Fin.sum_univ_two]) (1 / 100) (by norm_num)
  obtain ⟨M, hM⟩ := key tol htol le_rfl
  obtain ⟨obj, hobj⟩ : ∃ obj : KAAObj demoEnv.rng, kaaInit (.int 2) (tolerance := .real tol)
      (maxIterations := .int M) (randomState := .seed 3) = Py.ok obj := ⟨_, rfl⟩
  obtain ⟨obj', info, S, C, h, -⟩ := hM M le_rfl demoRng_lawful demoRng_uniform_pos (.seed 3) obj
    hobj
  exact ⟨tol, htol, M, obj, obj', info, S, hobj, h⟩

/-- Data and penalties of moderate size in the sense of the theorems on the other two models. -/
example :
    gpnhCurvature 4 2 2 (1 / 10 : ℚ) (gpnhLevel (1 / 10)
      !![100, 200; 300, -500; 0, 400; 250, 50] 2 (gpnhCostBound (1 / 10)
        !![100, 200; 300, -500; 0, 400; 250, 50] 2
        (2 * frobSq (!![100, 200; 300, -500; 0, 400; 250, 50] : Matrix (Fin 4) (Fin 2) ℚ)))) ≤
      499950000 ∧
    mtdCurvature 4 2 2 (⟨![1], 1 / 10, 1 / 5,
        ⟨1, 1 / 10 ^ 4, 1 / 10 ^ 3, 10 ^ 3, 1 / 10, 9 / 10, 1 / 10 ^ 12⟩⟩ : MTDConfig 1 ℚ)
      (gpnhLevel (1 / 10) !![100, 200; 300, -500; 0, 400; 250, 50] 2
        (mtdCostBound (1 / 10) (1 / 5) ![1] !![100, 200; 300, -500; 0, 400; 250, 50] 2
        (2 * frobSq (!![100, 200; 300, -500; 0, 400; 250, 50] : Matrix (Fin 4) (Fin 2) ℚ)))) ≤
      499950000 := by
  have ht : topLag (![1] : Fin 1 → ℕ) = 1 := rfl
  have hX : frobSq (!![100, 200; 300, -500; 0, 400; 250, 50] : Matrix (Fin 4) (Fin 2) ℚ) =
      615000 := by
    simp [frobSq, Fin.sum_univ_succ]
    norm_num
  constructor
  · norm_num [gpnhCurvature, gpnhLevel, gpnhCostBound, hX]
  · norm_num [mtdCurvature, MTDState.paramsCurvature, mtdCoef, mtdCostBound, gpnhCurvature,
      gpnhLevel, gpnhCostBound, hX, ht]

end Reor
