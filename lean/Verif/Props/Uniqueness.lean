import Verif.Props.Regularisation
import Verif.Props.ConvergeGPNH
import Verif.Props.Converge
import Mathlib.LinearAlgebra.Basis.VectorSpace
import Mathlib.Algebra.Order.BigOperators.Ring.Finset

/-!
What the weights of a sample mean: its reconstruction is the nearest point of the convex hull of the
dictionary, and the weights are determined by it if the dictionary elements are affinely independent
(C121).
-/

namespace Reor

set_option linter.unusedSectionVars false

open scoped BigOperators Matrix
open Spec

variable {K : Type} [Field K] [LinearOrder K] [IsStrictOrderedRing K]
variable {T T' D k : ℕ}

/-- The point with weights `w`. -/
def mix (w : Fin k → K) (S : Matrix (Fin k) (Fin D) K) : Fin D → K := fun d => ∑ i, w i * S i d

/-- `mix w S` is the nearest to `x` of all points of the convex hull of the rows of `S`. -/
def NearestInHull (S : Matrix (Fin k) (Fin D) K) (x : Fin D → K) (w : Fin k → K) : Prop :=
  ∀ v, IsProb v → sqDist x (mix w S) ≤ sqDist x (mix v S)

/-- No row is an affine combination of the others. -/
def AffIndep (S : Matrix (Fin k) (Fin D) K) : Prop :=
  ∀ v : Fin k → K, ∑ i, v i = 0 → mix v S = 0 → v = 0

/-! ### Auxiliary facts -/

theorem reconstruction_eq (X : Matrix (Fin T) (Fin D) K) (W : Matrix (Fin T) (Fin k) K)
    (S : Matrix (Fin k) (Fin D) K) :
    ∑ t, ∑ d, (X t d - ∑ i, W t i * S i d) ^ 2 = ∑ t, sqDist (X t) (mix (W t) S) := rfl

theorem gpnhCost_le_iff {eps : K} (X : Matrix (Fin T) (Fin D) K) (W W' : Matrix (Fin T) (Fin k) K)
    (S : Matrix (Fin k) (Fin D) K) (hDT : D * T ≠ 0) :
    gpnhCost eps X W S ≤ gpnhCost eps X W' S ↔
      ∑ t, sqDist (X t) (mix (W t) S) ≤ ∑ t, sqDist (X t) (mix (W' t) S) := by
  have h : (0 : K) < (D : K) * (T : K) := by exact_mod_cast Nat.pos_of_ne_zero hDT
  rw [gpnhCost_split, gpnhCost_split, add_le_add_iff_right]
  exact div_le_div_iff_of_pos_right h

/-- The sum over the samples is smallest exactly if every term is. -/
theorem sum_nearest_iff {X : Matrix (Fin T) (Fin D) K} {W : Matrix (Fin T) (Fin k) K}
    {S : Matrix (Fin k) (Fin D) K} (hW : RowStochastic W) :
    (∀ W', RowStochastic W' →
      ∑ t, sqDist (X t) (mix (W t) S) ≤ ∑ t, sqDist (X t) (mix (W' t) S)) ↔
    ∀ t, NearestInHull S (X t) (W t) := by
  constructor
  · intro h t v hv
    have h1 : ∑ r, sqDist (X r) (mix (W r) S) ≤
        ∑ r, sqDist (X r) (mix (if r = t then v else W r) S) :=
      h (fun r => if r = t then v else W r) fun r => by
        by_cases hr : r = t
        · simpa [hr] using hv
        · simpa [hr] using hW r
    rw [← Finset.add_sum_erase _ _ (Finset.mem_univ t),
      ← Finset.add_sum_erase _ (fun r => sqDist (X r) (mix (if r = t then v else W r) S))
        (Finset.mem_univ t),
      Finset.sum_congr (s₂ := Finset.univ.erase t)
        (f := fun r => sqDist (X r) (mix (if r = t then v else W r) S))
        (g := fun r => sqDist (X r) (mix (W r) S)) rfl fun r hr => by
          rw [if_neg (Finset.ne_of_mem_erase hr)]] at h1
    have h2 := le_of_add_le_add_right h1
    rwa [if_pos rfl] at h2
  · exact fun h W' hW' => Finset.sum_le_sum fun t _ => h t _ (hW' t)

/-- The parallelogram law for the middle between two reconstructions. -/
theorem sqDist_mid (x : Fin D → K) (v w : Fin k → K) (S : Matrix (Fin k) (Fin D) K) :
    sqDist x (mix (fun i => (v i + w i) / 2) S) =
      (sqDist x (mix v S) + sqDist x (mix w S)) / 2 - sqDist (mix v S) (mix w S) / 4 := by
  have h : ∀ d, mix (fun i => (v i + w i) / 2) S d = (mix v S d + mix w S d) / 2 := by
    intro d
    unfold mix
    rw [← Finset.sum_add_distrib, Finset.sum_div]
    exact Finset.sum_congr rfl fun i _ => by ring
  unfold sqDist
  rw [Finset.sum_div, ← Finset.sum_add_distrib, Finset.sum_div, ← Finset.sum_sub_distrib]
  refine Finset.sum_congr rfl fun d _ => ?_
  rw [h d]
  ring

theorem isProb_mid {v w : Fin k → K} (hv : IsProb v) (hw : IsProb w) :
    IsProb fun i => (v i + w i) / 2 := by
  refine ⟨fun i => by have := hv.1 i; have := hw.1 i; positivity, ?_⟩
  rw [← Finset.sum_div, Finset.sum_add_distrib, hv.2, hw.2]
  norm_num

/-- Weights that are optimal up to `ε` have almost the same reconstruction. -/
theorem near_reconstruction {X : Matrix (Fin T) (Fin D) K} {S : Matrix (Fin k) (Fin D) K}
    {V W : Matrix (Fin T) (Fin k) K} {ε : K} (hV : RowStochastic V) (hW : RowStochastic W)
    (h1 : ∀ W', RowStochastic W' →
      ∑ t, sqDist (X t) (mix (V t) S) ≤ ∑ t, sqDist (X t) (mix (W' t) S) + ε)
    (h2 : ∀ W', RowStochastic W' →
      ∑ t, sqDist (X t) (mix (W t) S) ≤ ∑ t, sqDist (X t) (mix (W' t) S) + ε) :
    ∑ t, sqDist (mix (V t) S) (mix (W t) S) ≤ 4 * ε := by
  have hM : RowStochastic (fun t i => (V t i + W t i) / 2 : Matrix (Fin T) (Fin k) K) :=
    fun t => isProb_mid (hV t) (hW t)
  have a := h1 _ hM
  have b := h2 _ hM
  have e : ∑ t, sqDist (X t) (mix (fun i => (V t i + W t i) / 2) S) =
      (∑ t, sqDist (X t) (mix (V t) S) + ∑ t, sqDist (X t) (mix (W t) S)) / 2 -
        (∑ t, sqDist (mix (V t) S) (mix (W t) S)) / 4 := by
    rw [← Finset.sum_add_distrib, Finset.sum_div, Finset.sum_div, ← Finset.sum_sub_distrib]
    exact Finset.sum_congr rfl fun t _ => sqDist_mid _ _ _ _
  have a' : ∑ t, sqDist (X t) (mix (V t) S) ≤
    ∑ t, sqDist (X t) (mix (fun i => (V t i + W t i) / 2) S) + ε := a
  have b' : ∑ t, sqDist (X t) (mix (W t) S) ≤
    ∑ t, sqDist (X t) (mix (fun i => (V t i + W t i) / 2) S) + ε := b
  rw [e] at a' b'
  linarith

theorem mix_sub (v w : Fin k → K) (S : Matrix (Fin k) (Fin D) K) (d : Fin D) :
    mix (fun i => v i - w i) S d = mix v S d - mix w S d := by
  unfold mix
  rw [← Finset.sum_sub_distrib]
  exact Finset.sum_congr rfl fun i _ => by ring

/-- Affinely independent elements: a small change of the point is a small change of the weights. -/
theorem AffIndep.bound {S : Matrix (Fin k) (Fin D) K} (hS : AffIndep S) :
    ∃ c : K, 0 ≤ c ∧ ∀ v w : Fin k → K, ∑ i, v i = ∑ i, w i →
      sqDist v w ≤ c * sqDist (mix v S) (mix w S) := by
  let φ : (Fin k → K) →ₗ[K] (Fin D → K) × K :=
    { toFun := fun v => (mix v S, ∑ i, v i)
      map_add' := fun v w => by
        refine Prod.ext (funext fun d => ?_) ?_
        · simp [mix, add_mul, Finset.sum_add_distrib]
        · simp [Finset.sum_add_distrib]
      map_smul' := fun a v => by
        refine Prod.ext (funext fun d => ?_) ?_
        · simp [mix, mul_assoc, Finset.mul_sum]
        · simp [Finset.mul_sum] }
  have hφ : LinearMap.ker φ = ⊥ := by
    rw [LinearMap.ker_eq_bot']
    intro v hv
    exact hS v (congrArg Prod.snd hv) (congrArg Prod.fst hv)
  obtain ⟨g, hg⟩ := LinearMap.exists_leftInverse_of_injective φ hφ
  refine ⟨∑ i, ∑ d, g (Pi.single d 1, 0) i ^ 2, Finset.sum_nonneg fun _ _ =>
    Finset.sum_nonneg fun _ _ => sq_nonneg _, fun v w hvw => ?_⟩
  have key : ∀ i, v i - w i = ∑ d, (mix v S d - mix w S d) * g (Pi.single d 1, 0) i := by
    intro i
    have h1 : g (φ fun i => v i - w i) = fun i => v i - w i :=
      LinearMap.congr_fun hg fun i => v i - w i
    have h2 : φ (fun i => v i - w i) =
        ∑ d, (mix v S d - mix w S d) • ((Pi.single d 1 : Fin D → K), (0 : K)) := by
      refine Prod.ext (funext fun d => ?_) ?_
      · rw [Prod.fst_sum, Finset.sum_apply]
        change mix (fun i => v i - w i) S d = _
        rw [mix_sub, Finset.sum_eq_single d]
        · simp
        · intro d' _ hd
          simp [Ne.symm hd]
        · simp
      · rw [Prod.snd_sum]
        change ∑ i, (v i - w i) = _
        simp [hvw]
    rw [h2, map_sum] at h1
    have h3 := congrFun h1 i
    rw [Finset.sum_apply] at h3
    rw [← h3]
    refine Finset.sum_congr rfl fun d _ => ?_
    rw [map_smul]
    rfl
  unfold sqDist
  rw [Finset.sum_mul]
  refine Finset.sum_le_sum fun i _ => ?_
  rw [key i, mul_comm]
  exact Finset.sum_mul_sq_le_sq_mul_sq _ _ _

theorem AffIndep.unique {S : Matrix (Fin k) (Fin D) K} (hS : AffIndep S) {v w : Fin k → K}
    (hv : IsProb v) (hw : IsProb w) (h : mix v S = mix w S) : v = w := by
  have := hS (fun i => v i - w i) (by rw [Finset.sum_sub_distrib, hv.2, hw.2, sub_self])
    (funext fun d => by rw [mix_sub, h, sub_self]; rfl)
  exact funext fun i => sub_eq_zero.1 (congrFun this i)

theorem NearestInHull.mix_eq {S : Matrix (Fin k) (Fin D) K} {x : Fin D → K} {v w : Fin k → K}
    (hv : IsProb v) (hw : IsProb w) (h1 : NearestInHull S x v) (h2 : NearestInHull S x w) :
    mix v S = mix w S := by
  have a := h1 _ (isProb_mid hv hw)
  have b := h2 _ (isProb_mid hv hw)
  rw [sqDist_mid] at a b
  have hs : sqDist (mix v S) (mix w S) ≤ 0 := by linarith
  have h0 := (Finset.sum_eq_zero_iff_of_nonneg fun d _ => sq_nonneg _).1
    (le_antisymm hs (Finset.sum_nonneg fun d _ => sq_nonneg _))
  exact funext fun d => sub_eq_zero.1 (sq_eq_zero_iff.1 (h0 d (Finset.mem_univ d)))

theorem linear_kernel_psd {n : ℕ} (X : Matrix (Fin n) (Fin D) K) (v : Fin n → K) :
    0 ≤ ∑ i, ∑ j, v i * (X * Xᵀ) i j * v j := by
  have e : ∑ i, ∑ j, v i * (X * Xᵀ) i j * v j = ∑ d, (∑ i, v i * X i d) ^ 2 := by
    have e1 : ∀ i, ∑ j, v i * (X * Xᵀ) i j * v j = ∑ d, ∑ j, v i * X i d * (v j * X j d) := by
      intro i
      rw [Finset.sum_comm]
      refine Finset.sum_congr rfl fun j _ => ?_
      rw [Matrix.mul_apply, Finset.mul_sum, Finset.sum_mul]
      refine Finset.sum_congr rfl fun d _ => ?_
      rw [Matrix.transpose_apply]
      ring
    rw [Finset.sum_congr rfl fun i _ => e1 i, Finset.sum_comm]
    refine Finset.sum_congr rfl fun d _ => ?_
    rw [pow_two, Finset.sum_mul_sum]
  rw [e]
  positivity

/-! ### C121: weights that an update does not change -/

/-- C121.  A completed update of the GPNH weights leaves them unchanged exactly if the reconstruction of
every sample is the point of the convex hull of the dictionary that is nearest to it. -/
theorem C121_gpnh_stays_iff_nearest (cfg : LSConfig K) (h1 : 0 < cfg.sigmaOne) (eps : K) (hk : 1 ≤ k)
    (s s' : GPNHState T D k K) (hW : RowStochastic s.Gamma) (ha : 0 < s.alphaGamma)
    (h : s.updateWeights cfg eps = Py.ok s') :
    s'.Gamma = s.Gamma ↔ ∀ t, NearestInHull s.S (s.X t) (s.Gamma t) := by
  rw [C86_gpnh_weights_fixed_iff_optimal cfg h1 eps hk s s' hW ha h, ← sum_nearest_iff hW]
  by_cases hDT : D * T = 0
  · rcases Nat.mul_eq_zero.1 hDT with rfl | rfl
    · refine iff_of_true (fun W _ => ?_) (fun W _ => ?_)
      · simp [gpnhCost]
      · simp [sqDist]
    · refine iff_of_true (fun W _ => ?_) (fun W _ => ?_)
      · simp [gpnhCost]
      · simp
  · exact forall_congr' fun W => imp_congr_right fun _ => gpnhCost_le_iff _ _ _ _ hDT

/-- C121.  Whether the weights of a sample stay does not depend on the other samples: weights that stay
for some data also stay for any selection of their samples. -/
theorem C121_gpnh_samples_independent (cfg cfg' : LSConfig K) (h1 : 0 < cfg.sigmaOne)
    (h1' : 0 < cfg'.sigmaOne) (eps eps' : K) (hk : 1 ≤ k) (f : Fin T' → Fin T)
    (s s' : GPNHState T D k K) (r r' : GPNHState T' D k K) (hW : RowStochastic s.Gamma)
    (ha : 0 < s.alphaGamma) (ha' : 0 < r.alphaGamma) (hS : r.S = s.S)
    (hX : ∀ t, r.X t = s.X (f t)) (hG : ∀ t, r.Gamma t = s.Gamma (f t))
    (h : s.updateWeights cfg eps = Py.ok s') (h' : r.updateWeights cfg' eps' = Py.ok r')
    (hfix : s'.Gamma = s.Gamma) : r'.Gamma = r.Gamma := by
  have hW' : RowStochastic r.Gamma := fun t => by
    have := hW (f t)
    rwa [← hG t] at this
  refine (C121_gpnh_stays_iff_nearest cfg' h1' eps' hk r r' hW' ha' h').2 fun t => ?_
  rw [hS, hX, hG]
  exact (C121_gpnh_stays_iff_nearest cfg h1 eps hk s s' hW ha h).1 hfix (f t)

/-- C121.  For given data and dictionary there is only one reconstruction by weights that stay,
whatever the settings.  It is exact for samples in the convex hull of the dictionary.  If the
dictionary elements are affinely independent, there is only one set of weights that stay. -/
theorem C121_gpnh_unique (cfg cfg' : LSConfig K) (h1 : 0 < cfg.sigmaOne) (h1' : 0 < cfg'.sigmaOne)
    (eps eps' : K) (hk : 1 ≤ k) (s s' r r' : GPNHState T D k K) (hW : RowStochastic s.Gamma)
    (hW' : RowStochastic r.Gamma) (ha : 0 < s.alphaGamma) (ha' : 0 < r.alphaGamma) (hS : r.S = s.S)
    (hX : r.X = s.X) (h : s.updateWeights cfg eps = Py.ok s')
    (h' : r.updateWeights cfg' eps' = Py.ok r') (hfix : s'.Gamma = s.Gamma)
    (hfix' : r'.Gamma = r.Gamma) :
    s.Gamma * s.S = r.Gamma * s.S ∧
    (∀ t v, IsProb v → (s.X t = fun d => ∑ i, v i * s.S i d) →
      ∀ d, ∑ i, s.Gamma t i * s.S i d = s.X t d) ∧
    (AffIndep s.S → s.Gamma = r.Gamma) := by
  have a := (C121_gpnh_stays_iff_nearest cfg h1 eps hk s s' hW ha h).1 hfix
  have b := (C121_gpnh_stays_iff_nearest cfg' h1' eps' hk r r' hW' ha' h').1 hfix'
  rw [hS, hX] at b
  have key : ∀ t, mix (s.Gamma t) s.S = mix (r.Gamma t) s.S :=
    fun t => NearestInHull.mix_eq (hW t) (hW' t) (a t) (b t)
  refine ⟨?_, fun t v hv hx d => ?_, fun hI => ?_⟩
  · ext t d
    rw [Matrix.mul_apply, Matrix.mul_apply]
    exact congrFun (key t) d
  · have hn : NearestInHull s.S (s.X t) v := fun w _ => by
      have : sqDist (s.X t) (mix v s.S) = 0 := by
        rw [hx]
        simp [sqDist, mix]
      rw [this]
      exact Finset.sum_nonneg fun _ _ => sq_nonneg _
    exact (congrFun (NearestInHull.mix_eq (hW t) hv (a t) hn) d).trans (congrFun hx d).symm
  · exact funext fun t => hI.unique (hW t) (hW' t) (key t)

/-- C121: for two equal dictionary elements there are several. -/
theorem C121_gpnh_unique_needs_independence : ∃ s s' r r' : GPNHState 1 1 2 ℚ,
    RowStochastic s.Gamma ∧ RowStochastic r.Gamma ∧ 0 < s.alphaGamma ∧ 0 < r.alphaGamma ∧
    r.S = s.S ∧ r.X = s.X ∧ s.updateWeights demoLS 0 = Py.ok s' ∧
    r.updateWeights demoLS 0 = Py.ok r' ∧ s'.Gamma = s.Gamma ∧ r'.Gamma = r.Gamma ∧
    s.Gamma ≠ r.Gamma := by
  obtain ⟨s', hs'⟩ := (C09_gpnh demoLS (by norm_num [demoLS]) 219 (by norm_num [demoLS]) 0
    (GPNHState.initializeWorkspace (k := 2) demoLS !![3] !![1, 0] !![1; 1])).2
    (by simp [GPNHState.initializeWorkspace, demoLS])
  obtain ⟨r', hr'⟩ := (C09_gpnh demoLS (by norm_num [demoLS]) 219 (by norm_num [demoLS]) 0
    (GPNHState.initializeWorkspace (k := 2) demoLS !![3] !![0, 1] !![1; 1])).2
    (by simp [GPNHState.initializeWorkspace, demoLS])
  have h1 : RowStochastic (!![1, 0] : Matrix (Fin 1) (Fin 2) ℚ) := by
    intro i
    refine ⟨fun j => ?_, ?_⟩
    · fin_cases i; fin_cases j <;> norm_num
    · fin_cases i; norm_num [Fin.sum_univ_two]
  have h2 : RowStochastic (!![0, 1] : Matrix (Fin 1) (Fin 2) ℚ) := by
    intro i
    refine ⟨fun j => ?_, ?_⟩
    · fin_cases i; fin_cases j <;> norm_num
    · fin_cases i; norm_num [Fin.sum_univ_two]
  have hn : ∀ (x : Fin 1 → ℚ) (w : Fin 2 → ℚ), w 0 + w 1 = 1 →
      NearestInHull (!![1; 1] : Matrix (Fin 2) (Fin 1) ℚ) x w := by
    intro x w hw v hv
    have hv2 := hv.2
    rw [Fin.sum_univ_two] at hv2
    simp [sqDist, mix, Fin.sum_univ_two, hw, hv2]
  refine ⟨GPNHState.initializeWorkspace demoLS !![3] !![1, 0] !![1; 1], s',
    GPNHState.initializeWorkspace demoLS !![3] !![0, 1] !![1; 1], r', h1, h2, by norm_num [GPNHState.initializeWorkspace],
    by norm_num [GPNHState.initializeWorkspace], rfl, rfl, hs', hr',
    (C121_gpnh_stays_iff_nearest demoLS (by norm_num [demoLS]) 0 (by norm_num) _ _ h1
      (by norm_num [GPNHState.initializeWorkspace]) hs').2 fun t => hn _ _ ?_,
    (C121_gpnh_stays_iff_nearest demoLS (by norm_num [demoLS]) 0 (by norm_num) _ _ h2
      (by norm_num [GPNHState.initializeWorkspace]) hr').2 fun t => hn _ _ ?_, fun h => ?_⟩
  · fin_cases t
    norm_num [GPNHState.initializeWorkspace]
  · fin_cases t
    norm_num [GPNHState.initializeWorkspace]
  · have h0 : (1 : ℚ) = 0 := congrFun (congrFun h 0) 0
    norm_num at h0

/-! ### C121: `transform` -/

/-- C121.  For every accuracy there are a tolerance and a number of iterations with which `transform`
of GPNH convex coding, from any two random starts, gives reconstructions of the same data that agree
to this accuracy; and weights that do, if the dictionary elements are affinely independent. -/
theorem C121_gpnh_transform_reproducible [Archimedean K] (cfg : LSConfig K)
    (h1 : 0 < cfg.sigmaOne) (h2 : cfg.sigmaTwo < 1) (hg0 : 0 < cfg.gamma) (hg1 : cfg.gamma < 1)
    (ha0 : 0 < cfg.alphaMin) (ha1 : cfg.alphaMin ≤ cfg.alphaMax)
    (hmem : cfg.memory = 1) (hk : 1 ≤ k) (X : Matrix (Fin T) (Fin D) K) (eps : K) (he : 0 ≤ eps)
    (S : Matrix (Fin k) (Fin D) K)
    (hf : cfg.Floor (max 1 cfg.alphaMax * gpnhCurvature T D k eps (frobSq S))) (δ : K) (hδ : 0 < δ) :
    ∃ tol : K, 0 < tol ∧ ∀ t : K, 0 < t → t ≤ tol → ∃ M : ℕ, ∀ m : ℕ, M ≤ m →
      ∀ {env : Env K}, env.rng.Lawful → ∀ (obj₁ obj₂ : GPNHObj env.rng),
      (∀ o, o = obj₁ ∨ o = obj₂ → o.ls = cfg ∧ o.epsilonStates = eps ∧ o.nComponents = .int k ∧
        o.tolerance = .real t ∧ o.maxIterations = .int m ∧ o.S = some (Arr2.of S)) →
      ∀ (r₁ r₂ : GPNHObj env.rng × Option (Arr2 K) × FitInfo K),
      gpnhTransform env obj₁ (Arr2.of X) = Py.ok r₁ →
      gpnhTransform env obj₂ (Arr2.of X) = Py.ok r₂ →
      ∃ W₁ W₂ : Matrix (Fin T) (Fin k) K,
        r₁.2.1 = some (Arr2.of W₁) ∧ r₂.2.1 = some (Arr2.of W₂) ∧
        frobSq (W₁ * S - W₂ * S) ≤ δ ∧ (AffIndep S → frobSq (W₁ - W₂) ≤ δ) := by
  obtain ⟨c, hc0, hc⟩ : ∃ c : K, 0 ≤ c ∧ (AffIndep S → ∀ v w : Fin k → K, ∑ i, v i = ∑ i, w i →
      sqDist v w ≤ c * sqDist (mix v S) (mix w S)) := by
    by_cases hS : AffIndep S
    · obtain ⟨c, h0, h⟩ := hS.bound
      exact ⟨c, h0, fun _ => h⟩
    · exact ⟨0, le_rfl, fun h => absurd h hS⟩
  have hc4 : (0 : K) < 4 * (c + 1) := by linarith
  obtain ⟨tol, htol, key⟩ := C88_gpnh_transform_near_optimal (k := k) cfg h1 h2 hg0 hg1 ha0 ha1 hmem
    hk X eps he S (δ / (4 * (c + 1))) (div_pos hδ hc4) hf
  refine ⟨tol, htol, fun t ht0 ht => ?_⟩
  obtain ⟨M, hM⟩ := key t ht0 ht
  refine ⟨M, fun m hm env hR obj₁ obj₂ hobj r₁ r₂ hr₁ hr₂ => ?_⟩
  obtain ⟨a1, a2, a3, a4, a5, a6⟩ := hobj obj₁ (Or.inl rfl)
  obtain ⟨b1, b2, b3, b4, b5, b6⟩ := hobj obj₂ (Or.inr rfl)
  obtain ⟨W₁, w1, hW₁, n1⟩ := hM m hm hR obj₁ a1 a2 a3 a4 a5 a6 r₁.1 r₁.2.1 r₁.2.2 hr₁
  obtain ⟨W₂, w2, hW₂, n2⟩ := hM m hm hR obj₂ b1 b2 b3 b4 b5 b6 r₂.1 r₂.2.1 r₂.2.2 hr₂
  have hn : ∑ t, sqDist (mix (W₁ t) S) (mix (W₂ t) S) ≤ 4 * (δ / (4 * (c + 1))) :=
    near_reconstruction hW₁ hW₂ n1 n2
  have hval : 4 * (δ / (4 * (c + 1))) = δ / (c + 1) := by
    field_simp
  rw [hval] at hn
  have hnn : 0 ≤ ∑ t, sqDist (mix (W₁ t) S) (mix (W₂ t) S) :=
    Finset.sum_nonneg fun _ _ => Finset.sum_nonneg fun _ _ => sq_nonneg _
  have hm' : (∑ t, sqDist (mix (W₁ t) S) (mix (W₂ t) S)) * (c + 1) ≤ δ :=
    (le_div_iff₀ (by linarith)).1 hn
  refine ⟨W₁, W₂, w1, w2, ?_, fun hS => ?_⟩
  · have e : frobSq (W₁ * S - W₂ * S) = ∑ t, sqDist (mix (W₁ t) S) (mix (W₂ t) S) := by
      unfold frobSq sqDist mix
      simp only [Matrix.sub_apply, Matrix.mul_apply]
    rw [e]
    nlinarith
  · have e : frobSq (W₁ - W₂) = ∑ t, sqDist (W₁ t) (W₂ t) := rfl
    rw [e]
    calc ∑ t, sqDist (W₁ t) (W₂ t)
        ≤ ∑ t, c * sqDist (mix (W₁ t) S) (mix (W₂ t) S) :=
          Finset.sum_le_sum fun t _ => hc hS _ _ ((hW₁ t).2.trans (hW₂ t).2.symm)
      _ = c * ∑ t, sqDist (mix (W₁ t) S) (mix (W₂ t) S) := by rw [Finset.mul_sum]
      _ ≤ δ := by nlinarith

/-- C121 for `ArchetypalAnalysis` with the default kernel: two `transform`s of the same data give
almost the same reconstructions from the archetypes `C X`, and almost the same weights if the
archetypes are affinely independent. -/
theorem C121_aa_transform_reproducible [Archimedean K] {n : ℕ} (cfg : LSConfig K)
    (h1 : 0 < cfg.sigmaOne) (h2 : cfg.sigmaTwo < 1) (hg0 : 0 < cfg.gamma) (hg1 : cfg.gamma < 1)
    (ha0 : 0 < cfg.alphaMin) (ha1 : cfg.alphaMin ≤ cfg.alphaMax)
    (hmem : cfg.memory = 1) (hn : 1 ≤ n) (hk : 1 ≤ k)
    (X : Matrix (Fin n) (Fin D) K) (E : K) (hE : ∀ t, ∑ d, X t d ^ 2 ≤ E)
    (C : Matrix (Fin k) (Fin n) K) (hC : RowStochastic C)
    (hf : cfg.Floor (max 1 cfg.alphaMax * (E * ((n : K) ^ 2 + k)))) (δ : K) (hδ : 0 < δ) :
    ∃ tol : K, 0 < tol ∧ ∀ t : K, 0 < t → t ≤ tol → ∃ M : ℕ, ∀ m : ℕ, M ≤ m →
      ∀ {env : Env K}, env.rng.Lawful → ∀ (obj₁ obj₂ : KAAObj env.rng),
      (∀ o, o = obj₁ ∨ o = obj₂ → o.ls = cfg ∧ o.nComponents = .int k ∧
        o.tolerance = .real t ∧ o.maxIterations = .int m ∧ o.C = some (Arr2.of C)) →
      ∀ (r₁ r₂ : KAAObj env.rng × Option (Arr2 K) × FitInfo K),
      aaTransform env obj₁ none (Arr2.of X) = Py.ok r₁ →
      aaTransform env obj₂ none (Arr2.of X) = Py.ok r₂ →
      ∃ S₁ S₂ : Matrix (Fin n) (Fin k) K,
        r₁.2.1 = some (Arr2.of S₁) ∧ r₂.2.1 = some (Arr2.of S₂) ∧
        frobSq (S₁ * (C * X) - S₂ * (C * X)) ≤ δ ∧
        (AffIndep (C * X) → frobSq (S₁ - S₂) ≤ δ) := by
  obtain ⟨c, hc0, hc⟩ : ∃ c : K, 0 ≤ c ∧ (AffIndep (C * X) → ∀ v w : Fin k → K,
      ∑ i, v i = ∑ i, w i → sqDist v w ≤ c * sqDist (mix v (C * X)) (mix w (C * X))) := by
    by_cases hS : AffIndep (C * X)
    · obtain ⟨c, h0, h⟩ := hS.bound
      exact ⟨c, h0, fun _ => h⟩
    · exact ⟨0, le_rfl, fun h => absurd h hS⟩
  have hc4 : (0 : K) < 4 * (c + 1) := by linarith
  obtain ⟨tol, htol, key⟩ := C87_kaa_transform_near_optimal (k := k) cfg h1 h2 hg0 hg1 ha0 ha1 hmem
    hn hk (X * Xᵀ) (fun i j => by simp only [Matrix.mul_apply, Matrix.transpose_apply, mul_comm])
    (linear_kernel_psd X) E (linear_kernel_bounds X hE).2.2 hf
    (δ / (4 * (c + 1))) (div_pos hδ hc4)
  refine ⟨tol, htol, fun t ht0 ht => ?_⟩
  obtain ⟨M, hM⟩ := key t ht0 ht
  refine ⟨M, fun m hm env hR obj₁ obj₂ hobj r₁ r₂ hr₁ hr₂ => ?_⟩
  have run : ∀ o, o = obj₁ ∨ o = obj₂ → ∀ r, aaTransform env o none (Arr2.of X) = Py.ok r →
      ∃ S : Matrix (Fin n) (Fin k) K, r.2.1 = some (Arr2.of S) ∧ RowStochastic S ∧
        ∀ W, RowStochastic W → ∑ t, sqDist (X t) (mix (S t) (C * X)) ≤
          ∑ t, sqDist (X t) (mix (W t) (C * X)) + δ / (4 * (c + 1)) := by
    intro o ho r hr
    obtain ⟨a1, a2, a3, a4, a5⟩ := hobj o ho
    obtain ⟨S, C', e1, e2, hS, n⟩ := hM m hm hR o a1 a2 a3 a4
      (fun C' h' => by rw [a5] at h'; cases h'; exact hC) r.1 r.2.1 r.2.2 hr
    have hCC : C' = C := by
      rw [a5] at e2
      have := Option.some.inj e2
      simp only [Arr2.of, Arr2.mk.injEq, heq_eq_eq, true_and] at this
      exact this.symm
    subst hCC
    refine ⟨S, e1, hS, fun W hW => ?_⟩
    have := n W hW
    simp only [C30_aa_objective] at this
    exact this
  obtain ⟨S₁, w1, hS₁, n1⟩ := run obj₁ (Or.inl rfl) r₁ hr₁
  obtain ⟨S₂, w2, hS₂, n2⟩ := run obj₂ (Or.inr rfl) r₂ hr₂
  have hnr : ∑ t, sqDist (mix (S₁ t) (C * X)) (mix (S₂ t) (C * X)) ≤ 4 * (δ / (4 * (c + 1))) :=
    near_reconstruction hS₁ hS₂ n1 n2
  have hval : 4 * (δ / (4 * (c + 1))) = δ / (c + 1) := by
    field_simp
  rw [hval] at hnr
  have hnn : 0 ≤ ∑ t, sqDist (mix (S₁ t) (C * X)) (mix (S₂ t) (C * X)) :=
    Finset.sum_nonneg fun _ _ => Finset.sum_nonneg fun _ _ => sq_nonneg _
  have hm' : (∑ t, sqDist (mix (S₁ t) (C * X)) (mix (S₂ t) (C * X))) * (c + 1) ≤ δ :=
    (le_div_iff₀ (by linarith)).1 hnr
  refine ⟨S₁, S₂, w1, w2, ?_, fun hS => ?_⟩
  · have e : frobSq (S₁ * (C * X) - S₂ * (C * X)) =
        ∑ t, sqDist (mix (S₁ t) (C * X)) (mix (S₂ t) (C * X)) := by
      unfold frobSq sqDist mix
      simp only [Matrix.sub_apply]
      refine Finset.sum_congr rfl fun t _ => Finset.sum_congr rfl fun d _ => ?_
      rw [Matrix.mul_apply (M := S₁), Matrix.mul_apply (M := S₂)]
    rw [e]
    nlinarith
  · have e : frobSq (S₁ - S₂) = ∑ t, sqDist (S₁ t) (S₂ t) := rfl
    rw [e]
    calc ∑ t, sqDist (S₁ t) (S₂ t)
        ≤ ∑ t, c * sqDist (mix (S₁ t) (C * X)) (mix (S₂ t) (C * X)) :=
          Finset.sum_le_sum fun t _ => hc hS _ _ ((hS₁ t).2.trans (hS₂ t).2.symm)
      _ = c * ∑ t, sqDist (mix (S₁ t) (C * X)) (mix (S₂ t) (C * X)) := by rw [Finset.mul_sum]
      _ ≤ δ := by nlinarith

/-! ### Cases -/

/-- Two different points are affinely independent. -/
theorem demo_affIndep : AffIndep (!![0, 1; 2, 2] : Matrix (Fin 2) (Fin 2) ℚ) := by
  intro v hv h
  have h0 := congrFun h 0
  simp only [mix, Fin.sum_univ_two] at hv h0
  have h1 : v 1 = 0 := by simpa using h0
  funext i
  fin_cases i
  · simpa [h1] using hv
  · exact h1

/-- C121 at work: `transform` of the example from any two states of the generator; both return, and
the weights differ by at most 1/10 in every entry. -/
example (g₁ g₂ : demoEnv.rng.G) : ∃ (obj : GPNHObj demoEnv.rng)
    (r₁ r₂ : GPNHObj demoEnv.rng × Option (Arr2 ℚ) × FitInfo ℚ) (W₁ W₂ : Matrix (Fin 3) (Fin 2) ℚ),
    gpnhTransform demoEnv { obj with randomState := g₁ } demoData = Py.ok r₁ ∧
    gpnhTransform demoEnv { obj with randomState := g₂ } demoData = Py.ok r₂ ∧
    r₁.2.1 = some (Arr2.of W₁) ∧ r₂.2.1 = some (Arr2.of W₂) ∧
    frobSq (W₁ - W₂) ≤ 1 / 100 := by
  obtain ⟨tol, htol, key⟩ := C121_gpnh_transform_reproducible (k := 2) demoObj.ls
    (by norm_num [demoObj, demoLS]) (by norm_num [demoObj, demoLS]) (by norm_num [demoObj, demoLS])
    (by norm_num [demoObj, demoLS]) (by norm_num [demoObj, demoLS])
    (by norm_num [demoObj, demoLS]) rfl (by norm_num) demoData.val
    (1 / 10) (by norm_num) !![0, 1; 2, 2]
    (LSConfig.Floor.of_zero rfl (by norm_num [demoObj, demoLS]) (by norm_num [demoObj, demoLS]) _)
    (1 / 100) (by norm_num)
  obtain ⟨M, hM⟩ := key tol htol le_rfl
  set obj : GPNHObj demoEnv.rng :=
    { demoObj with
      tolerance := .real tol, maxIterations := .int ((M + 1 : ℕ) : ℤ)
      S := some (Arr2.of (!![0, 1; 2, 2] : Matrix (Fin 2) (Fin 2) ℚ)) } with hobj
  have run : ∀ g : demoEnv.rng.G,
      ∃ r, gpnhTransform demoEnv { obj with randomState := g } demoData = Py.ok r := fun g =>
    C21_gpnh_transform_returns demoRng_lawful demoRng_uniform_pos { obj with randomState := g }
      (by norm_num [hobj, demoObj, demoLS]) (by norm_num [hobj, demoObj, demoLS])
      (by norm_num [hobj, demoObj, demoLS]) (by norm_num [hobj, demoObj, demoLS]) rfl
      (by norm_num [hobj, demoObj, demoLS]) (by norm_num [hobj, demoObj, demoLS]) rfl (Or.inl rfl)
      demoData (by norm_num [demoData, Arr2.of])
      ⟨⟨2, rfl, by norm_num⟩, ⟨_, rfl, by positivity⟩, Or.inr ⟨_, rfl, htol.le⟩⟩ rfl _ rfl
  obtain ⟨r₁, hr₁⟩ := run g₁
  obtain ⟨r₂, hr₂⟩ := run g₂
  obtain ⟨W₁, W₂, e1, e2, -, h⟩ := hM (M + 1) (Nat.le_succ _) demoRng_lawful
    { obj with randomState := g₁ } { obj with randomState := g₂ }
    (by rintro o (rfl | rfl) <;> exact ⟨rfl, rfl, rfl, rfl, rfl, rfl⟩) r₁ r₂ hr₁ hr₂
  exact ⟨obj, r₁, r₂, W₁, W₂, hr₁, hr₂, e1, e2, h demo_affIndep⟩

end Reor
