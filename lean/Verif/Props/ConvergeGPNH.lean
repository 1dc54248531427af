import Verif.Props.GPNH
import Verif.Proofs.ConvergeGPNH
import Verif.Proofs.Stopping

/-!
C88: with a small tolerance and enough iterations the factors returned by GPNH convex coding are, up
to any prescribed accuracy, optimal given each other.
-/

namespace Reor

set_option linter.unusedSectionVars false

open scoped BigOperators Matrix
open Spec

variable {K : Type} [Field K] [LinearOrder K] [IsStrictOrderedRing K]
variable {T D k : ℕ}

/-- A fit that returns is a run of the outer loop from its start. -/
theorem gpnhFitTransform_from_start {env : Env K} {obj : GPNHObj env.rng}
    {X : Matrix (Fin T) (Fin D) K} {t : K} {m : ℕ} (hc : obj.nComponents = .int k)
    (htl : obj.tolerance = .real t) (hmi : obj.maxIterations = .int m)
    {dictionary weights : Option (Arr2 K)} {kw : InitKwargs} {ud uw : Bool}
    {S0 : Matrix (Fin k) (Fin D) K} {W0 : Matrix (Fin T) (Fin k) K} {g' : env.rng.G}
    (hs0 : gpnhStart env X k obj.init dictionary weights ud uw kw obj.randomState =
      Py.ok ((S0, W0), g'))
    {obj' : GPNHObj env.rng} {G : Option (Arr2 K)} {info : FitInfo K}
    (h : gpnhFitTransform env obj (Arr2.of X) dictionary weights kw ud uw =
      Py.ok (obj', G, info)) :
    ∃ r, gpnhIterate obj.ls obj.epsilonStates obj.require t m ud uw
        (GPNHState.initializeWorkspace obj.ls X W0 S0) = Py.ok r ∧
      G = some (Arr2.of r.state.Gamma) ∧ obj'.dictionary_ = some (Arr2.of r.state.S) ∧
      obj'.cost_ = some r.cost := by
  unfold gpnhFitTransform at h
  obtain ⟨res, hres, h⟩ := Py.bind_eq_ok.1 h
  obtain ⟨⟨k', m', t'⟩, start, r, hp, hs, hr, rfl⟩ := gpnhConvexCoding_eq_ok hres
  simp only [Py.pure_eq, Py.ok.injEq, Prod.mk.injEq] at h
  obtain ⟨rfl, rfl, rfl⟩ := h
  obtain ⟨-, e1, e2, -, -, -⟩ := checkParams_ok hp
  have e3 := checkParams_tolerance hp
  rw [hc] at e1
  rw [hmi] at e2
  rw [htl] at e3
  simp only [defaultComponents, NumArg.int.injEq, Nat.cast_inj] at e1 e2
  simp only [NumArg.real.injEq, reduceCtorEq, false_and, exists_false, or_false] at e3
  subst e1 e2 e3
  simp only at hr hs
  change gpnhStart env X k obj.init dictionary weights ud uw kw obj.randomState = Py.ok start at hs
  rw [hs0] at hs
  obtain rfl := Py.ok.inj hs
  exact ⟨r, hr, rfl, rfl, rfl⟩

/-- C88.  Let the penalty be positive, or let there be one dictionary element.  For all data, every
accuracy `ε` and every bound `B` there is a tolerance, and for every smaller positive tolerance a
number of iterations, such that every fit that returns from a start of cost at most `B` has a cost
that no other dictionary with the returned weights, and no other weights with the returned
dictionary, undercuts by more than `ε`.  The step floor may be positive, if it is small compared with
the curvature of the objective where its value is at most `B` (`Floor`; a floor of zero always is). -/
theorem C88_gpnh_fit_near_optimal [Archimedean K] (cfg : LSConfig K)
    (h1 : 0 < cfg.sigmaOne) (h2 : cfg.sigmaTwo < 1) (hg0 : 0 < cfg.gamma) (hg1 : cfg.gamma < 1)
    (ha0 : 0 < cfg.alphaMin) (ha1 : cfg.alphaMin ≤ cfg.alphaMax)
    (hmem : cfg.memory = 1) (hk : 1 ≤ k) (X : Matrix (Fin T) (Fin D) K) (hDT : D * T ≠ 0) (eps : K)
    (he : 0 < eps ∨ (0 ≤ eps ∧ k = 1)) (ε : K) (hε : 0 < ε) (B : K)
    (hf : cfg.Floor (max 1 cfg.alphaMax * gpnhCurvature T D k eps (gpnhLevel eps X k B))) :
    ∃ tol : K, 0 < tol ∧ ∀ t : K, 0 < t → t ≤ tol → ∃ M : ℕ, ∀ m : ℕ, M ≤ m →
      ∀ {env : Env K} (obj : GPNHObj env.rng), obj.ls = cfg → obj.epsilonStates = eps →
      obj.nComponents = .int k → obj.tolerance = .real t → obj.maxIterations = .int m →
      ∀ (dictionary weights : Option (Arr2 K)) (kw : InitKwargs) (ud uw : Bool)
        (S0 : Matrix (Fin k) (Fin D) K) (W0 : Matrix (Fin T) (Fin k) K) (g' : env.rng.G),
      gpnhStart env X k obj.init dictionary weights ud uw kw obj.randomState =
        Py.ok ((S0, W0), g') →
      RowStochastic W0 → gpnhCost eps X W0 S0 ≤ B →
      ∀ (obj' : GPNHObj env.rng) (G : Option (Arr2 K)) (info : FitInfo K),
      gpnhFitTransform env obj (Arr2.of X) dictionary weights kw ud uw = Py.ok (obj', G, info) →
      ∃ (W : Matrix (Fin T) (Fin k) K) (S : Matrix (Fin k) (Fin D) K),
        G = some (Arr2.of W) ∧ obj'.dictionary_ = some (Arr2.of S) ∧
        obj'.cost_ = some (gpnhCost eps X W S) ∧ RowStochastic W ∧
        (ud = true → ∀ S', gpnhCost eps X W S ≤ gpnhCost eps X W S' + ε) ∧
        (uw = true → ∀ W', RowStochastic W' → gpnhCost eps X W S ≤ gpnhCost eps X W' S + ε) := by
  have he0 : 0 ≤ eps := by rcases he with h | h; exacts [h.le, h.1]
  have hcfg : cfg.Descends := ⟨h1, h2, hg0, hg1, ha0, ha1⟩
  rcases lt_or_ge B 0 with hneg | hB0
  · exact ⟨1, one_pos, fun _ _ _ => ⟨0, fun _ _ _ _ _ _ _ _ _ _ _ _ _ _ _ _ _ _ _ hB =>
      absurd (hB.trans_lt hneg) (not_lt.2 (gpnhCost_nonneg' he0 _ _ _))⟩⟩
  have hR := gpnhLevel_nonneg he0 X k hB0
  have hlev : ∀ (W : Matrix (Fin T) (Fin k) K) (S : Matrix (Fin k) (Fin D) K), RowStochastic W →
      gpnhCost eps X W S ≤ B → frobSq S ≤ gpnhLevel eps X k B := fun W S hW h =>
    gpnh_level_bound he hDT X hW h
  obtain ⟨tol1, htol1, key1⟩ := gpnhIterate_near_optimal (k := k) hcfg hmem hk X he0 hε hR
    (ud := true) (fun _ => hlev) hf
  obtain ⟨tol2, htol2, key2⟩ := gpnhIterate_near_optimal (k := k) (B := B) hcfg hmem hk X he0 hε hR
    (ud := false) (by simp) hf
  refine ⟨min tol1 tol2, lt_min htol1 htol2, fun t ht0 ht => ?_⟩
  obtain ⟨M1, hM1⟩ := key1 t ht0 (ht.trans (min_le_left _ _))
  obtain ⟨M2, hM2⟩ := key2 t ht0 (ht.trans (min_le_right _ _))
  refine ⟨max M1 M2, fun m hm env obj hls hep hc htl hmi dictionary weights kw ud uw S0 W0 g' hs0 hW0
    hB obj' G info h => ?_⟩
  obtain ⟨r, hr, e1, e2, e3⟩ := gpnhFitTransform_from_start hc htl hmi hs0 h
  rw [hls, hep] at hr
  have hS0 := hlev _ _ hW0 hB
  have hnear : r.state.NearOptimal X eps ε ud uw := by
    cases ud
    · exact hM2 _ _ _ _ _ _ ((le_max_right _ _).trans hm) hW0 hS0 hB hr
    · exact hM1 _ _ _ _ _ _ ((le_max_left _ _).trans hm) hW0 hS0 hB hr
  have hcost := gpnhIterate_cost (s := GPNHState.initializeWorkspace cfg X W0 S0) rfl hr
  have hW := gpnhIterate_rowStochastic (LSConfig.safe_of_sigma h1 h2) hk hW0 zero_le_one hr
  rw [hcost] at e3
  exact ⟨_, _, e1, e2, e3, hW, hnear.1, hnear.2⟩

/-- A bound for the cost of dictionaries with sum of squares at most `R`. -/
def gpnhCostBound (eps : K) (X : Matrix (Fin T) (Fin D) K) (k : ℕ) (R : K) : K :=
  (2 * frobSq X + 2 * (T * R)) / ((D : K) * (T : K)) +
    eps * (2 * (k * R) / ((k : K) * ((k : K) - 1) * (D : K)))

theorem gpnhCost_le_of_bound {eps : K} (he : 0 ≤ eps) (X : Matrix (Fin T) (Fin D) K) (k : ℕ)
    (R : K) :
    ∀ (W : Matrix (Fin T) (Fin k) K) (S : Matrix (Fin k) (Fin D) K), RowStochastic W →
      frobSq S ≤ R → gpnhCost eps X W S ≤ gpnhCostBound eps X k R := by
  intro W S hW hS
  unfold gpnhCostBound
  rw [gpnhCost_eq]
  have hpd := GPNHState.pen_denominator_nonneg (K := K) k D
  refine add_le_add (div_le_div_of_nonneg_right ?_ (by positivity))
    (mul_le_mul_of_nonneg_left (div_le_div_of_nonneg_right ?_ hpd) he)
  · have h3 := frobSq_add_le X (-(W * S))
    rw [frobSq_neg, ← sub_eq_add_neg] at h3
    have h4 : frobSq (W * S) ≤ T * R := frobSq_mul_le_of (frobSq_rowStochastic hW) hS
    linarith
  · have h5 := GPNHState.inner_centring_le S
    have h6 : (k : K) * frobSq S ≤ k * R := mul_le_mul_of_nonneg_left hS (by positivity)
    linarith

/-- C21 for the initial guess "furthest_sum": the fit of at least `k` samples returns, when no draw
is zero. -/
theorem C21_gpnh_furthest_sum_fit_returns [Archimedean K] {env : Env K} (hR : env.rng.Lawful)
    (hpos : ∀ m n g i j, 0 < (env.rng.uniform m n g).1 i j)
    (obj : GPNHObj env.rng) (h1 : 0 < obj.ls.sigmaOne) (h2 : obj.ls.sigmaTwo < 1)
    (hg0 : 0 ≤ obj.ls.gamma) (hg1 : obj.ls.gamma < 1) (ht : obj.ls.stepSizeTolerance = 0)
    (ha0 : 0 < obj.ls.alphaMin) (ha1 : obj.ls.alphaMin ≤ obj.ls.alphaMax)
    (hmem : obj.ls.memory = 1) (hinit : obj.init = some "furthest_sum")
    (X : Matrix (Fin T) (Fin D) K) (hD : 1 ≤ D)
    (hv : ValidParams obj.nComponents obj.maxIterations obj.tolerance)
    (hc : obj.nComponents = .int k) (hkT : k ≤ T) (dictionary weights : Option (Arr2 K)) :
    ∃ res, gpnhFitTransform env obj (Arr2.of X) dictionary weights {} = Py.ok res := by
  have hv' : ValidParams (defaultComponents obj.nComponents D) obj.maxIterations
      obj.tolerance := by
    rw [hc] at hv ⊢
    exact hv
  obtain ⟨⟨k', m, t⟩, hp, hck, -, hk, hm, -, -⟩ := checkParams_valid hv'
  rw [hc] at hck
  simp only [defaultComponents, NumArg.int.injEq, Nat.cast_inj] at hck
  subst hck
  have hdist : ∀ i j, 0 ≤ (X * Xᵀ) j j - 2 * (X * Xᵀ) i j + (X * Xᵀ) i i := by
    intro i j
    have : (X * Xᵀ) j j - 2 * (X * Xᵀ) i j + (X * Xᵀ) i i = ∑ d, (X j d - X i d) ^ 2 := by
      simp only [Matrix.mul_apply, Matrix.transpose_apply, Finset.mul_sum,
        ← Finset.sum_sub_distrib, ← Finset.sum_add_distrib]
      exact Finset.sum_congr rfl fun d _ => by ring
    rw [this]
    exact Finset.sum_nonneg fun d _ => sq_nonneg _
  obtain ⟨start, hst⟩ : ∃ start, gpnhStart env X k obj.init dictionary weights true true {}
      obj.randomState = Py.ok start := by
    unfold gpnhStart gpnhInitBoth gpnhInitDictionary gpnhInitDictionaryFurthestSum
    obtain ⟨r, hr⟩ := furthestSumRows_succeeds hR hdist hk hkT (kw := {}) rfl (by simp)
      obj.randomState
    obtain ⟨w, hw⟩ := rightStochastic_succeeds hpos (m := T) (n := k) hk r.2
    simp [hinit, hr, gpnhInitWeights, gpnhInitWeightsRandom, hw, InitKwargs.nonempty]
  have hW : RowStochastic start.1.2 := gpnhStart_rowStochastic hR hk (by simp [hinit]) hst
  have hDT : D * T ≠ 0 := Nat.mul_ne_zero (by omega) (by simp only at hk; omega)
  obtain ⟨r, hr⟩ := gpnhIterate_succeeds h1 h2 hg0 hg1 ht ha0 ha1 hk hm hDT
    (eps := obj.epsilonStates) (require := obj.require) (tol := t) (ud := true) (uw := true)
    (ready_initial (X := X) hmem hW start.1.1)
  unfold gpnhFitTransform
  rw [gpnhConvexCoding_of_steps hp hst hr]
  exact ⟨_, rfl⟩

/-- C88 for the initial guess "furthest_sum": the tolerance and the number of iterations depend on
the data, the penalty and the accuracy only. -/
theorem C88_gpnh_furthest_sum_near_optimal [Archimedean K] (cfg : LSConfig K)
    (h1 : 0 < cfg.sigmaOne) (h2 : cfg.sigmaTwo < 1) (hg0 : 0 < cfg.gamma) (hg1 : cfg.gamma < 1)
    (ha0 : 0 < cfg.alphaMin) (ha1 : cfg.alphaMin ≤ cfg.alphaMax)
    (hmem : cfg.memory = 1) (hk : 1 ≤ k) (X : Matrix (Fin T) (Fin D) K) (hDT : D * T ≠ 0) (eps : K)
    (he : 0 < eps ∨ (0 ≤ eps ∧ k = 1)) (ε : K) (hε : 0 < ε)
    (hf : cfg.Floor (max 1 cfg.alphaMax * gpnhCurvature T D k eps
      (gpnhLevel eps X k (gpnhCostBound eps X k (k * frobSq X))))) :
    ∃ tol : K, 0 < tol ∧ ∀ t : K, 0 < t → t ≤ tol → ∃ M : ℕ, ∀ m : ℕ, M ≤ m →
      ∀ {env : Env K}, env.rng.Lawful → ∀ (obj : GPNHObj env.rng), obj.ls = cfg →
      obj.epsilonStates = eps → obj.nComponents = .int k → obj.tolerance = .real t →
      obj.maxIterations = .int m → obj.init = some "furthest_sum" →
      ∀ (dictionary weights : Option (Arr2 K)) (kw : InitKwargs)
      (obj' : GPNHObj env.rng) (G : Option (Arr2 K)) (info : FitInfo K),
      gpnhFitTransform env obj (Arr2.of X) dictionary weights kw = Py.ok (obj', G, info) →
      ∃ (W : Matrix (Fin T) (Fin k) K) (S : Matrix (Fin k) (Fin D) K),
        G = some (Arr2.of W) ∧ obj'.dictionary_ = some (Arr2.of S) ∧
        obj'.cost_ = some (gpnhCost eps X W S) ∧ RowStochastic W ∧
        (∀ S', gpnhCost eps X W S ≤ gpnhCost eps X W S' + ε) ∧
        (∀ W', RowStochastic W' → gpnhCost eps X W S ≤ gpnhCost eps X W' S + ε) := by
  have he0 : 0 ≤ eps := by rcases he with h | h; exacts [h.le, h.1]
  have hX := frobSq_nonneg X
  have hB := gpnhCost_le_of_bound he0 X k (k * frobSq X)
  obtain ⟨tol, htol, key⟩ := C88_gpnh_fit_near_optimal (k := k) cfg h1 h2 hg0 hg1 ha0 ha1 hmem hk
    X hDT eps he ε hε _ hf
  refine ⟨tol, htol, fun t ht0 ht => ?_⟩
  obtain ⟨M, hM⟩ := key t ht0 ht
  refine ⟨M, fun m hm env hR obj hls hep hc htl hmi hinit dictionary weights kw obj' G info h => ?_⟩
  have h' := h
  unfold gpnhFitTransform at h'
  obtain ⟨res, hres, -⟩ := Py.bind_eq_ok.1 h'
  obtain ⟨⟨k', m', t'⟩, start, r, hp, hs, -, -⟩ := gpnhConvexCoding_eq_ok hres
  obtain ⟨-, e1, -, -, -, -⟩ := checkParams_ok hp
  rw [hc] at e1
  simp only [defaultComponents, NumArg.int.injEq, Nat.cast_inj] at e1
  subst e1
  simp only at hs
  have hW := gpnhStart_rowStochastic hR hk (by simp [hinit]) hs
  have hS : frobSq start.1.1 ≤ k * frobSq X := by
    have hs' := hs
    unfold gpnhStart gpnhInitBoth gpnhInitDictionary gpnhInitDictionaryFurthestSum at hs'
    rw [hinit] at hs'
    simp only [Option.some.injEq, String.reduceEq, if_false, Bool.true_eq_false, false_and,
      and_false, Option.getD_some, if_true] at hs'
    obtain ⟨d, hd, hs'⟩ := Py.bind_eq_ok.1 hs'
    obtain ⟨q, -, hd⟩ := Py.bind_eq_ok.1 hd
    obtain ⟨w, -, hs'⟩ := Py.bind_eq_ok.1 hs'
    obtain rfl := Py.ok.inj hs'
    obtain rfl := Py.ok.inj hd
    have hrow : ∀ i ∈ (Finset.univ : Finset (Fin k)), ∑ d, X (q.1 i) d ^ 2 ≤ frobSq X := fun i _ =>
      Finset.single_le_sum (f := fun t => ∑ d, X t d ^ 2)
        (fun t _ => Finset.sum_nonneg fun d _ => sq_nonneg _) (Finset.mem_univ (q.1 i))
    refine (Finset.sum_le_sum hrow).trans (le_of_eq ?_)
    rw [Finset.sum_const, Finset.card_univ, Fintype.card_fin, nsmul_eq_mul]
  obtain ⟨W, S, e1, e2, e3, e4, n1, n2⟩ := hM m hm obj hls hep hc htl hmi dictionary weights kw true
    true start.1.1 start.1.2 start.2 hs hW (hB _ _ hW hS) obj' G info h
  exact ⟨W, S, e1, e2, e3, e4, n1 rfl, n2 rfl⟩

/-- C88 for `transform`: whatever the penalty, the weights are, up to `ε`, the best weights for the
dictionary of the model. -/
theorem C88_gpnh_transform_near_optimal [Archimedean K] (cfg : LSConfig K)
    (h1 : 0 < cfg.sigmaOne) (h2 : cfg.sigmaTwo < 1) (hg0 : 0 < cfg.gamma) (hg1 : cfg.gamma < 1)
    (ha0 : 0 < cfg.alphaMin) (ha1 : cfg.alphaMin ≤ cfg.alphaMax)
    (hmem : cfg.memory = 1) (hk : 1 ≤ k) (X : Matrix (Fin T) (Fin D) K) (eps : K) (he : 0 ≤ eps)
    (S : Matrix (Fin k) (Fin D) K) (ε : K) (hε : 0 < ε)
    (hf : cfg.Floor (max 1 cfg.alphaMax * gpnhCurvature T D k eps (frobSq S))) :
    ∃ tol : K, 0 < tol ∧ ∀ t : K, 0 < t → t ≤ tol → ∃ M : ℕ, ∀ m : ℕ, M ≤ m →
      ∀ {env : Env K}, env.rng.Lawful → ∀ (obj : GPNHObj env.rng), obj.ls = cfg →
      obj.epsilonStates = eps → obj.nComponents = .int k → obj.tolerance = .real t →
      obj.maxIterations = .int m → obj.S = some (Arr2.of S) →
      ∀ (obj' : GPNHObj env.rng) (G : Option (Arr2 K)) (info : FitInfo K),
      gpnhTransform env obj (Arr2.of X) = Py.ok (obj', G, info) →
      ∃ W : Matrix (Fin T) (Fin k) K, G = some (Arr2.of W) ∧ RowStochastic W ∧
        ∀ W', RowStochastic W' →
          ∑ t, ∑ d, (X t d - ∑ i, W t i * S i d) ^ 2 ≤
            ∑ t, ∑ d, (X t d - ∑ i, W' t i * S i d) ^ 2 + ε := by
  have hcfg : cfg.Descends := ⟨h1, h2, hg0, hg1, ha0, ha1⟩
  have hSn := frobSq_nonneg S
  have hB := gpnhCost_le_of_bound he X k (frobSq S)
  have hDT1 : (0 : K) < (D : K) * T + 1 := by positivity
  obtain ⟨tol, htol, key⟩ := gpnhIterate_near_optimal (k := k) hcfg hmem hk X he
    (div_pos hε hDT1) hSn (ud := false) (by simp) hf
  refine ⟨tol, htol, fun t ht0 ht => ?_⟩
  obtain ⟨M, hM⟩ := key t ht0 ht
  refine ⟨M, fun m hm env hR obj hls hep hc htl hmi hobj obj' G info h => ?_⟩
  unfold gpnhTransform at h
  obtain ⟨res, hres, h⟩ := Py.bind_eq_ok.1 h
  obtain ⟨⟨k', m', t'⟩, start, r, hp, hs, hr, rfl⟩ := gpnhConvexCoding_eq_ok hres
  simp only [Py.pure_eq, Py.ok.injEq, Prod.mk.injEq] at h
  obtain ⟨rfl, rfl, rfl⟩ := h
  obtain ⟨-, e1, e2, -, -, -⟩ := checkParams_ok hp
  have e3 := checkParams_tolerance hp
  rw [hc] at e1
  rw [hmi] at e2
  rw [htl] at e3
  simp only [defaultComponents, NumArg.int.injEq, Nat.cast_inj] at e1 e2
  simp only [NumArg.real.injEq, reduceCtorEq, false_and, exists_false, or_false] at e3
  subst e1 e2 e3
  simp only at hr hs
  have hcustom : obj.init ≠ some "custom" := by
    intro hi
    rw [hi] at hs
    simpa using (gpnhStart_custom hs).2.1
  have hW0 := gpnhStart_rowStochastic hR hk hcustom hs
  have hd := gpnhStart_dictionary hs
  rw [hobj] at hd
  have hS0 : start.1.1 = S := by
    have := Option.some.inj hd
    simp only [Arr2.of, Arr2.mk.injEq, heq_eq_eq, true_and] at this
    exact this.symm
  rw [hls, hep, hS0] at hr
  change gpnhIterate cfg eps obj.require t m false true
    (GPNHState.initializeWorkspace cfg X start.1.2 S) = Py.ok r at hr
  have hnear := hM _ _ _ _ _ _ hm hW0 le_rfl (hB _ _ hW0 le_rfl) hr
  refine ⟨r.state.Gamma, rfl,
    gpnhIterate_rowStochastic (LSConfig.safe_of_sigma h1 h2) hk hW0 zero_le_one hr,
    fun W' hW' => ?_⟩
  have hn := hnear.2 rfl W' hW'
  have hSk : r.state.S = S := gpnhIterate_S hr
  have hDT := (gpnhIterate_eq_ok.1 hr).1
  have hDT' : (0 : K) < (D : K) * T := by
    have : 0 < D * T := Nat.pos_of_ne_zero hDT
    exact_mod_cast this
  rw [hSk] at hn
  unfold gpnhCost at hn
  have h3 : (∑ t, ∑ d, (X t d - ∑ i, r.state.Gamma t i * S i d) ^ 2) / ((D : K) * (T : K)) ≤
      (∑ t, ∑ d, (X t d - ∑ i, W' t i * S i d) ^ 2) / ((D : K) * (T : K)) + ε / (D * T + 1) := by
    linarith
  rw [div_le_iff₀ hDT', add_mul, div_mul_cancel₀ _ hDT'.ne'] at h3
  refine h3.trans (add_le_add le_rfl ?_)
  rw [div_mul_eq_mul_div, div_le_iff₀ hDT1]
  exact mul_le_mul_of_nonneg_left (by linarith) hε.le

/-- C88 at work: a fit of the example, with "random" draws, that returns. -/
example : ∃ (obj obj' : GPNHObj demoEnv.rng) (G : Option (Arr2 ℚ)) (info : FitInfo ℚ)
    (W : Matrix (Fin 3) (Fin 2) ℚ) (S : Matrix (Fin 2) (Fin 2) ℚ),
    gpnhFitTransform demoEnv obj demoData none none {} = Py.ok (obj', G, info) ∧
    obj'.cost_ = some (gpnhCost (1 / 10) demoData.val W S) ∧
    (∀ S', gpnhCost (1 / 10) demoData.val W S ≤ gpnhCost (1 / 10) demoData.val W S' + 1 / 100) ∧
    (∀ W', RowStochastic W' →
      gpnhCost (1 / 10) demoData.val W S ≤ gpnhCost (1 / 10) demoData.val W' S + 1 / 100) := by
  obtain ⟨start, hst⟩ := gpnhStart_random_ok (env := demoEnv) demoRng_uniform_pos
    (data := demoData.val) (k := 2) (by norm_num [demoData, Arr2.of]) (by norm_num) (Or.inl rfl)
    (init := none) (dictionary := none) (weights := none) (g := demoObj.randomState)
  have hW : RowStochastic start.1.2 :=
    gpnhStart_rowStochastic demoRng_lawful (by norm_num) (by simp) hst
  obtain ⟨tol, htol, key⟩ := C88_gpnh_fit_near_optimal (k := 2) demoObj.ls
    (by norm_num [demoObj, demoLS]) (by norm_num [demoObj, demoLS]) (by norm_num [demoObj, demoLS])
    (by norm_num [demoObj, demoLS]) (by norm_num [demoObj, demoLS])
    (by norm_num [demoObj, demoLS]) rfl (by norm_num) demoData.val (by norm_num [demoData, Arr2.of])
    (1 / 10) (Or.inl (by norm_num)) (1 / 100) (by norm_num)
    (gpnhCost (1 / 10) demoData.val start.1.2 start.1.1)
    (LSConfig.Floor.of_zero rfl (by norm_num [demoObj, demoLS]) (by norm_num [demoObj, demoLS]) _)
  obtain ⟨M, hM⟩ := key tol htol le_rfl
  set obj : GPNHObj demoEnv.rng :=
    { demoObj with tolerance := .real tol, maxIterations := .int ((M + 1 : ℕ) : ℤ) } with hobj
  obtain ⟨⟨o, G, i⟩, h⟩ := C21_gpnh_default_fit_returns demoRng_lawful demoRng_uniform_pos obj
    (by norm_num [hobj, demoObj, demoLS]) (by norm_num [hobj, demoObj, demoLS])
    (by norm_num [hobj, demoObj, demoLS]) (by norm_num [hobj, demoObj, demoLS]) rfl
    (by norm_num [hobj, demoObj, demoLS]) (by norm_num [hobj, demoObj, demoLS]) rfl (Or.inl rfl)
    demoData (by norm_num [demoData, Arr2.of])
    ⟨Or.inr ⟨2, rfl, by norm_num⟩, ⟨_, rfl, by positivity⟩, Or.inr ⟨_, rfl, htol.le⟩⟩ none none
  obtain ⟨W, S, -, -, hc, -, n1, n2⟩ := hM (M + 1) (Nat.le_succ _) obj rfl rfl rfl rfl rfl
    none none {} true true start.1.1 start.1.2 start.2 hst hW le_rfl o G i h
  exact ⟨obj, o, G, i, W, S, h, hc, n1 rfl, n2 rfl⟩

/-- C88 at work with "furthest_sum", where no start is mentioned. -/
example : ∃ (obj obj' : GPNHObj demoEnv.rng) (G : Option (Arr2 ℚ)) (info : FitInfo ℚ)
    (W : Matrix (Fin 3) (Fin 2) ℚ) (S : Matrix (Fin 2) (Fin 2) ℚ),
    gpnhFitTransform demoEnv obj demoData none none {} = Py.ok (obj', G, info) ∧
    obj'.cost_ = some (gpnhCost (1 / 10) demoData.val W S) ∧
    (∀ S', gpnhCost (1 / 10) demoData.val W S ≤ gpnhCost (1 / 10) demoData.val W S' + 1 / 100) ∧
    (∀ W', RowStochastic W' →
      gpnhCost (1 / 10) demoData.val W S ≤ gpnhCost (1 / 10) demoData.val W' S + 1 / 100) := by
  obtain ⟨tol, htol, key⟩ := C88_gpnh_furthest_sum_near_optimal (k := 2) demoObj.ls
    (by norm_num [demoObj, demoLS]) (by norm_num [demoObj, demoLS]) (by norm_num [demoObj, demoLS])
    (by norm_num [demoObj, demoLS]) (by norm_num [demoObj, demoLS])
    (by norm_num [demoObj, demoLS]) rfl (by norm_num) demoData.val (by norm_num [demoData, Arr2.of])
    (1 / 10) (Or.inl (by norm_num)) (1 / 100) (by norm_num)
    (LSConfig.Floor.of_zero rfl (by norm_num [demoObj, demoLS]) (by norm_num [demoObj, demoLS]) _)
  obtain ⟨M, hM⟩ := key tol htol le_rfl
  set obj : GPNHObj demoEnv.rng :=
    { demoObj with
      tolerance := .real tol, maxIterations := .int ((M + 1 : ℕ) : ℤ)
      init := some "furthest_sum" } with hobj
  obtain ⟨⟨o, G, i⟩, h⟩ := C21_gpnh_furthest_sum_fit_returns (k := 2) demoRng_lawful
    demoRng_uniform_pos obj
    (by norm_num [hobj, demoObj, demoLS]) (by norm_num [hobj, demoObj, demoLS])
    (by norm_num [hobj, demoObj, demoLS]) (by norm_num [hobj, demoObj, demoLS]) rfl
    (by norm_num [hobj, demoObj, demoLS]) (by norm_num [hobj, demoObj, demoLS]) rfl rfl
    demoData.val (by norm_num [demoData, Arr2.of])
    ⟨⟨2, rfl, by norm_num⟩, ⟨_, rfl, by positivity⟩, Or.inr ⟨_, rfl, htol.le⟩⟩ rfl
    (by norm_num [demoData, Arr2.of]) none none
  obtain ⟨W, S, -, -, hc, -, n1, n2⟩ := hM (M + 1) (Nat.le_succ _) demoRng_lawful obj rfl rfl rfl
    rfl rfl rfl none none {} o G i h
  exact ⟨obj, o, G, i, W, S, h, hc, n1, n2⟩

/-- C88 at work for `transform`. -/
example : ∃ (obj obj' : GPNHObj demoEnv.rng) (G : Option (Arr2 ℚ)) (info : FitInfo ℚ)
    (W : Matrix (Fin 3) (Fin 2) ℚ),
    gpnhTransform demoEnv obj demoData = Py.ok (obj', G, info) ∧ G = some (Arr2.of W) ∧
    ∀ W', RowStochastic W' →
      ∑ t, ∑ d, (demoData.val t d - ∑ i, W t i * (!![0, 1; 2, 2] : Matrix _ _ ℚ) i d) ^ 2 ≤
      ∑ t, ∑ d, (demoData.val t d - ∑ i, W' t i * (!![0, 1; 2, 2] : Matrix _ _ ℚ) i d) ^ 2 +
        1 / 100 := by
  obtain ⟨tol, htol, key⟩ := C88_gpnh_transform_near_optimal (k := 2) demoObj.ls
    (by norm_num [demoObj, demoLS]) (by norm_num [demoObj, demoLS]) (by norm_num [demoObj, demoLS])
    (by norm_num [demoObj, demoLS]) (by norm_num [demoObj, demoLS])
    (by norm_num [demoObj, demoLS]) rfl (by norm_num) demoData.val
    (1 / 10) (by norm_num) !![0, 1; 2, 2] (1 / 100) (by norm_num)
    (LSConfig.Floor.of_zero rfl (by norm_num [demoObj, demoLS]) (by norm_num [demoObj, demoLS]) _)
  obtain ⟨M, hM⟩ := key tol htol le_rfl
  set obj : GPNHObj demoEnv.rng :=
    { demoObj with
      tolerance := .real tol, maxIterations := .int ((M + 1 : ℕ) : ℤ)
      S := some (Arr2.of (!![0, 1; 2, 2] : Matrix (Fin 2) (Fin 2) ℚ)) } with hobj
  obtain ⟨⟨o, G, i⟩, h⟩ := C21_gpnh_transform_returns demoRng_lawful demoRng_uniform_pos obj
    (by norm_num [hobj, demoObj, demoLS]) (by norm_num [hobj, demoObj, demoLS])
    (by norm_num [hobj, demoObj, demoLS]) (by norm_num [hobj, demoObj, demoLS]) rfl
    (by norm_num [hobj, demoObj, demoLS]) (by norm_num [hobj, demoObj, demoLS]) rfl (Or.inl rfl)
    demoData (by norm_num [demoData, Arr2.of])
    ⟨⟨2, rfl, by norm_num⟩, ⟨_, rfl, by positivity⟩, Or.inr ⟨_, rfl, htol.le⟩⟩ rfl _ rfl
  obtain ⟨W, hG, -, n⟩ := hM (M + 1) (Nat.le_succ _) demoRng_lawful obj rfl rfl rfl rfl rfl rfl o G i h
  exact ⟨obj, o, G, i, W, h, hG, n⟩

end Reor
