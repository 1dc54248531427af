import Verif.Props.ConvergeDefaults
import Verif.Props.GPNHCROM
import Verif.Props.MTDFit
import Verif.Proofs.FloorMTD

/-!
C102 for MTD convex coding and the reduced order model, and C88 and C97 for fits with default
settings, which return.
-/

namespace Reor

set_option linter.unusedSectionVars false

open scoped BigOperators Matrix
open Spec

variable {K : Type} [Field K] [LinearOrder K] [IsStrictOrderedRing K]
variable {n k T D p L : ℕ}

/-! ### Bounds -/

theorem sqDist_prob_le {k : ℕ} {u v : Fin k → K} (hu : IsProb u) (hv : IsProb v) :
    sqDist u v ≤ 2 := by
  have h1 : ∀ {u : Fin k → K}, IsProb u → ∀ i, u i ≤ 1 := fun {u} hu i => by
    rw [← hu.2]
    exact Finset.single_le_sum (f := u) (fun j _ => hu.1 j) (Finset.mem_univ i)
  calc sqDist u v ≤ ∑ i, (u i + v i) := Finset.sum_le_sum fun i _ => by
        have := hu.1 i
        have := hv.1 i
        have := h1 hu i
        have := h1 hv i
        nlinarith [mul_nonneg (hu.1 i) (hv.1 i)]
    _ = 2 := by rw [Finset.sum_add_distrib, hu.2, hv.2]; norm_num

theorem mtdStep_prob {lags : Fin p → ℕ} {w : Fin p → K} {A : Fin p → Matrix (Fin k) (Fin k) K}
    (hw : IsProb w) (hA : ∀ i, ColStochastic (A i)) {q : ℕ → Fin k → K} {t : ℕ}
    (hq : ∀ i, IsProb (q (t - lags i))) : IsProb (mtdStep lags w A q t) := by
  constructor
  · intro j
    exact Finset.sum_nonneg fun i _ => mul_nonneg (hw.1 i)
      (Finset.sum_nonneg fun l _ => mul_nonneg ((hA i l).1 j) ((hq i).1 l))
  · show ∑ j, ∑ i, w i * ∑ l, A i j l * q (t - lags i) l = 1
    rw [Finset.sum_comm]
    have : ∀ i, ∑ j, w i * ∑ l, A i j l * q (t - lags i) l = w i := by
      intro i
      rw [← Finset.mul_sum, Finset.sum_comm]
      have : ∀ l, ∑ j, A i j l * q (t - lags i) l = q (t - lags i) l := fun l => by
        rw [← Finset.sum_mul, (hA i l).2, one_mul]
      simp only [this, (hq i).2, mul_one]
    simp only [this, hw.2]

/-- The penalty of stochastic weights and parameters is at most `2 epsilon_weights / k`. -/
theorem mtdPenalty_le_two {eps : K} (he : 0 ≤ eps) (lags : Fin p → ℕ)
    {W : Matrix (Fin T) (Fin k) K} {w : Fin p → K} {A : Fin p → Matrix (Fin k) (Fin k) K}
    (hW : RowStochastic W) (hw : IsProb w) (hA : ∀ i, ColStochastic (A i)) :
    mtdPenalty eps lags W w A ≤ 2 * eps / k := by
  unfold mtdPenalty
  split_ifs with hk
  · positivity
  have h1 : (∑ t : Fin T, if ∀ i, lags i ≤ t then
      sqDist (fun j => W t j) (mtdStep lags w A (rowSeq W) t) else 0) ≤
      2 * (mtdSamples lags T : K) := by
    unfold mtdSamples
    rw [Finset.card_filter, Nat.cast_sum, Finset.mul_sum]
    refine Finset.sum_le_sum fun t _ => ?_
    split_ifs
    · rw [Nat.cast_one, mul_one]
      refine sqDist_prob_le (hW t) (mtdStep_prob hw hA fun i => ?_)
      have hlt : (t : ℕ) - lags i < T := lt_of_le_of_lt (Nat.sub_le _ _) t.2
      unfold rowSeq
      rw [dif_pos hlt]
      exact hW _
    · simp
  rw [mul_div_assoc 2, mul_div_assoc', mul_comm 2]
  rcases Nat.eq_zero_or_pos k with rfl | hk0
  · simp
  rcases Nat.eq_zero_or_pos (mtdSamples lags T) with h0 | h0
  · rw [h0]
    simp only [Nat.cast_zero, mul_zero, div_zero]
    positivity
  have hk' : (0 : K) < k := by exact_mod_cast hk0
  have h0' : (0 : K) < mtdSamples lags T := by exact_mod_cast h0
  rw [div_le_iff₀ (by positivity)]
  calc eps * _ ≤ eps * (2 * (mtdSamples lags T : K)) := mul_le_mul_of_nonneg_left h1 he
    _ = eps / k * 2 * (k * (mtdSamples lags T : K)) := by field_simp

theorem mtdCoef_le {eps : K} (he : 0 ≤ eps) {lags : Fin p → ℕ} (hL : ∀ i, lags i ≤ L) (hLT : L < T)
    (hk : 1 ≤ k) : mtdCoef T k eps lags ≤ eps / ((k : K) * ((T : K) - L)) := by
  have hk' : (0 : K) < k := by exact_mod_cast hk
  have h1 : (0 : K) < (T : K) - L := sub_pos.2 (by exact_mod_cast hLT)
  have h2 : (T : K) - L ≤ ((T - topLag lags : ℕ) : K) := by
    have := topLag_le_iff.2 hL
    rw [Nat.cast_sub (this.trans hLT.le)]
    have : (topLag lags : K) ≤ L := by exact_mod_cast this
    linarith
  unfold mtdCoef
  gcongr

theorem paramsCurvature_le (hT : 1 ≤ T) (hp : 1 ≤ p) (hk : 1 ≤ k) :
    (MTDState.paramsCurvature T p k : K) ≤ 26 * (p * k) * (T : K) ^ 3 := by
  have hT' : (1 : K) ≤ T := by exact_mod_cast hT
  have hq : (1 : K) ≤ (p : K) * k := by
    have : 1 ≤ p * k := Nat.mul_pos hp hk
    exact_mod_cast this
  unfold MTDState.paramsCurvature
  have h2 : (T : K) ≤ (T : K) ^ 2 := by nlinarith
  have h3 : (T : K) ^ 2 ≤ (T : K) ^ 3 := by nlinarith [sq_nonneg (T : K)]
  have h4 : (T : K) ^ 3 ≤ (p * k) * (T : K) ^ 3 := by nlinarith [pow_nonneg (by linarith : (0 : K) ≤ T) 3]
  have h5 : ((p : K) * k) * (T : K) ^ 2 ≤ (p * k) * (T : K) ^ 3 :=
    mul_le_mul_of_nonneg_left h3 (by linarith)
  nlinarith

/-- The parameter block with default settings. -/
theorem default_params_floor {eps : K} (he : 0 ≤ eps) {lags : Fin p → ℕ} (hL : ∀ i, lags i ≤ L)
    (hLT : L < T) (hk : 1 ≤ k) (hp : 1 ≤ p)
    (hpar : 26 * eps * p * (T : K) ^ 3 ≤ 499950000 * ((T : K) - L)) :
    mtdCoef T k eps lags * MTDState.paramsCurvature T p k ≤ 499950000 := by
  have hk' : (0 : K) < k := by exact_mod_cast hk
  have h1 : (0 : K) < (T : K) - L := sub_pos.2 (by exact_mod_cast hLT)
  calc mtdCoef T k eps lags * MTDState.paramsCurvature T p k
      ≤ eps / ((k : K) * ((T : K) - L)) * (26 * (p * k) * (T : K) ^ 3) :=
        mul_le_mul (mtdCoef_le he hL hLT hk) (paramsCurvature_le (by omega) hp hk)
          (MTDState.paramsCurvature_nonneg T p k) (by positivity)
    _ = 26 * eps * p * (T : K) ^ 3 / ((T : K) - L) := by field_simp
    _ ≤ 499950000 := by rw [div_le_iff₀ h1]; exact hpar

theorem default_descends :
    (⟨1, 1 / 10 ^ 4, 1 / 10 ^ 3, 10 ^ 3, 1 / 10, 9 / 10, 1 / 10 ^ 12⟩ : LSConfig K).Descends := by
  constructor <;> norm_num

/-! ### MTD convex coding -/

/-- Fits of an MTD model with the default line search from a given start. -/
theorem mtd_default_fit_of_start [Archimedean K] {env : Env K} {obj : MTDObj env.rng p}
    (hls : obj.ls = ⟨1, 1 / 10 ^ 4, 1 / 10 ^ 3, 10 ^ 3, 1 / 10, 9 / 10, 1 / 10 ^ 12⟩)
    (hc : obj.nComponents = .int k)
    (hv : ValidParams obj.nComponents obj.maxIterations obj.tolerance)
    (hk : 1 ≤ k) (hp : 1 ≤ p) (hlag : ∀ i, 1 ≤ obj.lags i)
    (heS : 0 < obj.epsilonStates ∨ (0 ≤ obj.epsilonStates ∧ k = 1))
    (heW : 0 ≤ obj.epsilonWeights) {X : Matrix (Fin T) (Fin D) K} (hDT : D * T ≠ 0)
    (hT : T ≠ topLag obj.lags) {args : MTDArgs K} {start : MTDPoint T D k p K × env.rng.G}
    (hst : mtdStart env X k p obj.init args {} {} obj.randomState = Py.ok start)
    (hW : RowStochastic start.1.2.1) (hw : IsProb start.1.2.2.1)
    (hA : ∀ i, ColStochastic (start.1.2.2.2 i)) {c : K}
    (hcost : mtdCost obj.epsilonStates obj.epsilonWeights obj.lags X start.1.2.1 start.1.1
      start.1.2.2.1 start.1.2.2.2 ≤ c)
    (h1 : (T : K) / ((D : K) * (T : K)) +
      |obj.epsilonStates| * (2 * k / ((k : K) * ((k : K) - 1) * (D : K))) ≤ 499950000)
    (h2 : gpnhLevel obj.epsilonStates X k c / ((D : K) * (T : K)) +
      mtdCoef T k obj.epsilonWeights obj.lags * (2 + 2 * (T * (p * k))) ≤ 499950000)
    (h3 : mtdCoef T k obj.epsilonWeights obj.lags * MTDState.paramsCurvature T p k ≤ 499950000) :
    ∃ res, mtdFitTransform env obj (Arr2.of X) args {} {} = Py.ok res := by
  have hv' : ValidParams (defaultComponents obj.nComponents (Arr2.of X).cols)
      obj.maxIterations obj.tolerance := by
    rw [hc] at hv ⊢
    exact hv
  obtain ⟨⟨k', m, t⟩, hq, hck, -, -, hm, -, -⟩ := checkParams_valid hv'
  rw [hc] at hck
  simp only [defaultComponents, NumArg.int.injEq, Nat.cast_inj] at hck
  subst hck
  have he0 : 0 ≤ obj.epsilonStates := by rcases heS with h | h; exacts [h.le, h.1]
  have hc0 : 0 ≤ c := le_trans (add_nonneg (gpnhCost_nonneg' he0 _ _ _)
    (mtdPenalty_nonneg heW _ _ _ _)) hcost
  have hlev : ∀ (W : Matrix (Fin T) (Fin k) K) (S : Matrix (Fin k) (Fin D) K)
      (w : Fin p → K) (A : Fin p → Matrix (Fin k) (Fin k) K), RowStochastic W →
      obj.config.cost X W S w A ≤ c → frobSq S ≤ gpnhLevel obj.epsilonStates X k c :=
    fun W S w A hW h => gpnh_level_bound heS hDT X hW
      ((le_add_of_nonneg_right (mtdPenalty_nonneg heW obj.lags W w A)).trans h)
  have hl : obj.config.ls =
    ⟨1, 1 / 10 ^ 4, 1 / 10 ^ 3, 10 ^ 3, 1 / 10, 9 / 10, 1 / 10 ^ 12⟩ := hls
  obtain ⟨r, hr⟩ := mtdSolve_succeeds_floor (c := obj.config) (by rw [hl]; exact default_descends)
    (by rw [hl]) hlag hk hp hDT hT (X := X) heW (gpnhLevel_nonneg he0 X k hc0) (fl := {})
    (fun _ => he0) (fun _ => hlev)
    (fun _ => by rw [hl]; exact default_floor h1) (fun _ => by rw [hl]; exact default_floor h2)
    (fun _ => by rw [hl]; exact default_floor h3) (require := obj.require) (tol := t) hm
    (pt := start.1) hW hw hA (hlev _ _ _ _ hW hcost) hcost
  unfold mtdFitTransform
  rw [mtdConvexCoding_of_steps (data := Arr2.of X) hq hst hr]
  exact ⟨_, rfl⟩

theorem mtdNew_default {R : Rng K} {g : R.G} {nc tol mi : NumArg K} {lags : Option (List (NumArg K))}
    {epsS epsW : K} {init : Option String} {obj : MTDObj R p}
    (h : mtdNew g nc (lags := lags) (epsilonStates := epsS) (epsilonWeights := epsW) (init := init)
      (tolerance := tol) (maxIterations := mi) = Py.ok ⟨p, obj⟩) :
    obj = { nComponents := nc, lags := obj.lags, epsilonStates := epsS, epsilonWeights := epsW
            init := init, tolerance := tol, maxIterations := mi, randomState := g
            ls := ⟨1, 1 / 10 ^ 4, 1 / 10 ^ 3, 10 ^ 3, 1 / 10, 9 / 10, 1 / 10 ^ 12⟩
            require := true } := by
  unfold mtdNew at h
  obtain ⟨l, hl, h⟩ := Py.bind_eq_ok.1 h
  obtain ⟨ls, hls, ho⟩ := Py.bind_eq_ok.1 h
  rw [solverSettings_default hls] at ho
  simp only [Py.pure_eq, Py.ok.injEq, Sigma.mk.injEq] at ho
  obtain ⟨hp, ho⟩ := ho
  subst hp
  have ho := eq_of_heq ho
  rw [← ho]
  rfl

/-- The dictionary of a furthest sum start. -/
theorem mtd_furthest_sum_start_le {env : Env K} {X : Matrix (Fin T) (Fin D) K}
    {args : MTDArgs K} {g : env.rng.G} {start : MTDPoint T D k p K × env.rng.G}
    (hs : mtdStart env X k p (some "furthest_sum") args {} {} g = Py.ok start) :
    frobSq start.1.1 ≤ k * frobSq X := by
  obtain ⟨rows, -, -, hrows⟩ := C36_mtd_furthest_sum_start X k args {} rfl {}
    (by simp [InitKwargs.WellFormed]) _ start hs
  have hrow : ∀ i ∈ (Finset.univ : Finset (Fin k)), ∑ d, start.1.1 i d ^ 2 ≤ frobSq X := by
    intro i _
    simp only [hrows]
    exact Finset.single_le_sum (f := fun t => ∑ d, X t d ^ 2)
      (fun t _ => Finset.sum_nonneg fun d _ => sq_nonneg _) (Finset.mem_univ (rows i))
  refine (Finset.sum_le_sum hrow).trans (le_of_eq ?_)
  rw [Finset.sum_const, Finset.card_univ, Fintype.card_fin, nsmul_eq_mul]

/-- C102.  `MTDConvexCoding(k, lags, epsilon_states=eps, epsilon_weights=nu, init='furthest_sum')`
with default settings can be fitted to all data of moderate size: for entries of absolute value at
most `b`, with `2 <= k <= T`, lags from 1 to `L < T`, `eps > 0` and `nu >= 0`, the fit returns if,
with `c = 4 b ** 2 (1 + eps) + 2 nu / k`, the number
`4 k (b ** 2 + c) + 2 c k (k - 1) / (eps T) + nu (2 + 2 T p k) / (k (T - L))` is at most 499950000,
`eps` is not above about `2.5e8 D (k - 1)`, and `26 nu p T ** 3 <= 499950000 (T - L)`. -/
theorem C102_mtd_furthest_sum_fit_returns [Archimedean K] {env : Env K} (hR : env.rng.Lawful)
    (hpos : ∀ m n g i j, 0 < (env.rng.uniform m n g).1 i j) (g : env.rng.G) (eps nu b : K)
    (heps : 0 < eps) (hnu : 0 ≤ nu) (hk : 2 ≤ k) (hkT : k ≤ T) (hD : 0 < D)
    (lags : Option (List (NumArg K))) (obj : MTDObj env.rng p)
    (hobj : mtdNew g (.int k) (lags := lags) (epsilonStates := eps) (epsilonWeights := nu)
      (init := some "furthest_sum") = Py.ok ⟨p, obj⟩)
    (hp : 1 ≤ p) (hlag : ∀ i, 1 ≤ obj.lags i ∧ obj.lags i ≤ L) (hLT : L < T)
    (X : Matrix (Fin T) (Fin D) K) (hX : ∀ t d, |X t d| ≤ b)
    (c : K) (hc : c = 4 * b ^ 2 * (1 + eps) + 2 * nu / k)
    (hb : 4 * k * (b ^ 2 + c) + 2 * c * (k * (k - 1)) / (eps * T) +
      nu * (2 + 2 * (T * (p * k))) / (k * (T - L)) ≤ 499950000)
    (heps' : 1 / (D : K) + 2 * eps / (((k : K) - 1) * D) ≤ 499950000)
    (hpar : 26 * nu * p * (T : K) ^ 3 ≤ 499950000 * ((T : K) - L)) (args : MTDArgs K) :
    ∃ res, mtdFitTransform env obj (Arr2.of X) args {} {} = Py.ok res := by
  have hT : 0 < T := by omega
  have hk1 : 1 ≤ k := by omega
  have hD' : (0 : K) < D := by exact_mod_cast hD
  have hT' : (0 : K) < T := by exact_mod_cast hT
  have hk' : (0 : K) < k := by exact_mod_cast hk1
  have hk2 : (0 : K) < (k : K) - 1 := by
    have : (2 : K) ≤ k := by exact_mod_cast hk
    linarith
  have hTL : (0 : K) < (T : K) - L := sub_pos.2 (by exact_mod_cast hLT)
  have ho := mtdNew_default hobj
  have e1 : obj.epsilonStates = eps := by rw [ho]
  have e2 : obj.epsilonWeights = nu := by rw [ho]
  have e3 : obj.init = some "furthest_sum" := by rw [ho]
  have hL := fun i => (hlag i).2
  obtain ⟨start, hst⟩ := C36_mtd_furthest_sum_succeeds (p := p) hR hpos X k hk1 hkT args
    obj.randomState
  obtain ⟨hW, hw, hA⟩ := mtdStart_stochastic hR hk1 hp
    ⟨fun h => by simp at h, fun h => by simp at h, fun h => by simp at h⟩ hst
  obtain ⟨rows, -, -, hrows⟩ := C36_mtd_furthest_sum_start X k args {} rfl {}
    (by simp [InitKwargs.WellFormed]) _ start hst
  have hS : start.1.1 = fun i => X (rows i) := by
    ext i d
    exact hrows i d
  have hcost : mtdCost eps nu obj.lags X start.1.2.1 start.1.1 start.1.2.2.1 start.1.2.2.2 ≤ c := by
    rw [hc]
    refine add_le_add ?_ (mtdPenalty_le_two hnu _ hW hw hA)
    rw [hS]
    exact gpnhCost_samples_le heps.le hk hD hT hX hW rows
  refine mtd_default_fit_of_start (by rw [ho]) (by rw [ho])
    (by rw [ho]; exact ⟨⟨k, rfl, by omega⟩, ⟨1000, rfl, by norm_num⟩,
      Or.inr ⟨_, rfl, by positivity⟩⟩) hk1 hp (fun i => (hlag i).1) (Or.inl (by rw [e1]; exact heps))
    (by rw [e2]; exact hnu) (Nat.mul_pos hD hT).ne' ?_ (by rw [e3]; exact hst) hW hw hA
    (c := c) (by rw [e1, e2]; exact hcost) ?_ ?_ ?_
  · have := topLag_le_iff.2 hL
    omega
  · rw [e1, abs_of_pos heps]
    refine le_trans (le_of_eq ?_) heps'
    field_simp
  · rw [e1, e2]
    have hco := mul_le_mul_of_nonneg_right (mtdCoef_le hnu hL hLT hk1)
      (show (0 : K) ≤ 2 + 2 * (T * (p * k)) by positivity)
    rw [div_mul_eq_mul_div] at hco
    have hfr : frobSq X ≤ b ^ 2 * (D * T) := by
      calc frobSq X ≤ ∑ _t : Fin T, ∑ _d : Fin D, b ^ 2 :=
            Finset.sum_le_sum fun t _ => Finset.sum_le_sum fun d _ =>
              sq_le_sq' (abs_le.1 (hX t d)).1 (abs_le.1 (hX t d)).2
        _ = b ^ 2 * (D * T) := by
            simp only [Finset.sum_const, Finset.card_univ, Fintype.card_fin, nsmul_eq_mul]
            ring
    have hlv : gpnhLevel eps X k c / ((D : K) * (T : K)) ≤
        4 * k * (b ^ 2 + c) + 2 * c * (k * (k - 1)) / (eps * T) := by
      rw [div_le_iff₀ (by positivity)]
      unfold gpnhLevel
      have h4 : 4 * (k : K) * frobSq X ≤ 4 * k * (b ^ 2 * (D * T)) :=
        mul_le_mul_of_nonneg_left hfr (by positivity)
      have h5 : 2 * c * (k * (k - 1)) / (eps * T) * ((D : K) * T) =
          2 * (c * (k * (k - 1) * D) / eps) := by
        field_simp
      rw [add_mul, h5]
      linarith
    linarith
  · rw [e2]
    exact default_params_floor hnu hL hLT hk1 hp hpar

/-- C102.  `transform` of a default MTD model with stored variables returns for every dataset with the
fitted number of features and more samples than the largest lag, when the squared entries of the
dictionary sum to at most `(499950000 - nu (2 + 2 T p k) / (k (T - L))) D T`. -/
theorem C102_mtd_default_transform_returns [Archimedean K] {env : Env K} (hR : env.rng.Lawful)
    (hpos : ∀ m n g i j, 0 < (env.rng.uniform m n g).1 i j) (g : env.rng.G) (eps nu : K)
    (hnu : 0 ≤ nu) (hk : 1 ≤ k)
    (lags : Option (List (NumArg K))) (obj : MTDObj env.rng p)
    (hobj : mtdNew g (.int k) (lags := lags) (epsilonStates := eps) (epsilonWeights := nu) =
      Py.ok ⟨p, obj⟩)
    (hp : 1 ≤ p) (hlag : ∀ i, 1 ≤ obj.lags i ∧ obj.lags i ≤ L) (hLT : L < T)
    (X : Matrix (Fin T) (Fin D) K) (hD : 0 < D) (T0 : ℕ) (W0 : Matrix (Fin T0) (Fin k) K)
    (S : Matrix (Fin k) (Fin D) K) (w : Fin p → K) (A : Fin p → Matrix (Fin k) (Fin k) K)
    (hw : IsProb w) (hA : ∀ i, ColStochastic (A i))
    (hS : (∑ i, ∑ d, S i d ^ 2) / (D * T) + nu * (2 + 2 * (T * (p * k))) / (k * (T - L)) ≤
      499950000) :
    ∃ res, mtdTransform env { obj with vars := some ⟨T0, D, k, W0, S, w, A⟩ } (Arr2.of X) =
      Py.ok res := by
  have hT : 0 < T := by omega
  have hDT : D * T ≠ 0 := (Nat.mul_pos hD hT).ne'
  have ho := mtdNew_default hobj
  have hL := fun i => (hlag i).2
  set o : MTDObj env.rng p := { obj with vars := some ⟨T0, D, k, W0, S, w, A⟩ } with hod
  have e0 : o.nComponents = .int k := by rw [hod, ho]
  have e2 : o.epsilonWeights = nu := by rw [hod, ho]
  have e3 : o.init = none := by rw [hod, ho]
  have hla : o.lags = obj.lags := rfl
  have hvars : o.vars = some ⟨T0, D, k, W0, S, w, A⟩ := rfl
  have hls : o.config.ls = ⟨1, 1 / 10 ^ 4, 1 / 10 ^ 3, 10 ^ 3, 1 / 10, 9 / 10, 1 / 10 ^ 12⟩ := by
    show obj.ls = _
    rw [ho]
  have hv' : ValidParams (defaultComponents o.nComponents (Arr2.of X).cols)
      o.maxIterations o.tolerance := by
    rw [hod, ho]
    exact ⟨⟨k, rfl, by omega⟩, ⟨1000, rfl, by norm_num⟩, Or.inr ⟨_, rfl, by positivity⟩⟩
  obtain ⟨⟨k', m, t⟩, hq, hck, -, -, hm, -, -⟩ := checkParams_valid hv'
  rw [e0] at hck
  simp only [defaultComponents, NumArg.int.injEq, Nat.cast_inj] at hck
  subst hck
  obtain ⟨start, hst, hS0, hP⟩ := mtdStart_transform_ok hpos (data := X)
    hD.ne' hk (init := o.init) (Or.inl e3) (args := o.transformArgs) (g := o.randomState)
    (S := S) (w := w) (A := A)
    (by unfold MTDObj.transformArgs; rw [hvars]; rfl)
    (by unfold MTDObj.transformArgs; rw [hvars])
    (by unfold MTDObj.transformArgs; rw [hvars]) hw hA
  have hW : RowStochastic start.1.2.1 :=
    mtdStart_weights_drawn hR hk (by rw [e3]; simp) rfl hst
  obtain ⟨r, hr⟩ := mtdSolve_succeeds_floor (c := o.config) (by rw [hls]; exact default_descends)
    (by rw [hls]) (fun i => (hlag i).1) hk hp hDT (X := X) (fl := ⟨false, true, false⟩)
    (B := mtdObjectiveAt o.config X start.1) (R := frobSq start.1.1)
    (by
      have := topLag_le_iff.2 hL
      show T ≠ topLag obj.lags
      omega) (by show 0 ≤ o.epsilonWeights; rw [e2]; exact hnu) (frobSq_nonneg _)
    (by simp) (by simp) (by simp)
    (fun _ => by
      rw [hls]
      refine default_floor ?_
      rw [hS0]
      show frobSq S / ((D : K) * (T : K)) +
        mtdCoef T k o.epsilonWeights obj.lags * (2 + 2 * (T * (p * k))) ≤ 499950000
      rw [e2]
      have hco := mul_le_mul_of_nonneg_right (mtdCoef_le hnu hL hLT hk)
        (show (0 : K) ≤ 2 + 2 * (T * (p * k)) by positivity)
      rw [div_mul_eq_mul_div] at hco
      have : frobSq S = ∑ i, ∑ d, S i d ^ 2 := rfl
      rw [this]
      linarith) (by simp) (require := o.require) (tol := t) hm
    hW (by rw [hP]; exact hw) (by rw [hP]; exact hA) le_rfl le_rfl
  unfold mtdTransform
  rw [mtdConvexCoding_of_steps (data := Arr2.of X) hq hst hr]
  exact ⟨_, rfl⟩

/-! ### Reduced order models -/

/-- C102.  If the convex coding of a default reduced order model returns, so does the whole fit, for
lags from 1 to `L < T`, when `26 p T ** 3 <= 499950000 (T - L)`: the size of the data plays no part
in the fit of the transition matrices. -/
theorem C102_crom_default_fit_returns [Archimedean K] {env : Env K} (hR : env.rng.Lawful)
    (hpos : ∀ m n g i j, 0 < (env.rng.uniform m n g).1 i j) (g : env.rng.G) (eps : K)
    (lags : LagsArg) (init : Option String) (hinit : init ≠ some "custom")
    (obj : CROMObj env.rng p)
    (hobj : cromNew g (.int k) (lags := lags) (epsilonStates := eps) (init := init) =
      Py.ok ⟨p, obj⟩)
    (hp : 1 ≤ p) (hlag : ∀ i, 1 ≤ obj.lags i ∧ obj.lags i ≤ L) (hLT : L < T)
    (X : Matrix (Fin T) (Fin D) K)
    (hpar : 26 * p * (T : K) ^ 3 ≤ 499950000 * ((T : K) - L))
    (dictionary weights : Option (Arr2 K))
    (hbase : ∃ res, gpnhFitTransform env obj.base (Arr2.of X) dictionary weights {} = Py.ok res) :
    ∃ res, cromFitTransform env obj (Arr2.of X) dictionary weights {} = Py.ok res := by
  have ho : obj.base.ls = ⟨1, 1 / 10 ^ 4, 1 / 10 ^ 3, 10 ^ 3, 1 / 10, 9 / 10, 1 / 10 ^ 12⟩ ∧
      obj.base.init = init := by
    unfold cromNew at hobj
    obtain ⟨base, hb, h⟩ := Py.bind_eq_ok.1 hobj
    obtain ⟨l, hl, h⟩ := Py.bind_eq_ok.1 h
    obtain ⟨_, -, h⟩ := Py.bind_eq_ok.1 h
    simp only [Py.pure_eq, Py.ok.injEq, Sigma.mk.injEq] at h
    obtain ⟨hp, h⟩ := h
    subst hp
    have h := eq_of_heq h
    rw [← h, gpnhNew_default hb]
    exact ⟨rfl, rfl⟩
  obtain ⟨hls, hin⟩ := ho
  have hL := fun i => (hlag i).2
  have hT' : T ≠ obj.config.maxLag := by
    have := topLag_le_iff.2 hL
    show T ≠ topLag obj.lags
    omega
  obtain ⟨⟨o, G, i⟩, ho⟩ := hbase
  obtain ⟨W', hG, hGo, -, hW⟩ := C17_gpnh_fit_weights_stochastic_partial hR obj.base
    (LSConfig.safe_of_sigma (by rw [hls]; norm_num) (by rw [hls]; norm_num)) (Arr2.of X)
    dictionary weights {} (fun h => absurd h (by rw [hin]; exact hinit)) o G i ho
  obtain ⟨o1, i1, ho1, hres⟩ := gpnhFitTransform_eq_ok ho
  obtain ⟨q1, start, r1, hq1, hst, hr1, hoi⟩ := gpnhConvexCoding_eq_ok ho1
  obtain ⟨-, -, -, hk, hm, -⟩ := checkParams_ok hq1
  simp only [Prod.mk.injEq] at hres hoi
  obtain ⟨rfl, rfl, rfl⟩ := hres
  obtain ⟨rfl, rfl⟩ := hoi
  simp only [Option.some.injEq] at hG hGo
  subst hG
  obtain ⟨w, hw⟩ := mtdDrawOrderWeights_succeeds hpos p start.2
  obtain ⟨A, hA⟩ := mtdDrawTransitionMatrices_succeeds hpos hk p w.2
  have hl : obj.config.ls =
    ⟨1, 1 / 10 ^ 4, 1 / 10 ^ 3, 10 ^ 3, 1 / 10, 9 / 10, 1 / 10 ^ 12⟩ := hls
  obtain ⟨r, hr⟩ := cromSolve_succeeds_floor (c := obj.config) (T := T)
    (by rw [hl]; exact default_descends) (by rw [hl]) (fun i => (hlag i).1) hk hp
    (by omega) hT' (by
      rw [hl]
      exact default_floor (default_params_floor zero_le_one hL hLT hk hp (by rw [mul_one]; exact hpar)))
    (require := obj.base.require) (tol := q1.2.2) hm hW
    (mtdDrawOrderWeights_ok hR hp hw) (mtdDrawTransitionMatrices_ok hR hk hA)
  have hr' : cromSolve obj.config obj.base.require q1.2.2 q1.2.1 r1.state.Gamma w.1 A.1 =
    Py.ok r := hr
  have hf : cromFitParameters env.rng obj.config obj.base.require q1.2.2 q1.2.1 r1.state.Gamma
      start.2 = Py.ok (r, A.2) := by
    unfold cromFitParameters
    rw [hw, Py.ok_bind, hA, Py.ok_bind, hr']
    rfl
  unfold cromFitTransform
  rw [ho, Py.ok_bind]
  simp only [hq1, Py.ok_bind]
  exact ⟨_, Py.bind_eq_ok.2 ⟨_, hf, rfl⟩⟩

/-- C102.  `GPNHConvexCodingCROM(k, lags, epsilon_states=eps, init='furthest_sum')` with default
settings: the fit returns for data of moderate size, with the bounds of the convex coding and
`26 p T ** 3 <= 499950000 (T - L)`. -/
theorem C102_crom_furthest_sum_fit_returns [Archimedean K] {env : Env K} (hR : env.rng.Lawful)
    (hpos : ∀ m n g i j, 0 < (env.rng.uniform m n g).1 i j) (g : env.rng.G) (eps b : K)
    (heps : 0 < eps) (hk : 2 ≤ k) (hkT : k ≤ T) (hD : 0 < D) (lags : LagsArg)
    (obj : CROMObj env.rng p)
    (hobj : cromNew g (.int k) (lags := lags) (epsilonStates := eps)
      (init := some "furthest_sum") = Py.ok ⟨p, obj⟩)
    (hp : 1 ≤ p) (hlag : ∀ i, 1 ≤ obj.lags i ∧ obj.lags i ≤ L) (hLT : L < T)
    (X : Matrix (Fin T) (Fin D) K) (hX : ∀ t d, |X t d| ≤ b)
    (hb : 4 * k * b ^ 2 * (5 + 4 * eps) + 8 * b ^ 2 * (1 + eps) * (k * (k - 1)) / (eps * T) ≤
      499950000)
    (heps' : 1 / (D : K) + 2 * eps / (((k : K) - 1) * D) ≤ 499950000)
    (hpar : 26 * p * (T : K) ^ 3 ≤ 499950000 * ((T : K) - L))
    (dictionary weights : Option (Arr2 K)) :
    ∃ res, cromFitTransform env obj (Arr2.of X) dictionary weights {} = Py.ok res := by
  refine C102_crom_default_fit_returns hR hpos g eps lags (some "furthest_sum") (by simp) obj hobj hp
    hlag hLT X hpar dictionary weights ?_
  unfold cromNew at hobj
  obtain ⟨base, hbase, h⟩ := Py.bind_eq_ok.1 hobj
  obtain ⟨l, hl, h⟩ := Py.bind_eq_ok.1 h
  obtain ⟨_, -, h⟩ := Py.bind_eq_ok.1 h
  simp only [Py.pure_eq, Py.ok.injEq, Sigma.mk.injEq] at h
  obtain ⟨hp', h⟩ := h
  subst hp'
  have h := eq_of_heq h
  rw [← h]
  exact C102_gpnh_furthest_sum_fit_returns hR hpos g eps b heps hk hkT hD base hbase X hX hb heps'
    dictionary weights

/-! ### Near-optimal fits -/

/-- C88 for `GPNHConvexCoding` with default settings apart from the tolerance and the number of
iterations, `epsilon_states > 0` and `init='furthest_sum'`, for all data of moderate size: the fit
returns, and what it returns is near-optimal. -/
theorem C88_gpnh_default_fit_near_optimal [Archimedean K] (hk : 2 ≤ k) (hkT : k ≤ T)
    (X : Matrix (Fin T) (Fin D) K) (hD : 0 < D) (eps : K) (heps : 0 < eps)
    (hX : gpnhCurvature T D k eps (gpnhLevel eps X k (gpnhCostBound eps X k (k * frobSq X))) ≤
      499950000) (ε : K) (hε : 0 < ε) :
    ∃ tol : K, 0 < tol ∧ ∀ t : K, 0 < t → t ≤ tol → ∃ M : ℕ, ∀ m : ℕ, M ≤ m →
      ∀ {env : Env K}, env.rng.Lawful → (∀ m n g i j, 0 < (env.rng.uniform m n g).1 i j) →
      ∀ (g : env.rng.G) (obj : GPNHObj env.rng),
      gpnhNew g (.int k) (epsilonStates := eps) (init := some "furthest_sum")
        (tolerance := .real t) (maxIterations := .int m) = Py.ok obj →
      ∃ (obj' : GPNHObj env.rng) (info : FitInfo K) (W : Matrix (Fin T) (Fin k) K)
        (S : Matrix (Fin k) (Fin D) K),
        gpnhFitTransform env obj (Arr2.of X) none none {} =
          Py.ok (obj', some (Arr2.of W), info) ∧
        obj'.dictionary_ = some (Arr2.of S) ∧
        obj'.cost_ = some (gpnhCost eps X W S) ∧ RowStochastic W ∧
        (∀ S', gpnhCost eps X W S ≤ gpnhCost eps X W S' + ε) ∧
        (∀ W', RowStochastic W' → gpnhCost eps X W S ≤ gpnhCost eps X W' S + ε) := by
  have hT : 0 < T := by omega
  have hk1 : 1 ≤ k := by omega
  have hDT : D * T ≠ 0 := (Nat.mul_pos hD hT).ne'
  have hDT' : (0 : K) < (D : K) * (T : K) := by exact_mod_cast Nat.pos_of_ne_zero hDT
  have hD' : (0 : K) < D := by exact_mod_cast hD
  have hk' : (0 : K) < k := by exact_mod_cast hk1
  have hk2 : (0 : K) < (k : K) - 1 := by
    have : (2 : K) ≤ k := by exact_mod_cast hk
    linarith
  obtain ⟨tol, htol, key⟩ := C88_gpnh_default_near_optimal hk1 X hDT eps heps hX ε hε
  refine ⟨tol, htol, fun t ht0 ht => ?_⟩
  obtain ⟨M, hM⟩ := key t ht0 ht
  refine ⟨M + 1, fun m hm env hR hpos g obj hobj => ?_⟩
  obtain ⟨r, hr⟩ := furthestSumRows_succeeds hR (linear_kernel_bounds X (B := ∑ t, ∑ d, X t d ^ 2)
    (fun t => Finset.single_le_sum (f := fun t => ∑ d, X t d ^ 2)
      (fun t _ => Finset.sum_nonneg fun d _ => sq_nonneg _) (Finset.mem_univ t))).2.1 hk1 hkT
    (kw := {}) rfl (by simp) g
  obtain ⟨w, hw⟩ := rightStochastic_succeeds hpos (m := T) (n := k) hk1 r.2
  have hst : gpnhStart env X k (some "furthest_sum") none none true true {} g =
      Py.ok (((fun i => X (r.1 i)), w.1), w.2) := by
    unfold gpnhStart gpnhInitBoth gpnhInitDictionary gpnhInitWeights
      gpnhInitDictionaryFurthestSum gpnhInitWeightsRandom
    simp [hr, hw, InitKwargs.nonempty]
    rfl
  have hW : RowStochastic w.1 := gpnhStart_rowStochastic hR hk1 (by simp) hst
  have hS : frobSq (fun i => X (r.1 i) : Matrix (Fin k) (Fin D) K) ≤ k * frobSq X := by
    refine (Finset.sum_le_sum fun i _ => Finset.single_le_sum (f := fun t => ∑ d, X t d ^ 2)
      (fun t _ => Finset.sum_nonneg fun d _ => sq_nonneg _) (Finset.mem_univ (r.1 i))).trans
        (le_of_eq ?_)
    rw [Finset.sum_const, Finset.card_univ, Fintype.card_fin, nsmul_eq_mul]
    rfl
  have hc := gpnhCost_le_of_bound heps.le X k (k * frobSq X) w.1 _ hW hS
  have hc0 : 0 ≤ gpnhCostBound eps X k (k * frobSq X) := (gpnhCost_nonneg' heps.le _ _ _).trans hc
  have hl0 := gpnhLevel_nonneg heps.le X k hc0
  have hcur : gpnhCurvature T D k eps (gpnhLevel eps X k (gpnhCostBound eps X k (k * frobSq X))) =
      1 / (D : K) + 2 * eps / (((k : K) - 1) * D) +
      gpnhLevel eps X k (gpnhCostBound eps X k (k * frobSq X)) / ((D : K) * (T : K)) := by
    unfold gpnhCurvature
    rw [abs_of_pos heps]
    field_simp
  rw [hcur] at hX
  have hq1 : 0 ≤ 1 / (D : K) + 2 * eps / (((k : K) - 1) * D) := by positivity
  have hq2 := div_nonneg hl0 hDT'.le
  obtain ⟨⟨obj', G, info⟩, h⟩ := gpnh_default_fit_of_start heps hk ht0.le (mi := m) (by omega) hobj
    hDT hst hW hc
    (by
      rw [← div_le_iff₀ hDT']
      have : gpnhLevel eps X k (gpnhCostBound eps X k (k * frobSq X)) / ((D : K) * (T : K)) ≤
        499950000 := by linarith
      exact this)
    (by linarith)
  obtain ⟨W, S, rfl, e1, e2, e3, e4, e5⟩ := hM m (by omega) hR g obj hobj none none {} obj' G info h
  exact ⟨obj', info, W, S, h, e1, e2, e3, e4, e5⟩

/-- C97 for `MTDConvexCoding` with default settings apart from the tolerance and the number of
iterations, `epsilon_states > 0` and `init='furthest_sum'`, for all data of moderate size: the fit
returns, and what it returns is near-optimal. -/
theorem C97_mtd_default_fit_near_optimal [Archimedean K] (hk : 1 ≤ k) (hkT : k ≤ T) (hp : 1 ≤ p)
    (lags : Fin p → ℕ) (hlag : ∀ i, 1 ≤ lags i) (hT : ∀ i, lags i < T)
    (X : Matrix (Fin T) (Fin D) K) (hD : 0 < D) (epsS epsW : K)
    (he : 0 < epsS) (heW : 0 ≤ epsW)
    (hX : mtdCurvature T D k (⟨lags, epsS, epsW,
        ⟨1, 1 / 10 ^ 4, 1 / 10 ^ 3, 10 ^ 3, 1 / 10, 9 / 10, 1 / 10 ^ 12⟩⟩ : MTDConfig p K)
      (gpnhLevel epsS X k (mtdCostBound epsS epsW lags X k (k * frobSq X))) ≤ 499950000)
    (ε : K) (hε : 0 < ε) :
    ∃ tol : K, 0 < tol ∧ ∀ t : K, 0 < t → t ≤ tol → ∃ M : ℕ, ∀ m : ℕ, M ≤ m →
      ∀ {env : Env K}, env.rng.Lawful → (∀ m n g i j, 0 < (env.rng.uniform m n g).1 i j) →
      ∀ (g : env.rng.G) (l : Option (List (NumArg K))) (obj : MTDObj env.rng p),
      mtdNew g (.int k) (lags := l) (epsilonStates := epsS) (epsilonWeights := epsW)
        (init := some "furthest_sum") (tolerance := .real t) (maxIterations := .int m) =
        Py.ok ⟨p, obj⟩ → obj.lags = lags →
      ∃ (obj' : MTDObj env.rng p) (info : FitInfo K) (W : Matrix (Fin T) (Fin k) K)
        (S : Matrix (Fin k) (Fin D) K) (w : Fin p → K) (A : Fin p → Matrix (Fin k) (Fin k) K),
        mtdFitTransform env obj (Arr2.of X) {} {} {} = Py.ok (obj', some (Arr2.of W), info) ∧
        obj'.vars = some ⟨T, D, k, W, S, w, A⟩ ∧
        obj'.cost_ = some (mtdCost epsS epsW lags X W S w A) ∧
        RowStochastic W ∧ IsProb w ∧ (∀ i, ColStochastic (A i)) ∧
        (∀ S', mtdCost epsS epsW lags X W S w A ≤ mtdCost epsS epsW lags X W S' w A + ε) ∧
        (∀ W', RowStochastic W' →
          mtdCost epsS epsW lags X W S w A ≤ mtdCost epsS epsW lags X W' S w A + ε) ∧
        (∀ w', IsProb w' → mtdCost epsS epsW lags X W S w A ≤
          mtdCost epsS epsW lags X W S w' A + ε) ∧
        ∀ A' : Fin p → Matrix (Fin k) (Fin k) K, (∀ i, ColStochastic (A' i)) →
          mtdCost epsS epsW lags X W S w A ≤ mtdCost epsS epsW lags X W S w A' + ε := by
  have hT0 : 0 < T := by omega
  have hDT : D * T ≠ 0 := (Nat.mul_pos hD hT0).ne'
  obtain ⟨tol, htol, key⟩ := C97_mtd_default_near_optimal hk lags hlag X hDT epsS epsW he heW hX ε hε
  refine ⟨tol, htol, fun t ht0 ht => ?_⟩
  obtain ⟨M, hM⟩ := key t ht0 ht
  refine ⟨M + 1, fun m hm env hR hpos g l obj hobj hla => ?_⟩
  have ho := mtdNew_default hobj
  have e1 : obj.epsilonStates = epsS := by rw [ho]
  have e2 : obj.epsilonWeights = epsW := by rw [ho]
  have e3 : obj.init = some "furthest_sum" := by rw [ho]
  obtain ⟨start, hst⟩ := C36_mtd_furthest_sum_succeeds (p := p) hR hpos X k hk hkT {}
    obj.randomState
  obtain ⟨hW, hw, hA⟩ := mtdStart_stochastic hR hk hp
    ⟨fun h => by simp at h, fun h => by simp at h, fun h => by simp at h⟩ hst
  have hcost := mtdCost_le_of_bound he.le heW lags X k (k * frobSq X) _ _ _ _ hW hw hA
    (mtd_furthest_sum_start_le hst)
  have hc0 : 0 ≤ mtdCostBound epsS epsW lags X k (k * frobSq X) :=
    (add_nonneg (gpnhCost_nonneg' he.le _ _ _) (mtdPenalty_nonneg heW _ _ _ _)).trans hcost
  have hl0 := gpnhLevel_nonneg he.le X k hc0
  have hpd := GPNHState.pen_denominator_nonneg (K := K) k D
  have hco := mtdCoef_nonneg (T := T) (k := k) heW lags
  have hLP := MTDState.paramsCurvature_nonneg (K := K) T p k
  have hD' : (0 : K) < D := by exact_mod_cast hD
  have hT' : (0 : K) < T := by exact_mod_cast hT0
  have h1 : 0 ≤ (1 : K) / D := by positivity
  have h2 : 0 ≤ |epsS| * (2 * k / ((k : K) * ((k : K) - 1) * (D : K))) := by
    have := abs_nonneg epsS
    positivity
  have h3 : 0 ≤ gpnhLevel epsS X k (mtdCostBound epsS epsW lags X k (k * frobSq X)) /
    ((D : K) * (T : K)) := by positivity
  have h4 : 0 ≤ mtdCoef T k epsW lags * (2 + 2 * (T * (p * k))) := by positivity
  have h5 := mul_nonneg hco hLP
  have h6 : (T : K) / ((D : K) * (T : K)) = 1 / D := by field_simp
  unfold mtdCurvature gpnhCurvature at hX
  simp only at hX
  rw [mul_add (mtdCoef T k epsW lags)] at hX
  obtain ⟨⟨obj', G, info⟩, h⟩ := mtd_default_fit_of_start (obj := obj) (X := X) (args := {})
    (by rw [ho]) (by rw [ho])
    (by rw [ho]; exact ⟨⟨k, rfl, by omega⟩, ⟨m, rfl, by omega⟩, Or.inr ⟨_, rfl, ht0.le⟩⟩) hk hp
    (by rw [hla]; exact hlag) (Or.inl (by rw [e1]; exact he)) (by rw [e2]; exact heW) hDT
    (by
      rw [hla]
      unfold topLag
      have := (Finset.sup_lt_iff (s := Finset.univ) (f := lags) hT0).2 fun i _ => hT i
      omega)
    (by rw [e3]; exact hst) hW hw hA
    (c := mtdCostBound epsS epsW lags X k (k * frobSq X)) (by rw [e1, e2, hla]; exact hcost)
    (by rw [e1, h6]; linarith) (by rw [e1, e2, hla]; linarith) (by rw [e2, hla]; linarith)
  obtain ⟨W, S, w, A, e1, rfl, e2⟩ := hM m (by omega) hR g l obj hobj hla {} obj' G info h
  exact ⟨obj', info, W, S, w, A, h, e1, e2⟩

/-! ### Instances -/

/-- The data of the examples. -/
def plainData : Matrix (Fin 4) (Fin 2) ℚ := !![100, 200; 300, -500; 0, 400; 250, 50]

theorem plainData_le : ∀ t d, |plainData t d| ≤ 500 := by
  intro t d
  fin_cases t <;> fin_cases d <;> norm_num [plainData, abs_le]

/-- MTD convex coding of four samples with lags 1 and 2. -/
example : ∃ (obj : MTDObj demoEnv.rng 2) (res : _),
    mtdNew (plainG 3) (.int 2) (lags := some [.int 1, .int 2]) (epsilonStates := 1 / 10)
      (epsilonWeights := 1 / 5) (init := some "furthest_sum") = Py.ok ⟨2, obj⟩ ∧
    mtdFitTransform demoEnv obj (Arr2.of plainData) {} {} {} = Py.ok res := by
  obtain ⟨obj, hobj, hl⟩ : ∃ obj : MTDObj demoEnv.rng 2,
      mtdNew (plainG 3) (.int 2) (lags := some [.int 1, .int 2]) (epsilonStates := 1 / 10)
        (epsilonWeights := 1 / 5) (init := some "furthest_sum") = Py.ok ⟨2, obj⟩ ∧
      obj.lags = [1, 2].get := ⟨_, rfl, rfl⟩
  obtain ⟨res, h⟩ := C102_mtd_furthest_sum_fit_returns (L := 2) demoRng_lawful demoRng_uniform_pos
    (plainG 3) (1 / 10) (1 / 5) 500 (by norm_num) (by norm_num) (k := 2) le_rfl (by norm_num)
    (by norm_num) _ obj hobj (by norm_num) (by
      rw [hl]
      intro i
      fin_cases i <;> decide) (by norm_num) plainData plainData_le _ rfl (by norm_num) (by norm_num)
    (by norm_num) {}
  exact ⟨obj, res, hobj, h⟩

/-- A reduced order model of the same data with the default lag. -/
example : ∃ (obj : CROMObj demoEnv.rng 1) (res : _),
    cromNew (plainG 3) (.int 2) (epsilonStates := 1 / 10) (init := some "furthest_sum") =
      Py.ok ⟨1, obj⟩ ∧
    cromFitTransform demoEnv obj (Arr2.of plainData) none none {} = Py.ok res := by
  obtain ⟨obj, hobj, hl⟩ : ∃ obj : CROMObj demoEnv.rng 1,
      cromNew (plainG 3) (.int 2) (epsilonStates := 1 / 10) (init := some "furthest_sum") =
        Py.ok ⟨1, obj⟩ ∧ obj.lags = [1].get := ⟨_, rfl, rfl⟩
  obtain ⟨res, h⟩ := C102_crom_furthest_sum_fit_returns (L := 1) demoRng_lawful demoRng_uniform_pos
    (plainG 3) (1 / 10) 500 (by norm_num) (k := 2) le_rfl (by norm_num)
    (by norm_num) _ obj hobj (by norm_num) (by
      rw [hl]
      intro i
      fin_cases i
      decide) (by norm_num) plainData plainData_le (by norm_num) (by norm_num)
    (by norm_num) none none
  exact ⟨obj, res, hobj, h⟩

/-- `transform` of an MTD model with stored variables. -/
example : ∃ (obj : MTDObj demoEnv.rng 1) (res : _),
    mtdNew (plainG 3) (.int 2) (epsilonStates := -1) (epsilonWeights := 1 / 5) = Py.ok ⟨1, obj⟩ ∧
    mtdTransform demoEnv { obj with vars := some ⟨0, 2, 2, 0, !![1000, 3; -20, 500], ![1],
      fun _ => !![1/2, 0; 1/2, 1]⟩ } (Arr2.of plainData) = Py.ok res := by
  obtain ⟨obj, hobj, hl⟩ : ∃ obj : MTDObj demoEnv.rng 1,
      mtdNew (plainG 3) (.int 2) (epsilonStates := -1) (epsilonWeights := 1 / 5) =
        Py.ok ⟨1, obj⟩ ∧ obj.lags = [1].get := ⟨_, rfl, rfl⟩
  obtain ⟨res, h⟩ := C102_mtd_default_transform_returns (L := 1) demoRng_lawful demoRng_uniform_pos
    (plainG 3) (-1) (1 / 5) (by norm_num) (k := 2) (by norm_num) _ obj hobj (by norm_num) (by
      rw [hl]
      intro i
      fin_cases i
      decide) (by norm_num) plainData (by norm_num) 0 0 !![1000, 3; -20, 500] ![1]
    (fun _ => !![1/2, 0; 1/2, 1]) ⟨fun i => by fin_cases i; norm_num, by norm_num⟩
    (fun _ j => ⟨fun i => by fin_cases i <;> fin_cases j <;> norm_num,
      by fin_cases j <;> norm_num [Fin.sum_univ_two]⟩) (by norm_num [Fin.sum_univ_two])
  exact ⟨obj, res, hobj, h⟩

end Reor
