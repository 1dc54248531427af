import Verif.Model.New
import Verif.Proofs.Floor
import Verif.Props.GPNH
import Verif.Props.Converge

/-!
C102: with the default settings of the line search, in particular the step floor
`step_size_tolerance=1e-12`, fits of data of moderate size return.
-/

namespace Reor

set_option linter.unusedSectionVars false

open scoped BigOperators Matrix
open Spec

variable {K : Type} [Field K] [LinearOrder K] [IsStrictOrderedRing K]
variable {n k T D : ℕ}

/-- What the constructors store when no keyword argument is given. -/
theorem solverSettings_default {ls : LSConfig K} (h : solverSettings ([] : Kwargs K) = Py.ok ls) :
    ls = ⟨1, 1 / 10 ^ 4, 1 / 10 ^ 3, 10 ^ 3, 1 / 10, 9 / 10, 1 / 10 ^ 12⟩ := by
  simp only [solverSettings, Kwargs.get, List.lookup, Option.getD_none, solverMemory,
    KwVal.toNumber, Py.ok_bind, Py.pure_eq, Py.ok.injEq, show ¬ ((1 : ℤ) < 0) by norm_num,
    if_false, Int.toNat_one] at h
  exact h.symm

/-- The default step floor suits curvatures up to 499950000. -/
theorem default_suits {L : K} (hL : L ≤ 499950000) :
    (⟨1, 1 / 10 ^ 4, 1 / 10 ^ 3, 10 ^ 3, 1 / 10, 9 / 10, 1 / 10 ^ 12⟩ : LSConfig K).Suits L := by
  refine ⟨?_, ?_, ?_, ?_, ?_, ?_, ?_, ?_, ?_, ?_⟩ <;> norm_num
  linarith

theorem kaaInit_default {R : Rng K} {rs : RandomArg R} {k : ℕ} {obj : KAAObj R}
    (h : kaaInit (.int k) (randomState := rs) = Py.ok obj) :
    obj = { nComponents := .int k, delta := 0, init := none, tolerance := .real (1 / 10 ^ 4)
            maxIterations := .int 1000, randomState := rs
            ls := ⟨1, 1 / 10 ^ 4, 1 / 10 ^ 3, 10 ^ 3, 1 / 10, 9 / 10, 1 / 10 ^ 12⟩
            require := true } := by
  unfold kaaInit kaaNew at h
  simp only [show ¬ ((k : ℤ) < 0) by omega, if_false, Py.ok_bind] at h
  obtain ⟨ls, hls, h⟩ := Py.bind_eq_ok.1 h
  rw [solverSettings_default hls] at h
  simp only [Py.pure_eq, Py.ok.injEq] at h
  rw [← h]
  rfl

/-- C102.  KernelAA with settings whose step floor suits the kernel: the furthest sum start is
followed by a fit that returns.  `B` bounds the kernel entries; the floor must satisfy
`2 * step_size_tolerance * alpha_max * B * n ** 2 <= 1 - gamma`. -/
theorem C102_kaa_fit_returns_with_floor [Archimedean K] {env : Env K} (hR : env.rng.Lawful)
    (hpos : ∀ m n g i j, 0 < (env.rng.uniform m n g).1 i j)
    (obj : KAAObj env.rng) (h1 : 0 < obj.ls.sigmaOne) (h2 : obj.ls.sigmaTwo < 1)
    (hg0 : 0 ≤ obj.ls.gamma) (hg1 : obj.ls.gamma < 1)
    (ha0 : 0 < obj.ls.alphaMin) (ha1 : obj.ls.alphaMin ≤ obj.ls.alphaMax)
    (ha2 : 1 ≤ obj.ls.alphaMax) (hmem : obj.ls.memory = 1) (hdel : obj.delta ≤ 0)
    (hinit : obj.init = none ∨ obj.init = some "furthest_sum")
    (hv : ValidParams obj.nComponents obj.maxIterations obj.tolerance)
    (hc : obj.nComponents = .int k) (hkn : k ≤ n)
    (A : Matrix (Fin n) (Fin n) K) (hA : ∀ i j, A i j = A j i)
    (hdist : ∀ i j, 0 ≤ A j j - 2 * A i j + A i i)
    (B : K) (hB : ∀ i j, |A i j| ≤ B)
    (hf0 : 0 ≤ obj.ls.stepSizeTolerance) (hf1 : obj.ls.stepSizeTolerance ≤ obj.ls.sigmaOne)
    (hf2 : 2 * obj.ls.stepSizeTolerance * (obj.ls.alphaMax * (B * (n : K) ^ 2)) ≤ 1 - obj.ls.gamma)
    (dictionary weights : Option (Arr2 K)) :
    ∃ res, kaaFitTransform env obj (Arr2.of A) dictionary weights {} = Py.ok res := by
  have hv' : ValidParams (defaultComponents obj.nComponents n) obj.maxIterations
      obj.tolerance := by
    rw [hc] at hv ⊢
    exact hv
  obtain ⟨⟨k', m, t⟩, hp, hck, -, hk, hm, -, -⟩ := checkParams_valid hv'
  rw [hc] at hck
  simp only [defaultComponents, NumArg.int.injEq, Nat.cast_inj] at hck
  subst hck
  have hA' : Aᵀ = A := by
    ext i j
    exact (hA i j).symm
  have hi : obj.init.getD "furthest_sum" = "furthest_sum" := by
    rcases hinit with h | h <;> simp [h]
  have hic : obj.init ≠ some "custom" := by rcases hinit with h | h <;> simp [h]
  obtain ⟨start, hst⟩ : ∃ start, kaaStart env A k obj.init dictionary weights true true {}
      obj.randomState.start = Py.ok start := by
    unfold kaaStart
    simp only [hic, if_false, Bool.true_eq_false, false_and, and_false]
    unfold kaaInitBoth kaaInitDictionary
    simp only [hi, Option.getD_some, if_true]
    unfold kaaInitDictionaryFurthestSum
    obtain ⟨r, hr⟩ := furthestSumRows_succeeds hR hdist hk hkn (kw := {}) rfl (by simp)
      obj.randomState.start
    simp only [hr, Py.ok_bind, Py.pure_eq]
    unfold kaaInitWeights
    simp only [InitKwargs.nonempty, Option.isSome_none, Bool.or_self, Bool.false_eq_true,
        if_false, Option.getD_some, true_or, if_true]
    obtain ⟨w, hw⟩ := rightStochastic_succeeds hpos (m := n) (n := k) hk r.2
    unfold kaaInitWeightsRandom
    rw [hw]
    exact ⟨_, rfl⟩
  have hn : 1 ≤ n := le_trans hk hkn
  have hB0 : 0 ≤ B := (abs_nonneg _).trans (hB ⟨0, hn⟩ ⟨0, hn⟩)
  have hkn' : (k : K) ≤ (n : K) ^ 2 := by
    have h3 : (k : K) ≤ n := by exact_mod_cast hkn
    have h4 : (1 : K) ≤ n := by exact_mod_cast hn
    nlinarith
  obtain ⟨r, hr⟩ := kaaIterate_succeeds_floor (L := B * (n : K) ^ 2)
    ⟨h1, h2, hg0, hg1, ha0, ha1, ha2, hf0, hf1, hf2⟩ hmem hk hn hB0 hdel hA' hB hm
    (require := obj.require) (tol := t) (ud := true) (uw := true)
    (fun _ => mul_le_mul_of_nonneg_left hkn' hB0) (fun _ => le_rfl)
    (kaaStart_weights hR hk (by simp [hic]) hst)
    (kaaStart_dictionary_stochastic hR hn (by simp [hic]) hst)
  unfold kaaFitTransform
  rw [kernelAA_of, kernelAASquare_of_steps hp hst hr]
  exact ⟨_, rfl⟩

/-- C102.  `KernelAA(n_components=k)`, with all default settings, can be fitted to every symmetric
kernel with non-negative squared distances, at least `k` samples and `n ** 2` times the largest
entry at most 499950000 in absolute value: the fit returns, when no draw is zero. -/
theorem C102_kaa_default_fit_returns [Archimedean K] {env : Env K} (hR : env.rng.Lawful)
    (hpos : ∀ m n g i j, 0 < (env.rng.uniform m n g).1 i j) (rs : RandomArg env.rng)
    (hk : 1 ≤ k) (hkn : k ≤ n) (obj : KAAObj env.rng)
    (hobj : kaaInit (.int k) (randomState := rs) = Py.ok obj)
    (A : Matrix (Fin n) (Fin n) K) (hA : ∀ i j, A i j = A j i)
    (hdist : ∀ i j, 0 ≤ A j j - 2 * A i j + A i i)
    (hB : ∀ i j, |A i j| * (n : K) ^ 2 ≤ 499950000)
    (dictionary weights : Option (Arr2 K)) :
    ∃ res, kaaFitTransform env obj (Arr2.of A) dictionary weights {} = Py.ok res := by
  have hn : 1 ≤ n := hk.trans hkn
  have hn' : (0 : K) < n := by exact_mod_cast hn
  have hs := default_suits (K := K) (L := 499950000 / (n : K) ^ 2 * (n : K) ^ 2)
    (by rw [div_mul_cancel₀ _ (by positivity)])
  rw [kaaInit_default hobj]
  exact C102_kaa_fit_returns_with_floor hR hpos _ hs.sigmaOne hs.sigmaTwo hs.gamma0 hs.gamma1
    hs.alphaMin hs.alphaMax hs.one rfl le_rfl (Or.inl rfl)
    ⟨⟨k, rfl, by omega⟩, ⟨1000, rfl, by norm_num⟩, Or.inr ⟨_, rfl, by positivity⟩⟩ rfl hkn A hA
    hdist (499950000 / (n : K) ^ 2)
    (fun i j => by rw [le_div_iff₀ (by positivity)]; exact hB i j) hs.floor0 hs.floor1 hs.floor2
    dictionary weights

/-- C102.  `ArchetypalAnalysis(n_components=k)`, with all default settings, can be fitted to every
dataset of `n >= k` samples whose squared norms are at most `499950000 / n ** 2`. -/
theorem C102_aa_default_fit_returns [Archimedean K] {env : Env K} (hR : env.rng.Lawful)
    (hpos : ∀ m n g i j, 0 < (env.rng.uniform m n g).1 i j) (rs : RandomArg env.rng)
    (hk : 1 ≤ k) (hkn : k ≤ n) (obj : KAAObj env.rng)
    (hobj : kaaInit (.int k) (randomState := rs) = Py.ok obj)
    (X : Matrix (Fin n) (Fin D) K) (hX : ∀ t, (∑ d, X t d ^ 2) * (n : K) ^ 2 ≤ 499950000)
    (dictionary weights : Option (Arr2 K)) :
    ∃ res, aaFitTransform env obj none (Arr2.of X) dictionary weights {} = Py.ok res := by
  have hn' : (0 : K) < n := by exact_mod_cast hk.trans hkn
  obtain ⟨h1, h2, h3⟩ := linear_kernel_bounds X (B := 499950000 / (n : K) ^ 2)
    (fun t => by rw [le_div_iff₀ (by positivity)]; exact hX t)
  have := C102_kaa_default_fit_returns hR hpos rs hk hkn obj hobj (X * Xᵀ) h1 h2
    (fun i j => by
      have := h3 i j
      rwa [le_div_iff₀ (by positivity)] at this) dictionary weights
  exact this

/-- C102.  `transform` of a default KernelAA object with a stored dictionary returns for every
symmetric kernel whose entries are at most `499950000 / k` in absolute value. -/
theorem C102_kaa_default_transform_returns [Archimedean K] {env : Env K} (hR : env.rng.Lawful)
    (hpos : ∀ m n g i j, 0 < (env.rng.uniform m n g).1 i j) (rs : RandomArg env.rng)
    (hk : 1 ≤ k) (hn : 1 ≤ n) (obj : KAAObj env.rng)
    (hobj : kaaInit (.int k) (randomState := rs) = Py.ok obj)
    (A : Matrix (Fin n) (Fin n) K) (hA : ∀ i j, A i j = A j i)
    (hB : ∀ i j, |A i j| * k ≤ 499950000)
    (C : Matrix (Fin k) (Fin n) K) (hC : RowStochastic C) :
    ∃ res, kaaTransform env { obj with C := some (Arr2.of C) } (Arr2.of A) = Py.ok res := by
  rw [kaaInit_default hobj]
  set o : KAAObj env.rng :=
    { nComponents := .int k, delta := 0, init := none, tolerance := .real (1 / 10 ^ 4)
      maxIterations := .int 1000, randomState := rs
      ls := ⟨1, 1 / 10 ^ 4, 1 / 10 ^ 3, 10 ^ 3, 1 / 10, 9 / 10, 1 / 10 ^ 12⟩
      require := true, C := some (Arr2.of C) } with ho
  have hv' : ValidParams (defaultComponents o.nComponents n) o.maxIterations o.tolerance :=
    ⟨⟨k, rfl, by omega⟩, ⟨1000, rfl, by norm_num⟩, Or.inr ⟨_, rfl, by positivity⟩⟩
  obtain ⟨⟨k', m, t⟩, hp, hck, -, hk1, hm, -, -⟩ := checkParams_valid hv'
  simp only [ho, defaultComponents, NumArg.int.injEq, Nat.cast_inj] at hck
  subst hck
  have hA' : Aᵀ = A := by
    ext i j
    exact (hA i j).symm
  have hd : kaaCheckInitDictionary (some (Arr2.of C)) k n = Py.ok C := by
    have hs : checkUnitRowSums C = Py.ok () := by
      unfold checkUnitRowSums
      rw [if_pos]
      intro i
      rw [(hC i).2, iscloseOne, sub_self, abs_zero, abs_one]
      positivity
    have hne : ¬ ((Arr2.of C).rows = 0 ∨ (Arr2.of C).cols = 0) := by
      simp only [Arr2.of]; omega
    unfold kaaCheckInitDictionary checkArray
    simp only [hne, if_false, Py.ok_bind, checkArrayShape_of, hs, Py.pure_eq]
  obtain ⟨start, hst⟩ : ∃ start, kaaStart env A k o.init (some (Arr2.of C)) none false true {}
      o.randomState.start = Py.ok start := by
    unfold kaaStart
    simp only [ho, reduceCtorEq, if_false, true_and, if_true, hd, Py.ok_bind]
    unfold kaaInitWeights
    simp only [InitKwargs.nonempty, Option.isSome_none, Bool.or_self, Bool.false_eq_true,
        if_false, Option.getD_none, true_or, if_true]
    obtain ⟨w, hw⟩ := rightStochastic_succeeds hpos (m := n) (n := k) hk rs.start
    unfold kaaInitWeightsRandom
    rw [hw]
    exact ⟨_, rfl⟩
  have hk' : (0 : K) < k := by exact_mod_cast hk
  obtain ⟨r, hr⟩ := kaaIterate_succeeds_floor (B := 499950000 / (k : K))
    (default_suits (L := 499950000 / (k : K) * k) (by rw [div_mul_cancel₀ _ hk'.ne'])) rfl hk hn
    (by positivity) (delta := o.delta) le_rfl hA'
    (fun i j => by rw [le_div_iff₀ hk']; exact hB i j) hm
    (require := o.require) (tol := t) (ud := false) (uw := true)
    (fun _ => le_rfl) (fun h => by simp at h)
    (kaaStart_weights hR hk (by simp [ho]) hst)
    (kaaStart_dictionary_stochastic hR hn (by
      intro _ C' hC'
      simp only [Option.some.injEq] at hC'
      subst hC'
      exact hC) hst)
  unfold kaaTransform
  rw [kernelAA_of]
  have := kernelAASquare_of_steps (env := env) (obj := o) (dictionary := some (Arr2.of C))
    (weights := none) (ud := false) (uw := true) (kw := {}) hp hst hr
  change ∃ res, (do
    let r ← kernelAASquare env o A (some (Arr2.of C)) none false true {}
    pure (r.1, r.1.S, r.2)) = Py.ok res
  rw [this]
  exact ⟨_, rfl⟩

/-! ### GPNH convex coding -/

theorem gpnhNew_default {R : Rng K} {g : R.G} {nc tol mi : NumArg K} {eps : K}
    {init : Option String} {obj : GPNHObj R}
    (h : gpnhNew g nc (epsilonStates := eps) (init := init) (tolerance := tol)
      (maxIterations := mi) = Py.ok obj) :
    obj = { nComponents := nc, epsilonStates := eps, init := init
            tolerance := tol, maxIterations := mi, randomState := g
            ls := ⟨1, 1 / 10 ^ 4, 1 / 10 ^ 3, 10 ^ 3, 1 / 10, 9 / 10, 1 / 10 ^ 12⟩
            require := true } := by
  unfold gpnhNew at h
  obtain ⟨ls, hls, h⟩ := Py.bind_eq_ok.1 h
  rw [solverSettings_default hls] at h
  simp only [Py.pure_eq, Py.ok.injEq] at h
  rw [← h]
  rfl

/-- C102.  `transform` of a default GPNH model with a stored dictionary returns, for every dataset
with the fitted number of features, when the squared entries of the dictionary sum to at most
499950000 times the number of entries of the data. -/
theorem C102_gpnh_default_transform_returns [Archimedean K] {env : Env K} (hR : env.rng.Lawful)
    (hpos : ∀ m n g i j, 0 < (env.rng.uniform m n g).1 i j) (g : env.rng.G) (eps : K)
    (hk : 1 ≤ k) (obj : GPNHObj env.rng)
    (hobj : gpnhNew g (.int k) (epsilonStates := eps) = Py.ok obj)
    (X : Matrix (Fin T) (Fin D) K) (hDT : D * T ≠ 0) (S : Matrix (Fin k) (Fin D) K)
    (hS : ∑ i, ∑ d, S i d ^ 2 ≤ 499950000 * ((D : K) * (T : K))) :
    ∃ res, gpnhTransform env { obj with S := some (Arr2.of S) } (Arr2.of X) = Py.ok res := by
  rw [gpnhNew_default hobj]
  set o : GPNHObj env.rng :=
    { nComponents := .int k, epsilonStates := eps, init := none
      tolerance := .real (1 / 10 ^ 6), maxIterations := .int 1000, randomState := g
      ls := ⟨1, 1 / 10 ^ 4, 1 / 10 ^ 3, 10 ^ 3, 1 / 10, 9 / 10, 1 / 10 ^ 12⟩
      require := true, S := some (Arr2.of S) } with ho
  have hv : ValidParams (defaultComponents o.nComponents (Arr2.of X).cols) o.maxIterations
      o.tolerance :=
    ⟨⟨k, rfl, by omega⟩, ⟨1000, rfl, by norm_num⟩, Or.inr ⟨_, rfl, by positivity⟩⟩
  obtain ⟨⟨k', m, t⟩, hp, hck, -, -, hm, -, -⟩ := checkParams_valid hv
  simp only [ho, defaultComponents, NumArg.int.injEq, Nat.cast_inj] at hck
  subst hck
  obtain ⟨start, hst⟩ := gpnhStart_transform_ok hpos (data := X)
    (left_ne_zero_of_mul hDT) hk (init := o.init) (Or.inl rfl) (S := S) (weights := none)
    (g := o.randomState)
  have hW : RowStochastic start.1.2 := gpnhStart_rowStochastic hR hk (by simp [ho]) hst
  have hSt : start.1.1 = S := by
    have := gpnhStart_dictionary hst
    simp only [Option.some.injEq, Arr2.of, Arr2.mk.injEq, heq_eq_eq, true_and] at this
    exact this.symm
  have hDT' : (0 : K) < (D : K) * (T : K) := by exact_mod_cast Nat.pos_of_ne_zero hDT
  obtain ⟨r, hr⟩ := gpnhIterate_succeeds_floor (S0 := start.1.1) (X := X) (eps := eps)
    (default_suits (K := K) (L := 499950000) le_rfl) rfl hk hW (ud := false) (uw := true)
    (R := 499950000 * ((D : K) * (T : K)))
    (fun W S' _ _ h => by rw [h rfl, hSt]; exact hS)
    (fun _ => by rw [mul_div_cancel_right₀ _ hDT'.ne']) (fun h => by simp at h)
    (require := true) (tol := t) hm hDT
  unfold gpnhTransform
  have := gpnhConvexCoding_of_steps (env := env) (obj := o) (data := Arr2.of X) (p := (k, m, t))
    (dictionary := some (Arr2.of S)) (weights := none) (ud := false) (uw := true) (kw := {})
    hp hst hr
  change ∃ res, (do
    let r ← gpnhConvexCoding env o (Arr2.of X) (some (Arr2.of S)) none false true {}
    pure (r.1, r.1.Gamma, r.2)) = Py.ok res
  rw [this]
  exact ⟨_, rfl⟩

/-- Fits of a default GPNH model from a given start. -/
theorem gpnh_default_fit_of_start [Archimedean K] {env : Env K} {g : env.rng.G} {eps : K}
    (heps : 0 < eps) (hk : 2 ≤ k) {init : Option String} {obj : GPNHObj env.rng} {tol : K}
    (htol : 0 ≤ tol) {mi : ℤ} (hmi : 1 ≤ mi)
    (hobj : gpnhNew g (.int k) (epsilonStates := eps) (init := init) (tolerance := .real tol)
      (maxIterations := .int mi) = Py.ok obj)
    {X : Matrix (Fin T) (Fin D) K} (hDT : D * T ≠ 0) {dictionary weights : Option (Arr2 K)}
    {start : (Matrix (Fin k) (Fin D) K × Matrix (Fin T) (Fin k) K) × env.rng.G}
    (hst : gpnhStart env X k init dictionary weights true true {} g = Py.ok start)
    (hW : RowStochastic start.1.2) {c : K} (hc : gpnhCost eps X start.1.2 start.1.1 ≤ c)
    (hbound : 4 * k * ((∑ t, ∑ d, X t d ^ 2) + c * (D * T)) + 2 * (c * (k * (k - 1) * D) / eps) ≤
      499950000 * ((D : K) * (T : K)))
    (heps' : 1 / (D : K) + 2 * eps / (((k : K) - 1) * D) ≤ 499950000) :
    ∃ res, gpnhFitTransform env obj (Arr2.of X) dictionary weights {} = Py.ok res := by
  rw [gpnhNew_default hobj]
  set o : GPNHObj env.rng :=
    { nComponents := .int k, epsilonStates := eps, init := init
      tolerance := .real tol, maxIterations := .int mi, randomState := g
      ls := ⟨1, 1 / 10 ^ 4, 1 / 10 ^ 3, 10 ^ 3, 1 / 10, 9 / 10, 1 / 10 ^ 12⟩
      require := true } with ho
  have hv : ValidParams (defaultComponents o.nComponents (Arr2.of X).cols) o.maxIterations
      o.tolerance :=
    ⟨⟨k, rfl, by omega⟩, ⟨mi, rfl, by omega⟩, Or.inr ⟨_, rfl, htol⟩⟩
  obtain ⟨⟨k', m, t⟩, hp, hck, -, -, hm, -, -⟩ := checkParams_valid hv
  simp only [ho, defaultComponents, NumArg.int.injEq, Nat.cast_inj] at hck
  subst hck
  have hk1 : 1 ≤ k := by omega
  have hDT' : (0 : K) < (D : K) * (T : K) := by exact_mod_cast Nat.pos_of_ne_zero hDT
  have hk' : (0 : K) < k := by exact_mod_cast hk1
  obtain ⟨r, hr⟩ := gpnhIterate_succeeds_floor (S0 := start.1.1) (X := X) (eps := eps)
    (default_suits (K := K) (L := 499950000) le_rfl) rfl hk1 hW (ud := true) (uw := true)
    (R := 499950000 * ((D : K) * (T : K)))
    (fun W S' hW' h _ => (gpnh_level_bound (Or.inl heps) hDT X hW' (h.trans hc)).trans hbound)
    (fun _ => by rw [mul_div_cancel_right₀ _ hDT'.ne'])
    (fun _ => by
      refine le_trans (le_of_eq ?_) heps'
      rw [abs_of_pos heps, mul_assoc (k : K), mul_comm (2 : K) k, mul_div_mul_left _ _ hk'.ne',
        mul_div_assoc']
      ring_nf)
    (require := true) (tol := t) hm hDT
  unfold gpnhFitTransform
  rw [gpnhConvexCoding_of_steps (env := env) (obj := o) (data := Arr2.of X) (p := (k, m, t))
    (dictionary := dictionary) (weights := weights) (ud := true) (uw := true) (kw := {}) hp hst hr]
  exact ⟨_, rfl⟩

/-- C102.  Fits of a default GPNH model with `epsilon_states > 0` and at least two components return
when the cost `c` of the start is small: the bound `4 k (|X| ** 2 + c D T) + 2 c k (k - 1) D / eps`
on the dictionaries of smaller cost must not exceed `499950000 D T`, and `epsilon_states` must not
exceed about `2.5e8 D (k - 1)`. -/
theorem C102_gpnh_default_fit_returns [Archimedean K] {env : Env K} (hR : env.rng.Lawful)
    (hpos : ∀ m n g i j, 0 < (env.rng.uniform m n g).1 i j) (g : env.rng.G) (eps : K)
    (heps : 0 < eps) (hk : 2 ≤ k) (obj : GPNHObj env.rng)
    (hobj : gpnhNew g (.int k) (epsilonStates := eps) = Py.ok obj)
    (X : Matrix (Fin T) (Fin D) K) (hDT : D * T ≠ 0) (dictionary weights : Option (Arr2 K))
    (hstart : ∀ start, gpnhStart env X k none dictionary weights true true {} g = Py.ok start →
      4 * k * ((∑ t, ∑ d, X t d ^ 2) + gpnhCost eps X start.1.2 start.1.1 * (D * T)) +
        2 * (gpnhCost eps X start.1.2 start.1.1 * (k * (k - 1) * D) / eps) ≤
          499950000 * ((D : K) * (T : K)))
    (heps' : 1 / (D : K) + 2 * eps / (((k : K) - 1) * D) ≤ 499950000) :
    ∃ res, gpnhFitTransform env obj (Arr2.of X) dictionary weights {} = Py.ok res := by
  obtain ⟨start, hst⟩ := gpnhStart_random_ok hpos (data := X) hDT (k := k) (by omega)
    (init := none) (Or.inl rfl) (dictionary := dictionary) (weights := weights) (g := g)
  exact gpnh_default_fit_of_start heps hk (by positivity) (by norm_num) hobj hDT hst
    (gpnhStart_rowStochastic hR (by omega) (by simp) hst) le_rfl (hstart start hst) heps'

/-- The cost of a start whose dictionary consists of samples. -/
theorem gpnhCost_samples_le {eps b : K} (heps : 0 ≤ eps) (hk : 2 ≤ k) (hD : 0 < D) (hT : 0 < T)
    {X : Matrix (Fin T) (Fin D) K} (hX : ∀ t d, |X t d| ≤ b) {W : Matrix (Fin T) (Fin k) K}
    (hW : RowStochastic W) (r : Fin k → Fin T) :
    gpnhCost eps X W (fun i => X (r i)) ≤ 4 * b ^ 2 * (1 + eps) := by
  have hD' : (0 : K) < D := by exact_mod_cast hD
  have hT' : (0 : K) < T := by exact_mod_cast hT
  have hk' : (1 : K) < k := by exact_mod_cast hk
  have hb0 : 0 ≤ b := (abs_nonneg _).trans (hX ⟨0, hT⟩ ⟨0, hD⟩)
  have hden : (0 : K) < (k : K) * ((k : K) - 1) * (D : K) :=
    mul_pos (mul_pos (by linarith) (by linarith)) hD'
  have hsq : ∀ x y : K, |x| ≤ b → |y| ≤ b → (x - y) ^ 2 ≤ 4 * b ^ 2 := by
    intro x y hx hy
    obtain ⟨h1, h2⟩ := abs_le.1 hx
    obtain ⟨h3, h4⟩ := abs_le.1 hy
    have h5 : |x - y| ≤ 2 * b := abs_le.2 ⟨by linarith, by linarith⟩
    have h6 := sq_le_sq' (abs_le.1 h5).1 (abs_le.1 h5).2
    linarith
  have hrec : ∀ t d, |∑ i, W t i * X (r i) d| ≤ b := by
    intro t d
    calc |∑ i, W t i * X (r i) d| ≤ ∑ i, |W t i * X (r i) d| := Finset.abs_sum_le_sum_abs _ _
      _ ≤ ∑ i, W t i * b := by
          refine Finset.sum_le_sum fun i _ => ?_
          rw [abs_mul, abs_of_nonneg ((hW t).1 i)]
          exact mul_le_mul_of_nonneg_left (hX _ _) ((hW t).1 i)
      _ = b := by rw [← Finset.sum_mul, (hW t).2, one_mul]
  have h1 : (∑ t, ∑ d, (X t d - ∑ i, W t i * X (r i) d) ^ 2) / ((D : K) * (T : K)) ≤
      4 * b ^ 2 := by
    rw [div_le_iff₀ (by positivity)]
    calc (∑ t, ∑ d, (X t d - ∑ i, W t i * X (r i) d) ^ 2) ≤ ∑ _t : Fin T, ∑ _d : Fin D, 4 * b ^ 2 :=
          Finset.sum_le_sum fun t _ => Finset.sum_le_sum fun d _ => hsq _ _ (hX t d) (hrec t d)
      _ = 4 * b ^ 2 * (D * T) := by
          simp only [Finset.sum_const, Finset.card_univ, Fintype.card_fin, nsmul_eq_mul]
          ring
  have h2 : (∑ i, ∑ j, sqDist (fun d => X (r i) d) (fun d => X (r j) d)) /
      ((k : K) * ((k : K) - 1) * (D : K)) ≤ 4 * b ^ 2 := by
    rw [div_le_iff₀ hden]
    have h3 : ∀ i j : Fin k, sqDist (fun d => X (r i) d) (fun d => X (r j) d) ≤
        (if i = j then 0 else 1) * (4 * b ^ 2 * D) := by
      intro i j
      split_ifs with hij
      · simp [hij, sqDist]
      · rw [one_mul]
        calc sqDist (fun d => X (r i) d) (fun d => X (r j) d) ≤ ∑ _d : Fin D, 4 * b ^ 2 :=
              Finset.sum_le_sum fun d _ => hsq _ _ (hX _ _) (hX _ _)
          _ = 4 * b ^ 2 * D := by
              simp only [Finset.sum_const, Finset.card_univ, Fintype.card_fin, nsmul_eq_mul]
              ring
    have h4 : ∀ i : Fin k, ∑ j : Fin k, (if i = j then (0 : K) else 1) = k - 1 := by
      intro i
      have : ∀ j, (if i = j then (0 : K) else 1) = 1 - if i = j then 1 else 0 := fun j => by
        split_ifs <;> simp
      simp [this]
    calc (∑ i, ∑ j, sqDist (fun d => X (r i) d) (fun d => X (r j) d))
        ≤ ∑ i : Fin k, ∑ j : Fin k, (if i = j then 0 else 1) * (4 * b ^ 2 * D) :=
          Finset.sum_le_sum fun i _ => Finset.sum_le_sum fun j _ => h3 i j
      _ = 4 * b ^ 2 * (k * (k - 1) * D) := by
          simp only [← Finset.sum_mul, h4, Finset.sum_const, Finset.card_univ, Fintype.card_fin,
            nsmul_eq_mul]
          ring
  have h3 := mul_le_mul_of_nonneg_left h2 heps
  show (∑ t, ∑ d, (X t d - ∑ i, W t i * X (r i) d) ^ 2) / ((D : K) * (T : K)) +
    eps * ((∑ i, ∑ j, sqDist (fun d => X (r i) d) (fun d => X (r j) d)) /
      ((k : K) * ((k : K) - 1) * (D : K))) ≤ _
  linarith

/-- C102.  `GPNHConvexCoding(n_components=k, epsilon_states=eps, init='furthest_sum')` with default
settings can be fitted to all data of moderate size: for entries of absolute value at most `b`, with
`2 <= k <= T` and `eps > 0`, the fit returns if
`4 k b ** 2 (5 + 4 eps) + 8 b ** 2 (1 + eps) k (k - 1) / (eps T) <= 499950000` and `eps` is not
above about `2.5e8 D (k - 1)`. -/
theorem C102_gpnh_furthest_sum_fit_returns [Archimedean K] {env : Env K} (hR : env.rng.Lawful)
    (hpos : ∀ m n g i j, 0 < (env.rng.uniform m n g).1 i j) (g : env.rng.G) (eps b : K)
    (heps : 0 < eps) (hk : 2 ≤ k) (hkT : k ≤ T) (hD : 0 < D) (obj : GPNHObj env.rng)
    (hobj : gpnhNew g (.int k) (epsilonStates := eps) (init := some "furthest_sum") = Py.ok obj)
    (X : Matrix (Fin T) (Fin D) K) (hX : ∀ t d, |X t d| ≤ b)
    (hb : 4 * k * b ^ 2 * (5 + 4 * eps) + 8 * b ^ 2 * (1 + eps) * (k * (k - 1)) / (eps * T) ≤
      499950000)
    (heps' : 1 / (D : K) + 2 * eps / (((k : K) - 1) * D) ≤ 499950000)
    (dictionary weights : Option (Arr2 K)) :
    ∃ res, gpnhFitTransform env obj (Arr2.of X) dictionary weights {} = Py.ok res := by
  have hT : 0 < T := by omega
  have hD' : (0 : K) < D := by exact_mod_cast hD
  have hT' : (0 : K) < T := by exact_mod_cast hT
  have hk1 : 1 ≤ k := by omega
  have hDT : D * T ≠ 0 := (Nat.mul_pos hD hT).ne'
  obtain ⟨r, hr⟩ := furthestSumRows_succeeds hR (linear_kernel_bounds X (B := ∑ t, ∑ d, X t d ^ 2)
    (fun t => Finset.single_le_sum (f := fun t => ∑ d, X t d ^ 2)
      (fun t _ => Finset.sum_nonneg fun d _ => sq_nonneg _) (Finset.mem_univ t))).2.1 hk1 hkT
    (kw := {}) rfl (by simp) g
  obtain ⟨w, hw⟩ := rightStochastic_succeeds hpos (m := T) (n := k) hk1 r.2
  have hst : gpnhStart env X k (some "furthest_sum") dictionary weights true true {} g =
      Py.ok (((fun i => X (r.1 i)), w.1), w.2) := by
    unfold gpnhStart gpnhInitBoth gpnhInitDictionary gpnhInitWeights
      gpnhInitDictionaryFurthestSum gpnhInitWeightsRandom
    simp [hr, hw, InitKwargs.nonempty]
    rfl
  have hW : RowStochastic w.1 := gpnhStart_rowStochastic hR hk1 (by simp) hst
  refine gpnh_default_fit_of_start heps hk (by positivity) (by norm_num) hobj hDT hst hW
    (gpnhCost_samples_le heps.le hk hD hT hX hW r.1) ?_ heps'
  have h1 : ∑ t, ∑ d, X t d ^ 2 ≤ b ^ 2 * (D * T) := by
    calc ∑ t, ∑ d, X t d ^ 2 ≤ ∑ _t : Fin T, ∑ _d : Fin D, b ^ 2 :=
          Finset.sum_le_sum fun t _ => Finset.sum_le_sum fun d _ =>
            sq_le_sq' (abs_le.1 (hX t d)).1 (abs_le.1 (hX t d)).2
      _ = b ^ 2 * (D * T) := by
          simp only [Finset.sum_const, Finset.card_univ, Fintype.card_fin, nsmul_eq_mul]
          ring
  have h2 := mul_le_mul_of_nonneg_right hb (mul_pos hD' hT').le
  have h3 : 8 * b ^ 2 * (1 + eps) * (k * (k - 1)) / (eps * T) * ((D : K) * T) =
      2 * (4 * b ^ 2 * (1 + eps) * (k * (k - 1) * D) / eps) := by
    field_simp
    ring
  rw [add_mul, h3] at h2
  have h4 : 4 * (k : K) * (∑ t, ∑ d, X t d ^ 2) ≤ 4 * k * (b ^ 2 * (D * T)) :=
    mul_le_mul_of_nonneg_left h1 (by positivity)
  nlinarith

/-! ### Examples -/

/-- The constructors of the theorems above return. -/
example : (∃ obj : KAAObj demoEnv.rng,
      kaaInit (.int 2) (randomState := .seed 3) = Py.ok obj) ∧
    (∃ obj : GPNHObj demoEnv.rng,
      gpnhNew (R := demoEnv.rng) (demoRng.ofSeed 3) (.int 2) (epsilonStates := 1) = Py.ok obj) :=
  ⟨⟨_, rfl⟩, ⟨_, rfl⟩⟩

/-- Archetypal analysis of four samples with entries in the hundreds. -/
example : ∃ res, aaFitTransform demoEnv
    { nComponents := .int 2, delta := 0, init := none, tolerance := .real (1 / 10 ^ 4)
      maxIterations := .int 1000, randomState := .seed 3
      ls := ⟨1, 1 / 10 ^ 4, 1 / 10 ^ 3, 10 ^ 3, 1 / 10, 9 / 10, 1 / 10 ^ 12⟩
      require := true } none
    (Arr2.of (!![100, 200; 300, -500; 0, 400; 250, 50] : Matrix (Fin 4) (Fin 2) ℚ))
    none none {} = Py.ok res :=
  C102_aa_default_fit_returns demoRng_lawful demoRng_uniform_pos (.seed 3) (k := 2) (by norm_num)
    (by norm_num) _ rfl _ (by
      intro t
      fin_cases t <;> norm_num [Fin.sum_univ_two]) none none

/-- GPNH convex coding of four samples with `init='furthest_sum'`. -/
example : ∃ res, gpnhFitTransform demoEnv
    { nComponents := .int 2, epsilonStates := 1 / 10, init := some "furthest_sum"
      tolerance := .real (1 / 10 ^ 6), maxIterations := .int 1000, randomState := demoRng.ofSeed 3
      ls := ⟨1, 1 / 10 ^ 4, 1 / 10 ^ 3, 10 ^ 3, 1 / 10, 9 / 10, 1 / 10 ^ 12⟩, require := true }
    (Arr2.of (!![100, 200; 300, -500; 0, 400; 250, 50] : Matrix (Fin 4) (Fin 2) ℚ))
    none none {} = Py.ok res :=
  C102_gpnh_furthest_sum_fit_returns demoRng_lawful demoRng_uniform_pos _ (1 / 10) 500
    (by norm_num) (k := 2) le_rfl (by norm_num) (by norm_num) _ rfl _ (by
      intro t d
      fin_cases t <;> fin_cases d <;> norm_num [abs_le]) (by norm_num) (by norm_num) none none

/-- The objects built with default settings. -/
def plainKAA : KAAObj demoEnv.rng :=
  { nComponents := .int 2, delta := 0, init := none, tolerance := .real (1 / 10 ^ 4)
    maxIterations := .int 1000, randomState := .seed 3
    ls := ⟨1, 1 / 10 ^ 4, 1 / 10 ^ 3, 10 ^ 3, 1 / 10, 9 / 10, 1 / 10 ^ 12⟩, require := true }

def plainGPNH : GPNHObj demoEnv.rng :=
  { nComponents := .int 2, epsilonStates := 1 / 10, init := none
    tolerance := .real (1 / 10 ^ 6), maxIterations := .int 1000, randomState := (0 : ℕ)
    ls := ⟨1, 1 / 10 ^ 4, 1 / 10 ^ 3, 10 ^ 3, 1 / 10, 9 / 10, 1 / 10 ^ 12⟩, require := true }

/-- Kernel archetypal analysis and `transform` of an indefinite kernel with non-negative squared
distances. -/
example : (∃ res, kaaFitTransform demoEnv plainKAA
      (Arr2.of (!![0, -100; -100, 0] : Matrix (Fin 2) (Fin 2) ℚ)) none none {} = Py.ok res) ∧
    (∃ res, kaaTransform demoEnv { plainKAA with C := some (Arr2.of !![1/2, 1/2; 0, 1]) }
      (Arr2.of (!![0, -100; -100, 0] : Matrix (Fin 2) (Fin 2) ℚ)) = Py.ok res) := by
  constructor
  · refine C102_kaa_default_fit_returns demoRng_lawful demoRng_uniform_pos (.seed 3) (k := 2)
      (by norm_num) (by norm_num) plainKAA rfl _ ?_ ?_ ?_ none none
    all_goals
      intro i j
      fin_cases i <;> fin_cases j <;> norm_num
  · refine C102_kaa_default_transform_returns demoRng_lawful demoRng_uniform_pos (.seed 3) (k := 2)
      (by norm_num) (by norm_num) plainKAA rfl _ ?_ ?_ _ ?_
    · intro i j
      fin_cases i <;> fin_cases j <;> norm_num
    · intro i j
      fin_cases i <;> fin_cases j <;> norm_num
    · intro i
      refine ⟨fun j => ?_, ?_⟩
      · fin_cases i <;> fin_cases j <;> norm_num
      · fin_cases i <;> norm_num [Fin.sum_univ_two]

/-- A state of the generator of the examples. -/
def plainG (g : ℕ) : demoEnv.rng.G := g

theorem plain_weights : rightStochasticMatrix demoEnv.rng 2 2 (plainG 1) =
    Py.ok ((!![2/6, 4/6; 3/8, 5/8] : Matrix (Fin 2) (Fin 2) ℚ), plainG 2) := by
  have hu : ∀ i j : Fin 2, (demoEnv.rng.uniform 2 2 (plainG 1)).1 i j =
      (((i : ℕ) + 2 * (j : ℕ) + 1 + 1 : ℕ) : ℚ) := fun _ _ => rfl
  have e : ∀ i : Fin 2, ∑ j : Fin 2, (demoEnv.rng.uniform 2 2 (plainG 1)).1 i j =
      if i = 0 then 6 else 8 := by
    intro i
    fin_cases i <;> norm_num [hu, Fin.sum_univ_two]
  unfold rightStochasticMatrix
  simp only [e]
  rw [if_neg (by push Not; intro i; split_ifs <;> norm_num)]
  refine congrArg Py.ok (Prod.ext ?_ rfl)
  ext i j
  fin_cases i <;> fin_cases j <;> norm_num [hu]

theorem plain_dictionary :
    gpnhInitDictionaryRandom demoEnv (!![6; -2] : Matrix (Fin 2) (Fin 1) ℚ) 2 (plainG 0) =
      Py.ok ((!![0; 2] : Matrix (Fin 2) (Fin 1) ℚ), plainG 1) := by
  have hn : ∀ (i : Fin 2) (j : Fin 1), (demoEnv.rng.randn 2 1 (plainG 0)).1 i j =
      ((i : ℕ) : ℚ) - ((j : ℕ) : ℚ) * ((0 : ℕ) : ℚ) := fun _ _ => rfl
  unfold gpnhInitDictionaryRandom
  rw [if_neg (by norm_num)]
  refine congrArg Py.ok (Prod.ext ?_ rfl)
  ext i j
  show demoEnv.sqrt _ * (demoEnv.rng.randn 2 1 (plainG 0)).1 i j = _
  rw [hn]
  fin_cases j
  fin_cases i <;> norm_num [demoEnv, Fin.sum_univ_two]

/-- `transform` and `fit` of a default GPNH model. -/
example : (∃ res, gpnhTransform demoEnv
      { plainGPNH with S := some (Arr2.of (!![1000, 3; -20, 500] : Matrix (Fin 2) (Fin 2) ℚ)) }
      (Arr2.of (!![100, 200; 300, -500] : Matrix (Fin 2) (Fin 2) ℚ)) = Py.ok res) ∧
    (∃ res, gpnhFitTransform demoEnv plainGPNH
      (Arr2.of (!![6; -2] : Matrix (Fin 2) (Fin 1) ℚ)) none none {} = Py.ok res) := by
  constructor
  · refine C102_gpnh_default_transform_returns demoRng_lawful demoRng_uniform_pos (plainG 0)
      (1 / 10) (k := 2) (by norm_num) plainGPNH rfl _ (by norm_num) _ ?_
    norm_num [Fin.sum_univ_two]
  · refine C102_gpnh_default_fit_returns demoRng_lawful demoRng_uniform_pos (plainG 0) (1 / 10)
      (by norm_num) (k := 2) le_rfl plainGPNH rfl _ (by norm_num) none none ?_ (by norm_num)
    intro start h
    change (do
        let d ← gpnhInitDictionaryRandom demoEnv (!![6; -2] : Matrix (Fin 2) (Fin 1) ℚ) 2 (plainG 0)
        let w ← rightStochasticMatrix demoEnv.rng 2 2 d.2
        pure ((d.1, w.1), w.2)) = _ at h
    rw [plain_dictionary] at h
    simp only [Py.ok_bind, plain_weights, Py.pure_eq, Py.ok.injEq] at h
    subst h
    norm_num [gpnhCost, sqDist, Fin.sum_univ_two]

end Reor
