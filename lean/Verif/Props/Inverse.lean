import Verif.Props.Defaults
import Verif.Props.MTDFit

/-!
C103: `inverse_transform`.  For GPNH and MTD models it returns the convex combinations of the dictionary
elements; for (kernel) archetypal analysis it returns coefficients with respect to the fitted samples
rather than samples.
-/

namespace Reor

set_option linter.unusedSectionVars false

open scoped BigOperators Matrix
open Spec

variable {K : Type} [Field K] [LinearOrder K] [IsStrictOrderedRing K]
variable {n k m T D p : ℕ}

/-! ### Values and errors -/

/-- C103.  Kernel archetypal analysis: entry `(t, j)` is the coefficient of sample `j` of the fit in the
reconstruction of sample `t`; a model without dictionary is a TypeError, a wrong number of components
a ValueError. -/
theorem C103_kaa_inverse {env : Env K} (obj : KAAObj env.rng) (C : Matrix (Fin k) (Fin n) K)
    (W : Matrix (Fin T) (Fin m) K) :
    (obj.C = none → kaaInverseTransform env obj (Arr2.of W) = Py.raise .typeError) ∧
    (obj.C = some (Arr2.of C) → k ≠ m →
      kaaInverseTransform env obj (Arr2.of W) = Py.raise .valueError) ∧
    (obj.C = some (Arr2.of C) → ∀ e : k = m, ∃ P : Matrix (Fin T) (Fin n) K,
      kaaInverseTransform env obj (Arr2.of W) = Py.ok (Arr2.of P) ∧
      ∀ t j, P t j = ∑ i : Fin k, W t (Fin.cast e i) * C i j) := by
  unfold kaaInverseTransform
  refine ⟨fun h => by rw [h], fun h hne => ?_, fun h e => ?_⟩
  · rw [h]
    exact dif_neg hne
  · subst e
    rw [h]
    refine ⟨W * C, dif_pos rfl, fun t j => ?_⟩
    rw [Matrix.mul_apply]
    rfl

/-- C103.  GPNH models: row `t` is the combination of the dictionary elements with the weights of row
`t`; errors as for archetypal analysis. -/
theorem C103_gpnh_inverse {env : Env K} (obj : GPNHObj env.rng) (S : Matrix (Fin k) (Fin D) K)
    (W : Matrix (Fin T) (Fin m) K) :
    (obj.S = none → gpnhInverseTransform env obj (Arr2.of W) = Py.raise .typeError) ∧
    (obj.S = some (Arr2.of S) → k ≠ m →
      gpnhInverseTransform env obj (Arr2.of W) = Py.raise .valueError) ∧
    (obj.S = some (Arr2.of S) → ∀ e : k = m, ∃ X : Matrix (Fin T) (Fin D) K,
      gpnhInverseTransform env obj (Arr2.of W) = Py.ok (Arr2.of X) ∧
      ∀ t d, X t d = ∑ i : Fin k, W t (Fin.cast e i) * S i d) := by
  unfold gpnhInverseTransform
  refine ⟨fun h => by rw [h], fun h hne => ?_, fun h e => ?_⟩
  · rw [h]
    exact dif_neg hne
  · subst e
    rw [h]
    refine ⟨W * S, dif_pos rfl, fun t j => ?_⟩
    rw [Matrix.mul_apply]
    rfl

/-- C103.  MTD models: the same. -/
theorem C103_mtd_inverse {env : Env K} (obj : MTDObj env.rng p) (v : MTDVars p K)
    (W : Matrix (Fin T) (Fin m) K) :
    (obj.vars = none → mtdInverseTransform env obj (Arr2.of W) = Py.raise .typeError) ∧
    (obj.vars = some v → v.k ≠ m →
      mtdInverseTransform env obj (Arr2.of W) = Py.raise .valueError) ∧
    (obj.vars = some v → ∀ e : v.k = m, ∃ X : Matrix (Fin T) (Fin v.D) K,
      mtdInverseTransform env obj (Arr2.of W) = Py.ok (Arr2.of X) ∧
      ∀ t d, X t d = ∑ i : Fin v.k, W t (Fin.cast e i) * v.S i d) := by
  unfold mtdInverseTransform
  refine ⟨fun h => by rw [h], fun h hne => ?_, fun h e => ?_⟩
  · rw [h]
    exact dif_neg hne
  · subst e
    rw [h]
    refine ⟨W * v.S, dif_pos rfl, fun t j => ?_⟩
    rw [Matrix.mul_apply]
    rfl

/-! ### After a fit -/

/-- A convex combination lies between the bounds of what is combined. -/
theorem convex_between {ι : Type} [Fintype ι] {w x : ι → K} (h0 : ∀ i, 0 ≤ w i)
    (h1 : ∑ i, w i = 1) {lo hi : K} (hx : ∀ i, lo ≤ x i ∧ x i ≤ hi) :
    lo ≤ ∑ i, w i * x i ∧ ∑ i, w i * x i ≤ hi := by
  constructor
  · calc lo = ∑ i, w i * lo := by rw [← Finset.sum_mul, h1, one_mul]
      _ ≤ _ := Finset.sum_le_sum fun i _ => mul_le_mul_of_nonneg_left (hx i).1 (h0 i)
  · calc ∑ i, w i * x i ≤ ∑ i, w i * hi :=
          Finset.sum_le_sum fun i _ => mul_le_mul_of_nonneg_left (hx i).2 (h0 i)
      _ = hi := by rw [← Finset.sum_mul, h1, one_mul]

/-- The product of row stochastic matrices is row stochastic. -/
theorem rowStochastic_mul {W : Matrix (Fin T) (Fin k) K} {C : Matrix (Fin k) (Fin n) K}
    (hW : RowStochastic W) (hC : RowStochastic C) : RowStochastic (W * C) := by
  intro t
  refine ⟨fun j => ?_, ?_⟩
  · show 0 ≤ (W * C) t j
    rw [Matrix.mul_apply]
    exact Finset.sum_nonneg fun i _ => mul_nonneg ((hW t).1 i) ((hC i).1 j)
  · simp only [Matrix.mul_apply]
    rw [Finset.sum_comm]
    simp only [← Finset.mul_sum, (hC _).2, mul_one, (hW t).2]

/-- C103.  Archetypal analysis of data: `inverse_transform` of the weights of a fit returns an `n` by
`n` matrix `P` with rows on the simplex; `cost_` is the squared distance between the data and `P X`,
every reconstructed feature lies between the bounds of that feature in the data, and the
reconstructions are combinations of the archetypes `C X` with the returned weights. -/
theorem C103_aa_fit_inverse {env : Env K} (hR : env.rng.Lawful) (obj : KAAObj env.rng)
    (h1 : SafeSteps obj.ls.gamma obj.ls.alphaMax obj.ls.sigmaOne obj.ls.sigmaTwo)
    (X : Matrix (Fin n) (Fin D) K) (hn : 1 ≤ n) (dictionary weights : Option (Arr2 K))
    (kw : InitKwargs)
    (hd : obj.init = some "custom" → ∀ C, dictionary = some C → RowStochastic C.val)
    (hw : obj.init = some "custom" → ∀ W, weights = some W → RowStochastic W.val)
    (obj' : KAAObj env.rng) (G : Arr2 K) (info : FitInfo K)
    (h : aaFitTransform env obj none (Arr2.of X) dictionary weights kw =
      Py.ok (obj', some G, info)) :
    ∃ (k : ℕ) (W : Matrix (Fin n) (Fin k) K) (C : Matrix (Fin k) (Fin n) K)
      (P : Matrix (Fin n) (Fin n) K),
      G = Arr2.of W ∧ obj'.dictionary_ = some (Arr2.of C) ∧
      kaaInverseTransform env obj' G = Py.ok (Arr2.of P) ∧ RowStochastic P ∧
      obj'.cost_ = some (∑ t, ∑ d, (X t d - ∑ j, P t j * X j d) ^ 2) ∧
      (∀ t d, ∑ j, P t j * X j d = ∑ i, W t i * ∑ j, C i j * X j d) ∧
      ∀ t d lo hi, (∀ j, lo ≤ X j d ∧ X j d ≤ hi) →
        lo ≤ ∑ j, P t j * X j d ∧ ∑ j, P t j * X j d ≤ hi := by
  have h' : kaaFitTransform env obj (Arr2.of (X * Xᵀ)) dictionary weights kw true true =
      Py.ok (obj', some G, info) := h
  obtain ⟨k, S, C, hG, -, hdict, hC, -, -, hc⟩ :=
    C33_kaa_cost obj (X * Xᵀ) dictionary weights kw true true obj' _ info h'
  obtain ⟨k', S', C', hG', hdict', hS', hC'⟩ := C28_kaa_fit_stochastic_partial hR obj h1 (X * Xᵀ) hn
    dictionary weights kw true true (by simpa using hd) (by simpa using hw) obj' _ info h'
  rw [hG] at hG'
  rw [hdict] at hdict'
  obtain rfl : k = k' := congrArg Arr2.cols (Option.some.inj hG')
  have eS : S = S' := by simpa [Arr2.of] using hG'
  have eC : C = C' := by simpa [Arr2.of] using hdict'
  subst eS eC
  obtain rfl := Option.some.inj hG
  have hPX : ∀ t d, ∑ j, (S * C) t j * X j d = ∑ i, S t i * ∑ j, C i j * X j d := by
    intro t d
    simp only [Matrix.mul_apply, Finset.mul_sum, Finset.sum_mul]
    rw [Finset.sum_comm]
    exact Finset.sum_congr rfl fun j _ => Finset.sum_congr rfl fun i _ => by ring
  have hP := rowStochastic_mul hS' hC'
  refine ⟨k, S, C, S * C, rfl, hdict, ?_, hP, ?_, hPX, fun t d lo hi hx =>
    convex_between (hP t).1 (hP t).2 hx⟩
  · unfold kaaInverseTransform
    rw [hC]
    exact dif_pos rfl
  · rw [hc, C30_aa_objective]
    simp only [hPX]

/-- C103.  MTD models: `inverse_transform` of the weights of a fit (with a stochastic start) returns
convex combinations of the dictionary elements, within the bounds of the dictionary. -/
theorem C103_mtd_fit_inverse {env : Env K} (hR : env.rng.Lawful) (obj : MTDObj env.rng p)
    (h1 : SafeSteps obj.ls.gamma obj.ls.alphaMax obj.ls.sigmaOne obj.ls.sigmaTwo)
    (data : Arr2 K) (args : MTDArgs K) (fl : MTDFlags) (kw : InitKwargs)
    (hsup : SuppliedStochastic obj.init args fl)
    (obj' : MTDObj env.rng p) (G : Arr2 K) (info : FitInfo K)
    (h : mtdFitTransform env obj data args fl kw = Py.ok (obj', some G, info)) :
    ∃ (k : ℕ) (W : Matrix (Fin data.rows) (Fin k) K) (S : Matrix (Fin k) (Fin data.cols) K)
      (X : Matrix (Fin data.rows) (Fin data.cols) K),
      G = Arr2.of W ∧ obj'.dictionary_ = some (Arr2.of S) ∧ RowStochastic W ∧
      mtdInverseTransform env obj' G = Py.ok (Arr2.of X) ∧
      (∀ t d, X t d = ∑ i, W t i * S i d) ∧
      ∀ t d lo hi, (∀ i, lo ≤ S i d ∧ S i d ≤ hi) → lo ≤ X t d ∧ X t d ≤ hi := by
  obtain ⟨k, W, S, w, A, hG, hv, hdict, hW, -, -⟩ :=
    C38_mtd_fit_stochastic_partial hR obj h1 data args fl kw hsup obj' _ info h
  obtain rfl := Option.some.inj hG
  refine ⟨k, W, S, W * S, rfl, hdict, hW, ?_, fun t d => Matrix.mul_apply, fun t d lo hi hx => ?_⟩
  · unfold mtdInverseTransform
    rw [hv]
    exact dif_pos rfl
  · rw [Matrix.mul_apply]
    exact convex_between (hW t).1 (hW t).2 hx

/-! ### Examples -/

example : kaaInverseTransform demoEnv
      { plainKAA with C := some (Arr2.of (!![1/2, 1/2, 0; 0, 0, 1] : Matrix (Fin 2) (Fin 3) ℚ)) }
      (Arr2.of (!![1/2, 1/2] : Matrix (Fin 1) (Fin 2) ℚ)) =
        Py.ok (Arr2.of (!![1/4, 1/4, 1/2] : Matrix (Fin 1) (Fin 3) ℚ)) ∧
    kaaInverseTransform demoEnv plainKAA (Arr2.of (!![1/2, 1/2] : Matrix (Fin 1) (Fin 2) ℚ)) =
      Py.raise .typeError := by
  refine ⟨?_, (C103_kaa_inverse plainKAA (0 : Matrix (Fin 1) (Fin 1) ℚ) _).1 rfl⟩
  obtain ⟨P, hP, hv⟩ := (C103_kaa_inverse (env := demoEnv)
    { plainKAA with C := some (Arr2.of (!![1/2, 1/2, 0; 0, 0, 1] : Matrix (Fin 2) (Fin 3) ℚ)) }
    !![1/2, 1/2, 0; 0, 0, 1] (!![1/2, 1/2] : Matrix (Fin 1) (Fin 2) ℚ)).2.2 rfl rfl
  rw [hP]
  congr 2
  ext t j
  rw [hv]
  fin_cases t
  fin_cases j <;> norm_num [Fin.sum_univ_two]

/-- The fit of the theorem about archetypal analysis returns. -/
example : ∃ (P : Matrix (Fin 4) (Fin 4) ℚ) (o : KAAObj demoEnv.rng) (G : Arr2 ℚ),
    kaaInverseTransform demoEnv o G = Py.ok (Arr2.of P) ∧ RowStochastic P := by
  obtain ⟨⟨o, G, i⟩, h⟩ := C102_aa_default_fit_returns demoRng_lawful demoRng_uniform_pos (.seed 3)
    (k := 2) (by norm_num) (by norm_num) plainKAA rfl
    (!![100, 200; 300, -500; 0, 400; 250, 50] : Matrix (Fin 4) (Fin 2) ℚ) (by
      intro t
      fin_cases t <;> norm_num [Fin.sum_univ_two]) none none
  obtain ⟨k, W, C, hG, -⟩ := C33_kaa_cost plainKAA (_ * _ᵀ) none none {} true true o G i h
  subst hG
  obtain ⟨_, _, _, P, -, -, hP, hs, -⟩ := C103_aa_fit_inverse demoRng_lawful plainKAA
    (by norm_num [SafeSteps, plainKAA]) _ (by norm_num) none none {} (by simp) (by simp) o _ i h
  exact ⟨P, o, _, hP, hs⟩

/-- The same for the MTD model of the other examples. -/
example : ∃ (X : Matrix (Fin demoData.rows) (Fin demoData.cols) ℚ) (o : MTDObj demoEnv.rng 2)
    (G : Arr2 ℚ), mtdInverseTransform demoEnv o G = Py.ok (Arr2.of X) := by
  obtain ⟨⟨o, G, i⟩, h⟩ := mtdDemo_fit
  obtain ⟨k, W, S, w, A, hG, -⟩ := C38_mtd_fit_stochastic_partial demoRng_lawful
    mtdDemoObj (by norm_num [SafeSteps, mtdDemoObj, demoLS]) demoData {} {}
    {} mtdDemo_supplied o G i h
  subst hG
  obtain ⟨_, _, _, X, -, -, -, hX, -⟩ := C103_mtd_fit_inverse demoRng_lawful
    mtdDemoObj (by norm_num [SafeSteps, mtdDemoObj, demoLS]) demoData {} {}
    {} mtdDemo_supplied o _ i h
  exact ⟨X, o, _, hX⟩

end Reor
