import Verif.Proofs.KernelAAFit
import Verif.Proofs.GPNHFit

/-!
Complete fits of the kernel archetypal analysis model.
-/

namespace Reor

set_option linter.unusedSectionVars false

open scoped BigOperators Matrix
open Spec

variable {K : Type} [Field K] [LinearOrder K] [IsStrictOrderedRing K]
variable {n k : ℕ}

theorem kaaCheckInitWeights_eq (w : Option (Arr2 K)) (m n : ℕ) :
    kaaCheckInitWeights w m n = gpnhCheckInitWeights w m n := rfl

theorem kaaCheckInitDictionary_eq (w : Option (Arr2 K)) (m n : ℕ) :
    kaaCheckInitDictionary w m n = gpnhCheckInitWeights w m n := rfl

theorem kaaInitDictionaryFurthestSum_ok {env : Env K} {A : Matrix (Fin n) (Fin n) K} {k : ℕ}
    {kw : InitKwargs} {g : env.rng.G} {r : Matrix (Fin k) (Fin n) K × env.rng.G}
    (h : kaaInitDictionaryFurthestSum env A k kw g = Py.ok r) :
    ∃ q, furthestSumRows env A k kw g = Py.ok q ∧ r.2 = q.2 ∧
      ∀ i j, r.1 i j = if j = q.1 i then 1 else 0 := by
  unfold kaaInitDictionaryFurthestSum at h
  obtain ⟨q, hq, h⟩ := Py.bind_eq_ok.1 h
  simp only [Py.pure_eq, Py.ok.injEq] at h
  subst h
  exact ⟨q, hq, rfl, fun i j => by simp⟩

theorem kaaInitDictionary_ok {env : Env K} (hR : env.rng.Lawful) (hn : 1 ≤ n)
    {A : Matrix (Fin n) (Fin n) K} {k : ℕ} {init : Option String}
    {kw : InitKwargs} {g : env.rng.G} {r : Matrix (Fin k) (Fin n) K × env.rng.G}
    (h : kaaInitDictionary env A k init kw g = Py.ok r) : RowStochastic r.1 := by
  unfold kaaInitDictionary at h
  simp only at h
  split_ifs at h
  · obtain ⟨q, -, -, hq⟩ := kaaInitDictionaryFurthestSum_ok h
    intro i
    simp only [hq]
    refine ⟨fun j => ?_, by simp⟩
    dsimp only
    split_ifs <;> simp
  · exact rightStochastic_ok hR hn h

theorem kaaInitWeights_ok {env : Env K} (hR : env.rng.Lawful) (hk : 1 ≤ k)
    {init : Option String} {kw : InitKwargs} {g : env.rng.G}
    {r : Matrix (Fin n) (Fin k) K × env.rng.G}
    (h : kaaInitWeights env n k init kw g = Py.ok r) :
    kw.nonempty = false ∧ RowStochastic r.1 := by
  unfold kaaInitWeights at h
  by_cases hkw : kw.nonempty = true
  · simp [hkw] at h
  simp only [hkw, Bool.false_eq_true, if_false] at h
  split_ifs at h
  exact ⟨by simpa using hkw, rightStochastic_ok hR hk h⟩

/-- With `init='custom'` the start is what the caller supplied. -/
theorem kaaStart_custom {env : Env K} {A : Matrix (Fin n) (Fin n) K} {k : ℕ}
    {dictionary weights : Option (Arr2 K)} {ud uw : Bool} {kw : InitKwargs} {g : env.rng.G}
    {start : (Matrix (Fin k) (Fin n) K × Matrix (Fin n) (Fin k) K) × env.rng.G}
    (h : kaaStart env A k (some "custom") dictionary weights ud uw kw g = Py.ok start) :
    dictionary = some (Arr2.of start.1.1) ∧ weights = some (Arr2.of start.1.2) ∧ start.2 = g ∧
      n ≠ 0 := by
  unfold kaaStart at h
  rw [if_pos rfl] at h
  obtain ⟨w, hw, h⟩ := Py.bind_eq_ok.1 h
  obtain ⟨d, hd, h⟩ := Py.bind_eq_ok.1 h
  simp only [Py.pure_eq, Py.ok.injEq] at h
  subst h
  exact ⟨(gpnhCheckInitWeights_ok hd).1, (gpnhCheckInitWeights_ok hw).1, rfl,
    (gpnhCheckInitWeights_ok hw).2.1⟩

/-- With the dictionary kept, the start dictionary is the one supplied. -/
theorem kaaStart_dictionary {env : Env K} {A : Matrix (Fin n) (Fin n) K} {k : ℕ}
    {init : Option String} {dictionary weights : Option (Arr2 K)} {kw : InitKwargs} {g : env.rng.G}
    {start : (Matrix (Fin k) (Fin n) K × Matrix (Fin n) (Fin k) K) × env.rng.G}
    (h : kaaStart env A k init dictionary weights false true kw g = Py.ok start) :
    dictionary = some (Arr2.of start.1.1) := by
  unfold kaaStart at h
  split_ifs at h with h1 h2 h3
  · obtain ⟨w, hw, h⟩ := Py.bind_eq_ok.1 h
    obtain ⟨d, hd, h⟩ := Py.bind_eq_ok.1 h
    simp only [Py.pure_eq, Py.ok.injEq] at h
    subst h
    exact (gpnhCheckInitWeights_ok hd).1
  · obtain ⟨d, hd, h⟩ := Py.bind_eq_ok.1 h
    obtain ⟨w, hw, h⟩ := Py.bind_eq_ok.1 h
    simp only [Py.pure_eq, Py.ok.injEq] at h
    subst h
    exact (gpnhCheckInitWeights_ok hd).1
  · simp at h3
  · simp at h2

/-- The weights of the start are on the simplex, unless the caller's are not. -/
theorem kaaStart_weights {env : Env K} (hR : env.rng.Lawful) (hk : 1 ≤ k)
    {A : Matrix (Fin n) (Fin n) K} {init : Option String}
    {dictionary weights : Option (Arr2 K)} {ud uw : Bool} {kw : InitKwargs} {g : env.rng.G}
    (hw : (init = some "custom" ∨ uw = false) → ∀ W, weights = some W → RowStochastic W.val)
    {start : (Matrix (Fin k) (Fin n) K × Matrix (Fin n) (Fin k) K) × env.rng.G}
    (h : kaaStart env A k init dictionary weights ud uw kw g = Py.ok start) :
    RowStochastic start.1.2 := by
  by_cases hc : init = some "custom"
  · subst hc
    exact hw (Or.inl rfl) _ (kaaStart_custom h).2.1
  unfold kaaStart at h
  rw [if_neg hc] at h
  split_ifs at h with h2 h3
  · obtain ⟨d, -, h⟩ := Py.bind_eq_ok.1 h
    obtain ⟨w, hw', h⟩ := Py.bind_eq_ok.1 h
    simp only [Py.pure_eq, Py.ok.injEq] at h
    subst h
    exact (kaaInitWeights_ok hR hk hw').2
  · obtain ⟨w, hw', h⟩ := Py.bind_eq_ok.1 h
    obtain ⟨d, -, h⟩ := Py.bind_eq_ok.1 h
    simp only [Py.pure_eq, Py.ok.injEq] at h
    subst h
    exact hw (Or.inr h3.2) _ (gpnhCheckInitWeights_ok hw').1
  · unfold kaaInitBoth at h
    obtain ⟨d, -, h⟩ := Py.bind_eq_ok.1 h
    obtain ⟨w, hw', h⟩ := Py.bind_eq_ok.1 h
    simp only [Py.pure_eq, Py.ok.injEq] at h
    subst h
    exact (kaaInitWeights_ok hR hk hw').2

/-- The dictionary of the start is on the simplex, unless the caller's is not. -/
theorem kaaStart_dictionary_stochastic {env : Env K} (hR : env.rng.Lawful) (hn : 1 ≤ n)
    {A : Matrix (Fin n) (Fin n) K} {init : Option String}
    {dictionary weights : Option (Arr2 K)} {ud uw : Bool} {kw : InitKwargs} {g : env.rng.G}
    (hd : (init = some "custom" ∨ ud = false) → ∀ C, dictionary = some C → RowStochastic C.val)
    {start : (Matrix (Fin k) (Fin n) K × Matrix (Fin n) (Fin k) K) × env.rng.G}
    (h : kaaStart env A k init dictionary weights ud uw kw g = Py.ok start) :
    RowStochastic start.1.1 := by
  by_cases hc : init = some "custom"
  · subst hc
    exact hd (Or.inl rfl) _ (kaaStart_custom h).1
  unfold kaaStart at h
  rw [if_neg hc] at h
  split_ifs at h with h2 h3
  · obtain ⟨d, hd', h⟩ := Py.bind_eq_ok.1 h
    obtain ⟨w, hw', h⟩ := Py.bind_eq_ok.1 h
    simp only [Py.pure_eq, Py.ok.injEq] at h
    subst h
    exact hd (Or.inr h2.1) _ (gpnhCheckInitWeights_ok hd').1
  · obtain ⟨w, hw', h⟩ := Py.bind_eq_ok.1 h
    obtain ⟨d, hd', h⟩ := Py.bind_eq_ok.1 h
    simp only [Py.pure_eq, Py.ok.injEq] at h
    subst h
    exact kaaInitDictionary_ok hR hn hd'
  · unfold kaaInitBoth at h
    obtain ⟨d, hd', h⟩ := Py.bind_eq_ok.1 h
    obtain ⟨w, hw', h⟩ := Py.bind_eq_ok.1 h
    simp only [Py.pure_eq, Py.ok.injEq] at h
    subst h
    exact kaaInitDictionary_ok hR hn hd'

theorem kaaInitWeights_raise {env : Env K} {init : Option String} {kw : InitKwargs}
    {g : env.rng.G} {e : PyErr} (h : kaaInitWeights env n k init kw g = Py.raise e) :
    InitErr e := by
  unfold kaaInitWeights at h
  simp only at h
  split_ifs at h
  · simp at h; subst h; exact initErr_type
  · exact Or.inr (rightStochastic_raise h)
  · simp at h; subst h; exact initErr_value

theorem kaaInitWeights_ne_diverge {env : Env K} {init : Option String}
    {kw : InitKwargs} {g : env.rng.G} : kaaInitWeights env n k init kw g ≠ Py.diverge := by
  unfold kaaInitWeights kaaInitWeightsRandom rightStochasticMatrix
  simp only
  split_ifs <;> simp

theorem kaaInitDictionary_raise {env : Env K} {A : Matrix (Fin n) (Fin n) K} {k : ℕ}
    {init : Option String} {kw : InitKwargs} {g : env.rng.G} {e : PyErr}
    (h : kaaInitDictionary env A k init kw g = Py.raise e) : InitErr e := by
  unfold kaaInitDictionary at h
  simp only at h
  split_ifs at h
  · unfold kaaInitDictionaryFurthestSum at h
    rcases Py.bind_eq_raise.1 h with h | ⟨_, _, h⟩
    · exact furthestSumRows_raise h
    · simp at h
  · exact Or.inr (rightStochastic_raise h)
  · simp at h; subst h; exact initErr_value

theorem kaaInitDictionary_ne_diverge {env : Env K} {A : Matrix (Fin n) (Fin n) K} {k : ℕ}
    {init : Option String} {kw : InitKwargs} {g : env.rng.G} :
    kaaInitDictionary env A k init kw g ≠ Py.diverge := by
  intro h
  unfold kaaInitDictionary at h
  simp only at h
  split_ifs at h
  · unfold kaaInitDictionaryFurthestSum at h
    rcases Py.bind_eq_diverge.1 h with h | ⟨_, _, h⟩
    · exact furthestSumRows_ne_diverge h
    · simp at h
  · unfold kaaInitDictionaryRandom rightStochasticMatrix at h
    simp only at h
    split_ifs at h

theorem kaaStart_raise {env : Env K} {A : Matrix (Fin n) (Fin n) K} {k : ℕ}
    {init : Option String} {dictionary weights : Option (Arr2 K)} {ud uw : Bool} {kw : InitKwargs}
    {g : env.rng.G} {e : PyErr}
    (h : kaaStart env A k init dictionary weights ud uw kw g = Py.raise e) : InitErr e := by
  unfold kaaStart at h
  split_ifs at h
  · rcases Py.bind_eq_raise.1 h with h | ⟨_, _, h⟩
    · rw [gpnhCheckInitWeights_raise h]; exact initErr_value
    rcases Py.bind_eq_raise.1 h with h | ⟨_, _, h⟩
    · rw [gpnhCheckInitWeights_raise h]; exact initErr_value
    · simp at h
  · rcases Py.bind_eq_raise.1 h with h | ⟨_, _, h⟩
    · rw [gpnhCheckInitWeights_raise h]; exact initErr_value
    rcases Py.bind_eq_raise.1 h with h | ⟨_, _, h⟩
    · exact kaaInitWeights_raise h
    · simp at h
  · rcases Py.bind_eq_raise.1 h with h | ⟨_, _, h⟩
    · rw [gpnhCheckInitWeights_raise h]; exact initErr_value
    rcases Py.bind_eq_raise.1 h with h | ⟨_, _, h⟩
    · exact kaaInitDictionary_raise h
    · simp at h
  · unfold kaaInitBoth at h
    rcases Py.bind_eq_raise.1 h with h | ⟨_, _, h⟩
    · exact kaaInitDictionary_raise h
    rcases Py.bind_eq_raise.1 h with h | ⟨_, _, h⟩
    · exact kaaInitWeights_raise h
    · simp at h

theorem kaaStart_ne_diverge {env : Env K} {A : Matrix (Fin n) (Fin n) K} {k : ℕ}
    {init : Option String} {dictionary weights : Option (Arr2 K)} {ud uw : Bool} {kw : InitKwargs}
    {g : env.rng.G} :
    kaaStart env A k init dictionary weights ud uw kw g ≠ Py.diverge := by
  intro h
  unfold kaaStart at h
  split_ifs at h
  · rcases Py.bind_eq_diverge.1 h with h | ⟨_, _, h⟩
    · exact gpnhCheckInitWeights_ne_diverge h
    rcases Py.bind_eq_diverge.1 h with h | ⟨_, _, h⟩
    · exact gpnhCheckInitWeights_ne_diverge h
    · simp at h
  · rcases Py.bind_eq_diverge.1 h with h | ⟨_, _, h⟩
    · exact gpnhCheckInitWeights_ne_diverge h
    rcases Py.bind_eq_diverge.1 h with h | ⟨_, _, h⟩
    · exact kaaInitWeights_ne_diverge h
    · simp at h
  · rcases Py.bind_eq_diverge.1 h with h | ⟨_, _, h⟩
    · exact gpnhCheckInitWeights_ne_diverge h
    rcases Py.bind_eq_diverge.1 h with h | ⟨_, _, h⟩
    · exact kaaInitDictionary_ne_diverge h
    · simp at h
  · unfold kaaInitBoth at h
    rcases Py.bind_eq_diverge.1 h with h | ⟨_, _, h⟩
    · exact kaaInitDictionary_ne_diverge h
    rcases Py.bind_eq_diverge.1 h with h | ⟨_, _, h⟩
    · exact kaaInitWeights_ne_diverge h
    · simp at h

/-- A square kernel given as a matrix. -/
theorem kernelAA_of {env : Env K} (obj : KAAObj env.rng) (A : Matrix (Fin n) (Fin n) K)
    (dictionary weights : Option (Arr2 K)) (ud uw : Bool) (kw : InitKwargs) :
    kernelAA env obj (Arr2.of A) dictionary weights ud uw kw =
      kernelAASquare env obj A dictionary weights ud uw kw := by
  unfold kernelAA
  exact dif_pos rfl

theorem kernelAASquare_eq_ok {env : Env K} {obj : KAAObj env.rng} {A : Matrix (Fin n) (Fin n) K}
    {dictionary weights : Option (Arr2 K)} {ud uw : Bool} {kw : InitKwargs}
    {res : KAAObj env.rng × FitInfo K}
    (h : kernelAASquare env obj A dictionary weights ud uw kw = Py.ok res) :
    ∃ p start r, checkParams (defaultComponents obj.nComponents n) obj.maxIterations
        obj.tolerance = Py.ok p ∧
      kaaStart env A p.1 obj.init dictionary weights ud uw kw obj.randomState.start = Py.ok start ∧
      kaaIterate obj.ls obj.delta obj.require p.2.2 p.2.1 ud uw
        (KAAState.initializeWorkspace obj.ls A start.1.2 start.1.1) = Py.ok r ∧
      res = ({ obj with
          nComponents := defaultComponents obj.nComponents n
          randomState := obj.randomState.after start.2
          Kmat := some (Arr2.of A)
          S := some (Arr2.of r.state.S)
          C := some (Arr2.of r.state.C) },
        { cost := r.cost, nIter := r.nIter, warned := decide (r.nIter = p.2.1 ∧ p.2.2 > 0),
          trace := r.trace }) := by
  unfold kernelAASquare at h
  simp only at h
  obtain ⟨p, hp, h⟩ := Py.bind_eq_ok.1 h
  obtain ⟨start, hs, h⟩ := Py.bind_eq_ok.1 h
  obtain ⟨r, hr, h⟩ := Py.bind_eq_ok.1 h
  simp only [Py.pure_eq, Py.ok.injEq] at h
  exact ⟨p, start, r, hp, hs, hr, h.symm⟩

theorem kernelAASquare_of_steps {env : Env K} {obj : KAAObj env.rng}
    {A : Matrix (Fin n) (Fin n) K}
    {dictionary weights : Option (Arr2 K)} {ud uw : Bool} {kw : InitKwargs} {p : ℕ × ℕ × K}
    (hp : checkParams (defaultComponents obj.nComponents n) obj.maxIterations
      obj.tolerance = Py.ok p)
    {start : (Matrix (Fin p.1) (Fin n) K × Matrix (Fin n) (Fin p.1) K) × env.rng.G}
    (hstart : kaaStart env A p.1 obj.init dictionary weights ud uw kw obj.randomState.start =
        Py.ok start)
    {r : IterResult (KAAState n p.1 K) K}
    (hr : kaaIterate obj.ls obj.delta obj.require p.2.2 p.2.1 ud uw
        (KAAState.initializeWorkspace obj.ls A start.1.2 start.1.1) = Py.ok r) :
    kernelAASquare env obj A dictionary weights ud uw kw = Py.ok
      ({ obj with
          nComponents := defaultComponents obj.nComponents n
          randomState := obj.randomState.after start.2
          Kmat := some (Arr2.of A)
          S := some (Arr2.of r.state.S)
          C := some (Arr2.of r.state.C) },
        { cost := r.cost, nIter := r.nIter, warned := decide (r.nIter = p.2.1 ∧ p.2.2 > 0),
          trace := r.trace }) := by
  unfold kernelAASquare
  simp only [hp, hstart, hr, Py.ok_bind, Py.pure_eq]

/-- Outcomes other than success of a fit. -/
theorem kernelAASquare_outcome {env : Env K} {obj : KAAObj env.rng} {A : Matrix (Fin n) (Fin n) K}
    {dictionary weights : Option (Arr2 K)} {ud uw : Bool} {kw : InitKwargs}
    (hiter : ∀ (p : ℕ × ℕ × K), 0 < p.1 → 0 < p.2.1 →
      ∀ start, kaaStart env A p.1 obj.init dictionary weights ud uw kw obj.randomState.start =
        Py.ok start →
      ∃ r, kaaIterate obj.ls obj.delta obj.require p.2.2 p.2.1 ud uw
        (KAAState.initializeWorkspace obj.ls A start.1.2 start.1.1) = Py.ok r) :
    (∃ res, kernelAASquare env obj A dictionary weights ud uw kw = Py.ok res) ∨
    ∃ e, kernelAASquare env obj A dictionary weights ud uw kw = Py.raise e ∧ InitErr e := by
  by_cases hv : ValidParams (defaultComponents obj.nComponents n) obj.maxIterations
      obj.tolerance
  swap
  · refine Or.inr ⟨.valueError, ?_, initErr_value⟩
    unfold kernelAASquare
    simp only [checkParams_invalid hv, Py.raise_bind]
  obtain ⟨p, hp, -, -, hk, hm, -, -⟩ := checkParams_valid hv
  cases hs : kaaStart env A p.1 obj.init dictionary weights ud uw kw obj.randomState.start with
  | diverge => exact absurd hs kaaStart_ne_diverge
  | raise e =>
    refine Or.inr ⟨e, ?_, kaaStart_raise hs⟩
    unfold kernelAASquare
    simp only [hp, hs, Py.ok_bind, Py.raise_bind]
  | ok start =>
    obtain ⟨r, hr⟩ := hiter p hk hm start hs
    exact Or.inl ⟨_, kernelAASquare_of_steps hp hs hr⟩

/-- A result of `kernelAA` comes from a square kernel. -/
theorem kernelAA_square {env : Env K} {obj : KAAObj env.rng} {kernel : Arr2 K}
    {dictionary weights : Option (Arr2 K)} {ud uw : Bool} {kw : InitKwargs}
    {res : KAAObj env.rng × FitInfo K}
    (h : kernelAA env obj kernel dictionary weights ud uw kw = Py.ok res) :
    ∃ (n : ℕ) (A : Matrix (Fin n) (Fin n) K), kernel = Arr2.of A := by
  unfold kernelAA at h
  by_cases hc : kernel.cols = kernel.rows
  · obtain ⟨rows, cols, val⟩ := kernel
    simp only at hc
    subst hc
    exact ⟨_, val, rfl⟩
  · rw [dif_neg hc] at h
    simp at h

/-- Changing only the scale bound. -/
theorem kernelAASquare_delta [Archimedean K] {env : Env K} (obj : KAAObj env.rng)
    (h1 : 0 < obj.ls.sigmaOne) (h2 : obj.ls.sigmaTwo < 1) (ht : 0 < obj.ls.stepSizeTolerance)
    (A : Matrix (Fin n) (Fin n) K) (dictionary weights : Option (Arr2 K)) (ud uw : Bool)
    (kw : InitKwargs) :
    kernelAASquare env { obj with delta := 0 } A dictionary weights ud uw kw =
      (do
        let r ← kernelAASquare env obj A dictionary weights ud uw kw
        pure ({ r.1 with delta := 0 }, r.2)) := by
  obtain ⟨N, hN⟩ : ∃ N : ℕ, shrink obj.ls.sigmaTwo ^ (N + 1) < obj.ls.stepSizeTolerance := by
    obtain ⟨m, hm⟩ := exists_pow_lt_of_lt_one ht
      (show shrink obj.ls.sigmaTwo < 1 from max_lt h2 (by norm_num))
    refine ⟨m, lt_of_le_of_lt ?_ hm⟩
    have h0 : 0 ≤ shrink obj.ls.sigmaTwo := le_trans (by norm_num) (le_max_right _ _)
    exact pow_le_pow_of_le_one h0 (max_lt h2 (by norm_num)).le (Nat.le_succ m)
  unfold kernelAASquare
  simp only
  cases hp : checkParams (defaultComponents obj.nComponents n) obj.maxIterations obj.tolerance with
  | raise e => rfl
  | diverge => rfl
  | ok p =>
    simp only [Py.ok_bind]
    cases hs : kaaStart env A p.1 obj.init dictionary weights ud uw kw obj.randomState.start with
    | raise e => rfl
    | diverge => rfl
    | ok start =>
      simp only [Py.ok_bind]
      have := kaaIterate_delta h1 hN (d := obj.delta) (require := obj.require) (tol := p.2.2)
        (maxIter := p.2.1) (ud := ud) (uw := uw) A start.1.2 start.1.1
      revert this
      cases kaaIterate obj.ls obj.delta obj.require p.2.2 p.2.1 ud uw
          (KAAState.initializeWorkspace obj.ls A start.1.2 start.1.1) <;>
        cases kaaIterate obj.ls 0 obj.require p.2.2 p.2.1 ud uw
          (KAAState.initializeWorkspace obj.ls A start.1.2 start.1.1) <;> intro this <;>
        simp only [PyRel] at this
      · obtain ⟨⟨-, -, -, c, g, i, a, m, hst⟩, hc, hn, htr⟩ := this
        simp only [Py.ok_bind, Py.pure_eq, hst, hc, hn, htr]
      · subst this
        rfl
      · rfl

/-- Changing only the scale bound, for any settings. -/
theorem kernelAASquare_deltaLe {env : Env K} (obj : KAAObj env.rng)
    (A : Matrix (Fin n) (Fin n) K) (dictionary weights : Option (Arr2 K)) (ud uw : Bool)
    (kw : InitKwargs) :
    kernelAASquare env obj A dictionary weights ud uw kw = Py.diverge ∨
    kernelAASquare env { obj with delta := 0 } A dictionary weights ud uw kw =
      (do
        let r ← kernelAASquare env obj A dictionary weights ud uw kw
        pure ({ r.1 with delta := 0 }, r.2)) := by
  unfold kernelAASquare
  simp only
  cases hp : checkParams (defaultComponents obj.nComponents n) obj.maxIterations obj.tolerance with
  | raise e => exact Or.inr rfl
  | diverge => exact Or.inr rfl
  | ok p =>
    simp only [Py.ok_bind]
    cases hs : kaaStart env A p.1 obj.init dictionary weights ud uw kw obj.randomState.start with
    | raise e => exact Or.inr rfl
    | diverge => exact Or.inr rfl
    | ok start =>
      simp only [Py.ok_bind]
      rcases kaaIterate_deltaLe (cfg := obj.ls) (d := obj.delta) (require := obj.require)
        (tol := p.2.2) (maxIter := p.2.1) (ud := ud) (uw := uw) A start.1.2 start.1.1 with h | this
      · rw [h]
        exact Or.inl rfl
      revert this
      cases kaaIterate obj.ls obj.delta obj.require p.2.2 p.2.1 ud uw
          (KAAState.initializeWorkspace obj.ls A start.1.2 start.1.1) <;>
        cases kaaIterate obj.ls 0 obj.require p.2.2 p.2.1 ud uw
          (KAAState.initializeWorkspace obj.ls A start.1.2 start.1.1) <;> intro this <;>
        simp only [PyRel] at this
      · obtain ⟨⟨-, -, -, c, g, i, a, m, hst⟩, hc, hn, htr⟩ := this
        right
        simp only [Py.ok_bind, Py.pure_eq, hst, hc, hn, htr]
      · subst this
        exact Or.inr rfl
      · exact Or.inr rfl

end Reor
