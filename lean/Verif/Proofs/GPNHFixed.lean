import Verif.Proofs.GPNHFit
import Verif.Props.Simplex

/-!
Stationary points of the GPNH updates.
-/

namespace Reor

set_option linter.unusedSectionVars false

open scoped BigOperators Matrix
open Spec

variable {K : Type} [Field K] [LinearOrder K] [IsStrictOrderedRing K]
variable {T D k : ℕ}

theorem projectRows_fixed {m n : ℕ} (hn : 1 ≤ n) {A : Matrix (Fin m) (Fin n) K}
    (hA : RowStochastic A) : simplexProjectRows A = A := by
  funext i
  have := projectRows_apply A i
  refine this.trans ?_
  exact (C03_simplex_projection_idempotent hn (fun j => A i j)).1 (hA i)

namespace GPNHState

/-- At a stationary dictionary the dictionary update succeeds and changes neither factor. -/
theorem updateDictionary_stationary {cfg : LSConfig K} {eps : K} {s : GPNHState T D k K}
    (hg : gradSOf eps s.X s.Gamma s.S = 0) (hm : s.fSMem ≠ []) :
    ∃ s', s.updateDictionary cfg eps = Py.ok s' ∧ s'.X = s.X ∧ s'.S = s.S ∧ s'.Gamma = s.Gamma ∧
      s'.SSt = s'.S * s'.Sᵀ ∧ s'.fSMem ≠ [] ∧ s'.fGammaMem = s.fGammaMem := by
  unfold updateDictionary dictionaryLineSearch
  simp only [prepareDictionary_eq, hg, smul_zero, neg_zero]
  rw [lineSearch_first hm]
  · simp only [Py.ok_bind, Py.pure_eq, Py.ok.injEq, exists_eq_left', dictionaryTrial]
    rw [updateDictionaryGradient_eq]
    simp
  · simp [dictionaryTrial, evaluateCost, evaluateLossFunction, evaluateDictionaryPenalty, mulSum]

/-- At stationary weights the weights update succeeds and changes neither factor. -/
theorem updateWeights_stationary {cfg : LSConfig K} {eps : K} {s : GPNHState T D k K}
    (hk : 1 ≤ k) (hW : RowStochastic s.Gamma)
    (hg : gradWOf s.X s.Gamma s.S = 0) (hm : s.fGammaMem ≠ []) :
    ∃ s', s.updateWeights cfg eps = Py.ok s' ∧ s'.X = s.X ∧ s'.S = s.S ∧ s'.Gamma = s.Gamma ∧
      s'.SSt = s'.S * s'.Sᵀ ∧ s'.fGammaMem ≠ [] ∧ s'.fSMem = s.fSMem := by
  unfold updateWeights weightsLineSearch
  simp only [prepareWeights_eq, hg, smul_zero, sub_zero, projectRows_fixed hk hW, sub_self]
  rw [lineSearch_first hm]
  · simp only [Py.ok_bind, Py.pure_eq, Py.ok.injEq, exists_eq_left', weightsTrial,
      updateWeightsGradient]
    simp
  · simp [weightsTrial, evaluateCost, evaluateLossFunction, evaluateDictionaryPenalty, mulSum]

end GPNHState

theorem gradSOf_exact {X : Matrix (Fin T) (Fin D) K} {W : Matrix (Fin T) (Fin k) K}
    {S : Matrix (Fin k) (Fin D) K} (h : X = W * S) : gradSOf 0 X W S = 0 := by
  unfold gradSOf
  rw [h, Matrix.mul_assoc, neg_div, neg_smul]
  simp

theorem gradWOf_exact {X : Matrix (Fin T) (Fin D) K} {W : Matrix (Fin T) (Fin k) K}
    {S : Matrix (Fin k) (Fin D) K} (h : X = W * S) : gradWOf X W S = 0 := by
  unfold gradWOf
  rw [h, Matrix.mul_assoc, neg_div, neg_smul]
  simp

theorem gpnhCost_exact {X : Matrix (Fin T) (Fin D) K} {W : Matrix (Fin T) (Fin k) K}
    {S : Matrix (Fin k) (Fin D) K} (h : X = W * S) : gpnhCost 0 X W S = 0 := by
  rw [gpnhCost_eq, h]
  simp [frobSq]

/-- The whole loop stays at an exact factorization. -/
theorem gpnhIterate_exact {cfg : LSConfig K} {require : Bool} {tol : K} {maxIter : ℕ}
    (hm : 0 < maxIter) {ud uw : Bool} (hDT : D * T ≠ 0) (hk : 1 ≤ k)
    {s : GPNHState T D k K} (hs : s.SSt = s.S * s.Sᵀ) (hX : s.X = s.Gamma * s.S)
    (hW : RowStochastic s.Gamma) (hmS : s.fSMem ≠ []) (hmG : s.fGammaMem ≠ []) :
    ∃ r, gpnhIterate cfg 0 require tol maxIter ud uw s = Py.ok r ∧ r.state.Gamma = s.Gamma ∧
      r.state.S = s.S ∧ r.cost = 0 := by
  let Inv : GPNHState T D k K → Prop := fun x => x.X = s.X ∧ x.S = s.S ∧ x.Gamma = s.Gamma ∧
    x.SSt = x.S * x.Sᵀ ∧ x.fSMem ≠ [] ∧ x.fGammaMem ≠ []
  have hp : ∀ p ∈ (if ud then [GPNHState.updateDictionary (T := T) (D := D) (k := k) cfg 0] else []) ++
       (if uw then [GPNHState.updateWeights cfg 0] else []),
      ∀ x, Inv x → ∃ x', p x = Py.ok x' ∧ Inv x' ∧ x'.evaluateCost 0 ≤ x.evaluateCost 0 := by
    rintro p hp x ⟨a, b, c, d, e, f⟩
    have hx : x.X = x.Gamma * x.S := by rw [a, b, c, hX]
    rcases mem_phases hp with ⟨-, rfl⟩ | ⟨-, rfl⟩
    · obtain ⟨x', h1, h2, h3, h4, h5, h6, h7⟩ :=
        GPNHState.updateDictionary_stationary (cfg := cfg) (gradSOf_exact hx) e
      refine ⟨x', h1, ⟨h2.trans a, h3.trans b, h4.trans c, h5, h6, by rw [h7]; exact f⟩, ?_⟩
      rw [GPNHState.evaluateCost_eq _ _ h5, GPNHState.evaluateCost_eq _ _ d, h2, h3, h4]
    · obtain ⟨x', h1, h2, h3, h4, h5, h6, h7⟩ :=
        GPNHState.updateWeights_stationary (cfg := cfg) (eps := 0) hk (by rw [c]; exact hW)
          (gradWOf_exact hx) f
      refine ⟨x', h1, ⟨h2.trans a, h3.trans b, h4.trans c, h5, by rw [h7]; exact e, h6⟩, ?_⟩
      rw [GPNHState.evaluateCost_eq _ _ h5, GPNHState.evaluateCost_eq _ _ d, h2, h3, h4]
  have h0 : Inv s := ⟨rfl, rfl, rfl, hs, hmS, hmG⟩
  obtain ⟨r, hr, -⟩ := iterate_ok (evalCost := fun s : GPNHState T D k K => (s, s.evaluateCost 0))
    (fun _ => rfl) (require := require) (tol := tol) (Inv := Inv) (fun _ h => h) hp h0 hm
  have hri : Inv r.state := by
    refine iterate_inv (Inv := Inv) (fun _ h => h) ?_ h0 hr
    intro p hpm x x' hx hxx
    obtain ⟨x'', h1, h2, -⟩ := hp p hpm x hx
    rw [hxx] at h1
    obtain rfl := Py.ok.inj h1
    exact h2
  refine ⟨r, gpnhIterate_eq_ok.2 ⟨hDT, hr⟩, hri.2.2.1, hri.2.1, ?_⟩
  have hc := congrArg Prod.snd (iterate_cost (fun _ => rfl) hr)
  simp only at hc
  rw [← hc, GPNHState.evaluateCost_eq _ _ hri.2.2.2.1]
  exact gpnhCost_exact (by rw [hri.1, hri.2.1, hri.2.2.1, hX])

/-- The default initialisation succeeds when the draws are positive. -/
theorem gpnhStart_random_ok {env : Env K} (hpos : ∀ m n g i j, 0 < (env.rng.uniform m n g).1 i j)
    {data : Matrix (Fin T) (Fin D) K} (hDT : D * T ≠ 0) {k : ℕ} (hk : 1 ≤ k)
    {init : Option String} (hinit : init = none ∨ init = some "random")
    {dictionary weights : Option (Arr2 K)} {g : env.rng.G} :
    ∃ start, gpnhStart env data k init dictionary weights true true {} g = Py.ok start := by
  have hi : init.getD "random" = "random" := by rcases hinit with rfl | rfl <;> rfl
  have hc : init ≠ some "custom" := by rcases hinit with rfl | rfl <;> simp
  have hTD : ¬ T * D = 0 := by rwa [mul_comm]
  unfold gpnhStart
  simp only [hc, if_false, Bool.true_eq_false, false_and, and_false]
  unfold gpnhInitBoth gpnhInitDictionary gpnhInitWeights gpnhInitDictionaryRandom
    gpnhInitWeightsRandom
  simp only [hi, Option.getD_some, if_true, hTD, if_false, Py.ok_bind, InitKwargs.nonempty]
  obtain ⟨w, hw⟩ := rightStochastic_succeeds hpos (m := T) hk (env.rng.randn k D g).2
  simp [hw]

/-- The same with the dictionary kept (`transform`). -/
theorem gpnhStart_transform_ok {env : Env K}
    (hpos : ∀ m n g i j, 0 < (env.rng.uniform m n g).1 i j)
    {data : Matrix (Fin T) (Fin D) K} (hD : D ≠ 0) {k : ℕ} (hk : 1 ≤ k)
    {init : Option String} (hinit : init = none ∨ init = some "random")
    {S : Matrix (Fin k) (Fin D) K} {weights : Option (Arr2 K)} {g : env.rng.G} :
    ∃ start, gpnhStart env data k init (some (Arr2.of S)) weights false true {} g =
      Py.ok start := by
  have hi : init.getD "random" = "random" := by rcases hinit with rfl | rfl <;> rfl
  have hc : init ≠ some "custom" := by rcases hinit with rfl | rfl <;> simp
  have e2 : gpnhCheckInitDictionary (some (Arr2.of S)) k D = Py.ok S := by
    unfold gpnhCheckInitDictionary checkArray
    have : ¬ ((Arr2.of S).rows = 0 ∨ (Arr2.of S).cols = 0) := by
      simp only [Arr2.of]; omega
    simp only [this, if_false, Py.ok_bind, checkArrayShape_of]
  unfold gpnhStart
  simp only [hc, if_false, and_self, if_true, e2, Py.ok_bind]
  unfold gpnhInitWeights gpnhInitWeightsRandom
  obtain ⟨w, hw⟩ := rightStochastic_succeeds hpos (m := T) hk g
  simp [hw, hi, InitKwargs.nonempty]

/-- With the default initialisation nothing before the loop raises ValueError. -/
theorem gpnhStart_random_raise {env : Env K}
    {data : Matrix (Fin T) (Fin D) K} {k : ℕ}
    {init : Option String} (hinit : init = none ∨ init = some "random")
    {dictionary weights : Option (Arr2 K)} {g : env.rng.G} {e : PyErr}
    (h : gpnhStart env data k init dictionary weights true true {} g = Py.raise e) :
    e = .nonFinite := by
  have hi : init.getD "random" = "random" := by rcases hinit with rfl | rfl <;> rfl
  have hc : init ≠ some "custom" := by rcases hinit with rfl | rfl <;> simp
  unfold gpnhStart at h
  simp only [hc, if_false, Bool.true_eq_false, false_and, and_false] at h
  unfold gpnhInitBoth at h
  rcases Py.bind_eq_raise.1 h with h | ⟨_, _, h⟩
  · unfold gpnhInitDictionary gpnhInitDictionaryRandom at h
    simp only [hi, Option.getD_some, if_true] at h
    split_ifs at h
    simpa using h.symm
  · rcases Py.bind_eq_raise.1 h with h | ⟨_, _, h⟩
    · unfold gpnhInitWeights at h
      simp only [hi, Option.getD_some, InitKwargs.nonempty] at h
      simp at h
      exact rightStochastic_raise h
    · simp at h

theorem gpnhIterate_raise {cfg : LSConfig K} {eps : K} {require : Bool} {tol : K} {maxIter : ℕ}
    (hm : 0 < maxIter) {ud uw : Bool} {s : GPNHState T D k K} {e : PyErr}
    (h : gpnhIterate cfg eps require tol maxIter ud uw s = Py.raise e) :
    e = .zeroDivisionError ∨ e = .indexError ∨ e = .runtimeError := by
  unfold gpnhIterate at h
  by_cases hDT : D * T = 0
  · rw [if_pos hDT] at h
    exact Or.inl (by simpa using h.symm)
  · rw [if_neg hDT] at h
    rcases iterate_raise (Inv := fun _ => True) (fun _ _ => trivial) (fun _ _ _ _ _ _ => trivial)
      trivial hm h with ⟨p, hp, x, -, hx⟩ | ⟨h, -⟩
    · rcases mem_phases hp with ⟨-, rfl⟩ | ⟨-, rfl⟩
      · exact Or.inr (Or.inl (GPNHState.updateDictionary_raise hx).2)
      · exact Or.inr (Or.inl (GPNHState.updateWeights_raise hx).2)
    · exact Or.inr (Or.inr h)

end Reor
