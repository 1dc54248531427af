import Verif.Proofs.MTDSlope

/-!
Complete fits of the MTD model.
-/

namespace Reor

set_option linter.unusedSectionVars false

open scoped BigOperators Matrix
open Spec

variable {K : Type} [Field K] [LinearOrder K] [IsStrictOrderedRing K]
variable {T D k p : ℕ}

/-! ### The loop -/

/-- The enabled updates, in order. -/
def mtdPhases (c : MTDConfig p K) (fl : MTDFlags) :
    List (MTDState T D k p K → Py (MTDState T D k p K)) :=
  (if fl.updateDictionary then [MTDState.updateDictionary c] else []) ++
  (if fl.updateWeights then [MTDState.updateWeights c] else []) ++
  (if fl.updateParameters then [MTDState.updateParameters c] else [])

theorem mem_mtdPhases {c : MTDConfig p K} {fl : MTDFlags}
    {f : MTDState T D k p K → Py (MTDState T D k p K)} (h : f ∈ mtdPhases c fl) :
    (fl.updateDictionary = true ∧ f = MTDState.updateDictionary c) ∨
    (fl.updateWeights = true ∧ f = MTDState.updateWeights c) ∨
    (fl.updateParameters = true ∧ f = MTDState.updateParameters c) := by
  obtain ⟨a, b, d⟩ := fl
  unfold mtdPhases at h
  cases a <;> cases b <;> cases d <;> simp at h ⊢ <;> tauto

/-- The workspace of a start. -/
def mtdInitialState (c : MTDConfig p K) (X : Matrix (Fin T) (Fin D) K) (pt : MTDPoint T D k p K) :
    MTDState T D k p K := MTDState.initializeWorkspace c X pt.2.1 pt.1 pt.2.2.1 pt.2.2.2

theorem mtdSolve_eq_ok {c : MTDConfig p K} {require : Bool} {tol : K} {maxIter : ℕ}
    {fl : MTDFlags} {X : Matrix (Fin T) (Fin D) K} {pt : MTDPoint T D k p K}
    {r : IterResult (MTDState T D k p K) K} :
    mtdSolve c require tol maxIter fl X pt = Py.ok r ↔
      (p ≠ 0 ∧ D * T ≠ 0 ∧ ¬ (k ≠ 1 ∧ T = c.maxLag)) ∧
      iterate (fun s => (s, s.evaluateCost c)) require tol maxIter (mtdPhases c fl)
        (mtdInitialState c X pt) = Py.ok r := by
  unfold mtdSolve mtdIterate mtdPhases mtdInitialState
  by_cases h0 : p = 0
  · rw [if_pos h0]; simp [h0]
  rw [if_neg h0]
  by_cases h1 : D * T = 0
  · rw [if_pos h1]; simp [h1]
  rw [if_neg h1]
  by_cases h2 : k ≠ 1 ∧ T = c.maxLag
  · rw [if_pos h2]; simp [h2]
  rw [if_neg h2]
  constructor
  · exact fun h => ⟨⟨h0, h1, h2⟩, h⟩
  · exact fun h => h.2

theorem mtdInitialState_good (c : MTDConfig p K) (X : Matrix (Fin T) (Fin D) K)
    (pt : MTDPoint T D k p K) : (mtdInitialState c X pt).Good c := ⟨rfl, rfl⟩

/-- What the three updates do to a good state. -/
theorem mtd_phase_cases {c : MTDConfig p K} {fl : MTDFlags} {s s' : MTDState T D k p K}
    (hg : s.Good c) {f : MTDState T D k p K → Py (MTDState T D k p K)}
    (hf : f ∈ mtdPhases c fl) (h : f s = Py.ok s') :
    (fl.updateDictionary = true ∧ ∃ lam, MTDState.DictPost c s s' lam) ∨
    (fl.updateWeights = true ∧ ∃ lam, MTDState.WeightsPost c s s' lam) ∨
    (fl.updateParameters = true ∧ ∃ lam, MTDState.ParamsPost c s s' lam) := by
  rcases mem_mtdPhases hf with ⟨a, rfl⟩ | ⟨a, rfl⟩ | ⟨a, rfl⟩
  · exact Or.inl ⟨a, MTDState.updateDictionary_post hg h⟩
  · exact Or.inr (Or.inl ⟨a, MTDState.updateWeights_post hg h⟩)
  · exact Or.inr (Or.inr ⟨a, MTDState.updateParameters_post hg h⟩)

/-- A property preserved by the updates holds after a fit. -/
theorem mtdIterate_inv' {c : MTDConfig p K} {require : Bool} {tol : K} {maxIter : ℕ}
    {fl : MTDFlags} {P : MTDState T D k p K → Prop}
    (hP : ∀ s s', s.Good c → P s →
      ((fl.updateDictionary = true ∧ ∃ lam, MTDState.DictPost c s s' lam) ∨
       (fl.updateWeights = true ∧ ∃ lam, MTDState.WeightsPost c s s' lam) ∨
       (fl.updateParameters = true ∧ ∃ lam, MTDState.ParamsPost c s s' lam)) → P s')
    {s : MTDState T D k p K} (hs : s.Good c) (h0 : P s)
    {r : IterResult (MTDState T D k p K) K}
    (h : iterate (fun s => (s, s.evaluateCost c)) require tol maxIter (mtdPhases c fl) s =
      Py.ok r) : r.state.Good c ∧ P r.state :=
  iterate_inv (Inv := fun s => s.Good c ∧ P s) (fun _ h => h) (by
    intro f hf s s' hs h
    have h3 := mtd_phase_cases hs.1 hf h
    refine ⟨?_, hP s s' hs.1 hs.2 h3⟩
    rcases h3 with ⟨-, _, hl⟩ | ⟨-, _, hl⟩ | ⟨-, _, hl⟩ <;> exact hl.good) ⟨hs, h0⟩ h

/-- What a fit keeps whatever the settings. -/
structure MTDKeeps (fl : MTDFlags) (X : Matrix (Fin T) (Fin D) K) (pt : MTDPoint T D k p K)
    (s : MTDState T D k p K) : Prop where
  X : s.X = X
  S : fl.updateDictionary = false → s.S = pt.1
  Gamma : fl.updateWeights = false → s.Gamma = pt.2.1
  orderWeights : fl.updateParameters = false → s.orderWeights = pt.2.2.1
  transitionMatrices : fl.updateParameters = false → s.transitionMatrices = pt.2.2.2

theorem mtdSolve_keeps {c : MTDConfig p K} {require : Bool} {tol : K} {maxIter : ℕ}
    {fl : MTDFlags} {X : Matrix (Fin T) (Fin D) K} {pt : MTDPoint T D k p K}
    {r : IterResult (MTDState T D k p K) K}
    (h : mtdSolve c require tol maxIter fl X pt = Py.ok r) :
    r.state.Good c ∧ MTDKeeps fl X pt r.state := by
  refine mtdIterate_inv' (fl := fl) ?_ (mtdInitialState_good c X pt)
    ⟨rfl, fun _ => rfl, fun _ => rfl, fun _ => rfl, fun _ => rfl⟩ (mtdSolve_eq_ok.1 h).2
  intro s s' hg hs h
  rcases h with ⟨hf, _, hl⟩ | ⟨hf, _, hl⟩ | ⟨hf, _, hl⟩
  · exact ⟨hl.X.trans hs.X, fun h => absurd hf (by simp [h]),
      fun h => hl.Gamma.trans (hs.Gamma h), fun h => hl.orderWeights.trans (hs.orderWeights h),
      fun h => hl.transitionMatrices.trans (hs.transitionMatrices h)⟩
  · exact ⟨hl.X.trans hs.X, fun h => hl.S.trans (hs.S h), fun h => absurd hf (by simp [h]),
      fun h => hl.orderWeights.trans (hs.orderWeights h),
      fun h => hl.transitionMatrices.trans (hs.transitionMatrices h)⟩
  · exact ⟨hl.X.trans hs.X, fun h => hl.S.trans (hs.S h), fun h => hl.Gamma.trans (hs.Gamma h),
      fun h => absurd hf (by simp [h]), fun h => absurd hf (by simp [h])⟩

theorem isProb_step {n : ℕ} {a b : Fin n → K} (ha : IsProb a) (hb : IsProb b) {lam : K}
    (h0 : 0 ≤ lam) (h1 : lam ≤ 1) : IsProb (a + lam • (b - a)) := by
  constructor
  · intro i
    have := ha.1 i
    have := hb.1 i
    have e : (a + lam • (b - a)) i = (1 - lam) * a i + lam * b i := by
      simp only [Pi.add_apply, Pi.smul_apply, Pi.sub_apply, smul_eq_mul]; ring
    rw [e]
    exact add_nonneg (mul_nonneg (by linarith) ‹_›) (mul_nonneg h0 ‹_›)
  · have e : ∀ i, (a + lam • (b - a)) i = (1 - lam) * a i + lam * b i := fun i => by
      simp only [Pi.add_apply, Pi.smul_apply, Pi.sub_apply, smul_eq_mul]; ring
    simp only [e]
    rw [Finset.sum_add_distrib, ← Finset.mul_sum, ← Finset.mul_sum, ha.2, hb.2]
    ring

theorem projectMatrices_colStochastic (hk : 1 ≤ k) (A : Fin p → Matrix (Fin k) (Fin k) K)
    (i : Fin p) : ColStochastic (projectMatrices A i) := by
  intro j
  have : (fun l => projectMatrices A i l j) = simplexProjectVector (fun l => A i l j) :=
    projectColumns_apply (A i) j
  rw [this]
  exact project_isProb hk _

theorem MTDState.WeightsPost.stochastic {c : MTDConfig p K} (h1 : c.ls.Safe) (hk : 1 ≤ k)
    {s s' : MTDState T D k p K} {lam : K} (h : WeightsPost c s s' lam)
    (ha : 0 ≤ c.ls.alphaMax → 0 ≤ s.alphaGamma)
    (hs : RowStochastic s.Gamma) : RowStochastic s'.Gamma := by
  obtain ⟨hl0, hl1⟩ := h.range.unit h1 (fun h => slopeW_nonpos hk hs (ha h))
  rw [h.Gamma]
  exact rowStochastic_step hs (projectRows_rowStochastic hk _) hl0 hl1

theorem MTDState.ParamsPost.stochastic {c : MTDConfig p K} (h1 : c.ls.Safe) (hk : 1 ≤ k)
    (hp : 1 ≤ p) {s s' : MTDState T D k p K} {lam : K} (h : ParamsPost c s s' lam)
    (ha : 0 ≤ c.ls.alphaMax → 0 ≤ s.alphaParameters) (hs : IsProb s.orderWeights ∧
      ∀ i, ColStochastic (s.transitionMatrices i)) :
    IsProb s'.orderWeights ∧ ∀ i, ColStochastic (s'.transitionMatrices i) := by
  obtain ⟨hl0, hl1⟩ := h.range.unit h1 (fun h => slopeP_nonpos hk hp hs.1 hs.2 (ha h))
  refine ⟨?_, fun i j => ?_⟩
  · rw [h.orderWeights]
    exact isProb_step hs.1 (project_isProb hp _) hl0 hl1
  · rw [h.transitionMatrices]
    exact isProb_step (hs.2 i j) (projectMatrices_colStochastic hk _ i j) hl0 hl1

theorem mtdSolve_weights_stochastic {c : MTDConfig p K} (h1 : c.ls.Safe) (hk : 1 ≤ k)
    {require : Bool} {tol : K} {maxIter : ℕ}
    {fl : MTDFlags} {X : Matrix (Fin T) (Fin D) K} {pt : MTDPoint T D k p K}
    {r : IterResult (MTDState T D k p K) K} (hpt : RowStochastic pt.2.1)
    (h : mtdSolve c require tol maxIter fl X pt = Py.ok r) : RowStochastic r.state.Gamma := by
  refine (mtdIterate_inv' (fl := fl) (P := fun s => RowStochastic s.Gamma ∧
    (0 ≤ c.ls.alphaMax → 0 ≤ s.alphaGamma)) ?_
    (mtdInitialState_good c X pt) ⟨hpt, fun _ => zero_le_one⟩ (mtdSolve_eq_ok.1 h).2).2.1
  intro s s' hg ⟨hs, ha⟩ h
  rcases h with ⟨hf, _, hl⟩ | ⟨hf, _, hl⟩ | ⟨hf, _, hl⟩
  · rw [hl.Gamma, hl.alphaGamma]; exact ⟨hs, ha⟩
  · refine ⟨?_, fun h0 => ?_⟩
    · obtain ⟨hl0, hl1⟩ := hl.range.unit h1 (fun h => MTDState.slopeW_nonpos hk hs (ha h))
      rw [hl.Gamma]
      exact rowStochastic_step hs (projectRows_rowStochastic hk _) hl0 hl1
    · obtain ⟨b, q, hq, hb⟩ := hl.alpha
      rw [hb]; exact nextSpgAlpha_nonneg hq h0
  · rw [hl.Gamma, hl.alphaGamma]; exact ⟨hs, ha⟩

theorem mtdSolve_params_stochastic {c : MTDConfig p K} (h1 : c.ls.Safe) (hk : 1 ≤ k)
    {require : Bool} {tol : K} {maxIter : ℕ}
    {fl : MTDFlags} {X : Matrix (Fin T) (Fin D) K} {pt : MTDPoint T D k p K}
    {r : IterResult (MTDState T D k p K) K}
    (hpt : IsProb pt.2.2.1 ∧ ∀ i, ColStochastic (pt.2.2.2 i))
    (h : mtdSolve c require tol maxIter fl X pt = Py.ok r) :
    IsProb r.state.orderWeights ∧ ∀ i, ColStochastic (r.state.transitionMatrices i) := by
  have hp : 1 ≤ p := Nat.one_le_iff_ne_zero.2 (mtdSolve_eq_ok.1 h).1.1
  refine (mtdIterate_inv' (fl := fl) (P := fun s => (IsProb s.orderWeights ∧
    ∀ i, ColStochastic (s.transitionMatrices i)) ∧
    (0 ≤ c.ls.alphaMax → 0 ≤ s.alphaParameters)) ?_
    (mtdInitialState_good c X pt) ⟨hpt, fun _ => zero_le_one⟩ (mtdSolve_eq_ok.1 h).2).2.1
  intro s s' hg ⟨hs, ha⟩ h
  rcases h with ⟨hf, _, hl⟩ | ⟨hf, _, hl⟩ | ⟨hf, _, hl⟩
  · rw [hl.orderWeights, hl.transitionMatrices, hl.alphaParameters]; exact ⟨hs, ha⟩
  · rw [hl.orderWeights, hl.transitionMatrices, hl.alphaParameters]; exact ⟨hs, ha⟩
  · refine ⟨?_, fun h0 => ?_⟩
    · obtain ⟨hl0, hl1⟩ := hl.range.unit h1
        (fun h => MTDState.slopeP_nonpos hk hp hs.1 hs.2 (ha h))
      refine ⟨?_, fun i j => ?_⟩
      · rw [hl.orderWeights]
        exact isProb_step hs.1 (project_isProb hp _) hl0 hl1
      · rw [hl.transitionMatrices]
        exact isProb_step (hs.2 i j) (projectMatrices_colStochastic hk _ i j) hl0 hl1
    · obtain ⟨b, q, hq, hb⟩ := hl.alpha
      rw [hb]; exact nextSpgAlpha_nonneg hq h0

/-- The objective at a point. -/
def mtdObjectiveAt (c : MTDConfig p K) (X : Matrix (Fin T) (Fin D) K) (pt : MTDPoint T D k p K) :
    K := mtdCost c.epsilonStates c.epsilonWeights c.lags X pt.2.1 pt.1 pt.2.2.1 pt.2.2.2

theorem mtdSolve_cost {c : MTDConfig p K} {require : Bool} {tol : K} {maxIter : ℕ}
    {fl : MTDFlags} {X : Matrix (Fin T) (Fin D) K} {pt : MTDPoint T D k p K}
    {r : IterResult (MTDState T D k p K) K}
    (h : mtdSolve c require tol maxIter fl X pt = Py.ok r) :
    r.cost = mtdCost c.epsilonStates c.epsilonWeights c.lags X r.state.Gamma r.state.S
      r.state.orderWeights r.state.transitionMatrices := by
  obtain ⟨hg, hk⟩ := mtdSolve_keeps h
  have hc := iterate_cost (fun _ => rfl) (mtdSolve_eq_ok.1 h).2
  have := congrArg Prod.snd hc
  simp only at this
  rw [← this, MTDState.evaluateCost_eq hg, MTDState.objective, hk.X]

theorem mtdSolve_monotone {c : MTDConfig p K} {tol : K} {maxIter : ℕ}
    {fl : MTDFlags} {X : Matrix (Fin T) (Fin D) K} {pt : MTDPoint T D k p K}
    {r : IterResult (MTDState T D k p K) K}
    (h : mtdSolve c true tol maxIter fl X pt = Py.ok r) :
    (mtdObjectiveAt c X pt :: r.trace).IsChain (· ≥ ·) ∧ r.cost ≤ mtdObjectiveAt c X pt := by
  have := iterate_monotone (mtdSolve_eq_ok.1 h).2
  simp only [MTDState.evaluateCost_eq (mtdInitialState_good c X pt)] at this
  exact this

/-! ### Initialisation -/

theorem mtdDrawOrderWeights_ok {R : Rng K} (hR : R.Lawful) (hp : 1 ≤ p) {g : R.G}
    {r : (Fin p → K) × R.G} (h : mtdDrawOrderWeights R p g = Py.ok r) : IsProb r.1 := by
  unfold mtdDrawOrderWeights at h
  simp only at h
  split_ifs at h with h0
  simp only [Py.ok.injEq] at h
  subst h
  have hne : ∑ i, (R.uniform 1 p g).1 0 i ≠ 0 := fun hz => h0 ⟨by omega, hz⟩
  have hnn : ∀ i, 0 ≤ (R.uniform 1 p g).1 0 i := fun i => hR.uniform_nonneg _ _ _ _ _
  refine ⟨fun i => div_nonneg (hnn i) (Finset.sum_nonneg fun i _ => hnn i), ?_⟩
  simp only [← Finset.sum_div]
  exact div_self hne

theorem mtdDrawTransitionMatrices_ok {R : Rng K} (hR : R.Lawful) (hk : 1 ≤ k) :
    ∀ {p : ℕ} {g : R.G} {r : (Fin p → Matrix (Fin k) (Fin k) K) × R.G},
      mtdDrawTransitionMatrices R k p g = Py.ok r → ∀ i, ColStochastic (r.1 i)
  | 0, _, _, _ => fun i => i.elim0
  | p + 1, g, r, h => by
    unfold mtdDrawTransitionMatrices at h
    obtain ⟨A, hA, h⟩ := Py.bind_eq_ok.1 h
    obtain ⟨rest, hr, h⟩ := Py.bind_eq_ok.1 h
    simp only [Py.pure_eq, Py.ok.injEq] at h
    subst h
    intro i
    refine Fin.cases ?_ (fun i => ?_) i
    · exact leftStochastic_ok hR hk hA
    · exact mtdDrawTransitionMatrices_ok hR hk hr i

theorem mtdInitParameters_ok {env : Env K} (hR : env.rng.Lawful) (hk : 1 ≤ k) (hp : 1 ≤ p)
    {init : Option String} {kw : InitKwargs} {g : env.rng.G}
    {r : ((Fin p → K) × (Fin p → Matrix (Fin k) (Fin k) K)) × env.rng.G}
    (h : mtdInitParameters env k p init kw g = Py.ok r) :
    IsProb r.1.1 ∧ ∀ i, ColStochastic (r.1.2 i) := by
  unfold mtdInitParameters at h
  simp only at h
  split_ifs at h
  unfold mtdInitParametersRandom at h
  obtain ⟨w, hw, h⟩ := Py.bind_eq_ok.1 h
  obtain ⟨A, hA, h⟩ := Py.bind_eq_ok.1 h
  simp only [Py.pure_eq, Py.ok.injEq] at h
  subst h
  exact ⟨mtdDrawOrderWeights_ok hR hp hw, mtdDrawTransitionMatrices_ok hR hk hA⟩

theorem mtdCheckInitOrderWeights_ok {w : Option (Arr1 K)} {v : Fin p → K}
    (h : mtdCheckInitOrderWeights w p = Py.ok v) :
    w = some (Arr1.of v) ∧ iscloseOne (∑ i, v i) := by
  unfold mtdCheckInitOrderWeights at h
  split at h
  · simp at h
  · rename_i w
    obtain ⟨n, x⟩ := w
    split_ifs at h with h1 h2
    obtain rfl : n = p := h1
    simp only [Py.ok.injEq] at h
    subst h
    exact ⟨rfl, h2⟩

theorem mtdCheckInitTransitionMatrices_ok {A : Option (Arr3 K)}
    {B : Fin p → Matrix (Fin k) (Fin k) K}
    (h : mtdCheckInitTransitionMatrices A p k = Py.ok B) :
    A = some (Arr3.of B) ∧ ∀ i j, iscloseOne (∑ l, B i l j) := by
  unfold mtdCheckInitTransitionMatrices at h
  split at h
  · simp at h
  · rename_i A
    obtain ⟨n, a, b, x⟩ := A
    split_ifs at h with h1 h2
    obtain ⟨e1, e2, e3⟩ := h1
    simp only at e1 e2 e3
    subst e1 e2 e3
    have h' := Py.ok.inj h
    subst h'
    exact ⟨rfl, h2⟩

/-- With `init='custom'` the start is what the caller supplied. -/
theorem mtdStart_custom {env : Env K} {data : Matrix (Fin T) (Fin D) K} {args : MTDArgs K}
    {fl : MTDFlags} {kw : InitKwargs} {g : env.rng.G} {start : MTDPoint T D k p K × env.rng.G}
    (h : mtdStart env data k p (some "custom") args fl kw g = Py.ok start) :
    args.dictionary = some (Arr2.of start.1.1) ∧ args.weights = some (Arr2.of start.1.2.1) ∧
    args.orderWeights = some (Arr1.of start.1.2.2.1) ∧
    args.transitionMatrices = some (Arr3.of start.1.2.2.2) ∧ start.2 = g := by
  unfold mtdStart at h
  rw [if_pos rfl] at h
  obtain ⟨w, hw, h⟩ := Py.bind_eq_ok.1 h
  obtain ⟨d, hd, h⟩ := Py.bind_eq_ok.1 h
  obtain ⟨ow, how, h⟩ := Py.bind_eq_ok.1 h
  obtain ⟨A, hA, h⟩ := Py.bind_eq_ok.1 h
  simp only [Py.pure_eq, Py.ok.injEq] at h
  subst h
  exact ⟨(gpnhCheckInitDictionary_ok hd).1, (gpnhCheckInitWeights_ok hw).1,
    (mtdCheckInitOrderWeights_ok how).1, (mtdCheckInitTransitionMatrices_ok hA).1, rfl⟩

/-- The three parts of a start that is not custom. -/
theorem mtdStart_parts {env : Env K} {data : Matrix (Fin T) (Fin D) K} {init : Option String}
    (hinit : init ≠ some "custom") {args : MTDArgs K}
    {fl : MTDFlags} {kw : InitKwargs} {g : env.rng.G} {start : MTDPoint T D k p K × env.rng.G}
    (h : mtdStart env data k p init args fl kw g = Py.ok start) :
    ∃ g1 g2, mtdStartDictionary env data k init args fl kw g = Py.ok (start.1.1, g1) ∧
      mtdStartWeights env T k init args fl kw g1 = Py.ok (start.1.2.1, g2) ∧
      mtdStartParameters env k p init args fl kw g2 = Py.ok (start.1.2.2, start.2) := by
  unfold mtdStart at h
  rw [if_neg hinit] at h
  obtain ⟨d, hd, h⟩ := Py.bind_eq_ok.1 h
  obtain ⟨w, hw, h⟩ := Py.bind_eq_ok.1 h
  obtain ⟨a, ha, h⟩ := Py.bind_eq_ok.1 h
  simp only [Py.pure_eq, Py.ok.injEq] at h
  subst h
  exact ⟨d.2, w.2, hd, hw, ha⟩

/-- A dictionary that is not updated is the one supplied. -/
theorem mtdStart_dictionary {env : Env K} {data : Matrix (Fin T) (Fin D) K} {init : Option String}
    {args : MTDArgs K} {fl : MTDFlags} {kw : InitKwargs} {g : env.rng.G}
    {start : MTDPoint T D k p K × env.rng.G}
    (h : mtdStart env data k p init args fl kw g = Py.ok start)
    (hf : init = some "custom" ∨ fl.updateDictionary = false) :
    args.dictionary = some (Arr2.of start.1.1) := by
  by_cases hinit : init = some "custom"
  · subst hinit; exact (mtdStart_custom h).1
  obtain ⟨g1, g2, hd, -, -⟩ := mtdStart_parts hinit h
  unfold mtdStartDictionary at hd
  rw [if_neg (by simp [hf.resolve_left hinit])] at hd
  obtain ⟨d, hd', hd⟩ := Py.bind_eq_ok.1 hd
  simp only [Py.pure_eq, Py.ok.injEq, Prod.mk.injEq] at hd
  rw [← hd.1]
  exact (gpnhCheckInitDictionary_ok hd').1

/-- Weights that are not updated are the ones supplied. -/
theorem mtdStart_weights {env : Env K} {data : Matrix (Fin T) (Fin D) K} {init : Option String}
    {args : MTDArgs K} {fl : MTDFlags} {kw : InitKwargs} {g : env.rng.G}
    {start : MTDPoint T D k p K × env.rng.G}
    (h : mtdStart env data k p init args fl kw g = Py.ok start)
    (hf : init = some "custom" ∨ fl.updateWeights = false) :
    args.weights = some (Arr2.of start.1.2.1) := by
  by_cases hinit : init = some "custom"
  · subst hinit; exact (mtdStart_custom h).2.1
  obtain ⟨g1, g2, -, hd, -⟩ := mtdStart_parts hinit h
  unfold mtdStartWeights at hd
  rw [if_neg (by simp [hf.resolve_left hinit])] at hd
  obtain ⟨d, hd', hd⟩ := Py.bind_eq_ok.1 hd
  simp only [Py.pure_eq, Py.ok.injEq, Prod.mk.injEq] at hd
  rw [← hd.1]
  exact (gpnhCheckInitWeights_ok hd').1

/-- Parameters that are not updated are the ones supplied. -/
theorem mtdStart_parameters {env : Env K} {data : Matrix (Fin T) (Fin D) K} {init : Option String}
    {args : MTDArgs K} {fl : MTDFlags} {kw : InitKwargs} {g : env.rng.G}
    {start : MTDPoint T D k p K × env.rng.G}
    (h : mtdStart env data k p init args fl kw g = Py.ok start)
    (hf : init = some "custom" ∨ fl.updateParameters = false) :
    args.orderWeights = some (Arr1.of start.1.2.2.1) ∧
    args.transitionMatrices = some (Arr3.of start.1.2.2.2) := by
  by_cases hinit : init = some "custom"
  · subst hinit
    obtain ⟨-, -, a, b, -⟩ := mtdStart_custom h
    exact ⟨a, b⟩
  obtain ⟨g1, g2, -, -, hd⟩ := mtdStart_parts hinit h
  unfold mtdStartParameters at hd
  rw [if_neg (by simp [hf.resolve_left hinit])] at hd
  obtain ⟨w, hw, hd⟩ := Py.bind_eq_ok.1 hd
  obtain ⟨A, hA, hd⟩ := Py.bind_eq_ok.1 hd
  simp only [Py.pure_eq, Py.ok.injEq, Prod.mk.injEq] at hd
  rw [← hd.1]
  exact ⟨(mtdCheckInitOrderWeights_ok hw).1, (mtdCheckInitTransitionMatrices_ok hA).1⟩

/-- Drawn weights are stochastic. -/
theorem mtdStart_weights_drawn {env : Env K} (hR : env.rng.Lawful) (hk : 1 ≤ k)
    {data : Matrix (Fin T) (Fin D) K} {init : Option String} (hinit : init ≠ some "custom")
    {args : MTDArgs K} {fl : MTDFlags} (hf : fl.updateWeights = true) {kw : InitKwargs}
    {g : env.rng.G} {start : MTDPoint T D k p K × env.rng.G}
    (h : mtdStart env data k p init args fl kw g = Py.ok start) : RowStochastic start.1.2.1 := by
  obtain ⟨g1, g2, -, hd, -⟩ := mtdStart_parts hinit h
  unfold mtdStartWeights at hd
  rw [if_pos hf] at hd
  exact gpnhInitWeights_ok hR hk hd

/-- Drawn parameters are stochastic. -/
theorem mtdStart_parameters_drawn {env : Env K} (hR : env.rng.Lawful) (hk : 1 ≤ k) (hp : 1 ≤ p)
    {data : Matrix (Fin T) (Fin D) K} {init : Option String} (hinit : init ≠ some "custom")
    {args : MTDArgs K} {fl : MTDFlags} (hf : fl.updateParameters = true) {kw : InitKwargs}
    {g : env.rng.G} {start : MTDPoint T D k p K × env.rng.G}
    (h : mtdStart env data k p init args fl kw g = Py.ok start) :
    IsProb start.1.2.2.1 ∧ ∀ i, ColStochastic (start.1.2.2.2 i) := by
  obtain ⟨g1, g2, -, -, hd⟩ := mtdStart_parts hinit h
  unfold mtdStartParameters at hd
  rw [if_pos hf] at hd
  exact mtdInitParameters_ok hR hk hp hd

/-! ### Exceptions of the initialisation -/

theorem mtdDrawTransitionMatrices_raise {R : Rng K} {k : ℕ} {e : PyErr} :
    ∀ {p : ℕ} {g : R.G}, mtdDrawTransitionMatrices R k p g = Py.raise e → e = .nonFinite
  | 0, _, h => by simp [mtdDrawTransitionMatrices] at h
  | p + 1, g, h => by
    unfold mtdDrawTransitionMatrices at h
    rcases Py.bind_eq_raise.1 h with h | ⟨_, _, h⟩
    · exact leftStochastic_raise h
    rcases Py.bind_eq_raise.1 h with h | ⟨_, _, h⟩
    · exact mtdDrawTransitionMatrices_raise h
    · simp at h

theorem mtdDrawTransitionMatrices_ne_diverge {R : Rng K} {k : ℕ} :
    ∀ {p : ℕ} {g : R.G}, mtdDrawTransitionMatrices R k p g ≠ Py.diverge
  | 0, _, h => by simp [mtdDrawTransitionMatrices] at h
  | p + 1, g, h => by
    unfold mtdDrawTransitionMatrices at h
    rcases Py.bind_eq_diverge.1 h with h | ⟨_, _, h⟩
    · revert h
      unfold leftStochasticMatrix
      simp only
      split_ifs <;> simp
    rcases Py.bind_eq_diverge.1 h with h | ⟨_, _, h⟩
    · exact mtdDrawTransitionMatrices_ne_diverge h
    · simp at h

/-- The exceptions of an MTD initialisation. -/
def MTDInitErr (e : PyErr) : Prop := InitErr e ∨ e = .attributeError

theorem mtdInitParameters_raise {env : Env K} {init : Option String} {kw : InitKwargs}
    {g : env.rng.G} {e : PyErr} (h : mtdInitParameters env k p init kw g = Py.raise e) :
    InitErr e := by
  unfold mtdInitParameters at h
  simp only at h
  split_ifs at h
  · simp at h; subst h; exact initErr_type
  · unfold mtdInitParametersRandom at h
    rcases Py.bind_eq_raise.1 h with h | ⟨_, _, h⟩
    · unfold mtdDrawOrderWeights at h
      simp only at h
      split_ifs at h
      simp at h; subst h; exact Or.inr rfl
    rcases Py.bind_eq_raise.1 h with h | ⟨_, _, h⟩
    · exact Or.inr (mtdDrawTransitionMatrices_raise h)
    · simp at h
  · simp at h; subst h; exact initErr_value

theorem mtdInitParameters_ne_diverge {env : Env K} {init : Option String} {kw : InitKwargs}
    {g : env.rng.G} : mtdInitParameters env k p init kw g ≠ Py.diverge := by
  intro h
  unfold mtdInitParameters at h
  simp only at h
  split_ifs at h
  unfold mtdInitParametersRandom at h
  rcases Py.bind_eq_diverge.1 h with h | ⟨_, _, h⟩
  · unfold mtdDrawOrderWeights at h
    simp only at h
    split_ifs at h
  rcases Py.bind_eq_diverge.1 h with h | ⟨_, _, h⟩
  · exact mtdDrawTransitionMatrices_ne_diverge h
  · simp at h

theorem mtdCheckInitOrderWeights_raise {w : Option (Arr1 K)} {e : PyErr}
    (h : mtdCheckInitOrderWeights w p = Py.raise e) : e = .valueError ∨ e = .attributeError := by
  unfold mtdCheckInitOrderWeights at h
  split at h
  · simp at h; exact Or.inr h.symm
  · split_ifs at h <;> simp at h <;> exact Or.inl h.symm

theorem mtdCheckInitOrderWeights_ne_diverge {w : Option (Arr1 K)} :
    mtdCheckInitOrderWeights w p ≠ Py.diverge := by
  unfold mtdCheckInitOrderWeights
  split
  · simp
  · split_ifs <;> simp

theorem mtdCheckInitTransitionMatrices_raise {A : Option (Arr3 K)} {e : PyErr}
    (h : mtdCheckInitTransitionMatrices A p k = Py.raise e) :
    e = .valueError ∨ e = .attributeError := by
  unfold mtdCheckInitTransitionMatrices at h
  split at h
  · simp at h; exact Or.inr h.symm
  · split_ifs at h <;> simp at h <;> exact Or.inl h.symm

theorem mtdCheckInitTransitionMatrices_ne_diverge {A : Option (Arr3 K)} :
    mtdCheckInitTransitionMatrices A p k ≠ Py.diverge := by
  unfold mtdCheckInitTransitionMatrices
  split
  · simp
  · split_ifs <;> simp

theorem mtdInitErr_of {e : PyErr} (h : e = .valueError ∨ e = .attributeError) : MTDInitErr e := by
  rcases h with rfl | rfl
  · exact Or.inl initErr_value
  · exact Or.inr rfl

theorem mtdStart_raise {env : Env K} {data : Matrix (Fin T) (Fin D) K} {init : Option String}
    {args : MTDArgs K} {fl : MTDFlags} {kw : InitKwargs} {g : env.rng.G} {e : PyErr}
    (h : mtdStart env data k p init args fl kw g = Py.raise e) : MTDInitErr e := by
  unfold mtdStart at h
  split_ifs at h
  · rcases Py.bind_eq_raise.1 h with h | ⟨_, _, h⟩
    · exact mtdInitErr_of (Or.inl (gpnhCheckInitWeights_raise h))
    rcases Py.bind_eq_raise.1 h with h | ⟨_, _, h⟩
    · exact mtdInitErr_of (Or.inl (gpnhCheckInitDictionary_raise h))
    rcases Py.bind_eq_raise.1 h with h | ⟨_, _, h⟩
    · exact mtdInitErr_of (mtdCheckInitOrderWeights_raise h)
    rcases Py.bind_eq_raise.1 h with h | ⟨_, _, h⟩
    · exact mtdInitErr_of (mtdCheckInitTransitionMatrices_raise h)
    · simp at h
  · rcases Py.bind_eq_raise.1 h with h | ⟨_, _, h⟩
    · unfold mtdStartDictionary at h
      split_ifs at h
      · exact Or.inl (gpnhInitDictionary_raise h)
      · rcases Py.bind_eq_raise.1 h with h | ⟨_, _, h⟩
        · exact mtdInitErr_of (Or.inl (gpnhCheckInitDictionary_raise h))
        · simp at h
    rcases Py.bind_eq_raise.1 h with h | ⟨_, _, h⟩
    · unfold mtdStartWeights at h
      split_ifs at h
      · exact Or.inl (gpnhInitWeights_raise h)
      · rcases Py.bind_eq_raise.1 h with h | ⟨_, _, h⟩
        · exact mtdInitErr_of (Or.inl (gpnhCheckInitWeights_raise h))
        · simp at h
    rcases Py.bind_eq_raise.1 h with h | ⟨_, _, h⟩
    · unfold mtdStartParameters at h
      split_ifs at h
      · exact Or.inl (mtdInitParameters_raise h)
      · rcases Py.bind_eq_raise.1 h with h | ⟨_, _, h⟩
        · exact mtdInitErr_of (mtdCheckInitOrderWeights_raise h)
        rcases Py.bind_eq_raise.1 h with h | ⟨_, _, h⟩
        · exact mtdInitErr_of (mtdCheckInitTransitionMatrices_raise h)
        · simp at h
    · simp at h

theorem mtdStart_ne_diverge {env : Env K} {data : Matrix (Fin T) (Fin D) K} {init : Option String}
    {args : MTDArgs K} {fl : MTDFlags} {kw : InitKwargs} {g : env.rng.G} :
    mtdStart env data k p init args fl kw g ≠ Py.diverge := by
  intro h
  unfold mtdStart at h
  split_ifs at h
  · rcases Py.bind_eq_diverge.1 h with h | ⟨_, _, h⟩
    · exact gpnhCheckInitWeights_ne_diverge h
    rcases Py.bind_eq_diverge.1 h with h | ⟨_, _, h⟩
    · exact gpnhCheckInitDictionary_ne_diverge h
    rcases Py.bind_eq_diverge.1 h with h | ⟨_, _, h⟩
    · exact mtdCheckInitOrderWeights_ne_diverge h
    rcases Py.bind_eq_diverge.1 h with h | ⟨_, _, h⟩
    · exact mtdCheckInitTransitionMatrices_ne_diverge h
    · simp at h
  · rcases Py.bind_eq_diverge.1 h with h | ⟨_, _, h⟩
    · unfold mtdStartDictionary at h
      split_ifs at h
      · exact gpnhInitDictionary_ne_diverge h
      · rcases Py.bind_eq_diverge.1 h with h | ⟨_, _, h⟩
        · exact gpnhCheckInitDictionary_ne_diverge h
        · simp at h
    rcases Py.bind_eq_diverge.1 h with h | ⟨_, _, h⟩
    · unfold mtdStartWeights at h
      split_ifs at h
      · exact gpnhInitWeights_ne_diverge h
      · rcases Py.bind_eq_diverge.1 h with h | ⟨_, _, h⟩
        · exact gpnhCheckInitWeights_ne_diverge h
        · simp at h
    rcases Py.bind_eq_diverge.1 h with h | ⟨_, _, h⟩
    · unfold mtdStartParameters at h
      split_ifs at h
      · exact mtdInitParameters_ne_diverge h
      · rcases Py.bind_eq_diverge.1 h with h | ⟨_, _, h⟩
        · exact mtdCheckInitOrderWeights_ne_diverge h
        rcases Py.bind_eq_diverge.1 h with h | ⟨_, _, h⟩
        · exact mtdCheckInitTransitionMatrices_ne_diverge h
        · simp at h
    · simp at h

/-! ### The object -/

/-- The attributes set by a fit. -/
def mtdVarsOf (s : MTDState T D k p K) : MTDVars p K :=
  { T := T, D := D, k := k, Gamma := s.Gamma, S := s.S, orderWeights := s.orderWeights
    transitionMatrices := s.transitionMatrices }

theorem mtdConvexCoding_eq_ok {env : Env K} {obj : MTDObj env.rng p} {data : Arr2 K}
    {args : MTDArgs K} {fl : MTDFlags} {kw : InitKwargs} {res : MTDObj env.rng p × FitInfo K}
    (h : mtdConvexCoding env obj data args fl kw = Py.ok res) :
    ∃ (q : ℕ × ℕ × K) (start : MTDPoint data.rows data.cols q.1 p K × env.rng.G)
      (r : IterResult (MTDState data.rows data.cols q.1 p K) K),
      checkParams (defaultComponents obj.nComponents data.cols) obj.maxIterations obj.tolerance =
        Py.ok q ∧
      mtdStart env data.val q.1 p obj.init args fl kw obj.randomState = Py.ok start ∧
      mtdSolve obj.config obj.require q.2.2 q.2.1 fl data.val start.1 = Py.ok r ∧
      res = ({ obj with
          nComponents := defaultComponents obj.nComponents data.cols
          randomState := start.2
          vars := some (mtdVarsOf r.state) },
        { cost := r.cost, nIter := r.nIter, warned := decide (r.nIter = q.2.1 ∧ q.2.2 > 0),
          trace := r.trace }) := by
  unfold mtdConvexCoding at h
  simp only at h
  obtain ⟨q, hq, h⟩ := Py.bind_eq_ok.1 h
  obtain ⟨start, hstart, h⟩ := Py.bind_eq_ok.1 h
  obtain ⟨r, hr, h⟩ := Py.bind_eq_ok.1 h
  simp only [Py.pure_eq, Py.ok.injEq] at h
  exact ⟨q, start, r, hq, hstart, hr, h.symm⟩

/-- A fit from a start that succeeds. -/
theorem mtdConvexCoding_of_steps {env : Env K} {obj : MTDObj env.rng p} {data : Arr2 K}
    {args : MTDArgs K} {fl : MTDFlags} {kw : InitKwargs} {q : ℕ × ℕ × K}
    (hq : checkParams (defaultComponents obj.nComponents data.cols) obj.maxIterations
      obj.tolerance = Py.ok q)
    {start : MTDPoint data.rows data.cols q.1 p K × env.rng.G}
    (hstart : mtdStart env data.val q.1 p obj.init args fl kw obj.randomState = Py.ok start)
    {r : IterResult (MTDState data.rows data.cols q.1 p K) K}
    (hr : mtdSolve obj.config obj.require q.2.2 q.2.1 fl data.val start.1 = Py.ok r) :
    mtdConvexCoding env obj data args fl kw = Py.ok
      ({ obj with
          nComponents := defaultComponents obj.nComponents data.cols
          randomState := start.2
          vars := some (mtdVarsOf r.state) },
        { cost := r.cost, nIter := r.nIter, warned := decide (r.nIter = q.2.1 ∧ q.2.2 > 0),
          trace := r.trace }) := by
  have hr' : mtdSolve (MTDObj.config
      { obj with nComponents := defaultComponents obj.nComponents data.cols })
      obj.require q.2.2 q.2.1 fl data.val start.1 = Py.ok r := hr
  unfold mtdConvexCoding
  simp only [hq, hstart, hr', Py.ok_bind, Py.pure_eq]
  rfl

theorem mtdFitTransform_eq_ok {env : Env K} {obj : MTDObj env.rng p} {data : Arr2 K}
    {args : MTDArgs K} {fl : MTDFlags} {kw : InitKwargs}
    {res : MTDObj env.rng p × Option (Arr2 K) × FitInfo K}
    (h : mtdFitTransform env obj data args fl kw = Py.ok res) :
    ∃ (o : MTDObj env.rng p) (info : FitInfo K),
      mtdConvexCoding env obj data args fl kw = Py.ok (o, info) ∧
      res = ({ o with
        nComponents_ := o.vars.map (fun v => v.k)
        cost_ := some info.cost
        dictionary_ := o.vars.map MTDVars.SArr
        nIter_ := some info.nIter }, o.vars.map MTDVars.GammaArr, info) := by
  unfold mtdFitTransform at h
  obtain ⟨⟨o, info⟩, ho, h⟩ := Py.bind_eq_ok.1 h
  simp only [Py.pure_eq, Py.ok.injEq] at h
  exact ⟨o, info, ho, h.symm⟩

theorem mtdTransform_eq_ok {env : Env K} {obj : MTDObj env.rng p} {data : Arr2 K}
    {res : MTDObj env.rng p × Option (Arr2 K) × FitInfo K}
    (h : mtdTransform env obj data = Py.ok res) :
    ∃ (o : MTDObj env.rng p) (info : FitInfo K),
      mtdConvexCoding env obj data obj.transformArgs
        { updateDictionary := false, updateWeights := true, updateParameters := false } {} =
        Py.ok (o, info) ∧ res = (o, o.vars.map MTDVars.GammaArr, info) := by
  unfold mtdTransform at h
  obtain ⟨⟨o, info⟩, ho, h⟩ := Py.bind_eq_ok.1 h
  simp only [Py.pure_eq, Py.ok.injEq] at h
  exact ⟨o, info, ho, h.symm⟩

theorem mtdPredict_eq_ok {env : Env K} {obj : MTDObj env.rng p} {data : Arr2 K} {horizon : ℤ}
    {res : MTDObj env.rng p × NanRows K} (h : mtdPredict env obj data horizon = Py.ok res) :
    ∃ (o : MTDObj env.rng p) (W : Option (Arr2 K)) (info : FitInfo K) (v : MTDVars p K),
      mtdTransform env obj data = Py.ok (o, W, info) ∧ o.vars = some v ∧
      res = (o, mtdForecast obj.lags v horizon) := by
  unfold mtdPredict at h
  obtain ⟨⟨o, W, info⟩, ho, h⟩ := Py.bind_eq_ok.1 h
  simp only at h
  split at h
  · simp at h
  · rename_i v hv
    simp only [Py.pure_eq, Py.ok.injEq] at h
    exact ⟨o, W, info, v, ho, hv, h.symm⟩

/-- Everything in one statement: a successful fit or transform. -/
theorem mtdConvexCoding_facts {env : Env K} {obj : MTDObj env.rng p} {data : Arr2 K}
    {args : MTDArgs K} {fl : MTDFlags} {kw : InitKwargs} {o : MTDObj env.rng p}
    {info : FitInfo K} (h : mtdConvexCoding env obj data args fl kw = Py.ok (o, info)) :
    ∃ (k : ℕ) (W : Matrix (Fin data.rows) (Fin k) K) (S : Matrix (Fin k) (Fin data.cols) K)
      (w : Fin p → K) (A : Fin p → Matrix (Fin k) (Fin k) K)
      (start : MTDPoint data.rows data.cols k p K × env.rng.G),
      1 ≤ k ∧ 1 ≤ p ∧
      o.vars = some ⟨data.rows, data.cols, k, W, S, w, A⟩ ∧
      mtdStart env data.val k p obj.init args fl kw obj.randomState = Py.ok start ∧
      info.cost = mtdCost obj.epsilonStates obj.epsilonWeights obj.lags data.val W S w A ∧
      (obj.require = true →
        (mtdCost obj.epsilonStates obj.epsilonWeights obj.lags data.val start.1.2.1 start.1.1
          start.1.2.2.1 start.1.2.2.2 :: info.trace).IsChain (· ≥ ·) ∧
        info.cost ≤ mtdCost obj.epsilonStates obj.epsilonWeights obj.lags data.val start.1.2.1
          start.1.1 start.1.2.2.1 start.1.2.2.2) ∧
      (obj.ls.Safe →
        (RowStochastic start.1.2.1 → RowStochastic W) ∧
        ((IsProb start.1.2.2.1 ∧ ∀ i, ColStochastic (start.1.2.2.2 i)) →
          IsProb w ∧ ∀ i, ColStochastic (A i))) ∧
      (fl.updateDictionary = false → S = start.1.1) ∧
      (fl.updateWeights = false → W = start.1.2.1) ∧
      (fl.updateParameters = false → w = start.1.2.2.1 ∧ A = start.1.2.2.2) := by
  obtain ⟨q, start, r, hq, hstart, hr, hres⟩ := mtdConvexCoding_eq_ok h
  obtain ⟨-, -, -, hk, -, -⟩ := checkParams_ok hq
  simp only [Prod.mk.injEq] at hres
  obtain ⟨rfl, rfl⟩ := hres
  obtain ⟨hg, hkeep⟩ := mtdSolve_keeps hr
  refine ⟨q.1, r.state.Gamma, r.state.S, r.state.orderWeights, r.state.transitionMatrices, start,
    hk, Nat.one_le_iff_ne_zero.2 (mtdSolve_eq_ok.1 hr).1.1, rfl, hstart, mtdSolve_cost hr, ?_, ?_,
    hkeep.S, hkeep.Gamma, fun h => ⟨hkeep.orderWeights h, hkeep.transitionMatrices h⟩⟩
  · intro hreq
    rw [hreq] at hr
    exact mtdSolve_monotone hr
  · exact fun h1 => ⟨fun hw => mtdSolve_weights_stochastic h1 hk hw hr,
      fun hw => mtdSolve_params_stochastic h1 hk hw hr⟩

end Reor
