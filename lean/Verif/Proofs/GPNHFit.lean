import Verif.Proofs.GPNH
import Verif.Proofs.Init

/-!
Complete fits of the GPNH model.
-/

namespace Reor

set_option linter.unusedSectionVars false

open scoped BigOperators Matrix
open Spec

variable {K : Type} [Field K] [LinearOrder K] [IsStrictOrderedRing K]
variable {T D k : ℕ}

theorem gpnhIterate_eq_ok {cfg : LSConfig K} {eps : K} {require : Bool} {tol : K} {maxIter : ℕ}
    {ud uw : Bool} {s : GPNHState T D k K} {r : IterResult (GPNHState T D k K) K} :
    gpnhIterate cfg eps require tol maxIter ud uw s = Py.ok r ↔ D * T ≠ 0 ∧
      iterate (fun s => (s, s.evaluateCost eps)) require tol maxIter
      ((if ud then [GPNHState.updateDictionary cfg eps] else []) ++
       (if uw then [GPNHState.updateWeights cfg eps] else [])) s = Py.ok r := by
  unfold gpnhIterate
  split_ifs with h <;> simp_all

/-- Membership in the list of enabled updates. -/
theorem mem_phases {cfg : LSConfig K} {eps : K} {ud uw : Bool}
    {p : GPNHState T D k K → Py (GPNHState T D k K)}
    (h : p ∈ (if ud then [GPNHState.updateDictionary cfg eps] else []) ++
       (if uw then [GPNHState.updateWeights cfg eps] else [])) :
    (ud = true ∧ p = GPNHState.updateDictionary cfg eps) ∨
    (uw = true ∧ p = GPNHState.updateWeights cfg eps) := by
  cases ud <;> cases uw <;> simp at h ⊢ <;> exact h

/-- What every fit keeps: the data, and the cached product used by the cost. -/
structure GPNHState.Good (X : Matrix (Fin T) (Fin D) K) (s : GPNHState T D k K) : Prop where
  X : s.X = X
  SSt : s.SSt = s.S * s.Sᵀ

theorem good_phases {cfg : LSConfig K} {eps : K}
    {ud uw : Bool} {X : Matrix (Fin T) (Fin D) K} :
    ∀ p ∈ (if ud then [GPNHState.updateDictionary (T := T) (D := D) (k := k) cfg eps] else []) ++
       (if uw then [GPNHState.updateWeights cfg eps] else []),
      ∀ s s', GPNHState.Good X s → p s = Py.ok s' → GPNHState.Good X s' := by
  intro p hp s s' hs h
  rcases mem_phases hp with ⟨-, rfl⟩ | ⟨-, rfl⟩
  · obtain ⟨lam, hl⟩ := GPNHState.updateDictionary_post h
    exact ⟨hl.X.trans hs.X, hl.SSt⟩
  · obtain ⟨lam, hl⟩ := GPNHState.updateWeights_post h
    exact ⟨hl.X.trans hs.X, by rw [hl.SSt, hl.S]⟩

theorem gpnhIterate_good {cfg : LSConfig K}
    {eps : K} {require : Bool} {tol : K} {maxIter : ℕ} {ud uw : Bool} {s : GPNHState T D k K}
    {r : IterResult (GPNHState T D k K) K} (hs : s.SSt = s.S * s.Sᵀ)
    (h : gpnhIterate cfg eps require tol maxIter ud uw s = Py.ok r) :
    GPNHState.Good s.X r.state :=
  iterate_inv (Inv := GPNHState.Good s.X) (fun _ h => h) (good_phases) ⟨rfl, hs⟩
    (gpnhIterate_eq_ok.1 h).2

theorem gpnhIterate_S {cfg : LSConfig K}
    {eps : K} {require : Bool} {tol : K} {maxIter : ℕ} {uw : Bool} {s : GPNHState T D k K}
    {r : IterResult (GPNHState T D k K) K}
    (h : gpnhIterate cfg eps require tol maxIter false uw s = Py.ok r) : r.state.S = s.S :=
  iterate_inv (Inv := fun x => x.S = s.S) (fun _ h => h) (by
    intro p hp x x' hx h
    rcases mem_phases hp with ⟨h', -⟩ | ⟨-, rfl⟩
    · simp at h'
    · obtain ⟨lam, hl⟩ := GPNHState.updateWeights_post h
      exact hl.S.trans hx) rfl (gpnhIterate_eq_ok.1 h).2

theorem gpnhIterate_Gamma {cfg : LSConfig K}
    {eps : K} {require : Bool} {tol : K} {maxIter : ℕ} {ud : Bool} {s : GPNHState T D k K}
    {r : IterResult (GPNHState T D k K) K}
    (h : gpnhIterate cfg eps require tol maxIter ud false s = Py.ok r) :
    r.state.Gamma = s.Gamma :=
  iterate_inv (Inv := fun x => x.Gamma = s.Gamma) (fun _ h => h) (by
    intro p hp x x' hx h
    rcases mem_phases hp with ⟨-, rfl⟩ | ⟨h', -⟩
    · obtain ⟨lam, hl⟩ := GPNHState.updateDictionary_post h
      exact hl.Gamma.trans hx
    · simp at h') rfl (gpnhIterate_eq_ok.1 h).2

theorem gpnhIterate_rowStochastic {cfg : LSConfig K} (h1 : cfg.Safe) (hk : 1 ≤ k)
    {eps : K} {require : Bool} {tol : K} {maxIter : ℕ} {ud uw : Bool} {s : GPNHState T D k K}
    {r : IterResult (GPNHState T D k K) K} (hs : RowStochastic s.Gamma)
    (ha : 0 ≤ s.alphaGamma)
    (h : gpnhIterate cfg eps require tol maxIter ud uw s = Py.ok r) :
    RowStochastic r.state.Gamma :=
  (iterate_inv (Inv := fun x => RowStochastic x.Gamma ∧ (0 ≤ cfg.alphaMax → 0 ≤ x.alphaGamma))
    (fun _ h => h) (by
    intro p hp x x' ⟨hx, hxa⟩ h
    rcases mem_phases hp with ⟨-, rfl⟩ | ⟨-, rfl⟩
    · obtain ⟨lam, hl⟩ := GPNHState.updateDictionary_post h
      rw [hl.Gamma, hl.alphaGamma]; exact ⟨hx, hxa⟩
    · obtain ⟨lam, hl⟩ := GPNHState.updateWeights_post h
      obtain ⟨hl0, hl1⟩ := hl.range.unit h1 (fun h => projected_slope_nonpos hk hx (hxa h))
      refine ⟨?_, fun h0 => ?_⟩
      · rw [hl.Gamma]
        exact rowStochastic_step hx (projectRows_rowStochastic hk _) hl0 hl1
      · obtain ⟨b, q, hq, hb⟩ := hl.alpha
        rw [hb]; exact nextSpgAlpha_nonneg hq h0) ⟨hs, fun _ => ha⟩
    (gpnhIterate_eq_ok.1 h).2).1

theorem gpnhIterate_cost {cfg : LSConfig K}
    {eps : K} {require : Bool} {tol : K} {maxIter : ℕ} {ud uw : Bool} {s : GPNHState T D k K}
    {r : IterResult (GPNHState T D k K) K} (hs : s.SSt = s.S * s.Sᵀ)
    (h : gpnhIterate cfg eps require tol maxIter ud uw s = Py.ok r) :
    r.cost = gpnhCost eps s.X r.state.Gamma r.state.S := by
  have hg := gpnhIterate_good hs h
  have hc := iterate_cost (fun _ => rfl) (gpnhIterate_eq_ok.1 h).2
  have := congrArg Prod.snd hc
  simp only at this
  rw [← this, GPNHState.evaluateCost_eq _ _ hg.SSt, hg.X]

theorem gpnhIterate_monotone {cfg : LSConfig K} {eps : K} {tol : K} {maxIter : ℕ} {ud uw : Bool}
    {s : GPNHState T D k K} {r : IterResult (GPNHState T D k K) K} (hs : s.SSt = s.S * s.Sᵀ)
    (h : gpnhIterate cfg eps true tol maxIter ud uw s = Py.ok r) :
    (gpnhCost eps s.X s.Gamma s.S :: r.trace).IsChain (· ≥ ·) ∧
      r.cost ≤ gpnhCost eps s.X s.Gamma s.S := by
  have := iterate_monotone (gpnhIterate_eq_ok.1 h).2
  simp only [GPNHState.evaluateCost_eq _ _ hs] at this
  exact this

/-- Everything needed for descent. -/
structure GPNHState.Ready (s : GPNHState T D k K) : Prop where
  SSt : s.SSt = s.S * s.Sᵀ
  stoch : RowStochastic s.Gamma
  alphaS : 0 < s.alphaS
  alphaGamma : 0 < s.alphaGamma
  memS : ∃ m, s.fSMem = [m]
  memG : ∃ m, s.fGammaMem = [m]

theorem nextSpgAlpha_pos {beta sksk aMin aMax : K} (h0 : 0 < aMin) (h1 : aMin ≤ aMax) :
    0 < nextSpgAlpha beta sksk aMin aMax := by
  unfold nextSpgAlpha
  split_ifs
  · linarith
  · exact lt_min (by linarith) (lt_of_lt_of_le h0 (le_max_left _ _))

/-- Without a step floor every update succeeds and does not increase the cost. -/
theorem ready_phases [Archimedean K] {cfg : LSConfig K} (h1 : 0 < cfg.sigmaOne)
    (h2 : cfg.sigmaTwo < 1) (hg0 : 0 ≤ cfg.gamma) (hg1 : cfg.gamma < 1)
    (ht : cfg.stepSizeTolerance = 0) (ha0 : 0 < cfg.alphaMin) (ha1 : cfg.alphaMin ≤ cfg.alphaMax)
    (hk : 1 ≤ k) {eps : K} {ud uw : Bool} :
    ∀ p ∈ (if ud then [GPNHState.updateDictionary (T := T) (D := D) (k := k) cfg eps] else []) ++
       (if uw then [GPNHState.updateWeights cfg eps] else []),
      ∀ s, s.Ready → ∃ s', p s = Py.ok s' ∧ s'.Ready ∧ s'.evaluateCost eps ≤ s.evaluateCost eps := by
  intro p hp s hs
  obtain ⟨mS, hmS⟩ := hs.memS
  obtain ⟨mG, hmG⟩ := hs.memG
  rcases mem_phases hp with ⟨-, rfl⟩ | ⟨-, rfl⟩
  · obtain ⟨s', h⟩ := GPNHState.updateDictionary_terminates_armijo h1 h2 hg1 (eps := eps) hs.alphaS
      (by rw [hmS]; simp)
    obtain ⟨lam, hl⟩ := GPNHState.updateDictionary_post h
    refine ⟨s', h, ⟨hl.SSt, by rw [hl.Gamma]; exact hs.stoch, ?_,
      by rw [hl.alphaGamma]; exact hs.alphaGamma, ⟨_, by rw [hl.fSMem, hmS]; rfl⟩,
      ⟨mG, by rw [hl.fGammaMem, hmG]⟩⟩, ?_⟩
    · obtain ⟨b, q, -, hb⟩ := hl.alpha
      rw [hb]; exact nextSpgAlpha_pos ha0 ha1
    · rw [GPNHState.evaluateCost_eq _ _ hl.SSt, GPNHState.evaluateCost_eq _ _ hs.SSt]
      exact GPNHState.updateDictionary_descends h1 h2 hg0 (by rw [ht]; exact h1.le) hs.alphaS hmS
        (by rw [ht]; simpa using hg1.le) h
  · obtain ⟨s', h⟩ := GPNHState.updateWeights_terminates_armijo h1 h2 hg1 hk (eps := eps) hs.stoch
      hs.alphaGamma (by rw [hmG]; simp)
    obtain ⟨lam, hl⟩ := GPNHState.updateWeights_post h
    refine ⟨s', h, ⟨by rw [hl.SSt, hl.S], ?_, by rw [hl.alphaS]; exact hs.alphaS, ?_,
      ⟨mS, by rw [hl.fSMem, hmS]⟩, ⟨_, by rw [hl.fGammaMem, hmG]; rfl⟩⟩, ?_⟩
    · rw [hl.Gamma]
      exact rowStochastic_step hs.stoch (projectRows_rowStochastic hk _) (hl.pos h1 h2).le (hl.le h1 h2)
    · obtain ⟨b, q, -, hb⟩ := hl.alpha
      rw [hb]; exact nextSpgAlpha_pos ha0 ha1
    · rw [GPNHState.evaluateCost_eq _ _ (by rw [hl.SSt, hl.S]),
        GPNHState.evaluateCost_eq _ _ hs.SSt]
      exact GPNHState.updateWeights_descends h1 h2 hg0 (by rw [ht]; exact h1.le) hk hs.stoch
        hs.alphaGamma hmG (by rw [ht]; simpa using hg1.le) h

theorem gpnhIterate_succeeds [Archimedean K] {cfg : LSConfig K} (h1 : 0 < cfg.sigmaOne)
    (h2 : cfg.sigmaTwo < 1) (hg0 : 0 ≤ cfg.gamma) (hg1 : cfg.gamma < 1)
    (ht : cfg.stepSizeTolerance = 0) (ha0 : 0 < cfg.alphaMin) (ha1 : cfg.alphaMin ≤ cfg.alphaMax)
    (hk : 1 ≤ k) {eps : K} {require : Bool} {tol : K} {maxIter : ℕ} (hm : 0 < maxIter)
    {ud uw : Bool} (hDT : D * T ≠ 0) {s : GPNHState T D k K} (hs : s.Ready) :
    ∃ r, gpnhIterate cfg eps require tol maxIter ud uw s = Py.ok r := by
  obtain ⟨r, hr, -⟩ := iterate_ok (evalCost := fun s : GPNHState T D k K => (s, s.evaluateCost eps))
    (fun _ => rfl) (require := require) (tol := tol) (Inv := GPNHState.Ready) (fun _ h => h)
    (ready_phases h1 h2 hg0 hg1 ht ha0 ha1 hk (ud := ud) (uw := uw)) hs hm
  exact ⟨r, gpnhIterate_eq_ok.2 ⟨hDT, hr⟩⟩

/-! ### The object -/

theorem validConfig_iff {c m t : NumArg K} {n : ℕ} :
    ValidConfig c n m t ↔ ValidParams (defaultComponents c n) m t := by
  unfold ValidConfig ValidParams
  cases c <;> simp [defaultComponents]

theorem defaultComponents_eq_int {c : NumArg K} {n k : ℕ} (h : defaultComponents c n = .int k) :
    c = .int k ∨ c = .none ∧ k = n := by
  cases c with
  | none =>
    simp only [defaultComponents, NumArg.int.injEq, Nat.cast_inj] at h
    exact Or.inr ⟨rfl, h.symm⟩
  | int z => exact Or.inl h
  | real x => exact Or.inl h
  | other => exact Or.inl h

theorem gpnhConvexCoding_eq_ok {env : Env K} {obj : GPNHObj env.rng} {data : Arr2 K}
    {dictionary weights : Option (Arr2 K)} {ud uw : Bool} {kw : InitKwargs}
    {res : GPNHObj env.rng × FitInfo K}
    (h : gpnhConvexCoding env obj data dictionary weights ud uw kw = Py.ok res) :
    ∃ (p : ℕ × ℕ × K) (start : _) (r : _),
      checkParams (defaultComponents obj.nComponents data.cols) obj.maxIterations obj.tolerance =
        Py.ok p ∧
      gpnhStart env data.val p.1 obj.init dictionary weights ud uw kw obj.randomState =
        Py.ok start ∧
      gpnhIterate obj.ls obj.epsilonStates obj.require p.2.2 p.2.1 ud uw
        (GPNHState.initializeWorkspace obj.ls data.val start.1.2 start.1.1) = Py.ok r ∧
      res = ({ obj with
          nComponents := defaultComponents obj.nComponents data.cols
          randomState := start.2
          Gamma := some (Arr2.of r.state.Gamma)
          S := some (Arr2.of r.state.S) },
        { cost := r.cost, nIter := r.nIter, warned := decide (r.nIter = p.2.1 ∧ p.2.2 > 0),
          trace := r.trace }) := by
  unfold gpnhConvexCoding at h
  simp only at h
  obtain ⟨p, hp, h⟩ := Py.bind_eq_ok.1 h
  obtain ⟨start, hstart, h⟩ := Py.bind_eq_ok.1 h
  obtain ⟨r, hr, h⟩ := Py.bind_eq_ok.1 h
  simp only [Py.pure_eq, Py.ok.injEq] at h
  exact ⟨p, start, r, hp, hstart, hr, h.symm⟩

theorem gpnhFitTransform_eq_ok {env : Env K} {obj : GPNHObj env.rng} {data : Arr2 K}
    {dictionary weights : Option (Arr2 K)} {ud uw : Bool} {kw : InitKwargs}
    {res : GPNHObj env.rng × Option (Arr2 K) × FitInfo K}
    (h : gpnhFitTransform env obj data dictionary weights kw ud uw = Py.ok res) :
    ∃ (o : GPNHObj env.rng) (info : FitInfo K),
      gpnhConvexCoding env obj data dictionary weights ud uw kw = Py.ok (o, info) ∧
      res = ({ o with
        nComponents_ := o.S.map (fun S => S.rows)
        cost_ := some info.cost
        dictionary_ := o.S
        nIter_ := some info.nIter }, o.Gamma, info) := by
  unfold gpnhFitTransform at h
  obtain ⟨⟨o, info⟩, ho, h⟩ := Py.bind_eq_ok.1 h
  simp only [Py.pure_eq, Py.ok.injEq] at h
  exact ⟨o, info, ho, h.symm⟩

theorem gpnhTransform_eq_ok {env : Env K} {obj : GPNHObj env.rng} {data : Arr2 K}
    {res : GPNHObj env.rng × Option (Arr2 K) × FitInfo K}
    (h : gpnhTransform env obj data = Py.ok res) :
    ∃ (o : GPNHObj env.rng) (info : FitInfo K),
      gpnhConvexCoding env obj data obj.S none false true {} = Py.ok (o, info) ∧
      res = (o, o.Gamma, info) := by
  unfold gpnhTransform at h
  obtain ⟨⟨o, info⟩, ho, h⟩ := Py.bind_eq_ok.1 h
  simp only [Py.pure_eq, Py.ok.injEq] at h
  exact ⟨o, info, ho, h.symm⟩

theorem gpnhInitWeights_ok {env : Env K} (hR : env.rng.Lawful) {T k : ℕ} (hk : 1 ≤ k) {init : Option String}
    {kw : InitKwargs} {g : env.rng.G} {w : Matrix (Fin T) (Fin k) K × env.rng.G}
    (h : gpnhInitWeights env T k init kw g = Py.ok w) : RowStochastic w.1 := by
  unfold gpnhInitWeights at h
  simp only at h
  split_ifs at h
  exact rightStochastic_ok hR hk h

/-- Initial weights drawn by the estimator are stochastic. -/
theorem gpnhStart_rowStochastic {env : Env K} (hR : env.rng.Lawful)
    {data : Matrix (Fin T) (Fin D) K} {k : ℕ} (hk : 1 ≤ k) {init : Option String}
    (hinit : init ≠ some "custom") {dictionary weights : Option (Arr2 K)} {ud : Bool}
    {kw : InitKwargs} {g : env.rng.G}
    {start : (Matrix (Fin k) (Fin D) K × Matrix (Fin T) (Fin k) K) × env.rng.G}
    (h : gpnhStart env data k init dictionary weights ud true kw g = Py.ok start) :
    RowStochastic start.1.2 := by
  unfold gpnhStart at h
  rw [if_neg hinit] at h
  cases ud with
  | false =>
    simp only [and_self, if_true] at h
    obtain ⟨d, hd, h⟩ := Py.bind_eq_ok.1 h
    obtain ⟨w, hw, h⟩ := Py.bind_eq_ok.1 h
    simp only [Py.pure_eq, Py.ok.injEq] at h
    subst h
    exact gpnhInitWeights_ok hR hk hw
  | true =>
    simp only [Bool.true_eq_false, false_and, and_false, if_false] at h
    unfold gpnhInitBoth at h
    obtain ⟨d, hd, h⟩ := Py.bind_eq_ok.1 h
    obtain ⟨w, hw, h⟩ := Py.bind_eq_ok.1 h
    simp only [Py.pure_eq, Py.ok.injEq] at h
    subst h
    exact gpnhInitWeights_ok hR hk hw

theorem gpnhCheckInitWeights_ok {w : Option (Arr2 K)} {m n : ℕ} {M : Matrix (Fin m) (Fin n) K}
    (h : gpnhCheckInitWeights w m n = Py.ok M) :
    w = some (Arr2.of M) ∧ m ≠ 0 ∧ n ≠ 0 ∧ ∀ i, iscloseOne (∑ j, M i j) := by
  unfold gpnhCheckInitWeights at h
  obtain ⟨A, hA, h⟩ := Py.bind_eq_ok.1 h
  obtain ⟨M', hM, h⟩ := Py.bind_eq_ok.1 h
  obtain ⟨_, hu, h⟩ := Py.bind_eq_ok.1 h
  simp only [Py.pure_eq, Py.ok.injEq] at h
  subst h
  obtain ⟨hA1, hA2, hA3⟩ := checkArray_ok hA
  have hM' := checkArrayShape_ok hM
  subst hM'
  refine ⟨hA1, hA2, hA3, ?_⟩
  unfold checkUnitRowSums at hu
  split_ifs at hu with hc
  exact hc

theorem gpnhCheckInitDictionary_ok {w : Option (Arr2 K)} {m n : ℕ} {M : Matrix (Fin m) (Fin n) K}
    (h : gpnhCheckInitDictionary w m n = Py.ok M) : w = some (Arr2.of M) ∧ m ≠ 0 ∧ n ≠ 0 := by
  unfold gpnhCheckInitDictionary at h
  obtain ⟨A, hA, h⟩ := Py.bind_eq_ok.1 h
  obtain ⟨hA1, hA2, hA3⟩ := checkArray_ok hA
  have hM' := checkArrayShape_ok h
  subst hM'
  exact ⟨hA1, hA2, hA3⟩

/-- With `init='custom'` the start is what the caller supplied. -/
theorem gpnhStart_custom {env : Env K} {data : Matrix (Fin T) (Fin D) K} {k : ℕ}
    {dictionary weights : Option (Arr2 K)} {ud uw : Bool} {kw : InitKwargs} {g : env.rng.G}
    {start : (Matrix (Fin k) (Fin D) K × Matrix (Fin T) (Fin k) K) × env.rng.G}
    (h : gpnhStart env data k (some "custom") dictionary weights ud uw kw g = Py.ok start) :
    dictionary = some (Arr2.of start.1.1) ∧ weights = some (Arr2.of start.1.2) ∧ start.2 = g := by
  unfold gpnhStart at h
  rw [if_pos rfl] at h
  obtain ⟨w, hw, h⟩ := Py.bind_eq_ok.1 h
  obtain ⟨d, hd, h⟩ := Py.bind_eq_ok.1 h
  simp only [Py.pure_eq, Py.ok.injEq] at h
  subst h
  exact ⟨(gpnhCheckInitDictionary_ok hd).1, (gpnhCheckInitWeights_ok hw).1, rfl⟩

/-- With the dictionary kept, the start dictionary is the one supplied. -/
theorem gpnhStart_dictionary {env : Env K} {data : Matrix (Fin T) (Fin D) K} {k : ℕ}
    {init : Option String} {dictionary weights : Option (Arr2 K)} {kw : InitKwargs} {g : env.rng.G}
    {start : (Matrix (Fin k) (Fin D) K × Matrix (Fin T) (Fin k) K) × env.rng.G}
    (h : gpnhStart env data k init dictionary weights false true kw g = Py.ok start) :
    dictionary = some (Arr2.of start.1.1) := by
  unfold gpnhStart at h
  split_ifs at h with h1 h2 h3
  · obtain ⟨w, hw, h⟩ := Py.bind_eq_ok.1 h
    obtain ⟨d, hd, h⟩ := Py.bind_eq_ok.1 h
    simp only [Py.pure_eq, Py.ok.injEq] at h
    subst h
    exact (gpnhCheckInitDictionary_ok hd).1
  · obtain ⟨d, hd, h⟩ := Py.bind_eq_ok.1 h
    obtain ⟨w, hw, h⟩ := Py.bind_eq_ok.1 h
    simp only [Py.pure_eq, Py.ok.injEq] at h
    subst h
    exact (gpnhCheckInitDictionary_ok hd).1
  · simp at h3
  · simp at h2

theorem ready_initial {cfg : LSConfig K} (hmem : cfg.memory = 1) {X : Matrix (Fin T) (Fin D) K}
    {W : Matrix (Fin T) (Fin k) K} (hW : RowStochastic W) (S : Matrix (Fin k) (Fin D) K) :
    (GPNHState.initializeWorkspace cfg X W S).Ready :=
  ⟨rfl, hW, one_pos, one_pos, ⟨0, by simp [GPNHState.initializeWorkspace, hmem]⟩,
    ⟨0, by simp [GPNHState.initializeWorkspace, hmem]⟩⟩

/-- The exceptions of the initialisation. -/
def InitErr (e : PyErr) : Prop := FSErr e ∨ e = .nonFinite

theorem InitErr.ne {e : PyErr} (h : InitErr e) : e ≠ .runtimeError ∧ e ≠ .zeroDivisionError := by
  rcases h with (rfl | rfl | rfl) | rfl <;> simp

theorem initErr_value : InitErr .valueError := Or.inl (Or.inl rfl)
theorem initErr_type : InitErr .typeError := Or.inl (Or.inr (Or.inr rfl))

theorem checkArray_raise {A : Option (Arr2 K)} {e : PyErr} (h : checkArray A = Py.raise e) :
    e = .valueError := by
  unfold checkArray at h
  split at h
  · simpa using h.symm
  · split_ifs at h
    simpa using h.symm

theorem checkArray_ne_diverge {A : Option (Arr2 K)} : checkArray A ≠ Py.diverge := by
  unfold checkArray
  split
  · simp
  · split_ifs <;> simp

theorem checkArrayShape_raise {A : Arr2 K} {m n : ℕ} {e : PyErr}
    (h : checkArrayShape A m n = Py.raise e) : e = .valueError := by
  unfold checkArrayShape at h
  split_ifs at h
  simpa using h.symm

theorem checkArrayShape_ne_diverge {A : Arr2 K} {m n : ℕ} :
    checkArrayShape A m n ≠ Py.diverge := by
  unfold checkArrayShape
  split_ifs <;> simp

theorem gpnhCheckInitDictionary_raise {A : Option (Arr2 K)} {m n : ℕ} {e : PyErr}
    (h : gpnhCheckInitDictionary A m n = Py.raise e) : e = .valueError := by
  unfold gpnhCheckInitDictionary at h
  rcases Py.bind_eq_raise.1 h with h | ⟨_, _, h⟩
  · exact checkArray_raise h
  · exact checkArrayShape_raise h

theorem gpnhCheckInitDictionary_ne_diverge {A : Option (Arr2 K)} {m n : ℕ} :
    gpnhCheckInitDictionary A m n ≠ Py.diverge := by
  intro h
  unfold gpnhCheckInitDictionary at h
  rcases Py.bind_eq_diverge.1 h with h | ⟨_, _, h⟩
  · exact checkArray_ne_diverge h
  · exact checkArrayShape_ne_diverge h

theorem gpnhCheckInitWeights_raise {A : Option (Arr2 K)} {m n : ℕ} {e : PyErr}
    (h : gpnhCheckInitWeights A m n = Py.raise e) : e = .valueError := by
  unfold gpnhCheckInitWeights at h
  rcases Py.bind_eq_raise.1 h with h | ⟨_, _, h⟩
  · exact checkArray_raise h
  rcases Py.bind_eq_raise.1 h with h | ⟨_, _, h⟩
  · exact checkArrayShape_raise h
  rcases Py.bind_eq_raise.1 h with h | ⟨_, _, h⟩
  · unfold checkUnitRowSums at h
    split_ifs at h
    simpa using h.symm
  · simp at h

theorem gpnhCheckInitWeights_ne_diverge {A : Option (Arr2 K)} {m n : ℕ} :
    gpnhCheckInitWeights A m n ≠ Py.diverge := by
  intro h
  unfold gpnhCheckInitWeights at h
  rcases Py.bind_eq_diverge.1 h with h | ⟨_, _, h⟩
  · exact checkArray_ne_diverge h
  rcases Py.bind_eq_diverge.1 h with h | ⟨_, _, h⟩
  · exact checkArrayShape_ne_diverge h
  rcases Py.bind_eq_diverge.1 h with h | ⟨_, _, h⟩
  · unfold checkUnitRowSums at h
    split_ifs at h
  · simp at h

theorem gpnhInitWeights_raise {env : Env K} {T k : ℕ} {init : Option String} {kw : InitKwargs}
    {g : env.rng.G} {e : PyErr} (h : gpnhInitWeights env T k init kw g = Py.raise e) :
    InitErr e := by
  unfold gpnhInitWeights at h
  simp only at h
  split_ifs at h
  · simp at h; subst h; exact initErr_type
  · exact Or.inr (rightStochastic_raise h)
  · simp at h; subst h; exact initErr_value

theorem gpnhInitWeights_ne_diverge {env : Env K} {T k : ℕ} {init : Option String}
    {kw : InitKwargs} {g : env.rng.G} : gpnhInitWeights env T k init kw g ≠ Py.diverge := by
  unfold gpnhInitWeights gpnhInitWeightsRandom rightStochasticMatrix
  simp only
  split_ifs <;> simp

theorem gpnhInitDictionary_raise {env : Env K} {data : Matrix (Fin T) (Fin D) K} {k : ℕ}
    {init : Option String} {kw : InitKwargs} {g : env.rng.G} {e : PyErr}
    (h : gpnhInitDictionary env data k init kw g = Py.raise e) : InitErr e := by
  unfold gpnhInitDictionary at h
  simp only at h
  split_ifs at h
  · unfold gpnhInitDictionaryRandom at h
    split_ifs at h
    simp at h; subst h; exact Or.inr rfl
  · unfold gpnhInitDictionaryFurthestSum at h
    simp only at h
    rcases Py.bind_eq_raise.1 h with h | ⟨_, _, h⟩
    · exact furthestSumRows_raise h
    · simp at h
  · simp at h; subst h; exact initErr_value

theorem gpnhInitDictionary_ne_diverge {env : Env K} {data : Matrix (Fin T) (Fin D) K} {k : ℕ}
    {init : Option String} {kw : InitKwargs} {g : env.rng.G} :
    gpnhInitDictionary env data k init kw g ≠ Py.diverge := by
  intro h
  unfold gpnhInitDictionary at h
  simp only at h
  split_ifs at h
  · unfold gpnhInitDictionaryRandom at h
    split_ifs at h
  · unfold gpnhInitDictionaryFurthestSum at h
    simp only at h
    rcases Py.bind_eq_diverge.1 h with h | ⟨_, _, h⟩
    · exact furthestSumRows_ne_diverge h
    · simp at h

theorem gpnhStart_raise {env : Env K} {data : Matrix (Fin T) (Fin D) K} {k : ℕ}
    {init : Option String} {dictionary weights : Option (Arr2 K)} {ud uw : Bool} {kw : InitKwargs}
    {g : env.rng.G} {e : PyErr}
    (h : gpnhStart env data k init dictionary weights ud uw kw g = Py.raise e) : InitErr e := by
  unfold gpnhStart at h
  split_ifs at h
  · rcases Py.bind_eq_raise.1 h with h | ⟨_, _, h⟩
    · rw [gpnhCheckInitWeights_raise h]; exact initErr_value
    rcases Py.bind_eq_raise.1 h with h | ⟨_, _, h⟩
    · rw [gpnhCheckInitDictionary_raise h]; exact initErr_value
    · simp at h
  · rcases Py.bind_eq_raise.1 h with h | ⟨_, _, h⟩
    · rw [gpnhCheckInitDictionary_raise h]; exact initErr_value
    rcases Py.bind_eq_raise.1 h with h | ⟨_, _, h⟩
    · exact gpnhInitWeights_raise h
    · simp at h
  · rcases Py.bind_eq_raise.1 h with h | ⟨_, _, h⟩
    · rw [gpnhCheckInitWeights_raise h]; exact initErr_value
    rcases Py.bind_eq_raise.1 h with h | ⟨_, _, h⟩
    · exact gpnhInitDictionary_raise h
    · simp at h
  · unfold gpnhInitBoth at h
    simp only at h
    rcases Py.bind_eq_raise.1 h with h | ⟨_, _, h⟩
    · exact gpnhInitDictionary_raise h
    rcases Py.bind_eq_raise.1 h with h | ⟨_, _, h⟩
    · exact gpnhInitWeights_raise h
    · simp at h

theorem gpnhStart_ne_diverge {env : Env K} {data : Matrix (Fin T) (Fin D) K} {k : ℕ}
    {init : Option String} {dictionary weights : Option (Arr2 K)} {ud uw : Bool} {kw : InitKwargs}
    {g : env.rng.G} :
    gpnhStart env data k init dictionary weights ud uw kw g ≠ Py.diverge := by
  intro h
  unfold gpnhStart at h
  split_ifs at h
  · rcases Py.bind_eq_diverge.1 h with h | ⟨_, _, h⟩
    · exact gpnhCheckInitWeights_ne_diverge h
    rcases Py.bind_eq_diverge.1 h with h | ⟨_, _, h⟩
    · exact gpnhCheckInitDictionary_ne_diverge h
    · simp at h
  · rcases Py.bind_eq_diverge.1 h with h | ⟨_, _, h⟩
    · exact gpnhCheckInitDictionary_ne_diverge h
    rcases Py.bind_eq_diverge.1 h with h | ⟨_, _, h⟩
    · exact gpnhInitWeights_ne_diverge h
    · simp at h
  · rcases Py.bind_eq_diverge.1 h with h | ⟨_, _, h⟩
    · exact gpnhCheckInitWeights_ne_diverge h
    rcases Py.bind_eq_diverge.1 h with h | ⟨_, _, h⟩
    · exact gpnhInitDictionary_ne_diverge h
    · simp at h
  · unfold gpnhInitBoth at h
    simp only at h
    rcases Py.bind_eq_diverge.1 h with h | ⟨_, _, h⟩
    · exact gpnhInitDictionary_ne_diverge h
    rcases Py.bind_eq_diverge.1 h with h | ⟨_, _, h⟩
    · exact gpnhInitWeights_ne_diverge h
    · simp at h

/-- A fit from a start that succeeds. -/
theorem gpnhConvexCoding_of_steps {env : Env K} {obj : GPNHObj env.rng} {data : Arr2 K}
    {dictionary weights : Option (Arr2 K)} {ud uw : Bool} {kw : InitKwargs} {p : ℕ × ℕ × K}
    (hp : checkParams (defaultComponents obj.nComponents data.cols) obj.maxIterations
      obj.tolerance = Py.ok p)
    {start : (Matrix (Fin p.1) (Fin data.cols) K × Matrix (Fin data.rows) (Fin p.1) K) × env.rng.G}
    (hstart : gpnhStart env data.val p.1 obj.init dictionary weights ud uw kw obj.randomState =
        Py.ok start)
    {r : IterResult (GPNHState data.rows data.cols p.1 K) K}
    (hr : gpnhIterate obj.ls obj.epsilonStates obj.require p.2.2 p.2.1 ud uw
        (GPNHState.initializeWorkspace obj.ls data.val start.1.2 start.1.1) = Py.ok r) :
    gpnhConvexCoding env obj data dictionary weights ud uw kw = Py.ok
      ({ obj with
          nComponents := defaultComponents obj.nComponents data.cols
          randomState := start.2
          Gamma := some (Arr2.of r.state.Gamma)
          S := some (Arr2.of r.state.S) },
        { cost := r.cost, nIter := r.nIter, warned := decide (r.nIter = p.2.1 ∧ p.2.2 > 0),
          trace := r.trace }) := by
  unfold gpnhConvexCoding
  simp only [hp, hstart, hr, Py.ok_bind, Py.pure_eq]

/-- Outcomes other than success of a fit. -/
theorem gpnhConvexCoding_outcome {env : Env K} {obj : GPNHObj env.rng} {data : Arr2 K}
    {dictionary weights : Option (Arr2 K)} {ud uw : Bool} {kw : InitKwargs}
    (hiter : ∀ (p : ℕ × ℕ × K), 0 < p.1 → 0 < p.2.1 →
      ∀ start, gpnhStart env data.val p.1 obj.init dictionary weights ud uw kw obj.randomState =
        Py.ok start → data.cols * data.rows ≠ 0 →
      ∃ r, gpnhIterate obj.ls obj.epsilonStates obj.require p.2.2 p.2.1 ud uw
        (GPNHState.initializeWorkspace obj.ls data.val start.1.2 start.1.1) = Py.ok r) :
    (∃ res, gpnhConvexCoding env obj data dictionary weights ud uw kw = Py.ok res) ∨
    ∃ e, gpnhConvexCoding env obj data dictionary weights ud uw kw = Py.raise e ∧
      (InitErr e ∨ e = .zeroDivisionError) := by
  by_cases hv : ValidParams (defaultComponents obj.nComponents data.cols) obj.maxIterations
      obj.tolerance
  swap
  · refine Or.inr ⟨.valueError, ?_, Or.inl initErr_value⟩
    unfold gpnhConvexCoding
    simp only [checkParams_invalid hv, Py.raise_bind]
  obtain ⟨p, hp, -, -, hk, hm, -, -⟩ := checkParams_valid hv
  cases hs : gpnhStart env data.val p.1 obj.init dictionary weights ud uw kw obj.randomState with
  | diverge => exact absurd hs gpnhStart_ne_diverge
  | raise e =>
    refine Or.inr ⟨e, ?_, Or.inl (gpnhStart_raise hs)⟩
    unfold gpnhConvexCoding
    simp only [hp, hs, Py.ok_bind, Py.raise_bind]
  | ok start =>
    by_cases hDT : data.cols * data.rows = 0
    · refine Or.inr ⟨.zeroDivisionError, ?_, Or.inr rfl⟩
      unfold gpnhConvexCoding
      simp only [hp, hs, Py.ok_bind]
      unfold gpnhIterate
      rw [if_pos hDT]
      rfl
    · obtain ⟨r, hr⟩ := hiter p hk hm start hs hDT
      exact Or.inl ⟨_, gpnhConvexCoding_of_steps hp hs hr⟩

end Reor
