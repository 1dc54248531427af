import Verif.Model.Failure
import Verif.Proofs.GPNHFixed
import Verif.Proofs.KernelAAFit
import Verif.Proofs.KernelAAObj
import Verif.Proofs.MTDDescent
import Verif.Proofs.MTDFit
import Verif.Proofs.GPNHCROM
import Verif.Proofs.FEMRun

/-!
Lemmas on the object left behind by an exception.
-/

namespace Reor

set_option linter.unusedSectionVars false

open scoped BigOperators Matrix
open Spec

namespace Run

variable {σ τ α β : Type}

@[simp] theorem pure_eq (a : α) : (pure a : Run σ α) = Run.ok a := rfl

@[simp] theorem ok_bind (a : α) (f : α → Run σ β) : (Run.ok a >>= f) = f a := rfl

theorem bind_eq_ok {x : Run σ α} {f : α → Run σ β} {b : β} :
    (x >>= f) = Run.ok b ↔ ∃ a, x = Run.ok a ∧ f a = Run.ok b := by
  cases x with
  | ok a =>
    constructor
    · intro h; exact ⟨a, rfl, h⟩
    · rintro ⟨a', h, h'⟩; cases h; exact h'
  | raise e s =>
    constructor
    · intro h; cases h
    · rintro ⟨a, h, -⟩; cases h
  | diverge =>
    constructor
    · intro h; cases h
    · rintro ⟨a, h, -⟩; cases h

theorem bind_eq_raise {x : Run σ α} {f : α → Run σ β} {e : PyErr} {s : σ} :
    (x >>= f) = Run.raise e s ↔
      x = Run.raise e s ∨ ∃ a, x = Run.ok a ∧ f a = Run.raise e s := by
  cases x with
  | ok a =>
    constructor
    · intro h; exact Or.inr ⟨a, rfl, h⟩
    · rintro (h | ⟨a', h, h'⟩)
      · cases h
      · cases h; exact h'
  | raise e' s' =>
    constructor
    · intro h; cases h; exact Or.inl rfl
    · rintro (h | ⟨a', h, -⟩) <;> cases h
      rfl
  | diverge =>
    constructor
    · intro h; cases h
    · rintro (h | ⟨a', h, -⟩) <;> cases h

theorem lift_eq_raise {s s' : σ} {x : Py α} {e : PyErr} :
    Run.lift s x = Run.raise e s' ↔ x = Py.raise e ∧ s' = s := by
  cases x <;> simp [Run.lift, eq_comm]

theorem lift_eq_ok {s : σ} {x : Py α} {a : α} : Run.lift s x = Run.ok a ↔ x = Py.ok a := by
  cases x <;> simp [Run.lift]

theorem within_eq_raise {f : σ → τ} {x : Run σ α} {e : PyErr} {t : τ} :
    Run.within f x = Run.raise e t ↔ ∃ s, x = Run.raise e s ∧ t = f s := by
  cases x with
  | ok a => simp [Run.within]
  | raise e' s' =>
    simp only [Run.within, Run.raise.injEq]
    constructor
    · rintro ⟨rfl, rfl⟩; exact ⟨s', ⟨rfl, rfl⟩, rfl⟩
    · rintro ⟨s, ⟨rfl, rfl⟩, rfl⟩; exact ⟨rfl, rfl⟩
  | diverge => simp [Run.within]

theorem within_eq_ok {f : σ → τ} {x : Run σ α} {a : α} :
    Run.within f x = Run.ok a ↔ x = Run.ok a := by
  cases x <;> simp [Run.within]

@[simp] theorem toPy_ok (a : α) : (Run.ok a : Run σ α).toPy = Py.ok a := rfl
@[simp] theorem toPy_raise (e : PyErr) (s : σ) : (Run.raise e s : Run σ α).toPy = Py.raise e := rfl

@[simp] theorem toPy_bind (x : Run σ α) (f : α → Run σ β) :
    (x >>= f).toPy = x.toPy >>= fun a => (f a).toPy := by
  cases x <;> rfl

@[simp] theorem toPy_lift (s : σ) (x : Py α) : (Run.lift s x).toPy = x := by cases x <;> rfl

@[simp] theorem toPy_within (f : σ → τ) (x : Run σ α) : (Run.within f x).toPy = x.toPy := by
  cases x <;> rfl

theorem toPy_ite {c : Prop} [Decidable c] (x y : Run σ α) :
    (if c then x else y).toPy = if c then x.toPy else y.toPy := by
  split_ifs <;> rfl

theorem toPy_eq_raise {x : Run σ α} {e : PyErr} :
    x.toPy = Py.raise e ↔ ∃ s, x = Run.raise e s := by
  cases x <;> simp [Run.toPy]

theorem toPy_eq_ok {x : Run σ α} {a : α} : x.toPy = Py.ok a ↔ x = Run.ok a := by
  cases x <;> simp [Run.toPy]

end Run

variable {K : Type} [Field K] [LinearOrder K] [IsStrictOrderedRing K]

/-! ### The loop -/

section Loop

variable {σ : Type}

theorem runPhasesF_toPy {evalCost : σ → σ × K} {require : Bool} {oldCost : K} :
    ∀ (phases : List (σ → Run σ σ)) (s : σ) (c : K),
      (runPhasesF evalCost require oldCost phases s c).toPy =
        runPhases evalCost require oldCost (phases.map fun p s => (p s).toPy) s c
  | [], s, c => rfl
  | p :: ps, s, c => by
    simp only [runPhasesF, runPhases, List.map_cons, Run.toPy_bind]
    congr 1
    funext x
    rw [Run.toPy_ite]
    split_ifs
    · rfl
    · exact runPhasesF_toPy ps _ _

theorem iterateLoopF_toPy {evalCost : σ → σ × K} {require : Bool} {tol : K}
    {phases : List (σ → Run σ σ)} :
    ∀ (is : List ℕ) (s : σ) (c : K) (last : Option ℕ) (tr : List K),
      (iterateLoopF evalCost require tol phases is s c last tr).toPy =
        iterateLoop evalCost require tol (phases.map fun p s => (p s).toPy) is s c last tr
  | [], s, c, last, tr => by cases last <;> rfl
  | i :: is, s, c, last, tr => by
    simp only [iterateLoopF, iterateLoop, Run.toPy_bind, runPhasesF_toPy]
    congr 1
    funext x
    rw [Run.toPy_ite]
    split_ifs
    · rfl
    · exact iterateLoopF_toPy is _ _ _ _

theorem iterateF_toPy {evalCost : σ → σ × K} {require : Bool} {tol : K} {maxIter : ℕ}
    {phases : List (σ → Run σ σ)} (s : σ) :
    (iterateF evalCost require tol maxIter phases s).toPy =
      iterate evalCost require tol maxIter (phases.map fun p s => (p s).toPy) s :=
  iterateLoopF_toPy _ _ _ _ _

/-- `post` holds for the result and `Left` at every exception. -/
def Run.Keeps {α : Type} (Left : σ → Prop) (post : α → Prop) (x : Run σ α) : Prop :=
  (∀ a, x = Run.ok a → post a) ∧ ∀ e s, x = Run.raise e s → Left s

theorem runPhasesF_keeps {evalCost : σ → σ × K} {require : Bool} {oldCost : K}
    {Inv Left : σ → Prop} (hL : ∀ s, Inv s → Left s) (he : ∀ s, Inv s → Inv (evalCost s).1) :
    ∀ {phases : List (σ → Run σ σ)}, (∀ p ∈ phases, ∀ s, Inv s → (p s).Keeps Left Inv) →
    ∀ {s : σ} {c : K}, Inv s →
      (runPhasesF evalCost require oldCost phases s c).Keeps Left fun r => Inv r.1
  | [], _, s, c, hs => by
    refine ⟨fun a h => ?_, fun e t h => ?_⟩
    · simp only [runPhasesF, Run.ok.injEq] at h; subst h; exact hs
    · simp [runPhasesF] at h
  | p :: ps, hp, s, c, hs => by
    obtain ⟨h1, h2⟩ := hp p (by simp) s hs
    refine ⟨fun a h => ?_, fun e t h => ?_⟩
    · simp only [runPhasesF] at h
      obtain ⟨s', hs', h⟩ := Run.bind_eq_ok.1 h
      split_ifs at h
      exact (runPhasesF_keeps hL he (fun q hq => hp q (by simp [hq])) (he _ (h1 _ hs'))).1 a h
    · simp only [runPhasesF] at h
      rcases Run.bind_eq_raise.1 h with h | ⟨s', hs', h⟩
      · exact h2 _ _ h
      · split_ifs at h
        · simp only [Run.raise.injEq] at h
          obtain ⟨-, rfl⟩ := h
          exact hL _ (he _ (h1 _ hs'))
        · exact (runPhasesF_keeps hL he (fun q hq => hp q (by simp [hq]))
            (he _ (h1 _ hs'))).2 e t h

theorem iterateLoopF_keeps {evalCost : σ → σ × K} {require : Bool} {tol : K}
    {Inv Left : σ → Prop} (hL : ∀ s, Inv s → Left s)
    (he : ∀ s, Inv s → Inv (evalCost s).1) {phases : List (σ → Run σ σ)}
    (hp : ∀ p ∈ phases, ∀ s, Inv s → (p s).Keeps Left Inv) :
    ∀ {is : List ℕ} {s : σ} {c : K} {last : Option ℕ} {tr : List K}, Inv s →
      (iterateLoopF evalCost require tol phases is s c last tr).Keeps Left fun r => Inv r.state
  | [], s, c, last, tr, hs => by
    cases last with
    | none =>
      refine ⟨fun a h => by simp [iterateLoopF] at h, fun e t h => ?_⟩
      simp only [iterateLoopF, Run.raise.injEq] at h
      obtain ⟨-, rfl⟩ := h; exact hL _ hs
    | some n =>
      refine ⟨fun a h => ?_, fun e t h => by simp [iterateLoopF] at h⟩
      simp only [iterateLoopF, Run.ok.injEq] at h; subst h; exact hs
  | i :: is, s, c, last, tr, hs => by
    have hq := runPhasesF_keeps (require := require) (oldCost := c) hL he hp (c := c) hs
    refine ⟨fun a h => ?_, fun e t h => ?_⟩
    · simp only [iterateLoopF] at h
      obtain ⟨r, hr, h⟩ := Run.bind_eq_ok.1 h
      have h1 := hq.1 r hr
      split_ifs at h
      · simp only [Run.ok.injEq] at h; subst h; exact h1
      · exact (iterateLoopF_keeps hL he hp h1).1 a h
    · simp only [iterateLoopF] at h
      rcases Run.bind_eq_raise.1 h with h | ⟨r, hr, h⟩
      · exact hq.2 e t h
      · have h1 := hq.1 r hr
        split_ifs at h
        exact (iterateLoopF_keeps hL he hp h1).2 e t h

theorem iterateF_keeps {evalCost : σ → σ × K} {require : Bool} {tol : K} {maxIter : ℕ}
    {Inv Left : σ → Prop} (hL : ∀ s, Inv s → Left s)
    (he : ∀ s, Inv s → Inv (evalCost s).1) {phases : List (σ → Run σ σ)}
    (hp : ∀ p ∈ phases, ∀ s, Inv s → (p s).Keeps Left Inv) {s : σ} (hs : Inv s) :
    (iterateF evalCost require tol maxIter phases s).Keeps Left fun r => Inv r.state :=
  iterateLoopF_keeps hL he hp (he _ hs)

theorem keeps_lift {α : Type} {Inv : σ → Prop} {post : α → Prop} {s : σ} {x : Py α} (hs : Inv s)
    (h : ∀ a, x = Py.ok a → post a) : (Run.lift s x).Keeps Inv post :=
  ⟨fun a ha => h a (Run.lift_eq_ok.1 ha), fun e t ht => by
    rw [(Run.lift_eq_raise.1 ht).2]; exact hs⟩

end Loop

/-! ### Initialisation -/

theorem furthestSumRowsF_toPy {env : Env K} {n : ℕ} (kernel : Matrix (Fin n) (Fin n) K) (k : ℕ)
    (kw : InitKwargs) (g : env.rng.G) :
    (furthestSumRowsF env kernel k kw g).toPy = furthestSumRows env kernel k kw g := by
  simp [furthestSumRowsF, furthestSumRows]

section GPNH

variable {env : Env K} {T D : ℕ}

theorem gpnhInitDictionaryF_toPy (data : Matrix (Fin T) (Fin D) K) (k : ℕ) (init : Option String)
    (kw : InitKwargs) (g : env.rng.G) :
    (gpnhInitDictionaryF env data k init kw g).toPy = gpnhInitDictionary env data k init kw g := by
  simp only [gpnhInitDictionaryF, gpnhInitDictionary, Run.toPy_ite, Run.toPy_lift, Run.toPy_raise,
    Run.toPy_bind, furthestSumRowsF_toPy, gpnhInitDictionaryFurthestSum, Run.pure_eq, Run.toPy_ok,
    Py.pure_eq]

theorem gpnhStartF_toPy (data : Matrix (Fin T) (Fin D) K) (k : ℕ) (init : Option String)
    (dictionary weights : Option (Arr2 K)) (ud uw : Bool) (kw : InitKwargs) (g : env.rng.G) :
    (gpnhStartF env data k init dictionary weights ud uw kw g).toPy =
      gpnhStart env data k init dictionary weights ud uw kw g := by
  simp only [gpnhStartF, gpnhStart, gpnhInitBothF, gpnhInitBoth, Run.toPy_ite, Run.toPy_lift,
    Run.toPy_bind, gpnhInitDictionaryF_toPy, Run.pure_eq, Run.toPy_ok, Py.pure_eq]

theorem gpnhIterateF_toPy {k : ℕ} (cfg : LSConfig K) (eps : K) (require : Bool) (tol : K)
    (maxIter : ℕ) (ud uw : Bool) (s : GPNHState T D k K) :
    (gpnhIterateF cfg eps require tol maxIter ud uw s).toPy =
      gpnhIterate cfg eps require tol maxIter ud uw s := by
  unfold gpnhIterateF gpnhIterate
  rw [Run.toPy_ite, iterateF_toPy]
  have : (List.map (fun p s => (p s).toPy)
      ((if ud = true then [GPNHState.updateDictionaryF (T := T) (D := D) (k := k) cfg eps] else []) ++
        if uw = true then [GPNHState.updateWeightsF cfg eps] else [])) =
      ((if ud = true then [GPNHState.updateDictionary cfg eps] else []) ++
        if uw = true then [GPNHState.updateWeights cfg eps] else []) := by
    cases ud <;> cases uw <;>
      simp [GPNHState.updateDictionaryF, GPNHState.updateWeightsF]
  rw [this, Run.toPy_raise]

theorem gpnhConvexCodingF_toPy (obj : GPNHObj env.rng) (data : Arr2 K)
    (dictionary weights : Option (Arr2 K)) (ud uw : Bool) (kw : InitKwargs) :
    (gpnhConvexCodingF env obj data dictionary weights ud uw kw).toPy =
      gpnhConvexCoding env obj data dictionary weights ud uw kw := by
  simp only [gpnhConvexCodingF, gpnhConvexCoding, Run.toPy_lift, Run.toPy_bind, Run.toPy_within,
    gpnhStartF_toPy, gpnhIterateF_toPy, Run.pure_eq, Run.toPy_ok, Py.pure_eq, GPNHObj.withState]

theorem gpnhFitTransformF_toPy (obj : GPNHObj env.rng) (data : Arr2 K)
    (dictionary weights : Option (Arr2 K)) (kw : InitKwargs) (ud uw : Bool) :
    (gpnhFitTransformF env obj data dictionary weights kw ud uw).toPy =
      gpnhFitTransform env obj data dictionary weights kw ud uw := by
  simp only [gpnhFitTransformF, gpnhFitTransform, Run.toPy_bind, gpnhConvexCodingF_toPy,
    Run.pure_eq, Run.toPy_ok, Py.pure_eq]

theorem gpnhTransformF_toPy (obj : GPNHObj env.rng) (data : Arr2 K) :
    (gpnhTransformF env obj data).toPy = gpnhTransform env obj data := by
  simp only [gpnhTransformF, gpnhTransform, Run.toPy_bind, gpnhConvexCodingF_toPy,
    Run.pure_eq, Run.toPy_ok, Py.pure_eq]

/-- Where the coding can fail, and what is left then. -/
theorem gpnhConvexCodingF_raise {obj : GPNHObj env.rng} {data : Arr2 K}
    {dictionary weights : Option (Arr2 K)} {ud uw : Bool} {kw : InitKwargs} {e : PyErr}
    {o : GPNHObj env.rng}
    (h : gpnhConvexCodingF env obj data dictionary weights ud uw kw = Run.raise e o) :
    let obj' := { obj with nComponents := defaultComponents obj.nComponents data.cols }
    (checkParams obj'.nComponents obj.maxIterations obj.tolerance = Py.raise e ∧ o = obj') ∨
    ∃ p, checkParams obj'.nComponents obj.maxIterations obj.tolerance = Py.ok p ∧
      ((∃ g, gpnhStartF env data.val p.1 obj.init dictionary weights ud uw kw obj.randomState =
          Run.raise e g ∧ o = { obj' with randomState := g }) ∨
      ∃ start, gpnhStart env data.val p.1 obj.init dictionary weights ud uw kw obj.randomState =
          Py.ok start ∧
        ∃ s, gpnhIterateF obj.ls obj.epsilonStates obj.require p.2.2 p.2.1 ud uw
            (GPNHState.initializeWorkspace obj.ls data.val start.1.2 start.1.1) = Run.raise e s ∧
          o = ({ obj' with randomState := start.2 } : GPNHObj env.rng).withState s) := by
  intro obj'
  unfold gpnhConvexCodingF at h
  rcases Run.bind_eq_raise.1 h with h | ⟨p, hp, h⟩
  · exact Or.inl (Run.lift_eq_raise.1 h)
  right
  refine ⟨p, Run.lift_eq_ok.1 hp, ?_⟩
  rcases Run.bind_eq_raise.1 h with h | ⟨start, hs, h⟩
  · exact Or.inl (Run.within_eq_raise.1 h)
  right
  refine ⟨start, ?_, ?_⟩
  · rw [← gpnhStartF_toPy, Run.within_eq_ok.1 hs]; rfl
  rcases Run.bind_eq_raise.1 h with h | ⟨r, hr, h⟩
  · exact Run.within_eq_raise.1 h
  · simp at h

theorem gpnhFitTransformF_raise {obj : GPNHObj env.rng} {data : Arr2 K}
    {dictionary weights : Option (Arr2 K)} {ud uw : Bool} {kw : InitKwargs} {e : PyErr}
    {o : GPNHObj env.rng}
    (h : gpnhFitTransformF env obj data dictionary weights kw ud uw = Run.raise e o) :
    gpnhConvexCodingF env obj data dictionary weights ud uw kw = Run.raise e o := by
  rcases Run.bind_eq_raise.1 h with h | ⟨r, hr, h⟩
  · exact h
  · simp at h

theorem gpnhTransformF_raise {obj : GPNHObj env.rng} {data : Arr2 K} {e : PyErr}
    {o : GPNHObj env.rng} (h : gpnhTransformF env obj data = Run.raise e o) :
    gpnhConvexCodingF env obj data obj.S none false true {} = Run.raise e o := by
  rcases Run.bind_eq_raise.1 h with h | ⟨r, hr, h⟩
  · exact h
  · simp at h

/-- A rejected setting is a ValueError. -/
theorem checkParams_raise {c m t : NumArg K} {e : PyErr} (h : checkParams c m t = Py.raise e) :
    e = .valueError := by
  by_cases hv : ValidParams c m t
  · obtain ⟨p, hp, -⟩ := checkParams_valid hv
    rw [hp] at h; simp at h
  · rw [checkParams_invalid hv] at h
    simpa using h.symm

/-- With `init='custom'` nothing is drawn before a rejection. -/
theorem gpnhStartF_custom_raise {data : Matrix (Fin T) (Fin D) K} {k : ℕ}
    {dictionary weights : Option (Arr2 K)} {ud uw : Bool} {kw : InitKwargs} {g g' : env.rng.G}
    {e : PyErr}
    (h : gpnhStartF env data k (some "custom") dictionary weights ud uw kw g = Run.raise e g') :
    g' = g := by
  unfold gpnhStartF at h
  rw [if_pos rfl] at h
  rcases Run.bind_eq_raise.1 h with h | ⟨w, -, h⟩
  · exact (Run.lift_eq_raise.1 h).2
  rcases Run.bind_eq_raise.1 h with h | ⟨d, -, h⟩
  · exact (Run.lift_eq_raise.1 h).2
  · simp at h

theorem gpnhStart_weights_given {data : Matrix (Fin T) (Fin D) K} {k : ℕ} {init : Option String}
    {dictionary weights : Option (Arr2 K)} {kw : InitKwargs} {g : env.rng.G}
    {start : (Matrix (Fin k) (Fin D) K × Matrix (Fin T) (Fin k) K) × env.rng.G}
    (h : gpnhStart env data k init dictionary weights true false kw g = Py.ok start) :
    weights = some (Arr2.of start.1.2) := by
  by_cases hc : init = some "custom"
  · subst hc
    exact (gpnhStart_custom h).2.1
  unfold gpnhStart at h
  rw [if_neg hc, if_neg (by simp), if_pos ⟨rfl, rfl⟩] at h
  obtain ⟨w, hw, h⟩ := Py.bind_eq_ok.1 h
  obtain ⟨d, -, h⟩ := Py.bind_eq_ok.1 h
  simp only [Py.pure_eq, Py.ok.injEq] at h
  subst h
  exact (gpnhCheckInitWeights_ok hw).1

theorem gpnhStart_stochastic (hR : env.rng.Lawful) {k : ℕ} (hk : 1 ≤ k)
    {X : Matrix (Fin T) (Fin D) K} {init : Option String}
    {dictionary weights : Option (Arr2 K)} {ud uw : Bool} {kw : InitKwargs} {g : env.rng.G}
    (hw : (init = some "custom" ∨ uw = false) → ∀ W, weights = some W → RowStochastic W.val)
    {start : (Matrix (Fin k) (Fin D) K × Matrix (Fin T) (Fin k) K) × env.rng.G}
    (h : gpnhStart env X k init dictionary weights ud uw kw g = Py.ok start) :
    RowStochastic start.1.2 := by
  by_cases hc : init = some "custom"
  · subst hc
    exact hw (Or.inl rfl) _ (gpnhStart_custom h).2.1
  cases uw with
  | true => exact gpnhStart_rowStochastic hR hk hc h
  | false =>
    cases ud with
    | true => exact hw (Or.inr rfl) _ (gpnhStart_weights_given h)
    | false =>
      unfold gpnhStart at h
      rw [if_neg hc, if_neg (by simp), if_neg (by simp)] at h
      unfold gpnhInitBoth at h
      obtain ⟨d, -, h⟩ := Py.bind_eq_ok.1 h
      obtain ⟨w, hw', h⟩ := Py.bind_eq_ok.1 h
      simp only [Py.pure_eq, Py.ok.injEq] at h
      subst h
      exact gpnhInitWeights_ok hR hk hw'

/-- The parts of the solver state that an update cannot change before it fails. -/
theorem gpnhIterateF_keeps {k : ℕ} {cfg : LSConfig K} {eps : K} {require : Bool} {tol : K}
    {maxIter : ℕ} {ud uw : Bool} {Inv : GPNHState T D k K → Prop}
    (hd : ud = true → ∀ x x', Inv x → x.updateDictionary cfg eps = Py.ok x' → Inv x')
    (hw : uw = true → ∀ x x', Inv x → x.updateWeights cfg eps = Py.ok x' → Inv x')
    (hc : ∀ x y : GPNHState T D k K, y.S = x.S → y.Gamma = x.Gamma → y.fSMem = x.fSMem →
      y.fGammaMem = x.fGammaMem → y.alphaGamma = x.alphaGamma → Inv x → Inv y)
    {s : GPNHState T D k K} (hs : Inv s) :
    (gpnhIterateF cfg eps require tol maxIter ud uw s).Keeps Inv fun r => Inv r.state := by
  unfold gpnhIterateF
  by_cases hDT : D * T = 0
  · rw [if_pos hDT]
    refine ⟨fun a h => by simp at h, fun e t h => ?_⟩
    simp only [Run.raise.injEq] at h
    obtain ⟨-, rfl⟩ := h; exact hs
  · rw [if_neg hDT]
    refine iterateF_keeps (fun _ h => h) (fun _ h => h) ?_ hs
    intro p hp x hx
    have hp : (ud = true ∧ p = GPNHState.updateDictionaryF cfg eps) ∨
        (uw = true ∧ p = GPNHState.updateWeightsF cfg eps) := by
      cases ud <;> cases uw <;> simp at hp ⊢ <;> exact hp
    rcases hp with ⟨h1, rfl⟩ | ⟨h1, rfl⟩
    · refine keeps_lift (hc x _ ?_ ?_ ?_ ?_ ?_ hx) fun a ha => hd h1 x a hx ha
      all_goals simp only [GPNHState.prepareDictionary_eq]
    · refine keeps_lift (hc x _ ?_ ?_ ?_ ?_ ?_ hx) fun a ha => hw h1 x a hx ha
      all_goals simp only [GPNHState.prepareWeights_eq]

theorem gpnhIterateF_left {k : ℕ} {cfg : LSConfig K} {eps : K} {require : Bool} {tol : K}
    {maxIter : ℕ} {ud uw : Bool} {s t : GPNHState T D k K} {e : PyErr}
    (h : gpnhIterateF cfg eps require tol maxIter ud uw s = Run.raise e t) :
    (ud = false → t.S = s.S) ∧ (uw = false → t.Gamma = s.Gamma) := by
  constructor
  · rintro rfl
    exact (gpnhIterateF_keeps (Inv := fun x => x.S = s.S) (fun h => by simp at h)
      (fun _ x x' hx h => by
        obtain ⟨lam, hl⟩ := GPNHState.updateWeights_post h
        exact hl.S.trans hx) (fun x y h1 _ _ _ _ hx => h1.trans hx) rfl).2 e t h
  · rintro rfl
    exact (gpnhIterateF_keeps (Inv := fun x => x.Gamma = s.Gamma)
      (fun _ x x' hx h => by
        obtain ⟨lam, hl⟩ := GPNHState.updateDictionary_post h
        exact hl.Gamma.trans hx) (fun h => by simp at h)
      (fun x y _ h1 _ _ _ hx => h1.trans hx) rfl).2 e t h

theorem gpnhIterateF_left_stochastic {k : ℕ} {cfg : LSConfig K} (h1 : cfg.Safe) (hk : 1 ≤ k)
    {eps : K} {require : Bool} {tol : K} {maxIter : ℕ} {ud uw : Bool} {s t : GPNHState T D k K}
    {e : PyErr} (hs : RowStochastic s.Gamma) (ha : 0 ≤ s.alphaGamma)
    (h : gpnhIterateF cfg eps require tol maxIter ud uw s = Run.raise e t) :
    RowStochastic t.Gamma :=
  ((gpnhIterateF_keeps
    (Inv := fun x => RowStochastic x.Gamma ∧ (0 ≤ cfg.alphaMax → 0 ≤ x.alphaGamma))
    (fun _ x x' ⟨hx, hxa⟩ h => by
      obtain ⟨lam, hl⟩ := GPNHState.updateDictionary_post h
      rw [hl.Gamma, hl.alphaGamma]; exact ⟨hx, hxa⟩)
    (fun _ x x' ⟨hx, hxa⟩ h => by
      obtain ⟨lam, hl⟩ := GPNHState.updateWeights_post h
      obtain ⟨hl0, hl1⟩ := hl.range.unit h1 (fun h => projected_slope_nonpos hk hx (hxa h))
      refine ⟨?_, fun h0 => ?_⟩
      · rw [hl.Gamma]
        exact rowStochastic_step hx (projectRows_rowStochastic hk _) hl0 hl1
      · obtain ⟨b, q, hq, hb⟩ := hl.alpha
        rw [hb]; exact nextSpgAlpha_nonneg hq h0)
    (fun x y _ h1 _ _ h2 hx => by rw [h1, h2]; exact hx) ⟨hs, fun _ => ha⟩).2 e t h).1

/-- With a line search that remembers at least one cost only the check of the cost and the division by
the number of entries fail. -/
theorem gpnhIterateF_error {k : ℕ} {cfg : LSConfig K} {eps : K} {require : Bool} {tol : K}
    {maxIter : ℕ} (hm : 0 < maxIter) {ud uw : Bool} {s t : GPNHState T D k K} {e : PyErr}
    (hS : s.fSMem.length = cfg.memory) (hG : s.fGammaMem.length = cfg.memory)
    (h : gpnhIterateF cfg eps require tol maxIter ud uw s = Run.raise e t) :
    (e = .zeroDivisionError ∧ D * T = 0) ∨ (e = .indexError ∧ cfg.memory = 0) ∨
      (e = .runtimeError ∧ require = true) := by
  have h' : gpnhIterate cfg eps require tol maxIter ud uw s = Py.raise e := by
    rw [← gpnhIterateF_toPy, h]; rfl
  unfold gpnhIterate at h'
  by_cases hDT : D * T = 0
  · rw [if_pos hDT] at h'
    exact Or.inl ⟨by simpa using h'.symm, hDT⟩
  · rw [if_neg hDT] at h'
    have hinv : ∀ p ∈ (if ud then [GPNHState.updateDictionary (T := T) (D := D) (k := k) cfg eps]
        else []) ++ (if uw then [GPNHState.updateWeights cfg eps] else []),
        ∀ x x' : GPNHState T D k K, x.fSMem.length = cfg.memory ∧ x.fGammaMem.length = cfg.memory →
          p x = Py.ok x' → x'.fSMem.length = cfg.memory ∧ x'.fGammaMem.length = cfg.memory := by
      intro p hp x x' hx h
      rcases mem_phases hp with ⟨-, rfl⟩ | ⟨-, rfl⟩
      · obtain ⟨lam, hl⟩ := GPNHState.updateDictionary_post h
        have := List.length_pos_of_ne_nil hl.memNe
        rw [hl.fSMem, hl.fGammaMem]
        exact ⟨by simp only [List.length_append, List.length_tail, List.length_singleton]; omega,
          hx.2⟩
      · obtain ⟨lam, hl⟩ := GPNHState.updateWeights_post h
        have := List.length_pos_of_ne_nil hl.memNe
        rw [hl.fSMem, hl.fGammaMem]
        exact ⟨hx.1,
          by simp only [List.length_append, List.length_tail, List.length_singleton]; omega⟩
    rcases iterate_raise (Inv := fun x => x.fSMem.length = cfg.memory ∧
        x.fGammaMem.length = cfg.memory) (fun _ h => h) hinv ⟨hS, hG⟩ hm h' with
      ⟨p, hp, x, hx, hxp⟩ | ⟨h, h2⟩
    · rcases mem_phases hp with ⟨-, rfl⟩ | ⟨-, rfl⟩
      · obtain ⟨h1, h2⟩ := GPNHState.updateDictionary_raise hxp
        exact Or.inr (Or.inl ⟨h2, by rw [← hx.1, h1]; rfl⟩)
      · obtain ⟨h1, h2⟩ := GPNHState.updateWeights_raise hxp
        exact Or.inr (Or.inl ⟨h2, by rw [← hx.2, h1]; rfl⟩)
    · exact Or.inr (Or.inr ⟨h, h2⟩)

theorem defaultComponents_some {c : NumArg K} {n : ℕ} (h : c ≠ .none) : defaultComponents c n = c := by
  cases c <;> simp_all [defaultComponents]

theorem defaultComponents_idem (c : NumArg K) (n : ℕ) :
    defaultComponents (defaultComponents c n) n = defaultComponents c n := by
  cases c <;> rfl

theorem gpnhConvexCodingF_failed {obj o : GPNHObj env.rng} {data : Arr2 K}
    {dictionary weights : Option (Arr2 K)} {kw : InitKwargs} {ud uw : Bool} {e : PyErr}
    (h : gpnhConvexCodingF env obj data dictionary weights ud uw kw = Run.raise e o) :
    o = { obj with
      nComponents := o.nComponents, randomState := o.randomState, Gamma := o.Gamma, S := o.S } ∧
    o.nComponents = defaultComponents obj.nComponents data.cols ∧
    ((o.Gamma = obj.Gamma ∧ o.S = obj.S ∧ e ≠ .runtimeError ∧ e ≠ .zeroDivisionError) ∨
      ∃ (k : ℕ) (G : Matrix (Fin data.rows) (Fin k) K) (S : Matrix (Fin k) (Fin data.cols) K),
        o.nComponents = .int k ∧ 1 ≤ k ∧ o.Gamma = some (Arr2.of G) ∧ o.S = some (Arr2.of S) ∧
        ((e = .zeroDivisionError ∧ data.cols * data.rows = 0) ∨
          (e = .indexError ∧ obj.ls.memory = 0) ∨ (e = .runtimeError ∧ obj.require = true)) ∧
        (ud = false → uw = true → dictionary = some (Arr2.of S)) ∧
        (ud = true → uw = false → weights = some (Arr2.of G))) := by
  rcases gpnhConvexCodingF_raise h with ⟨hc, rfl⟩ | ⟨p, hp, h⟩
  · refine ⟨rfl, rfl, Or.inl ⟨rfl, rfl, ?_, ?_⟩⟩
    · rw [checkParams_raise hc]; simp
    · rw [checkParams_raise hc]; simp
  · rcases h with ⟨g, hg, rfl⟩ | ⟨start, hst, s, hs, rfl⟩
    · have hg' := congrArg Run.toPy hg
      rw [gpnhStartF_toPy] at hg'
      have hi := gpnhStart_raise hg'
      exact ⟨rfl, rfl, Or.inl ⟨rfl, rfl, hi.ne.1, hi.ne.2⟩⟩
    · obtain ⟨-, hk, -, hk1, hm, -⟩ := checkParams_ok hp
      refine ⟨rfl, rfl, Or.inr ⟨p.1, s.Gamma, s.S, hk, by exact_mod_cast hk1, rfl, rfl, ?_, ?_, ?_⟩⟩
      · exact gpnhIterateF_error (by exact_mod_cast hm) (by simp [GPNHState.initializeWorkspace])
          (by simp [GPNHState.initializeWorkspace]) hs
      · rintro rfl rfl
        rw [(gpnhIterateF_left hs).1 rfl]
        exact gpnhStart_dictionary hst
      · rintro rfl rfl
        rw [(gpnhIterateF_left hs).2 rfl]
        exact gpnhStart_weights_given hst

theorem gpnhConvexCodingF_failed_stochastic (hR : env.rng.Lawful) {obj o : GPNHObj env.rng}
    (hls : obj.ls.Safe) {data : Arr2 K}
    {dictionary weights : Option (Arr2 K)} {kw : InitKwargs} {ud uw : Bool} {e : PyErr}
    (hw : (obj.init = some "custom" ∨ uw = false) → ∀ W, weights = some W → RowStochastic W.val)
    (h : gpnhConvexCodingF env obj data dictionary weights ud uw kw = Run.raise e o) :
    o.Gamma = obj.Gamma ∨ ∃ G, o.Gamma = some G ∧ RowStochastic G.val := by
  rcases gpnhConvexCodingF_raise h with ⟨hc, rfl⟩ | ⟨p, hp, h⟩
  · exact Or.inl rfl
  · rcases h with ⟨g, hg, rfl⟩ | ⟨start, hst, s, hs, rfl⟩
    · exact Or.inl rfl
    · obtain ⟨-, -, -, hk1, -, -⟩ := checkParams_ok hp
      exact Or.inr ⟨_, rfl, gpnhIterateF_left_stochastic hls hk1
        (gpnhStart_stochastic hR hk1 hw hst) zero_le_one hs⟩

/-- With `init='custom'` a call that failed fails again, leaving the same object. -/
theorem gpnhConvexCodingF_again {obj o : GPNHObj env.rng} (hinit : obj.init = some "custom")
    {data : Arr2 K}
    {dictionary weights : Option (Arr2 K)} {kw : InitKwargs} {ud uw : Bool} {e : PyErr}
    (h : gpnhConvexCodingF env obj data dictionary weights ud uw kw = Run.raise e o) :
    gpnhConvexCodingF env o data dictionary weights ud uw kw = Run.raise e o := by
  rcases gpnhConvexCodingF_raise h with ⟨hc, rfl⟩ | ⟨p, hp, h⟩
  · simp only [gpnhConvexCodingF, defaultComponents_idem]
    simp only at hc
    rw [hc]; rfl
  · simp only at hp
    rcases h with ⟨g, hg, rfl⟩ | ⟨start, hst, s, hs, rfl⟩
    · have hg' := hg
      rw [hinit] at hg'
      obtain rfl := gpnhStartF_custom_raise hg'
      simp only [gpnhConvexCodingF, defaultComponents_idem, hp, Run.lift, Run.ok_bind]
      rw [hg]; rfl
    · have hst' := hst
      rw [hinit] at hst'
      have hg := (gpnhStart_custom hst').2.2
      rw [hg]
      have hF : gpnhStartF env data.val p.1 obj.init dictionary weights ud uw kw obj.randomState =
          Run.ok start := by
        rw [← gpnhStartF_toPy] at hst
        exact Run.toPy_eq_ok.1 hst
      simp only [gpnhConvexCodingF, defaultComponents_idem, GPNHObj.withState, hp, Run.lift,
        Run.ok_bind, hF, Run.within, hs, hg]
      rfl

end GPNH

section KAA

variable {env : Env K} {n k : ℕ}

theorem kaaInitDictionaryF_toPy (kernel : Matrix (Fin n) (Fin n) K) (k : ℕ) (init : Option String)
    (kw : InitKwargs) (g : env.rng.G) :
    (kaaInitDictionaryF env kernel k init kw g).toPy = kaaInitDictionary env kernel k init kw g := by
  simp only [kaaInitDictionaryF, kaaInitDictionary, Run.toPy_ite, Run.toPy_lift, Run.toPy_raise,
    Run.toPy_bind, furthestSumRowsF_toPy, kaaInitDictionaryFurthestSum, Run.pure_eq, Run.toPy_ok,
    Py.pure_eq]

theorem kaaStartF_toPy (kernel : Matrix (Fin n) (Fin n) K) (k : ℕ) (init : Option String)
    (dictionary weights : Option (Arr2 K)) (ud uw : Bool) (kw : InitKwargs) (g : env.rng.G) :
    (kaaStartF env kernel k init dictionary weights ud uw kw g).toPy =
      kaaStart env kernel k init dictionary weights ud uw kw g := by
  simp only [kaaStartF, kaaStart, kaaInitBothF, kaaInitBoth, Run.toPy_ite, Run.toPy_lift,
    Run.toPy_bind, kaaInitDictionaryF_toPy, Run.pure_eq, Run.toPy_ok, Py.pure_eq]

theorem KAAState.updateDictionaryF_toPy (cfg : LSConfig K) (delta : K) (s : KAAState n k K) :
    (s.updateDictionaryF cfg delta).toPy = s.updateDictionary cfg delta := by
  simp only [updateDictionaryF, updateDictionary, Run.toPy_bind, Run.toPy_lift, Run.toPy_ite,
    Run.pure_eq, Run.toPy_ok, Py.pure_eq]

theorem kaaIterateF_toPy (cfg : LSConfig K) (delta : K) (require : Bool) (tol : K)
    (maxIter : ℕ) (ud uw : Bool) (s : KAAState n k K) :
    (kaaIterateF cfg delta require tol maxIter ud uw s).toPy =
      kaaIterate cfg delta require tol maxIter ud uw s := by
  unfold kaaIterateF kaaIterate
  rw [iterateF_toPy]
  have : (List.map (fun p s => (p s).toPy)
      ((if ud = true then [KAAState.updateDictionaryF (n := n) (k := k) cfg delta] else []) ++
        if uw = true then [KAAState.updateWeightsF cfg delta] else [])) =
      ((if ud = true then [KAAState.updateDictionary cfg delta] else []) ++
        if uw = true then [KAAState.updateWeights cfg delta] else []) := by
    cases ud <;> cases uw <;>
      simp [KAAState.updateDictionaryF_toPy, KAAState.updateWeightsF]
  rw [this]

theorem kernelAASquareF_toPy (obj : KAAObj env.rng) (kernel : Matrix (Fin n) (Fin n) K)
    (dictionary weights : Option (Arr2 K)) (ud uw : Bool) (kw : InitKwargs) :
    (kernelAASquareF env obj kernel dictionary weights ud uw kw).toPy =
      kernelAASquare env obj kernel dictionary weights ud uw kw := by
  simp only [kernelAASquareF, kernelAASquare, Run.toPy_lift, Run.toPy_bind, Run.toPy_within,
    kaaStartF_toPy, kaaIterateF_toPy, Run.pure_eq, Run.toPy_ok, Py.pure_eq, KAAObj.withState]

theorem kernelAAF_toPy (obj : KAAObj env.rng) (kernel : Arr2 K)
    (dictionary weights : Option (Arr2 K)) (ud uw : Bool) (kw : InitKwargs) :
    (kernelAAF env obj kernel dictionary weights ud uw kw).toPy =
      kernelAA env obj kernel dictionary weights ud uw kw := by
  unfold kernelAAF kernelAA
  split_ifs
  · exact kernelAASquareF_toPy _ _ _ _ _ _ _
  · rfl

theorem kaaFitTransformF_toPy (obj : KAAObj env.rng) (kernel : Arr2 K)
    (dictionary weights : Option (Arr2 K)) (kw : InitKwargs) (ud uw : Bool) :
    (kaaFitTransformF env obj kernel dictionary weights kw ud uw).toPy =
      kaaFitTransform env obj kernel dictionary weights kw ud uw := by
  simp only [kaaFitTransformF, kaaFitTransform, Run.toPy_bind, kernelAAF_toPy,
    Run.pure_eq, Run.toPy_ok, Py.pure_eq]

theorem kaaTransformF_toPy (obj : KAAObj env.rng) (kernel : Arr2 K) :
    (kaaTransformF env obj kernel).toPy = kaaTransform env obj kernel := by
  simp only [kaaTransformF, kaaTransform, Run.toPy_bind, kernelAAF_toPy,
    Run.pure_eq, Run.toPy_ok, Py.pure_eq]

theorem kernelAASquareF_raise {obj : KAAObj env.rng} {kernel : Matrix (Fin n) (Fin n) K}
    {dictionary weights : Option (Arr2 K)} {ud uw : Bool} {kw : InitKwargs} {e : PyErr}
    {o : KAAObj env.rng}
    (h : kernelAASquareF env obj kernel dictionary weights ud uw kw = Run.raise e o) :
    let obj' := { obj with nComponents := defaultComponents obj.nComponents n }
    (checkParams obj'.nComponents obj.maxIterations obj.tolerance = Py.raise e ∧ o = obj') ∨
    ∃ p, checkParams obj'.nComponents obj.maxIterations obj.tolerance = Py.ok p ∧
      ((∃ g, kaaStartF env kernel p.1 obj.init dictionary weights ud uw kw obj.randomState.start =
          Run.raise e g ∧ o = { obj' with randomState := obj.randomState.after g }) ∨
      ∃ start, kaaStart env kernel p.1 obj.init dictionary weights ud uw kw
          obj.randomState.start = Py.ok start ∧
        ∃ s, kaaIterateF obj.ls obj.delta obj.require p.2.2 p.2.1 ud uw
            (KAAState.initializeWorkspace obj.ls kernel start.1.2 start.1.1) = Run.raise e s ∧
          o = ({ obj' with randomState := obj.randomState.after start.2 } :
            KAAObj env.rng).withState kernel s) := by
  intro obj'
  unfold kernelAASquareF at h
  rcases Run.bind_eq_raise.1 h with h | ⟨p, hp, h⟩
  · exact Or.inl (Run.lift_eq_raise.1 h)
  right
  refine ⟨p, Run.lift_eq_ok.1 hp, ?_⟩
  rcases Run.bind_eq_raise.1 h with h | ⟨start, hs, h⟩
  · exact Or.inl (Run.within_eq_raise.1 h)
  right
  refine ⟨start, ?_, ?_⟩
  · rw [← kaaStartF_toPy, Run.within_eq_ok.1 hs]; rfl
  rcases Run.bind_eq_raise.1 h with h | ⟨r, hr, h⟩
  · exact Run.within_eq_raise.1 h
  · simp at h

theorem kaaFitTransformF_raise {obj : KAAObj env.rng} {kernel : Arr2 K}
    {dictionary weights : Option (Arr2 K)} {ud uw : Bool} {kw : InitKwargs} {e : PyErr}
    {o : KAAObj env.rng}
    (h : kaaFitTransformF env obj kernel dictionary weights kw ud uw = Run.raise e o) :
    kernelAAF env obj kernel dictionary weights ud uw kw = Run.raise e o := by
  rcases Run.bind_eq_raise.1 h with h | ⟨r, hr, h⟩
  · exact h
  · simp at h

theorem kaaTransformF_raise {obj : KAAObj env.rng} {kernel : Arr2 K} {e : PyErr}
    {o : KAAObj env.rng} (h : kaaTransformF env obj kernel = Run.raise e o) :
    kernelAAF env obj kernel obj.C none false true {} = Run.raise e o := by
  rcases Run.bind_eq_raise.1 h with h | ⟨r, hr, h⟩
  · exact h
  · simp at h

/-- An invariant of the finished updates holds at every exception of the loop. -/
theorem kaaIterateF_keeps {cfg : LSConfig K} {delta : K} {require : Bool} {tol : K}
    {maxIter : ℕ} {ud uw : Bool} {A : Matrix (Fin n) (Fin n) K}
    {Inv : Matrix (Fin n) (Fin k) K → Matrix (Fin k) (Fin n) K → K → K → Prop}
    (hd : ud = true → ∀ s s' lam, Inv s.S s.C s.alphaS s.alphaC → KAAState.Good A s →
      KAAState.DictPost cfg s s' lam → Inv s'.S s'.C s'.alphaS s'.alphaC)
    (hw : uw = true → ∀ s s' lam, Inv s.S s.C s.alphaS s.alphaC → KAAState.Good A s →
      KAAState.WeightsPost cfg s s' lam → Inv s'.S s'.C s'.alphaS s'.alphaC)
    {s : KAAState n k K} (hg : s.Good A) (hs : Inv s.S s.C s.alphaS s.alphaC) :
    (kaaIterateF cfg delta require tol maxIter ud uw s).Keeps
      (fun x => Inv x.S x.C x.alphaS x.alphaC)
      fun r => KAAState.Good A r.state ∧
        Inv r.state.S r.state.C r.state.alphaS r.state.alphaC := by
  unfold kaaIterateF
  refine iterateF_keeps (Inv := fun x => KAAState.Good A x ∧ Inv x.S x.C x.alphaS x.alphaC)
    (fun _ h => h.2) ?_ ?_ ⟨hg, hs⟩
  · intro x ⟨hx, hi⟩
    refine ⟨KAAState.evaluateCost_good hx, ?_⟩
    rw [KAAState.evaluateCost_eq _ _ hx.alpha]
    exact hi
  · intro p hp x ⟨hx, hi⟩
    have hp : (ud = true ∧ p = KAAState.updateDictionaryF cfg delta) ∨
        (uw = true ∧ p = KAAState.updateWeightsF cfg delta) := by
      cases ud <;> cases uw <;> simp at hp ⊢ <;> exact hp
    rcases hp with ⟨h1, rfl⟩ | ⟨h1, rfl⟩
    · refine ⟨fun a ha => ?_, fun e t ht => ?_⟩
      · have ha : x.updateDictionary cfg delta = Py.ok a := by
          rw [← KAAState.updateDictionaryF_toPy, ha]; rfl
        obtain ⟨lam, hl⟩ := KAAState.updateDictionary_post hx ha
        exact ⟨hl.good hx, hd h1 _ _ _ hi hx hl⟩
      · rcases Run.bind_eq_raise.1 ht with ht | ⟨y, hy, ht⟩
        · rw [(Run.lift_eq_raise.1 ht).2, KAAState.prepareDictionary_eq _ _ hx.alpha]
          exact hi
        · obtain ⟨lam, hl, -⟩ := KAAState.updateDictionaryCore_post hx (Run.lift_eq_ok.1 hy)
          have hy := hd h1 _ _ _ hi hx hl
          have hgy := hl.good hx
          split_ifs at ht
          obtain ⟨g, i, hp⟩ := KAAState.prepareScaleFactors_eq delta y
          rw [(Run.lift_eq_raise.1 ht).2, hp]
          exact hy
    · refine keeps_lift ?_ fun a ha => ?_
      · simp only [KAAState.prepareWeights_eq _ _ hx.alpha]
        exact hi
      · obtain ⟨lam, hl⟩ := KAAState.updateWeights_post hx ha
        exact ⟨hl.good hx, hw h1 _ _ _ hi hx hl⟩

theorem kaaIterateF_left {cfg : LSConfig K} {delta : K} {require : Bool} {tol : K}
    {maxIter : ℕ} {ud uw : Bool} {A : Matrix (Fin n) (Fin n) K} {s t : KAAState n k K} {e : PyErr}
    (hg : s.Good A) (h : kaaIterateF cfg delta require tol maxIter ud uw s = Run.raise e t) :
    (ud = false → t.C = s.C) ∧ (uw = false → t.S = s.S) := by
  constructor
  · rintro rfl
    exact (kaaIterateF_keeps (Inv := fun _ C _ _ => C = s.C) (fun h => by simp at h)
      (fun _ x x' lam hx _ hl => hl.C.trans hx) hg rfl).2 e t h
  · rintro rfl
    exact (kaaIterateF_keeps (Inv := fun S _ _ _ => S = s.S)
      (fun _ x x' lam hx _ hl => hl.S.trans hx) (fun h => by simp at h) hg rfl).2 e t h

theorem kaaIterateF_left_stochastic {cfg : LSConfig K} (h1 : cfg.Safe) {delta : K}
    {require : Bool} {tol : K} {maxIter : ℕ} {ud uw : Bool} {A : Matrix (Fin n) (Fin n) K}
    {s t : KAAState n k K} {e : PyErr} (hg : s.Good A) (haS : 0 ≤ s.alphaS) (haC : 0 ≤ s.alphaC)
    (h : kaaIterateF cfg delta require tol maxIter ud uw s = Run.raise e t) :
    (1 ≤ k → RowStochastic s.S → RowStochastic t.S) ∧
    (1 ≤ n → RowStochastic s.C → RowStochastic t.C) := by
  constructor
  · intro hk hs
    refine ((kaaIterateF_keeps (Inv := fun S _ aS _ => RowStochastic S ∧ (0 ≤ cfg.alphaMax → 0 ≤ aS))
      ?_ ?_ hg ⟨hs, fun _ => haS⟩).2 e t h).1
    · intro _ x x' lam hx _ hl
      rw [hl.S, hl.alphaS]; exact hx
    · intro _ x x' lam ⟨hx, hxa⟩ _ hl
      obtain ⟨hl0, hl1⟩ := hl.range.unit h1 (fun h => projected_slope_nonpos hk hx (hxa h))
      refine ⟨?_, fun h0 => ?_⟩
      · rw [hl.S]
        exact rowStochastic_step hx (projectRows_rowStochastic hk _) hl0 hl1
      · obtain ⟨b, q, hq, hb⟩ := hl.alpha
        rw [hb]; exact nextSpgAlpha_nonneg hq h0
  · intro hn hs
    refine ((kaaIterateF_keeps (Inv := fun _ C _ aC => RowStochastic C ∧ (0 ≤ cfg.alphaMax → 0 ≤ aC))
      ?_ ?_ hg ⟨hs, fun _ => haC⟩).2 e t h).1
    · intro _ x x' lam ⟨hx, hxa⟩ _ hl
      obtain ⟨hl0, hl1⟩ := hl.range.unit h1 (fun h => projected_slope_nonpos hn hx (hxa h))
      refine ⟨?_, fun h0 => ?_⟩
      · rw [hl.C]
        exact rowStochastic_step hx (projectRows_rowStochastic hn _) hl0 hl1
      · obtain ⟨b, q, hq, hb⟩ := hl.alpha
        rw [hb]; exact nextSpgAlpha_nonneg hq h0
    · intro _ x x' lam hx _ hl
      rw [hl.C, hl.alphaC]; exact hx

theorem kaaIterateF_error {cfg : LSConfig K} {delta : K} {require : Bool} {tol : K} {maxIter : ℕ}
    (hm : 0 < maxIter) {ud uw : Bool} {A : Matrix (Fin n) (Fin n) K} {s t : KAAState n k K}
    {e : PyErr} (hg : s.Good A) (hS : s.fSMem.length = cfg.memory)
    (hC : s.fCMem.length = cfg.memory) (hA : s.fAlphaMem.length = cfg.memory)
    (h : kaaIterateF cfg delta require tol maxIter ud uw s = Run.raise e t) :
    (e = .indexError ∧ cfg.memory = 0) ∨ (e = .runtimeError ∧ require = true) := by
  have h' : kaaIterate cfg delta require tol maxIter ud uw s = Py.raise e := by
    rw [← kaaIterateF_toPy, h]; rfl
  have hinv : ∀ p ∈ (if ud then [KAAState.updateDictionary (n := n) (k := k) cfg delta] else []) ++
      (if uw then [KAAState.updateWeights cfg delta] else []), ∀ x x' : KAAState n k K,
      x.Good A ∧ x.fSMem.length = cfg.memory ∧ x.fCMem.length = cfg.memory ∧
        x.fAlphaMem.length = cfg.memory → p x = Py.ok x' →
      x'.Good A ∧ x'.fSMem.length = cfg.memory ∧ x'.fCMem.length = cfg.memory ∧
        x'.fAlphaMem.length = cfg.memory := by
    intro p hp x x' ⟨hx, hxS, hxC, hxA⟩ h
    rcases kaa_mem_phases hp with ⟨-, rfl⟩ | ⟨-, rfl⟩
    · obtain ⟨lam, hl⟩ := KAAState.updateDictionary_post hx h
      have := List.length_pos_of_ne_nil hl.memNe
      refine ⟨hl.good hx, by rw [hl.fSMem]; exact hxS, ?_, ?_⟩
      · rw [hl.fCMem]
        simp only [List.length_append, List.length_tail, List.length_singleton]; omega
      · unfold KAAState.updateDictionary at h
        obtain ⟨y, hy, h⟩ := Py.bind_eq_ok.1 h
        obtain ⟨-, -, hyA⟩ := KAAState.updateDictionaryCore_post hx hy
        by_cases hdel : delta > 0
        · rw [if_pos hdel] at h
          obtain ⟨g, i, a, m, rfl, hm'⟩ := KAAState.updateScaleFactors_ok h
          simp only
          rw [hm', hyA, hxA]
        · rw [if_neg hdel] at h
          simp only [Py.pure_eq, Py.ok.injEq] at h
          rw [← h, hyA, hxA]
    · obtain ⟨lam, hl⟩ := KAAState.updateWeights_post hx h
      have := List.length_pos_of_ne_nil hl.memNe
      refine ⟨hl.good hx, ?_, by rw [hl.fCMem]; exact hxC, by rw [hl.fAlphaMem]; exact hxA⟩
      rw [hl.fSMem]
      simp only [List.length_append, List.length_tail, List.length_singleton]; omega
  have hev : ∀ x : KAAState n k K, x.Good A ∧ x.fSMem.length = cfg.memory ∧
      x.fCMem.length = cfg.memory ∧ x.fAlphaMem.length = cfg.memory →
      (x.evaluateCost delta).1.Good A ∧ (x.evaluateCost delta).1.fSMem.length = cfg.memory ∧
      (x.evaluateCost delta).1.fCMem.length = cfg.memory ∧
      (x.evaluateCost delta).1.fAlphaMem.length = cfg.memory := by
    intro x ⟨hx, h⟩
    refine ⟨KAAState.evaluateCost_good hx, ?_⟩
    rw [KAAState.evaluateCost_eq _ _ hx.alpha]
    exact h
  rcases iterate_raise (Inv := fun x : KAAState n k K => x.Good A ∧ x.fSMem.length = cfg.memory ∧
      x.fCMem.length = cfg.memory ∧ x.fAlphaMem.length = cfg.memory) hev hinv ⟨hg, hS, hC, hA⟩ hm
      h' with ⟨p, hp, x, ⟨hx, hxS, hxC, hxA⟩, hxp⟩ | h
  · rcases kaa_mem_phases hp with ⟨-, rfl⟩ | ⟨-, rfl⟩
    · obtain ⟨h1 | h1, h2⟩ := KAAState.updateDictionary_raise hx hxp
      · exact Or.inl ⟨h2, by rw [← hxC, h1]; rfl⟩
      · exact Or.inl ⟨h2, by rw [← hxA, h1]; rfl⟩
    · obtain ⟨h1, h2⟩ := KAAState.updateWeights_raise hx hxp
      exact Or.inl ⟨h2, by rw [← hxS, h1]; rfl⟩
  · exact Or.inr h

theorem Arr2.of_cast_square {A : Arr2 K} (h : A.cols = A.rows) : Arr2.of (A.cast rfl h) = A := by
  obtain ⟨m, n, v⟩ := A
  obtain rfl : n = m := h
  rfl

theorem RandomArg.after_start {R : Rng K} (r : RandomArg R) : r.after r.start = r := by
  cases r <;> rfl

theorem kaaStartF_custom_raise {A : Matrix (Fin n) (Fin n) K} {k : ℕ}
    {dictionary weights : Option (Arr2 K)} {ud uw : Bool} {kw : InitKwargs} {g g' : env.rng.G}
    {e : PyErr}
    (h : kaaStartF env A k (some "custom") dictionary weights ud uw kw g = Run.raise e g') :
    g' = g := by
  unfold kaaStartF at h
  rw [if_pos rfl] at h
  rcases Run.bind_eq_raise.1 h with h | ⟨w, -, h⟩
  · exact (Run.lift_eq_raise.1 h).2
  rcases Run.bind_eq_raise.1 h with h | ⟨d, -, h⟩
  · exact (Run.lift_eq_raise.1 h).2
  · simp at h

theorem kaaStart_weights_given {A : Matrix (Fin n) (Fin n) K} {k : ℕ} {init : Option String}
    {dictionary weights : Option (Arr2 K)} {kw : InitKwargs} {g : env.rng.G}
    {start : (Matrix (Fin k) (Fin n) K × Matrix (Fin n) (Fin k) K) × env.rng.G}
    (h : kaaStart env A k init dictionary weights true false kw g = Py.ok start) :
    weights = some (Arr2.of start.1.2) := by
  by_cases hc : init = some "custom"
  · subst hc
    exact (kaaStart_custom h).2.1
  unfold kaaStart at h
  rw [if_neg hc, if_neg (by simp), if_pos ⟨rfl, rfl⟩] at h
  obtain ⟨w, hw, h⟩ := Py.bind_eq_ok.1 h
  obtain ⟨d, -, h⟩ := Py.bind_eq_ok.1 h
  simp only [Py.pure_eq, Py.ok.injEq] at h
  subst h
  exact (gpnhCheckInitWeights_ok hw).1

theorem kernelAAF_failed {obj o : KAAObj env.rng} {kernel : Arr2 K}
    {dictionary weights : Option (Arr2 K)} {kw : InitKwargs} {ud uw : Bool} {e : PyErr}
    (h : kernelAAF env obj kernel dictionary weights ud uw kw = Run.raise e o) :
    o = { obj with
      nComponents := o.nComponents, randomState := o.randomState, Kmat := o.Kmat, S := o.S,
      C := o.C } ∧
    (kernel.cols ≠ kernel.rows → o = obj ∧ e = .valueError) ∧
    (kernel.cols = kernel.rows →
      o.nComponents = defaultComponents obj.nComponents kernel.rows) ∧
    ((o.S = obj.S ∧ o.C = obj.C ∧ o.Kmat = obj.Kmat ∧ e ≠ .runtimeError) ∨
      ∃ (k : ℕ) (S : Matrix (Fin kernel.rows) (Fin k) K) (C : Matrix (Fin k) (Fin kernel.rows) K),
        o.nComponents = .int k ∧ 1 ≤ k ∧ o.S = some (Arr2.of S) ∧ o.C = some (Arr2.of C) ∧
        o.Kmat = some kernel ∧
        ((e = .indexError ∧ obj.ls.memory = 0) ∨ (e = .runtimeError ∧ obj.require = true)) ∧
        (ud = false → uw = true → dictionary = some (Arr2.of C)) ∧
        (ud = true → uw = false → weights = some (Arr2.of S))) := by
  unfold kernelAAF at h
  split_ifs at h with hsq
  · refine ⟨?_, fun hn => absurd hsq hn, ?_⟩
    · rcases kernelAASquareF_raise h with ⟨hc, rfl⟩ | ⟨p, hp, h⟩
      · rfl
      · rcases h with ⟨g, hg, rfl⟩ | ⟨start, hst, s, hs, rfl⟩ <;> rfl
    · rcases kernelAASquareF_raise h with ⟨hc, rfl⟩ | ⟨p, hp, h⟩
      · refine ⟨fun _ => rfl, Or.inl ⟨rfl, rfl, rfl, ?_⟩⟩
        rw [checkParams_raise hc]; simp
      · rcases h with ⟨g, hg, rfl⟩ | ⟨start, hst, s, hs, rfl⟩
        · have hg' := congrArg Run.toPy hg
          rw [kaaStartF_toPy] at hg'
          have hi := kaaStart_raise hg'
          exact ⟨fun _ => rfl, Or.inl ⟨rfl, rfl, rfl, hi.ne.1⟩⟩
        · obtain ⟨-, hk, -, hk1, hm, -⟩ := checkParams_ok hp
          have hgood := KAAState.initializeWorkspace_good obj.ls (kernel.cast rfl hsq) start.1.2
            start.1.1
          refine ⟨fun _ => rfl, Or.inr ⟨p.1, s.S, s.C, hk, hk1, rfl, rfl, ?_, ?_, ?_, ?_⟩⟩
          · simp only [KAAObj.withState, Arr2.of_cast_square]
          · exact kaaIterateF_error hm hgood
              (by simp [KAAState.initializeWorkspace]) (by simp [KAAState.initializeWorkspace])
              (by simp [KAAState.initializeWorkspace]) hs
          · rintro rfl rfl
            rw [(kaaIterateF_left hgood hs).1 rfl]
            exact kaaStart_dictionary hst
          · rintro rfl rfl
            rw [(kaaIterateF_left hgood hs).2 rfl]
            exact kaaStart_weights_given hst
  · simp only [Run.raise.injEq] at h
    obtain ⟨rfl, rfl⟩ := h
    exact ⟨rfl, fun _ => ⟨rfl, rfl⟩, fun h => absurd h hsq, Or.inl ⟨rfl, rfl, rfl, by simp⟩⟩

theorem kernelAAF_failed_seed {obj o : KAAObj env.rng} {kernel : Arr2 K}
    {dictionary weights : Option (Arr2 K)} {kw : InitKwargs} {ud uw : Bool} {e : PyErr}
    (h : kernelAAF env obj kernel dictionary weights ud uw kw = Run.raise e o) {s : ℕ}
    (hs : obj.randomState = .seed s) : o.randomState = .seed s := by
  unfold kernelAAF at h
  split_ifs at h with hsq
  · rcases kernelAASquareF_raise h with ⟨hc, rfl⟩ | ⟨p, hp, h⟩
    · exact hs
    · rcases h with ⟨g, hg, rfl⟩ | ⟨start, hst, t, ht, rfl⟩
      · show obj.randomState.after g = _
        rw [hs]; rfl
      · show obj.randomState.after start.2 = _
        rw [hs]; rfl
  · simp only [Run.raise.injEq] at h
    obtain ⟨rfl, rfl⟩ := h
    exact hs

theorem kernelAAF_failed_stochastic (hR : env.rng.Lawful) {obj o : KAAObj env.rng}
    (hls : obj.ls.Safe) {kernel : Arr2 K}
    {dictionary weights : Option (Arr2 K)} {kw : InitKwargs} {ud uw : Bool} {e : PyErr}
    (h : kernelAAF env obj kernel dictionary weights ud uw kw = Run.raise e o) :
    (((obj.init = some "custom" ∨ uw = false) → ∀ W, weights = some W → RowStochastic W.val) →
      o.S = obj.S ∨ ∃ W, o.S = some W ∧ RowStochastic W.val) ∧
    (1 ≤ kernel.rows →
      ((obj.init = some "custom" ∨ ud = false) → ∀ C, dictionary = some C → RowStochastic C.val) →
      o.C = obj.C ∨ ∃ C, o.C = some C ∧ RowStochastic C.val) := by
  unfold kernelAAF at h
  split_ifs at h with hsq
  · rcases kernelAASquareF_raise h with ⟨hc, rfl⟩ | ⟨p, hp, h⟩
    · exact ⟨fun _ => Or.inl rfl, fun _ _ => Or.inl rfl⟩
    · rcases h with ⟨g, hg, rfl⟩ | ⟨start, hst, s, hs, rfl⟩
      · exact ⟨fun _ => Or.inl rfl, fun _ _ => Or.inl rfl⟩
      · obtain ⟨-, -, -, hk1, -, -⟩ := checkParams_ok hp
        obtain ⟨hS, hC⟩ := kaaIterateF_left_stochastic hls
          (KAAState.initializeWorkspace_good obj.ls (kernel.cast rfl hsq) start.1.2 start.1.1)
          zero_le_one zero_le_one hs
        exact ⟨fun hw => Or.inr ⟨_, rfl, hS hk1 (kaaStart_weights hR hk1 hw hst)⟩,
          fun hn hd => Or.inr ⟨_, rfl, hC hn (kaaStart_dictionary_stochastic hR hn hd hst)⟩⟩
  · simp only [Run.raise.injEq] at h
    obtain ⟨rfl, rfl⟩ := h
    exact ⟨fun _ => Or.inl rfl, fun _ _ => Or.inl rfl⟩

theorem kernelAASquareF_again {obj o : KAAObj env.rng} {A : Matrix (Fin n) (Fin n) K}
    {dictionary weights : Option (Arr2 K)} {kw : InitKwargs} {ud uw : Bool} {e : PyErr}
    (hinit : obj.init = some "custom" ∨ ∃ s, obj.randomState = .seed s)
    (h : kernelAASquareF env obj A dictionary weights ud uw kw = Run.raise e o) :
    kernelAASquareF env o A dictionary weights ud uw kw = Run.raise e o := by
  rcases kernelAASquareF_raise h with ⟨hc, rfl⟩ | ⟨p, hp, h⟩
  · simp only [kernelAASquareF, defaultComponents_idem]
    simp only at hc
    rw [hc]; rfl
  · simp only at hp
    rcases h with ⟨g, hg, rfl⟩ | ⟨start, hst, s, hs, rfl⟩
    · have hr : obj.randomState.after g = obj.randomState := by
        rcases hinit with hinit | ⟨s, hs⟩
        · have hg' := hg
          rw [hinit] at hg'
          rw [kaaStartF_custom_raise hg', RandomArg.after_start]
        · rw [hs]; rfl
      rw [hr]
      simp only [kernelAASquareF, defaultComponents_idem, hp, Run.lift, Run.ok_bind]
      rw [hg]
      show Run.raise _ _ = _
      beta_reduce
      rw [hr]
    · have hr : obj.randomState.after start.2 = obj.randomState := by
        rcases hinit with hinit | ⟨s, hs⟩
        · have hst' := hst
          rw [hinit] at hst'
          rw [(kaaStart_custom hst').2.2.1, RandomArg.after_start]
        · rw [hs]; rfl
      rw [hr]
      have hF : kaaStartF env A p.1 obj.init dictionary weights ud uw kw obj.randomState.start =
          Run.ok start := by
        rw [← kaaStartF_toPy] at hst
        exact Run.toPy_eq_ok.1 hst
      simp only [kernelAASquareF, defaultComponents_idem, KAAObj.withState, hp, Run.lift,
        Run.ok_bind, hF, Run.within, hs, hr]
      rfl

/-- With `init='custom'`, or with an integer as `random_state`, a call that failed fails again,
leaving the same object. -/
theorem kernelAAF_again {obj o : KAAObj env.rng} {kernel : Arr2 K}
    {dictionary weights : Option (Arr2 K)} {kw : InitKwargs} {ud uw : Bool} {e : PyErr}
    (hinit : obj.init = some "custom" ∨ ∃ s, obj.randomState = .seed s)
    (h : kernelAAF env obj kernel dictionary weights ud uw kw = Run.raise e o) :
    kernelAAF env o kernel dictionary weights ud uw kw = Run.raise e o := by
  unfold kernelAAF at h ⊢
  split_ifs at h ⊢ with hsq
  · exact kernelAASquareF_again hinit h
  · simp only [Run.raise.injEq] at h
    obtain ⟨rfl, rfl⟩ := h
    rfl

end KAA

section MTD

variable {env : Env K} {T D k p : ℕ}

theorem mtdStartF_toPy (data : Matrix (Fin T) (Fin D) K) (k p : ℕ) (init : Option String)
    (args : MTDArgs K) (fl : MTDFlags) (kw : InitKwargs) (g : env.rng.G) :
    (mtdStartF env data k p init args fl kw g).toPy =
      mtdStart env data k p init args fl kw g := by
  unfold mtdStartF
  rw [Run.toPy_ite]
  by_cases h : init = some "custom"
  · rw [if_pos h, Run.toPy_lift]
  · rw [if_neg h]
    unfold mtdStart
    rw [if_neg h]
    simp only [mtdStartDictionaryF, mtdStartDictionary, Run.toPy_bind, Run.toPy_lift, Run.toPy_ite,
      gpnhInitDictionaryF_toPy, Run.pure_eq, Run.toPy_ok, Py.pure_eq]
    rfl

theorem mtdSolveF_toPy (c : MTDConfig p K) (require : Bool) (tol : K) (maxIter : ℕ)
    (fl : MTDFlags) (X : Matrix (Fin T) (Fin D) K) (pt : MTDPoint T D k p K) :
    (mtdSolveF c require tol maxIter fl X pt).toPy = mtdSolve c require tol maxIter fl X pt := by
  unfold mtdSolveF mtdSolve mtdIterateF mtdIterate
  simp only [Run.toPy_ite, Run.toPy_raise, iterateF_toPy]
  have : (List.map (fun p s => (p s).toPy)
      ((if fl.updateDictionary = true then
          [MTDState.updateDictionaryF (T := T) (D := D) (k := k) c] else []) ++
        (if fl.updateWeights = true then [MTDState.updateWeightsF c] else []) ++
        (if fl.updateParameters = true then [MTDState.updateParametersF c] else []))) =
      ((if fl.updateDictionary = true then [MTDState.updateDictionary c] else []) ++
        (if fl.updateWeights = true then [MTDState.updateWeights c] else []) ++
        (if fl.updateParameters = true then [MTDState.updateParameters c] else [])) := by
    obtain ⟨a, b, d⟩ := fl
    cases a <;> cases b <;> cases d <;>
      simp [MTDState.updateDictionaryF, MTDState.updateWeightsF, MTDState.updateParametersF]
  rw [this]

theorem mtdConvexCodingF_toPy (obj : MTDObj env.rng p) (data : Arr2 K) (args : MTDArgs K)
    (fl : MTDFlags) (kw : InitKwargs) :
    (mtdConvexCodingF env obj data args fl kw).toPy =
      mtdConvexCoding env obj data args fl kw := by
  simp only [mtdConvexCodingF, mtdConvexCoding, Run.toPy_lift, Run.toPy_bind, Run.toPy_within,
    mtdStartF_toPy, mtdSolveF_toPy, Run.pure_eq, Run.toPy_ok, Py.pure_eq, MTDObj.withState]
  rfl

theorem mtdFitTransformF_toPy (obj : MTDObj env.rng p) (data : Arr2 K) (args : MTDArgs K)
    (fl : MTDFlags) (kw : InitKwargs) :
    (mtdFitTransformF env obj data args fl kw).toPy = mtdFitTransform env obj data args fl kw := by
  simp only [mtdFitTransformF, mtdFitTransform, Run.toPy_bind, mtdConvexCodingF_toPy,
    Run.pure_eq, Run.toPy_ok, Py.pure_eq]

theorem mtdTransformF_toPy (obj : MTDObj env.rng p) (data : Arr2 K) :
    (mtdTransformF env obj data).toPy = mtdTransform env obj data := by
  simp only [mtdTransformF, mtdTransform, Run.toPy_bind, mtdConvexCodingF_toPy,
    Run.pure_eq, Run.toPy_ok, Py.pure_eq]

theorem mtdConvexCodingF_raise {obj : MTDObj env.rng p} {data : Arr2 K} {args : MTDArgs K}
    {fl : MTDFlags} {kw : InitKwargs} {e : PyErr} {o : MTDObj env.rng p}
    (h : mtdConvexCodingF env obj data args fl kw = Run.raise e o) :
    let obj' := { obj with nComponents := defaultComponents obj.nComponents data.cols }
    (checkParams obj'.nComponents obj.maxIterations obj.tolerance = Py.raise e ∧ o = obj') ∨
    ∃ q, checkParams obj'.nComponents obj.maxIterations obj.tolerance = Py.ok q ∧
      ((∃ g, mtdStartF env data.val q.1 p obj.init args fl kw obj.randomState =
          Run.raise e g ∧ o = { obj' with randomState := g }) ∨
      ∃ start, mtdStart env data.val q.1 p obj.init args fl kw obj.randomState = Py.ok start ∧
        ∃ s, mtdSolveF obj.config obj.require q.2.2 q.2.1 fl data.val start.1 = Run.raise e s ∧
          o = ({ obj' with randomState := start.2 } : MTDObj env.rng p).withState s) := by
  intro obj'
  unfold mtdConvexCodingF at h
  rcases Run.bind_eq_raise.1 h with h | ⟨q, hq, h⟩
  · exact Or.inl (Run.lift_eq_raise.1 h)
  right
  refine ⟨q, Run.lift_eq_ok.1 hq, ?_⟩
  rcases Run.bind_eq_raise.1 h with h | ⟨start, hs, h⟩
  · exact Or.inl (Run.within_eq_raise.1 h)
  right
  refine ⟨start, ?_, ?_⟩
  · rw [← mtdStartF_toPy, Run.within_eq_ok.1 hs]; rfl
  rcases Run.bind_eq_raise.1 h with h | ⟨r, hr, h⟩
  · exact Run.within_eq_raise.1 h
  · simp at h

theorem mtdFitTransformF_raise {obj : MTDObj env.rng p} {data : Arr2 K} {args : MTDArgs K}
    {fl : MTDFlags} {kw : InitKwargs} {e : PyErr} {o : MTDObj env.rng p}
    (h : mtdFitTransformF env obj data args fl kw = Run.raise e o) :
    mtdConvexCodingF env obj data args fl kw = Run.raise e o := by
  rcases Run.bind_eq_raise.1 h with h | ⟨r, hr, h⟩
  · exact h
  · simp at h

theorem mtdTransformF_raise {obj : MTDObj env.rng p} {data : Arr2 K} {e : PyErr}
    {o : MTDObj env.rng p} (h : mtdTransformF env obj data = Run.raise e o) :
    mtdConvexCodingF env obj data obj.transformArgs
      { updateDictionary := false, updateWeights := true, updateParameters := false } {} =
        Run.raise e o := by
  rcases Run.bind_eq_raise.1 h with h | ⟨r, hr, h⟩
  · exact h
  · simp at h

/-- An invariant of the finished updates holds at every exception of the loop. -/
theorem mtdSolveF_keeps {c : MTDConfig p K} {require : Bool} {tol : K} {maxIter : ℕ}
    {fl : MTDFlags} {X : Matrix (Fin T) (Fin D) K} {pt : MTDPoint T D k p K}
    {P : MTDState T D k p K → Prop}
    (hP : ∀ s s', s.Good c → P s →
      ((fl.updateDictionary = true ∧ ∃ lam, MTDState.DictPost c s s' lam) ∨
       (fl.updateWeights = true ∧ ∃ lam, MTDState.WeightsPost c s s' lam) ∨
       (fl.updateParameters = true ∧ ∃ lam, MTDState.ParamsPost c s s' lam)) → P s')
    (hc : ∀ x y : MTDState T D k p K, y.S = x.S → y.Gamma = x.Gamma →
      y.orderWeights = x.orderWeights → y.transitionMatrices = x.transitionMatrices →
      y.alphaGamma = x.alphaGamma → y.alphaParameters = x.alphaParameters → P x → P y)
    (h0 : P (mtdInitialState c X pt)) :
    (mtdSolveF c require tol maxIter fl X pt).Keeps P fun r => r.state.Good c ∧ P r.state := by
  have hraise : ∀ e, (Run.raise e (mtdInitialState c X pt) :
      Run (MTDState T D k p K) (IterResult (MTDState T D k p K) K)).Keeps P
        fun r => r.state.Good c ∧ P r.state := by
    intro e
    refine ⟨fun a h => by simp at h, fun e t h => ?_⟩
    simp only [Run.raise.injEq] at h
    obtain ⟨-, rfl⟩ := h; exact h0
  unfold mtdSolveF mtdIterateF
  simp only
  by_cases hp : p = 0
  · rw [if_pos hp]; exact hraise _
  rw [if_neg hp]
  by_cases hDT : D * T = 0
  · rw [if_pos hDT]; exact hraise _
  rw [if_neg hDT]
  by_cases hk : k ≠ 1 ∧ T = c.maxLag
  · rw [if_pos hk]; exact hraise _
  rw [if_neg hk]
  refine iterateF_keeps (evalCost := fun s => (s, s.evaluateCost c))
    (Inv := fun s => s.Good c ∧ P s) (fun _ h => h.2) (fun _ h => h) ?_ ⟨mtdInitialState_good c X pt, h0⟩
  intro f hf x ⟨hx, hPx⟩
  have hf : (fl.updateDictionary = true ∧ f = MTDState.updateDictionaryF c) ∨
      (fl.updateWeights = true ∧ f = MTDState.updateWeightsF c) ∨
      (fl.updateParameters = true ∧ f = MTDState.updateParametersF c) := by
    obtain ⟨a, b, d⟩ := fl
    cases a <;> cases b <;> cases d <;> simp at hf ⊢ <;> tauto
  rcases hf with ⟨h1, rfl⟩ | ⟨h1, rfl⟩ | ⟨h1, rfl⟩
  · have hpre : (x.prepareDictionary c).S = x.S ∧ (x.prepareDictionary c).Gamma = x.Gamma ∧
        (x.prepareDictionary c).orderWeights = x.orderWeights ∧
        (x.prepareDictionary c).transitionMatrices = x.transitionMatrices ∧
        (x.prepareDictionary c).alphaGamma = x.alphaGamma ∧
        (x.prepareDictionary c).alphaParameters = x.alphaParameters := by
      unfold MTDState.prepareDictionary
      rw [GPNHState.prepareDictionary_eq]
      exact ⟨rfl, rfl, rfl, rfl, rfl, rfl⟩
    obtain ⟨p1, p2, p3, p4, p5, p6⟩ := hpre
    refine keeps_lift (hc x _ p1 p2 p3 p4 p5 p6 hPx) fun a ha => ?_
    obtain ⟨lam, hl⟩ := MTDState.updateDictionary_post hx ha
    exact ⟨hl.good, hP _ _ hx hPx (Or.inl ⟨h1, lam, hl⟩)⟩
  · refine keeps_lift (hc x _ ?_ ?_ ?_ ?_ ?_ ?_ hPx) fun a ha => ?_
    iterate 6 exact rfl
    obtain ⟨lam, hl⟩ := MTDState.updateWeights_post hx ha
    exact ⟨hl.good, hP _ _ hx hPx (Or.inr (Or.inl ⟨h1, lam, hl⟩))⟩
  · refine keeps_lift (hc x _ ?_ ?_ ?_ ?_ ?_ ?_ hPx) fun a ha => ?_
    iterate 6 exact rfl
    obtain ⟨lam, hl⟩ := MTDState.updateParameters_post hx ha
    exact ⟨hl.good, hP _ _ hx hPx (Or.inr (Or.inr ⟨h1, lam, hl⟩))⟩

theorem mtdSolveF_left {c : MTDConfig p K} {require : Bool} {tol : K} {maxIter : ℕ}
    {fl : MTDFlags} {X : Matrix (Fin T) (Fin D) K} {pt : MTDPoint T D k p K}
    {e : PyErr} {t : MTDState T D k p K}
    (h : mtdSolveF c require tol maxIter fl X pt = Run.raise e t) :
    (fl.updateDictionary = false → t.S = pt.1) ∧
    (fl.updateWeights = false → t.Gamma = pt.2.1) ∧
    (fl.updateParameters = false →
      t.orderWeights = pt.2.2.1 ∧ t.transitionMatrices = pt.2.2.2) := by
  refine (mtdSolveF_keeps (P := fun s => (fl.updateDictionary = false → s.S = pt.1) ∧
    (fl.updateWeights = false → s.Gamma = pt.2.1) ∧
    (fl.updateParameters = false →
      s.orderWeights = pt.2.2.1 ∧ s.transitionMatrices = pt.2.2.2)) ?_ ?_ ?_).2 e t h
  · intro s s' hg ⟨h1, h2, h3⟩ hs
    rcases hs with ⟨hf, _, hl⟩ | ⟨hf, _, hl⟩ | ⟨hf, _, hl⟩
    · refine ⟨fun h => absurd hf (by simp [h]), by rw [hl.Gamma]; exact h2, ?_⟩
      rw [hl.orderWeights, hl.transitionMatrices]; exact h3
    · refine ⟨by rw [hl.S]; exact h1, fun h => absurd hf (by simp [h]), ?_⟩
      rw [hl.orderWeights, hl.transitionMatrices]; exact h3
    · exact ⟨by rw [hl.S]; exact h1, by rw [hl.Gamma]; exact h2,
        fun h => absurd hf (by simp [h])⟩
  · intro x y h1 h2 h3 h4 _ _ hx
    rw [h1, h2, h3, h4]; exact hx
  · exact ⟨fun _ => rfl, fun _ => rfl, fun _ => ⟨rfl, rfl⟩⟩

theorem mtdSolveF_left_stochastic {c : MTDConfig p K} (h1 : c.ls.Safe) (hk : 1 ≤ k) (hp : 1 ≤ p)
    {require : Bool} {tol : K} {maxIter : ℕ}
    {fl : MTDFlags} {X : Matrix (Fin T) (Fin D) K} {pt : MTDPoint T D k p K}
    {e : PyErr} {t : MTDState T D k p K}
    (h : mtdSolveF c require tol maxIter fl X pt = Run.raise e t) :
    (RowStochastic pt.2.1 → RowStochastic t.Gamma) ∧
    ((IsProb pt.2.2.1 ∧ ∀ i, ColStochastic (pt.2.2.2 i)) →
      IsProb t.orderWeights ∧ ∀ i, ColStochastic (t.transitionMatrices i)) := by
  constructor
  · intro hpt
    refine ((mtdSolveF_keeps (P := fun s => RowStochastic s.Gamma ∧
      (0 ≤ c.ls.alphaMax → 0 ≤ s.alphaGamma)) ?_ ?_ ⟨hpt, fun _ => zero_le_one⟩).2 e t h).1
    · intro s s' hg ⟨hs, ha⟩ h
      rcases h with ⟨hf, _, hl⟩ | ⟨hf, _, hl⟩ | ⟨hf, _, hl⟩
      · rw [hl.Gamma, hl.alphaGamma]; exact ⟨hs, ha⟩
      · refine ⟨hl.stochastic h1 hk ha hs, fun h0 => ?_⟩
        obtain ⟨b, q, hq, hb⟩ := hl.alpha
        rw [hb]; exact nextSpgAlpha_nonneg hq h0
      · rw [hl.Gamma, hl.alphaGamma]; exact ⟨hs, ha⟩
    · intro x y _ h2 _ _ h5 _ hx
      rw [h2, h5]; exact hx
  · intro hpt
    refine ((mtdSolveF_keeps (P := fun s => (IsProb s.orderWeights ∧
      ∀ i, ColStochastic (s.transitionMatrices i)) ∧
      (0 ≤ c.ls.alphaMax → 0 ≤ s.alphaParameters)) ?_ ?_ ⟨hpt, fun _ => zero_le_one⟩).2 e t h).1
    · intro s s' hg ⟨hs, ha⟩ h
      rcases h with ⟨hf, _, hl⟩ | ⟨hf, _, hl⟩ | ⟨hf, _, hl⟩
      · rw [hl.orderWeights, hl.transitionMatrices, hl.alphaParameters]; exact ⟨hs, ha⟩
      · rw [hl.orderWeights, hl.transitionMatrices, hl.alphaParameters]; exact ⟨hs, ha⟩
      · refine ⟨hl.stochastic h1 hk hp ha hs, fun h0 => ?_⟩
        obtain ⟨b, q, hq, hb⟩ := hl.alpha
        rw [hb]; exact nextSpgAlpha_nonneg hq h0
    · intro x y _ _ h3 h4 _ h6 hx
      rw [h3, h4, h6]; exact hx

theorem mtdSolveF_error {c : MTDConfig p K} {require : Bool} {tol : K} {maxIter : ℕ}
    (hm : 0 < maxIter) {fl : MTDFlags} {X : Matrix (Fin T) (Fin D) K} {pt : MTDPoint T D k p K}
    {e : PyErr} {t : MTDState T D k p K}
    (h : mtdSolveF c require tol maxIter fl X pt = Run.raise e t) :
    (e = .valueError ∧ p = 0) ∨ e = .zeroDivisionError ∨ e = .nonFinite ∨ e = .indexError ∨
      e = .runtimeError := by
  have h' : mtdSolve c require tol maxIter fl X pt = Py.raise e := by
    rw [← mtdSolveF_toPy, h]; rfl
  by_cases hp : p = 0
  · unfold mtdSolve at h'
    rw [if_pos hp] at h'
    exact Or.inl ⟨by simpa using h'.symm, hp⟩
  · exact Or.inr (mtdSolve_raise hp hm h')

theorem MTDInitErr.ne {e : PyErr} (h : MTDInitErr e) :
    e ≠ .runtimeError ∧ e ≠ .zeroDivisionError := by
  rcases h with h | rfl
  · exact h.ne
  · simp

theorem mtdStartF_custom_raise {data : Matrix (Fin T) (Fin D) K} {args : MTDArgs K}
    {fl : MTDFlags} {kw : InitKwargs} {g g' : env.rng.G} {e : PyErr}
    (h : mtdStartF env data k p (some "custom") args fl kw g = Run.raise e g') : g' = g := by
  unfold mtdStartF at h
  rw [if_pos rfl] at h
  exact (Run.lift_eq_raise.1 h).2

theorem mtdConvexCodingF_failed {obj o : MTDObj env.rng p} {data : Arr2 K} {args : MTDArgs K}
    {fl : MTDFlags} {kw : InitKwargs} {e : PyErr}
    (h : mtdConvexCodingF env obj data args fl kw = Run.raise e o) :
    o = { obj with nComponents := o.nComponents, randomState := o.randomState, vars := o.vars } ∧
    o.nComponents = defaultComponents obj.nComponents data.cols ∧
    ((o.vars = obj.vars ∧ e ≠ .runtimeError ∧ e ≠ .zeroDivisionError) ∨
      ∃ (k : ℕ) (G : Matrix (Fin data.rows) (Fin k) K) (S : Matrix (Fin k) (Fin data.cols) K)
        (w : Fin p → K) (A : Fin p → Matrix (Fin k) (Fin k) K),
        o.nComponents = .int k ∧ 1 ≤ k ∧ o.vars = some ⟨data.rows, data.cols, k, G, S, w, A⟩ ∧
        ((e = .valueError ∧ p = 0) ∨ e = .zeroDivisionError ∨ e = .nonFinite ∨ e = .indexError ∨
          e = .runtimeError) ∧
        (fl.updateDictionary = false → args.dictionary = some (Arr2.of S)) ∧
        (fl.updateWeights = false → args.weights = some (Arr2.of G)) ∧
        (fl.updateParameters = false → args.orderWeights = some (Arr1.of w) ∧
          args.transitionMatrices = some (Arr3.of A))) := by
  rcases mtdConvexCodingF_raise h with ⟨hc, rfl⟩ | ⟨q, hq, h⟩
  · refine ⟨rfl, rfl, Or.inl ⟨rfl, ?_, ?_⟩⟩ <;> (rw [checkParams_raise hc]; simp)
  · rcases h with ⟨g, hg, rfl⟩ | ⟨start, hst, s, hs, rfl⟩
    · have hg' := congrArg Run.toPy hg
      rw [mtdStartF_toPy] at hg'
      have hi := mtdStart_raise hg'
      exact ⟨rfl, rfl, Or.inl ⟨rfl, hi.ne.1, hi.ne.2⟩⟩
    · obtain ⟨-, hk, -, hk1, hm, -⟩ := checkParams_ok hq
      obtain ⟨l1, l2, l3⟩ := mtdSolveF_left hs
      refine ⟨rfl, rfl, Or.inr ⟨q.1, s.Gamma, s.S, s.orderWeights, s.transitionMatrices, hk, hk1,
        rfl, mtdSolveF_error hm hs, fun hf => ?_, fun hf => ?_, fun hf => ?_⟩⟩
      · rw [l1 hf]; exact mtdStart_dictionary hst (Or.inr hf)
      · rw [l2 hf]; exact mtdStart_weights hst (Or.inr hf)
      · rw [(l3 hf).1, (l3 hf).2]; exact mtdStart_parameters hst (Or.inr hf)

theorem mtdConvexCodingF_failed_stochastic (hR : env.rng.Lawful) (hp : 1 ≤ p)
    {obj o : MTDObj env.rng p} (hls : obj.ls.Safe) (hinit : obj.init ≠ some "custom")
    {data : Arr2 K} {args : MTDArgs K} {fl : MTDFlags} {kw : InitKwargs} {e : PyErr}
    (h : mtdConvexCodingF env obj data args fl kw = Run.raise e o) :
    o.vars = obj.vars ∨ ∃ v, o.vars = some v ∧
      (fl.updateWeights = true → RowStochastic v.Gamma) ∧
      (fl.updateParameters = true →
        IsProb v.orderWeights ∧ ∀ i, ColStochastic (v.transitionMatrices i)) := by
  rcases mtdConvexCodingF_raise h with ⟨hc, rfl⟩ | ⟨q, hq, h⟩
  · exact Or.inl rfl
  · rcases h with ⟨g, hg, rfl⟩ | ⟨start, hst, s, hs, rfl⟩
    · exact Or.inl rfl
    · obtain ⟨-, -, -, hk1, -, -⟩ := checkParams_ok hq
      obtain ⟨h1, h2⟩ := mtdSolveF_left_stochastic hls hk1 hp hs
      exact Or.inr ⟨_, rfl, fun hf => h1 (mtdStart_weights_drawn hR hk1 hinit hf hst),
        fun hf => h2 (mtdStart_parameters_drawn hR hk1 hp hinit hf hst)⟩

theorem mtdConvexCodingF_again {obj o : MTDObj env.rng p} (hinit : obj.init = some "custom")
    {data : Arr2 K} {args : MTDArgs K} {fl : MTDFlags} {kw : InitKwargs} {e : PyErr}
    (h : mtdConvexCodingF env obj data args fl kw = Run.raise e o) :
    mtdConvexCodingF env o data args fl kw = Run.raise e o := by
  rcases mtdConvexCodingF_raise h with ⟨hc, rfl⟩ | ⟨q, hq, h⟩
  · simp only [mtdConvexCodingF, defaultComponents_idem]
    simp only at hc
    rw [hc]; rfl
  · simp only at hq
    rcases h with ⟨g, hg, rfl⟩ | ⟨start, hst, s, hs, rfl⟩
    · have hg' := hg
      rw [hinit] at hg'
      obtain rfl := mtdStartF_custom_raise hg'
      simp only [mtdConvexCodingF, defaultComponents_idem, hq, Run.lift, Run.ok_bind]
      rw [hg]; rfl
    · have hst' := hst
      rw [hinit] at hst'
      have hg := (mtdStart_custom hst').2.2.2.2
      rw [hg]
      have hF : mtdStartF env data.val q.1 p obj.init args fl kw obj.randomState =
          Run.ok start := by
        rw [← mtdStartF_toPy] at hst
        exact Run.toPy_eq_ok.1 hst
      have hs' : mtdSolveF ⟨obj.lags, obj.epsilonStates, obj.epsilonWeights, obj.ls⟩ obj.require
          q.2.2 q.2.1 fl data.val start.1 = Run.raise e s := hs
      simp only [mtdConvexCodingF, defaultComponents_idem, MTDObj.withState, hq, Run.lift,
        Run.ok_bind, hF, Run.within, MTDObj.config, hs', hg]
      rfl

end MTD

section CROM

variable {env : Env K} {T k p : ℕ}

theorem cromSolveF_toPy (c : CROMConfig p K) (require : Bool) (tol : K) (maxIter : ℕ)
    (W : Matrix (Fin T) (Fin k) K) (w : Fin p → K) (A : Fin p → Matrix (Fin k) (Fin k) K) :
    (cromSolveF c require tol maxIter W w A).toPy = cromSolve c require tol maxIter W w A := by
  unfold cromSolveF cromSolve
  simp only [Run.toPy_ite, Run.toPy_raise, iterateF_toPy]
  have : (List.map (fun p s => (p s).toPy) [CROMState.updateParametersF (T := T) (k := k) c]) =
      [CROMState.updateParameters c] := by
    simp [CROMState.updateParametersF]
  rw [this]

theorem cromFitTransformF_toPy (obj : CROMObj env.rng p) (data : Arr2 K)
    (dictionary weights : Option (Arr2 K)) (kw : InitKwargs) (ud uw : Bool) :
    (cromFitTransformF env obj data dictionary weights kw ud uw).toPy =
      cromFitTransform env obj data dictionary weights kw ud uw := by
  unfold cromFitTransformF cromFitTransform
  simp only [Run.toPy_bind, Run.toPy_within, Run.toPy_lift, gpnhFitTransformF_toPy]
  cases hr : gpnhFitTransform env obj.base data dictionary weights kw ud uw with
  | ok r =>
    simp only [Py.ok_bind]
    cases hq : checkParams r.1.nComponents r.1.maxIterations r.1.tolerance with
    | ok q =>
      simp only [Py.ok_bind]
      obtain ⟨o, info, ho, rfl⟩ := gpnhFitTransform_eq_ok hr
      obtain ⟨p0, start, it, -, -, -, ho⟩ := gpnhConvexCoding_eq_ok ho
      simp only [Prod.mk.injEq] at ho
      obtain ⟨rfl, rfl⟩ := ho
      simp only [cromFitParametersF, cromFitParameters, Run.toPy_bind, Run.toPy_within,
        Run.toPy_lift, cromSolveF_toPy, Run.pure_eq, Run.toPy_ok, Py.pure_eq, Py.bind_assoc,
        Py.ok_bind, CROMObj.withState, CROMObj.config]
    | raise e => rfl
    | diverge => rfl
  | raise e => rfl
  | diverge => rfl

theorem cromTransformF_toPy (obj : CROMObj env.rng p) (data : Arr2 K) :
    (cromTransformF env obj data).toPy = cromTransform env obj data := by
  simp only [cromTransformF, cromTransform, Run.toPy_bind, Run.toPy_within, gpnhTransformF_toPy,
    Run.pure_eq, Run.toPy_ok, Py.pure_eq]

/-- Where a fit of the parameters can fail, and what is left then. -/
theorem cromFitTransformF_raise {obj : CROMObj env.rng p} {data : Arr2 K}
    {dictionary weights : Option (Arr2 K)} {kw : InitKwargs} {ud uw : Bool} {e : PyErr}
    {o : CROMObj env.rng p}
    (h : cromFitTransformF env obj data dictionary weights kw ud uw = Run.raise e o) :
    (∃ b, gpnhFitTransformF env obj.base data dictionary weights kw ud uw = Run.raise e b ∧
      o = { obj with base := b }) ∨
    ∃ r G q, gpnhFitTransform env obj.base data dictionary weights kw ud uw = Py.ok r ∧
      r.1.Gamma = some G ∧
      checkParams r.1.nComponents r.1.maxIterations r.1.tolerance = Py.ok q ∧
      cromFitParametersF env.rng { obj with base := r.1 } G q.2.2 q.2.1 = Run.raise e o := by
  unfold cromFitTransformF at h
  rcases Run.bind_eq_raise.1 h with h | ⟨r, hr, h⟩
  · exact Or.inl (Run.within_eq_raise.1 h)
  right
  have hr' : gpnhFitTransform env obj.base data dictionary weights kw ud uw = Py.ok r := by
    rw [← gpnhFitTransformF_toPy, Run.within_eq_ok.1 hr]; rfl
  obtain ⟨o', info, ho, rfl⟩ := gpnhFitTransform_eq_ok hr'
  obtain ⟨p0, start, it, hp0, -, -, ho⟩ := gpnhConvexCoding_eq_ok ho
  simp only [Prod.mk.injEq] at ho
  obtain ⟨rfl, rfl⟩ := ho
  rcases Run.bind_eq_raise.1 h with h | ⟨q, hq, h⟩
  · have := (Run.lift_eq_raise.1 h).1
    simp only at this
    rw [hp0] at this
    simp at this
  refine ⟨_, _, q, hr', rfl, Run.lift_eq_ok.1 hq, ?_⟩
  rcases Run.bind_eq_raise.1 h with h | ⟨o2, ho2, h⟩
  · exact h
  · simp at h

theorem cromFitParametersF_raise {obj : CROMObj env.rng p} {G : Arr2 K} {tol : K} {maxIter : ℕ}
    {e : PyErr} {o : CROMObj env.rng p}
    (h : cromFitParametersF env.rng obj G tol maxIter = Run.raise e o) :
    (o = obj ∧ e = .nonFinite) ∨
    ∃ w A, mtdDrawOrderWeights env.rng p obj.base.randomState = Py.ok w ∧
      mtdDrawTransitionMatrices env.rng G.cols p w.2 = Py.ok A ∧
      ∃ s, cromSolveF obj.config obj.base.require tol maxIter G.val w.1 A.1 = Run.raise e s ∧
        o = ({ obj with base := { obj.base with randomState := A.2 } } :
          CROMObj env.rng p).withState s := by
  unfold cromFitParametersF at h
  rcases Run.bind_eq_raise.1 h with h | ⟨w, hw, h⟩
  · obtain ⟨h', h2⟩ := Run.lift_eq_raise.1 h
    refine Or.inl ⟨h2, ?_⟩
    unfold mtdDrawOrderWeights at h'
    simp only at h'
    split_ifs at h'
    simpa using h'.symm
  rcases Run.bind_eq_raise.1 h with h | ⟨A, hA, h⟩
  · obtain ⟨h', h2⟩ := Run.lift_eq_raise.1 h
    exact Or.inl ⟨h2, mtdDrawTransitionMatrices_raise h'⟩
  right
  refine ⟨w, A, Run.lift_eq_ok.1 hw, Run.lift_eq_ok.1 hA, ?_⟩
  rcases Run.bind_eq_raise.1 h with h | ⟨r, hr, h⟩
  · exact Run.within_eq_raise.1 h
  · simp at h

theorem gpnhFitTransform_weights {obj : GPNHObj env.rng} {data : Arr2 K}
    {dictionary weights : Option (Arr2 K)} {kw : InitKwargs} {ud uw : Bool}
    {r : GPNHObj env.rng × Option (Arr2 K) × FitInfo K}
    (h : gpnhFitTransform env obj data dictionary weights kw ud uw = Py.ok r) :
    r = (r.1, r.1.Gamma, r.2.2) := by
  obtain ⟨o, info, -, rfl⟩ := gpnhFitTransform_eq_ok h
  rfl

theorem gpnhFitTransform_keeps {obj : GPNHObj env.rng} {data : Arr2 K}
    {dictionary weights : Option (Arr2 K)} {kw : InitKwargs} {ud uw : Bool}
    {r : GPNHObj env.rng × Option (Arr2 K) × FitInfo K} {G : Arr2 K}
    (h : gpnhFitTransform env obj data dictionary weights kw ud uw = Py.ok r)
    (hG : r.1.Gamma = some G) : (1 ≤ G.cols ∧ G.rows = data.rows) ∧ r.1.ls = obj.ls := by
  obtain ⟨o, info, ho, rfl⟩ := gpnhFitTransform_eq_ok h
  obtain ⟨p0, start, it, hp0, -, -, ho⟩ := gpnhConvexCoding_eq_ok ho
  simp only [Prod.mk.injEq] at ho
  obtain ⟨rfl, rfl⟩ := ho
  obtain rfl := Option.some.inj hG
  exact ⟨⟨(checkParams_ok hp0).2.2.2.1, rfl⟩, rfl⟩

/-- Where the coding is fitted, the fit of the parameters decides. -/
theorem cromFitTransformF_of_fit {obj : CROMObj env.rng p} {data : Arr2 K}
    {dictionary weights : Option (Arr2 K)} {kw : InitKwargs} {ud uw : Bool}
    {r : GPNHObj env.rng × Option (Arr2 K) × FitInfo K}
    (h : gpnhFitTransform env obj.base data dictionary weights kw ud uw = Py.ok r) :
    ∃ (G : Arr2 K) (q : ℕ × ℕ × K), r.1.Gamma = some G ∧
      cromFitTransformF env obj data dictionary weights kw ud uw =
        cromFitParametersF env.rng { obj with base := r.1 } G q.2.2 q.2.1 >>= fun o =>
          pure (o, some G, r.2.2) := by
  have hF := h
  rw [← gpnhFitTransformF_toPy] at hF
  have hF := Run.toPy_eq_ok.1 hF
  obtain ⟨o, info, ho, rfl⟩ := gpnhFitTransform_eq_ok h
  obtain ⟨p0, start, it, hp0, -, -, ho⟩ := gpnhConvexCoding_eq_ok ho
  simp only [Prod.mk.injEq] at ho
  obtain ⟨rfl, rfl⟩ := ho
  refine ⟨_, p0, rfl, ?_⟩
  unfold cromFitTransformF
  rw [hF]
  change (Run.lift _ (checkParams _ _ _) >>= _) = _
  simp only
  rw [hp0]
  rfl

theorem cromTransformF_raise {obj : CROMObj env.rng p} {data : Arr2 K} {e : PyErr}
    {o : CROMObj env.rng p} (h : cromTransformF env obj data = Run.raise e o) :
    ∃ b, gpnhTransformF env obj.base data = Run.raise e b ∧ o = { obj with base := b } := by
  unfold cromTransformF at h
  rcases Run.bind_eq_raise.1 h with h | ⟨r, hr, h⟩
  · exact Run.within_eq_raise.1 h
  · simp at h

theorem cromSolveF_left_stochastic {c : CROMConfig p K} (h1 : c.ls.Safe) (hk : 1 ≤ k) (hp : 1 ≤ p)
    {require : Bool} {tol : K} {maxIter : ℕ} {W : Matrix (Fin T) (Fin k) K} {w : Fin p → K}
    {A : Fin p → Matrix (Fin k) (Fin k) K} (hw : IsProb w) (hA : ∀ i, ColStochastic (A i))
    {e : PyErr} {t : CROMState T k p K}
    (h : cromSolveF c require tol maxIter W w A = Run.raise e t) :
    IsProb t.orderWeights ∧ ∀ i, ColStochastic (t.transitionMatrices i) := by
  set P : CROMState T k p K → Prop := fun s => (IsProb s.orderWeights ∧
      ∀ i, ColStochastic (s.transitionMatrices i)) ∧
      (0 ≤ c.ls.alphaMax → 0 ≤ s.alphaParameters) with hPdef
  have h0 : P (CROMState.initializeWorkspace c W w A) := ⟨⟨hw, hA⟩, fun _ => zero_le_one⟩
  have hg0 : ((CROMState.initializeWorkspace c W w A).toMTD c).Good c.toMTD := ⟨rfl, rfl⟩
  unfold cromSolveF at h
  simp only at h
  by_cases hp0 : p = 0
  · omega
  rw [if_neg hp0] at h
  by_cases hl : (∃ i, c.lags i = 0) ∧ c.maxLag < T
  · rw [if_pos hl] at h
    simp only [Run.raise.injEq] at h
    rw [← h.2]; exact h0.1
  rw [if_neg hl] at h
  by_cases hk1 : k ≠ 1 ∧ T = c.maxLag
  · rw [if_pos hk1] at h
    simp only [Run.raise.injEq] at h
    rw [← h.2]; exact h0.1
  rw [if_neg hk1] at h
  refine ((iterateF_keeps (evalCost := fun s : CROMState T k p K => (s, s.evaluateFitResidual c))
    (Inv := fun s => (s.toMTD c).Good c.toMTD ∧ P s) (Left := P) (fun _ h => h.2) (fun _ h => h) ?_
    ⟨hg0, h0⟩).2 e t h).1
  intro f hf x ⟨hx, hPx⟩
  simp only [List.mem_singleton] at hf
  subst hf
  refine keeps_lift (by exact hPx) fun a ha => ?_
  obtain ⟨lam, hl⟩ := MTDState.updateParameters_post hx (CROMState.updateParameters_ok ha)
  refine ⟨hl.good, hl.stochastic (c := c.toMTD) h1 hk hp hPx.2 hPx.1, fun h0 => ?_⟩
  obtain ⟨b, q, hq, hb⟩ := hl.alpha
  have : a.alphaParameters = (a.toMTD c).alphaParameters := rfl
  rw [this, hb]; exact nextSpgAlpha_nonneg hq h0

end CROM

section FEM

variable {P : Type} {T k e : ℕ}

theorem femStepF_toPy (comp : FEMComp P T k K) (solver : LPSolver K)
    (con : Option (FEMConstraints (k * T + e) K)) (require : Bool) (tol : K) (up uw : Bool)
    (n : ℕ) (s : FEMState P T k K) (c : K) :
    (femStepF comp solver con require tol up uw n s c).toPy =
      femStep comp solver con require tol up uw n s c := by
  unfold femStepF femStep
  cases up <;> cases uw <;>
    simp [femParametersPhaseF, femParametersPhase, femWeightsPhaseF, femWeightsPhase]

theorem femLoopF_toPy (comp : FEMComp P T k K) (solver : LPSolver K)
    (con : Option (FEMConstraints (k * T + e) K)) (require : Bool) (tol : K) (up uw : Bool) :
    ∀ (is : List ℕ) (s : FEMState P T k K) (c : K) (last : Option ℕ) (tr : List K) (fl : ℕ),
      (femLoopF comp solver con require tol up uw is s c last tr fl).toPy =
        femLoop comp solver con require tol up uw is s c last tr fl
  | [], s, c, last, tr, fl => by cases last <;> rfl
  | i :: is, s, c, last, tr, fl => by
    simp only [femLoopF, femLoop, Run.toPy_bind, femStepF_toPy]
    congr 1
    funext x
    rw [Run.toPy_ite]
    split_ifs
    · rfl
    · rfl
    · exact femLoopF_toPy comp solver con require tol up uw is _ _ _ _ _
    · exact femLoopF_toPy comp solver con require tol up uw is _ _ _ _ _

theorem femIterateF_toPy (comp : FEMComp P T k K) (solver : LPSolver K)
    (con : Option (FEMConstraints (k * T + e) K)) (require : Bool) (tol : K) (m : ℕ)
    (up uw : Bool) (s : FEMState P T k K) :
    (femIterateF comp solver con require tol m up uw s).toPy =
      femIterate comp solver con require tol m up uw s :=
  femLoopF_toPy _ _ _ _ _ _ _ _ _ _ _ _ _

theorem femKMeansRunF_toPy (R : Rng K) (solver : LPSolver K) (obj : FEMKMeansObj R)
    (data : Arr2 K) (args : FEMArgs K) :
    (femKMeansRunF R solver obj data args).toPy = femKMeansRun R solver obj data args := by
  simp only [femKMeansRunF, femKMeansRun, Run.toPy_lift, Run.toPy_bind, Run.toPy_within,
    Run.pure_eq, Run.toPy_ok, Py.pure_eq, FEMKMeansObj.withState]
  congr 1; funext q; congr 1; funext theta; congr 1; funext gamma; congr 1; funext tv
  congr 1; funext con
  exact congrArg (fun x => x >>= _) (femIterateF_toPy (e := auxParameters tv q.1 data.rows) _ _ con
    _ _ _ _ _ _)

theorem femKMeansFitTransformF_toPy (R : Rng K) (solver : LPSolver K) (obj : FEMKMeansObj R)
    (data : Arr2 K) (args : FEMArgs K) :
    (femKMeansFitTransformF R solver obj data args).toPy =
      femKMeansFitTransform R solver obj data args := by
  simp only [femKMeansFitTransformF, femKMeansFitTransform, Run.toPy_bind, femKMeansRunF_toPy,
    Run.pure_eq, Run.toPy_ok, Py.pure_eq]

theorem femKMeansTransformF_toPy (R : Rng K) (solver : LPSolver K) (obj : FEMKMeansObj R)
    (data : Arr2 K) :
    (femKMeansTransformF R solver obj data).toPy = femKMeansTransform R solver obj data := by
  simp only [femKMeansTransformF, femKMeansTransform, Run.toPy_bind, femKMeansRunF_toPy,
    Run.pure_eq, Run.toPy_ok, Py.pure_eq]

theorem femUpdateParameters_Gamma {comp : FEMComp P T k K} {s q : FEMState P T k K}
    (h : s.updateParameters comp = Py.ok q) : q.Gamma = s.Gamma := by
  unfold FEMState.updateParameters at h
  obtain ⟨θ, -, h⟩ := Py.bind_eq_ok.1 h
  simp only [Py.pure_eq, Py.ok.injEq] at h
  subst h; rfl

theorem femUpdateWeights_params {comp : FEMComp P T k K} {solver : LPSolver K}
    {con : Option (FEMConstraints (k * T + e) K)} {s : FEMState P T k K}
    {q : FEMState P T k K × Bool} (h : s.updateWeights comp solver con = Py.ok q) :
    q.1.params = s.params := by
  unfold FEMState.updateWeights at h
  by_cases h1 : k = 1
  · rw [if_pos h1] at h
    rw [← Py.ok.inj h]
  · rw [if_neg h1] at h
    cases con with
    | none => simp at h
    | some cc =>
      simp only at h
      generalize solver (weightsProgram cc (s.evaluateDistance comp).distanceMatrix) = o at h
      unfold FEMState.useSolution at h
      cases o with
      | value v => rw [← Py.ok.inj h]; rfl
      | failed => rw [← Py.ok.inj h]; rfl
      | noValue => simp at h
      | error e => simp at h

theorem femParametersPhaseF_keeps {comp : FEMComp P T k K} {require : Bool} {tol : K} {n : ℕ}
    {s : FEMState P T k K} {c : K} :
    (femParametersPhaseF comp require tol n s c).Keeps (fun t => t.Gamma = s.Gamma)
      (fun r => r.1.Gamma = s.Gamma) := by
  unfold femParametersPhaseF
  refine ⟨fun a h => ?_, fun e t h => ?_⟩
  · obtain ⟨q, hq, h⟩ := Run.bind_eq_ok.1 h
    obtain ⟨_, -, h⟩ := Run.bind_eq_ok.1 h
    simp only [Run.pure_eq, Run.ok.injEq] at h
    subst h
    exact (femUpdateParameters_Gamma (Run.lift_eq_ok.1 hq) : q.Gamma = s.Gamma)
  · rcases Run.bind_eq_raise.1 h with h | ⟨q, hq, h⟩
    · rw [(Run.lift_eq_raise.1 h).2]
    · rcases Run.bind_eq_raise.1 h with h | ⟨_, -, h⟩
      · rw [(Run.lift_eq_raise.1 h).2]
        exact (femUpdateParameters_Gamma (Run.lift_eq_ok.1 hq) : q.Gamma = s.Gamma)
      · simp at h

theorem femWeightsPhaseF_keeps {comp : FEMComp P T k K} {solver : LPSolver K}
    {con : Option (FEMConstraints (k * T + e) K)} {require : Bool} {tol : K} {n : ℕ}
    {s : FEMState P T k K} {c : K} :
    (femWeightsPhaseF comp solver con require tol n s c).Keeps (fun t => t.params = s.params)
      (fun r => r.1.1.params = s.params) := by
  unfold femWeightsPhaseF
  refine ⟨fun a h => ?_, fun e t h => ?_⟩
  · obtain ⟨q, hq, h⟩ := Run.bind_eq_ok.1 h
    obtain ⟨_, -, h⟩ := Run.bind_eq_ok.1 h
    simp only [Run.pure_eq, Run.ok.injEq] at h
    subst h
    exact femUpdateWeights_params (Run.lift_eq_ok.1 hq)
  · rcases Run.bind_eq_raise.1 h with h | ⟨q, hq, h⟩
    · rw [(Run.lift_eq_raise.1 h).2]; rfl
    · rcases Run.bind_eq_raise.1 h with h | ⟨_, -, h⟩
      · rw [(Run.lift_eq_raise.1 h).2]
        exact femUpdateWeights_params (Run.lift_eq_ok.1 hq)
      · simp at h

/-- What is not updated is still that of the start when an iteration ends or fails. -/
theorem femStepF_keeps {comp : FEMComp P T k K} {solver : LPSolver K}
    {con : Option (FEMConstraints (k * T + e) K)} {require : Bool} {tol : K} {up uw : Bool}
    {n : ℕ} {s : FEMState P T k K} {c : K} :
    (femStepF comp solver con require tol up uw n s c).Keeps
      (fun t => (up = false → t.params = s.params) ∧ (uw = false → t.Gamma = s.Gamma))
      (fun r => (up = false → r.1.1.params = s.params) ∧ (uw = false → r.1.1.Gamma = s.Gamma)) := by
  cases up with
  | true =>
    have hp := femParametersPhaseF_keeps (comp := comp) (require := require) (tol := tol) (n := n)
      (s := s) (c := c)
    refine ⟨fun a h => ⟨fun h => by simp at h, ?_⟩, fun e t h => ⟨fun h => by simp at h, ?_⟩⟩
    · rintro rfl
      obtain ⟨q, hq, h⟩ := Run.bind_eq_ok.1 h
      simp only [Run.ok.injEq] at h
      subst h
      exact hp.1 _ hq
    · rintro rfl
      rcases Run.bind_eq_raise.1 h with h | ⟨q, hq, h⟩
      · exact hp.2 _ _ h
      · simp at h
  | false =>
    cases uw with
    | true =>
      have hw := femWeightsPhaseF_keeps (comp := comp) (solver := solver) (con := con)
        (require := require) (tol := tol) (n := n) (s := s) (c := c)
      have he : femStepF comp solver con require tol false true n s c =
        femWeightsPhaseF comp solver con require tol n s c := rfl
      rw [he]
      exact ⟨fun a h => ⟨fun _ => hw.1 a h, fun h => by simp at h⟩,
        fun e t h => ⟨fun _ => hw.2 e t h, fun h => by simp at h⟩⟩
    | false =>
      have he : femStepF comp solver con require tol false false n s c = Run.ok ((s, c), false) := rfl
      rw [he]
      refine ⟨fun a h => ?_, fun e t h => by simp at h⟩
      simp only [Run.ok.injEq] at h
      subst h
      exact ⟨fun _ => rfl, fun _ => rfl⟩

theorem femLoopF_left {comp : FEMComp P T k K} {solver : LPSolver K}
    {con : Option (FEMConstraints (k * T + e) K)} {require : Bool} {tol : K} {up uw : Bool} :
    ∀ (is : List ℕ) (s : FEMState P T k K) (c : K) (last : Option ℕ) (tr : List K) (fl : ℕ)
      {err : PyErr} {t : FEMState P T k K},
      femLoopF comp solver con require tol up uw is s c last tr fl = Run.raise err t →
        (up = false → t.params = s.params) ∧ (uw = false → t.Gamma = s.Gamma)
  | [], s, c, last, tr, fl, err, t, h => by
    cases last with
    | none =>
      simp only [femLoopF, Run.raise.injEq] at h
      obtain ⟨-, rfl⟩ := h
      exact ⟨fun _ => rfl, fun _ => rfl⟩
    | some n => simp [femLoopF] at h
  | i :: is, s, c, last, tr, fl, err, t, h => by
    have hk := femStepF_keeps (comp := comp) (solver := solver) (con := con) (require := require)
      (tol := tol) (up := up) (uw := uw) (n := i) (s := s) (c := c)
    rw [femLoopF] at h
    rcases Run.bind_eq_raise.1 h with h | ⟨q, hq, h⟩
    · exact hk.2 _ _ h
    · obtain ⟨h1, h2⟩ := hk.1 q hq
      by_cases c1 : |q.1.2 - c| < tol
      · rw [if_pos c1] at h
        simp at h
      · rw [if_neg c1] at h
        obtain ⟨h3, h4⟩ := femLoopF_left is _ _ _ _ _ h
        exact ⟨fun h => (h3 h).trans (h1 h), fun h => (h4 h).trans (h2 h)⟩

theorem femIterateF_left {comp : FEMComp P T k K} {solver : LPSolver K}
    {con : Option (FEMConstraints (k * T + e) K)} {require : Bool} {tol : K} {m : ℕ}
    {up uw : Bool} {s t : FEMState P T k K} {err : PyErr}
    (h : femIterateF comp solver con require tol m up uw s = Run.raise err t) :
    (up = false → t.params = s.params) ∧ (uw = false → t.Gamma = s.Gamma) :=
  femLoopF_left _ (s.evaluateCost comp).1 (s.evaluateCost comp).2 none [] 0 h

/-- Where a FEM-BV-k-means fit can fail, and what is left then. -/
theorem femKMeansRunF_raise {R : Rng K} {solver : LPSolver K} {obj : FEMKMeansObj R}
    {data : Arr2 K} {args : FEMArgs K} {err : PyErr} {o : FEMKMeansObj R}
    (h : femKMeansRunF R solver obj data args = Run.raise err o) :
    let obj' := { obj with nComponents := defaultComponents obj.nComponents data.cols }
    (checkParams obj'.nComponents obj.maxIterations obj.tolerance = Py.raise err ∧ o = obj') ∨
    ∃ q, checkParams obj'.nComponents obj.maxIterations obj.tolerance = Py.ok q ∧
      ((kmeansInit R data.val q.1 args.parameters args.init obj.randomState = Py.raise err ∧
          o = obj') ∨
      ∃ theta, kmeansInit R data.val q.1 args.parameters args.init obj.randomState = Py.ok theta ∧
        ((femInitWeights R data.rows q.1 args.weights args.init theta.2 = Py.raise err ∧
            o = { obj' with randomState := theta.2, Theta := some (Arr2.of theta.1) }) ∨
        ∃ gamma, femInitWeights R data.rows q.1 args.weights args.init theta.2 = Py.ok gamma ∧
          (((maxTvConstraint obj.maxTvNorm = Py.raise err ∨
              ∃ tv, maxTvConstraint obj.maxTvNorm = Py.ok tv ∧
                femConstraints tv q.1 data.rows = Py.raise err) ∧
            o = { obj' with
              randomState := gamma.2, Theta := some (Arr2.of theta.1)
              Gamma := some (Arr2.of gamma.1) }) ∨
          ∃ tv con, maxTvConstraint obj.maxTvNorm = Py.ok tv ∧
            femConstraints tv q.1 data.rows = Py.ok con ∧
            ∃ s, femIterateF (kmeansComp q.1 data.val) solver
                (e := auxParameters tv q.1 data.rows) con obj.require q.2.2 q.2.1
                args.updateParameters args.updateWeights (femStartState data q.1 theta.1 gamma.1) =
                  Run.raise err s ∧
              o = { obj' with
                randomState := gamma.2, Theta := some (Arr2.of s.params)
                Gamma := some (Arr2.of s.Gamma) }))) := by
  intro obj'
  unfold femKMeansRunF at h
  rcases Run.bind_eq_raise.1 h with h | ⟨q, hq, h⟩
  · exact Or.inl (Run.lift_eq_raise.1 h)
  refine Or.inr ⟨q, Run.lift_eq_ok.1 hq, ?_⟩
  rcases Run.bind_eq_raise.1 h with h | ⟨theta, ht, h⟩
  · exact Or.inl (Run.lift_eq_raise.1 h)
  refine Or.inr ⟨theta, Run.lift_eq_ok.1 ht, ?_⟩
  rcases Run.bind_eq_raise.1 h with h | ⟨gamma, hg, h⟩
  · exact Or.inl (Run.lift_eq_raise.1 h)
  refine Or.inr ⟨gamma, Run.lift_eq_ok.1 hg, ?_⟩
  rcases Run.bind_eq_raise.1 h with h | ⟨tv, htv, h⟩
  · obtain ⟨h1, h2⟩ := Run.lift_eq_raise.1 h
    exact Or.inl ⟨Or.inl h1, h2⟩
  rcases Run.bind_eq_raise.1 h with h | ⟨con, hcon, h⟩
  · obtain ⟨h1, h2⟩ := Run.lift_eq_raise.1 h
    exact Or.inl ⟨Or.inr ⟨tv, Run.lift_eq_ok.1 htv, h1⟩, h2⟩
  refine Or.inr ⟨tv, con, Run.lift_eq_ok.1 htv, Run.lift_eq_ok.1 hcon, ?_⟩
  rcases Run.bind_eq_raise.1 h with h | ⟨r, hr, h⟩
  · obtain ⟨s, hs, h⟩ := Run.within_eq_raise.1 h
    exact ⟨s, hs, h⟩
  · simp at h

theorem femKMeansFitTransformF_raise {R : Rng K} {solver : LPSolver K} {obj : FEMKMeansObj R}
    {data : Arr2 K} {args : FEMArgs K} {err : PyErr} {o : FEMKMeansObj R}
    (h : femKMeansFitTransformF R solver obj data args = Run.raise err o) :
    femKMeansRunF R solver obj data args = Run.raise err o := by
  rcases Run.bind_eq_raise.1 h with h | ⟨r, hr, h⟩
  · exact h
  · simp at h

theorem femKMeansTransformF_raise {R : Rng K} {solver : LPSolver K} {obj : FEMKMeansObj R}
    {data : Arr2 K} {err : PyErr} {o : FEMKMeansObj R}
    (h : femKMeansTransformF R solver obj data = Run.raise err o) :
    femKMeansRunF R solver obj data { updateParameters := false, updateWeights := true } =
      Run.raise err o := by
  rcases Run.bind_eq_raise.1 h with h | ⟨r, hr, h⟩
  · exact h
  · simp at h

theorem Arr2.of_cast_shape {A : Arr2 K} {m n : ℕ} (hm : A.rows = m) (hn : A.cols = n) :
    Arr2.of (A.cast hm hn) = A := by
  subst hm hn
  rfl

theorem kmeansInit_is_given {R : Rng K} {T D k : ℕ} {X : Matrix (Fin T) (Fin D) K} {P : Arr2 K}
    {g : R.G} {r : Matrix (Fin k) (Fin D) K × R.G}
    (h : kmeansInit R X k (some P) (some "custom") g = Py.ok r) : Arr2.of r.1 = P := by
  unfold kmeansInit at h
  rw [if_pos rfl] at h
  obtain ⟨Theta, hT, h⟩ := Py.bind_eq_ok.1 h
  rw [← Py.ok.inj h]
  unfold kmeansCheckParameters at hT
  obtain ⟨A, hA, hT⟩ := Py.bind_eq_ok.1 hT
  rw [← checkArrayShape_ok hT]
  exact (Option.some.inj (checkArray_ok hA).1).symm

theorem femInitWeights_is_given {R : Rng K} {T k : ℕ} {W : Arr2 K} {g : R.G}
    {r : Matrix (Fin T) (Fin k) K × R.G}
    (h : femInitWeights R T k (some W) (some "custom") g = Py.ok r) : Arr2.of r.1 = W := by
  unfold femInitWeights at h
  rw [if_pos rfl] at h
  obtain ⟨G, hG, h⟩ := Py.bind_eq_ok.1 h
  rw [← Py.ok.inj h]
  unfold femCheckInitWeights at hG
  obtain ⟨A, hA, hG⟩ := Py.bind_eq_ok.1 hG
  obtain ⟨G', hG', hG⟩ := Py.bind_eq_ok.1 hG
  obtain ⟨_, -, hG⟩ := Py.bind_eq_ok.1 hG
  obtain rfl := Py.ok.inj hG
  rw [← checkArrayShape_ok hG']
  exact (Option.some.inj (checkArray_ok hA).1).symm

theorem kmeansRandom_rows {R : Rng K} {T D k : ℕ} {X : Matrix (Fin T) (Fin D) K}
    {g : R.G} {r : Matrix (Fin k) (Fin D) K × R.G} (h : kmeansRandom R X k g = Py.ok r) :
    ∃ rows : Fin k → Fin T, r.1 = fun j => X (rows j) := by
  unfold kmeansRandom at h
  by_cases c : T < k
  · rw [if_pos c] at h
    simp at h
  · rw [if_neg c] at h
    obtain ⟨rows, -, h⟩ := Py.bind_eq_ok.1 h
    rw [← Py.ok.inj h]
    exact ⟨rows, rfl⟩

end FEM

end Reor
