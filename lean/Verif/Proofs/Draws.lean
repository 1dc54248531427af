import Verif.Proofs.MTDFit
import Verif.Proofs.GPNHCROM
import Verif.Proofs.KernelAAObj
import Verif.Proofs.FEMRun
import Verif.Proofs.FEMVARX

/-!
For C98: lists of draws, and the generator after each initialisation.
-/

namespace Reor

set_option linter.unusedSectionVars false

open scoped BigOperators Matrix
open Spec

variable {K : Type} [Field K] [LinearOrder K] [IsStrictOrderedRing K]
variable {T D k p : ℕ}

/-! ### Specification -/

/-- One request to a generator. -/
inductive Draw where
  | uniform (m n : ℕ)
  | normal (m n : ℕ)
  | integer (n : ℕ)
  | choice (n k : ℕ)

/-- The generator after one request. -/
def Draw.run (R : Rng K) : Draw → R.G → R.G
  | .uniform m n, g => (R.uniform m n g).2
  | .normal m n, g => (R.randn m n g).2
  | .integer n, g => (R.randint n g).2
  | .choice n k, g => (R.choice n k g).2

/-- The generator after a list of requests. -/
def afterDraws (R : Rng K) (l : List Draw) (g : R.G) : R.G := l.foldl (fun g d => d.run R g) g

/-- What FurthestSum asks for. -/
def furthestSumDraws (n : ℕ) (kw : InitKwargs) : List Draw :=
  if kw.startIndex = none then [.integer n] else []

/-- What an initial dictionary of convex coding asks for. -/
def codingDictionaryDraws (init : Option String) (T D k : ℕ) (kw : InitKwargs) : List Draw :=
  if init = some "furthest_sum" then furthestSumDraws T kw else [.normal k D]

/-- What an initial dictionary of archetypal analysis asks for. -/
def archetypeDraws (init : Option String) (n k : ℕ) (kw : InitKwargs) : List Draw :=
  if init = some "random" then [.uniform k n] else furthestSumDraws n kw

/-- What parameters for `p` lags ask for. -/
def parameterDraws (k p : ℕ) : List Draw := .uniform 1 p :: List.replicate p (.uniform k k)

/-- The number of components asked for by `n_components`, with `d` as the default. -/
def Components (c : NumArg K) (d k : ℕ) : Prop := c = .int k ∨ c = .none ∧ k = d

/-! ### Helpers -/

theorem Components.eq {c m t : NumArg K} {d k : ℕ} {q : ℕ × ℕ × K} (hc : Components c d k)
    (h : checkParams (defaultComponents c d) m t = Py.ok q) : q.1 = k := by
  obtain ⟨-, e1, -, -, -, -⟩ := checkParams_ok h
  rcases hc with rfl | ⟨rfl, rfl⟩ <;>
    exact (Nat.cast_inj.1 (NumArg.int.inj e1)).symm

theorem afterDraws_append (R : Rng K) (l l' : List Draw) (g : R.G) :
    afterDraws R (l ++ l') g = afterDraws R l' (afterDraws R l g) := List.foldl_append

theorem rightStochastic_draws {R : Rng K} {m n : ℕ} {g : R.G} {r : Matrix (Fin m) (Fin n) K × R.G}
    (h : rightStochasticMatrix R m n g = Py.ok r) : r.2 = afterDraws R [.uniform m n] g := by
  unfold rightStochasticMatrix at h
  simp only at h
  split_ifs at h
  obtain rfl := Py.ok.inj h
  rfl

theorem leftStochastic_draws {R : Rng K} {m n : ℕ} {g : R.G} {r : Matrix (Fin m) (Fin n) K × R.G}
    (h : leftStochasticMatrix R m n g = Py.ok r) : r.2 = afterDraws R [.uniform m n] g := by
  unfold leftStochasticMatrix at h
  simp only at h
  split_ifs at h
  obtain rfl := Py.ok.inj h
  rfl

theorem furthestSumRows_draws {env : Env K} {n : ℕ} {kernel : Matrix (Fin n) (Fin n) K}
    {kw : InitKwargs} {g : env.rng.G} {r : (Fin k → Fin n) × env.rng.G}
    (h : furthestSumRows env kernel k kw g = Py.ok r) :
    r.2 = afterDraws env.rng (furthestSumDraws n kw) g := by
  unfold furthestSumRows at h
  obtain ⟨s, hs, h⟩ := Py.bind_eq_ok.1 h
  obtain ⟨d, _, h⟩ := Py.bind_eq_ok.1 h
  obtain ⟨l, _, h⟩ := Py.bind_eq_ok.1 h
  obtain ⟨rows, _, h⟩ := Py.bind_eq_ok.1 h
  obtain rfl := Py.ok.inj h
  unfold drawStart at hs
  unfold furthestSumDraws
  split at hs
  · rename_i z hz
    obtain rfl := Py.ok.inj hs
    simp [hz, afterDraws]
  · rename_i hz
    split_ifs at hs
    obtain rfl := Py.ok.inj hs
    simp [hz, afterDraws, Draw.run]

theorem gpnhInitDictionary_draws {env : Env K} {data : Matrix (Fin T) (Fin D) K}
    {init : Option String} {kw : InitKwargs} {g : env.rng.G}
    {r : Matrix (Fin k) (Fin D) K × env.rng.G}
    (h : gpnhInitDictionary env data k init kw g = Py.ok r) :
    r.2 = afterDraws env.rng (codingDictionaryDraws init T D k kw) g := by
  unfold gpnhInitDictionary at h
  simp only at h
  unfold codingDictionaryDraws
  split_ifs at h with h1 h2
  · unfold gpnhInitDictionaryRandom at h
    split_ifs at h
    obtain rfl := Py.ok.inj h
    rw [if_neg (by rintro rfl; simp at h1)]
    rfl
  · have hi : init = some "furthest_sum" := by
      cases init with
      | none => simp at h1
      | some s => exact congrArg some h2
    unfold gpnhInitDictionaryFurthestSum at h
    obtain ⟨q, hq, h⟩ := Py.bind_eq_ok.1 h
    obtain rfl := Py.ok.inj h
    rw [if_pos hi]
    exact furthestSumRows_draws hq

theorem gpnhInitWeights_draws {env : Env K} {init : Option String} {kw : InitKwargs} {g : env.rng.G}
    {r : Matrix (Fin T) (Fin k) K × env.rng.G}
    (h : gpnhInitWeights env T k init kw g = Py.ok r) :
    r.2 = afterDraws env.rng [.uniform T k] g := by
  unfold gpnhInitWeights at h
  simp only at h
  split_ifs at h
  exact rightStochastic_draws h

theorem mtdDrawTransitionMatrices_draws {R : Rng K} :
    ∀ {p : ℕ} {g : R.G} {r : (Fin p → Matrix (Fin k) (Fin k) K) × R.G},
      mtdDrawTransitionMatrices R k p g = Py.ok r →
      r.2 = afterDraws R (List.replicate p (.uniform k k)) g
  | 0, g, r, h => by
    obtain rfl := Py.ok.inj h
    rfl
  | p + 1, g, r, h => by
    unfold mtdDrawTransitionMatrices at h
    obtain ⟨A, hA, h⟩ := Py.bind_eq_ok.1 h
    obtain ⟨q, hq, h⟩ := Py.bind_eq_ok.1 h
    obtain rfl := Py.ok.inj h
    have h1 := leftStochastic_draws hA
    have h2 := mtdDrawTransitionMatrices_draws hq
    rw [h1] at h2
    rw [List.replicate_succ, ← List.singleton_append, afterDraws_append]
    exact h2

theorem parameters_draws {R : Rng K} {g : R.G} {w : (Fin p → K) × R.G}
    {r : (Fin p → Matrix (Fin k) (Fin k) K) × R.G} (hw : mtdDrawOrderWeights R p g = Py.ok w)
    (hA : mtdDrawTransitionMatrices R k p w.2 = Py.ok r) :
    r.2 = afterDraws R (parameterDraws k p) g := by
  unfold mtdDrawOrderWeights at hw
  simp only at hw
  split_ifs at hw
  obtain rfl := Py.ok.inj hw
  unfold parameterDraws
  rw [← List.singleton_append, afterDraws_append]
  exact mtdDrawTransitionMatrices_draws hA

/-- What a start of GPNH convex coding asks for: nothing if everything is supplied; only the block to
be updated if the other one is supplied; otherwise first the dictionary, then the weights. -/
def gpnhDraws (init : Option String) (T D k : ℕ) (kw : InitKwargs) (ud uw : Bool) : List Draw :=
  if init = some "custom" then []
  else (if ud = false ∧ uw = true then [] else codingDictionaryDraws init T D k kw) ++
    (if ud = true ∧ uw = false then [] else [.uniform T k])

theorem gpnhStart_draws {env : Env K} {data : Matrix (Fin T) (Fin D) K} {init : Option String}
    {dictionary weights : Option (Arr2 K)} {ud uw : Bool} {kw : InitKwargs} {g : env.rng.G}
    {start : (Matrix (Fin k) (Fin D) K × Matrix (Fin T) (Fin k) K) × env.rng.G}
    (h : gpnhStart env data k init dictionary weights ud uw kw g = Py.ok start) :
    start.2 = afterDraws env.rng (gpnhDraws init T D k kw ud uw) g := by
  unfold gpnhStart at h
  unfold gpnhDraws
  split_ifs at h with h1 h2 h3
  · obtain ⟨w, -, h⟩ := Py.bind_eq_ok.1 h
    obtain ⟨d, -, h⟩ := Py.bind_eq_ok.1 h
    obtain rfl := Py.ok.inj h
    rw [if_pos h1]
    rfl
  · obtain ⟨d, -, h⟩ := Py.bind_eq_ok.1 h
    obtain ⟨w, hw, h⟩ := Py.bind_eq_ok.1 h
    obtain rfl := Py.ok.inj h
    rw [if_neg h1, if_pos h2, if_neg (by simp [h2])]
    exact gpnhInitWeights_draws hw
  · obtain ⟨w, -, h⟩ := Py.bind_eq_ok.1 h
    obtain ⟨d, hd, h⟩ := Py.bind_eq_ok.1 h
    obtain rfl := Py.ok.inj h
    rw [if_neg h1, if_neg (by simp [h3]), if_pos h3, List.append_nil]
    exact gpnhInitDictionary_draws hd
  · unfold gpnhInitBoth at h
    obtain ⟨d, hd, h⟩ := Py.bind_eq_ok.1 h
    obtain ⟨w, hw, h⟩ := Py.bind_eq_ok.1 h
    obtain rfl := Py.ok.inj h
    rw [if_neg h1, if_neg h2, if_neg h3, afterDraws_append]
    have e1 := gpnhInitDictionary_draws hd
    have e2 := gpnhInitWeights_draws hw
    have e3 : codingDictionaryDraws (some (init.getD "random")) T D k kw =
        codingDictionaryDraws init T D k kw := by
      cases init <;> simp [codingDictionaryDraws]
    rw [e1, e3] at e2
    exact e2

/-- What a start of kernel archetypal analysis asks for. -/
def kaaDraws (init : Option String) (n k : ℕ) (kw : InitKwargs) (ud uw : Bool) : List Draw :=
  if init = some "custom" then []
  else (if ud = false ∧ uw = true then [] else archetypeDraws init n k kw) ++
    (if ud = true ∧ uw = false then [] else [.uniform n k])

theorem kaaInitDictionary_draws {env : Env K} {n : ℕ} {kernel : Matrix (Fin n) (Fin n) K}
    {init : Option String} {kw : InitKwargs} {g : env.rng.G}
    {r : Matrix (Fin k) (Fin n) K × env.rng.G}
    (h : kaaInitDictionary env kernel k init kw g = Py.ok r) :
    r.2 = afterDraws env.rng (archetypeDraws init n k kw) g := by
  unfold kaaInitDictionary at h
  simp only at h
  unfold archetypeDraws
  split_ifs at h with h1 h2
  · unfold kaaInitDictionaryFurthestSum at h
    obtain ⟨q, hq, h⟩ := Py.bind_eq_ok.1 h
    obtain rfl := Py.ok.inj h
    rw [if_neg (by rintro rfl; simp at h1)]
    exact furthestSumRows_draws hq
  · have hi : init = some "random" := by
      cases init with
      | none => simp at h1
      | some s => exact congrArg some h2
    rw [if_pos hi]
    exact rightStochastic_draws h

theorem kaaInitWeights_draws {env : Env K} {n : ℕ} {init : Option String} {kw : InitKwargs}
    {g : env.rng.G} {r : Matrix (Fin n) (Fin k) K × env.rng.G}
    (h : kaaInitWeights env n k init kw g = Py.ok r) :
    r.2 = afterDraws env.rng [.uniform n k] g := by
  unfold kaaInitWeights at h
  simp only at h
  split_ifs at h
  exact rightStochastic_draws h

theorem kaaStart_draws {env : Env K} {n : ℕ} {kernel : Matrix (Fin n) (Fin n) K}
    {init : Option String} {dictionary weights : Option (Arr2 K)} {ud uw : Bool} {kw : InitKwargs}
    {g : env.rng.G} {start : (Matrix (Fin k) (Fin n) K × Matrix (Fin n) (Fin k) K) × env.rng.G}
    (h : kaaStart env kernel k init dictionary weights ud uw kw g = Py.ok start) :
    start.2 = afterDraws env.rng (kaaDraws init n k kw ud uw) g := by
  unfold kaaStart at h
  unfold kaaDraws
  split_ifs at h with h1 h2 h3
  · obtain ⟨w, -, h⟩ := Py.bind_eq_ok.1 h
    obtain ⟨d, -, h⟩ := Py.bind_eq_ok.1 h
    obtain rfl := Py.ok.inj h
    rw [if_pos h1]
    rfl
  · obtain ⟨d, -, h⟩ := Py.bind_eq_ok.1 h
    obtain ⟨w, hw, h⟩ := Py.bind_eq_ok.1 h
    obtain rfl := Py.ok.inj h
    rw [if_neg h1, if_pos h2, if_neg (by simp [h2])]
    exact kaaInitWeights_draws hw
  · obtain ⟨w, -, h⟩ := Py.bind_eq_ok.1 h
    obtain ⟨d, hd, h⟩ := Py.bind_eq_ok.1 h
    obtain rfl := Py.ok.inj h
    rw [if_neg h1, if_neg (by simp [h3]), if_pos h3, List.append_nil]
    exact kaaInitDictionary_draws hd
  · unfold kaaInitBoth at h
    obtain ⟨d, hd, h⟩ := Py.bind_eq_ok.1 h
    obtain ⟨w, hw, h⟩ := Py.bind_eq_ok.1 h
    obtain rfl := Py.ok.inj h
    rw [if_neg h1, if_neg h2, if_neg h3, afterDraws_append]
    have e1 := kaaInitDictionary_draws hd
    have e2 := kaaInitWeights_draws hw
    have e3 : archetypeDraws (some (init.getD "furthest_sum")) n k kw =
        archetypeDraws init n k kw := by
      cases init <;> simp [archetypeDraws]
    rw [e1, e3] at e2
    exact e2

/-- What a start of MTD convex coding asks for: the blocks to be updated, in this order. -/
def mtdDraws (init : Option String) (T D k p : ℕ) (kw : InitKwargs) (fl : MTDFlags) : List Draw :=
  if init = some "custom" then []
  else (if fl.updateDictionary then codingDictionaryDraws init T D k kw else []) ++
    ((if fl.updateWeights then [.uniform T k] else []) ++
      (if fl.updateParameters then parameterDraws k p else []))

theorem mtdStart_draws {env : Env K} {data : Matrix (Fin T) (Fin D) K} {init : Option String}
    {args : MTDArgs K} {fl : MTDFlags} {kw : InitKwargs} {g : env.rng.G}
    {start : MTDPoint T D k p K × env.rng.G}
    (h : mtdStart env data k p init args fl kw g = Py.ok start) :
    start.2 = afterDraws env.rng (mtdDraws init T D k p kw fl) g := by
  unfold mtdDraws
  by_cases h1 : init = some "custom"
  · unfold mtdStart at h
    rw [if_pos h1] at h ⊢
    obtain ⟨w, -, h⟩ := Py.bind_eq_ok.1 h
    obtain ⟨d, -, h⟩ := Py.bind_eq_ok.1 h
    obtain ⟨ow, -, h⟩ := Py.bind_eq_ok.1 h
    obtain ⟨A, -, h⟩ := Py.bind_eq_ok.1 h
    obtain rfl := Py.ok.inj h
    rfl
  · obtain ⟨g1, g2, hd, hw, ha⟩ := mtdStart_parts h1 h
    have e1 : g1 = afterDraws env.rng
        (if fl.updateDictionary then codingDictionaryDraws init T D k kw else []) g := by
      unfold mtdStartDictionary at hd
      split_ifs at hd ⊢
      · exact gpnhInitDictionary_draws hd
      · obtain ⟨d, -, hd⟩ := Py.bind_eq_ok.1 hd
        exact (congrArg Prod.snd (Py.ok.inj hd)).symm
    have e2 : g2 = afterDraws env.rng (if fl.updateWeights then [.uniform T k] else []) g1 := by
      unfold mtdStartWeights at hw
      split_ifs at hw ⊢
      · exact gpnhInitWeights_draws hw
      · obtain ⟨d, -, hw⟩ := Py.bind_eq_ok.1 hw
        exact (congrArg Prod.snd (Py.ok.inj hw)).symm
    have e3 : start.2 = afterDraws env.rng
        (if fl.updateParameters then parameterDraws k p else []) g2 := by
      unfold mtdStartParameters at ha
      split_ifs at ha ⊢
      · unfold mtdInitParameters at ha
        simp only at ha
        split_ifs at ha
        unfold mtdInitParametersRandom at ha
        obtain ⟨w, hw', ha⟩ := Py.bind_eq_ok.1 ha
        obtain ⟨A, hA, ha⟩ := Py.bind_eq_ok.1 ha
        rw [← (congrArg Prod.snd (Py.ok.inj ha))]
        exact parameters_draws hw' hA
      · obtain ⟨w, -, ha⟩ := Py.bind_eq_ok.1 ha
        obtain ⟨A, -, ha⟩ := Py.bind_eq_ok.1 ha
        exact (congrArg Prod.snd (Py.ok.inj ha)).symm
    rw [if_neg h1, afterDraws_append, afterDraws_append, ← e1, ← e2, ← e3]

/-- What FEM-BV asks for: the centroids, where there are any, and the weights, each only if not
supplied. -/
def femDraws (init : Option String) (supplied : Bool) (d : Draw) : List Draw :=
  if init = some "custom" ∧ supplied = true then [] else [d]

theorem femInitWeights_draws {R : Rng K} {weights : Option (Arr2 K)} {init : Option String}
    {g : R.G} {r : Matrix (Fin T) (Fin k) K × R.G}
    (h : femInitWeights R T k weights init g = Py.ok r) :
    r.2 = afterDraws R (femDraws init weights.isSome (.uniform T k)) g := by
  unfold femInitWeights at h
  unfold femDraws
  by_cases h1 : init = some "custom"
  · rw [if_pos h1] at h
    cases weights with
    | none => simpa [h1] using rightStochastic_draws h
    | some w =>
      obtain ⟨W, -, h⟩ := Py.bind_eq_ok.1 h
      obtain rfl := Py.ok.inj h
      simp [h1, afterDraws]
  · rw [if_neg h1] at h
    simpa [h1] using rightStochastic_draws h

theorem kmeansRandom_draws {R : Rng K} {X : Matrix (Fin T) (Fin D) K} {g : R.G}
    {r : Matrix (Fin k) (Fin D) K × R.G} (h : kmeansRandom R X k g = Py.ok r) :
    r.2 = afterDraws R [.choice T k] g := by
  unfold kmeansRandom at h
  split_ifs at h
  obtain ⟨rows, -, h⟩ := Py.bind_eq_ok.1 h
  obtain rfl := Py.ok.inj h
  rfl

theorem kmeansInit_draws {R : Rng K} {X : Matrix (Fin T) (Fin D) K} {parameters : Option (Arr2 K)}
    {init : Option String} {g : R.G} {r : Matrix (Fin k) (Fin D) K × R.G}
    (h : kmeansInit R X k parameters init g = Py.ok r) :
    r.2 = afterDraws R (femDraws init parameters.isSome (.choice T k)) g := by
  unfold kmeansInit at h
  unfold femDraws
  by_cases h1 : init = some "custom"
  · rw [if_pos h1] at h
    cases parameters with
    | none => simpa [h1] using kmeansRandom_draws h
    | some w =>
      obtain ⟨W, -, h⟩ := Py.bind_eq_ok.1 h
      obtain rfl := Py.ok.inj h
      simp [h1, afterDraws]
  · rw [if_neg h1] at h
    simpa [h1] using kmeansRandom_draws h

end Reor
